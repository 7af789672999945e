import Verif.Lemmas.WarmStart

/-! # C111: a model that starts from saved hyperparameters -/

set_option linter.unusedSectionVars false

namespace Rodeo
open Spec Mat Finset Text

/-- The file holds the hyperparameters `th` and `ga` of a model with `dim` parameters: `dim` nonnegative
numbers followed by `dim` numbers between 0 and 2. -/
def Spec.HoldsParameters (hf : Option Str) (dim : Nat) (th ga : List ℝ) : Prop :=
  Vec.readFromCSV hf = .ok (th ++ ga) ∧ GoodParameters th ga dim

/-- The model with the two flags of the warm start as set by `setReadWarmStartFileFlag` and
`setWriteWarmStartFileFlag` (surrogate_model.cpp 65-73). -/
def Spec.withFlags (k : Kriging ℝ) (read write : Bool) : Kriging ℝ := { k with readWarm := read, writeWarm := write }

/-- `k` is the result of a training that returned, of a model of the table `F` in its data file: with or
without warm start (from a file with hyperparameters), with or without saving.  The file with the
hyperparameters is now `hf`. -/
def Spec.TrainedModel (k : Kriging ℝ) (hf : Option Str) (file : Option Str) (n dim : Nat) (F : Nat → Nat → ℝ)
    (b : Bounds ℝ) (lin : Bool) (eps : ℝ) : Prop :=
  ∃ k0 read write E schedule hf0, LivingModel k0 file n dim F b lin eps ∧ (∀ t, Draws (E t)) ∧
    (read = true → ∃ th ga, HoldsParameters hf0 dim th ga) ∧
    (withFlags k0 read write).train realFns E schedule hf0 = ((k, hf), .ok ())

/-- The two models predict the same values and the same variances at all points. -/
def Spec.SamePredictions (dim : Nat) (k k' : Kriging ℝ) : Prop :=
  ∀ x : List ℝ, x.length = dim → ∃ f v, k.interpolateWithVariance realFns x = .ok (f, v) ∧
    k'.interpolateWithVariance realFns x = .ok (f, v) ∧
    k.interpolate realFns x = .ok f ∧ k'.interpolate realFns x = .ok f

/-- C111, full statement: a model of the same data file that is started from the saved hyperparameters of
a trained model predicts what that model predicts. -/
def C111_full : Prop :=
  ∀ (k k2 k' : Kriging ℝ) (hf hf' file : Option Str) (n dim : Nat) (F : Nat → Nat → ℝ) (b : Bounds ℝ) (lin : Bool)
    (eps : ℝ) (text : Str) (E : Nat → EAEnv ℝ) (schedule : List Nat) (write : Bool),
    TrainedModel k hf file n dim F b lin eps → k.saveHyperParameters = .ok text →
    LivingModel k2 file n dim F b lin eps →
    (withFlags k2 true write).train realFns E schedule (some text) = ((k', hf'), .ok ()) → SamePredictions dim k k'

/-! ## What is known of the models -/

theorem Spec.LivingModel.likelihood {k : Kriging ℝ} {file : Option Str} {n dim : Nat} {F : Nat → Nat → ℝ}
    {b : Bounds ℝ} {lin : Bool} {eps : ℝ} (h : LivingModel k file n dim F b lin eps) : Likelihood k := by
  obtain ⟨⟨k0, text, n0, F0, evs, h, hv, e⟩, -⟩ := h
  obtain ⟨perm, permL, hp, hpL, e1⟩ := h.built
  obtain ⟨k', T, e', hcur, hc, -, -⟩ := buildKriging_current h.file h.box h.dimPos h.dim99 h.nugget.le
    h.nugget1 (fun h0 => absurd h0 h.nugget.ne') hp hpL
  rw [e1] at e'
  obtain rfl : k0 = k' := (Prod.mk.inj e').1
  have hl : Likelihood k0 := ⟨by rw [hc.epsilon]; exact h.nugget, hc.validation, hc.objective, hc.readWarm⟩
  obtain ⟨text', n', G, T', -, -, -, -, a5, -⟩ := history_inv hcur hl h.box
    (by rw [hc.usesLinear]; exact h.dim99) h.lineBreak evs hv
  rw [e] at a5
  exact hl.of_same a5

theorem Spec.CurrentModel.flags {k : Kriging ℝ} {file : Option Str} {n dim : Nat}
    {F : Nat → Nat → ℝ} {b : Bounds ℝ} {T : List ℝ → ℝ} (h : CurrentModel k file n dim F b T)
    (r w : Bool) : CurrentModel (withFlags k r w) file n dim F b T :=
  h.transfer rfl rfl rfl rfl rfl h.good
    ⟨h.model.trend, h.model.epsilon, { h.model.fitted with }⟩ { h.prepared with }

/-- A model that has been trained is a model of the table. -/
theorem Spec.TrainedModel.current {k : Kriging ℝ} {hf file : Option Str} {n dim : Nat} {F : Nat → Nat → ℝ}
    {b : Bounds ℝ} {lin : Bool} {eps : ℝ} (h : TrainedModel k hf file n dim F b lin eps) :
    ∃ F' T, (∀ i j, i < n → j < dim + 1 → F' i j = F i j) ∧ CurrentModel k file n dim F' b T ∧
      k.usesLinear = lin ∧ k.averageBeta0 = false ∧ k.corr.base.epsilon = eps ∧ 0 < eps := by
  obtain ⟨k0, r, w, E, schedule, hf0, hk, hE, hr, ht⟩ := h
  obtain ⟨F', T, hF, hc, h1, h2, h3, h4⟩ := hk.current
  have hl := hk.likelihood
  have hc' := hc.flags r w
  refine ⟨F', T, hF, ?_⟩
  cases r with
  | true =>
    obtain ⟨th, ga, e, hg⟩ := hr rfl
    have hlen : (th ++ ga).length = 2 * dim := by
      rw [List.length_append, hg.thLen, hg.gaLen]; omega
    have hg' : GoodParameters ((th ++ ga).take dim) ((th ++ ga).drop dim) dim := by
      rw [List.take_left' hg.thLen, List.drop_left' hg.thLen]
      exact hg
    have he : 0 < (withFlags k0 true w).corr.base.epsilon := by
      show 0 < k0.corr.base.epsilon
      rw [h3]; exact h4
    obtain ⟨k', e', c1, c2, -⟩ := Kriging.warm_train hc' he hl.objective rfl e (fun _ => hg') E schedule
    rw [ht] at e'
    obtain ⟨rfl, -⟩ := Prod.mk.inj (Prod.mk.inj e').1
    exact ⟨c1, c2.usesLinear.trans h1, c2.average.trans h2, c2.epsilon.trans h3, h4⟩
  | false =>
    have := Kriging.train_current hc' ⟨hl.nugget, hl.validation, hl.objective, rfl⟩ hE schedule hf0
    rw [ht] at this
    exact ⟨this.1, this.2.usesLinear.trans h1, this.2.average.trans h2, this.2.epsilon.trans h3, h4⟩

theorem permFun_one {n : Nat} : ∀ i, i < n → permFun (Equiv.refl (Fin n)) i = i := by
  intro i hi
  simp [permFun, hi]

/-- Two models of the same table with the same hyperparameters predict the same. -/
theorem same_predictions {k k' : Kriging ℝ} {file file' : Option Str} {n dim : Nat} {F F' : Nat → Nat → ℝ}
    {b : Bounds ℝ} {T T' : List ℝ → ℝ} (h : CurrentModel k file n dim F b T) (h' : CurrentModel k' file' n dim F' b T')
    (hF : ∀ i j, i < n → j < dim + 1 → F' i j = F i j) (hu : k'.usesLinear = k.usesLinear)
    (ha : k.averageBeta0 = false) (ha' : k'.averageBeta0 = false) (he : k'.corr.base.epsilon = k.corr.base.epsilon)
    (hth : k'.corr.theta = k.corr.theta) (hga : k'.corr.gamma = k.corr.gamma) : SamePredictions dim k k' := by
  intro x hx
  have hX : ∀ i, i < n → ∀ j, j < dim → normalized b dim F' i j = normalized b dim F (permFun (Equiv.refl (Fin n)) i) j := by
    intro i hi j hj
    rw [permFun_one i hi]
    unfold normalized
    rw [hF i j hi (by omega)]
  have hy : ∀ i, i < n → F' i dim = 1 * F (permFun (Equiv.refl (Fin n)) i) dim + 0 := by
    intro i hi
    rw [permFun_one i hi, hF i dim hi (by omega)]
    ring
  have ht := h.trend
  have ht' := h'.trend
  rw [hu] at ht'
  obtain ⟨f, v, e1, e2⟩ := predictions_restated h.model h'.model ha ha' hth hga he
    (permFun_reorder (Equiv.refl (Fin n))) hX
    (fun x _ => trend_restated one_ne_zero (fun _ => rfl) (permFun_reorder _) hX hy ht ht' x) hy hx
  rw [one_mul, add_zero, one_pow, one_mul] at e2
  have i1 : k.interpolate realFns x = .ok f := by
    obtain ⟨g, e3, e4⟩ := bind_ok_inv e1
    obtain ⟨_, -, e4⟩ := bind_ok_inv e4
    obtain ⟨_, -, e4⟩ := bind_ok_inv e4
    obtain ⟨_, -, e4⟩ := bind_ok_inv e4
    obtain ⟨_, -, e4⟩ := bind_ok_inv e4
    obtain ⟨_, -, e4⟩ := bind_ok_inv e4
    obtain ⟨_, -, e4⟩ := bind_ok_inv e4
    rw [e3]
    have := (Prod.mk.inj (Except.ok.inj e4)).1
    rw [this]
  have i2 : k'.interpolate realFns x = .ok f := by
    obtain ⟨g, e3, e4⟩ := bind_ok_inv e2
    obtain ⟨_, -, e4⟩ := bind_ok_inv e4
    obtain ⟨_, -, e4⟩ := bind_ok_inv e4
    obtain ⟨_, -, e4⟩ := bind_ok_inv e4
    obtain ⟨_, -, e4⟩ := bind_ok_inv e4
    obtain ⟨_, -, e4⟩ := bind_ok_inv e4
    obtain ⟨_, -, e4⟩ := bind_ok_inv e4
    rw [e3]
    have := (Prod.mk.inj (Except.ok.inj e4)).1
    rw [this]
  exact ⟨f, v, e1, e2, i1, i2⟩

/-! ## C111 -/

/-- The number `y` is `x` rounded to six significant digits: it has at most six of them, it differs from
`x` by at most five units of the seventh, and it is `x` if `x` has six digits. -/
def Spec.ToSixDigits (x y : ℝ) : Prop :=
  SigDigits 6 y ∧ |y - x| ≤ 1 / 2 / 10 ^ 5 * |x| ∧ (SigDigits 6 x → y = x)

theorem six_two : SigDigits 6 (2 : ℝ) := ⟨2, 0, by norm_num, by norm_num⟩

/-- What is in the file with the saved hyperparameters of a trained model. -/
theorem saved_holds {k : Kriging ℝ} {hf file : Option Str} {n dim : Nat} {F : Nat → Nat → ℝ} {b : Bounds ℝ}
    {lin : Bool} {eps : ℝ} (h : TrainedModel k hf file n dim F b lin eps) {text : Str}
    (ht : k.saveHyperParameters = .ok text) :
    ∃ g : ℝ → ℝ, HoldsParameters (some text) dim (k.corr.theta.map g) (k.corr.gamma.map g) ∧
      ∀ x, 0 ≤ x → ToSixDigits x (g x) := by
  obtain ⟨F1, T1, -, hc1, -⟩ := h.current
  rw [Kriging.saveHyperParameters_eq hc1.prepared.corrDim hc1.prepared.dimPos hc1.good] at ht
  obtain ⟨g, hr, hg⟩ := Vec.roundtrip _ ht
  rw [List.map_append] at hr
  refine ⟨g, ⟨hr, by simp [hc1.good.thLen], by simp [hc1.good.gaLen], ?_, ?_⟩, fun x hx =>
    ⟨((hg x).2.2.1 hx).2, (hg x).1, (hg x).2.1⟩⟩
  · intro t ht
    obtain ⟨x, hx, rfl⟩ := List.mem_map.1 ht
    exact ((hg x).2.2.1 (hc1.good.thNonneg x hx)).1
  · intro t ht
    obtain ⟨x, hx, rfl⟩ := List.mem_map.1 ht
    have hx := hc1.good.gaRange x hx
    exact ⟨((hg x).2.2.1 hx.1).1, (hg x).2.2.2 2 hx.1 hx.2 six_two⟩

/-- C111 (partial).  The hyperparameters of every trained model can be saved.  Training any other model of
the same data file with warm start from this file returns, whatever the random numbers and the threads,
leaves the file as it is, and gives the model whose hyperparameters are those of the first one rounded to
six significant digits.  If the hyperparameters have no more digits, it predicts what the first model
predicts.  Missing: hyperparameters with more digits, see `C111_false`. -/
theorem C111_partial {k k2 : Kriging ℝ} {hf file : Option Str} {n dim : Nat} {F : Nat → Nat → ℝ} {b : Bounds ℝ}
    {lin : Bool} {eps : ℝ} (h : TrainedModel k hf file n dim F b lin eps)
    (h2 : LivingModel k2 file n dim F b lin eps) (E : Nat → EAEnv ℝ) (schedule : List Nat) (write : Bool) :
    ∃ text k', k.saveHyperParameters = .ok text ∧
      (withFlags k2 true write).train realFns E schedule (some text) = ((k', some text), .ok ()) ∧
      k'.corr.theta.length = dim ∧ k'.corr.gamma.length = dim ∧
      (∀ i, i < dim → ToSixDigits (vecFun k.corr.theta i) (vecFun k'.corr.theta i) ∧
        ToSixDigits (vecFun k.corr.gamma i) (vecFun k'.corr.gamma i)) ∧
      ((∀ i, i < dim → SigDigits 6 (vecFun k.corr.theta i) ∧ SigDigits 6 (vecFun k.corr.gamma i)) →
        SamePredictions dim k k') := by
  obtain ⟨F1, T1, hF1, hc1, hu1, ha1, he1, h0⟩ := h.current
  obtain ⟨F2, T2, hF2, hc2, hu2, ha2, he2, -⟩ := h2.current
  obtain ⟨text, ht⟩ := Kriging.saveHyperParameters_ok hc1.prepared.corrDim hc1.prepared.dimPos hc1.good
  obtain ⟨g, ⟨hr, hgood⟩, hg⟩ := saved_holds h ht
  have hl1 := hc1.good.thLen
  have hl2 := hc1.good.gaLen
  have hg' : GoodParameters ((k.corr.theta.map g ++ k.corr.gamma.map g).take dim)
      ((k.corr.theta.map g ++ k.corr.gamma.map g).drop dim) dim := by
    rw [List.take_left' hgood.thLen, List.drop_left' hgood.thLen]
    exact hgood
  have he : 0 < (withFlags k2 true write).corr.base.epsilon := by
    show 0 < k2.corr.base.epsilon
    rw [he2]; exact h0
  obtain ⟨k', e', c1, c2, c3, c4⟩ := Kriging.warm_train (hc2.flags true write) he h2.likelihood.objective rfl hr
    (fun _ => hg') E schedule
  unfold Kriging.loaded at c3 c4
  rw [if_pos (by rw [List.length_append, hgood.thLen, hgood.gaLen]; omega)] at c3 c4
  have c3 : k'.corr.theta = _ := c3
  have c4 : k'.corr.gamma = _ := c4
  rw [List.take_left' hgood.thLen] at c3
  rw [List.drop_left' hgood.thLen] at c4
  have hv : ∀ (v : List ℝ) i, i < v.length → vecFun (v.map g) i = g (vecFun v i) ∧ vecFun v i ∈ v := by
    intro v i hi
    simp [vecFun, hi]
  have hsix : ∀ i, i < dim → ToSixDigits (vecFun k.corr.theta i) (vecFun k'.corr.theta i) ∧
      ToSixDigits (vecFun k.corr.gamma i) (vecFun k'.corr.gamma i) := by
    intro i hi
    rw [c3, c4]
    obtain ⟨v1, m1⟩ := hv k.corr.theta i (by omega)
    obtain ⟨v2, m2⟩ := hv k.corr.gamma i (by omega)
    rw [v1, v2]
    exact ⟨hg _ (hc1.good.thNonneg _ m1), hg _ (hc1.good.gaRange _ m2).1⟩
  refine ⟨text, k', ht, e', by rw [c3, hgood.thLen], by rw [c4, hgood.gaLen], hsix, ?_⟩
  intro hs
  have hth : k'.corr.theta = k.corr.theta := by
    rw [← Kriging.map_range_vecFun hl1, ← Kriging.map_range_vecFun (show k'.corr.theta.length = dim by
      rw [c3, hgood.thLen])]
    exact List.map_congr_left fun i hi => (hsix i (List.mem_range.1 hi)).1.2.2 (hs i (List.mem_range.1 hi)).1
  have hga : k'.corr.gamma = k.corr.gamma := by
    rw [← Kriging.map_range_vecFun hl2, ← Kriging.map_range_vecFun (show k'.corr.gamma.length = dim by
      rw [c4, hgood.gaLen])]
    exact List.map_congr_left fun i hi => (hsix i (List.mem_range.1 hi)).2.2.2 (hs i (List.mem_range.1 hi)).2
  exact same_predictions hc1 c1 (fun i j hi hj => by rw [hF2 i j hi hj, hF1 i j hi hj])
    (by rw [c2.usesLinear, hu1]; exact hu2) ha1 (c2.average.trans ha2) (by rw [c2.epsilon, he1]; exact he2) hth hga

/-- C111, saving once more changes nothing: a model that was started from saved hyperparameters, saved and
used for the start of a third model of the same data file, is reproduced exactly. -/
theorem C111_again {k k2 k3 k' : Kriging ℝ} {hf hf' file : Option Str} {n dim : Nat} {F : Nat → Nat → ℝ}
    {b : Bounds ℝ} {lin : Bool} {eps : ℝ} (h : TrainedModel k hf file n dim F b lin eps)
    (h2 : LivingModel k2 file n dim F b lin eps) (h3 : LivingModel k3 file n dim F b lin eps) {text : Str}
    (hsave : k.saveHyperParameters = .ok text) {E : Nat → EAEnv ℝ} (hE : ∀ t, Draws (E t)) {schedule : List Nat}
    {write : Bool} (ht : (withFlags k2 true write).train realFns E schedule (some text) = ((k', hf'), .ok ()))
    (E' : Nat → EAEnv ℝ) (schedule' : List Nat) (write' : Bool) :
    ∃ text' k'', k'.saveHyperParameters = .ok text' ∧
      (withFlags k3 true write').train realFns E' schedule' (some text') = ((k'', some text'), .ok ()) ∧
      SamePredictions dim k' k'' := by
  obtain ⟨text1, k1, a1, a2, a3, a4, a5, -⟩ := C111_partial h h2 E schedule write
  rw [hsave] at a1
  cases a1
  rw [ht] at a2
  obtain ⟨rfl, rfl⟩ := Prod.mk.inj (Prod.mk.inj a2).1
  have hk' : TrainedModel k' (some text) file n dim F b lin eps := by
    refine ⟨k2, true, write, E, schedule, some text, h2, hE, fun _ => ?_, ht⟩
    obtain ⟨g, hg, -⟩ := saved_holds h hsave
    exact ⟨_, _, hg⟩
  obtain ⟨text2, k4, b1, b2, -, -, -, b3⟩ := C111_partial hk' h3 E' schedule' write'
  exact ⟨text2, k4, b1, b2, b3 fun i hi => ⟨(a5 i hi).1.1, (a5 i hi).2.1⟩⟩

/-- C111, what training writes: without warm start, if the hyperparameters are to be saved, the file holds
afterwards exactly what the trained model saves; otherwise the file is as before. -/
theorem C111_written {k0 k : Kriging ℝ} {hf hf' file : Option Str} {n dim : Nat} {F : Nat → Nat → ℝ}
    {b : Bounds ℝ} {lin : Bool} {eps : ℝ} (h : LivingModel k0 file n dim F b lin eps) {E : Nat → EAEnv ℝ}
    (hE : ∀ t, Draws (E t)) {schedule : List Nat} {write : Bool}
    (ht : (withFlags k0 false write).train realFns E schedule hf = ((k, hf'), .ok ())) :
    (write = true → ∃ text, hf' = some text ∧ k.saveHyperParameters = .ok text) ∧ (write = false → hf' = hf) := by
  obtain ⟨F', T, -, hc, -⟩ := h.current
  have hl := h.likelihood
  obtain ⟨a1, a2, -⟩ := Kriging.search_train (hc.flags false write) ⟨hl.nugget, hl.validation, hl.objective, rfl⟩ hE ht
  exact ⟨a1, a2⟩

/-- C111, a file with another number of entries: training with warm start returns as if the file had been
used, but the model predicts what it predicted before. -/
theorem C111_ignored {k : Kriging ℝ} {hf file : Option Str} {n dim : Nat} {F : Nat → Nat → ℝ} {b : Bounds ℝ}
    {lin : Bool} {eps : ℝ} (h : LivingModel k file n dim F b lin eps) {w : List ℝ} (hw : Vec.readFromCSV hf = .ok w)
    (hl : w.length ≠ 2 * dim) (E : Nat → EAEnv ℝ) (schedule : List Nat) (write : Bool) :
    ∃ k', (withFlags k true write).train realFns E schedule hf = ((k', hf), .ok ()) ∧
      k'.corr.theta = k.corr.theta ∧ k'.corr.gamma = k.corr.gamma ∧ SamePredictions dim k k' := by
  obtain ⟨F1, T1, hF1, hc, hu, ha, he, h0⟩ := h.current
  have he' : 0 < (withFlags k true write).corr.base.epsilon := by
    show 0 < k.corr.base.epsilon
    rw [he]; exact h0
  obtain ⟨k', e', c1, c2, c3, c4⟩ := Kriging.warm_train (hc.flags true write) he' h.likelihood.objective rfl hw
    (fun h => absurd h hl) E schedule
  unfold Kriging.loaded at c3 c4
  rw [if_neg hl] at c3 c4
  exact ⟨k', e', c3, c4, same_predictions hc c1 (fun _ _ _ _ => rfl) c2.usesLinear ha (c2.average.trans ha)
    c2.epsilon c3 c4⟩

/-- C111, a file that is missing or cannot be read: the training throws, and model and file are as
before. -/
theorem C111_unreadable {k : Kriging ℝ} {hf file : Option Str} {n dim : Nat} {F : Nat → Nat → ℝ} {b : Bounds ℝ}
    {lin : Bool} {eps : ℝ} (h : LivingModel k file n dim F b lin eps) {e : Err}
    (hw : (Vec.readFromCSV hf : Res (List ℝ)) = .error e) (E : Nat → EAEnv ℝ) (schedule : List Nat) (write : Bool) :
    (withFlags k true write).train realFns E schedule hf = ((withFlags k true write, hf), .error e) := by
  obtain ⟨F1, T1, hF1, hc, -⟩ := h.current
  have hc := hc.flags true write
  have hd := hc.prepared.dimPos
  unfold Kriging.train
  rw [if_neg (by simp [hc.isInitialized]), if_pos (show (withFlags k true write).readWarm = true from rfl)]
  have : (withFlags k true write).loadHyperParameters hf = .error e := by
    unfold Kriging.loadHyperParameters
    rw [if_neg (by rw [hc.prepared.dim]; omega), hw]
    rfl
  rw [this]
  rfl

/-! ## The property in full fails -/

/-- The numbers of the example: 12.34567 has seven significant digits. -/
theorem seven_digits : SigDigits 8 (1234567 / 100000 : ℝ) ∧ ¬ SigDigits 6 (1234567 / 100000 : ℝ) := by
  constructor
  · exact ⟨1234567, -5, by rw [abs_of_pos (by norm_num)]; norm_num, by norm_num⟩
  · rintro ⟨k, j, h, hk⟩
    rw [abs_of_pos (by norm_num)] at h
    rcases le_or_gt (-4) j with hj | hj
    · obtain ⟨t, ht⟩ := Int.eq_ofNat_of_zero_le (by omega : 0 ≤ j + 4)
      have h1 : (1234567 : ℝ) = ((k * 10 ^ (t + 1) : Nat) : ℝ) := by
        have e : (10 : ℝ) ^ j = 10 ^ t / 10 ^ 4 := by
          rw [show j = (t : Int) - 4 by omega, zpow_sub₀ (by norm_num), zpow_natCast]
          norm_num
        rw [e] at h
        push_cast
        rw [pow_succ]
        linarith
      have h2 : 1234567 = k * 10 ^ (t + 1) := by exact_mod_cast h1
      have h3 : 10 ∣ 1234567 := ⟨k * 10 ^ t, by rw [h2, pow_succ]; ring⟩
      omega
    · obtain ⟨t, ht⟩ := Int.eq_ofNat_of_zero_le (by omega : 0 ≤ -5 - j)
      have h1 : ((1234567 * 10 ^ t : Nat) : ℝ) = (k : ℝ) := by
        have e : (10 : ℝ) ^ j = 1 / (10 ^ t * 10 ^ 5) := by
          rw [show j = -((t : Int) + 5) by omega, zpow_neg, zpow_add₀ (by norm_num), zpow_natCast]
          norm_num
        rw [e] at h
        have hp : (0 : ℝ) < 10 ^ t := by positivity
        push_cast
        field_simp at h
        linarith
      have h2 : 1234567 * 10 ^ t = k := by exact_mod_cast h1
      have h3 : 1 ≤ 10 ^ t := Nat.one_le_pow _ _ (by norm_num)
      norm_num at hk
      omega

/-- A file with two numbers of at most eight significant digits. -/
theorem exists_parameters {x y : ℝ} (hx : SigDigits 8 x) (hy : SigDigits 8 y) :
    ∃ hf, Vec.readFromCSV hf = .ok [x, y] := by
  have key : ∀ z : ℝ, SigDigits 8 z → stod (sciStr 7 z) = .ok z := by
    intro z hz
    obtain ⟨w, e, -, h⟩ := stod_sciStr 7 z
    rw [e, h hz]
  refine ⟨some (['\n'].intercalate [sciStr 7 x, sciStr 7 y]), ?_⟩
  unfold Vec.readFromCSV
  dsimp only
  rw [pieces_intercalate]
  · simp [mapRes, key x hx, key y hy]
  · intro l hl
    simp only [List.mem_cons, List.not_mem_nil, or_false] at hl
    rcases hl with rfl | rfl
    · exact ⟨fun hc => ((sciStr_chars 7 x).1 _ hc).ne.2 rfl, (sciStr_chars 7 x).2⟩
    · exact ⟨fun hc => ((sciStr_chars 7 y).1 _ hc).ne.2 rfl, (sciStr_chars 7 y).2⟩

/-- A model of two rows and a training with warm start that gives it the hyperparameters `t` and one. -/
theorem exists_trained {t : ℝ} (ht : SigDigits 8 t) (h0 : 0 ≤ t) :
    ∃ (k0 k : Kriging ℝ) (text : Str) (hf : Option Str),
      LivingModel k0 (some text) 2 1 exampleTable ⟨[0], [2], 1, true⟩ false (1 / 10 ^ 12) ∧
      TrainedModel k hf (some text) 2 1 exampleTable ⟨[0], [2], 1, true⟩ false (1 / 10 ^ 12) ∧
      k.corr.theta = [t] ∧ k.corr.gamma = [1] := by
  obtain ⟨k0, text0, hb, -, -⟩ := exists_first false
  have hk0 := hb.living
  obtain ⟨F0, T0, hF0, hc0, hu0, ha0, he0, h1⟩ := hk0.current
  obtain ⟨hf, hr⟩ := exists_parameters ht (show SigDigits 8 (1 : ℝ) from ⟨1, 0, by norm_num, by norm_num⟩)
  have hgood : GoodParameters [t] [1] 1 := by
    refine ⟨rfl, rfl, ?_, ?_⟩ <;> intro s hs <;> obtain rfl := List.mem_singleton.1 hs
    · exact h0
    · norm_num
  obtain ⟨k, e, c1, c2, c3, c4⟩ := Kriging.warm_train (hc0.flags true false) (by
    show 0 < k0.corr.base.epsilon
    rw [he0]; exact h1) hk0.likelihood.objective rfl hr (fun _ => hgood)
    (fun _ => roundRobin (fun _ => .ok 0) 1020000) []
  exact ⟨k0, k, text0, hf, hk0, ⟨k0, true, false, _, [], hf, hk0, fun _ => roundRobin_draws _ (by norm_num),
    fun _ => ⟨_, _, hr, hgood⟩, e⟩, c3, c4⟩

/-- The prediction of the model of two rows at a quarter of the box, for the exponent one. -/
theorem quarter_prediction {k : Kriging ℝ} {file : Option Str} {F : Nat → Nat → ℝ} {T : List ℝ → ℝ}
    (h : CurrentModel k file 2 1 F ⟨[(0 : ℝ)], [2], 1, true⟩ T)
    (hF : ∀ i j, i < 2 → j < 1 + 1 → F i j = exampleTable i j) (hu : k.usesLinear = false)
    (ha : k.averageBeta0 = false) {t : ℝ} (ht : k.corr.theta = [t]) (hg : k.corr.gamma = [1]) :
    ∃ v, k.interpolateWithVariance realFns [1 / 4] = .ok (2 -
      (Real.exp (-(t / 4)) - Real.exp (-(t / 4)) ^ 3) / (1 + k.corr.base.epsilon - Real.exp (-(t / 4)) ^ 4), v) := by
  obtain ⟨z, -, e⟩ := Kriging.interpolateWithVariance_ok h.model.fitted h.model.trend (x := [1 / 4]) rfl
  suffices hval : T [1 / 4] + (k.beta0 + dotp 2 (fun i => expCorr 1 (vecFun k.corr.theta) (vecFun k.corr.gamma)
      (vecFun [1 / 4]) (normalized ⟨[(0 : ℝ)], [2], 1, true⟩ 1 F i)) (vecFun k.RinvYsMinBeta)) =
      2 - (Real.exp (-(t / 4)) - Real.exp (-(t / 4)) ^ 3) /
        (1 + k.corr.base.epsilon - Real.exp (-(t / 4)) ^ 4) from ⟨_, by rw [e, hval]⟩
  have hT : ∀ x, T x = 0 := by
    have := h.trend
    unfold TrendOf at this
    rw [hu, if_neg (by simp)] at this
    exact this
  have hw := h.model.fitted.weights
  have hm := h.model.fitted.mean ha
  have hX0 : normalized (⟨[(0 : ℝ)], [2], 1, true⟩ : Bounds ℝ) 1 F 0 0 = 0 := by
    simp [normalized, hF 0 0 (by norm_num) (by norm_num), exampleTable, vecFun]
  have hX1 : normalized (⟨[(0 : ℝ)], [2], 1, true⟩ : Bounds ℝ) 1 F 1 0 = 1 := by
    simp [normalized, hF 1 0 (by norm_num) (by norm_num), exampleTable, vecFun]
  have hcorr : ∀ a c : Nat → ℝ, expCorr 1 (vecFun k.corr.theta) (vecFun k.corr.gamma) a c =
      Real.exp (-(t * |a 0 - c 0|)) := by
    intro a c
    simp [expCorr, ht, hg, vecFun]
  set u := Real.exp (-(t / 4)) with hu'
  have hr0 : Real.exp (-(t * |1 / 4 - (0 : ℝ)|)) = u := by
    rw [hu', abs_of_pos (by norm_num)]
    congr 1; ring
  have hr1 : Real.exp (-(t * |1 / 4 - (1 : ℝ)|)) = u ^ 3 := by
    rw [hu', ← Real.exp_nat_mul, abs_of_neg (by norm_num)]
    congr 1; push_cast; ring
  have hs : Real.exp (-t) = u ^ 4 := by
    rw [hu', ← Real.exp_nat_mul]
    congr 1; push_cast; ring
  have w0 := hw 0 (by norm_num)
  have w1 := hw 1 (by norm_num)
  simp only [sum_range_succ, range_zero, sum_empty, zero_add, krigingMatrix, if_true, zero_ne_one, one_ne_zero,
    if_false, hcorr, hX0, hX1, hT, sub_zero, zero_sub, abs_neg, abs_one, mul_one, hs] at w0 w1 hm
  rw [hF 0 1 (by norm_num) (by norm_num)] at w0
  rw [hF 1 1 (by norm_num) (by norm_num)] at w1
  have t0 : exampleTable 0 1 = 1 := by simp [exampleTable]
  have t1 : exampleTable 1 1 = 3 := by simp [exampleTable]
  rw [t0] at w0
  rw [t1] at w1
  simp only [dotp, sum_range_succ, range_zero, sum_empty, zero_add, hcorr, hX0, hX1, hT]
  rw [show vecFun [(1 / 4 : ℝ)] 0 = 1 / 4 from rfl, hr0, hr1]
  generalize vecFun k.RinvYsMinBeta 0 = v0 at *
  generalize vecFun k.RinvYsMinBeta 1 = v1 at *
  obtain rfl : v1 = -v0 := by linarith
  have hne : 1 + k.corr.base.epsilon - u ^ 4 ≠ 0 := by
    intro h0
    have hb : (2 : ℝ) = 0 := by linear_combination (w0 - w1) - 2 * v0 * h0
    norm_num at hb
  have hv : v0 = -1 / (1 + k.corr.base.epsilon - u ^ 4) := by
    rw [eq_div_iff hne]
    linear_combination (w0 - w1) / 2
  have hbeta : k.beta0 = 2 := by linear_combination (w0 + w1) / 2
  rw [hbeta, hv]
  field_simp
  ring

/-- C111 in full is false: a model of two rows that was trained with the hyperparameter 12.34567 is saved
with 12.3457, and the two models predict different values at a quarter of the box. -/
theorem C111_false : ¬ C111_full := by
  intro hfull
  obtain ⟨k0, k, text0, hf, hk0, htr, c3, c4⟩ := exists_trained seven_digits.1 (by norm_num)
  let E : Nat → EAEnv ℝ := fun _ => roundRobin (fun _ => .ok 0) 1020000
  have hE : ∀ t, Draws (E t) := fun _ => roundRobin_draws _ (by norm_num)
  obtain ⟨text, k', a1, a2, a3, a4, a5, -⟩ := C111_partial htr hk0 E [] false
  have hsame := hfull k k0 k' hf (some text) (some text0) 2 1 _ _ _ _ text E [] false htr a1 hk0 a2
  have htr' : TrainedModel k' (some text) (some text0) 2 1 exampleTable ⟨[(0 : ℝ)], [2], 1, true⟩ false (1 / 10 ^ 12) := by
    obtain ⟨g, hg, -⟩ := saved_holds htr a1
    exact ⟨k0, true, false, E, [], some text, hk0, hE, fun _ => ⟨_, _, hg⟩, a2⟩
  obtain ⟨F1, T1, hF1, hc1, hu1, ha1, he1, -⟩ := htr.current
  obtain ⟨F2, T2, hF2, hc2, hu2, ha2, he2, -⟩ := htr'.current
  obtain ⟨t, ht⟩ := List.length_eq_one_iff.1 a3
  obtain ⟨g, hg⟩ := List.length_eq_one_iff.1 a4
  obtain ⟨⟨b1, b2, -⟩, ⟨-, -, b3⟩⟩ := a5 0 (by norm_num)
  rw [c3, ht] at b2
  rw [c4, hg] at b3
  rw [ht] at b1
  have b1 : SigDigits 6 t := b1
  have b2 : |t - 1234567 / 100000| ≤ 1 / 2 / 10 ^ 5 * |(1234567 / 100000 : ℝ)| := b2
  have b3 : g = 1 := b3 (show SigDigits 6 (1 : ℝ) from ⟨1, 0, by norm_num, by norm_num⟩)
  subst b3
  have hne : t ≠ 1234567 / 100000 := by
    rintro rfl
    exact seven_digits.2 b1
  have ht12 : 12 ≤ t := by
    rw [abs_of_pos (a := (1234567 / 100000 : ℝ)) (by norm_num), abs_le] at b2
    linarith [b2.1]
  obtain ⟨v1, p1⟩ := quarter_prediction hc1 hF1 hu1 ha1 c3 c4
  obtain ⟨v2, p2⟩ := quarter_prediction hc2 hF2 hu2 ha2 ht hg
  obtain ⟨f, v, q1, q2, -⟩ := hsame [1 / 4] rfl
  rw [p1] at q1
  rw [p2] at q2
  have q1 := (Prod.mk.inj (Except.ok.inj q1)).1
  have q2 := (Prod.mk.inj (Except.ok.inj q2)).1
  rw [← q1, he1, he2] at q2
  have hexp : ∀ s : ℝ, 12 ≤ s → 0 < Real.exp (-(s / 4)) ∧ Real.exp (-(s / 4)) ≤ 1 / 4 := by
    intro s hs
    refine ⟨Real.exp_pos _, ?_⟩
    rw [Real.exp_neg, inv_eq_one_div]
    exact one_div_le_one_div_of_le (by norm_num) (by linarith [Real.add_one_le_exp (s / 4)])
  obtain ⟨x0, x1⟩ := hexp t ht12
  obtain ⟨y0, y1⟩ := hexp (1234567 / 100000) (by norm_num)
  have hxy : Real.exp (-(t / 4)) ≠ Real.exp (-(1234567 / 100000 / 4)) := by
    intro h
    have := Real.exp_injective h
    exact hne (by linarith)
  generalize Real.exp (-(t / 4)) = x at *
  generalize Real.exp (-(1234567 / 100000 / 4)) = y at *
  have x4 : x ^ 4 ≤ 1 / 256 := by
    have := pow_le_pow_left₀ x0.le x1 4
    norm_num at this ⊢; exact this
  have y4 : y ^ 4 ≤ 1 / 256 := by
    have := pow_le_pow_left₀ y0.le y1 4
    norm_num at this ⊢; exact this
  have dx : (1 + 1 / 10 ^ 12 - x ^ 4 : ℝ) ≠ 0 := by
    have : (0 : ℝ) < 1 + 1 / 10 ^ 12 - x ^ 4 := by linarith [show (0 : ℝ) < 1 / 10 ^ 12 by positivity]
    exact this.ne'
  have dy : (1 + 1 / 10 ^ 12 - y ^ 4 : ℝ) ≠ 0 := by
    have : (0 : ℝ) < 1 + 1 / 10 ^ 12 - y ^ 4 := by linarith [show (0 : ℝ) < 1 / 10 ^ 12 by positivity]
    exact this.ne'
  have q3 : (x - x ^ 3) / (1 + 1 / 10 ^ 12 - x ^ 4) = (y - y ^ 3) / (1 + 1 / 10 ^ 12 - y ^ 4) := by linarith
  rw [div_eq_div_iff dx dy] at q3
  have q4 : (x - y) * ((1 - x * y) * (1 - x ^ 2) * (1 - y ^ 2) +
      1 / 10 ^ 12 * (1 - x ^ 2 - x * y - y ^ 2)) = 0 := by linear_combination q3
  rcases mul_eq_zero.1 q4 with h | h
  · exact hxy (by linarith)
  · have hx2 : x ^ 2 ≤ 1 / 16 := by nlinarith
    have hy2 : y ^ 2 ≤ 1 / 16 := by nlinarith
    have hxy2 : x * y ≤ 1 / 16 := by nlinarith
    have : 0 < (1 - x * y) * (1 - x ^ 2) * (1 - y ^ 2) :=
      mul_pos (mul_pos (by linarith) (by linarith)) (by linarith)
    have : (0 : ℝ) < 1 / 10 ^ 12 * (1 - x ^ 2 - x * y - y ^ 2) := mul_pos (by positivity) (by linarith)
    linarith

/-! ## The hypotheses are met -/

/-- The models of `C111_partial` and `C111_again`: hyperparameters with few digits. -/
example : ∃ (k k' k'' : Kriging ℝ) (text text' : Str), SamePredictions 1 k k' ∧ SamePredictions 1 k' k'' ∧
    k.corr.theta = [25 / 2] ∧ k.saveHyperParameters = .ok text ∧ k'.saveHyperParameters = .ok text' := by
  obtain ⟨k0, k, text0, hf, hk0, htr, c3, c4⟩ := exists_trained (t := 25 / 2)
    ⟨125, -1, by rw [abs_of_pos (by norm_num)]; norm_num, by norm_num⟩ (by norm_num)
  let E : Nat → EAEnv ℝ := fun _ => roundRobin (fun _ => .ok 0) 1020000
  obtain ⟨text, k', a1, a2, -, -, -, a3⟩ := C111_partial htr hk0 E [] false
  obtain ⟨text', k'', b1, -, b3⟩ := C111_again htr hk0 hk0 a1 (fun _ => roundRobin_draws _ (by norm_num)) a2 E [] false
  refine ⟨k, k', k'', text, text', a3 ?_, b3, c3, a1, b1⟩
  intro i hi
  obtain rfl : i = 0 := by omega
  rw [c3, c4]
  exact ⟨⟨125, -1, by rw [show vecFun [(25 / 2 : ℝ)] 0 = 25 / 2 from rfl, abs_of_pos (by norm_num)]; norm_num, by norm_num⟩,
    ⟨1, 0, by simp [vecFun], by norm_num⟩⟩

/-- A training without warm start for `C111_written`: the values are `0` and `1e-6`, the random numbers are
fair; training returns and the file holds what the model saves. -/
example : ∃ (k0 k : Kriging ℝ) (E : Nat → EAEnv ℝ) (text text' : Str),
    LivingModel k0 (some text) 2 1 (pairTable (1 / 10 ^ 6)) ⟨[0], [2], 1, true⟩ false (1 / 10 ^ 12) ∧
    (∀ t, Draws (E t)) ∧
    (withFlags k0 false true).train realFns E [0] none = ((k, some text'), .ok ()) ∧
    k.saveHyperParameters = .ok text' := by
  have hint : ∀ z : Int, Decimals 6 (z : ℝ) := fun z => ⟨z * 10 ^ 6, by push_cast; ring⟩
  obtain ⟨A, hA⟩ := exists_isMat 2 2 (pairTable (1 / 10 ^ 6))
  obtain ⟨text, B, G, h1, h2, h3, -, h5⟩ := C50_roundtrip hA (by norm_num) 6 [] (Or.inl rfl) (by simp)
  have hf : DataFile (some text) 2 1 (pairTable (1 / 10 ^ 6)) := by
    refine ⟨B, h2, h3.congr fun i j hi hj => h5 i j hi hj ?_⟩
    unfold pairTable
    split_ifs
    · exact_mod_cast hint 0
    · exact_mod_cast hint 2
    · exact_mod_cast hint 0
    · exact ⟨1, by norm_num⟩
  have hlast : text.getLast? = some '\n' := by
    rw [saveAsCSV_ok hA 6 [] (Or.inl rfl)] at h1
    rw [← (Prod.mk.inj h1).1]
    simp [csvText, List.range_succ, List.getLast?_cons, List.getLast?_append]
  obtain ⟨k, T, e, hcur, hc, -, -⟩ := buildKriging_current (lin := false) (eps := 1 / 10 ^ 12)
    (perm := [0, 1]) (permL := [0, 1]) hf exampleBox (by norm_num) (by simp) (by norm_num)
    (by norm_num) (by norm_num) (by decide) (by decide)
  have hb : Built k text 2 1 (pairTable (1 / 10 ^ 6)) ⟨[0], [2], 1, true⟩ false (1 / 10 ^ 12) :=
    ⟨hf, hlast, exampleBox, by norm_num, by simp, by norm_num, by norm_num, [0, 1], [0, 1], by decide, by decide, e⟩
  have hT : ∀ x, T x = 0 := by
    have := hcur.trend
    rw [hc.usesLinear] at this
    simpa [TrendOf] using this
  obtain ⟨E, hE, hF⟩ := exists_fairThreads (k := withFlags k false true) hc.iterations
  have hready : ReadyToTrain (withFlags k false true) (some text) 2 1 (pairTable (1 / 10 ^ 6)) ⟨[0], [2], 1, true⟩ T :=
    ⟨hcur.flags false true, ⟨by show 0 < k.corr.base.epsilon; rw [hc.epsilon]; norm_num, hc.validation, hc.objective, rfl⟩,
      hc.average, by show k.threads ≠ 0; rw [hc.threads]; norm_num,
      by show k.threads ≤ k.iterations; rw [hc.threads, hc.iterations]; norm_num⟩
  obtain ⟨k', f', e'⟩ := C101_small hready (by
    intro c
    by_contra hc
    push Not at hc
    have h0 := hc 0 (by norm_num)
    have h1 := hc 1 (by norm_num)
    simp only [residuals, hT, pairTable] at h0 h1
    norm_num at h0 h1
    rw [← h0] at h1
    norm_num at h1) (c := 1 / 2 / 10 ^ 6) (by
    have he : (withFlags k false true).corr.base.epsilon = 1 / 10 ^ 12 := hc.epsilon
    rw [he]
    simp only [sum_range_succ, sum_range_zero, residuals, hT, pairTable]
    norm_num) hE hF (schedule := [0]) (by simp) none
  obtain ⟨text', rfl, hs⟩ := (C111_written hb.living hE e').1 rfl
  exact ⟨k, k', E, text, text', hb.living, hE, e', hs⟩

/-- Files for `C111_ignored` and `C111_unreadable`: two numbers instead of four, and no file. -/
example : (∃ (hf : Option Str) (w : List ℝ), Vec.readFromCSV hf = .ok w ∧ w.length ≠ 2 * 2) ∧
    (Vec.readFromCSV none : Res (List ℝ)) = .error .runtimeError := by
  obtain ⟨hf, h⟩ := exists_parameters (x := 1) (y := 1) ⟨1, 0, by norm_num, by norm_num⟩ ⟨1, 0, by norm_num, by norm_num⟩
  exact ⟨⟨hf, _, h, by simp⟩, rfl⟩

end Rodeo
