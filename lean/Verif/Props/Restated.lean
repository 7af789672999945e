import Verif.Lemmas.Restated

/-! # C106, C107: the models do not depend on how the training data are stated -/

set_option linter.unusedSectionVars false

namespace Rodeo
open Spec Mat Finset Text

/-- `k` with its data file is what a Kriging model that was built from a file has become after some
history of new samples and trainings (also of calls that throw), and the table in the file is now `F`. -/
def Spec.LivingModel (k : Kriging ℝ) (file : Option Str) (n dim : Nat) (F : Nat → Nat → ℝ) (b : Bounds ℝ)
    (lin : Bool) (eps : ℝ) : Prop :=
  (∃ k0 text n0 F0 evs, Built k0 text n0 dim F0 b lin eps ∧ (∀ e ∈ evs, e.Valid) ∧
    historyK (k0, some text) evs = (k, file)) ∧ DataFile file n dim F

theorem Spec.LivingModel.current {k : Kriging ℝ} {file : Option Str} {n dim : Nat} {F : Nat → Nat → ℝ}
    {b : Bounds ℝ} {lin : Bool} {eps : ℝ} (h : LivingModel k file n dim F b lin eps) :
    ∃ F' T, (∀ i j, i < n → j < dim + 1 → F' i j = F i j) ∧ CurrentModel k file n dim F' b T ∧
      k.usesLinear = lin ∧ k.averageBeta0 = false ∧ k.corr.base.epsilon = eps ∧ 0 < eps := by
  obtain ⟨⟨k0, text, n0, F0, evs, hb, hv, e⟩, hf⟩ := h
  obtain ⟨text', n', G, T, h1, -, h3, h4, h5, h6, -⟩ := hb.history hv
  rw [e] at h1 h3 h4 h5 h6
  obtain ⟨A, r1, r2⟩ := hf.table
  have h1' : file = some text' := h1
  subst h1'
  have : k.data.rawData = A := by
    have := h3.table.symm.trans r1
    cases this
    rfl
  have hrow := h3.rows
  rw [this] at hrow
  obtain ⟨rfl, -, hF⟩ := isMat_unique hrow r2
  exact ⟨G, T, hF, h3, h4, h5, h6, hb.nugget⟩

/-- The general statement behind C106 and C107. -/
theorem living_restated {k k' : Kriging ℝ} {file file' : Option Str} {n dim : Nat} {F G : Nat → Nat → ℝ}
    {b c : Bounds ℝ} {lin : Bool} {eps : ℝ} (h : LivingModel k file n dim F b lin eps)
    (h' : LivingModel k' file' n dim G c lin eps) (hth : k'.corr.theta = k.corr.theta)
    (hga : k'.corr.gamma = k.corr.gamma) {s t : Nat → ℝ} {scale shift : ℝ} (ha : scale ≠ 0)
    (hl : lin = true → shift = 0) (hr : Restated n dim s t b F c G scale shift) {p q : Nat → ℝ}
    (hpq : Converted dim s t p q) :
    ∃ f v, k.interpolateWithVariance realFns (relative b dim p) = .ok (f, v) ∧
      k'.interpolateWithVariance realFns (relative c dim q) = .ok (scale * f + shift, scale ^ 2 * v) := by
  obtain ⟨F', T, hF, hm, hu, hav, he, -⟩ := h.current
  obtain ⟨G', T', hG, hm', hu', hav', he', -⟩ := h'.current
  have hr' := hr.congr hF hG
  obtain ⟨σ, hX, hy⟩ := hr'.reorder
  rw [relative_eq hr.units hr.lower hr.upper hpq]
  have ht := hm.trend
  have ht' := hm'.trend
  rw [hu] at ht
  rw [hu'] at ht'
  exact predictions_restated hm.model hm'.model hav hav' hth hga (by rw [he, he']) (permFun_reorder σ) hX
    (fun x _ => trend_restated ha hl (permFun_reorder σ) hX hy ht ht' x) hy (by simp [relative])

/-- The criterion of the training for the restated data. -/
theorem score_restated {k k' : Kriging ℝ} {file file' : Option Str} {n dim : Nat} {F G : Nat → Nat → ℝ}
    {b c : Bounds ℝ} {T T' : List ℝ → ℝ} (h : CurrentModel k file n dim F b T)
    (h' : CurrentModel k' file' n dim G c T') (hu : k'.usesLinear = k.usesLinear)
    (hav : k.averageBeta0 = false) (hav' : k'.averageBeta0 = false)
    (he : k'.corr.base.epsilon = k.corr.base.epsilon) (he0 : 0 < k.corr.base.epsilon) {s t : Nat → ℝ}
    {scale shift : ℝ} (ha : scale ≠ 0) (hl : k.usesLinear = true → shift = 0)
    (hr : Restated n dim s t b F c G scale shift) {x : List ℝ}
    (hx : InBox (Kriging.hyperLb dim) (Kriging.hyperUb dim) x) :
    ∃ J, (Kriging.score realFns .maximumLikelihood k x).2 = .ok J ∧
      ((Kriging.score realFns .maximumLikelihood k' x).2 = .ok (J + n * Real.log |scale|) ∨
        J = dblMax ∧ (Kriging.score realFns .maximumLikelihood k' x).2 = .ok dblMax) := by
  obtain ⟨σ, hX, hy⟩ := hr.reorder
  have hp := permFun_reorder σ
  have hT := trend_restated ha hl hp hX hy h.trend (by rw [← hu]; exact h'.trend)
  obtain ⟨v, hv, e⟩ := Kriging.score_value h.prepared he0 hav hx
  obtain ⟨v', hv', e'⟩ := Kriging.score_value h'.prepared (by rw [he]; exact he0) hav' hx
  rw [he] at hv' e'
  set R := krigingMatrix dim (vecFun (x.take dim)) (vecFun (x.drop dim)) k.corr.base.epsilon
    (normalized b dim F) with hR
  set R' := krigingMatrix dim (vecFun (x.take dim)) (vecFun (x.drop dim)) k.corr.base.epsilon
    (normalized c dim G) with hR'
  have hRR : ∀ i j, i < n → j < n → R' i j = R (permFun σ i) (permFun σ j) := krigingMatrix_reorder hp hX
  have hP : PosDef n R' := PosDef.of_good (Kriging.good_of_box hx) he0 (normalized c dim G)
  have hone : ∃ u', Solves n R' u' (fun _ => 1) := by
    obtain ⟨M, hM⟩ := exists_isMat n n R'
    obtain ⟨L, H, -, -, -, f4⟩ := (C48_partial isSqrt_real hM (krigingMatrix_symm _ _ _ _ _ _)).1 hP
    obtain ⟨u, -, -, hu⟩ := f4 (List.replicate n 1) (by simp)
    exact ⟨vecFun u, hu.congr fun i hi => vecFun_replicate 1 hi⟩
  have hd : ∀ i, i < n → G i dim - T' ((List.range dim).map (normalized c dim G i)) =
      scale * (F (permFun σ i) dim - T ((List.range dim).map (normalized b dim F (permFun σ i)))) + shift := by
    intro i hi
    rw [hT, hy i hi, List.map_congr_left fun j hj => hX i hi j (List.mem_range.1 hj)]
    ring
  have hvv := estimatedVariance_restated h.prepared.countPos hp hRR hP hone
    (d := fun i => F i dim - T ((List.range dim).map (normalized b dim F i))) hd hv hv'
  have h2 : 0 < scale ^ 2 := by positivity
  refine ⟨_, e, ?_⟩
  by_cases h0 : 0 < v
  · left
    rw [e', if_pos h0, if_pos (by rw [hvv]; positivity), hvv]
    unfold likelihoodLoss
    rw [det_reorder σ hRR, Real.log_mul h2.ne' h0.ne', ← sq_abs, Real.log_pow]
    congr 1
    push_cast
    ring
  · right
    refine ⟨if_neg h0, ?_⟩
    rw [e', if_neg]
    rw [hvv]
    intro h3
    exact h0 ((mul_pos_iff_of_pos_left h2).1 h3)

/-! ## C106 -/

/-- **C106.** Two Kriging models, each after its own history, whose data files hold the same samples, in
any order of the rows and in any units of the parameters and their bounds: with the same
hyperparameters, nugget and choice of the trend they predict the same values and the same variances at
the same points. -/
theorem C106_kriging {k k' : Kriging ℝ} {file file' : Option Str} {n dim : Nat} {F G : Nat → Nat → ℝ}
    {b c : Bounds ℝ} {lin : Bool} {eps : ℝ} (h : LivingModel k file n dim F b lin eps)
    (h' : LivingModel k' file' n dim G c lin eps) (hth : k'.corr.theta = k.corr.theta)
    (hga : k'.corr.gamma = k.corr.gamma) {s t : Nat → ℝ} (hr : Restated n dim s t b F c G 1 0)
    {p q : Nat → ℝ} (hpq : Converted dim s t p q) :
    ∃ f v, k.interpolateWithVariance realFns (relative b dim p) = .ok (f, v) ∧
      k'.interpolateWithVariance realFns (relative c dim q) = .ok (f, v) := by
  obtain ⟨f, v, e1, e2⟩ := living_restated h h' hth hga one_ne_zero (fun _ => rfl) hr hpq
  exact ⟨f, v, e1, by rw [e2]; simp⟩

/-- **C106.** The criterion that training minimizes is the same function of the hyperparameters. -/
theorem C106_criterion {k k' : Kriging ℝ} {file file' : Option Str} {n dim : Nat} {F G : Nat → Nat → ℝ}
    {b c : Bounds ℝ} {lin : Bool} {eps : ℝ} (h : LivingModel k file n dim F b lin eps)
    (h' : LivingModel k' file' n dim G c lin eps) {s t : Nat → ℝ} (hr : Restated n dim s t b F c G 1 0)
    {x : List ℝ} (hx : InBox (Kriging.hyperLb dim) (Kriging.hyperUb dim) x) :
    ∃ J, (Kriging.score realFns .maximumLikelihood k x).2 = .ok J ∧
      (Kriging.score realFns .maximumLikelihood k' x).2 = .ok J := by
  obtain ⟨F', T, hF, hm, hu, hav, he, h0⟩ := h.current
  obtain ⟨G', T', hG, hm', hu', hav', he', -⟩ := h'.current
  obtain ⟨J, e1, e2⟩ := score_restated hm hm' (by rw [hu, hu']) hav hav' (by rw [he, he']) (by rw [he]; exact h0)
    one_ne_zero (fun _ => rfl) (hr.congr hF hG) hx
  refine ⟨J, e1, ?_⟩
  rcases e2 with e2 | ⟨rfl, e2⟩
  · simpa using e2
  · exact e2

/-- **C106.** Training with the same random numbers and the same schedule ends in the same way on the
restated data; if it returns, it finds the same hyperparameters, and the predictions are the same. -/
theorem C106_train {k k' : Kriging ℝ} {file file' : Option Str} {n dim : Nat} {F G : Nat → Nat → ℝ}
    {b c : Bounds ℝ} {T T' : List ℝ → ℝ} (h : ReadyToTrain k file n dim F b T)
    (h' : ReadyToTrain k' file' n dim G c T') (hu : k'.usesLinear = k.usesLinear)
    (he : k'.corr.base.epsilon = k.corr.base.epsilon) (hthr : k'.threads = k.threads)
    (hit : k'.iterations = k.iterations) {s t : Nat → ℝ} (hr : Restated n dim s t b F c G 1 0)
    {E : Nat → EAEnv ℝ} (hE : ∀ i, Draws (E i)) (schedule : List Nat) (hyperFile hyperFile' : Option Str) :
    (k'.train realFns E schedule hyperFile').2 = (k.train realFns E schedule hyperFile).2 ∧
    ((k.train realFns E schedule hyperFile).2 = .ok () →
      (k'.train realFns E schedule hyperFile').1.1.corr.theta =
        (k.train realFns E schedule hyperFile).1.1.corr.theta ∧
      (k'.train realFns E schedule hyperFile').1.1.corr.gamma =
        (k.train realFns E schedule hyperFile).1.1.corr.gamma ∧
      ∀ p q, Converted dim s t p q → ∃ f v,
        (k.train realFns E schedule hyperFile).1.1.interpolateWithVariance realFns (relative b dim p) =
          .ok (f, v) ∧
        (k'.train realFns E schedule hyperFile').1.1.interpolateWithVariance realFns (relative c dim q) =
          .ok (f, v)) := by
  have hp := h.current.prepared
  have hp' := h'.current.prepared
  set k1 : Kriging ℝ := { k with iterations := k.iterations / k.threads } with hk1
  set k1' : Kriging ℝ := { k' with iterations := k'.iterations / k'.threads } with hk1'
  have hm1 : CurrentModel k1 file n dim F b T := h.current.iterations _
  have hm1' : CurrentModel k1' file' n dim G c T' := h'.current.iterations _
  have hs : ∀ x, InBox (Kriging.hyperLb dim) (Kriging.hyperUb dim) x →
      (Kriging.score realFns k1.objective k1 x).2 = (Kriging.score realFns k1'.objective k1' x).2 := by
    intro x hx
    have ho : k1.objective = .maximumLikelihood := h.likelihood.objective
    have ho' : k1'.objective = .maximumLikelihood := h'.likelihood.objective
    rw [ho, ho']
    obtain ⟨J, e1, e2⟩ := score_restated hm1 hm1' hu h.average h'.average he h.likelihood.nugget
      one_ne_zero (fun _ => rfl) hr hx
    rw [e1]
    rcases e2 with e2 | ⟨rfl, e2⟩
    · rw [e2]; simp
    · rw [e2]
  have hsearch : Kriging.searchAll realFns k1 (Kriging.generations k.iterations k.dimension)
      (k.iterations / k.threads) E schedule =
      Kriging.searchAll realFns k1' (Kriging.generations k'.iterations k'.dimension)
        (k'.iterations / k'.threads) E schedule := by
    unfold Kriging.searchAll
    rw [hit, hthr, hp.dim, hp'.dim]
    congr 1
    refine mapRes_congr fun i _ => ?_
    exact Kriging.threadSearch_congr hm1.prepared.read hm1.prepared.normalized hm1.isInitialized
      hm1'.prepared.read hm1'.prepared.normalized hm1'.isInitialized hm1.prepared.dim hm1'.prepared.dim
      hm1.prepared.dimPos (generations_pos _ _)
      (Nat.div_pos h.iterations (Nat.pos_of_ne_zero h.threads)).ne' hs (hE i)
  have o1 := Kriging.train_outcome h.current h.likelihood h.threads hE schedule hyperFile hsearch
  have o2 := Kriging.train_outcome h'.current h'.likelihood h'.threads hE schedule hyperFile' rfl
  generalize Kriging.searchAll realFns { k' with iterations := k'.iterations / k'.threads }
    (Kriging.generations k'.iterations k'.dimension) (k'.iterations / k'.threads) E schedule = r at o1 o2
  rcases o1 with ⟨e, rfl, a1⟩ | ⟨best, rfl, b1, a1⟩ | ⟨best, rfl, b1, a1, a2, a3⟩
  · rcases o2 with ⟨e', e1, a1'⟩ | ⟨_, e1, _⟩ | ⟨_, e1, _⟩
    · cases e1
      exact ⟨by rw [a1, a1'], fun h => by rw [a1] at h; cases h⟩
    · cases e1
    · cases e1
  · rcases o2 with ⟨_, e1, _⟩ | ⟨_, e1, b1', a1'⟩ | ⟨_, e1, b1', _⟩
    · cases e1
    · exact ⟨by rw [a1, a1'], fun h => by rw [a1] at h; cases h⟩
    · cases e1
      exact absurd b1 b1'
  · rcases o2 with ⟨_, e1, _⟩ | ⟨_, e1, b1', _⟩ | ⟨_, e1, b1', a1', a2', a3'⟩
    · cases e1
    · cases e1
      exact absurd b1' b1
    · cases e1
      refine ⟨by rw [a1, a1'], fun _ => ⟨by rw [a2, a2'], by rw [a3, a3'], fun p q hpq => ?_⟩⟩
      obtain ⟨c1, c2⟩ := Kriging.train_current h.current h.likelihood hE schedule hyperFile
      obtain ⟨c1', c2'⟩ := Kriging.train_current h'.current h'.likelihood hE schedule hyperFile'
      obtain ⟨σ, hX, hy⟩ := hr.reorder
      have ht := h.current.trend
      have ht' := h'.current.trend
      rw [hu] at ht'
      obtain ⟨f, v, e1, e2⟩ := predictions_restated c1.model c1'.model (c2.average.trans h.average)
        (c2'.average.trans h'.average) (by rw [a2, a2']) (by rw [a3, a3'])
        (by rw [c2.epsilon, c2'.epsilon, he]) (permFun_reorder σ) hX
        (fun x _ => trend_restated one_ne_zero (fun _ => rfl) (permFun_reorder σ) hX hy ht ht' x) hy
        (x := relative b dim p) (by simp [relative])
      refine ⟨f, v, e1, ?_⟩
      rw [relative_eq hr.units hr.lower hr.upper hpq, e2]
      simp

/-- **C106, C107.** The same for the linear regression model: it does not depend on the order of the rows
and on the units of the parameters, and it is proportional to the values. -/
theorem C106_linear {file file' : Option Str} {n dim : Nat} {F G : Nat → Nat → ℝ} {b c : Bounds ℝ}
    {perm perm' : List Nat} (hf : DataFile file n dim F) (hf' : DataFile file' n dim G)
    (hb : ProperBox b dim) (hc : ProperBox c dim) (hdim : 0 < dim) (h99 : dim ≤ 99)
    (hp : perm.Perm (List.range n)) (hp' : perm'.Perm (List.range n)) {s t : Nat → ℝ} {scale : ℝ}
    (ha : scale ≠ 0) (hr : Restated n dim s t b F c G scale 0) :
    ∃ m m', buildLinear dim b file perm = (m, .ok ()) ∧ buildLinear dim c file' perm' = (m', .ok ()) ∧
      ∀ p q, Converted dim s t p q → ∃ f, m.interpolate (relative b dim p) = .ok f ∧
        m'.interpolate (relative c dim q) = .ok (scale * f) := by
  obtain ⟨A, e1, hA⟩ := hf.table
  obtain ⟨A', e1', hA'⟩ := hf'.table
  obtain ⟨m, e2, -, w, hw, hx⟩ := C55_model e1 hA hdim h99 hb.set hb.size hb.lb hb.ub hb.lt hp
  obtain ⟨m', e2', -, w', hw', hx'⟩ := C55_model e1' hA' hdim h99 hc.set hc.size hc.lb hc.ub hc.lt hp'
  refine ⟨m, m', e2, e2', fun p q hpq => ?_⟩
  obtain ⟨σ, hX, hy⟩ := hr.reorder
  have hww := isRidge_restated ha (permFun_reorder σ) hX (fun i hi => by
    have := hy i hi
    rw [add_zero] at this
    exact this) hw hw'
  refine ⟨_, hx _ (by simp [relative]), ?_⟩
  rw [relative_eq hr.units hr.lower hr.upper hpq, hx' _ (by simp [relative]), ← affine_smul,
    affine_congr hww (fun _ _ => rfl)]

/-! ## C107 -/

/-- C107, full statement: another unit and another origin of the values changes the predictions in the
same way, and the variances by the square of the unit. -/
def C107_full : Prop :=
  ∀ (k k' : Kriging ℝ) (file file' : Option Str) (n dim : Nat) (F G : Nat → Nat → ℝ) (b c : Bounds ℝ)
    (lin : Bool) (eps : ℝ), LivingModel k file n dim F b lin eps → LivingModel k' file' n dim G c lin eps →
    k'.corr.theta = k.corr.theta → k'.corr.gamma = k.corr.gamma → ∀ (s t : Nat → ℝ) (scale shift : ℝ),
    scale ≠ 0 → Restated n dim s t b F c G scale shift → ∀ p q, Converted dim s t p q →
    ∃ f v, k.interpolateWithVariance realFns (relative b dim p) = .ok (f, v) ∧
      k'.interpolateWithVariance realFns (relative c dim q) = .ok (scale * f + shift, scale ^ 2 * v)

/-- C107 (partial): another unit of the values for all models, and another origin of the values for
models without a linear trend.  Missing: another origin with a linear trend, see `C107_false`. -/
theorem C107_partial {k k' : Kriging ℝ} {file file' : Option Str} {n dim : Nat} {F G : Nat → Nat → ℝ}
    {b c : Bounds ℝ} {lin : Bool} {eps : ℝ} (h : LivingModel k file n dim F b lin eps)
    (h' : LivingModel k' file' n dim G c lin eps) (hth : k'.corr.theta = k.corr.theta)
    (hga : k'.corr.gamma = k.corr.gamma) {s t : Nat → ℝ} {scale shift : ℝ} (ha : scale ≠ 0)
    (hl : lin = true → shift = 0) (hr : Restated n dim s t b F c G scale shift) {p q : Nat → ℝ}
    (hpq : Converted dim s t p q) :
    ∃ f v, k.interpolateWithVariance realFns (relative b dim p) = .ok (f, v) ∧
      k'.interpolateWithVariance realFns (relative c dim q) = .ok (scale * f + shift, scale ^ 2 * v) :=
  living_restated h h' hth hga ha hl hr hpq

/-- C107: the criterion of the training changes by the same constant for all hyperparameters (or is the
largest number for both data), so the same hyperparameters are the best ones. -/
theorem C107_criterion {k k' : Kriging ℝ} {file file' : Option Str} {n dim : Nat} {F G : Nat → Nat → ℝ}
    {b c : Bounds ℝ} {lin : Bool} {eps : ℝ} (h : LivingModel k file n dim F b lin eps)
    (h' : LivingModel k' file' n dim G c lin eps) {s t : Nat → ℝ} {scale shift : ℝ} (ha : scale ≠ 0)
    (hl : lin = true → shift = 0) (hr : Restated n dim s t b F c G scale shift)
    {x : List ℝ} (hx : InBox (Kriging.hyperLb dim) (Kriging.hyperUb dim) x) :
    ∃ J, (Kriging.score realFns .maximumLikelihood k x).2 = .ok J ∧
      ((Kriging.score realFns .maximumLikelihood k' x).2 = .ok (J + n * Real.log |scale|) ∨
        J = dblMax ∧ (Kriging.score realFns .maximumLikelihood k' x).2 = .ok dblMax) := by
  obtain ⟨F', T, hF, hm, hu, hav, he, h0⟩ := h.current
  obtain ⟨G', T', hG, hm', hu', hav', he', -⟩ := h'.current
  exact score_restated hm hm' (by rw [hu, hu']) hav hav' (by rw [he, he']) (by rw [he]; exact h0) ha
    (by rw [hu]; exact hl) (hr.congr hF hG) hx

/-! ## Examples -/

/-- A file with a line break at its end for a table of integers with two columns and one or two rows. -/
theorem exists_text (n : Nat) (hn : n = 1 ∨ n = 2) (F : Nat → Nat → ℝ)
    (hF : ∀ i j, ∃ z : Int, F i j = z) :
    ∃ text : Str, text.getLast? = some '\n' ∧ DataFile (some text) n 1 F := by
  obtain ⟨A, hA⟩ := exists_isMat n 2 F
  obtain ⟨text, B, G, h1, h2, h3, -, h5⟩ := C50_roundtrip hA (by omega) 0 [] (Or.inl rfl) (by simp)
  refine ⟨text, ?_, B, h2, h3.congr fun i j hi hj => ?_⟩
  · rw [saveAsCSV_ok hA 0 [] (Or.inl rfl)] at h1
    rw [← (Prod.mk.inj h1).1]
    rcases hn with rfl | rfl <;>
      simp [csvText, List.range_succ, List.getLast?_cons, List.getLast?_append]
  · obtain ⟨z, hz⟩ := hF i j
    exact h5 i j hi hj ⟨z, by rw [hz]; norm_num⟩

/-- A model that was built is a living model, with an empty history. -/
theorem Spec.Built.living {k : Kriging ℝ} {text : Str} {n dim : Nat} {F : Nat → Nat → ℝ} {b : Bounds ℝ}
    {lin : Bool} {eps : ℝ} (h : Built k text n dim F b lin eps) : LivingModel k (some text) n dim F b lin eps :=
  ⟨⟨k, text, n, F, [], h, by simp, rfl⟩, h.file⟩

/-- The same rows as in `exampleTable`, in the other order; the parameter in halves and counted from 5;
the value `v` is `scale * v + shift`. -/
def Spec.otherTable (scale shift : ℝ) (i j : Nat) : ℝ :=
  if j = 0 then (if i = 0 then 9 else 5) else if i = 0 then scale * 3 + shift else scale + shift

theorem otherTable_restated (scale shift : ℝ) : Restated 2 1 (fun _ => 2) (fun _ => 5) ⟨[(0 : ℝ)], [2], 1, true⟩
    exampleTable ⟨[(5 : ℝ)], [9], 1, true⟩ (otherTable scale shift) scale shift := by
  refine ⟨fun _ _ => by norm_num, fun j hj => ?_, fun j hj => ?_, Equiv.swap 0 1, fun i => ⟨fun j hj => ?_, ?_⟩⟩
  · obtain rfl : j = 0 := by omega
    simp [vecFun]
  · obtain rfl : j = 0 := by omega
    norm_num [vecFun]
  · obtain rfl : j = 0 := by omega
    fin_cases i <;> norm_num [otherTable, exampleTable]
  · fin_cases i <;> simp [otherTable, exampleTable]

theorem otherBox : ProperBox (⟨[(5 : ℝ)], [9], 1, true⟩ : Bounds ℝ) 1 :=
  ⟨rfl, rfl, rfl, rfl, fun j hj => by obtain rfl : j = 0 := by omega
                                      norm_num [vecFun]⟩

theorem exists_other (lin : Bool) (scale shift : Int) : ∃ k text,
    Built k text 2 1 (otherTable scale shift) ⟨[(5 : ℝ)], [9], 1, true⟩ lin (1 / 10 ^ 12) ∧
      k.corr.theta = [1] ∧ k.corr.gamma = [9 / 5] := by
  obtain ⟨text, ht, hf⟩ := exists_text 2 (Or.inr rfl) (otherTable scale shift) (by
    intro i j
    unfold otherTable
    split_ifs
    · exact ⟨9, by norm_num⟩
    · exact ⟨5, by norm_num⟩
    · exact ⟨scale * 3 + shift, by push_cast; ring⟩
    · exact ⟨scale + shift, by push_cast; ring⟩)
  obtain ⟨k, T, e, -, a, c, -⟩ := C76_file (lin := lin) (eps := 1 / 10 ^ 12) (perm := [0, 1])
    (permL := [0, 1]) hf otherBox (by norm_num) (by simp) (by norm_num) (by norm_num) (by decide) (by decide)
  exact ⟨k, text, ⟨hf, ht, otherBox, by norm_num, by simp, by norm_num, by norm_num, [0, 1], [0, 1],
    by decide, by decide, e⟩, a, c⟩

theorem exists_first (lin : Bool) : ∃ k text,
    Built k text 2 1 exampleTable ⟨[(0 : ℝ)], [2], 1, true⟩ lin (1 / 10 ^ 12) ∧
      k.corr.theta = [1] ∧ k.corr.gamma = [9 / 5] := by
  obtain ⟨text, ht, hf⟩ := exampleText
  obtain ⟨k, T, e, -, a, c, -⟩ := C76_file (lin := lin) (eps := 1 / 10 ^ 12) (perm := [0, 1])
    (permL := [0, 1]) hf exampleBox (by norm_num) (by simp) (by norm_num) (by norm_num) (by decide) (by decide)
  exact ⟨k, text, ⟨hf, ht, exampleBox, by norm_num, by simp, by norm_num, by norm_num, [0, 1], [0, 1],
    by decide, by decide, e⟩, a, c⟩

/-- The hypotheses of `C106_kriging` and `C106_criterion` are met, with and without a linear trend: the
model of the rows `0, 1` and `2, 3` in the box from 0 to 2 and the model of the rows `9, 3` and `5, 1` in
the box from 5 to 9 agree at 1 and 7. -/
example (lin : Bool) : ∃ k k' : Kriging ℝ, ∃ file file', LivingModel k file 2 1 exampleTable ⟨[0], [2], 1, true⟩ lin (1 / 10 ^ 12) ∧
    LivingModel k' file' 2 1 (otherTable 1 0) ⟨[5], [9], 1, true⟩ lin (1 / 10 ^ 12) ∧
    ∃ f v, k.interpolateWithVariance realFns (relative ⟨[0], [2], 1, true⟩ 1 fun _ => 1) = .ok (f, v) ∧
      k'.interpolateWithVariance realFns (relative ⟨[5], [9], 1, true⟩ 1 fun _ => 7) = .ok (f, v) := by
  obtain ⟨k, text, h, ht, hg⟩ := exists_first lin
  obtain ⟨k', text', h', ht', hg'⟩ := exists_other lin 1 0
  rw [Int.cast_one, Int.cast_zero] at h'
  exact ⟨k, k', _, _, h.living, h'.living, C106_kriging h.living h'.living (by rw [ht, ht']) (by rw [hg, hg'])
    (otherTable_restated 1 0) (fun _ _ => by norm_num)⟩

/-- The hypotheses of `C107_partial` and `C107_criterion` are met: values in other units (times -4), without
a linear trend also from another origin. -/
example : ∃ k k' : Kriging ℝ, ∃ file file', LivingModel k file 2 1 exampleTable ⟨[0], [2], 1, true⟩ false (1 / 10 ^ 12) ∧
    LivingModel k' file' 2 1 (otherTable (-4) 7) ⟨[5], [9], 1, true⟩ false (1 / 10 ^ 12) ∧
    ∃ f v, k.interpolateWithVariance realFns (relative ⟨[0], [2], 1, true⟩ 1 fun _ => 1) = .ok (f, v) ∧
      k'.interpolateWithVariance realFns (relative ⟨[5], [9], 1, true⟩ 1 fun _ => 7) = .ok (-4 * f + 7, (-4) ^ 2 * v) := by
  obtain ⟨k, text, h, ht, hg⟩ := exists_first false
  obtain ⟨k', text', h', ht', hg'⟩ := exists_other false (-4) 7
  push_cast at h'
  exact ⟨k, k', _, _, h.living, h'.living, C107_partial h.living h'.living (by rw [ht, ht']) (by rw [hg, hg'])
    (by norm_num) (by simp) (otherTable_restated (-4) 7) (fun _ _ => by norm_num)⟩

example : ∃ k k' : Kriging ℝ, ∃ file file', LivingModel k file 2 1 exampleTable ⟨[0], [2], 1, true⟩ true (1 / 10 ^ 12) ∧
    LivingModel k' file' 2 1 (otherTable (-4) 0) ⟨[5], [9], 1, true⟩ true (1 / 10 ^ 12) ∧
    ∃ J, (Kriging.score realFns .maximumLikelihood k (Kriging.hyperUb 1)).2 = .ok J ∧
      ((Kriging.score realFns .maximumLikelihood k' (Kriging.hyperUb 1)).2 = .ok (J + (2 : Nat) * Real.log |-4|) ∨
        J = dblMax ∧ (Kriging.score realFns .maximumLikelihood k' (Kriging.hyperUb 1)).2 = .ok dblMax) := by
  obtain ⟨k, text, h, -, -⟩ := exists_first true
  obtain ⟨k', text', h', -, -⟩ := exists_other true (-4) 0
  push_cast at h'
  refine ⟨k, k', _, _, h.living, h'.living, C107_criterion h.living h'.living
    (by norm_num) (by simp) (otherTable_restated (-4) 0) ?_⟩
  refine ⟨rfl, rfl, fun i l u v h1 h2 h3 => ?_⟩
  rcases i with _ | _ | i
  · simp [Kriging.hyperLb, Kriging.hyperUb] at h1 h2 h3
    subst h1 h2 h3
    norm_num
  · simp [Kriging.hyperLb, Kriging.hyperUb] at h1 h2 h3
    subst h1 h2 h3
    norm_num
  · simp [Kriging.hyperLb] at h1

/-- The hypotheses of `C106_train` are met. -/
example : ∃ (k k' : Kriging ℝ) (file file' : Option Str) (T T' : List ℝ → ℝ) (E : Nat → EAEnv ℝ),
    ReadyToTrain k file 2 1 exampleTable ⟨[0], [2], 1, true⟩ T ∧
    ReadyToTrain k' file' 2 1 (otherTable 1 0) ⟨[5], [9], 1, true⟩ T' ∧ k'.usesLinear = k.usesLinear ∧
    k'.corr.base.epsilon = k.corr.base.epsilon ∧ k'.threads = k.threads ∧ k'.iterations = k.iterations ∧
    ∀ i, Draws (E i) := by
  obtain ⟨text, ht, hf⟩ := exampleText
  obtain ⟨k', text', h', -, -⟩ := exists_other true 1 0
  obtain ⟨k, T, -, hcur, hc, -, -⟩ := buildKriging_current (lin := true) (eps := 1 / 10 ^ 12)
    (perm := [0, 1]) (permL := [0, 1]) hf exampleBox (by norm_num) (by simp) (by norm_num)
    (by norm_num) (by norm_num) (by decide) (by decide)
  obtain ⟨k2, T2, -, hcur2, hc2, -, -⟩ := buildKriging_current (lin := true) (eps := 1 / 10 ^ 12)
    (perm := [0, 1]) (permL := [0, 1]) h'.file h'.box (by norm_num) (by simp) (by norm_num)
    (by norm_num) (by norm_num) (by decide) (by decide)
  rw [Int.cast_one, Int.cast_zero] at hcur2
  exact ⟨k, k2, _, _, T, T2, fun _ => roundRobin (fun _ => .ok 0) 1020000,
    ⟨hcur, ⟨by rw [hc.epsilon]; norm_num, hc.validation, hc.objective, hc.readWarm⟩,
    hc.average, by rw [hc.threads]; norm_num, by rw [hc.threads, hc.iterations]; norm_num⟩,
    ⟨hcur2, ⟨by rw [hc2.epsilon]; norm_num, hc2.validation, hc2.objective, hc2.readWarm⟩,
    hc2.average, by rw [hc2.threads]; norm_num, by rw [hc2.threads, hc2.iterations]; norm_num⟩,
    by rw [hc.usesLinear, hc2.usesLinear], by rw [hc.epsilon, hc2.epsilon], by rw [hc.threads, hc2.threads],
    by rw [hc.iterations, hc2.iterations], fun _ => roundRobin_draws _ (by norm_num)⟩

/-- The hypotheses of `C106_linear` are met. -/
example : ∃ file file' : Option Str, DataFile file 2 1 exampleTable ∧ DataFile file' 2 1 (otherTable (-4) 0) ∧
    ProperBox (⟨[0], [2], 1, true⟩ : Bounds ℝ) 1 ∧ ProperBox (⟨[5], [9], 1, true⟩ : Bounds ℝ) 1 ∧
    Restated 2 1 (fun _ => 2) (fun _ => 5) ⟨[0], [2], 1, true⟩ exampleTable ⟨[5], [9], 1, true⟩ (otherTable (-4) 0) (-4) 0 := by
  obtain ⟨text, ht, hf⟩ := exampleText
  obtain ⟨k', text', h', -, -⟩ := exists_other true (-4) 0
  have := h'.file
  push_cast at this
  exact ⟨_, _, hf, this, exampleBox, otherBox, otherTable_restated (-4) 0⟩

/-! ## C107 is false in full -/

/-- A single row: the parameter is 2, the value is `y`. -/
def Spec.singleRow (y : ℝ) (_ j : Nat) : ℝ := if j = 0 then 2 else y

/-- Universal Kriging for a single row at the upper bound: the prediction at the lower bound is not the
value of the row, because of the slope that the regularized regression finds. -/
theorem single_prediction (y : Int) : ∃ (k : Kriging ℝ) (text : Str) (v : ℝ),
    Built k text 1 1 (singleRow y) ⟨[(0 : ℝ)], [2], 1, true⟩ true (1 / 10 ^ 12) ∧
    k.corr.theta = [1] ∧ k.corr.gamma = [9 / 5] ∧
    k.interpolateWithVariance realFns [0] = .ok (y - y / (2 + 1 / 10 ^ 8), v) := by
  obtain ⟨text, ht, hf⟩ := exists_text 1 (Or.inl rfl) (singleRow y) (by
    intro i j
    unfold singleRow
    split_ifs
    · exact ⟨2, by norm_num⟩
    · exact ⟨y, rfl⟩)
  obtain ⟨k, T, e, hT, a, c, -, hx⟩ := C76_file (lin := true) (eps := 1 / 10 ^ 12) (perm := [0])
    (permL := [0]) hf exampleBox (by norm_num) (by simp) (by norm_num) (by norm_num) (by decide) (by decide)
  obtain ⟨lam, v, hl, hi, -⟩ := hx [0] rfl
  refine ⟨k, text, v, ⟨hf, ht, exampleBox, by norm_num, by simp, by norm_num, by norm_num, [0], [0],
    by decide, by decide, e⟩, a, c, ?_⟩
  have hX : normalized (⟨[(0 : ℝ)], [2], 1, true⟩ : Bounds ℝ) 1 (singleRow y) 0 0 = 1 := by
    simp [normalized, singleRow, vecFun]
  unfold TrendOf at hT
  rw [if_pos rfl] at hT
  obtain ⟨w, hw, hT⟩ := hT
  have hs : IsRidge 1 1 (normalized (⟨[(0 : ℝ)], [2], 1, true⟩ : Bounds ℝ) 1 (singleRow y))
      (fun i => singleRow y i 1) (1 / 10 ^ 8) (fun _ => y / (2 + 1 / 10 ^ 8)) := by
    refine isRidge_of_normal (by norm_num) ?_
    intro i hi
    rcases (by omega : i = 0 ∨ i = 1) with rfl | rfl <;>
      norm_num [Finset.sum_range_succ, augFun, hX, singleRow] <;> ring
  have hw1 : w 1 = y / (2 + 1 / 10 ^ 8) :=
    (hs w).2 (le_antisymm (hw _).1 (hs w).1) 1 le_rfl
  have hl0 : lam 0 = 1 := by simpa [Unbiased] using hl.1
  rw [hi, hT]
  simp only [Finset.sum_range_one, hl0, hT, affine, hw1]
  simp [vecFun, singleRow, hX]
  ring

/-- C107 is false in full: with a linear trend, a row with the value 1 instead of 0 raises the prediction
at the other end of the box by about 1/2 only. -/
theorem C107_false : ¬ C107_full := by
  intro h
  obtain ⟨k, text, v, hb, ht, hg, e⟩ := single_prediction 0
  obtain ⟨k', text', v', hb', ht', hg', e'⟩ := single_prediction 1
  have hrel : relative (⟨[(0 : ℝ)], [2], 1, true⟩ : Bounds ℝ) 1 (fun _ => 0) = [0] := by
    simp [relative, vecFun]
  obtain ⟨f, u, h1, h2⟩ := h k k' _ _ 1 1 _ _ _ _ true _ hb.living hb'.living (by rw [ht, ht']) (by rw [hg, hg'])
    (fun _ => 1) (fun _ => 0) 1 1 one_ne_zero
    ⟨fun _ _ => one_pos, fun _ _ => by simp, fun _ _ => by simp, Equiv.refl _, fun i =>
      ⟨fun j hj => by obtain rfl : j = 0 := by omega
                      simp [singleRow], by simp [singleRow]⟩⟩
    (fun _ => 0) (fun _ => 0) (fun _ _ => by norm_num)
  rw [hrel, e] at h1
  rw [hrel, e'] at h2
  cases h1
  have := congrArg Prod.fst (Except.ok.inj h2)
  norm_num at this

end Rodeo
