import Verif.Lemmas.KrigingBuild
import Verif.Props.CSV

set_option linter.unusedSectionVars false

/-! # From the training data file to the predictions (C54, C75, C76) -/

namespace Rodeo
open Spec Mat Finset Text

/-- `setRatioValidationSamples`, if a ratio is given. -/
noncomputable def Spec.withRatio (k : Kriging ℝ) (ratio : Option ℝ) : Res (Kriging ℝ) :=
  match ratio with
  | none => .ok k
  | some v => k.setRatioValidationSamples v

/-- The settings of a new model: `setDimension`, `setLinearRegressionOn`/`Off`, `setBoxConstraints`,
`setRatioValidationSamples` (if a ratio is given), `setEpsilon`. -/
noncomputable def Spec.configure (dim : Nat) (lin : Bool) (b : Bounds ℝ) (eps : ℝ) (ratio : Option ℝ) :
    Res (Kriging ℝ) := do
  let k ← (((Kriging.new : Kriging ℝ).setDimension dim).setLinearRegression lin).setBoxConstraints b
  let k ← withRatio k ratio
  k.setEpsilon eps

/-- The settings, then `readData`, `normalizeData`, `initializeSurrogateModel`. -/
noncomputable def Spec.buildKriging (dim : Nat) (lin : Bool) (b : Bounds ℝ) (eps : ℝ)
    (ratio : Option ℝ) (file : Option Str) (perm permL : List Nat) : Kriging ℝ × Res Unit :=
  andThen (commit Kriging.new (configure dim lin b eps ratio)) fun k =>
  andThen (k.readData file perm permL) fun k =>
  andThen k.normalizeData fun k => k.init realFns

/-- What the settings of `configure` are. -/
structure Spec.Configured (k : Kriging ℝ) (dim : Nat) (lin : Bool) (b : Bounds ℝ) (eps : ℝ)
    (ratioOpt : Option ℝ) : Prop where
  config : KrigingConfig k dim b
  ratio : k.data.ratio = ratioOpt.getD 0
  usesLinear : k.usesLinear = lin
  epsilon : k.corr.base.epsilon = eps
  average : k.averageBeta0 = false
  objective : k.objective = .maximumLikelihood
  validation : k.hasValidation = ratioOpt.isSome
  iterations : k.iterations = 10000
  threads : k.threads = 1
  readWarm : k.readWarm = false
  writeWarm : k.writeWarm = false

theorem configure_ok {dim : Nat} {lin : Bool} {b : Bounds ℝ} {eps : ℝ} {ratio : Option ℝ}
    (hb : ProperBox b dim) (hdim : 0 < dim) (he : 0 ≤ eps) (he1 : eps < 1)
    (hr : ∀ v, ratio = some v → 0 ≤ v ∧ v ≤ 1) :
    ∃ k, configure dim lin b eps ratio = .ok k ∧ Configured k dim lin b eps ratio ∧
      k.corrInitialized = false := by
  have hset := hb.set
  have hsize := hb.size
  set k0 : Kriging ℝ := ((Kriging.new : Kriging ℝ).setDimension dim).setLinearRegression lin with hk0
  set L : LinearModel ℝ := if lin then { k0.linear with data := { k0.linear.data with box := b } }
    else k0.linear with hL
  set k1 : Kriging ℝ := { k0 with linear := L, data := { k0.data with box := b } } with hk1
  set k2 : Kriging ℝ := { k1 with data := { k1.data with ratio := ratio.getD 0 }
                                  hasValidation := ratio.isSome } with hk2
  set k3 : Kriging ℝ := { k2 with corr := { k2.corr with base := { k2.corr.base with epsilon := eps } } }
    with hk3
  have hbx : ∀ d : SMData ℝ, d.setBoxConstraints b = .ok { d with box := b } :=
    fun d => if_neg (by simp [hset])
  have e1 : k0.setBoxConstraints b = .ok k1 := by
    unfold Kriging.setBoxConstraints
    rw [if_neg (by simp [hset]), if_neg (show ¬ k0.dimension = 0 from by show ¬ dim = 0; omega),
      if_neg (show ¬ b.dim ≠ k0.dimension from by show ¬ b.dim ≠ dim; simp [hsize])]
    refine bind_eq (a := L) ?_ (bind_eq (hbx _) rfl)
    unfold Kriging.linearBox
    cases lin
    · rfl
    · exact bind_eq (hbx _) rfl
  have e2 : withRatio k1 ratio = .ok k2 := by
    cases ratio with
    | none => rfl
    | some v =>
      have := hr v rfl
      refine bind_eq (if_neg ?_) rfl
      rw [not_or]
      exact ⟨not_lt.2 this.1, not_lt.2 this.2⟩
  have e3 : k2.setEpsilon eps = .ok k3 := by
    unfold Kriging.setEpsilon
    rw [if_neg (not_lt.2 he)]
    refine bind_eq (if_neg ?_) rfl
    rw [not_or]
    exact ⟨not_lt.2 he, not_le.2 he1⟩
  have hrn : 0 ≤ ratio.getD 0 := by
    cases ratio with
    | none => exact le_rfl
    | some v => exact (hr v rfl).1
  refine ⟨k3, bind_eq e1 (bind_eq e2 e3), ⟨⟨rfl, ?_, ?_, ⟨he, he1⟩, fun h => by cases h⟩, rfl, rfl, rfl,
    rfl, rfl, rfl, rfl, rfl, rfl, rfl⟩, rfl⟩
  · exact ⟨rfl, rfl, rfl, Or.inr rfl, hrn, fun _ => rfl, [], hasRows_empty _⟩
  · intro hu
    have hl : lin = true := hu
    subst hl
    exact ⟨⟨rfl, rfl, rfl, Or.inl rfl, le_rfl, fun _ => rfl, [], hasRows_empty _⟩, rfl, rfl⟩

/-- A file with a readable table of `n` rows with `dim` parameters and a value. -/
structure Spec.DataFile (file : Option Str) (n dim : Nat) (F : Nat → Nat → ℝ) : Prop where
  table : ∃ A, readFromCSV file false = .ok A ∧ IsMat A n (dim + 1) F

/-- For every file, box, nugget and choice of the trend: the model is built without an exception, and
it is the Kriging model of the rows of the file, in their order. -/
theorem buildKriging_current {file : Option Str} {n dim : Nat} {F : Nat → Nat → ℝ} {b : Bounds ℝ}
    {lin : Bool} {eps : ℝ} {perm permL : List Nat} (hf : DataFile file n dim F) (hb : ProperBox b dim)
    (hdim : 0 < dim) (h99 : lin = true → dim ≤ 99) (he : 0 ≤ eps) (he1 : eps < 1)
    (hP : eps = 0 → PosDef n (krigingMatrix dim (fun _ => 1) (fun _ => 9 / 5) 0 (normalized b dim F)))
    (hp : perm.Perm (List.range n)) (hpL : permL.Perm (List.range n)) :
    ∃ k T, buildKriging dim lin b eps none file perm permL = (k, .ok ()) ∧
      CurrentModel k file n dim F b T ∧ Configured k dim lin b eps none ∧
      k.corr.theta = List.replicate dim 1 ∧ k.corr.gamma = List.replicate dim (9 / 5) := by
  obtain ⟨A, hread, hA⟩ := hf.table
  obtain ⟨k0, e0, hc, hci⟩ := configure_ok (lin := lin) (ratio := none) hb hdim he he1 (by simp)
  have hst : Kriging.startParameters k0 dim (List.replicate dim 1) (List.replicate dim (9 / 5)) := by
    unfold Kriging.startParameters
    rw [if_neg (by simp [hci])]
    exact ⟨rfl, rfl⟩
  obtain ⟨k, T, e, hcur, hsame, ht, hg⟩ := Kriging.load_current hc.config hb hdim
    (by rw [hc.usesLinear]; exact h99) hc.ratio hread hA hp hpL hst (by
      rw [hc.epsilon]
      intro h0
      refine (hP h0).congr fun i j hi hj => ?_
      unfold krigingMatrix
      congr 1
      unfold expCorr
      congr 2
      refine sum_congr rfl fun l hl => ?_
      rw [vecFun_replicate _ (mem_range.1 hl), vecFun_replicate _ (mem_range.1 hl)])
  refine ⟨k, T, andThen_commit e0 e, hcur, ⟨hcur.config, hcur.ratio, ?_, ?_, ?_, ?_, ?_, ?_, ?_, ?_, ?_⟩,
    ht, hg⟩
  · rw [hsame.usesLinear, hc.usesLinear]
  · rw [hsame.epsilon, hc.epsilon]
  · rw [hsame.average, hc.average]
  · rw [hsame.objective, hc.objective]
  · rw [hsame.validation, hc.validation]
  · rw [hsame.iterations, hc.iterations]
  · rw [hsame.threads, hc.threads]
  · rw [hsame.readWarm, hc.readWarm]
  · rw [hsame.writeWarm, hc.writeWarm]

theorem buildKriging_ok {file : Option Str} {n dim : Nat} {F : Nat → Nat → ℝ} {b : Bounds ℝ}
    {lin : Bool} {eps : ℝ} {perm permL : List Nat} (hf : DataFile file n dim F) (hb : ProperBox b dim)
    (hdim : 0 < dim) (h99 : lin = true → dim ≤ 99) (he : 0 ≤ eps) (he1 : eps < 1)
    (hP : eps = 0 → PosDef n (krigingMatrix dim (fun _ => 1) (fun _ => 9 / 5) 0 (normalized b dim F)))
    (hp : perm.Perm (List.range n)) (hpL : permL.Perm (List.range n)) :
    ∃ k T, buildKriging dim lin b eps none file perm permL = (k, .ok ()) ∧
      ModelOf k n dim (normalized b dim F) (fun i => F i dim) T ∧ TrendOf lin n dim b F T ∧
      k.averageBeta0 = false ∧ k.corr.theta = List.replicate dim 1 ∧
      k.corr.gamma = List.replicate dim (9 / 5) ∧ k.corr.base.epsilon = eps := by
  obtain ⟨k, T, e, hcur, hc, ht, hg⟩ := buildKriging_current hf hb hdim h99 he he1 hP hp hpL
  exact ⟨k, T, e, hcur.model, by rw [← hc.usesLinear]; exact hcur.trend, hc.average, ht, hg, hc.epsilon⟩

theorem replicate_ne_zero {dim : Nat} {g : ℝ} (h : g ∈ List.replicate dim (9 / 5 : ℝ)) : g ≠ 0 := by
  rw [List.eq_of_mem_replicate h]; norm_num

/-- **C54.** From the file to the predictions, for every file, box, nugget and choice of the trend: at
the parameters of row `i` the model predicts its value less the nugget times the `i`-th weight, where
the weights solve the linear system of the correlation matrix; without a nugget (and with a positive
definite correlation matrix) it predicts the value itself, with variance zero. -/
theorem C54_file {file : Option Str} {n dim : Nat} {F : Nat → Nat → ℝ} {b : Bounds ℝ}
    {lin : Bool} {eps : ℝ} {perm permL : List Nat} (hf : DataFile file n dim F) (hb : ProperBox b dim)
    (hdim : 0 < dim) (h99 : lin = true → dim ≤ 99) (he : 0 ≤ eps) (he1 : eps < 1)
    (hP : eps = 0 → PosDef n (krigingMatrix dim (fun _ => 1) (fun _ => 9 / 5) 0 (normalized b dim F)))
    (hp : perm.Perm (List.range n)) (hpL : permL.Perm (List.range n)) :
    ∃ k T w beta, buildKriging dim lin b eps none file perm permL = (k, .ok ()) ∧
      TrendOf lin n dim b F T ∧
      Solves n (corrOf k dim (normalized b dim F)) w
        (fun i => F i dim - T ((List.range dim).map (normalized b dim F i)) - beta) ∧
      (∀ i, i < n → k.interpolate realFns ((List.range dim).map (normalized b dim F i)) =
        .ok (F i dim - eps * w i)) ∧
      (eps = 0 → ∀ i, i < n →
        k.interpolateWithVariance realFns ((List.range dim).map (normalized b dim F i)) =
          .ok (F i dim, 0)) := by
  obtain ⟨k, T, e, hm, hT, -, -, hg, hk⟩ := buildKriging_ok hf hb hdim h99 he he1 hP hp hpL
  have hg0 : ∀ g ∈ k.corr.gamma, g ≠ 0 := fun g h => replicate_ne_zero (by rw [← hg]; exact h)
  obtain ⟨w, beta, h1, h2⟩ := C54_error hm hg0
  refine ⟨k, T, w, beta, e, hT, h1, ?_, ?_⟩
  · intro i hi
    rw [h2 i hi, hk]
  · intro h0 i hi
    exact (C54_exact hm hg0 (by rw [hk, h0]) hi).2

/-- **C75.** For every file, box, nugget and choice of the trend: the model gives a prediction and a
nonnegative variance at every point. -/
theorem C75_file {file : Option Str} {n dim : Nat} {F : Nat → Nat → ℝ} {b : Bounds ℝ}
    {lin : Bool} {eps : ℝ} {perm permL : List Nat} (hf : DataFile file n dim F) (hb : ProperBox b dim)
    (hdim : 0 < dim) (h99 : lin = true → dim ≤ 99) (he : 0 < eps) (he1 : eps < 1)
    (hp : perm.Perm (List.range n)) (hpL : permL.Perm (List.range n)) :
    ∃ k, buildKriging dim lin b eps none file perm permL = (k, .ok ()) ∧
      ∀ x : List ℝ, x.length = dim → ∃ f v, k.interpolateWithVariance realFns x = .ok (f, v) ∧
        k.interpolate realFns x = .ok f ∧ 0 ≤ v := by
  obtain ⟨k, T, e, hm, -⟩ := buildKriging_ok hf hb hdim h99 he.le he1 (fun h => absurd h he.ne') hp hpL
  exact ⟨k, e, fun x hx => C75_variance_nonneg hm hx⟩

/-- **C76.** For every file, box, nugget and choice of the trend, at every point: the prediction is the
trend plus the best linear unbiased predictor of the differences to the trend, and the variance is the
process variance times its mean squared error, up to `2e-9` of the process variance. -/
theorem C76_file {file : Option Str} {n dim : Nat} {F : Nat → Nat → ℝ} {b : Bounds ℝ}
    {lin : Bool} {eps : ℝ} {perm permL : List Nat} (hf : DataFile file n dim F) (hb : ProperBox b dim)
    (hdim : 0 < dim) (h99 : lin = true → dim ≤ 99) (he : 0 < eps) (he1 : eps < 1)
    (hp : perm.Perm (List.range n)) (hpL : permL.Perm (List.range n)) :
    ∃ k T, buildKriging dim lin b eps none file perm permL = (k, .ok ()) ∧ TrendOf lin n dim b F T ∧
      k.corr.theta = List.replicate dim 1 ∧ k.corr.gamma = List.replicate dim (9 / 5) ∧
      k.corr.base.epsilon = eps ∧
      ∀ x : List ℝ, x.length = dim → ∃ lam v,
        IsBLUP n (corrOf k dim (normalized b dim F)) (corrWith k dim (normalized b dim F) x) lam ∧
        k.interpolateWithVariance realFns x = .ok (T x + ∑ i ∈ range n,
          lam i * (F i dim - T ((List.range dim).map (normalized b dim F i))), v) ∧
        |v - k.sigmaSquared * predictorError n (corrOf k dim (normalized b dim F))
          (corrWith k dim (normalized b dim F) x) lam| ≤ k.sigmaSquared * (2 / 10 ^ 9) := by
  obtain ⟨k, T, e, hm, hT, ha, ht, hg, hk⟩ :=
    buildKriging_ok hf hb hdim h99 he.le he1 (fun h => absurd h he.ne') hp hpL
  exact ⟨k, T, e, hT, ht, hg, hk, fun x hx => C76_blup hm ha hx⟩

/-! The hypotheses are met: a file with the rows `0, 1` and `2, 3`, the box from 0 to 2.  Without a
nugget and without a linear trend the model predicts 1 at 0 and 3 at 2 (in normalized coordinates: at
1), with variance zero. -/

theorem posDef_two {c : ℝ} (h0 : 0 ≤ c) (h1 : c < 1) {R : Nat → Nat → ℝ} (h00 : R 0 0 = 1)
    (h11 : R 1 1 = 1) (h01 : R 0 1 = c) (h10 : R 1 0 = c) : PosDef 2 R := by
  intro x hx
  have e : quadForm 2 R x = (1 - c) * (x 0 * x 0 + x 1 * x 1) + c * ((x 0 + x 1) * (x 0 + x 1)) := by
    unfold quadForm
    simp only [sum_range_succ, sum_range_zero]
    rw [h00, h11, h01, h10]
    ring
  have hpos : 0 < x 0 * x 0 + x 1 * x 1 := by
    obtain ⟨i, hi, hxi⟩ := hx
    have : 0 < x i * x i := mul_self_pos.2 hxi
    rcases (by omega : i = 0 ∨ i = 1) with rfl | rfl
    · linarith [mul_self_nonneg (x 1)]
    · linarith [mul_self_nonneg (x 0)]
  rw [e]
  have := mul_pos (sub_pos.2 h1) hpos
  have := mul_nonneg h0 (mul_self_nonneg (x 0 + x 1))
  linarith

/-- The table of the example. -/
def Spec.exampleTable (i j : Nat) : ℝ := if j = 0 then (if i = 0 then 0 else 2) else if i = 0 then 1 else 3

theorem exampleFile : ∃ file, DataFile file 2 1 exampleTable := by
  have hA : IsMat (⟨2, 2, [0, 2, 1, 3]⟩ : Mat ℝ) 2 2 exampleTable := by
    refine isMat_iff.2 ⟨rfl, rfl, rfl, ?_⟩
    intro i j hi hj
    rcases (by omega : i = 0 ∨ i = 1) with rfl | rfl <;>
      rcases (by omega : j = 0 ∨ j = 1) with rfl | rfl <;> simp [exampleTable]
  obtain ⟨text, B, G, -, h2, h3, -, h5⟩ := C50_roundtrip hA (by norm_num) 0 [] (Or.inl rfl) (by simp)
  refine ⟨some text, B, h2, h3.congr fun i j hi hj => ?_⟩
  refine h5 i j hi hj ?_
  unfold exampleTable
  split_ifs
  · exact ⟨0, by norm_num⟩
  · exact ⟨2, by norm_num⟩
  · exact ⟨1, by norm_num⟩
  · exact ⟨3, by norm_num⟩

theorem exampleBox : ProperBox (⟨[(0 : ℝ)], [2], 1, true⟩ : Bounds ℝ) 1 :=
  ⟨rfl, rfl, rfl, rfl, fun j hj => by
    have : j = 0 := by omega
    subst this
    simp [vecFun]⟩

example : ∃ file k, buildKriging 1 false ⟨[(0 : ℝ)], [2], 1, true⟩ 0 none file [0, 1] [0, 1] = (k, .ok ()) ∧
    k.interpolateWithVariance realFns [0] = .ok (1, 0) ∧
    k.interpolateWithVariance realFns [1] = .ok (3, 0) := by
  obtain ⟨file, hf⟩ := exampleFile
  have hx0 : normalized (⟨[(0 : ℝ)], [2], 1, true⟩ : Bounds ℝ) 1 exampleTable 0 0 = 0 := by
    simp [normalized, exampleTable, vecFun]
  have hx1 : normalized (⟨[(0 : ℝ)], [2], 1, true⟩ : Bounds ℝ) 1 exampleTable 1 0 = 1 := by
    simp [normalized, exampleTable, vecFun]
  have hc : ∀ a c : Nat → ℝ, |a 0 - c 0| = 1 →
      expCorr 1 (fun _ => 1) (fun _ => 9 / 5) a c = Real.exp (-1) := by
    intro a c h
    simp [expCorr, h]
  obtain ⟨k, T, w, beta, e, -, -, -, h0⟩ := C54_file (lin := false) (eps := 0) (perm := [0, 1])
    (permL := [0, 1]) hf exampleBox (by norm_num) (by simp) le_rfl (by norm_num)
    (fun _ => posDef_two (c := Real.exp (-1)) (Real.exp_pos _).le
      (by rw [Real.exp_lt_one_iff]; norm_num) (by simp [krigingMatrix]) (by simp [krigingMatrix])
      (by simp only [krigingMatrix, zero_ne_one, if_false]; exact hc _ _ (by rw [hx0, hx1]; norm_num))
      (by simp only [krigingMatrix, one_ne_zero, if_false]; exact hc _ _ (by rw [hx0, hx1]; norm_num)))
    (by decide) (by decide)
  refine ⟨file, k, e, ?_, ?_⟩
  · have := h0 rfl 0 (by norm_num)
    simpa [hx0, exampleTable] using this
  · have := h0 rfl 1 (by norm_num)
    simpa [hx1, exampleTable] using this

/-- With a linear trend and the default nugget the hypotheses are met as well. -/
example : ∃ file k, buildKriging 1 true ⟨[(0 : ℝ)], [2], 1, true⟩ (1 / 10 ^ 12) none file [1, 0] [0, 1] =
    (k, .ok ()) ∧ ∀ x : List ℝ, x.length = 1 → ∃ f v, k.interpolateWithVariance realFns x = .ok (f, v) ∧
        k.interpolate realFns x = .ok f ∧ 0 ≤ v := by
  obtain ⟨file, hf⟩ := exampleFile
  obtain ⟨k, h⟩ := C75_file (lin := true) (eps := 1 / 10 ^ 12) (perm := [1, 0]) (permL := [0, 1]) hf
    exampleBox (by norm_num) (by norm_num) (by norm_num) (by norm_num) (by decide) (by decide)
  exact ⟨file, k, h⟩

end Rodeo
