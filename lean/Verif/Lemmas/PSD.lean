import Mathlib.Analysis.Matrix.Order
import Mathlib.Analysis.SpecialFunctions.ContinuousFunctionalCalculus.Rpow.IntegralRepresentation
import Mathlib.Analysis.SpecialFunctions.Exponential
import Mathlib.MeasureTheory.Integral.IntegralEqImproper
import Verif.Spec.Corr

/-! # Positive semidefinite kernels

`PSK A`: the symmetric kernel `A` on a finite set has nonnegative quadratic form.  The exponential
correlation with exponents in `[0,2]` is such a kernel (Schoenberg). -/

namespace Rodeo.PSD
open Finset

variable {ι : Type} [Fintype ι]

/-- The quadratic form of a kernel. -/
def qf (A : ι → ι → ℝ) (x : ι → ℝ) : ℝ := ∑ i, ∑ j, x i * x j * A i j

/-- Positive semidefinite kernel. -/
def PSK (A : ι → ι → ℝ) : Prop := (∀ i j, A i j = A j i) ∧ ∀ x, 0 ≤ qf A x

/-- Conditionally negative definite kernel. -/
def CND (A : ι → ι → ℝ) : Prop := (∀ i j, A i j = A j i) ∧ ∀ x : ι → ℝ, ∑ i, x i = 0 → qf A x ≤ 0

theorem psk_iff (A : ι → ι → ℝ) : PSK A ↔ (Matrix.of A).PosSemidef := by
  rw [Matrix.posSemidef_iff_dotProduct_mulVec]
  have h : ∀ x : ι → ℝ, star x ⬝ᵥ (Matrix.of A).mulVec x = qf A x := by
    intro x
    simp only [dotProduct, Matrix.mulVec, Matrix.of_apply, qf, mul_sum]
    exact sum_congr rfl (fun i _ => sum_congr rfl (fun j _ => by simp; ring))
  constructor
  · rintro ⟨h1, h2⟩
    refine ⟨?_, fun x => by rw [h]; exact h2 x⟩
    ext i j
    simp [Matrix.conjTranspose_apply, h1 j i]
  · rintro ⟨h1, h2⟩
    refine ⟨fun i j => ?_, fun x => by rw [← h]; exact h2 x⟩
    have := congrFun (congrFun h1 j) i
    simpa [Matrix.conjTranspose_apply] using this

theorem PSK.mul {A B : ι → ι → ℝ} (hA : PSK A) (hB : PSK B) : PSK (fun i j => A i j * B i j) := by
  rw [psk_iff] at hA hB ⊢
  exact hA.hadamard hB

theorem PSK.scale {A : ι → ι → ℝ} (hA : PSK A) (f : ι → ℝ) : PSK (fun i j => f i * f j * A i j) := by
  refine ⟨fun i j => by beta_reduce; rw [hA.1 i j]; ring, fun x => ?_⟩
  have := hA.2 (fun i => x i * f i)
  refine this.trans_eq ?_
  exact sum_congr rfl (fun i _ => sum_congr rfl (fun j _ => by ring))

theorem psk_const {c : ℝ} (hc : 0 ≤ c) : PSK (fun _ _ : ι => c) := by
  refine ⟨fun _ _ => rfl, fun x => ?_⟩
  have : qf (fun _ _ : ι => c) x = c * (∑ i, x i) ^ 2 := by
    rw [qf, sq, sum_mul_sum, mul_sum]
    refine sum_congr rfl (fun i _ => ?_)
    rw [mul_sum]
    exact sum_congr rfl (fun j _ => by ring)
  rw [this]
  positivity

theorem psk_outer (f : ι → ℝ) : PSK (fun i j => f i * f j) := by
  have := (psk_const (ι := ι) zero_le_one).scale f
  simpa using this

theorem PSK.smul {A : ι → ι → ℝ} (hA : PSK A) {c : ℝ} (hc : 0 ≤ c) : PSK (fun i j => c * A i j) :=
  (psk_const hc).mul hA

theorem PSK.add {A B : ι → ι → ℝ} (hA : PSK A) (hB : PSK B) : PSK (fun i j => A i j + B i j) := by
  refine ⟨fun i j => by beta_reduce; rw [hA.1 i j, hB.1 i j], fun x => ?_⟩
  have : qf (fun i j => A i j + B i j) x = qf A x + qf B x := by
    simp only [qf, ← sum_add_distrib]
    exact sum_congr rfl (fun i _ => sum_congr rfl (fun j _ => by ring))
  rw [this]
  exact add_nonneg (hA.2 x) (hB.2 x)

theorem psk_diag [DecidableEq ι] {f : ι → ℝ} (hf : ∀ i, 0 ≤ f i) :
    PSK (fun i j => if i = j then f i else 0) := by
  refine ⟨fun i j => ?_, fun x => ?_⟩
  · by_cases h : i = j
    · subst h; rfl
    · beta_reduce
      rw [if_neg h, if_neg (Ne.symm h)]
  · unfold qf
    refine sum_nonneg (fun i _ => ?_)
    rw [sum_eq_single i]
    · beta_reduce
      rw [if_pos rfl]
      exact mul_nonneg (mul_self_nonneg _) (hf i)
    · intro j _ hj
      beta_reduce
      rw [if_neg (Ne.symm hj), mul_zero]
    · intro h; exact absurd (mem_univ i) h

theorem PSK.pow {A : ι → ι → ℝ} (hA : PSK A) (k : Nat) : PSK (fun i j => A i j ^ k) := by
  induction k with
  | zero => simpa using psk_const (ι := ι) zero_le_one
  | succ k ih =>
    have := ih.mul hA
    simpa [pow_succ] using this

theorem PSK.exp {A : ι → ι → ℝ} (hA : PSK A) : PSK (fun i j => Real.exp (A i j)) := by
  refine ⟨fun i j => by beta_reduce; rw [hA.1 i j], fun x => ?_⟩
  have h : HasSum (fun k : Nat => qf (fun i j => (A i j ^ k) / (k.factorial : ℝ)) x)
      (qf (fun i j => Real.exp (A i j)) x) := by
    unfold qf
    refine hasSum_sum (fun i _ => hasSum_sum (fun j _ => HasSum.mul_left _ ?_))
    rw [Real.exp_eq_exp_ℝ]
    exact NormedSpace.expSeries_div_hasSum_exp (A i j)
  refine h.nonneg (fun k => ?_)
  have := ((hA.pow k).smul (c := (k.factorial : ℝ)⁻¹) (by positivity)).2 x
  refine this.trans_eq ?_
  exact congrArg (fun B => qf B x) (by funext i j; rw [div_eq_inv_mul])

/-- The Gaussian kernel on the line. -/
theorem psk_gauss (p : ι → ℝ) {t : ℝ} (ht : 0 ≤ t) :
    PSK (fun i j => Real.exp (-(t * (p i - p j) ^ 2))) := by
  have h := (((psk_outer p).smul (c := 2 * t) (by positivity)).exp).scale
    (fun i => Real.exp (-(t * p i ^ 2)))
  refine Eq.mp (congrArg PSK ?_) h
  funext i j
  rw [← Real.exp_add, ← Real.exp_add]
  congr 1
  ring

open MeasureTheory in
/-- A kernel that is an integral of semidefinite kernels is semidefinite. -/
theorem psk_integral {μ : Measure ℝ} {A : ℝ → ι → ι → ℝ} (hA : ∀ᵐ t ∂μ, PSK (A t))
    (hs : ∀ t i j, A t i j = A t j i)
    (hi : ∀ i j, Integrable (fun t => A t i j) μ) : PSK (fun i j => ∫ t, A t i j ∂μ) := by
  refine ⟨fun i j => by simp only [hs _ i j], fun x => ?_⟩
  have : qf (fun i j => ∫ t, A t i j ∂μ) x = ∫ t, qf (A t) x ∂μ := by
    unfold qf
    rw [integral_finsetSum]
    · refine sum_congr rfl (fun i _ => ?_)
      rw [integral_finsetSum]
      · exact sum_congr rfl (fun j _ => (integral_const_mul _ _).symm)
      · exact fun j _ => (hi i j).const_mul _
    · exact fun i _ => integrable_finsetSum _ (fun j _ => (hi i j).const_mul _)
  rw [this]
  exact integral_nonneg_of_ae (hA.mono fun t ht => ht.2 x)

open MeasureTheory Set in
/-- The kernel `1 / (t + (p i - p j)^2)`. -/
theorem psk_inv (p : ι → ℝ) {t : ℝ} (ht : 0 < t) : PSK (fun i j => (t + (p i - p j) ^ 2)⁻¹) := by
  have hpos : ∀ i j, 0 < t + (p i - p j) ^ 2 := fun i j => by positivity
  have h := psk_integral (ι := ι) (μ := volume.restrict (Ioi (0 : ℝ)))
    (A := fun u i j => Real.exp (-(t + (p i - p j) ^ 2) * u)) ?_ ?_ ?_
  · refine Eq.mp (congrArg PSK ?_) h
    funext i j
    rw [integral_exp_mul_Ioi (neg_lt_zero.2 (hpos i j))]
    rw [mul_zero, Real.exp_zero, neg_div_neg_eq, one_div]
  · refine (ae_restrict_iff' measurableSet_Ioi).2 (ae_of_all _ fun u hu => ?_)
    have hg := (psk_gauss p (le_of_lt (mem_Ioi.1 hu))).smul (Real.exp_pos (-(t * u))).le
    refine Eq.mp (congrArg PSK ?_) hg
    funext i j
    rw [← Real.exp_add]
    congr 1
    ring
  · intro u i j
    congr 1
    ring
  · intro i j
    exact integrableOn_exp_mul_Ioi (neg_lt_zero.2 (hpos i j)) 0

open MeasureTheory Set in
/-- `|p i - p j| ^ g` with `0 < g < 2` is conditionally negative definite. -/
theorem cnd_rpow (p : ι → ℝ) {g : ℝ} (h0 : 0 < g) (h2 : g < 2) :
    CND (fun i j => |p i - p j| ^ g) := by
  refine ⟨fun i j => by beta_reduce; rw [abs_sub_comm], fun x hx => ?_⟩
  have hp : g / 2 ∈ Ioo (0 : ℝ) 1 := ⟨by linarith, by linarith⟩
  have e : ∀ i j, |p i - p j| ^ g = (∫ t in Ioi 0, Real.rpowIntegrand₀₁ (g / 2) t 1)⁻¹ *
      ∫ t in Ioi 0, Real.rpowIntegrand₀₁ (g / 2) t ((p i - p j) ^ 2) := by
    intro i j
    rw [← Real.rpow_eq_const_mul_integral hp (sq_nonneg _), ← sq_abs, ← Real.rpow_natCast,
      ← Real.rpow_mul (abs_nonneg _)]
    congr 1
    push_cast
    ring
  have e2 : qf (fun i j => |p i - p j| ^ g) x =
      (∫ t in Ioi 0, Real.rpowIntegrand₀₁ (g / 2) t 1)⁻¹ *
      ∫ t in Ioi 0, qf (fun i j => Real.rpowIntegrand₀₁ (g / 2) t ((p i - p j) ^ 2)) x := by
    have hint : ∀ i j, Integrable (fun t => x i * x j *
        Real.rpowIntegrand₀₁ (g / 2) t ((p i - p j) ^ 2)) (volume.restrict (Ioi 0)) :=
      fun i j => (Real.integrableOn_rpowIntegrand₀₁_Ioi hp (sq_nonneg _)).const_mul _
    unfold qf
    rw [integral_finsetSum _ (fun i _ => integrable_finsetSum _ (fun j _ => hint i j)), mul_sum]
    refine sum_congr rfl (fun i _ => ?_)
    rw [integral_finsetSum _ (fun j _ => hint i j), mul_sum]
    refine sum_congr rfl (fun j _ => ?_)
    beta_reduce
    rw [integral_const_mul, e]
    ring
  rw [e2]
  refine mul_nonpos_of_nonneg_of_nonpos (inv_nonneg.2 (Real.integral_rpowIntegrand₀₁_one_pos hp).le) ?_
  refine setIntegral_nonpos measurableSet_Ioi (fun t ht => ?_)
  have ht' : 0 < t := mem_Ioi.1 ht
  have e3 : qf (fun i j => Real.rpowIntegrand₀₁ (g / 2) t ((p i - p j) ^ 2)) x =
      t ^ (g / 2) * (t⁻¹ * (∑ i, x i) ^ 2 - qf (fun i j => (t + (p i - p j) ^ 2)⁻¹) x) := by
    unfold qf
    rw [sq, sum_mul_sum, mul_sum, ← sum_sub_distrib, mul_sum]
    refine sum_congr rfl (fun i _ => ?_)
    rw [mul_sum, ← sum_sub_distrib, mul_sum]
    refine sum_congr rfl (fun j _ => ?_)
    unfold Real.rpowIntegrand₀₁
    ring
  rw [e3, hx]
  have := (psk_inv p ht').2 x
  have h3 : 0 ≤ t ^ (g / 2) := Real.rpow_nonneg ht'.le _
  nlinarith

/-- Schoenberg: the exponential of minus a conditionally negative definite kernel. -/
theorem CND.exp_neg {d : ι → ι → ℝ} (hd : CND d) (h0 : ∀ i, d i i = 0) :
    PSK (fun i j => Real.exp (-d i j)) := by
  classical
  rcases isEmpty_or_nonempty ι with he | ⟨⟨o⟩⟩
  · exact ⟨fun i => (he.false i).elim, fun x => by simp [qf]⟩
  have hK : PSK (fun i j => d i o + d j o - d i j) := by
    refine ⟨fun i j => by beta_reduce; rw [hd.1 i j]; ring, fun x => ?_⟩
    set S := ∑ i, x i with hS
    have h1 := hd.2 (fun i => x i - if i = o then S else 0) (by
      rw [sum_sub_distrib, sum_ite_eq' univ o]
      simp [hS])
    have h2 : qf d (fun i => x i - if i = o then S else 0) =
        -qf (fun i j => d i o + d j o - d i j) x := by
      have a1 : qf d (fun i => x i - if i = o then S else 0) =
          qf d x - S * ∑ i, x i * d i o - S * ∑ j, x j * d o j + S * S * d o o := by
        unfold qf
        have : ∀ i, ∑ j, (x i - if i = o then S else 0) * (x j - if j = o then S else 0) * d i j =
            (∑ j, x i * x j * d i j) - S * (x i * d i o) -
              (if i = o then S * ∑ j, x j * d o j else 0) + (if i = o then S * S * d o o else 0) := by
          intro i
          have b1 : ∀ j, (x i - if i = o then S else 0) * (x j - if j = o then S else 0) * d i j =
              x i * x j * d i j - (if i = o then S else 0) * (x j * d i j) -
              (if j = o then S * (x i - if i = o then S else 0) * d i j else 0) := by
            intro j
            split_ifs <;> ring
          rw [sum_congr rfl (fun j _ => b1 j), sum_sub_distrib, sum_sub_distrib, ← mul_sum]
          rw [sum_ite_eq' univ o]
          simp only [mem_univ, if_true]
          by_cases hi : i = o
          · subst hi
            simp only [if_true]
            ring
          · simp only [if_neg hi]
            ring
        rw [sum_congr rfl (fun i _ => this i), sum_add_distrib, sum_sub_distrib, sum_sub_distrib,
          sum_ite_eq' univ o, sum_ite_eq' univ o, mul_sum]
        simp only [mem_univ, if_true, mul_sum]
      have a2 : qf (fun i j => d i o + d j o - d i j) x =
          S * (∑ i, x i * d i o) + S * (∑ j, x j * d j o) - qf d x := by
        unfold qf
        have : ∀ i, ∑ j, x i * x j * (d i o + d j o - d i j) =
            (x i * d i o) * S + x i * (∑ j, x j * d j o) - ∑ j, x i * x j * d i j := by
          intro i
          rw [hS, mul_sum, mul_sum, ← sum_add_distrib, ← sum_sub_distrib]
          exact sum_congr rfl (fun j _ => by ring)
        rw [sum_congr rfl (fun i _ => this i), sum_sub_distrib, sum_add_distrib, ← sum_mul,
          ← sum_mul]
        ring
      rw [a1, a2, h0 o]
      have : ∑ j, x j * d o j = ∑ j, x j * d j o := sum_congr rfl (fun j _ => by rw [hd.1 o j])
      rw [this]
      ring
    rw [h2] at h1
    linarith
  have h := hK.exp.scale (fun i => Real.exp (-d i o))
  refine Eq.mp (congrArg PSK ?_) h
  funext i j
  rw [← Real.exp_add, ← Real.exp_add]
  congr 1
  ring

/-- One factor of the exponential correlation. -/
theorem psk_factor (p : ι → ℝ) {t g : ℝ} (ht : 0 ≤ t) (h0 : 0 ≤ g) (h2 : g ≤ 2) :
    PSK (fun i j => Real.exp (-(t * |p i - p j| ^ g))) := by
  rcases eq_or_lt_of_le h0 with h0 | h0
  · subst h0
    simpa using psk_const (ι := ι) (Real.exp_pos (-t)).le
  rcases eq_or_lt_of_le h2 with h2 | h2
  · subst h2
    refine Eq.mp (congrArg PSK ?_) (psk_gauss p ht)
    funext i j
    rw [← sq_abs (p i - p j)]
    congr 3
    exact (Real.rpow_natCast _ 2).symm
  · have hd := cnd_rpow p h0 h2
    refine CND.exp_neg (d := fun i j => t * |p i - p j| ^ g) ⟨fun i j => by beta_reduce; rw [abs_sub_comm], ?_⟩ ?_
    · intro x hx
      have : qf (fun i j => t * |p i - p j| ^ g) x = t * qf (fun i j => |p i - p j| ^ g) x := by
        unfold qf
        rw [mul_sum]
        refine sum_congr rfl (fun i _ => ?_)
        rw [mul_sum]
        exact sum_congr rfl (fun j _ => by ring)
      rw [this]
      exact mul_nonpos_of_nonneg_of_nonpos ht (hd.2 x hx)
    · intro i
      simp [Real.zero_rpow h0.ne']

/-- The exponential correlation of points of any dimension. -/
theorem psk_expCorr (P : ι → Nat → ℝ) {t g : Nat → ℝ} (m : Nat) (ht : ∀ k, k < m → 0 ≤ t k)
    (hg : ∀ k, k < m → 0 ≤ g k ∧ g k ≤ 2) : PSK (fun i j => Spec.expCorr m t g (P i) (P j)) := by
  induction m with
  | zero => simpa [Spec.expCorr] using psk_const (ι := ι) zero_le_one
  | succ m ih =>
    have h1 := ih (fun k hk => ht k (by omega)) (fun k hk => hg k (by omega))
    have h2 := psk_factor (fun i => P i m) (ht m (by omega)) (hg m (by omega)).1 (hg m (by omega)).2
    refine Eq.mp (congrArg PSK ?_) (h1.mul h2)
    funext i j
    unfold Spec.expCorr
    rw [← Real.exp_add, sum_range_succ]
    congr 1
    ring

end Rodeo.PSD
