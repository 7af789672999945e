import Verif.Props.Corr
import Verif.Props.Solve
import Verif.Lemmas.PSD

set_option linter.unusedSectionVars false

/-! # The correlation matrix of a kriging model can always be factorised (C72) -/

namespace Rodeo
open Rodeo.Spec Rodeo.Corr Rodeo.Mat Finset

theorem Corr.quadForm_eq_qf (n : Nat) (F : Nat → Nat → ℝ) (x : Nat → ℝ) :
    quadForm n F x = PSD.qf (fun i j : Fin n => F i j) (fun i : Fin n => x i) := by
  unfold quadForm PSD.qf
  rw [sum_range]
  refine sum_congr rfl (fun i _ => ?_)
  rw [sum_range]
  exact sum_congr rfl (fun j _ => by ring)

/-- The exponential correlation matrix (with ones on the diagonal) is positive semidefinite for
nonnegative weights and exponents between zero and two. -/
theorem Corr.expCorr_psd {n m : Nat} {F G : Nat → Nat → ℝ} {t g : Nat → ℝ}
    (ht : ∀ k, k < m → 0 ≤ t k) (hg : ∀ k, k < m → 0 ≤ g k ∧ g k ≤ 2)
    (hd : ∀ i, i < n → G i i = 1)
    (hG : ∀ i j, i < n → j < n → i ≠ j → G i j = expCorr m t g (F i) (F j)) : PosSemidef n G := by
  intro x
  rw [quadForm_eq_qf]
  have h1 := PSD.psk_expCorr (ι := Fin n) (fun i => F i) m ht hg
  have h2 := PSD.psk_diag (ι := Fin n) (f := fun i => 1 - expCorr m t g (F i) (F i)) (fun i => by
    have : expCorr m t g (F i) (F i) ≤ 1 := by
      rw [expCorr, Real.exp_le_one_iff, neg_nonpos]
      exact sum_nonneg (fun k hk => mul_nonneg (ht k (mem_range.1 hk))
        (Real.rpow_nonneg (abs_nonneg _) _))
    linarith)
  have h3 := (h1.add h2).2 (fun i => x i)
  refine h3.trans_eq ?_
  congr 1
  funext i j
  by_cases hij : i = j
  · subst hij
    rw [if_pos rfl, hd i i.2]
    ring
  · rw [if_neg hij, hG i j i.2 j.2 (fun h => hij (Fin.ext h))]
    ring

/-- Adding a positive number to the diagonal of a positive semidefinite matrix makes it positive
definite. -/
theorem Corr.posDef_add_eps {n : Nat} {F : Nat → Nat → ℝ} (h : PosSemidef n F) {e : ℝ} (he : 0 < e) :
    PosDef n (fun i j => if i = j then F i j + e else F i j) := by
  rintro x ⟨a, ha, hxa⟩
  have : quadForm n (fun i j => if i = j then F i j + e else F i j) x =
      quadForm n F x + e * ∑ i ∈ range n, x i ^ 2 := by
    unfold quadForm
    rw [mul_sum, ← sum_add_distrib]
    refine sum_congr rfl (fun i hi => ?_)
    have : ∀ j, x i * (if i = j then F i j + e else F i j) * x j =
        x i * F i j * x j + if i = j then e * (x i * x j) else 0 := by
      intro j
      split_ifs <;> ring
    rw [sum_congr rfl (fun j _ => this j), sum_add_distrib, sum_ite_eq, if_pos hi]
    ring
  rw [this]
  have h1 : 0 < ∑ i ∈ range n, x i ^ 2 :=
    sum_pos' (fun i _ => sq_nonneg _) ⟨a, mem_range.2 ha, by positivity⟩
  have := h x
  have := mul_pos he h1
  linarith

/-- An exponential correlation object whose parameters fit its samples and are in the range that
`checkIfParametersAreSetProperly` (exponential_correlation_function.cpp 69-87) asks for. -/
structure Spec.Ready (s : ExpCorr ℝ) (n m : Nat) (F : Nat → Nat → ℝ) : Prop where
  set : s.base.isSet = true
  samples : IsMat s.base.X n m F
  count : s.base.N = n
  theta_len : s.theta.length = m
  gamma_len : s.gamma.length = m
  theta_nonneg : ∀ t ∈ s.theta, 0 ≤ t
  gamma_range : ∀ g ∈ s.gamma, 0 ≤ g ∧ g ≤ 2

theorem Corr.vecFun_range {v : List ℝ} (h : ∀ g ∈ v, 0 ≤ g ∧ g ≤ 2) (k : Nat) :
    0 ≤ vecFun v k ∧ vecFun v k ≤ 2 := by
  unfold vecFun
  by_cases hk : k < v.length
  · simp only [List.getD, List.getElem?_eq_getElem hk, Option.getD_some]
    exact h _ (List.getElem_mem hk)
  · simp [List.getD, hk]

/-- What `computeCorrelationMatrix` leaves in the object. -/
theorem Corr.computeCorrelationMatrix_ok {s : ExpCorr ℝ} {n m : Nat} {F : Nat → Nat → ℝ}
    (h : Ready s n m F) :
    ∃ R G, s.computeCorrelationMatrix Real.exp realPow =
        .ok { s with base := { s.base with matrix := R } } ∧
      IsMat R n n (fun i j => if i = j then G i j + s.base.epsilon else G i j) ∧
      IsCorrelation n G ∧ PosSemidef n G ∧
      ∀ i j, i < n → j < n → i ≠ j → G i j = expCorr m (vecFun s.theta) (vecFun s.gamma) (F i) (F j) := by
  have hc : s.base.X.ncols = m := h.samples.2.1
  obtain ⟨R, G, h1, h2, h3, h4⟩ := C51_exponential h.samples h.theta_len h.gamma_len h.theta_nonneg
    (fun g hg => (h.gamma_range g hg).1)
  unfold corrMatrixExponential at h1
  rw [if_neg (by rw [h.theta_len, h.gamma_len]; exact fun h => h rfl),
    if_neg (by rw [h.theta_len, hc]; exact fun h => h rfl)] at h1
  obtain ⟨R', e1, e2⟩ := addEpsilonToDiagonal_ok h2 s.base.epsilon
  refine ⟨R', G, ?_, e2, h3, ?_, h4⟩
  · unfold ExpCorr.computeCorrelationMatrix
    rw [if_neg (by rw [h.set]; simp)]
    exact bind_eq h1 (bind_eq e1 rfl)
  · exact expCorr_psd (fun k _ => vecFun_nonneg h.theta_nonneg k)
      (fun k _ => vecFun_range h.gamma_range k) h3.2.1 h4

/-- For all samples, also with repeated rows, and all parameters in their range, the correlation
matrix with a positive `epsilon` is computed and symmetric positive definite; the Cholesky solver
reports success for it, and every system with it is then solved exactly. -/
theorem C72_factorizable {s : ExpCorr ℝ} {n m : Nat} {F : Nat → Nat → ℝ} (h : Ready s n m F)
    (he : 0 < s.base.epsilon) :
    ∃ s' G L, s.computeCorrelationMatrix Real.exp realPow = .ok s' ∧
      IsMat s'.base.matrix n n G ∧ Symm n G ∧ PosDef n G ∧
      (CholeskySystem.new.setMatrix s'.base.matrix).factorize Real.sqrt = .ok L ∧ L.done = true ∧
      ∀ b : List ℝ, b.length = n →
        ∃ x, L.solveLinearSystem b = .ok x ∧ x.length = n ∧ Solves n G (vecFun x) (vecFun b) := by
  obtain ⟨R, G, h1, h2, h3, h4, -⟩ := computeCorrelationMatrix_ok h
  have hS : Symm n (fun i j => if i = j then G i j + s.base.epsilon else G i j) := by
    intro i j hi hj
    by_cases hij : i = j
    · subst hij; rfl
    · beta_reduce
      rw [if_neg hij, if_neg (Ne.symm hij)]
      exact h3.1 i j hi hj
  have hP := posDef_add_eps h4 he
  obtain ⟨L, H, f1, f2, f3, f4⟩ := (C48_partial isSqrt_real h2 hS).1 hP
  refine ⟨_, _, { CholeskySystem.new.setMatrix R with fact := L, done := true }, h1, h2, hS, hP, ?_,
    rfl, ?_⟩
  · unfold CholeskySystem.factorize
    exact bind_eq (a := (L, 1)) f1 (if_neg (show ¬ (1 : Int) = -1 by decide))
  · intro b hb
    unfold CholeskySystem.solveLinearSystem
    rw [if_neg (by simp)]
    exact f4 b hb

theorem Corr.tab_vat {v : List ℝ} {m : Nat} (h : v.length = m) :
    tab m (fun i => vat v i) = .ok v := by
  subst h
  rw [tab_ok (g := fun i => vecFun v i) (fun i hi => vat_vecFun hi)]
  congr 1
  refine List.ext_getElem (by simp) (fun i h3 h4 => ?_)
  simp [vecFun, List.getD, h4]

/-- The state assumed above is what the three setters produce, for every nonempty sample matrix and all
parameters in range. -/
theorem C72_reachable {X : Mat ℝ} {n m : Nat} {F : Nat → Nat → ℝ} (hX : IsMat X n m F) (hn : 0 < n)
    (hm : 0 < m) {hyper : List ℝ} (hl : hyper.length = 2 * m)
    (ht : ∀ t ∈ hyper.take m, 0 ≤ t) (hg : ∀ g ∈ hyper.drop m, 0 ≤ g ∧ g ≤ 2) {e : ℝ} (he0 : 0 ≤ e)
    (he1 : e < 1) :
    ∃ b b' s, (Base.new : Base ℝ).setInputSampleMatrix X = .ok b ∧ b.setEpsilon e = .ok b' ∧
      (⟨b', [], []⟩ : ExpCorr ℝ).setHyperParameters hyper = .ok s ∧ Ready s n m F ∧
      s.base.epsilon = e ∧ s.getHyperParameters = .ok hyper := by
  obtain ⟨hr, hc, -, -⟩ := id hX
  refine ⟨{ (Base.new : Base ℝ) with X := X, N := n, dim := m, matrix := Mat.const n n 0, isSet := true },
    { (Base.new : Base ℝ) with X := X, N := n, dim := m, matrix := Mat.const n n 0, isSet := true, epsilon := e },
    ⟨{ (Base.new : Base ℝ) with X := X, N := n, dim := m, matrix := Mat.const n n 0, isSet := true, epsilon := e },
      hyper.take m, hyper.drop m⟩, ?_, ?_, ?_, ?_, rfl, ?_⟩
  · unfold Base.setInputSampleMatrix
    rw [if_neg (by simp only [Mat.isEmpty, decide_eq_true_eq]; omega), hr, hc]
  · unfold Base.setEpsilon
    rw [if_neg (not_or.2 ⟨not_lt.2 he0, not_le.2 he1⟩)]
  · unfold ExpCorr.setHyperParameters
    simp only
    rw [if_neg (by omega)]
    refine bind_eq (Vec.head_eq hyper (by omega)) (bind_eq (a := ⟨{ (Base.new : Base ℝ) with
        X := X, N := n, dim := m, matrix := Mat.const n n 0, isSet := true, epsilon := e },
        hyper.take m, []⟩) ?_ (bind_eq (Vec.tail_eq hyper (by show m ≤ _; omega)) ?_))
    · unfold ExpCorr.setTheta
      rw [if_neg (by simp only [List.length_take]; omega)]
    · unfold ExpCorr.setGamma
      simp only
      rw [if_neg (by simp only [List.length_drop]; omega)]
      congr 3
      omega
  · exact ⟨rfl, hX, rfl, by simp only [List.length_take]; omega,
      by simp only [List.length_drop]; omega, ht, hg⟩
  · unfold ExpCorr.getHyperParameters
    simp only
    rw [if_neg (by omega)]
    have h1 : (hyper.take m).length = m := by simp only [List.length_take]; omega
    have h2 : (hyper.drop m).length = m := by simp only [List.length_drop]; omega
    exact bind_eq (tab_vat h1) (bind_eq (tab_vat h2) (by rw [List.take_append_drop]))

/-- Three samples of which two are equal, weights 1 and 2, exponents 9/5 and 2. -/
example : ∃ s : ExpCorr ℝ, Ready s 3 2
      (fun i j => ([0, 1, 1, 0, 5, 5] : List ℝ).getD (j * 3 + i) 0) ∧ 0 < s.base.epsilon := by
  have hX : IsMat (⟨3, 2, [0, 1, 1, 0, 5, 5]⟩ : Mat ℝ) 3 2
      (fun i j => ([0, 1, 1, 0, 5, 5] : List ℝ).getD (j * 3 + i) 0) := by
    refine ⟨rfl, rfl, rfl, ?_⟩
    intro i j hi hj
    have h1 : i = 0 ∨ i = 1 ∨ i = 2 := by omega
    have h2 : j = 0 ∨ j = 1 := by omega
    rcases h1 with rfl | rfl | rfl <;> rcases h2 with rfl | rfl <;> rfl
  obtain ⟨b, b', s, -, -, -, h4, h5, -⟩ := C72_reachable hX (by omega) (by omega)
    (hyper := [1, 2, 9 / 5, 2]) rfl (by simp) (by simp; norm_num) (e := 1 / 10 ^ 12) (by norm_num)
    (by norm_num)
  exact ⟨s, h4, by rw [h5]; norm_num⟩

end Rodeo
