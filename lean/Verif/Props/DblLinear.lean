import Verif.Lemmas.DblLinear
import Verif.Lemmas.DblLUTotal
import Verif.Props.Linear
import Mathlib.Data.Rat.Floor

/-! # C132: training of the linear regression model in double arithmetic

`normalResidual`, `ridgeError` and `RidgeRoom` (Spec/DblLinear.lean): half the derivative of the regularized least
squares error, how far it may be from zero, and the condition that the regularization exceeds the rounding
errors. -/

set_option linter.unusedSectionVars false

namespace Rodeo
open Spec Dbl Finset

variable {K : Type} [Field K] [LinearOrder K] [IsStrictOrderedRing K] [FloorRing K]

/-- The object is ready for training on samples inside the box, with a regularization that is a double, and with
outputs that are not huge. -/
structure Spec.TrainableInBox (m : LinearModel K) (n dim : Nat) (X : Nat → Nat → K) (lambda : K) : Prop where
  ready : Trainable m n dim X
  regularization : m.regularization = some lambda
  inBox : ∀ i j, i < n → j < dim → |X i j| ≤ 1
  few : n ≤ 2 ^ 25
  narrow : dim < 2 ^ 32
  positive : 0 < lambda
  moderate : lambda ≤ 1 / 4
  double : IsDouble lambda
  bounded : ∑ i ∈ range n, |vecFun m.data.y i| ≤ 2 ^ 900

theorem linearTrain_eq {m : LinearModel K} {n dim : Nat} {X : Nat → Nat → K} (h : Trainable m n dim X) :
    linearTrain m = (ridgeWeights m >>= fun w => .ok { m with weights := w, isTrained := true }) := by
  have h1 := h.dimension
  have h2 := h.dimPos
  have h3 := h.count
  have h4 := h.countPos
  unfold linearTrain
  rw [if_neg (by simp [h.normalized]), if_neg (by simp [h.read]), if_neg (by omega), if_neg (by omega)]

theorem normalMat_eq (n : Nat) (X : Nat → Nat → K) (lambda : K) (i j : Nat) : normalMat n X lambda i j =
    ∑ k ∈ range n, regressor X k i * regressor X k j + if i = j then lambda else 0 := by
  unfold normalMat
  rw [regressor_eq]
  split_ifs with h
  · rfl
  · rw [add_zero]

theorem ridge_facts {m : LinearModel K} {n dim : Nat} {X : Nat → Nat → K} {lambda : K}
    (h : TrainableInBox m n dim X lambda) :
    ∃ (M : Mat K) (F : Nat → Nat → K) (v : List K), IsMat M (dim + 1) (dim + 1) F ∧
      (∀ i j, i < dim + 1 → j < dim + 1 → IsDouble (F i j) ∧ |F i j| ≤ n + 1 ∧
        |F i j - normalMat n X lambda i j| ≤ (n + 2) ^ 2 / 2 ^ 52) ∧
      v.length = dim + 1 ∧
      (∀ l, l < dim + 1 → |vecFun v l| ≤ 2 * (∑ i ∈ range n, |vecFun m.data.y i| + 1 / 2 ^ 950)) ∧
      ridgeWeights m = (Dbl.invert M >>= fun inv => Dbl.matVecProduct inv v) ∧
      Post (ridgeWeights m) (fun w => w.length = dim + 1 ∧ ∃ C G, Dbl.invert M = .ok C ∧ IsMat C (dim + 1) (dim + 1) G ∧
        ∀ i, i < dim + 1 → IsDouble (vecFun w i) ∧
          |normalResidual n dim X (vecFun m.data.y) lambda (vecFun w) i| ≤
            ridgeError n dim (vecFun m.data.y) (vecFun w) G) :=
  ridgeWeights_post h.ready.inputs h.ready.outputs h.ready.dimension h.ready.count h.regularization h.inBox
    h.ready.countPos h.few h.ready.dimPos h.narrow h.positive h.moderate h.double
    (h.bounded.trans (pow_le_pow_right₀ (by norm_num) (by norm_num)))

/-- C132: the weights found satisfy the normal equations of the ridge regression up to rounding errors; they are
relative to the weights, and to the inverse computed for a matrix near the normal matrix. -/
theorem C132_partial {m m' : LinearModel K} {n dim : Nat} {X : Nat → Nat → K} {lambda : K}
    (h : TrainableInBox m n dim X lambda) (ht : linearTrain m = .ok m') :
    m' = { m with weights := m'.weights, isTrained := true } ∧ m'.weights.length = dim + 1 ∧ Doubles m'.weights ∧
    ∃ M F C G, IsMat M (dim + 1) (dim + 1) F ∧ Dbl.invert M = .ok C ∧ IsMat C (dim + 1) (dim + 1) G ∧
      (∀ i j, i ≤ dim → j ≤ dim → |F i j - (∑ k ∈ range n, regressor X k i * regressor X k j +
        if i = j then lambda else 0)| ≤ (n + 2) ^ 2 / 2 ^ 52) ∧
      ∀ i, i ≤ dim → |normalResidual n dim X (vecFun m.data.y) lambda (vecFun m'.weights) i| ≤
        ridgeError n dim (vecFun m.data.y) (vecFun m'.weights) G := by
  obtain ⟨M, F, v, hM, hF, -, -, -, hp⟩ := ridge_facts h
  rw [linearTrain_eq h.ready] at ht
  obtain ⟨w, hw, e⟩ := bind_ok_inv ht
  obtain rfl := Except.ok.inj e
  obtain ⟨h1, C, G, h2, h3, h4⟩ := hp w hw
  refine ⟨rfl, h1, ?_, M, F, C, G, hM, h2, h3, fun i j hi hj => ?_, fun i hi => (h4 i (by omega)).2⟩
  · intro x hx
    obtain ⟨i, hi, rfl⟩ := List.getElem_of_mem hx
    have hi' : i < w.length := hi
    have := (h4 i (by omega)).1
    have e : vecFun w i = w[i] := by simp [vecFun, hi']
    rwa [e] at this
  · rw [← normalMat_eq]
    exact (hF i j (by omega) (by omega)).2.2

/-- C132: weights that satisfy the normal equations up to `E` have a regularized error within
`(dim + 1) E² / lambda` of the least one, and are within `2 sqrt(dim + 1) E / lambda` of the minimizer. -/
theorem C132_near {n dim : Nat} {X : Nat → Nat → K} {y w : Nat → K} {lambda E : K} (hl : 0 < lambda)
    (hE : ∀ i, i ≤ dim → |normalResidual n dim X y lambda w i| ≤ E) :
    (∀ w', ridgeLoss n dim X y lambda w ≤ ridgeLoss n dim X y lambda w' + (dim + 1) * E ^ 2 / lambda) ∧
    ∀ u, IsRidge n dim X y lambda u →
      lambda ^ 2 * ∑ j ∈ range (dim + 1), (u j - w j) ^ 2 ≤ 4 * (dim + 1) * E ^ 2 := by
  have h1 : ∑ j ∈ range (dim + 1), normalResidual n dim X y lambda w j ^ 2 ≤ (dim + 1) * E ^ 2 := by
    have : ∑ j ∈ range (dim + 1), normalResidual n dim X y lambda w j ^ 2 ≤ ∑ _j ∈ range (dim + 1), E ^ 2 := by
      refine sum_le_sum fun j hj => ?_
      rw [← sq_abs]
      exact pow_le_pow_left₀ (abs_nonneg _) (hE j (by have := mem_range.1 hj; omega)) 2
    refine this.trans (le_of_eq ?_)
    rw [sum_const, card_range, nsmul_eq_mul]
    push_cast; ring
  constructor
  · intro w'
    exact (ridgeLoss_near hl w').trans (add_le_add le_rfl (div_le_div_of_nonneg_right h1 hl.le))
  · intro u hu
    exact (ridge_near hl hu).trans ((mul_le_mul_of_nonneg_left h1 (by norm_num)).trans (le_of_eq (by ring)))

/-! ## Room for the rounding errors -/

theorem room_alg {P Q N lambda z e : K} (hP : 2 ≤ P) (hQ : 2 ≤ Q) (hN : 1 ≤ N) (hl : lambda ≤ 1 / 4) (hz0 : 0 ≤ z)
    (hz : z ≤ 1 / 2 ^ 100) (he : 0 ≤ e) (hroom : P ^ 2 * Q * N / 2 ^ 49 + P * e ≤ lambda / 2) :
    P * (P / 2 ^ 50 * (Q * N) + (P + Q * N) * z + e) ≤ lambda / 2 ∧
    (P + (P + Q * N) * (2 * P)) * z ≤ 1 ∧ P / 2 ^ 52 * (Q * N) + (P + Q * N) * z ≤ P / 2 ^ 50 * (Q * N) + (P + Q * N) * z := by
  have hP0 : 0 < P := by linarith
  have hQN : 2 ≤ Q * N := by nlinarith
  have h1 : P ≤ P * (Q * N) := le_mul_of_one_le_right hP0.le (by linarith)
  have h2 : Q * N ≤ P * (Q * N) := le_mul_of_one_le_left (by linarith) (by linarith)
  have h3 : P * (Q * N) ≤ P ^ 2 * (Q * N) := by
    have := mul_le_mul_of_nonneg_left h2 hP0.le
    nlinarith
  have h4 : P * (P + Q * N) ≤ 2 * (P ^ 2 * (Q * N)) := by
    have := mul_le_mul_of_nonneg_left (add_le_add h1 h2) hP0.le
    nlinarith
  set V := P ^ 2 * (Q * N) with hV
  have hV0 : 0 ≤ V := by positivity
  have hroom' : V / 2 ^ 49 + P * e ≤ lambda / 2 := by
    have e1 : P ^ 2 * Q * N / 2 ^ 49 = V / 2 ^ 49 := by rw [hV]; ring
    rwa [e1] at hroom
  have hVs : V / 2 ^ 49 ≤ 1 / 8 := by
    have : 0 ≤ P * e := by positivity
    linarith
  have h5 : P * (P + Q * N) * z ≤ 2 * V * (1 / 2 ^ 100) := mul_le_mul h4 hz hz0 (by positivity)
  have e2 : P * (P / 2 ^ 50 * (Q * N) + (P + Q * N) * z + e) = V / 2 ^ 50 + P * (P + Q * N) * z + P * e := by
    rw [hV]; ring
  refine ⟨?_, ?_, ?_⟩
  · rw [e2]
    norm_num at *
    linarith
  · have e3 : (P + (P + Q * N) * (2 * P)) * z = P * z + 2 * (P * (P + Q * N) * z) := by ring
    have h6 : P * z ≤ V * (1 / 2 ^ 100) := mul_le_mul (h1.trans h3) hz hz0 hV0
    rw [e3]
    norm_num at *
    linarith
  · have : 0 ≤ P * (Q * N) := by positivity
    have e3 : P / 2 ^ 52 * (Q * N) = P * (Q * N) / 2 ^ 52 := by ring
    have e4 : P / 2 ^ 50 * (Q * N) = P * (Q * N) / 2 ^ 50 := by ring
    rw [e3, e4]
    norm_num
    linarith

section room
variable {n dim : Nat} {X F : Nat → Nat → K} {lambda : K} {M : Mat K}

theorem room_facts (hd0 : 0 < dim) (hn0 : 0 < n) (hl : lambda ≤ 1 / 4) (hroom : RidgeRoom n dim lambda) :
    ((dim + 1 : Nat) : K) * (((dim + 1 : Nat) : K) / 2 ^ 50 * (2 ^ (dim + 1) * (n + 1)) +
      (((dim + 1 : Nat) : K) + 2 ^ (dim + 1) * (n + 1)) * (1 / 2 ^ 1074) + (n + 2) ^ 2 / 2 ^ 52) ≤ lambda / 2 ∧
    (((dim + 1 : Nat) : K) + (((dim + 1 : Nat) : K) + 2 ^ (dim + 1) * (n + 1)) * (2 * ((dim + 1 : Nat) : K))) *
      (1 / 2 ^ 1074) ≤ 1 ∧
    luError (dim + 1) ((n : K) + 1) ≤ ((dim + 1 : Nat) : K) / 2 ^ 50 * (2 ^ (dim + 1) * (n + 1)) +
      (((dim + 1 : Nat) : K) + 2 ^ (dim + 1) * (n + 1)) * (1 / 2 ^ 1074) := by
  have hz : (1 : K) / 2 ^ 1074 ≤ 1 / 2 ^ 100 :=
    one_div_le_one_div_of_le (by positivity) (pow_le_pow_right₀ (by norm_num) (by norm_num))
  have hQ : (2 : K) ≤ 2 ^ (dim + 1) := by
    have := pow_le_pow_right₀ (by norm_num : (1 : K) ≤ 2) (by omega : 1 ≤ dim + 1)
    rwa [pow_one] at this
  have h := room_alg (P := ((dim + 1 : Nat) : K)) (Q := 2 ^ (dim + 1)) (N := (n : K) + 1) (lambda := lambda)
    (z := 1 / 2 ^ 1074) (e := (n + 2) ^ 2 / 2 ^ 52) (by exact_mod_cast (by omega : 2 ≤ dim + 1)) hQ
    (by linarith [Nat.cast_nonneg (α := K) n]) hl (by positivity) hz (by positivity) (by
      unfold RidgeRoom at hroom
      push_cast
      refine le_trans (le_of_eq (by ring)) hroom)
  refine ⟨h.1, h.2.1, ?_⟩
  unfold luError
  refine le_trans (le_of_eq ?_) h.2.2
  push_cast
  ring

/-- The computed inverse is not large. -/
theorem inverse_bound (hd0 : 0 < dim) (hd : dim < 2 ^ 32) (hn0 : 0 < n) (hn : n ≤ 2 ^ 25) (hl0 : 0 < lambda) (hl : lambda ≤ 1 / 4)
    (hroom : RidgeRoom n dim lambda) (hM : IsMat M (dim + 1) (dim + 1) F)
    (hF : ∀ i j, i < dim + 1 → j < dim + 1 → IsDouble (F i j) ∧ |F i j| ≤ n + 1 ∧
        |F i j - normalMat n X lambda i j| ≤ (n + 2) ^ 2 / 2 ^ 52)
    {C : Mat K} {G : Nat → Nat → K} (hC : Dbl.invert M = .ok C) (hG : IsMat C (dim + 1) (dim + 1) G) :
    lambda * ∑ i ∈ range (dim + 1), ∑ j ∈ range (dim + 1), |G i j| ≤ 4 * (dim + 1) ^ 2 := by
  have hB : IsDouble ((n : K) + 1) := by
    have := isDouble_nat (K := K) (n := n + 1) (by omega)
    push_cast at this
    exact this
  obtain ⟨G', hG', hinv, -⟩ := C130_inverse hM (by omega) hB (fun i j hi hj => ⟨(hF i j hi hj).1, (hF i j hi hj).2.1⟩) hC
  obtain ⟨-, -, hGG⟩ := Mat.isMat_unique hG' hG
  obtain ⟨r1, r2, -⟩ := room_facts (K := K) hd0 hn0 hl hroom
  have col : ∀ l, l < dim + 1 → lambda * ∑ i ∈ range (dim + 1), |G' i l| ≤ 4 * (dim + 1 : Nat) := by
    intro l hl'
    set S := ∑ i ∈ range (dim + 1), |G' i l| with hS
    have hS0 : 0 ≤ S := sum_nonneg fun _ _ => abs_nonneg _
    set P : K := ((dim + 1 : Nat) : K) with hP
    set b : K := P / 2 ^ 50 * (2 ^ (dim + 1) * (n + 1)) + (P + 2 ^ (dim + 1) * (n + 1)) * (1 / 2 ^ 1074) with hb
    set d : K := (P + (P + 2 ^ (dim + 1) * (n + 1)) * (2 * P)) * (1 / 2 ^ 1074) with hd'
    have hrow : ∀ i, i < dim + 1 → |∑ k ∈ range (dim + 1), F i k * G' k l - if i = l then 1 else 0| ≤ b * S + d := by
      intro i hi
      refine (hinv i l hi hl').trans (le_of_eq ?_)
      rw [sum_add_distrib, sum_const, card_range, nsmul_eq_mul, ← hS, hb, hd']
      ring
    have himg : ∑ i ∈ range (dim + 1), |G' i l| * |∑ j ∈ range (dim + 1), F i j * G' j l| ≤ (1 + d) * S + b * S ^ 2 := by
      have h1 : ∀ i ∈ range (dim + 1), |G' i l| * |∑ j ∈ range (dim + 1), F i j * G' j l| ≤
          (if i = l then |G' i l| else 0) + |G' i l| * (b * S + d) := by
        intro i hi
        have h2 := hrow i (mem_range.1 hi)
        have h3 := abs_add_le (∑ k ∈ range (dim + 1), F i k * G' k l - if i = l then 1 else 0) (if i = l then 1 else 0)
        rw [sub_add_cancel] at h3
        have h4 := mul_le_mul_of_nonneg_left (h3.trans (add_le_add h2 le_rfl)) (abs_nonneg (G' i l))
        refine h4.trans (le_of_eq ?_)
        split_ifs <;> simp <;> ring
      refine (sum_le_sum h1).trans ?_
      rw [sum_add_distrib, ← sum_mul, ← hS, sum_ite_eq' , if_pos (mem_range.2 hl')]
      have h5 : |G' l l| ≤ S := single_le_sum (f := fun i => |G' i l|) (fun _ _ => abs_nonneg _) (mem_range.2 hl')
      nlinarith
    have hb0 : 0 ≤ b := by rw [hb]; positivity
    have hd0' : 0 ≤ d := by rw [hd']; positivity
    have := (small_image (x := fun i => G' i l) hl0 (by linarith : 0 ≤ 1 + d) (fun i j hi hj => (hF i j hi hj).2.2) himg r1
      (by positivity)).2
    refine this.trans ?_
    have hP0 : 0 ≤ P := Nat.cast_nonneg _
    have : (1 + d) * P ≤ 2 * P := mul_le_mul_of_nonneg_right (by linarith) hP0
    linarith
  rw [sum_comm]
  have e : ∑ l ∈ range (dim + 1), ∑ i ∈ range (dim + 1), |G i l| = ∑ l ∈ range (dim + 1), ∑ i ∈ range (dim + 1), |G' i l| :=
    sum_congr rfl fun l hl' => sum_congr rfl fun i hi => by rw [hGG i l (mem_range.1 hi) (mem_range.1 hl')]
  rw [e, mul_sum]
  refine (sum_le_sum fun l hl' => col l (mem_range.1 hl')).trans (le_of_eq ?_)
  rw [sum_const, card_range, nsmul_eq_mul]
  push_cast; ring

/-- The factorization does not fail. -/
theorem lu_succeeds (hd0 : 0 < dim) (hd : dim < 2 ^ 32) (hn0 : 0 < n) (hn : n ≤ 2 ^ 25) (hl0 : 0 < lambda) (hl : lambda ≤ 1 / 4)
    (hroom : RidgeRoom n dim lambda) (hsize : 5 * ((dim : K) + 1) ≤ (10 ^ 9 * lambda) ^ 2)
    (hM : IsMat M (dim + 1) (dim + 1) F)
    (hF : ∀ i j, i < dim + 1 → j < dim + 1 → IsDouble (F i j) ∧ |F i j| ≤ n + 1 ∧
        |F i j - normalMat n X lambda i j| ≤ (n + 2) ^ 2 / 2 ^ 52) : Dbl.lu M ≠ .ok none := by
  intro hlu
  have hB : IsDouble ((n : K) + 1) := by
    have := isDouble_nat (K := K) (n := n + 1) (by omega)
    push_cast at this
    exact this
  obtain ⟨G, hG, c, hc, x, hxc, hx⟩ := C130_failure hM (by omega) hB (fun i j hi hj => ⟨(hF i j hi hj).1, (hF i j hi hj).2.1⟩) hlu
  obtain ⟨r1, -, r3⟩ := room_facts (K := K) hd0 hn0 hl hroom
  set tau : K := (1 + 1 / 2 ^ 53) / 10 ^ 9 with htau
  set b : K := ((dim + 1 : Nat) : K) / 2 ^ 50 * (2 ^ (dim + 1) * (n + 1)) +
      (((dim + 1 : Nat) : K) + 2 ^ (dim + 1) * (n + 1)) * (1 / 2 ^ 1074) with hb
  set S := ∑ i ∈ range (dim + 1), |x i| with hS
  have hS0 : 0 ≤ S := sum_nonneg fun _ _ => abs_nonneg _
  have himg : ∑ i ∈ range (dim + 1), |x i| * |∑ j ∈ range (dim + 1), F i j * x j| ≤ tau * S + b * S ^ 2 := by
    have h1 : ∀ i ∈ range (dim + 1), |x i| * |∑ j ∈ range (dim + 1), F i j * x j| ≤ |x i| * (tau + b * S) := by
      intro i hi
      refine mul_le_mul_of_nonneg_left ?_ (abs_nonneg _)
      have e1 : ∑ j ∈ range (dim + 1), F i j * x j = ∑ j ∈ range (dim + 1), G i j * x j +
          ∑ j ∈ range (dim + 1), (F i j - G i j) * x j := by
        rw [← sum_add_distrib]
        exact sum_congr rfl fun j _ => by ring
      rw [e1]
      refine (abs_add_le _ _).trans (add_le_add (hx i (mem_range.1 hi)).le ?_)
      rw [hS, mul_sum]
      refine (abs_sum_le_sum_abs _ _).trans (sum_le_sum fun j hj => ?_)
      rw [abs_mul]
      exact mul_le_mul_of_nonneg_right ((hG i j (mem_range.1 hi) (mem_range.1 hj)).trans r3) (abs_nonneg _)
    refine (sum_le_sum h1).trans (le_of_eq ?_)
    rw [← sum_mul, ← hS]; ring
  have hb0 : 0 ≤ b := by rw [hb]; positivity
  have htau0 : 0 ≤ tau := by rw [htau]; positivity
  have h2 := (small_image (x := x) hl0 htau0 (fun i j hi hj => (hF i j hi hj).2.2) himg r1 (by positivity)).1
  have h3 : 1 ≤ ∑ i ∈ range (dim + 1), x i ^ 2 := by
    have := single_le_sum (f := fun i => x i ^ 2) (fun _ _ => sq_nonneg _) (mem_range.2 hc)
    simp only [hxc, one_pow] at this
    exact this
  have h4 : lambda ^ 2 ≤ 4 * tau ^ 2 * (dim + 1 : Nat) := by
    refine le_trans ?_ h2
    exact le_mul_of_one_le_right (by positivity) h3
  push_cast at h4
  have hD : (0 : K) < (dim : K) + 1 := by positivity
  have ht2 : (10 ^ 9) ^ 2 * (4 * tau ^ 2) < 5 := by rw [htau]; norm_num
  have h5 : (10 ^ 9 * lambda) ^ 2 ≤ (10 ^ 9) ^ 2 * (4 * tau ^ 2) * (dim + 1) := by
    have := mul_le_mul_of_nonneg_left h4 (by positivity : (0 : K) ≤ (10 ^ 9) ^ 2)
    calc _ = (10 ^ 9) ^ 2 * lambda ^ 2 := by ring
      _ ≤ _ := this
      _ = _ := by ring
  have h6 := mul_lt_mul_of_pos_right ht2 hD
  linarith

end room

/-- From the room to exponents. -/
theorem room_exponents {n dim : Nat} {lambda : K} (hd0 : 0 < dim) (hn0 : 0 < n) (hl : lambda ≤ 1 / 2 ^ 26)
    (hroom : RidgeRoom n dim lambda) : dim + 1 ≤ 16 ∧ (2 : K) ^ (dim + 1) * (n + 1) ≤ 2 ^ 22 := by
  have h1 : (((dim + 1) ^ 2 * 2 ^ (dim + 1) * (n + 1) : Nat) : K) ≤ ((2 ^ 22 : Nat) : K) := by
    unfold RidgeRoom at hroom
    have h2 : (0 : K) ≤ (dim + 1) * (n + 2) ^ 2 / 2 ^ 52 := by positivity
    have h3 : ((dim : K) + 1) ^ 2 * 2 ^ (dim + 1) * (n + 1) / 2 ^ 49 ≤ 1 / 2 ^ 27 := by
      norm_num at hl ⊢
      linarith
    rw [div_le_iff₀ (by positivity)] at h3
    push_cast
    refine h3.trans (le_of_eq (by norm_num))
  have h2 : (dim + 1) ^ 2 * 2 ^ (dim + 1) * (n + 1) ≤ 2 ^ 22 := by exact_mod_cast h1
  have h3 : 1 ≤ (dim + 1) ^ 2 := Nat.one_le_pow _ _ (by omega)
  have h4 : 2 ^ (dim + 1) * (n + 1) ≤ 2 ^ 22 := by
    have : 1 * (2 ^ (dim + 1) * (n + 1)) ≤ (dim + 1) ^ 2 * (2 ^ (dim + 1) * (n + 1)) := Nat.mul_le_mul_right _ h3
    rw [← mul_assoc (_ ^ 2)] at this
    omega
  refine ⟨?_, by exact_mod_cast h4⟩
  by_contra hc
  have h5 : 17 ^ 2 ≤ (dim + 1) ^ 2 := Nat.pow_le_pow_left (by omega) 2
  have h6 : 2 ^ 17 ≤ 2 ^ (dim + 1) := Nat.pow_le_pow_right (by norm_num) (by omega)
  have h7 : 17 ^ 2 * 2 ^ 17 * 1 ≤ (dim + 1) ^ 2 * 2 ^ (dim + 1) * (n + 1) :=
    Nat.mul_le_mul (Nat.mul_le_mul h5 h6) (by omega)
  omega

/-- C132: with a regularization that exceeds the rounding errors and the pivot tolerance, training succeeds on
all samples inside the box, and the weights satisfy the normal equations up to an error that depends on the
sizes, the regularization and the outputs only. -/
theorem C132_total {m : LinearModel K} {n dim : Nat} {X : Nat → Nat → K} {lambda : K}
    (h : TrainableInBox m n dim X lambda) (hroom : RidgeRoom n dim lambda) (hlow : lambda ≤ 1 / 2 ^ 26)
    (hsize : 5 * ((dim : K) + 1) ≤ (10 ^ 9 * lambda) ^ 2) :
    ∃ m', linearTrain m = .ok m' ∧ m'.weights.length = dim + 1 ∧
      ∀ i, i ≤ dim → |normalResidual n dim X (vecFun m.data.y) lambda (vecFun m'.weights) i| ≤
        (n + 2) ^ 2 / 2 ^ 52 * ∑ j ∈ range (dim + 1), |vecFun m'.weights j| +
          (dim + 1) * 2 ^ (dim + 1) * (n + 1) / 2 ^ 48 * (4 * (dim + 1) ^ 2 / lambda + 1) *
            (∑ i ∈ range n, |vecFun m.data.y i| + 1 / 2 ^ 950) := by
  obtain ⟨M, F, v, hM, hF, hv, hvS, e0, hp⟩ := ridge_facts h
  have hd0 := h.ready.dimPos
  have hn0 := h.ready.countPos
  obtain ⟨hp16, hQN⟩ := room_exponents hd0 hn0 hlow hroom
  have hB : IsDouble ((n : K) + 1) := by
    have := isDouble_nat (K := K) (n := n + 1) (by have := h.few; omega)
    push_cast at this
    exact this
  have hFd := fun i j hi hj => And.intro (hF i j hi hj).1 (hF i j hi hj).2.1
  obtain ⟨r, hr⟩ := C130_total hM (by omega) hB hFd (by
    rw [show (2 : K) ^ (1023 : ℤ) = 2 ^ 1023 from (two_pow_cast 1023).symm]
    exact hQN.trans (pow_le_pow_right₀ (by norm_num) (by norm_num)))
  have hne := lu_succeeds hd0 h.narrow hn0 h.few h.positive h.moderate hroom hsize hM hF
  obtain ⟨C, hC⟩ := Dbl.invert_total (a := 22) (k := 4) hM hB (fun i j hi hj => (hFd i j hi hj).1)
    (fun i j hi hj => (hFd i j hi hj).2) (by
      rcases r with _ | r
      · exact absurd hr hne
      · exact ⟨r, hr⟩) hQN (by omega) (by omega)
  obtain ⟨G, hG, -⟩ := C130_inverse hM (by omega) hB hFd hC
  have hg := inverse_bound hd0 h.narrow hn0 h.few h.positive h.moderate hroom hM hF hC hG
  set S := ∑ i ∈ range n, |vecFun m.data.y i| with hS
  have hS0 : 0 ≤ S := sum_nonneg fun _ _ => abs_nonneg _
  have ht1 : (1 : K) / 2 ^ 950 ≤ 1 := by
    rw [div_le_one (by positivity)]
    exact one_le_pow₀ (by norm_num)
  have ht0 : (0 : K) < 1 / 2 ^ 950 := by positivity
  have hgl : ∀ G : Nat → Nat → K, lambda * ∑ i ∈ range (dim + 1), ∑ j ∈ range (dim + 1), |G i j| ≤ 4 * (dim + 1) ^ 2 →
      ∑ i ∈ range (dim + 1), ∑ j ∈ range (dim + 1), |G i j| ≤ 4 * (dim + 1) ^ 2 / lambda := by
    intro G hG
    rw [le_div_iff₀ h.positive, mul_comm]
    exact hG
  -- the last product
  have hlam : 1 / 2 ^ 30 ≤ lambda := by
    by_contra hc
    rw [not_le] at hc
    have h1 : (10 ^ 9 * lambda) ^ 2 < 5 := by
      have h2 : 10 ^ 9 * lambda ≤ 1 := by norm_num at hc ⊢; linarith
      have h3 : 0 ≤ 10 ^ 9 * lambda := by have := h.positive; positivity
      nlinarith
    have : (0 : K) ≤ dim := Nat.cast_nonneg _
    linarith
  have hrow : ∀ i, i < dim + 1 → ∑ j ∈ range (dim + 1), |G i j * vecFun v j| ≤ 2 ^ 1000 := by
    intro i hi
    have h1 : ∑ j ∈ range (dim + 1), |G i j * vecFun v j| ≤ (∑ i ∈ range (dim + 1), ∑ j ∈ range (dim + 1), |G i j|) * (2 * (S + 1 / 2 ^ 950)) := by
      refine le_trans ?_ (mul_le_mul_of_nonneg_right (single_le_sum (f := fun i => ∑ j ∈ range (dim + 1), |G i j|)
        (fun _ _ => sum_nonneg fun _ _ => abs_nonneg _) (mem_range.2 hi)) (by positivity))
      rw [sum_mul]
      refine sum_le_sum fun j hj => ?_
      rw [abs_mul]
      exact mul_le_mul_of_nonneg_left (hvS j (mem_range.1 hj)) (abs_nonneg _)
    have h2 : ∑ i ∈ range (dim + 1), ∑ j ∈ range (dim + 1), |G i j| ≤ 2 ^ 10 * 2 ^ 30 := by
      refine (hgl G hg).trans ?_
      rw [div_le_iff₀ h.positive]
      have h3 : (1 : K) ≤ 2 ^ 30 * lambda := by
        have := mul_le_mul_of_nonneg_left hlam (by positivity : (0 : K) ≤ 2 ^ 30)
        rwa [mul_one_div, div_self (by positivity)] at this
      have h4 : (4 : K) * (dim + 1) ^ 2 ≤ 2 ^ 10 := by
        have : 4 * (dim + 1) ^ 2 ≤ 4 * 16 ^ 2 := Nat.mul_le_mul_left _ (Nat.pow_le_pow_left hp16 2)
        have h5 : ((4 * (dim + 1) ^ 2 : Nat) : K) ≤ ((4 * 16 ^ 2 : Nat) : K) := by exact_mod_cast this
        push_cast at h5
        exact h5.trans (by norm_num)
      rw [mul_assoc]
      exact h4.trans (le_mul_of_one_le_right (by positivity) h3)
    have h3 : 2 * (S + 1 / 2 ^ 950) ≤ 2 ^ 902 := by
      have h4 : (1 : K) ≤ 2 ^ 900 := one_le_pow₀ (by norm_num)
      have h5 : S ≤ 2 ^ 900 := h.bounded
      have e : (2 : K) ^ 902 = 4 * 2 ^ 900 := by rw [show (902 : ℕ) = 2 + 900 from rfl, pow_add]; norm_num
      rw [e]
      clear_value S
      generalize (2 : K) ^ 900 = T at h4 h5 ⊢
      generalize (1 : K) / 2 ^ 950 = u at ht1 ⊢
      linarith
    refine (h1.trans (mul_le_mul h2 h3 (by positivity) (by positivity))).trans ?_
    rw [← pow_add, ← pow_add]
    exact pow_le_pow_right₀ (by norm_num) (by norm_num)
  obtain ⟨w, ew, -, -⟩ := C115_matVec hG hv (by omega) hrow
  have hw : ridgeWeights m = .ok w := by rw [e0]; exact bind_eq hC ew
  obtain ⟨q1, C', G', q2, q3, q4⟩ := hp w hw
  rw [hC] at q2
  obtain rfl := Except.ok.inj q2
  have hg' := hgl G' (inverse_bound hd0 h.narrow hn0 h.few h.positive h.moderate hroom hM hF hC q3)
  refine ⟨_, by rw [linearTrain_eq h.ready]; exact bind_eq hw rfl, q1, fun i hi => ?_⟩
  refine (q4 i (by omega)).2.trans ?_
  unfold ridgeError
  refine add_le_add le_rfl (mul_le_mul_of_nonneg_right (mul_le_mul_of_nonneg_left (add_le_add hg' le_rfl) (by positivity))
    (by positivity))

/-- C132: the condition on the regularization holds for the value the program uses, rounded to a double, with up
to 6 parameters and 400 samples. -/
theorem C132_room {n dim : Nat} (hn : n ≤ 400) (hd : dim ≤ 6) :
    RidgeRoom n dim (lit (1 / 10 ^ 8) : K) ∧ (lit (1 / 10 ^ 8) : K) ≤ 1 / 2 ^ 26 ∧
      5 * ((dim : K) + 1) ≤ (10 ^ 9 * lit (1 / 10 ^ 8)) ^ 2 := by
  have hd2 : (2 : K) ^ (-1000 : ℤ) ≤ |(1 : K) / 10 ^ 8| := by
    have h1 : (2 : K) ^ (-1000 : ℤ) ≤ 2 ^ (-30 : ℤ) := zp_mono (by norm_num)
    refine h1.trans ?_
    rw [show (2 : K) ^ (-30 : ℤ) = 1 / 2 ^ 30 by rw [zpow_neg, one_div]; norm_cast, abs_of_pos (by positivity)]
    norm_num
  have h := lit_rel hd2
  rw [abs_of_pos (show (0 : K) < 1 / 10 ^ 8 by positivity), abs_le] at h
  have he : (eps : K) = 1 / 2 ^ 53 := rfl
  have e0 : (lit (1 / 10 ^ 8) : K) = fl (1 / 10 ^ 8) := rfl
  rw [e0]
  rw [he] at h
  have hlo : (99 : K) / 100 / 10 ^ 8 ≤ fl (1 / 10 ^ 8) := by
    generalize (fl (1 / 10 ^ 8) : K) = x at h ⊢
    norm_num at h ⊢; linarith [h.1]
  have hhi : (fl (1 / 10 ^ 8) : K) ≤ 101 / 100 / 10 ^ 8 := by
    generalize (fl (1 / 10 ^ 8) : K) = x at h ⊢
    norm_num at h ⊢; linarith [h.2]
  generalize (fl (1 / 10 ^ 8) : K) = x at hlo hhi ⊢
  have hnK : (n : K) ≤ 400 := by exact_mod_cast hn
  have hdK : (dim : K) ≤ 6 := by exact_mod_cast hd
  have hn0 : (0 : K) ≤ n := Nat.cast_nonneg _
  have hd0 : (0 : K) ≤ dim := Nat.cast_nonneg _
  refine ⟨?_, ?_, ?_⟩
  · unfold RidgeRoom
    have h1 : ((dim : K) + 1) ^ 2 * 2 ^ (dim + 1) * (n + 1) ≤ 7 ^ 2 * 2 ^ 7 * 401 := by
      refine mul_le_mul (mul_le_mul ?_ ?_ (by positivity) (by positivity)) (by linarith) (by positivity) (by positivity)
      · exact pow_le_pow_left₀ (by linarith) (by linarith) 2
      · exact pow_le_pow_right₀ (by norm_num) (by omega)
    have h2 : ((dim : K) + 1) * (n + 2) ^ 2 ≤ 7 * 402 ^ 2 :=
      mul_le_mul (by linarith) (pow_le_pow_left₀ (by linarith) (by linarith) 2) (by positivity) (by positivity)
    have h3 := div_le_div_of_nonneg_right h1 (by positivity : (0 : K) ≤ 2 ^ 49)
    have h4 := div_le_div_of_nonneg_right h2 (by positivity : (0 : K) ≤ 2 ^ 52)
    refine (add_le_add h3 h4).trans ?_
    norm_num at hlo ⊢
    linarith
  · norm_num at hhi ⊢
    linarith
  · have h1 : 99 / 10 ≤ 10 ^ 9 * x := by norm_num at hlo ⊢; linarith
    nlinarith

/-! ## Predictions -/

/-- C132: a prediction is the affine function of the weights up to rounding. -/
theorem C132_predict {m : LinearModel K} {x : List K} {r : K} (hw : m.weights.length = m.dimension + 1)
    (hwd : Doubles m.weights) (hx : m.dimension ≤ x.length) (hdim : m.dimension < 2 ^ 32)
    (h : linearInterpolate m x = .ok r) :
    |r - affine m.dimension (vecFun m.weights) (vecFun x)| ≤ (m.dimension + 2) / 2 ^ 52 *
      (|vecFun m.weights 0| + ∑ j ∈ range m.dimension, |vecFun x j * vecFun m.weights (j + 1)|) +
        m.dimension / 2 ^ 1074 := by
  set d := m.dimension with hd
  set t : Nat → K := fun k => if k = 0 then vecFun m.weights 0 else fl (vecFun x (k - 1) * vecFun m.weights k) with ht
  have hw0 : IsDouble (vecFun m.weights 0) := vecFun_double hwd (by omega)
  have hp : Post (linearInterpolate m x) (fun s => IsDouble s ∧
      |s - ∑ k ∈ Ico 0 (d + 1), t k| ≤ gam (d + 1) * ∑ k ∈ Ico 0 (d + 1), |t k|) := by
    unfold linearInterpolate
    refine post_of (Mat.vat_vecFun (by omega)) ?_
    rw [← hd]
    refine forRange_post' (fun j s => IsDouble s ∧ |s - ∑ k ∈ Ico 0 (j + 1), t k| ≤ gam (j + 1) * ∑ k ∈ Ico 0 (j + 1), |t k|) ?_ ?_
    · refine ⟨hw0, ?_⟩
      simp only [ht]
      simp
      exact mul_nonneg (gam_nonneg 1) (abs_nonneg _)
    · rintro j s hj ⟨h1, h2⟩
      refine post_of (Mat.vat_vecFun (by omega)) ?_
      refine post_of (Mat.vat_vecFun (by omega)) ?_
      refine Post.bind (P := fun v => v = t (j + 1)) (fun v hv => dbl_ok hv) ?_
      rintro _ rfl
      intro q hq
      obtain rfl := dbl_ok hq
      exact ⟨fl_isDouble _, sum_step (a := 0) (Nat.zero_le _) h1 (fl_isDouble _) h2⟩
  obtain ⟨-, h1⟩ := hp r h
  rw [← range_eq_Ico, sum_range_succ', sum_range_succ'] at h1
  have e1 : ∀ k, t (k + 1) = fl (vecFun x k * vecFun m.weights (k + 1)) := fun k => rfl
  have e2 : t 0 = vecFun m.weights 0 := rfl
  simp only [e1, e2] at h1
  have hcard : ∑ _k ∈ range d, (eta : K) = d * eta := by rw [sum_const, card_range, nsmul_eq_mul]
  set w0 := vecFun m.weights 0 with hw0d
  set T := ∑ k ∈ range d, |vecFun x k * vecFun m.weights (k + 1)| with hT
  have hT0 : 0 ≤ T := sum_nonneg fun _ _ => abs_nonneg _
  have h2 : |∑ k ∈ range d, fl (vecFun x k * vecFun m.weights (k + 1)) - ∑ k ∈ range d, vecFun x k * vecFun m.weights (k + 1)| ≤
      eps * T + d * eta := by
    rw [← sum_sub_distrib, hT, mul_sum, ← hcard, ← sum_add_distrib]
    exact (abs_sum_le_sum_abs _ _).trans (sum_le_sum fun k _ => Dbl.fl_rel _)
  have h3 : ∑ k ∈ range d, |fl (vecFun x k * vecFun m.weights (k + 1))| ≤ (1 + eps) * T + d * eta := by
    rw [hT, mul_sum, ← hcard, ← sum_add_distrib]
    refine sum_le_sum fun k _ => ?_
    have h3 := Dbl.fl_rel (vecFun x k * vecFun m.weights (k + 1))
    have h4 := abs_sub_abs_le_abs_sub (fl (vecFun x k * vecFun m.weights (k + 1))) (vecFun x k * vecFun m.weights (k + 1))
    linarith
  have hg := gam_nonneg (K := K) (d + 1)
  have h4 := mul_le_mul_of_nonneg_left (add_le_add h3 (le_refl |w0|)) hg
  have h5 : |r - affine d (vecFun m.weights) (vecFun x)| ≤
      gam (d + 1) * ((1 + eps) * T + d * eta + |w0|) + (eps * T + d * eta) := by
    have e : r - affine d (vecFun m.weights) (vecFun x) =
        (r - (∑ k ∈ range d, fl (vecFun x k * vecFun m.weights (k + 1)) + w0)) +
        (∑ k ∈ range d, fl (vecFun x k * vecFun m.weights (k + 1)) - ∑ k ∈ range d, vecFun x k * vecFun m.weights (k + 1)) := by
      unfold affine
      rw [← hw0d]; ring
    rw [e]
    exact (abs_add_le _ _).trans (add_le_add (h1.trans h4) h2)
  have hgs := gam_succ (K := K) (d + 1)
  have hle := gam_le (K := K) (n := d + 2) (by omega)
  have hmono := gam_mono (K := K) (Nat.le_succ (d + 1))
  have hpow := pow_eps_le (K := K) (n := d + 1) (by omega)
  have hg1 : 1 + gam (d + 1) ≤ (2 : K) := by unfold gam; linarith
  have heta : (1 + gam (d + 1)) * (d * (eta : K)) ≤ d / 2 ^ 1074 := by
    have := mul_le_mul_of_nonneg_right hg1 (mul_nonneg (Nat.cast_nonneg (α := K) d) (eta_pos (K := K)).le)
    refine this.trans (le_of_eq ?_)
    rw [div_eq_mul_one_div, ← two_eta_eq]; ring
  refine h5.trans ?_
  have e3 : gam (d + 1) * ((1 + eps) * T + d * eta + |w0|) + (eps * T + d * eta) =
      gam (d + 1 + 1) * T + gam (d + 1) * |w0| + (1 + gam (d + 1)) * (d * (eta : K)) := by
    rw [hgs]; ring
  rw [e3]
  push_cast at hle
  have h6 : gam (d + 1 + 1) * T ≤ (d + 2) / 2 ^ 52 * T := mul_le_mul_of_nonneg_right hle hT0
  have h7 : gam (d + 1) * |w0| ≤ (d + 2) / 2 ^ 52 * |w0| :=
    mul_le_mul_of_nonneg_right (hmono.trans hle) (abs_nonneg _)
  rw [mul_add]
  linarith

/-! ## Outside the box -/

/-- The full claim: whatever the samples, training with the program's regularization succeeds for up to 99
parameters, as it does in exact arithmetic (C55). -/
def C132_full : Prop :=
  ∀ (m : LinearModel ℚ) (n dim : Nat) (X : Nat → Nat → ℚ), Trainable m n dim X → dim ≤ 99 →
    (∀ i j, i < n → j < dim → IsDouble (X i j) ∧ |X i j| ≤ 2 ^ 20) → Doubles m.data.y →
    m.regularization = some (lit (1 / 10 ^ 8)) → ∃ m', linearTrain m = .ok m'

/-- One sample with two parameters, far outside the box: both normalized coordinates are `2 ^ 14`. -/
def exOutlier : LinearModel ℚ :=
  ⟨2, 1, { SMData.new with X := ⟨1, 2, [2 ^ 14, 2 ^ 14]⟩, y := [1] }, [], some (lit (1 / 10 ^ 8)), true, true, false, false⟩

/-- C132: training fails on it: `2 ^ 28 + 1e-8` is rounded to `2 ^ 28`, the regularization is lost and the matrix
is singular. -/
theorem C132_false : ¬ C132_full := by
  intro h
  obtain ⟨m', e⟩ := h exOutlier 1 2 (fun _ _ => 2 ^ 14)
    ⟨rfl, rfl, rfl, by norm_num, rfl, by norm_num, ⟨rfl, rfl, rfl, by
      intro i j hi hj
      obtain rfl : i = 0 := by omega
      have : j = 0 ∨ j = 1 := by omega
      rcases this with rfl | rfl <;> rfl⟩, rfl⟩ (by norm_num)
    (fun i j _ _ => ⟨⟨1, 14, by norm_num, by norm_num, by norm_num⟩, by norm_num⟩)
    (by
      intro x hx
      have : x = 1 := by simpa [exOutlier] using hx
      rw [this]; exact isDouble_one) rfl
  have : (match linearTrain exOutlier with | .ok _ => true | .error _ => false) = false := by decide +kernel
  rw [e] at this
  cases this

/-! ## Concrete cases -/

/-- Three samples of one parameter on the line 1/3 + x. -/
def exLine : LinearModel ℚ :=
  ⟨1, 3, { SMData.new with X := ⟨3, 1, [0, 1 / 2, 1]⟩, y := [fl (1 / 3), fl (5 / 6), fl (4 / 3)] }, [],
    some (lit (1 / 10 ^ 8)), true, true, false, false⟩

theorem exLine_ready : TrainableInBox exLine 3 1 (fun i _ => (i : ℚ) / 2) (lit (1 / 10 ^ 8)) where
  ready := ⟨rfl, rfl, rfl, by norm_num, rfl, by norm_num, ⟨rfl, rfl, rfl, by
      intro i j hi hj
      obtain rfl : j = 0 := by omega
      have : i = 0 ∨ i = 1 ∨ i = 2 := by omega
      rcases this with rfl | rfl | rfl <;> decide +kernel⟩, rfl⟩
  regularization := rfl
  inBox := by
    intro i j hi _
    have : i = 0 ∨ i = 1 ∨ i = 2 := by omega
    rcases this with rfl | rfl | rfl <;> norm_num
  few := by norm_num
  narrow := by norm_num
  positive := by decide +kernel
  moderate := by decide +kernel
  double := fl_isDouble _
  bounded := by
    refine le_trans (b := 4) (by decide +kernel) ?_
    refine le_trans (b := 2 ^ 2) (by norm_num) (pow_le_pow_right₀ (by norm_num) (by norm_num))

/-- The theorems apply: training succeeds with a small residual. -/
example : ∃ m', linearTrain exLine = .ok m' ∧ m'.weights.length = 2 :=
  let ⟨m', e, h, _⟩ := C132_total exLine_ready (C132_room (by norm_num) (by norm_num)).1
    (C132_room (n := 3) (dim := 1) (by norm_num) (by norm_num)).2.1 (C132_room (n := 3) (by norm_num) (by norm_num)).2.2
  ⟨m', e, h⟩

/-- The weights are near 1/3 and 1 and are not the exact minimizer. -/
example : (match linearTrain exLine, exLine.train with
    | .ok m, .ok m' => (match m.weights, m'.weights with
      | [a, b], [a', b'] => decide (|a - 1 / 3| < 1 / 10 ^ 7 ∧ |b - 1| < 1 / 10 ^ 7 ∧ a ≠ a' ∧ b ≠ b')
      | _, _ => false)
    | _, _ => false) = true := by decide +kernel

/-- A prediction. -/
example : (match linearTrain exLine with
    | .ok m => (match linearInterpolate m [1 / 4] with
      | .ok r => decide (|r - 7 / 12| < 1 / 10 ^ 7)
      | _ => false)
    | _ => false) = true := by decide +kernel

end Rodeo
