import Verif.Lemmas.DblFit
import Verif.Model.DblVar
import Verif.Spec.DblVar

/-! # The variance of a Kriging model in doubles (proofs for C125) -/

set_option linter.unusedSectionVars false

namespace Rodeo.Dbl

open Spec Finset

section Size

variable {n : Nat} {F : Nat → Nat → ℝ} {μ κ t : ℝ} {x : Nat → ℝ}

/-- A form at a vector with one entry changed. -/
theorem quadForm_shift (hsym : Symm n F) {k : Nat} (hk : k < n) (c : ℝ) :
    quadForm n F (fun i => x i - if i = k then c else 0) =
      quadForm n F x - 2 * c * ∑ j ∈ range n, F k j * x j + c ^ 2 * F k k := by
  have hm0 : k ∈ range n := mem_range.2 hk
  unfold quadForm
  have s1 : ∀ i, i < n → ∑ j ∈ range n, (x i - if i = k then c else 0) * F i j * (x j - if j = k then c else 0) =
      ∑ j ∈ range n, x i * F i j * x j - c * (x i * F i k) -
        (if i = k then c * ∑ j ∈ range n, F i j * x j else 0) + (if i = k then c ^ 2 * F i k else 0) := by
    intro i hi
    have : ∀ j, (x i - if i = k then c else 0) * F i j * (x j - if j = k then c else 0) =
        x i * F i j * x j - (if j = k then c * (x i * F i j) else 0) - (if i = k then c else 0) * (F i j * x j) +
          (if j = k then (if i = k then c ^ 2 * F i j else 0) else 0) := by
      intro j; split_ifs <;> ring
    rw [sum_congr rfl fun j _ => this j, sum_add_distrib, sum_sub_distrib, sum_sub_distrib, ← mul_sum]
    rw [sum_ite_eq' (range n) k (fun j => c * (x i * F i j)), if_pos hm0]
    rw [sum_ite_eq' (range n) k (fun j => if i = k then c ^ 2 * F i j else 0), if_pos hm0]
    split_ifs <;> ring
  rw [sum_congr rfl fun i hi => s1 i (mem_range.1 hi), sum_add_distrib, sum_sub_distrib, sum_sub_distrib, ← mul_sum]
  rw [sum_ite_eq' (range n) k (fun i => c * ∑ j ∈ range n, F i j * x j), if_pos hm0]
  rw [sum_ite_eq' (range n) k (fun i => c ^ 2 * F i k), if_pos hm0]
  have : ∑ i ∈ range n, x i * F i k = ∑ j ∈ range n, F k j * x j :=
    sum_congr rfl fun i hi => by rw [hsym i k (mem_range.1 hi) hk]; ring
  rw [this]
  ring

/-- A row of a product, by the energy. -/
theorem row_energy (hF : PosSemidef n F) (hsym : Symm n F) {M : ℝ} (hM : ∀ i, i < n → F i i ≤ M) {k : Nat}
    (hk : k < n) {c : ℝ} :
    2 * c * |∑ j ∈ range n, F k j * x j| ≤ quadForm n F x + c ^ 2 * M := by
  have h1 := hF (fun i => x i - if i = k then c else 0)
  have h2 := hF (fun i => x i - if i = k then -c else 0)
  rw [quadForm_shift hsym hk] at h1 h2
  have h3 := mul_le_mul_of_nonneg_left (hM k hk) (sq_nonneg c)
  rcases abs_cases (∑ j ∈ range n, F k j * x j) with ⟨e, -⟩ | ⟨e, -⟩ <;> rw [e] <;> nlinarith

/-- The product of a right-hand side with the computed solution is not small, also after subtracting the
rounding errors of a dot product. -/
theorem energy_dot (hμ : ∀ x : Nat → ℝ, μ * ∑ p ∈ range n, x p ^ 2 ≤ quadForm n F x) (hμ0 : 0 < μ)
    (hsym : Symm n F) {M h : ℝ} (hM0 : 0 < M) (hM : ∀ i, i < n → F i i ≤ M) (hh0 : 0 ≤ h) (hh : h ≤ 1 / 2 ^ 20)
    (hκ : n * κ ≤ 15 / 16 * μ) (hκ0 : κ = 25 / 8 * h * M) (ht : 0 ≤ t) {b : Nat → ℝ}
    (hr : ∀ i, i < n → |b i - ∑ j ∈ range n, F i j * x j| ≤ κ * ∑ j ∈ range n, |x j| + t) :
    quadForm n F x / 32 - 2 * ((∑ j ∈ range n, |x j|) * t) ≤
      ∑ i ∈ range n, x i * b i - 2 * h * ∑ i ∈ range n, |x i * b i| := by
  have hκ00 : 0 ≤ κ := by rw [hκ0]; positivity
  have hpsd : PosSemidef n F := fun y => le_trans (mul_nonneg hμ0.le (sum_nonneg fun _ _ => sq_nonneg _)) (hμ y)
  have h1 := norm_energy (x := x) hμ hμ0
  have h2 := (abs_le.1 (energy_near hr)).2
  set A := ∑ j ∈ range n, |x j| with hA
  have hA0 : 0 ≤ A := sum_nonneg fun _ _ => abs_nonneg _
  set Q := quadForm n F x with hQd
  have hQ0 : 0 ≤ Q := hpsd x
  have h3 : κ * A ^ 2 ≤ 15 / 16 * Q := by
    have a1 := mul_le_mul_of_nonneg_left h1 hκ00
    have a2 := mul_le_mul_of_nonneg_right hκ hQ0
    have : μ * (κ * A ^ 2) ≤ μ * (15 / 16 * Q) := by linarith
    exact le_of_mul_le_mul_left this hμ0
  -- the absolute terms
  have h4 : ∀ i, i < n → h * A * |∑ j ∈ range n, F i j * x j| ≤ Q / 200 := by
    intro i hi
    have a1 := row_energy (x := x) hpsd hsym hM hi (c := 128 * (h * A))
    have a2 : h * A ^ 2 * M ≤ 3 / 10 * Q := by rw [hκ0] at h3; linarith
    have a3 : h * (h * A ^ 2 * M) ≤ 1 / 2 ^ 20 * (3 / 10 * Q) := mul_le_mul hh a2 (by positivity) (by norm_num)
    have a4 : (128 * (h * A)) ^ 2 * M = 128 ^ 2 * (h * (h * A ^ 2 * M)) := by ring
    rw [a4] at a1
    norm_num at a1 a3
    linarith
  have h5 : h * ∑ i ∈ range n, |x i * b i| ≤ Q / 200 + h * (A * (κ * A + t)) := by
    have a1 : ∑ i ∈ range n, |x i * b i| ≤
        ∑ i ∈ range n, |x i| * (|∑ j ∈ range n, F i j * x j| + (κ * A + t)) := by
      refine sum_le_sum fun i hi => ?_
      rw [abs_mul]
      refine mul_le_mul_of_nonneg_left ?_ (abs_nonneg _)
      have := hr i (mem_range.1 hi)
      have e := abs_add_le (b i - ∑ j ∈ range n, F i j * x j) (∑ j ∈ range n, F i j * x j)
      rw [sub_add_cancel] at e
      linarith
    rcases hA0.eq_or_lt with h0 | h0
    · have : ∑ i ∈ range n, |x i| * (|∑ j ∈ range n, F i j * x j| + (κ * A + t)) = 0 := by
        refine sum_eq_zero fun i hi => ?_
        have : |x i| = 0 := by
          have h00 : ∑ j ∈ range n, |x j| = 0 := by rw [← hA, ← h0]
          exact (sum_eq_zero_iff_of_nonneg fun _ _ => abs_nonneg _).1 h00 i hi
        rw [this, zero_mul]
      rw [this] at a1
      have a2 := mul_le_mul_of_nonneg_left a1 hh0
      rw [← h0]
      linarith
    · have a2 : ∑ i ∈ range n, |x i| * (|∑ j ∈ range n, F i j * x j| + (κ * A + t)) =
          ∑ i ∈ range n, |x i| * |∑ j ∈ range n, F i j * x j| + A * (κ * A + t) := by
        rw [hA, sum_mul, ← sum_add_distrib]
        exact sum_congr rfl fun i _ => by ring
      have a3 : A * (h * ∑ i ∈ range n, |x i| * |∑ j ∈ range n, F i j * x j|) ≤ A * (Q / 200) := by
        have : A * (h * ∑ i ∈ range n, |x i| * |∑ j ∈ range n, F i j * x j|) =
            ∑ i ∈ range n, |x i| * (h * A * |∑ j ∈ range n, F i j * x j|) := by
          rw [mul_sum, mul_sum]
          exact sum_congr rfl fun i _ => by ring
        rw [this]
        calc ∑ i ∈ range n, |x i| * (h * A * |∑ j ∈ range n, F i j * x j|)
            ≤ ∑ i ∈ range n, |x i| * (Q / 200) :=
              sum_le_sum fun i hi => mul_le_mul_of_nonneg_left (h4 i (mem_range.1 hi)) (abs_nonneg _)
          _ = A * (Q / 200) := by rw [hA, sum_mul]
      have a4 := le_of_mul_le_mul_left a3 h0
      rw [a2] at a1
      have a5 := mul_le_mul_of_nonneg_left a1 hh0
      linarith
  have h6 : A * (κ * A + t) = κ * A ^ 2 + A * t := by ring
  rw [h6] at h2 h5
  have h7 : h * (κ * A ^ 2) ≤ 1 / 2 ^ 20 * (15 / 16 * Q) := mul_le_mul hh h3 (by positivity) (by norm_num)
  have h8 : h * (A * t) ≤ 1 / 2 ^ 20 * (A * t) := mul_le_mul_of_nonneg_right hh (by positivity)
  have h9 : 0 ≤ A * t := by positivity
  norm_num at h7 h8
  linarith

end Size

/-! ## Correlations with another point -/

/-- The form of the samples and one more point. -/
theorem point_energy {n m : Nat} {th ga : Nat → ℝ} {X : Nat → Nat → ℝ} (ht : ∀ k, k < m → 0 ≤ th k)
    (hg : ∀ k, k < m → 0 ≤ ga k ∧ ga k ≤ 2) (p z : Nat → ℝ) :
    2 * ∑ i ∈ range n, z i * expCorr m th ga p (X i) ≤ 1 + quadForm n (krigingMatrix m th ga 0 X) z := by
  set X' : Nat → Nat → ℝ := fun i => if i < n then X i else p with hX'
  have h1 : PosSemidef (n + 1) (krigingMatrix m th ga 0 X') :=
    Corr.expCorr_psd (F := X') ht hg (fun i _ => by simp [krigingMatrix])
      (fun i j _ _ hij => by simp [krigingMatrix, hij])
  have h2 := h1 (fun i => if i < n then z i else -1)
  have comm : ∀ u v : Nat → ℝ, expCorr m th ga u v = expCorr m th ga v u := fun u v => by
    unfold expCorr
    congr 2
    exact sum_congr rfl fun k _ => by rw [abs_sub_comm]
  have e : quadForm (n + 1) (krigingMatrix m th ga 0 X') (fun i => if i < n then z i else -1) =
      quadForm n (krigingMatrix m th ga 0 X) z - 2 * ∑ i ∈ range n, z i * expCorr m th ga p (X i) + 1 := by
    unfold quadForm
    rw [sum_range_succ]
    have a1 : ∀ i ∈ range n, ∑ j ∈ range (n + 1), (if i < n then z i else -1) * krigingMatrix m th ga 0 X' i j *
        (if j < n then z j else -1) =
          ∑ j ∈ range n, z i * krigingMatrix m th ga 0 X i j * z j - z i * expCorr m th ga p (X i) := by
      intro i hi
      have hi' := mem_range.1 hi
      rw [sum_range_succ]
      have b1 : ∑ j ∈ range n, (if i < n then z i else -1) * krigingMatrix m th ga 0 X' i j *
          (if j < n then z j else -1) = ∑ j ∈ range n, z i * krigingMatrix m th ga 0 X i j * z j :=
        sum_congr rfl fun j hj => by
          have hj' := mem_range.1 hj
          simp [krigingMatrix, hX', hi', hj']
      rw [b1]
      have : i ≠ n := by omega
      simp [krigingMatrix, hX', hi', this, comm (X i) p]
      ring
    have a2 : ∑ j ∈ range (n + 1), (if n < n then z n else -1) * krigingMatrix m th ga 0 X' n j *
        (if j < n then z j else -1) = 1 - ∑ j ∈ range n, z j * expCorr m th ga p (X j) := by
      rw [sum_range_succ]
      have b1 : ∑ j ∈ range n, (if n < n then z n else -1) * krigingMatrix m th ga 0 X' n j *
          (if j < n then z j else -1) = -∑ j ∈ range n, z j * expCorr m th ga p (X j) := by
        rw [← sum_neg_distrib]
        refine sum_congr rfl fun j hj => ?_
        have hj' := mem_range.1 hj
        have : n ≠ j := by omega
        simp [krigingMatrix, hX', hj', this]
        ring
      rw [b1]
      simp [krigingMatrix]
      ring
    rw [sum_congr rfl a1, a2, sum_sub_distrib]
    ring
  rw [e] at h2
  linarith

/-! ## Zeros are kept -/

/-- All cells are 0. -/
def Zeros (d : List (Option ℝ)) : Prop := ∀ c ∈ d, c = some 0

theorem Zeros.rd {d : List (Option ℝ)} (h : Zeros d) (i : Nat) : Post (Mem.rd d i) (fun v => v = 0) := by
  intro v hv
  unfold Mem.rd at hv
  split at hv
  · next u hu =>
    have := h _ (List.mem_of_getElem? hu)
    cases hv
    cases this
    rfl
  · cases hv

theorem Zeros.wr {d : List (Option ℝ)} (h : Zeros d) (i : Nat) : Post (Mem.wr d i (0 : ℝ)) Zeros := by
  intro d' hd
  unfold Mem.wr at hd
  split_ifs at hd
  cases hd
  intro c hc
  rcases List.mem_or_eq_of_mem_set hc with h1 | h1
  · exact h c h1
  · exact h1

theorem zeros_zeros (n : Nat) : Zeros (Mem.zeros n) := fun _ hc => List.eq_of_mem_replicate hc

theorem Zeros.freeze {d : List (Option ℝ)} (h : Zeros d) : Post (Mem.freeze d) (fun l => ∀ v ∈ l, v = 0) := by
  intro l hl v hv
  obtain ⟨i, hi, rfl⟩ := List.getElem_of_mem hv
  unfold Mem.freeze at hl
  obtain ⟨h1, h2⟩ := tab_inv hl
  obtain ⟨a, h3, h4⟩ := h2 i (by omega)
  have h5 : l[i] = a := by
    rw [List.getElem?_eq_getElem hi] at h4
    exact Option.some.inj h4
  rw [h5]
  exact h.rd i a h3

/-- A sum of zeros. -/
theorem sumFrom_zero {a b : Nat} (hab : a ≤ b) {f : Nat → Res ℝ} (hf : ∀ k, a ≤ k → k < b → Post (f k) (fun v => v = 0)) :
    Post (sumFrom a b f) (fun v => v = 0) := by
  unfold sumFrom
  refine forFromTo_post (fun _ s => s = 0) hab rfl fun j s h1 h2 hs => ?_
  refine Post.bind (hf j h1 h2) fun v hv => ?_
  intro r hr
  rw [add_ok hr, hs, hv, add_zero, fl_zero]

theorem mul_zero_post {l v : ℝ} (hv : v = 0) : Post (mul l v) (fun r => r = 0) := fun r hr => by
  rw [mul_ok hr, hv, mul_zero, fl_zero]

/-- The solution for a right-hand side of zeros. -/
theorem solveCholesky_zero {A : Mat ℝ} {b : List ℝ} (hb : ∀ v ∈ b, v = 0) :
    Post (solveCholesky A b) (fun x => ∀ v ∈ x, v = 0) := by
  unfold solveCholesky
  split_ifs
  · exact Post.error
  dsimp only
  refine Post.bind (P := Zeros) (forRange_post' (fun _ => Zeros) (zeros_zeros _) fun i y hi hy => ?_) fun y hy => ?_
  · refine Post.bind (sumFrom_zero (Nat.zero_le _) fun k _ _ => ?_) fun s hs => ?_
    · exact Post.bind Post.trivial fun l _ => Post.bind (hy.rd k) fun v hv => mul_zero_post hv
    refine Post.bind (P := fun v => v = 0) (fun v hv => ?_) fun v hv => ?_
    · unfold vat at hv
      split at hv
      · next u hu => cases hv; exact hb _ (List.mem_of_getElem? hu)
      · cases hv
    refine Post.bind Post.trivial fun d _ => ?_
    refine Post.bind (P := fun v => v = 0) (fun r hr => by rw [sub_ok hr, hs, hv, sub_zero, fl_zero]) fun r hr => ?_
    refine Post.bind (P := fun v => v = 0) (fun q hq => by rw [(div_ok hq).2, hr, zero_div, fl_zero]) fun q hq => ?_
    subst hq
    exact hy.wr i
  refine Post.bind (P := Zeros) (forRange_post' (fun _ => Zeros) (zeros_zeros _) fun i x hi hx => ?_) fun x hx => hx.freeze
  refine Post.bind (sumFrom_zero (by omega) fun k _ _ => ?_) fun s hs => ?_
  · exact Post.bind Post.trivial fun l _ => Post.bind (hx.rd k) fun v hv => mul_zero_post hv
  refine Post.bind (hy.rd _) fun v hv => ?_
  refine Post.bind Post.trivial fun d _ => ?_
  refine Post.bind (P := fun v => v = 0) (fun r hr => by rw [sub_ok hr, hs, hv, sub_zero, fl_zero]) fun r hr => ?_
  refine Post.bind (P := fun v => v = 0) (fun q hq => by rw [(div_ok hq).2, hr, zero_div, fl_zero]) fun q hq => ?_
  subst hq
  exact hx.wr _

theorem rawAt_zero {v : List ℝ} (hv : ∀ t ∈ v, t = 0) (i : Nat) : Post (rawAt v i) (fun t => t = 0) := by
  intro t ht
  unfold rawAt at ht
  split at ht
  · next u hu => cases ht; exact hv _ (List.mem_of_getElem? hu)
  · cases ht

theorem dot_zero_left {v w : List ℝ} (hv : ∀ t ∈ v, t = 0) : Post (dot v w) (fun t => t = 0) := by
  unfold dot
  split_ifs
  · exact Post.error
  refine sumFrom_zero (Nat.zero_le _) fun k _ _ => ?_
  refine Post.bind (rawAt_zero hv k) fun a ha => Post.bind Post.trivial fun b _ => ?_
  rw [ha]
  intro r hr
  rw [mul_ok hr, zero_mul, fl_zero]

theorem dot_zero_right {v w : List ℝ} (hw : ∀ t ∈ w, t = 0) : Post (dot v w) (fun t => t = 0) := by
  unfold dot
  split_ifs
  · exact Post.error
  refine sumFrom_zero (Nat.zero_le _) fun k _ _ => ?_
  exact Post.bind Post.trivial fun a _ => Post.bind (rawAt_zero hw k) fun b hb => mul_zero_post hb

/-- The mean of outputs that are all 0. -/
theorem beta0_zero {Lf : Mat ℝ} {average : Bool} {y : List ℝ} (hy : ∀ t ∈ y, t = 0) :
    Post (beta0 Lf average y) (fun b => b = 0) := by
  unfold beta0
  split_ifs
  · unfold mean
    split_ifs
    · exact Post.error
    refine Post.bind (sumFrom_zero (Nat.zero_le _) fun k _ _ => rawAt_zero hy k) fun s hs => ?_
    intro b hb
    rw [(div_ok hb).2, hs, zero_div, fl_zero]
  · refine Post.bind (solveCholesky_zero hy) fun a ha => Post.bind Post.trivial fun _ _ =>
      Post.bind Post.trivial fun _ _ => Post.bind Post.trivial fun _ _ =>
      Post.bind (dot_zero_right ha) fun o ho => mul_zero_post ho

/-! ## Differences of outputs that are not tiny -/

/-- A double that is not tiny is a multiple of a power of 2. -/
theorem grid_of_le {x : ℝ} (h : IsDouble x) {e : ℤ} (hx : 2 ^ e ≤ |x|) :
    ∃ k : ℤ, x = k * 2 ^ (e - 52) := by
  obtain ⟨k, f, h1, h2, rfl⟩ := h
  by_cases hf : e - 52 ≤ f
  · obtain ⟨j, j1, -⟩ := zp_int (K := ℝ) (e := f - (e - 52)) (by omega)
    refine ⟨k * j, ?_⟩
    push_cast
    rw [← j1, mul_assoc, ← zp_add]
    congr 2
    omega
  · exfalso
    rw [abs_mul, abs_of_pos (zp (K := ℝ) f)] at hx
    have a1 : |(k : ℝ)| < 2 ^ (53 : ℤ) := by
      rw [← Int.cast_abs]
      have : ((|k| : ℤ) : ℝ) < ((2 ^ 53 : ℤ) : ℝ) := by exact_mod_cast h1
      refine this.trans_le (le_of_eq ?_)
      norm_num
    have a2 := mul_lt_mul_of_pos_right a1 (zp (K := ℝ) f)
    rw [← zp_add] at a2
    have a3 : (2 : ℝ) ^ (53 + f) ≤ 2 ^ e := zp_mono (by omega)
    linarith

/-- The computed differences of outputs from a number are all 0, or one of them is not tiny. -/
theorem diff_gap {n : Nat} {y : Nat → ℝ} {b : ℝ} (hb : IsDouble b)
    (hy : ∀ i, i < n → IsDouble (y i) ∧ (y i = 0 ∨ 2 ^ (-200 : ℤ) ≤ |y i|)) (h0 : (∀ i, i < n → y i = 0) → b = 0) :
    (∀ i, i < n → fl (y i - b) = 0) ∨ ∃ i, i < n ∧ 2 ^ (-253 : ℤ) ≤ |fl (y i - b)| := by
  by_cases hall : ∀ i, i < n → y i = 0
  · left
    intro i hi
    rw [hall i hi, h0 hall, sub_zero, fl_zero]
  by_cases hex : ∃ i, i < n ∧ 2 ^ (-253 : ℤ) ≤ |fl (y i - b)|
  · exact Or.inr hex
  left
  simp only [not_exists, not_and, not_le, not_forall] at hex hall
  have hd253 : IsDouble ((2 : ℝ) ^ (-253 : ℤ)) := ⟨1, -253, by norm_num, by norm_num, by simp⟩
  have small : ∀ i, i < n → |y i - b| < 2 ^ (-253 : ℤ) := by
    intro i hi
    by_contra hlt
    rw [not_lt] at hlt
    have h1 := hex i hi
    rcases abs_cases (y i - b) with ⟨e, -⟩ | ⟨e, -⟩
    · rw [e] at hlt
      exact absurd (double_le_fl hd253 hlt) (not_le.2 ((le_abs_self _).trans_lt h1))
    · rw [e] at hlt
      have := fl_le_double (isDouble_neg hd253) (show y i - b ≤ -2 ^ (-253 : ℤ) by linarith)
      have h2 := neg_abs_le (fl (y i - b))
      linarith
  have two : (2 : ℝ) ^ (-200 : ℤ) = 2 * 2 ^ (-201 : ℤ) := by
    rw [show (-200 : ℤ) = 1 + -201 by norm_num, zp_add]; norm_num
  have lt1 : (2 : ℝ) ^ (-253 : ℤ) ≤ 2 ^ (-201 : ℤ) := zp_mono (by norm_num)
  obtain ⟨k, hk, hk0⟩ := hall
  have hbl : 2 ^ (-201 : ℤ) ≤ |b| := by
    have h1 := (hy k hk).2.resolve_left hk0
    have h2 := small k hk
    have h3 := abs_sub_abs_le_abs_sub (y k) b
    linarith
  obtain ⟨p, hp⟩ := grid_of_le hb hbl
  intro i hi
  have h1 := small i hi
  rcases (hy i hi).2 with h2 | h2
  · exfalso
    rw [h2, zero_sub, abs_neg] at h1
    linarith
  · obtain ⟨q, hq⟩ := grid_of_le (hy i hi).1 (e := -201) ((zp_mono (by norm_num)).trans h2)
    have e : y i - b = ((q - p : ℤ) : ℝ) * 2 ^ (-253 : ℤ) := by
      rw [hq, hp]
      push_cast
      ring
    have hz : q - p = 0 := by
      rw [e, abs_mul, abs_of_pos (zp (K := ℝ) (-253 : ℤ))] at h1
      have h3 : |((q - p : ℤ) : ℝ)| < 1 := by
        by_contra hh
        rw [not_lt] at hh
        have := mul_le_mul_of_nonneg_right hh (zp (K := ℝ) (-253)).le
        linarith
      rw [← Int.cast_abs] at h3
      have h4 : |q - p| < 1 := by exact_mod_cast h3
      exact Int.abs_lt_one_iff.1 h4
    rw [e, hz]
    simp [fl_zero]

/-! ## The system of a model with a margin -/

/-- What is known of the matrix of a model whose margin is above the rounding errors. -/
structure Sys (sqrt : ℝ → ℝ) (L : Libm ℝ) (s : Corr.ExpCorr ℝ) (n m : Nat) (F : Nat → Nat → ℝ) (R : Mat ℝ)
    (G : Nat → Nat → ℝ) (Lf : Mat ℝ) (M μ t : ℝ) : Prop where
  matrix : correlationMatrix L s = .ok R
  factor : cholesky sqrt R = .ok (Lf, 1)
  pivots : ∃ H, IsMat Lf n n (lowerPart H) ∧ GoodInv n M G H n
  sym : Symm n G
  near : ∀ i j, i < n → j < n →
    |G i j - krigingMatrix m (vecFun s.theta) (vecFun s.gamma) s.base.epsilon F i j| ≤ ((m : ℝ) + 10) / 2 ^ 54
  M_eq : M = 1 + 2 * s.base.epsilon
  one_le : 1 ≤ M
  le_three : M ≤ 3
  entry : ∀ i j, i < n → j < n → |G i j| ≤ M
  mu_eq : μ = s.base.epsilon - n * ((m : ℝ) + 10) / 2 ^ 54
  margin : ∀ x : Nat → ℝ, μ * ∑ p ∈ range n, x p ^ 2 ≤ quadForm n G x
  mu_low : 10 / 3 * (((n : ℝ) + 1) * hh n) * M ≤ μ
  mu_pos : 0 < μ
  kappa : (n : ℝ) * (25 / 8 * hh n * M) ≤ 15 / 16 * μ
  t_pos : 0 < t
  t_eq : t = 2 ^ (-400 : ℤ)
  t_le : t ≤ 1 / 2 ^ 200
  solve : ∀ b : List ℝ, b.length = n → Doubles b →
    (∀ a, a < n → |vecFun b a| ≤ 2 ^ (100 : ℤ)) → ∃ x, solveCholesky Lf b = .ok x ∧ x.length = n ∧
      ∀ i, i < n → |vecFun b i - ∑ j ∈ range n, G i j * vecFun x j| ≤
        25 / 8 * hh n * M * ∑ j ∈ range n, |vecFun x j| + t
  size : ∀ b x : List ℝ, ∀ Y : ℝ, 0 ≤ Y → (∀ a, a < n → |vecFun b a| ≤ Y) →
    (∀ i, i < n → |vecFun b i - ∑ j ∈ range n, G i j * vecFun x j| ≤
        25 / 8 * hh n * M * ∑ j ∈ range n, |vecFun x j| + t) →
    ∑ j ∈ range n, |vecFun x j| ≤ 2 ^ 54 * (Y + t)

theorem system_ok {sqrt : ℝ → ℝ} (hs : IsSqrt sqrt) {L : Libm ℝ} (hL : Accurate L) {s : Corr.ExpCorr ℝ} {n m : Nat}
    {F : Nat → Nat → ℝ} (h : ReadyDbl s n m F) (hn0 : 0 < n) (hn : n < 2 ^ 32) (hm : m ≤ 2 ^ 32)
    (hc : 10 / 3 * (((n : ℝ) + 1) * ((n + 2) / 2 ^ 53)) * (1 + 2 * s.base.epsilon) + n * ((m : ℝ) + 10) / 2 ^ 54 ≤
      s.base.epsilon) :
    ∃ R G Lf M μ t, Sys sqrt L s n m F R G Lf M μ t := by
  obtain ⟨R, G, h1, h2, h3, h4, h5, h6, h7⟩ := matrix_near hL h hm
  obtain ⟨e1, e2, e3⟩ := h.epsilon_range
  set e := s.base.epsilon with he
  have hh1 := hh_low (K := ℝ) hn0
  have hh2 := hh_high (K := ℝ) hn.le
  have hn1 : (1 : ℝ) ≤ n := by exact_mod_cast hn0
  have hc2 : 10 / 3 * (((n : ℝ) + 1) * hh n) * (1 + 2 * e) + n * ((m : ℝ) + 10) / 2 ^ 54 ≤ e := hc
  have hpos : 0 ≤ 10 / 3 * (((n : ℝ) + 1) * hh n) * (1 + 2 * e) := by
    have : 0 ≤ hh (K := ℝ) n := by linarith
    positivity
  obtain ⟨m1, m2⟩ := matrix_margin h hn0 (fun i j hi hj => (h4 i j hi hj).2) h7 (by rw [← he]; linarith)
  rw [← he] at m1 m2
  set μ := e - n * ((m : ℝ) + 10) / 2 ^ 54 with hμ
  set M := 1 + 2 * e with hM
  have hM1 : 1 ≤ M := by linarith
  have hM3 : M ≤ 3 := by linarith
  have hμ2 : 10 / 3 * (((n : ℝ) + 1) * hh n) * M ≤ μ := by linarith
  have hhM : 0 ≤ hh n * M := mul_nonneg (by linarith) (by linarith)
  have hκ : (n : ℝ) * (25 / 8 * hh n * M) ≤ 15 / 16 * μ := by nlinarith
  have hμ3 : 10 * (n : ℝ) / 2 ^ 53 ≤ μ := by
    have a1 : (3 / 2 ^ 53 : ℝ) * 1 ≤ hh n * M := mul_le_mul hh1 hM1 (by norm_num) (by linarith)
    have a2 : (n : ℝ) * (3 / 2 ^ 53) ≤ (n + 1) * (hh n * M) :=
      mul_le_mul (by linarith) (by linarith) (by norm_num) (by linarith)
    have a3 : 10 * (n : ℝ) / 2 ^ 53 = 10 / 3 * (n * (3 / 2 ^ 53)) := by ring
    rw [a3]
    linarith
  have hμ0 : 0 < μ := lt_of_lt_of_le (by positivity) hμ3
  have hz1 : (2 : ℝ) ^ (-100 : ℤ) ≤ M := by
    have : (2 : ℝ) ^ (-100 : ℤ) ≤ 2 ^ (0 : ℤ) := zp_mono (by norm_num)
    rw [zpow_zero] at this
    linarith
  have h100 : (2 : ℝ) ^ (100 : ℤ) = 2 ^ 100 := zp_nat 100
  obtain ⟨Lf, f1, f0, f2⟩ := factor_solve hs h2 h3 hn0 hn.le (fun i j hi hj => (h4 i j hi hj).1) hz1
    (by rw [h100]; norm_num; linarith) m2 m1 (by
      have : 17 / 16 * ((n : ℝ) + 5) * (hh n * M) ≤ 10 / 3 * (n + 1) * (hh n * M) :=
        mul_le_mul_of_nonneg_right (by linarith) hhM
      linarith)
  obtain ⟨t0, t1⟩ := tiny400
  refine ⟨R, G, Lf, M, μ, 2 ^ (-400 : ℤ), h1, f1, f0, h3, h7, rfl, hM1, hM3, m2, rfl, m1, hμ2, hμ0, hκ, t0, rfl, t1, f2, ?_⟩
  intro b x Y hY0 hY hr
  have := solve_size m1 hμ0 hκ t0.le hY0 hY hr
  generalize (2 : ℝ) ^ (-400 : ℤ) = t at this t0
  set A := ∑ j ∈ range n, |vecFun x j| with hA
  have hA0 : 0 ≤ A := sum_nonneg fun _ _ => abs_nonneg _
  have a1 := mul_le_mul_of_nonneg_right hμ3 hA0
  have a2 : 10 * (n : ℝ) / 2 ^ 53 * A = n * (10 / 2 ^ 53 * A) := by ring
  have a3 : (n : ℝ) * (10 / 2 ^ 53 * A) ≤ n * (16 * (Y + t)) := by linarith
  have a4 := le_of_mul_le_mul_left a3 (by linarith)
  have a5 : A = 2 ^ 53 / 10 * (10 / 2 ^ 53 * A) := by ring
  rw [a5]
  have a6 := mul_le_mul_of_nonneg_left a4 (show (0 : ℝ) ≤ 2 ^ 53 / 10 by norm_num)
  refine a6.trans ?_
  have : 0 ≤ Y + t := by linarith
  norm_num
  nlinarith

section System

variable {sqrt : ℝ → ℝ} {L : Libm ℝ} {s : Corr.ExpCorr ℝ} {n m : Nat} {F G : Nat → Nat → ℝ} {R Lf : Mat ℝ}
  {M μ t : ℝ}

/-- The solution for ones: its entries have a sum that is not small. -/
theorem Sys.ones (S : Sys sqrt L s n m F R G Lf M μ t) (hn0 : 0 < n) (hn : n < 2 ^ 32) :
    ∃ b oo, solveCholesky Lf (List.replicate n 1) = .ok b ∧ b.length = n ∧
      ∑ j ∈ range n, |vecFun b j| ≤ 2 ^ 55 ∧ dot (List.replicate n 1) b = .ok oo ∧ 1 / 256 ≤ oo ∧ oo ≤ 2 ^ 57 := by
  have hrep : (List.replicate n (1 : ℝ)).length = n := by simp
  have h100 : (2 : ℝ) ^ (100 : ℤ) = 2 ^ 100 := zp_nat 100
  have hh1 := hh_low (K := ℝ) hn0
  have hh2 := hh_high (K := ℝ) hn.le
  have ht1 := S.t_le
  have hM1 := S.one_le
  have hM3 := S.le_three
  obtain ⟨b, eb, lb, rb⟩ := S.solve _ hrep (doubles_replicate n) (fun i hi => by
    rw [vecFun_replicate hi, h100]; norm_num)
  have sb := S.size _ b 1 (by norm_num) (fun i hi => by rw [vecFun_replicate hi]; norm_num) rb
  have one : ∀ c : List ℝ, ∀ i ∈ range n, vecFun (List.replicate n (1 : ℝ)) i * vecFun c i = vecFun c i :=
    fun c i hi => by rw [vecFun_replicate (mem_range.1 hi), one_mul]
  have tot : ∀ c : List ℝ, ∑ i ∈ range n, |vecFun (List.replicate n (1 : ℝ)) i * vecFun c i| =
      ∑ i ∈ range n, |vecFun c i| := fun c => sum_congr rfl fun i hi => by rw [one c i hi]
  have tot' : ∀ c : List ℝ, ∑ i ∈ range n, vecFun (List.replicate n (1 : ℝ)) i * vecFun c i =
      ∑ i ∈ range n, vecFun c i := fun c => sum_congr rfl fun i hi => one c i hi
  have sb' : ∑ j ∈ range n, |vecFun b j| ≤ 2 ^ 55 := by
    refine sb.trans ?_
    norm_num at ht1 ⊢
    linarith
  obtain ⟨oneB, eB, dB, uB, nB⟩ := dot_size hrep lb hn (T := 2 ^ 55) (by rw [tot]; exact sb') (by norm_num)
  rw [tot, tot'] at nB
  refine ⟨b, oneB, eb, lb, sb', eB, ?_, (le_abs_self _).trans (uB.trans (by norm_num))⟩
  have := ones_sum (x := vecFun b) S.margin S.mu_pos hn0 S.sym (by linarith : (0 : ℝ) < M)
    ((le_abs_self _).trans (S.entry 0 0 hn0 hn0)) (by linarith) hh2 S.kappa rfl (ht1.trans (by norm_num)) (fun i hi => by
      have := rb i hi
      rwa [vecFun_replicate hi] at this)
  have h1 : 1 / 192 ≤ 1 / (64 * M) := by
    rw [div_le_div_iff₀ (by norm_num) (by linarith)]; linarith
  have h2 := (abs_le.1 nB).1
  have h3 : (∑ j ∈ range n, |vecFun b j|) * t ≤ 2 ^ 55 * (1 / 2 ^ 200) :=
    mul_le_mul sb' ht1 S.t_pos.le (by norm_num)
  have h4 : (2 : ℝ) ^ 55 * (1 / 2 ^ 200) ≤ 1 / 10000 := by norm_num
  have h5 : (1 : ℝ) / 2 ^ 100 ≤ 1 / 10000 := by norm_num
  linarith

/-- The product of the differences with the weights is not negative, also as computed. -/
theorem Sys.energy (S : Sys sqrt L s n m F R G Lf M μ t) (hn0 : 0 < n) (hn : n < 2 ^ 32) {d w : List ℝ} {q : ℝ}
    (ld : d.length = n) (lw : w.length = n) (sd : ∀ i, i < n → |vecFun d i| ≤ 2 ^ 96)
    (sw : ∑ j ∈ range n, |vecFun w j| ≤ 2 ^ 151)
    (hr : ∀ i, i < n → |vecFun d i - ∑ j ∈ range n, G i j * vecFun w j| ≤
        25 / 8 * hh n * M * ∑ j ∈ range n, |vecFun w j| + t)
    (gap : (∀ i, i < n → vecFun d i = 0) ∨ ∃ i, i < n ∧ 2 ^ (-253 : ℤ) ≤ |vecFun d i|)
    (hq : dot d w = .ok q) : 0 ≤ q ∧ ((∃ i, i < n ∧ vecFun d i ≠ 0) → 2 ^ (-600 : ℤ) ≤ q) := by
  rcases gap with gap | ⟨k, hk, gap⟩
  · have : ∀ v ∈ d, v = 0 := by
      intro v hv
      obtain ⟨i, hi, rfl⟩ := List.getElem_of_mem hv
      have := gap i (by omega)
      simpa [vecFun, hi] using this
    exact ⟨(dot_zero_left this q hq).ge, fun ⟨i, hi, h0⟩ => absurd (gap i hi) h0⟩
  have hh1 := hh_low (K := ℝ) hn0
  have hh2 := hh_high (K := ℝ) hn.le
  have hM1 := S.one_le
  have hM3 := S.le_three
  have hn1 : (1 : ℝ) ≤ n := by exact_mod_cast hn0
  have hT : ∑ i ∈ range n, |vecFun d i * vecFun w i| ≤ 2 ^ 1000 := by
    have : ∑ i ∈ range n, |vecFun d i * vecFun w i| ≤ ∑ i ∈ range n, 2 ^ 96 * |vecFun w i| :=
      sum_le_sum fun i hi => by
        rw [abs_mul]
        exact mul_le_mul_of_nonneg_right (sd i (mem_range.1 hi)) (abs_nonneg _)
    rw [← mul_sum] at this
    refine this.trans ((mul_le_mul_of_nonneg_left sw (by positivity)).trans ?_)
    rw [← pow_add]
    exact pow_le_pow_right₀ (by norm_num) (by norm_num)
  obtain ⟨q', hq', -, nq⟩ := C115_dot ld lw hn hT
  rw [hq] at hq'
  cases hq'
  have hE := energy_dot (x := vecFun w) (b := vecFun d) S.margin S.mu_pos S.sym (by linarith : (0 : ℝ) < M)
    (fun i hi => (le_abs_self _).trans (S.entry i i hi hi)) (by linarith) hh2 S.kappa rfl S.t_pos.le hr
  have hN := norm_energy (x := vecFun w) S.margin S.mu_pos
  have c1 : ∑ i ∈ range n, vecFun w i * vecFun d i = ∑ i ∈ range n, vecFun d i * vecFun w i :=
    sum_congr rfl fun i _ => mul_comm _ _
  have c2 : ∑ i ∈ range n, |vecFun w i * vecFun d i| = ∑ i ∈ range n, |vecFun d i * vecFun w i| :=
    sum_congr rfl fun i _ => by rw [mul_comm]
  rw [c1, c2] at hE
  have hrk := hr k hk
  set A := ∑ j ∈ range n, |vecFun w j| with hA
  set Q := quadForm n G (vecFun w) with hQ
  set T := ∑ i ∈ range n, |vecFun d i * vecFun w i| with hTd
  have hA0 : 0 ≤ A := sum_nonneg fun _ _ => abs_nonneg _
  have hT0 : 0 ≤ T := sum_nonneg fun _ _ => abs_nonneg _
  have h5 : ((n : ℝ) + 1) / 2 ^ 52 * T ≤ 2 * hh n * T := by
    refine mul_le_mul_of_nonneg_right ?_ hT0
    unfold hh
    rw [show (2 : ℝ) * (((n : ℝ) + 2) / 2 ^ 53) = ((n : ℝ) + 2) / 2 ^ 52 by ring]
    gcongr
    norm_num
  -- the energy against the size
  have hQA : 10 / 2 ^ 53 * A ^ 2 ≤ Q := by
    have a0 : 3 / 2 ^ 53 * 1 ≤ hh n * M := mul_le_mul hh1 hM1 (by norm_num) (by linarith)
    have a1 : (n : ℝ) * (10 / 2 ^ 53) ≤ μ := by
      refine le_trans ?_ S.mu_low
      have : (n : ℝ) * (3 / 2 ^ 53) ≤ (n + 1) * (hh n * M) :=
        mul_le_mul (by linarith) (by linarith) (by norm_num) (by linarith)
      have e : (n : ℝ) * (10 / 2 ^ 53) = 10 / 3 * (n * (3 / 2 ^ 53)) := by ring
      rw [e]
      linarith
    have a2 := mul_le_mul_of_nonneg_right a1 (sq_nonneg A)
    have a3 : (n : ℝ) * (10 / 2 ^ 53 * A ^ 2) ≤ n * Q := by linarith
    exact le_of_mul_le_mul_left a3 (by linarith)
  -- the solution is not tiny
  have hAlow : (2 : ℝ) ^ (-256 : ℤ) ≤ A := by
    have b1 : |∑ j ∈ range n, G k j * vecFun w j| ≤ M * A := by
      rw [hA, mul_sum]
      refine (abs_sum_le_sum_abs _ _).trans (sum_le_sum fun j hj => ?_)
      rw [abs_mul]
      exact mul_le_mul_of_nonneg_right (S.entry k j hk (mem_range.1 hj)) (abs_nonneg _)
    have b2 := abs_add_le (vecFun d k - ∑ j ∈ range n, G k j * vecFun w j) (∑ j ∈ range n, G k j * vecFun w j)
    rw [sub_add_cancel] at b2
    have b3 : 25 / 8 * hh n * M * A ≤ 1 * A := by
      refine mul_le_mul_of_nonneg_right ?_ hA0
      have : hh n * M ≤ 1 / 2 ^ 20 * 3 := mul_le_mul hh2 hM3 (by linarith) (by norm_num)
      norm_num at this
      linarith
    have b4 : M * A ≤ 3 * A := mul_le_mul_of_nonneg_right hM3 hA0
    have b5 : (2 : ℝ) ^ (-253 : ℤ) = 8 * 2 ^ (-256 : ℤ) := by
      rw [show (-253 : ℤ) = 3 + -256 by norm_num, zp_add]; norm_num
    have b6 : t ≤ 2 ^ (-256 : ℤ) := by rw [S.t_eq]; exact zp_mono (by norm_num)
    have b7 := zp (K := ℝ) (-256)
    linarith
  have hQ2 : 10 / 2 ^ 53 * A * 2 ^ (-256 : ℤ) ≤ 10 / 2 ^ 53 * A ^ 2 := by
    have := mul_le_mul_of_nonneg_left hAlow (show 0 ≤ 10 / 2 ^ 53 * A by positivity)
    refine this.trans (le_of_eq (by ring))
  have hu : (2 : ℝ) ^ (-400 : ℤ) = 2 ^ (-256 : ℤ) / 2 ^ 144 := by
    rw [show (-400 : ℤ) = -256 + -144 by norm_num, zp_add, div_eq_mul_inv, ← zp_nat, ← zpow_neg]
    norm_num
  have hv : (n : ℝ) / 2 ^ 1074 ≤ 2 ^ (-256 : ℤ) * (2 ^ (-256 : ℤ) / 2 ^ 144) := by
    have c1 : (n : ℝ) ≤ 2 ^ (32 : ℤ) := by
      rw [show (32 : ℤ) = ((32 : Nat) : ℤ) by norm_num, zp_nat]; exact_mod_cast hn.le
    have c2 : (n : ℝ) / 2 ^ 1074 ≤ 2 ^ (32 : ℤ) * 2 ^ (-1074 : ℤ) := by
      rw [div_eq_mul_inv]
      refine mul_le_mul c1 (le_of_eq ?_) (by positivity) (zp _).le
      rw [zpow_neg, ← zp_nat]
      norm_num
    refine c2.trans ?_
    rw [← hu, ← zp_add, ← zp_add]
    exact zp_mono (by norm_num)
  have ht := S.t_eq
  rw [hu] at ht
  have h6 := (abs_le.1 nq).1
  have hp := zp (K := ℝ) (-256)
  have hAu : 2 ^ (-256 : ℤ) * (2 ^ (-256 : ℤ) / 2 ^ 144) ≤ A * (2 ^ (-256 : ℤ) / 2 ^ 144) :=
    mul_le_mul_of_nonneg_right hAlow (by positivity)
  rw [ht] at hE
  have h600 : (2 : ℝ) ^ (-600 : ℤ) ≤ 1 / 2 ^ 56 * (2 ^ (-256 : ℤ) * 2 ^ (-256 : ℤ)) := by
    have : (1 : ℝ) / 2 ^ 56 = 2 ^ (-56 : ℤ) := by rw [zpow_neg, one_div, ← zp_nat]; rfl
    rw [this, ← zp_add, ← zp_add]
    exact zp_mono (by norm_num)
  generalize (2 : ℝ) ^ (-600 : ℤ) = l600 at *
  generalize (2 : ℝ) ^ (-256 : ℤ) = u at *
  generalize (n : ℝ) / 2 ^ 1074 = v at *
  have hAu0 : 0 ≤ A * u := mul_nonneg hA0 hp.le
  have huu : u * u ≤ A * u := mul_le_mul_of_nonneg_right hAlow hp.le
  have main : 1 / 2 ^ 56 * (u * u) ≤ q := by
    norm_num at hE hQA hQ2 hv hAu h5 h6 ⊢
    nlinarith
  have huu0 : 0 < u * u := mul_pos hp hp
  exact ⟨le_trans (by positivity) main, fun _ => h600.trans main⟩

/-- The largest value of the rounding errors that grow with the size of the solution, less what the margin
gains. -/
theorem linear_max {k g c A : ℝ} (hk0 : 0 ≤ k) (hk : k ≤ 1010) (hg3 : 3 ≤ g) (hg6 : g ≤ 1000002) (hA0 : 0 ≤ A)
    (hcC : c ≤ (k + 2.01 * g) / 2 ^ 53) : c * A - 5 / 24 * (g / 2 ^ 53) * A ^ 2 ≤ 7 / 10 ^ 10 := by
  have hC2 : (k + 2.01 * g) ^ 2 ≤ 4500000 * g := by
    have k1 : k ^ 2 ≤ 1010 ^ 2 := pow_le_pow_left₀ hk0 hk 2
    have k2 : k * g ≤ 1010 * g := mul_le_mul_of_nonneg_right hk (by linarith)
    have k3 : g ^ 2 ≤ 1000002 * g := by rw [sq]; exact mul_le_mul_of_nonneg_right hg6 (by linarith)
    have e : (k + 2.01 * g) ^ 2 = k ^ 2 + 4.02 * (k * g) + 4.0401 * g ^ 2 := by ring
    rw [e]
    norm_num at *
    linarith
  have b1 : c * A ≤ (k + 2.01 * g) / 2 ^ 53 * A := mul_le_mul_of_nonneg_right hcC hA0
  set C := k + 2.01 * g with hCd
  have b3 : C * A ≤ 5 / 24 * g * A ^ 2 + 6 / 5 * (C ^ 2 / g) := by
    have hg0 : 0 < g := by linarith
    have : 0 ≤ (5 / 12 * g * A - C) ^ 2 / (5 / 6 * g) := by positivity
    have e : (5 / 12 * g * A - C) ^ 2 / (5 / 6 * g) = 5 / 24 * g * A ^ 2 - C * A + 6 / 5 * (C ^ 2 / g) := by
      field_simp
      ring
    rw [e] at this
    linarith
  have b4 : C ^ 2 / g ≤ 4500000 := by
    rw [div_le_iff₀ (by linarith)]
    exact hC2
  have b5 : C / 2 ^ 53 * A - 5 / 24 * (g / 2 ^ 53) * A ^ 2 = (C * A - 5 / 24 * g * A ^ 2) / 2 ^ 53 := by ring
  have b6 : (C * A - 5 / 24 * g * A ^ 2) / 2 ^ 53 ≤ 6 / 5 * 4500000 / 2 ^ 53 :=
    div_le_div_of_nonneg_right (by linarith) (by norm_num)
  have b7 : (6 / 5 * 4500000 / 2 ^ 53 : ℝ) ≤ 7 / 10 ^ 10 := by norm_num
  linarith

/-- The product of the correlations with the solution for them exceeds 1 by less than the limit. -/
theorem Sys.point (S : Sys sqrt L s n m F R G Lf M μ t) (h : ReadyDbl s n m F) (hn0 : 0 < n) (hn : n ≤ 10 ^ 6)
    (hm : m ≤ 1000) {p : Nat → ℝ} {r z : List ℝ} {rr : ℝ} (lr : r.length = n) (lz : z.length = n)
    (hr0 : ∀ j, j < n → 0 ≤ vecFun r j)
    (hr : ∀ j, j < n → |vecFun r j - expCorr m (vecFun s.theta) (vecFun s.gamma) p (F j)| ≤ ((m : ℝ) + 10) / 2 ^ 54)
    (sz : ∑ j ∈ range n, |vecFun z j| ≤ 2 ^ 56)
    (hz : ∀ i, i < n → |vecFun r i - ∑ j ∈ range n, G i j * vecFun z j| ≤
        25 / 8 * hh n * M * ∑ j ∈ range n, |vecFun z j| + t)
    (hq : dot r z = .ok rr) : rr ≤ 1 + 1 / 2 ^ 30 := by
  have hn32 : n < 2 ^ 32 := by omega
  have hh1 := hh_low (K := ℝ) hn0
  have hM1 := S.one_le
  have hn1 : (1 : ℝ) ≤ n := by exact_mod_cast hn0
  have hnR : (n : ℝ) ≤ 10 ^ 6 := by exact_mod_cast hn
  have hmR : (m : ℝ) ≤ 1000 := by exact_mod_cast hm
  have hm0 : (0 : ℝ) ≤ m := Nat.cast_nonneg _
  have ht : ∀ k, k < m → 0 ≤ vecFun s.theta k := fun k hk =>
    (vecFun_all h.theta_range (k := k) (by rw [h.theta_len]; exact hk)).2.1
  have hg : ∀ k, k < m → 0 ≤ vecFun s.gamma k ∧ vecFun s.gamma k ≤ 2 := fun k hk =>
    (vecFun_all h.gamma_range (k := k) (by rw [h.gamma_len]; exact hk)).2
  set δ : ℝ := ((m : ℝ) + 10) / 2 ^ 54 with hδ
  have hδ0 : 0 ≤ δ := by positivity
  have hδ1 : δ ≤ 1 / 2 ^ 40 := by
    rw [hδ, div_le_div_iff₀ (by norm_num) (by norm_num)]
    norm_num
    linarith
  -- the size of the correlations
  have rB : ∀ j, j < n → |vecFun r j| ≤ 1 + δ := by
    intro j hj
    rw [abs_of_nonneg (hr0 j hj)]
    have a3 : expCorr m (vecFun s.theta) (vecFun s.gamma) p (F j) ≤ 1 := by
      rw [expCorr, Real.exp_le_one_iff, neg_nonpos]
      exact sum_nonneg (fun k hk => mul_nonneg (ht k (mem_range.1 hk)) (Real.rpow_nonneg (abs_nonneg _) _))
    have := (abs_le.1 (hr j hj)).2
    linarith
  set A := ∑ j ∈ range n, |vecFun z j| with hA
  have hA0 : 0 ≤ A := sum_nonneg fun _ _ => abs_nonneg _
  have hT : ∑ i ∈ range n, |vecFun r i * vecFun z i| ≤ (1 + δ) * A := by
    rw [hA, mul_sum]
    exact sum_le_sum fun i hi => by
      rw [abs_mul]
      exact mul_le_mul_of_nonneg_right (rB i (mem_range.1 hi)) (abs_nonneg _)
  obtain ⟨q, q1, -, -, q2⟩ := dot_size lr lz hn32 (T := 2 ^ 57) (hT.trans (by
    refine (mul_le_mul (show 1 + δ ≤ 2 by linarith [hδ1, show (1 : ℝ) / 2 ^ 40 ≤ 1 by norm_num]) sz hA0
      (by norm_num)).trans ?_
    norm_num)) (by norm_num)
  rw [hq] at q1
  cases q1
  -- the exact forms
  have p1 := point_energy (n := n) (X := F) ht hg p (vecFun z)
  have p2 : quadForm n (krigingMatrix m (vecFun s.theta) (vecFun s.gamma) 0 F) (vecFun z) =
      quadForm n (krigingMatrix m (vecFun s.theta) (vecFun s.gamma) s.base.epsilon F) (vecFun z) -
        s.base.epsilon * ∑ i ∈ range n, vecFun z i ^ 2 := by
    unfold quadForm
    rw [mul_sum, ← sum_sub_distrib]
    refine sum_congr rfl (fun i hi => ?_)
    have : ∀ j, vecFun z i * krigingMatrix m (vecFun s.theta) (vecFun s.gamma) 0 F i j * vecFun z j =
        vecFun z i * krigingMatrix m (vecFun s.theta) (vecFun s.gamma) s.base.epsilon F i j * vecFun z j -
          if i = j then s.base.epsilon * (vecFun z i * vecFun z j) else 0 := by
      intro j
      unfold krigingMatrix
      split_ifs <;> ring
    rw [sum_congr rfl (fun j _ => this j), sum_sub_distrib, sum_ite_eq, if_pos hi]
    ring
  have p3 := quadForm_diff hδ0 (fun i j hi hj => by rw [abs_sub_comm]; exact S.near i j hi hj) (vecFun z)
  have p4 := (abs_le.1 (energy_near hz)).2
  have p5 : 2 * ∑ i ∈ range n, vecFun z i * vecFun r i - 2 * δ * A ≤
      2 * ∑ i ∈ range n, vecFun z i * expCorr m (vecFun s.theta) (vecFun s.gamma) p (F i) := by
    have : |∑ i ∈ range n, vecFun z i * (vecFun r i - expCorr m (vecFun s.theta) (vecFun s.gamma) p (F i))| ≤ A * δ := by
      rw [hA, sum_mul]
      refine (abs_sum_le_sum_abs _ _).trans (sum_le_sum fun i hi => ?_)
      rw [abs_mul]
      exact mul_le_mul_of_nonneg_left (hr i (mem_range.1 hi)) (abs_nonneg _)
    have h1 := (abs_le.1 this).2
    simp only [mul_sub, sum_sub_distrib] at h1
    linarith
  have p6 := sq_abs_sum_le n (vecFun z)
  have c1 : ∑ i ∈ range n, vecFun z i * vecFun r i = ∑ i ∈ range n, vecFun r i * vecFun z i :=
    sum_congr rfl fun i _ => mul_comm _ _
  rw [c1] at p4 p5
  rw [p2] at p1
  set P := ∑ i ∈ range n, vecFun r i * vecFun z i with hP
  set N2 := ∑ i ∈ range n, vecFun z i ^ 2 with hN2
  set κ := 25 / 8 * hh n * M with hκ
  -- `P` is at most `1 + (2 δ + t) A + κ A ^ 2 - μ N2`
  have p7 : P ≤ 1 + (2 * δ + t) * A + κ * A ^ 2 - μ * N2 := by
    have e1 : μ * N2 = s.base.epsilon * N2 - δ * (n * N2) := by rw [S.mu_eq, hδ]; ring
    rw [e1]
    have e2 : A * (κ * A + t) = κ * A ^ 2 + t * A := by ring
    rw [e2] at p4
    linarith
  have p8 : μ * A ^ 2 ≤ n * (μ * N2) := by
    have := mul_le_mul_of_nonneg_left p6 S.mu_pos.le
    linarith
  have hhM : hh n ≤ hh n * M := by
    have := mul_le_mul_of_nonneg_left hM1 (show 0 ≤ hh (K := ℝ) n by linarith)
    linarith
  -- the quadratic term
  have p9 : κ * A ^ 2 + 5 / 24 * hh n * A ^ 2 ≤ μ * N2 := by
    have a1 : (n : ℝ) * (κ + 5 / 24 * hh n) ≤ μ := by
      refine le_trans ?_ S.mu_low
      rw [hκ]
      have : 0 ≤ hh n * M := by linarith
      nlinarith
    have a2 := mul_le_mul_of_nonneg_right a1 (sq_nonneg A)
    have a3 : (n : ℝ) * (κ * A ^ 2 + 5 / 24 * hh n * A ^ 2) ≤ n * (μ * N2) := by linarith
    exact le_of_mul_le_mul_left a3 (by linarith)
  have p10 := (abs_le.1 q2).2
  have p11 : 2 * hh n * ∑ i ∈ range n, |vecFun r i * vecFun z i| ≤ 2 * hh n * ((1 + δ) * A) :=
    mul_le_mul_of_nonneg_left hT (by linarith)
  have ht' : t ≤ 1 / 2 ^ 200 := S.t_le
  have p12 : rr ≤ 1 + (2 * δ + t + 2 * hh n * (1 + δ)) * A - 5 / 24 * hh n * A ^ 2 + 1 / 2 ^ 100 := by linarith
  -- the linear term
  set c := 2 * δ + t + 2 * hh n * (1 + δ) with hc
  have hcC : c ≤ (((m : ℝ) + 10) + 2.01 * (n + 2)) / 2 ^ 53 := by
    have b1 : 2 * hh n * (1 + δ) ≤ 2 * hh n * (1 + 1 / 2 ^ 40) :=
      mul_le_mul_of_nonneg_left (by linarith) (by linarith)
    have b2 : hh (K := ℝ) n = (n + 2) / 2 ^ 53 := rfl
    have b3 : 2 * δ = ((m : ℝ) + 10) / 2 ^ 53 := by rw [hδ]; ring
    rw [hc, b3]
    rw [b2] at b1 ⊢
    have b4 : t ≤ (n + 2) / 2 ^ 53 * (1 / 1000) := by
      refine ht'.trans ?_
      have : (1 : ℝ) / 2 ^ 53 * (1 / 1000) ≤ (n + 2) / 2 ^ 53 * (1 / 1000) := by
        refine mul_le_mul_of_nonneg_right ?_ (by norm_num)
        exact div_le_div_of_nonneg_right (by linarith) (by norm_num)
      refine le_trans ?_ this
      norm_num
    have b5 : (((m : ℝ) + 10) + 2.01 * (n + 2)) / 2 ^ 53 = ((m : ℝ) + 10) / 2 ^ 53 + 2.01 * ((n + 2) / 2 ^ 53) := by ring
    rw [b5]
    have b6 : (0 : ℝ) ≤ (n + 2) / 2 ^ 53 := by positivity
    generalize ((n : ℝ) + 2) / 2 ^ 53 = g at *
    norm_num at b1 ⊢
    linarith
  have hc0 : 0 ≤ c := by
    have := S.t_pos
    have : 0 ≤ 2 * hh n * (1 + δ) := mul_nonneg (by linarith) (by linarith)
    linarith
  have hmax := linear_max (k := (m : ℝ) + 10) (g := (n : ℝ) + 2) (by linarith) (by linarith) (by linarith)
    (by linarith) hA0 hcC
  have b2 : hh (K := ℝ) n = ((n : ℝ) + 2) / 2 ^ 53 := rfl
  rw [← b2] at hmax
  have : (7 : ℝ) / 10 ^ 10 + 1 / 2 ^ 100 ≤ 1 / 2 ^ 30 := by norm_num
  linarith

/-- The fit and the other members, for outputs that are 0 or not tiny. -/
theorem Sys.update (S : Sys sqrt L s n m F R G Lf M μ t) (hn0 : 0 < n) (hn : n < 2 ^ 32) {y : List ℝ}
    (hy : y.length = n) (hyd : Doubles y) (hys : ∀ a, a < n → |vecFun y a| ≤ 2 ^ 30)
    (hyl : ∀ a, a < n → vecFun y a = 0 ∨ 2 ^ (-200 : ℤ) ≤ |vecFun y a|) (average : Bool) :
    ∃ u oo, update sqrt L s average y = .ok (some u) ∧ fit sqrt L s average y = .ok (some u.fit) ∧ u.factor = Lf ∧
      u.onesSolution.length = n ∧
      ∑ j ∈ range n, |vecFun u.onesSolution j| ≤ 2 ^ 55 ∧ dot (List.replicate n 1) u.onesSolution = .ok oo ∧
      1 / 256 ≤ oo ∧ 0 ≤ u.fit.sigmaSquared ∧ u.fit.sigmaSquared ≤ 2 ^ 249 ∧ |u.fit.beta0| ≤ 2 ^ 95 ∧
      u.fit.weights.length = n ∧ ∑ j ∈ range n, |vecFun u.fit.weights j| ≤ 2 ^ 152 ∧
      ((∃ i j, i < n ∧ j < n ∧ vecFun y i ≠ vecFun y j) → 0 < u.fit.sigmaSquared) := by
  have h100 : (2 : ℝ) ^ (100 : ℤ) = 2 ^ 100 := zp_nat 100
  have hn1 : (1 : ℝ) ≤ n := by exact_mod_cast hn0
  obtain ⟨o, oo, o1, o2, o3, o4, o5, -⟩ := S.ones hn0 hn
  obtain ⟨b, b1, b2, b3⟩ := beta_ok S.t_pos S.t_le hn0 hn S.sym S.one_le S.le_three S.entry S.margin S.mu_low S.solve
    S.size hy hyd hys average
  have hdiff : ∀ i, i < n → |vecFun y i - b| ≤ 2 ^ 96 := fun i hi => by
    refine (abs_sub _ _).trans ?_
    have := hys i hi
    norm_num at this b3 ⊢
    linarith
  obtain ⟨d, d1, d2, d3, d4⟩ := subScalar_ok hy (b := b) fun i hi => (hdiff i hi).trans (by rw [h100]; norm_num)
  have h96 : (2 : ℝ) ^ (96 : ℤ) = 2 ^ 96 := zp_nat 96
  have d5 : ∀ i, i < n → |vecFun d i| ≤ 2 ^ 96 := fun i hi => by
    rw [d4 i hi, ← h96]
    exact fl_abs_le (by norm_num) (by rw [h96]; exact hdiff i hi)
  obtain ⟨w, w1, w2, w3⟩ := S.solve d d2 d3 (fun i hi => (d5 i hi).trans (by rw [h100]; norm_num))
  have w4 := S.size d w _ (by positivity) d5 w3
  have t1 := S.t_le
  have w5 : ∑ j ∈ range n, |vecFun w j| ≤ 2 ^ 151 := by
    refine w4.trans ?_
    norm_num at t1 ⊢
    linarith
  obtain ⟨q, q1, -, q2, -⟩ := dot_size d2 w2 hn (T := 2 ^ 247) (by
    have : ∑ i ∈ range n, |vecFun d i * vecFun w i| ≤ ∑ i ∈ range n, 2 ^ 96 * |vecFun w i| :=
      sum_le_sum fun i hi => by
        rw [abs_mul]
        exact mul_le_mul_of_nonneg_right (d5 i (mem_range.1 hi)) (abs_nonneg _)
    rw [← mul_sum] at this
    refine this.trans ((mul_le_mul_of_nonneg_left w5 (by positivity)).trans ?_)
    rw [← pow_add]) (pow_le_pow_right₀ (by norm_num) (by norm_num))
  have hinv : |1 / (n : ℝ)| ≤ 2 ^ (0 : ℤ) := by
    rw [abs_of_pos (by positivity), zpow_zero, div_le_one (by linarith)]
    exact hn1
  have h249 : (2 : ℝ) ^ (249 : ℤ) = 2 ^ 249 := zp_nat 249
  have hq : |fl (1 / (n : ℝ)) * q| ≤ 2 ^ (249 : ℤ) := by
    rw [abs_mul, h249]
    have a1 := fl_abs_le (by norm_num) hinv
    rw [zpow_zero] at a1
    refine (mul_le_mul a1 q2 (abs_nonneg _) (by norm_num)).trans ?_
    norm_num
  have gap := diff_gap (n := n) (y := vecFun y) b2
    (fun i hi => ⟨vecFun_all hyd (by omega), hyl i hi⟩) (fun h0 => beta0_zero (fun v hv => by
      obtain ⟨i, hi, rfl⟩ := List.getElem_of_mem hv
      have := h0 i (by omega)
      simpa [vecFun, hi] using this) b b1)
  obtain ⟨q3, q4⟩ := S.energy hn0 hn d2 w2 d5 w5 w3 (by
    rcases gap with g | ⟨i, hi, g⟩
    · exact Or.inl fun i hi => by rw [d4 i hi]; exact g i hi
    · exact Or.inr ⟨i, hi, by rw [d4 i hi]; exact g⟩) q1
  have hfit : fit sqrt L s average y = .ok (some ⟨b, w, fl (fl (1 / (n : ℝ)) * q)⟩) := by
    have g1 : div 1 (n : ℝ) = .ok (fl (1 / (n : ℝ))) := by
      unfold div
      rw [if_neg (by linarith)]
      exact dbl_of_le (by norm_num) (by norm_num) hinv
    have g2 : mul (fl (1 / (n : ℝ))) q = .ok (fl (fl (1 / (n : ℝ)) * q)) := dbl_of_le (by norm_num) (by norm_num) hq
    unfold fit
    rw [S.matrix, okBind, S.factor, okBind, if_neg (by norm_num)]
    rw [b1, okBind, d1, okBind, w1, okBind, q1, okBind, hy, g1, okBind, g2, okBind]
  refine ⟨⟨Lf, ⟨b, w, fl (fl (1 / (n : ℝ)) * q)⟩, o⟩, oo, ?_, hfit, rfl, o2, o3, o4, o5,
    fl_nonneg (mul_nonneg (fl_nonneg (by positivity)) q3), ?_, b3, w2,
    w5.trans (pow_le_pow_right₀ (by norm_num) (by norm_num)), ?_⟩
  · unfold Dbl.update
    rw [hfit, okBind]
    dsimp only
    rw [S.matrix, okBind, S.factor, okBind, hy, o1, okBind]
  · rw [← h249]
    exact (le_abs_self _).trans (fl_abs_le (by norm_num) hq)
  · rintro ⟨i, j, hi, hj, hij⟩
    have zero_eq : ∀ k, k < n → vecFun d k = 0 → vecFun y k = b := fun k hk h0 => by
      rw [d4 k hk] at h0
      have := fl_sub_res (vecFun_all hyd (k := k) (by omega)) b2
      rw [h0, abs_zero, mul_zero, zero_sub, abs_neg] at this
      have := abs_nonpos_iff.1 this
      linarith
    have hex : ∃ k, k < n ∧ vecFun d k ≠ 0 := by
      by_contra hno
      push Not at hno
      exact hij ((zero_eq i hi (hno i hi)).trans (zero_eq j hj (hno j hj)).symm)
    have q5 := q4 hex
    have i1 : (2 : ℝ) ^ (-32 : ℤ) ≤ fl (1 / (n : ℝ)) := by
      refine double_le_fl ⟨1, -32, by norm_num, by norm_num, by simp⟩ ?_
      rw [zpow_neg, one_div]
      refine inv_anti₀ (by linarith) ?_
      rw [show (2 : ℝ) ^ (32 : ℤ) = 2 ^ 32 from zp_nat 32]
      exact_mod_cast hn.le
    refine (zp (K := ℝ) (-632)).trans_le (double_le_fl ⟨1, -632, by norm_num, by norm_num, by simp⟩ ?_)
    rw [show (-632 : ℤ) = -32 + -600 by norm_num, zp_add]
    exact mul_le_mul i1 q5 (zp _).le ((zp _).le.trans i1)

/-- The correlations with a point are at most 2. -/
theorem corr_le {r : List ℝ} (h : ReadyDbl s n m F) (hm : m ≤ 2 ^ 32) {p : Nat → ℝ} {j : Nat}
    (a1 : 0 ≤ vecFun r j)
    (a2 : |vecFun r j - expCorr m (vecFun s.theta) (vecFun s.gamma) p (F j)| ≤ ((m : ℝ) + 10) / 2 ^ 54) :
    |vecFun r j| ≤ 2 := by
  have hm1 : (m : ℝ) ≤ 2 ^ 32 := by exact_mod_cast hm
  rw [abs_of_nonneg a1]
  have a3 : expCorr m (vecFun s.theta) (vecFun s.gamma) p (F j) ≤ 1 := by
    rw [expCorr, Real.exp_le_one_iff, neg_nonpos]
    exact sum_nonneg (fun k hk => mul_nonneg
      (vecFun_all h.theta_range (k := k) (by rw [h.theta_len]; exact mem_range.1 hk)).2.1
      (Real.rpow_nonneg (abs_nonneg _) _))
  have a4 : ((m : ℝ) + 10) / 2 ^ 54 ≤ 1 := by
    rw [div_le_one (by positivity)]
    have : (2 : ℝ) ^ 32 + 10 ≤ 2 ^ 54 := by norm_num
    linarith
  have := (abs_le.1 a2).2
  linarith

/-- A dot product of correlations and a vector of known size. -/
theorem dot_corr {r w : List ℝ} (lr : r.length = n) (lw : w.length = n) (hn : n < 2 ^ 32)
    (rB : ∀ j, j < n → |vecFun r j| ≤ 2) {T : ℝ} (hw : ∑ j ∈ range n, |vecFun w j| ≤ T) (hT : T ≤ 2 ^ 249) :
    ∃ v, dot r w = .ok v ∧ IsDouble v ∧ |v| ≤ 4 * T + 1 := by
  obtain ⟨v, t1, t2, t3, -⟩ := dot_size lr lw hn (T := 2 * T) (by
    have : ∑ k ∈ range n, |vecFun r k * vecFun w k| ≤ ∑ k ∈ range n, 2 * |vecFun w k| :=
      sum_le_sum fun k hk => by
        rw [abs_mul]
        exact mul_le_mul_of_nonneg_right (rB k (mem_range.1 hk)) (abs_nonneg _)
    rw [← mul_sum] at this
    linarith) (by
    have : (2 : ℝ) ^ 250 = 2 * 2 ^ 249 := by rw [← pow_succ']
    linarith)
  exact ⟨v, t1, t2, by linarith⟩

/-- The limit below which a difference counts as 0. -/
theorem limit_low : (1 : ℝ) / 2 ^ 30 < fl (1 / 10 ^ 9 : ℝ) := by
  have h := lit_rel (K := ℝ) (x := 1 / 10 ^ 9) (by
    have : (2 : ℝ) ^ (-1000 : ℤ) ≤ 2 ^ (-100 : ℤ) := zp_mono (by norm_num)
    refine this.trans ?_
    rw [abs_of_pos (by norm_num)]
    norm_num)
  have h1 := (abs_le.1 h).1
  rw [abs_of_pos (by norm_num)] at h1
  unfold eps at h1
  norm_num at h1 ⊢
  linarith

/-- The variance at a point. -/
theorem Sys.variance (S : Sys sqrt L s n m F R G Lf M μ t) (hL : Accurate L) (hL2 : AccurateSquare L)
    (h : ReadyDbl s n m F) (hn0 : 0 < n) (hn : n ≤ 10 ^ 6) (hm : m ≤ 1000) {u : Updated ℝ} {oo : ℝ}
    (hu : u.factor = Lf) (lo : u.onesSolution.length = n) (so : ∑ j ∈ range n, |vecFun u.onesSolution j| ≤ 2 ^ 55)
    (ho : dot (List.replicate n 1) u.onesSolution = .ok oo) (hoo : 1 / 256 ≤ oo)
    (hσ0 : 0 ≤ u.fit.sigmaSquared) (hσ : u.fit.sigmaSquared ≤ 2 ^ 249)
    (x : List ℝ) (lx : x.length = m) (hx : ∀ t ∈ x, IsDouble t ∧ |t| ≤ 2 ^ (100 : ℤ)) :
    ∃ v, variance L s u x = .ok v ∧ 0 ≤ v ∧ v ≤ 2 ^ 400 := by
  have hn32 : n < 2 ^ 32 := by omega
  have hm32 : m ≤ 2 ^ 32 := by omega
  obtain ⟨r, c1, c2, c3⟩ := correlationVector_ok hL h hm32 lx fun k hk => vecFun_all hx (by omega)
  have rB : ∀ j, j < n → |vecFun r j| ≤ 2 := fun j hj => corr_le h hm32 (c3 j hj).2.2.1 (c3 j hj).2.2.2
  have rd : Doubles r := fun v hv => by
    obtain ⟨i, hi, rfl⟩ := List.getElem_of_mem hv
    have := (c3 i (by omega)).2.1
    simpa [vecFun, hi] using this
  have h100 : (2 : ℝ) ^ (100 : ℤ) = 2 ^ 100 := zp_nat 100
  obtain ⟨z, z1, z2, z3⟩ := S.solve r c2 rd fun j hj => (rB j hj).trans (by rw [h100]; norm_num)
  have t1 := S.t_le
  have sz : ∑ j ∈ range n, |vecFun z j| ≤ 2 ^ 56 := by
    refine (S.size r z 2 (by norm_num) rB z3).trans ?_
    norm_num at t1 ⊢
    linarith
  obtain ⟨rr, e1, e2, e3⟩ := dot_corr c2 z2 hn32 rB sz (pow_le_pow_right₀ (by norm_num) (by norm_num))
  obtain ⟨r1, f1, f2, f3⟩ := dot_corr c2 lo hn32 rB so (pow_le_pow_right₀ (by norm_num) (by norm_num))
  have hrr := S.point h hn0 hn hm (p := vecFun x) c2 z2 (fun j hj => (c3 j hj).2.2.1)
    (fun j hj => (c3 j hj).2.2.2) sz z3 e1
  -- the first term
  have h60 : (2 : ℝ) ^ (60 : ℤ) = 2 ^ 60 := zp_nat 60
  have a1 : |r1 - 1| ≤ 2 ^ (60 : ℤ) := by
    rw [h60]
    refine (abs_sub _ _).trans ?_
    rw [abs_one]
    norm_num at f3 ⊢
    linarith
  have a2 := fl_abs_le (by norm_num) a1
  obtain ⟨p, p1, p2, p3, p4⟩ := hL2 (fl (r1 - 1)) (fl_isDouble _) (a2.trans (zp_mono (by norm_num)))
  have p5 : p ≤ 2 ^ 122 := by
    have b1 : fl (r1 - 1) ^ 2 ≤ (2 ^ 60) ^ 2 := by
      rw [← sq_abs]
      exact pow_le_pow_left₀ (abs_nonneg _) (by rwa [h60] at a2) 2
    have b2 : (2 : ℝ) ^ (-1074 : ℤ) ≤ 2 ^ (0 : ℤ) := zp_mono (by norm_num)
    rw [zpow_zero] at b2
    have b3 := (abs_le.1 p4).2
    generalize (2 : ℝ) ^ (-1074 : ℤ) = e at b2 b3
    generalize fl (r1 - 1) ^ 2 = g at b1 b3
    norm_num at b1 b3 ⊢
    linarith
  have h130 : (2 : ℝ) ^ (130 : ℤ) = 2 ^ 130 := zp_nat 130
  have q1 : |p / oo| ≤ 2 ^ (130 : ℤ) := by
    rw [abs_of_nonneg (div_nonneg p3 (by linarith)), div_le_iff₀ (by linarith), h130]
    have : (2 : ℝ) ^ 130 * (1 / 256) ≤ 2 ^ 130 * oo := mul_le_mul_of_nonneg_left hoo (by positivity)
    refine p5.trans (le_trans ?_ this)
    norm_num
  have q2 := fl_abs_le (by norm_num) q1
  have q3 : 0 ≤ fl (p / oo) := fl_nonneg (div_nonneg p3 (by linarith))
  -- the second term
  have g1 : |1 - rr| ≤ 2 ^ (60 : ℤ) := by
    rw [h60]
    refine (abs_sub _ _).trans ?_
    rw [abs_one]
    norm_num at e3 ⊢
    linarith
  have g1' : |rr - 1| ≤ 2 ^ (60 : ℤ) := by rwa [abs_sub_comm]
  have g2 := fl_abs_le (by norm_num) g1
  set T1 : ℝ := if |fl (r1 - 1)| < fl (1 / 10 ^ 9) then 0 else fl (p / oo) with hT1
  set T2 : ℝ := if |fl (rr - 1)| < fl (1 / 10 ^ 9) then 0 else fl (1 - rr) with hT2
  have k1 : 0 ≤ T1 ∧ T1 ≤ 2 ^ 130 := by
    rw [hT1]
    split_ifs
    · exact ⟨le_rfl, by positivity⟩
    · exact ⟨q3, by rw [← h130]; exact (le_abs_self _).trans q2⟩
  have k2 : 0 ≤ T2 ∧ T2 ≤ 2 ^ 60 := by
    rw [hT2]
    split_ifs with hlt
    · exact ⟨le_rfl, by positivity⟩
    · refine ⟨?_, by rw [← h60]; exact (le_abs_self _).trans g2⟩
      rcases le_total rr 1 with hle | hge
      · exact fl_nonneg (by linarith)
      · exfalso
        refine hlt (lt_of_le_of_lt ?_ limit_low)
        have e30 : (2 : ℝ) ^ (-30 : ℤ) = 1 / 2 ^ 30 := by rw [zpow_neg, one_div, ← zp_nat]; rfl
        rw [← e30]
        refine fl_abs_le (by norm_num) ?_
        rw [e30, abs_of_nonneg (by linarith)]
        linarith
  have h131 : (2 : ℝ) ^ (131 : ℤ) = 2 ^ 131 := zp_nat 131
  have s1 : |T2 + T1| ≤ 2 ^ (131 : ℤ) := by
    rw [h131, abs_of_nonneg (by linarith [k1.1, k2.1])]
    have := k1.2
    have := k2.2
    norm_num at *
    linarith
  have s2 := fl_abs_le (by norm_num) s1
  have s3 : 0 ≤ fl (T2 + T1) := fl_nonneg (by linarith [k1.1, k2.1])
  have h400 : (2 : ℝ) ^ (400 : ℤ) = 2 ^ 400 := zp_nat 400
  have s4 : |u.fit.sigmaSquared * fl (T2 + T1)| ≤ 2 ^ (400 : ℤ) := by
    rw [abs_mul, abs_of_nonneg hσ0, h400]
    rw [h131] at s2
    refine (mul_le_mul hσ s2 (abs_nonneg _) (by positivity)).trans ?_
    rw [← pow_add]
    exact pow_le_pow_right₀ (by norm_num) (by norm_num)
  refine ⟨fl (u.fit.sigmaSquared * fl (T2 + T1)), ?_, fl_nonneg (mul_nonneg hσ0 s3), ?_⟩
  · unfold Dbl.variance
    rw [c1, okBind, hu, z1, okBind, e1, okBind, f1, okBind, lo, ho, okBind]
    have d1 : sub r1 1 = .ok (fl (r1 - 1)) := dbl_of_le (by norm_num) (by norm_num) a1
    have d2 : div p oo = .ok (fl (p / oo)) := by
      unfold div
      rw [if_neg (by linarith)]
      exact dbl_of_le (by norm_num) (by norm_num) q1
    have d3 : sub 1 rr = .ok (fl (1 - rr)) := dbl_of_le (by norm_num) (by norm_num) g1
    have d4 : sub rr 1 = .ok (fl (rr - 1)) := dbl_of_le (by norm_num) (by norm_num) g1'
    have d5 : add T2 T1 = .ok (fl (T2 + T1)) := dbl_of_le (by norm_num) (by norm_num) s1
    have d6 : mul u.fit.sigmaSquared (fl (T2 + T1)) = .ok (fl (u.fit.sigmaSquared * fl (T2 + T1))) :=
      dbl_of_le (by norm_num) (by norm_num) s4
    rw [d1, okBind, p1, okBind, d2, okBind, d3, okBind, d4, okBind, ← hT1, ← hT2, d5, okBind, d6]
  · rw [← h400]
    exact (le_abs_self _).trans (fl_abs_le (by norm_num) s4)

/-- The estimate at a point. -/
theorem estimate_ok (hL : Accurate L) (h : ReadyDbl s n m F) (hn : n < 2 ^ 32) (hm : m ≤ 2 ^ 32) {f : Fit ℝ}
    (hb : |f.beta0| ≤ 2 ^ 95) (lw : f.weights.length = n) (hw : ∑ j ∈ range n, |vecFun f.weights j| ≤ 2 ^ 152)
    (x : List ℝ) (lx : x.length = m) (hx : ∀ t ∈ x, IsDouble t ∧ |t| ≤ 2 ^ (100 : ℤ)) :
    ∃ p, estimate L s f x = .ok p ∧ IsDouble p ∧ |p| ≤ 2 ^ (200 : ℤ) := by
  obtain ⟨r, c1, c2, c3⟩ := correlationVector_ok hL h hm lx fun k hk => vecFun_all hx (by omega)
  obtain ⟨t, t1, -, t2⟩ := dot_corr c2 lw hn (fun j hj => corr_le h hm (c3 j hj).2.2.1 (c3 j hj).2.2.2) hw
    (pow_le_pow_right₀ (by norm_num) (by norm_num))
  have h200 : (2 : ℝ) ^ (200 : ℤ) = 2 ^ 200 := zp_nat 200
  have hle : |f.beta0 + t| ≤ 2 ^ (200 : ℤ) := by
    rw [h200]
    refine (abs_add_le _ _).trans ?_
    norm_num at hb t2 ⊢
    linarith
  exact ⟨_, bind_eq c1 (bind_eq t1 (dbl_of_le (n := 200) (by norm_num) (by norm_num) hle)), fl_isDouble _,
    fl_abs_le (by norm_num) hle⟩

end System

end Rodeo.Dbl
