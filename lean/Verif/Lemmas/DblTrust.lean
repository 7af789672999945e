import Verif.Model.DblTrust
import Verif.Lemmas.DblSearch
import Verif.Lemmas.DblSum
import Verif.Lemmas.DblTrip

/-! # Lemmas on the trust region in double arithmetic -/

set_option linter.unusedSectionVars false

namespace Rodeo.Dbl

open Spec

variable {K : Type} [Field K] [LinearOrder K] [IsStrictOrderedRing K] [FloorRing K]

/-! ## Powers of two -/

theorem log_shift {x : K} (hx : x ≠ 0) (k : ℤ) : Int.log 2 |2 ^ k * x| = Int.log 2 |x| + k := by
  have hx' : (2 : K) ^ k * x ≠ 0 := mul_ne_zero (zp k).ne' hx
  obtain ⟨a1, a2⟩ := log_bounds hx
  obtain ⟨b1, b2⟩ := log_bounds hx'
  rw [abs_mul, abs_of_pos (zp (K := K) k)] at b1 b2 ⊢
  have c1 : (2 : K) ^ (Int.log 2 |x| + k) ≤ 2 ^ k * |x| := by
    rw [zp_add, mul_comm]; exact mul_le_mul_of_nonneg_left a1 (zp k).le
  have c2 : (2 : K) ^ k * |x| < 2 ^ (Int.log 2 |x| + k + 1) := by
    rw [show Int.log 2 |x| + k + 1 = k + (Int.log 2 |x| + 1) by ring, zp_add]
    exact mul_lt_mul_of_pos_left a2 (zp k)
  have d1 := (zpow_lt_zpow_iff_right₀ (by norm_num : (1 : K) < 2)).1 (c1.trans_lt b2)
  have d2 := (zpow_lt_zpow_iff_right₀ (by norm_num : (1 : K) < 2)).1 (b1.trans_lt c2)
  omega

/-- Away from the subnormal numbers, rounding commutes with powers of two. -/
theorem fl_shift {x : K} {k : ℤ} (h1 : 2 ^ (-1000 : ℤ) ≤ |x|) (h2 : 2 ^ (-1000 : ℤ) ≤ |2 ^ k * x|) :
    fl (2 ^ k * x) = 2 ^ k * fl x := by
  have hx : x ≠ 0 := by
    intro h; rw [h, abs_zero] at h1; exact absurd (zp (K := K) (-1000)) (not_lt.2 h1)
  have low : ∀ y : K, y ≠ 0 → 2 ^ (-1000 : ℤ) ≤ |y| → ulpExp y = Int.log 2 |y| - 52 := by
    intro y hy h
    unfold ulpExp
    refine max_eq_left ?_
    have h3 := (log_bounds hy).2
    have := (zpow_lt_zpow_iff_right₀ (by norm_num : (1 : K) < 2)).1 (h.trans_lt h3)
    omega
  have hu : ulpExp ((2 : K) ^ k * x) = ulpExp x + k := by
    rw [low _ (mul_ne_zero (zp k).ne' hx) h2, low x hx h1, log_shift hx]; ring
  unfold fl
  rw [hu, zp_add]
  have e : (2 : K) ^ k * x / (2 ^ ulpExp x * 2 ^ k) = x / 2 ^ ulpExp x := by
    have := (zp (K := K) k).ne'
    have := (zp (K := K) (ulpExp x)).ne'
    field_simp
  rw [e]; ring

/-! ## The length -/

/-- The rounded version of a trust region. -/
def trRound (t : TrustRegion K) : TrustRegion K :=
  { t with length := fl t.length, lengthMin := fl t.lengthMin, lengthMax := fl t.lengthMax }

theorem two_fl {x : K} (h : 2 ^ (-900 : ℤ) ≤ |x|) : fl (x * 2) = fl x * 2 ∧ fl (x / 2) = fl x / 2 := by
  have h1 : (2 : K) ^ (-1000 : ℤ) ≤ |x| := (zp_mono (by norm_num)).trans h
  have e1 := fl_shift (x := x) (k := 1) h1 (by
    rw [zpow_one, abs_mul, abs_of_pos (by norm_num : (0 : K) < 2)]
    have := abs_nonneg x
    linarith)
  have e2 := fl_shift (x := x) (k := -1) h1 (by
    rw [abs_mul, abs_of_pos (zp (K := K) (-1))]
    refine (zp_mono (show (-1000 : ℤ) ≤ -1 + -900 by norm_num)).trans ?_
    rw [zp_add]
    exact mul_le_mul_of_nonneg_left h (zp _).le)
  rw [zpow_one] at e1
  rw [zpow_neg, zpow_one] at e2
  constructor
  · rw [mul_comm, e1, mul_comm]
  · rw [div_eq_inv_mul, e2, div_eq_inv_mul]

theorem fl_if_gt {a b : K} : (if fl a > fl b then fl b else fl a) = fl (if a > b then b else a) := by
  rcases lt_or_ge b a with h | h
  · rw [if_pos (show a > b from h)]
    split_ifs with h1
    · rfl
    · exact le_antisymm (not_lt.1 h1) (fl_mono h.le)
  · rw [if_neg (not_lt.2 h), if_neg (not_lt.2 (fl_mono h))]

theorem fl_if_lt {a b : K} : (if fl a < fl b then fl b else fl a) = fl (if a < b then b else a) := by
  rcases lt_or_ge a b with h | h
  · rw [if_pos h]
    split_ifs with h1
    · rfl
    · exact le_antisymm (fl_mono h.le) (not_lt.1 h1)
  · rw [if_neg (not_lt.2 h), if_neg (not_lt.2 (fl_mono h))]

/-- Numbers the length can take. -/
def Moderate (x : K) : Prop := 2 ^ (-100 : ℤ) ≤ x ∧ x ≤ 1

theorem Moderate.abs {x : K} (h : Moderate x) : 2 ^ (-900 : ℤ) ≤ |x| := by
  rw [abs_of_nonneg ((zp (K := K) (-100)).le.trans h.1)]
  exact (zp_mono (by norm_num)).trans h.1

theorem dbl_le_two {x : K} (h : |x| ≤ 2) : dbl x = .ok (fl x) :=
  dbl_of_le (n := 1) (by norm_num) (by norm_num) (by rwa [zpow_one])

theorem step_round {t : TrustRegion K} (h : Moderate t.length) (b : Bool) :
    trStep (trRound t) b = .ok (trRound (t.step b)) := by
  have hf1 : fl t.length ≤ 1 := fl_le_double isDouble_one h.2
  have hf0 : 0 ≤ fl t.length := double_le_fl isDouble_zero ((zp (K := K) (-100)).le.trans h.1)
  obtain ⟨e1, e2⟩ := two_fl h.abs
  unfold trStep
  cases b with
  | true =>
    rw [if_pos rfl, show t.step true = t.success from rfl]
    unfold trSuccess TrustRegion.success trRound
    by_cases h1 : t.successCounter + 1 = t.successTolerance
    · have e3 : mul (fl t.length) 2 = .ok (fl (t.length * 2)) := by
        unfold mul
        rw [dbl_le_two (by rw [abs_of_nonneg (by linarith)]; linarith), ← e1, fl_of_double (fl_isDouble _)]
      simp only [h1, if_true]
      refine bind_eq e3 ?_
      rw [fl_if_gt]
    · simp only [h1, if_false]
  | false =>
    rw [if_neg (by simp), show t.step false = t.failure from rfl]
    unfold trFailure TrustRegion.failure trRound
    by_cases h1 : t.failureCounter + 1 = t.failureTolerance
    · have e3 : div (fl t.length) 2 = .ok (fl (t.length / 2)) := by
        unfold div
        rw [if_neg two_ne_zero, dbl_le_two (by rw [abs_of_nonneg (by linarith)]; linarith), ← e2,
          fl_of_double (fl_isDouble _)]
      simp only [h1, if_true]
      refine bind_eq e3 ?_
      rw [fl_if_lt]
    · simp only [h1, if_false]

/-! ## The window -/

theorem trim_entry {dim : Nat} {x r : List K} {i : Nat} {a : K} (hl : x.length = dim) (h : trimVector dim x = .ok r)
    (ha : x[i]? = some a) : r[i]? = some (clampTo 0 (fl (1 / (dim : K))) a) := by
  unfold trimVector at h
  split_ifs at h with h0
  obtain ⟨top, e1, h⟩ := bind_ok_inv h
  obtain ⟨-, rfl⟩ := div_ok e1
  obtain ⟨r', e2, h1, h2⟩ := forRange_map (x := x) (n := dim) (body := trimBody (fl (1 / (dim : K))))
    (fun _ a => clampTo 0 (fl (1 / (dim : K))) a) hl.ge (fun i a y _ _ ha => trimBody_eq ha)
  rw [h] at e2
  obtain rfl := Except.ok.inj e2
  have := h2 i a ha
  rwa [if_pos (by rw [← hl]; exact (List.getElem?_eq_some_iff.1 ha).1)] at this

theorem one_div_ok {dim : Nat} (hd : 0 < dim) : div 1 (dim : K) = .ok (fl (1 / (dim : K))) ∧
    0 ≤ fl (1 / (dim : K)) ∧ fl (1 / (dim : K)) ≤ 1 := by
  have h1 : (1 : K) ≤ dim := by exact_mod_cast hd
  have h2 : 1 / (dim : K) ≤ 1 := by rw [div_le_one (by linarith)]; exact h1
  have h3 : 0 ≤ 1 / (dim : K) := by positivity
  refine ⟨?_, double_le_fl isDouble_zero h3, fl_le_double isDouble_one h2⟩
  unfold div
  rw [if_neg (by linarith), dbl_le_two (by rw [abs_of_nonneg h3]; linarith)]

theorem trimVector_total {dim : Nat} (hd : 0 < dim) {x : List K} (hl : x.length = dim) :
    ∃ r, trimVector dim x = .ok r ∧ r.length = dim := by
  obtain ⟨r', e2, h1, h2⟩ := forRange_map (x := x) (n := dim) (body := trimBody (fl (1 / (dim : K))))
    (fun _ a => clampTo 0 (fl (1 / (dim : K))) a) hl.ge (fun i a y _ _ ha => trimBody_eq ha)
  refine ⟨r', ?_, by omega⟩
  unfold trimVector
  rw [if_neg (by omega)]
  exact bind_eq (one_div_ok hd).1 e2

/-- One coordinate of the window. -/
theorem window_entry {T d v D : K} (hd : IsDouble d) (hv : IsDouble v) (hv0 : 0 ≤ v) (hvT : v ≤ T)
    (hd0 : 0 ≤ d) (hdT : d ≤ T) (hD : |d - D| ≤ D / 1000) (hDT : T ≤ 2 ^ 42 * D) :
    (0 ≤ clampTo 0 T (fl (v - d)) ∧ clampTo 0 T (fl (v - d)) ≤ v ∧ v - 101 / 100 * D ≤ clampTo 0 T (fl (v - d))) ∧
    (v ≤ clampTo 0 T (fl (v + d)) ∧ clampTo 0 T (fl (v + d)) ≤ T ∧ clampTo 0 T (fl (v + d)) ≤ v + 101 / 100 * D) ∧
      99 / 100 * D ≤ clampTo 0 T (fl (v + d)) - clampTo 0 T (fl (v - d)) := by
  have hT0 : 0 ≤ T := hv0.trans hvT
  have a1 : fl (v - d) ≤ v := fl_le_double hv (by linarith)
  have a2 : v ≤ fl (v + d) := double_le_fl hv (by linarith)
  have b1 := fl_add_rel hv hd
  have b2 := fl_add_rel hv (isDouble_neg hd)
  rw [← sub_eq_add_neg] at b2
  have c1 : |v + d| ≤ 2 * T := by rw [abs_of_nonneg (by linarith)]; linarith
  have c2 : |v - d| ≤ T := abs_le.2 ⟨by linarith, by linarith⟩
  have he : (eps : K) = 1 / 2 ^ 53 := rfl
  rw [he] at b1 b2
  have e1 := b1.trans (mul_le_mul_of_nonneg_left c1 (by positivity))
  have e2 := b2.trans (mul_le_mul_of_nonneg_left c2 (by positivity))
  have hz : 1 / 2 ^ 53 * T ≤ D / 2048 := by
    have := mul_le_mul_of_nonneg_left hDT (by positivity : (0 : K) ≤ 1 / 2 ^ 53)
    refine this.trans (le_of_eq ?_)
    rw [← mul_assoc, show (1 : K) / 2 ^ 53 * 2 ^ 42 = 1 / 2048 by norm_num]; ring
  rw [show (1 : K) / 2 ^ 53 * (2 * T) = 2 * (1 / 2 ^ 53 * T) by ring] at e1
  have hT53 : 0 ≤ 1 / 2 ^ 53 * T := by positivity
  clear b1 b2 hDT
  generalize (1 : K) / 2 ^ 53 * T = z at e1 e2 hT53 hz
  rw [abs_le] at e1 e2 hD
  obtain ⟨e1, e1'⟩ := e1
  obtain ⟨e2, e2'⟩ := e2
  obtain ⟨d1, d2⟩ := hD
  have m1 := clampTo_mem hT0 (fl (v - d))
  have m2 := clampTo_mem hT0 (fl (v + d))
  have hvv := clampTo_id hv0 hvT
  refine ⟨⟨m1.1, (clampTo_mono a1).trans hvv.le, ?_⟩, ⟨hvv.ge.trans (clampTo_mono a2), m2.2, ?_⟩, ?_⟩
  · unfold clampTo; split_ifs <;> linarith
  · unfold clampTo; split_ifs <;> linarith
  · unfold clampTo; split_ifs <;> linarith

/-- The two bounds of a search window. -/
structure WindowAround (dim : Nat) (v : List K) (D : K) (w : List K × List K) : Prop where
  lower : w.1.length = dim
  upper : w.2.length = dim
  entry : ∀ (i : Nat) (a l u : K), v[i]? = some a → w.1[i]? = some l → w.2[i]? = some u →
    (0 ≤ l ∧ l ≤ a ∧ a - 101 / 100 * D ≤ l) ∧ (a ≤ u ∧ u ≤ fl (1 / (dim : K)) ∧ u ≤ a + 101 / 100 * D) ∧
      99 / 100 * D ≤ u - l

/-- The common part of the two window functions. -/
theorem window_total {dim : Nat} (hd : 0 < dim) {v : List K} (hl : v.length = dim)
    (hv : ∀ a ∈ v, IsDouble a ∧ 0 ≤ a ∧ a ≤ fl (1 / (dim : K))) {d D : K} (h1 : IsDouble d) (h2 : 0 ≤ d)
    (h3 : d ≤ fl (1 / (dim : K))) (hD : |d - D| ≤ D / 1000) (hDT : fl (1 / (dim : K)) ≤ 2 ^ 42 * D) :
    ∃ w : List K × List K, (do
      let lb ← subScalar v d
      let ub ← addScalar v d
      let lb ← trimVector dim lb
      let ub ← trimVector dim ub
      .ok (lb, ub) : Res (List K × List K)) = .ok w ∧ WindowAround dim v D w := by
  obtain ⟨-, hT0, hT1⟩ := one_div_ok (K := K) hd
  have s1 : subScalar v d = .ok (v.map fun a => fl (a - d)) := mapRes_ok fun a ha => by
    obtain ⟨-, q1, q2⟩ := hv a ha
    exact dbl_le_two (abs_le.2 ⟨by linarith, by linarith⟩)
  have s2 : addScalar v d = .ok (v.map fun a => fl (a + d)) := mapRes_ok fun a ha => by
    obtain ⟨-, q1, q2⟩ := hv a ha
    exact dbl_le_two (abs_le.2 ⟨by linarith, by linarith⟩)
  have l1 : (v.map fun a => fl (a - d)).length = dim := by rw [List.length_map, hl]
  have l2 : (v.map fun a => fl (a + d)).length = dim := by rw [List.length_map, hl]
  obtain ⟨r1, t1, n1⟩ := trimVector_total hd l1
  obtain ⟨r2, t2, n2⟩ := trimVector_total hd l2
  refine ⟨(r1, r2), bind_eq s1 (bind_eq s2 (bind_eq t1 (bind_eq t2 rfl))), n1, n2, ?_⟩
  intro i a l u ha hl' hu'
  obtain ⟨q0, q1, q2⟩ := hv a (List.mem_of_getElem? ha)
  have x1 := trim_entry (i := i) (a := fl (a - d)) l1 t1 (by rw [List.getElem?_map, ha]; rfl)
  have x2 := trim_entry (i := i) (a := fl (a + d)) l2 t2 (by rw [List.getElem?_map, ha]; rfl)
  obtain rfl := Option.some.inj (x1.symm.trans hl')
  obtain rfl := Option.some.inj (x2.symm.trans hu')
  exact window_entry h1 q0 q1 q2 h2 h3 hD hDT

theorem rel_pos {x : K} (h : 2 ^ (-1000 : ℤ) ≤ x) : |fl x - x| ≤ x / 10 ^ 15 := by
  have hx : 0 < x := (zp (K := K) _).trans_le h
  have := lit_rel (x := x) (by rwa [abs_of_pos hx])
  rw [abs_of_pos hx] at this
  refine this.trans ?_
  rw [div_eq_mul_inv, mul_comm]
  refine mul_le_mul_of_nonneg_left ?_ hx.le
  unfold eps; norm_num

/-- Two roundings. -/
theorem two_rel {x y t : K} (ht : 0 ≤ t) (hx : |y - x| ≤ x / 10 ^ 15) (hx0 : 0 ≤ x) (hyt : 2 ^ (-1000 : ℤ) ≤ y * t) :
    |fl (y * t) - x * t| ≤ x * t / 1000 := by
  have h1 := rel_pos hyt
  have h2 : |y * t - x * t| ≤ x * t / 10 ^ 15 := by
    rw [← sub_mul, abs_mul, abs_of_nonneg ht]
    exact (mul_le_mul_of_nonneg_right hx ht).trans (le_of_eq (by ring))
  have h3 : 0 ≤ x * t := mul_nonneg hx0 ht
  have h4 : y * t ≤ 2 * (x * t) := by
    have := (abs_le.1 h2).2
    linarith
  have h5 := abs_sub_le (fl (y * t)) (y * t) (x * t)
  generalize x * t = p at *
  linarith

theorem dim_low {dim : Nat} (hd : 0 < dim) (hd2 : dim < 2 ^ 32) : (2 : K) ^ (-32 : ℤ) ≤ 1 / (dim : K) := by
  have h1 : (dim : K) ≤ 2 ^ (32 : ℤ) := by exact_mod_cast hd2.le
  rw [zpow_neg, ← one_div]
  exact one_div_le_one_div_of_le (by exact_mod_cast hd) h1

theorem half_le_fl {x : K} (h : 2 ^ (-999 : ℤ) ≤ x) : x / 2 ≤ fl x ∧ fl x ≤ 2 * x := by
  have h1 := abs_le.1 (rel_pos ((zp_mono (show (-1000 : ℤ) ≤ -999 by norm_num)).trans h))
  have hx : 0 < x := (zp (K := K) _).trans_le h
  constructor <;> linarith

theorem defineTrustRegion_total {dim : Nat} (hd : 0 < dim) (hd2 : dim < 2 ^ 32) {v : List K} (hl : v.length = dim)
    (hv : ∀ a ∈ v, IsDouble a ∧ 0 ≤ a ∧ a ≤ fl (1 / (dim : K))) {L : K} (h1 : 2 ^ (-41 : ℤ) ≤ L)
    (h2 : L ≤ 1) : ∃ w, defineTrustRegion dim v L = .ok w ∧ WindowAround dim v (L / dim) w := by
  obtain ⟨e1, hT0, hT1⟩ := one_div_ok (K := K) hd
  have hL : 0 < L := (zp (K := K) _).trans_le h1
  have hdl := dim_low (K := K) hd hd2
  have hTh := half_le_fl ((zp_mono (show (-999 : ℤ) ≤ -32 by norm_num)).trans hdl)
  have hrel := rel_pos ((zp_mono (show (-1000 : ℤ) ≤ -32 by norm_num)).trans hdl)
  have hx0 : 0 ≤ 1 / (dim : K) := (zp (K := K) _).le.trans hdl
  set T := fl (1 / (dim : K)) with hT
  have hTL : T * L ≤ T := mul_le_of_le_one_right hT0 h2
  have hTl : (2 : K) ^ (-33 : ℤ) ≤ T := by
    refine le_trans ?_ hTh.1
    rw [show (-33 : ℤ) = -32 + -1 by norm_num, zp_add, show (2 : K) ^ (-1 : ℤ) = 1 / 2 by norm_num]
    linarith
  have hlow : (2 : K) ^ (-1000 : ℤ) ≤ T * L :=
    (zp_mono (show (-1000 : ℤ) ≤ -33 + -41 by norm_num)).trans (by
      rw [zp_add]; exact mul_le_mul hTl h1 (zp _).le hT0)
  have e2 : mul T L = .ok (fl (T * L)) := dbl_le_two (abs_le.2 ⟨by nlinarith, by linarith⟩)
  have hD := two_rel hL.le hrel hx0 hlow
  rw [show 1 / (dim : K) * L = L / dim by ring] at hD
  obtain ⟨w, e3, hw⟩ := window_total hd hl hv (fl_isDouble (T * L)) (double_le_fl isDouble_zero (by positivity))
    (fl_le_double (fl_isDouble _) hTL) hD (by
      refine hTh.2.trans ?_
      rw [show L / (dim : K) = 1 / dim * L by ring]
      have : (1 : K) ≤ 2 ^ 41 * L := by
        have := mul_le_mul_of_nonneg_left h1 (by positivity : (0 : K) ≤ 2 ^ 41)
        refine le_trans (le_of_eq ?_) this
        norm_num
      have := mul_le_mul_of_nonneg_left this hx0
      generalize 1 / (dim : K) = p at *
      linarith)
  refine ⟨w, ?_, hw⟩
  unfold defineTrustRegion
  rw [if_neg (by omega), if_neg (by omega)]
  exact bind_eq e1 (bind_eq e2 e3)

theorem gradientStepWindow_total {dim : Nat} (hd : 0 < dim) (hd2 : dim < 2 ^ 32) {v : List K} (hl : v.length = dim)
    (hv : ∀ a ∈ v, IsDouble a ∧ 0 ≤ a ∧ a ≤ fl (1 / (dim : K))) {f t : K} (h1 : 2 ^ (-41 : ℤ) ≤ f * t)
    (hf : 0 < f) (hf1 : f ≤ 1) (ht : 0 < t) (ht1 : t ≤ 1) :
    ∃ w, gradientStepWindow dim v f t = .ok w ∧ WindowAround dim v (f * t / dim) w := by
  obtain ⟨-, hT0, hT1⟩ := one_div_ok (K := K) hd
  have hdl := dim_low (K := K) hd hd2
  have hTh := half_le_fl ((zp_mono (show (-999 : ℤ) ≤ -32 by norm_num)).trans hdl)
  have hx0 : 0 ≤ 1 / (dim : K) := (zp (K := K) _).le.trans hdl
  have hfl : (2 : K) ^ (-41 : ℤ) ≤ f := h1.trans (mul_le_of_le_one_right hf.le ht1)
  have hfd : (2 : K) ^ (-73 : ℤ) ≤ f / dim := by
    rw [show (-73 : ℤ) = -41 + -32 by norm_num, zp_add, show f / (dim : K) = f * (1 / dim) by ring]
    exact mul_le_mul hfl hdl (zp _).le hf.le
  have hfd1 : f / (dim : K) ≤ 1 / dim := by
    rw [show f / (dim : K) = f * (1 / dim) by ring]; exact mul_le_of_le_one_left hx0 hf1
  have hfd0 : 0 < f / (dim : K) := (zp (K := K) _).trans_le hfd
  have hrel := rel_pos ((zp_mono (show (-1000 : ℤ) ≤ -73 by norm_num)).trans hfd)
  have hah := half_le_fl ((zp_mono (show (-999 : ℤ) ≤ -73 by norm_num)).trans hfd)
  have haT : fl (f / (dim : K)) ≤ fl (1 / (dim : K)) := fl_mono hfd1
  have e1 : div f (dim : K) = .ok (fl (f / (dim : K))) := by
    unfold div
    have : (dim : K) ≠ 0 := by exact_mod_cast hd.ne'
    have h5 : 1 / (dim : K) ≤ 1 := by
      rw [div_le_one (by exact_mod_cast hd)]; exact_mod_cast hd
    rw [if_neg this, dbl_le_two (abs_le.2 ⟨by linarith, by linarith⟩)]
  set a := fl (f / (dim : K)) with ha
  have ha0 : 0 < a := by linarith [hah.1]
  have hat : a * t ≤ a := mul_le_of_le_one_right ha0.le ht1
  have hat0 : 0 < a * t := mul_pos ha0 ht
  have e2 : mul a t = .ok (fl (a * t)) := dbl_le_two (abs_le.2 ⟨by linarith, by linarith⟩)
  have hprod : (2 : K) ^ (-73 : ℤ) ≤ f / dim * t := by
    rw [show (-73 : ℤ) = -41 + -32 by norm_num, zp_add, show f / (dim : K) * t = f * t * (1 / dim) by ring]
    exact mul_le_mul h1 hdl (zp _).le (by positivity)
  have hlow : (2 : K) ^ (-1000 : ℤ) ≤ a * t := by
    have h6 : f / dim * t / 2 ≤ a * t := by
      have := mul_le_mul_of_nonneg_right hah.1 ht.le
      linarith
    have h7 : (2 : K) ^ (-74 : ℤ) ≤ f / dim * t / 2 := by
      rw [show (-74 : ℤ) = -73 + -1 by norm_num, zp_add, show (2 : K) ^ (-1 : ℤ) = 1 / 2 by norm_num]
      linarith
    exact (zp_mono (by norm_num)).trans (h7.trans h6)
  have hD := two_rel ht.le hrel hfd0.le hlow
  rw [show f / (dim : K) * t = f * t / dim by ring] at hD
  obtain ⟨w, e3, hw⟩ := window_total hd hl hv (fl_isDouble (a * t)) (double_le_fl isDouble_zero hat0.le)
    ((fl_le_double (fl_isDouble _) hat).trans haT) hD (by
      refine hTh.2.trans ?_
      rw [show f * t / (dim : K) = 1 / dim * (f * t) by ring]
      have : (1 : K) ≤ 2 ^ 41 * (f * t) := by
        have := mul_le_mul_of_nonneg_left h1 (by positivity : (0 : K) ≤ 2 ^ 41)
        refine le_trans (le_of_eq ?_) this
        norm_num
      have := mul_le_mul_of_nonneg_left this hx0
      generalize 1 / (dim : K) = p at *
      generalize f * t = q at *
      linarith)
  refine ⟨w, ?_, hw⟩
  unfold gradientStepWindow
  rw [if_neg (by push Not; exact ⟨hf, hf1⟩), if_neg (by omega), if_neg (by omega)]
  exact bind_eq e1 (bind_eq e2 e3)

end Rodeo.Dbl
