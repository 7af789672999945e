import Verif.Model.DblGrad
import Verif.Lemmas.DblLU
import Verif.Lemmas.DblNeg
import Verif.Lemmas.DblGrid
import Verif.Lemmas.Mat

/-! # Lemmas on the gradient optimizer in double arithmetic -/

set_option linter.unusedSectionVars false

namespace Rodeo.Dbl

open Finset Spec

variable {K : Type} [Field K] [LinearOrder K] [IsStrictOrderedRing K] [FloorRing K]

/-! ## Halving -/

/-- At most half of the least subnormal number is rounded to zero. -/
theorem fl_tiny {x : K} (h : |x| ≤ 2 ^ (-1075 : ℤ)) : fl x = 0 := by
  by_cases hx : x = 0
  · rw [hx, fl_zero]
  have hu : ulpExp x = -1074 := by
    unfold ulpExp
    refine max_eq_right ?_
    have h1 := (log_bounds hx).1
    have h2 : (2 : K) ^ (Int.log 2 |x|) ≤ 2 ^ (-1075 : ℤ) := h1.trans h
    have := (zpow_le_zpow_iff_right₀ (by norm_num : (1 : K) < 2)).1 h2
    omega
  have e : (2 : K) ^ (-1075 : ℤ) = 1 / 2 * 2 ^ (-1074 : ℤ) := by
    rw [show (-1075 : ℤ) = -1 + -1074 from rfl, zp_add]
    norm_num [zpow_neg]
  have hy : |x / 2 ^ (-1074 : ℤ)| ≤ 1 / 2 := by
    rw [abs_div, abs_of_pos (zp (K := K) (-1074)), div_le_iff₀ (zp _), ← e]
    exact h
  unfold fl
  rw [hu]
  suffices hr : roundEven (x / 2 ^ (-1074 : ℤ)) = 0 by rw [hr]; simp
  generalize x / 2 ^ (-1074 : ℤ) = y at hy
  rw [abs_le] at hy
  unfold roundEven
  rcases le_or_gt 0 y with h0 | h0
  · have hf : ⌊y⌋ = 0 := Int.floor_eq_iff.2 ⟨by simpa using h0, by push_cast; linarith⟩
    rw [hf]
    split_ifs with c1 c2 <;> try rfl
    · exfalso; push_cast at c2; linarith
    · norm_num at *
  · have hf : ⌊y⌋ = -1 := Int.floor_eq_iff.2 ⟨by push_cast; linarith, by push_cast; linarith⟩
    rw [hf]
    split_ifs with c1 c2 c3 <;> try rfl
    · exfalso; push_cast at c1; linarith
    · norm_num at *

theorem mul_half {s : K} {k : ℤ} (hk : k ≤ 1024) (hs : |s| ≤ 2 ^ k) (hk0 : -1074 ≤ k - 1) :
    mul s (1 / 2) = .ok (fl (s * (1 / 2))) ∧ |fl (s * (1 / 2))| ≤ 2 ^ (k - 1) := by
  have h1 : |s * (1 / 2)| ≤ 2 ^ (k - 1) := by
    rw [abs_mul, abs_of_pos (by norm_num : (0 : K) < 1 / 2), zpow_sub_one₀ two_ne_zero, ← one_div]
    exact mul_le_mul_of_nonneg_right hs (by norm_num)
  exact ⟨dbl_of_le hk0 (by omega) h1, fl_abs_le hk0 h1⟩

theorem mul_half_tiny {s : K} (hs : |s| ≤ 2 ^ (-1074 : ℤ)) : mul s (1 / 2) = .ok 0 := by
  have h1 : |s * (1 / 2)| ≤ 2 ^ (-1074 - 1 : ℤ) := by
    rw [abs_mul, abs_of_pos (by norm_num : (0 : K) < 1 / 2), zpow_sub_one₀ two_ne_zero, ← one_div]
    exact mul_le_mul_of_nonneg_right hs (by norm_num)
  have h2 : fl (s * (1 / 2)) = 0 := fl_tiny h1
  unfold mul dbl
  rw [h2, if_pos (by rw [abs_zero]; positivity)]

/-! ## One step -/

theorem moved_post {x g : List K} {t : K} {r : List K} (h : moved x g t = .ok r) :
    x.length = g.length ∧ r.length = x.length ∧
      ∀ i, i < x.length → vecFun r i = fl (vecFun x i - fl (vecFun g i * t)) := by
  unfold moved at h
  split_ifs at h with hl
  rw [ne_eq, not_not] at hl
  obtain ⟨h1, h2⟩ := tab_inv h
  refine ⟨hl, h1, fun i hi => ?_⟩
  obtain ⟨a, e1, e2⟩ := h2 i hi
  rw [show vecFun r i = a by simp [vecFun, e2]]
  obtain ⟨u, q1, e3⟩ := bind_ok_inv e1
  obtain ⟨v, q2, e4⟩ := bind_ok_inv e3
  obtain ⟨d, q3, e5⟩ := bind_ok_inv e4
  rw [rawAt_ok_of_lt hi] at q1
  rw [rawAt_ok_of_lt (show i < g.length by omega)] at q2
  obtain rfl := Except.ok.inj q1
  obtain rfl := Except.ok.inj q2
  rw [show vecFun x i = x[i] by simp [vecFun, hi], show vecFun g i = g[i] by simp [vecFun, show i < g.length by omega]]
  obtain rfl := dbl_ok q3
  exact dbl_ok e5

theorem moved_doubles {x g : List K} {t : K} {r : List K} (h : moved x g t = .ok r) : Doubles r := by
  obtain ⟨-, h1, h2⟩ := moved_post h
  intro v hv
  obtain ⟨i, hi, rfl⟩ := List.getElem_of_mem hv
  have := h2 i (by omega)
  rw [show vecFun r i = r[i] by simp [vecFun, hi]] at this
  rw [this]
  exact fl_isDouble _

/-- With step size zero the point stays where it is. -/
theorem moved_zero {x g : List K} (hx : Doubles x) (hb : ∀ v ∈ x, |v| < 2 ^ 1024) (hl : x.length = g.length) :
    moved x g 0 = .ok x := by
  unfold moved
  rw [if_neg (by simp [hl])]
  refine tab_ok_list rfl fun j hj => ?_
  have e1 : rawAt x j = .ok x[j] := by unfold rawAt; simp [hj]
  have e2 : rawAt g j = .ok (g[j]'(by omega)) := by unfold rawAt; simp [show j < g.length by omega]
  refine bind_eq e1 (bind_eq e2 ?_)
  have e3 : mul (g[j]'(by omega)) 0 = .ok (0 : K) := by
    unfold mul dbl
    rw [mul_zero, fl_zero, if_pos (by rw [abs_zero]; positivity)]
  refine bind_eq e3 ?_
  unfold sub dbl
  have hd := hx _ (List.getElem_mem hj)
  rw [sub_zero, fl_of_double hd, if_pos (hb _ (List.getElem_mem hj))]

/-! ## The loop of the line search -/

theorem backtrack_succ (E : GEnv K) (cur : GPoint K) (fuel n : Nat) (next : GPoint K) (step : K) :
    backtrack E cur (fuel + 1) n next step = (moved cur.x cur.gradient step >>= fun x =>
      if E.f x < cur.obj then .ok (n + 1, { next with x := x, obj := E.f x })
      else mul step (1 / 2) >>= fun half => backtrack E cur fuel (n + 1) { next with x := x, obj := E.f x } half) := rfl

/-- More rounds do not change a result. -/
theorem backtrack_mono {E : GEnv K} {cur : GPoint K} : ∀ {fuel fuel' n : Nat} {next : GPoint K} {step : K}
    {r : Nat × GPoint K}, fuel ≤ fuel' → backtrack E cur fuel n next step = .ok r →
      backtrack E cur fuel' n next step = .ok r := by
  intro fuel
  induction fuel with
  | zero => intro _ _ _ _ _ _ h; cases h
  | succ fuel ih =>
    intro fuel' n next step r hf h
    obtain ⟨f', rfl⟩ : ∃ f', fuel' = f' + 1 := ⟨fuel' - 1, by omega⟩
    rw [backtrack_succ] at h ⊢
    obtain ⟨x, hx, h1⟩ := bind_ok_inv h
    refine bind_eq hx ?_
    split_ifs at h1 ⊢ with hc
    · exact h1
    · obtain ⟨half, hh, h2⟩ := bind_ok_inv h1
      exact bind_eq hh (ih (by omega) h2)

/-- A search with step size zero returns at once or never. -/
theorem backtrack_zero {E : GEnv K} {cur : GPoint K} (hx : Doubles cur.x) (hb : ∀ v ∈ cur.x, |v| < 2 ^ 1024) :
    ∀ {fuel n : Nat} {next : GPoint K} {r : Nat × GPoint K}, backtrack E cur fuel n next 0 = .ok r →
      E.f cur.x < cur.obj := by
  intro fuel
  induction fuel with
  | zero => intro _ _ _ h; cases h
  | succ fuel ih =>
    intro n next r h
    rw [backtrack_succ] at h
    obtain ⟨x, hm, h1⟩ := bind_ok_inv h
    have hl := (moved_post hm).1
    rw [moved_zero hx hb hl] at hm
    obtain rfl := Except.ok.inj hm
    split_ifs at h1 with hc
    · exact hc
    · obtain ⟨half, hh, h2⟩ := bind_ok_inv h1
      rw [mul_half_tiny (by rw [abs_zero]; exact (zp _).le)] at hh
      obtain rfl := Except.ok.inj hh
      exact ih h2

/-- A search that returns does so within `k + 2` rounds, if the step size is at most `2 ^ (k - 1074)`. -/
theorem backtrack_early {E : GEnv K} {cur : GPoint K} (hx : Doubles cur.x) (hb : ∀ v ∈ cur.x, |v| < 2 ^ 1024) :
    ∀ {k fuel n : Nat} {next : GPoint K} {step : K} {r : Nat × GPoint K}, k ≤ 2098 →
      |step| ≤ 2 ^ ((k : ℤ) - 1074) → backtrack E cur fuel n next step = .ok r →
      backtrack E cur (k + 2) n next step = .ok r := by
  intro k
  induction k with
  | zero =>
    intro fuel n next step r _ hs h
    obtain ⟨f', rfl⟩ : ∃ f', fuel = f' + 1 := by
      rcases fuel with _ | f
      · cases h
      · exact ⟨f, rfl⟩
    rw [backtrack_succ] at h
    rw [show 0 + 2 = 1 + 1 from rfl, backtrack_succ]
    obtain ⟨x, hm, h1⟩ := bind_ok_inv h
    refine bind_eq hm ?_
    split_ifs at h1 ⊢ with hc
    · exact h1
    · obtain ⟨half, hh, h2⟩ := bind_ok_inv h1
      refine bind_eq hh ?_
      rw [mul_half_tiny (by simpa using hs)] at hh
      obtain rfl := Except.ok.inj hh
      have hlt := backtrack_zero hx hb h2
      have h3 : backtrack E cur 1 (n + 1) { next with x := x, obj := E.f x } 0 =
          .ok (n + 1 + 1, { next with x := cur.x, obj := E.f cur.x }) := by
        rw [backtrack_succ]
        refine bind_eq (moved_zero hx hb (moved_post hm).1) ?_
        rw [if_pos hlt]
      rcases Nat.le_total 1 f' with hf | hf
      · have := backtrack_mono hf h3
        rw [h2] at this
        rw [h3, this]
      · exact backtrack_mono hf h2
  | succ k ih =>
    intro fuel n next step r hk hs h
    obtain ⟨f', rfl⟩ : ∃ f', fuel = f' + 1 := by
      rcases fuel with _ | f
      · cases h
      · exact ⟨f, rfl⟩
    rw [backtrack_succ] at h ⊢
    obtain ⟨x, hm, h1⟩ := bind_ok_inv h
    refine bind_eq hm ?_
    split_ifs at h1 ⊢ with hc
    · exact h1
    · obtain ⟨half, hh, h2⟩ := bind_ok_inv h1
      refine bind_eq hh ?_
      have h3 := mul_half (k := ((k + 1 : ℕ) : ℤ) - 1074) (by push_cast; omega) hs (by push_cast; omega)
      rw [h3.1] at hh
      obtain rfl := Except.ok.inj hh
      refine ih (by omega) (h3.2.trans (zp_mono (by push_cast; omega))) h2

/-- What a search that returns has found. -/
theorem backtrack_post {E : GEnv K} {cur : GPoint K} : ∀ {fuel n : Nat} {next : GPoint K} {step : K}
    {r : Nat × GPoint K}, backtrack E cur fuel n next step = .ok r → IsDouble step → 0 ≤ step →
      r.2.obj = E.f r.2.x ∧ E.f r.2.x < cur.obj ∧ r.1 ≤ n + fuel ∧ ∃ t, IsDouble t ∧ 0 ≤ t ∧ t ≤ step ∧
        moved cur.x cur.gradient t = .ok r.2.x := by
  intro fuel
  induction fuel with
  | zero => intro _ _ _ _ h; cases h
  | succ fuel ih =>
    intro n next step r h hd h0
    rw [backtrack_succ] at h
    obtain ⟨x, hm, h1⟩ := bind_ok_inv h
    split_ifs at h1 with hc
    · obtain rfl := Except.ok.inj h1
      exact ⟨rfl, hc, by omega, step, hd, h0, le_rfl, hm⟩
    · obtain ⟨half, hh, h2⟩ := bind_ok_inv h1
      obtain rfl := dbl_ok hh
      have hle : fl (step * (1 / 2)) ≤ step := fl_le_double hd (by linarith)
      obtain ⟨q1, q2, q3, t, q4, q5, q6, q7⟩ := ih h2 (fl_isDouble _)
        (double_le_fl isDouble_zero (by linarith))
      exact ⟨q1, q2, by omega, t, q4, q5, q6.trans hle, q7⟩

/-! ## Finite differences -/

theorem fl_norm {x : K} (h : 2 ^ (-1000 : ℤ) ≤ |x|) : |fl x - x| ≤ eps * |x| := lit_rel h

/-- The two points at which the function is evaluated: `e` is the relative step, `x` the coordinate, all errors
relative to `x`. -/
theorem points_alg {x e h a b u : K} (hx : 0 < x) (he0 : 0 < e) (he : e ≤ 1 / 10) (hu0 : 0 ≤ u) (hu : u ≤ 1 / 2 ^ 53)
    (hue : 2 ^ 12 * u ≤ e) (hh : |h - e * x| ≤ u * (e * x)) (ha : |a - (x + h)| ≤ u * |x + h|)
    (hb : |b - (a - 2 * h)| ≤ u * |a - 2 * h|) :
    |a - (1 + e) * x| ≤ 2 * u * x ∧ |b - (1 - e) * x| ≤ 3 * u * x ∧ 0 < h ∧
      |(a - b) - 2 * h| ≤ u * x ∧ 98 / 100 * (e * x) ≤ h ∧ h ≤ 102 / 100 * (e * x) := by
  have hex : 0 ≤ e * x := by positivity
  have hux : 0 ≤ u * x := by positivity
  have hex1 : e * x ≤ 1 / 10 * x := mul_le_mul_of_nonneg_right he hx.le
  have huex : u * (e * x) ≤ 1 / 2 ^ 53 * (e * x) := mul_le_mul_of_nonneg_right hu hex
  have huex2 : u * (e * x) ≤ 1 / 10 * (u * x) := by
    have := mul_le_mul_of_nonneg_left hex1 hu0
    linarith
  have hux2 : 2 ^ 12 * (u * x) ≤ e * x := by
    have := mul_le_mul_of_nonneg_right hue hx.le
    linarith
  rw [abs_le] at hh
  norm_num at huex hux2
  have p1 : 0 ≤ x + h := by linarith
  rw [abs_of_nonneg p1] at ha
  have q1 : u * (x + h) ≤ 12 / 10 * (u * x) := by
    have : x + h ≤ 12 / 10 * x := by linarith
    have := mul_le_mul_of_nonneg_left this hu0
    linarith
  rw [abs_le] at ha
  have p2 : 0 ≤ a - 2 * h := by linarith
  rw [abs_of_nonneg p2] at hb
  have q2 : u * (a - 2 * h) ≤ u * x := by
    refine mul_le_mul_of_nonneg_left ?_ hu0
    linarith
  rw [abs_le] at hb
  refine ⟨abs_le.2 ⟨by linarith, by linarith⟩, abs_le.2 ⟨by linarith, by linarith⟩, ?_, abs_le.2 ⟨by linarith, by linarith⟩,
    by linarith, by linarith⟩
  have : 0 < e * x := by positivity
  linarith

/-- The computed quotient and the slope between the two points. -/
theorem quot_alg {D D' q H w u v eta : K} (hH : 0 < H) (hv0 : 0 ≤ v) (hv : v ≤ 1 / 2 ^ 12)
    (hu : u ≤ v / 10) (hw : |w - H| ≤ v * H / (196 / 100)) (hD : |D' - D| ≤ u * |D|)
    (hq : |q - D' / H| ≤ u * |D' / H| + eta) : w ≠ 0 ∧ |q - D / w| ≤ v * |D / w| + eta := by
  have hvH : v * H ≤ 1 / 2 ^ 12 * H := mul_le_mul_of_nonneg_right hv hH.le
  have hw' := abs_le.1 hw
  have hw0 : 0 < w := by norm_num at hvH; linarith
  refine ⟨hw0.ne', ?_⟩
  have hQ : D / H = D / w * (w / H) := by field_simp
  set Q := D / w with hQd
  set r := w / H - 1 with hr
  have hr1 : |r| ≤ v * (51 / 100 + 1 / 1000) := by
    have : r = (w - H) / H := by rw [hr]; field_simp
    rw [this, abs_div, abs_of_pos hH, div_le_iff₀ hH]
    refine hw.trans ?_
    have : 0 ≤ v * H := by positivity
    rw [div_le_iff₀ (by norm_num)]
    nlinarith
  have h1 : |D / H - Q| ≤ v * (51 / 100 + 1 / 1000) * |Q| := by
    have : D / H - Q = r * Q := by rw [hQ, hr]; ring
    rw [this, abs_mul]
    exact mul_le_mul_of_nonneg_right hr1 (abs_nonneg _)
  have hQ0 := abs_nonneg Q
  have hvQ : v * |Q| ≤ 1 / 2 ^ 12 * |Q| := mul_le_mul_of_nonneg_right hv hQ0
  have hvQ0 : 0 ≤ v * |Q| := by positivity
  have h2 : |D / H| ≤ 11 / 10 * |Q| := by
    have := abs_sub_abs_le_abs_sub (D / H) Q
    norm_num at hvQ
    nlinarith
  have h3 : |D' / H - D / H| ≤ u * |D / H| := by
    rw [← sub_div, abs_div, abs_div, abs_of_pos hH, ← mul_div_assoc]
    exact div_le_div_of_nonneg_right hD hH.le
  have hu1 : u ≤ 1 / 100 := by norm_num at hv; linarith
  have h4 : |D' / H| ≤ 12 / 10 * |Q| := by
    have := abs_sub_abs_le_abs_sub (D' / H) (D / H)
    have h5 : u * |D / H| ≤ 1 / 100 * |D / H| := mul_le_mul_of_nonneg_right hu1 (abs_nonneg _)
    linarith
  have h5 : u * |D' / H| ≤ v / 10 * (12 / 10 * |Q|) := mul_le_mul hu h4 (abs_nonneg _) (by linarith)
  have h6 : u * |D / H| ≤ v / 10 * (11 / 10 * |Q|) := mul_le_mul hu h2 (abs_nonneg _) (by linarith)
  have h7 : |q - Q| ≤ |q - D' / H| + |D' / H - D / H| + |D / H - Q| := by
    have e : q - Q = (q - D' / H) + (D' / H - D / H) + (D / H - Q) := by ring
    rw [e]
    exact (abs_add_le _ _).trans (add_le_add (abs_add_le _ _) le_rfl)
  nlinarith

/-- One entry of the gradient, positive coordinate. -/
theorem entry_pos {x e fp fm : K} (hx : IsDouble x) (hx0 : 2 ^ (-900 : ℤ) ≤ x) (he1 : 1 / 2 ^ 40 ≤ e) (he : e ≤ 1 / 10)
    (hfp : IsDouble fp) (hfm : IsDouble fm) :
    fl (2 * fl (e * x)) = 2 * fl (e * x) ∧
    |fl (x + fl (e * x)) - (1 + e) * x| ≤ x / 2 ^ 52 ∧
    |fl (fl (x + fl (e * x)) - 2 * fl (e * x)) - (1 - e) * x| ≤ x / 2 ^ 51 ∧
    fl (x + fl (e * x)) ≠ fl (fl (x + fl (e * x)) - 2 * fl (e * x)) ∧
    |fl (fl (fp - fm) / (2 * fl (e * x))) - (fp - fm) / (fl (x + fl (e * x)) - fl (fl (x + fl (e * x)) - 2 * fl (e * x)))| ≤
      1 / (2 ^ 53 * e) * |(fp - fm) / (fl (x + fl (e * x)) - fl (fl (x + fl (e * x)) - 2 * fl (e * x)))| + 1 / 2 ^ 1075 := by
  have hxp : 0 < x := (zp _).trans_le hx0
  have he0 : 0 < e := lt_of_lt_of_le (by positivity) he1
  have hex : 0 < e * x := by positivity
  have hbig : (2 : K) ^ (-1000 : ℤ) ≤ |e * x| := by
    rw [abs_of_pos hex]
    have h1 : (2 : K) ^ (-1000 : ℤ) ≤ 2 ^ (-40 + -900 : ℤ) := zp_mono (by norm_num)
    refine h1.trans ?_
    rw [zp_add]
    refine mul_le_mul ?_ hx0 (zp _).le he0.le
    refine le_trans (le_of_eq ?_) he1
    rw [zpow_neg, one_div]; norm_cast
  have hh := fl_norm hbig
  rw [abs_of_pos hex] at hh
  have h2d : IsDouble (2 * fl (e * x)) := by
    have := isDouble_pow_mul (fl_isDouble (e * x)) 1
    rwa [pow_one] at this
  have heps : (eps : K) = 1 / 2 ^ 53 := rfl
  have ha := fl_add_rel hx (fl_isDouble (e * x))
  have hb := fl_add_rel (fl_isDouble (x + fl (e * x))) (isDouble_neg h2d)
  rw [← sub_eq_add_neg] at hb
  obtain ⟨p1, p2, p3, p4, p5, p6⟩ := points_alg (u := (eps : K)) hxp he0 he (by rw [heps]; positivity) (by rw [heps])
    (by rw [heps]; norm_num at he1 ⊢; linarith) hh ha hb
  rw [heps] at p1 p2 p4
  generalize fl (x + fl (e * x)) = a at *
  generalize fl (a - 2 * fl (e * x)) = b at *
  have hD : |fl (fp - fm) - (fp - fm)| ≤ eps * |fp - fm| := by
    have := fl_add_rel hfp (isDouble_neg hfm)
    rwa [← sub_eq_add_neg] at this
  have hq := Dbl.fl_rel (fl (fp - fm) / (2 * fl (e * x)))
  have hv : (1 : K) / (2 ^ 53 * e) * e = 1 / 2 ^ 53 := by field_simp
  obtain ⟨q1, q2⟩ := quot_alg (w := a - b) (v := 1 / (2 ^ 53 * e)) (by linarith) (by positivity) (by
      rw [div_le_div_iff₀ (by positivity) (by positivity)]
      norm_num at he1 ⊢; linarith) (by
      rw [heps, div_div, div_le_div_iff₀ (by positivity) (by positivity)]
      norm_num at he ⊢; linarith) (by
      refine p4.trans ?_
      rw [le_div_iff₀ (by norm_num)]
      have h3 : 1 / (2 ^ 53 * e) * (98 / 100 * (e * x)) ≤ 1 / (2 ^ 53 * e) * fl (e * x) :=
        mul_le_mul_of_nonneg_left p5 (by positivity)
      have h4 : 1 / (2 ^ 53 * e) * (98 / 100 * (e * x)) = 98 / 100 * (1 / 2 ^ 53 * x) := by
        rw [← hv]; ring
      rw [h4] at h3
      linarith) hD hq
  refine ⟨fl_of_double h2d, p1.trans (le_of_eq (by ring)), p2.trans ?_, fun hab => q1 (by rw [hab, sub_self]), ?_⟩
  · have : 0 < x / 2 ^ 53 := by positivity
    have e2 : x / 2 ^ 51 = 4 * (x / 2 ^ 53) := by ring
    rw [e2]; linarith
  · refine q2.trans (add_le_add le_rfl (le_of_eq ?_))
    unfold eta
    rw [zpow_neg, one_div]; norm_cast

/-- One entry of the gradient. -/
theorem entry_near {x e fp fm : K} (hx : IsDouble x) (hx0 : 2 ^ (-900 : ℤ) ≤ |x|) (he1 : 1 / 2 ^ 40 ≤ e) (he : e ≤ 1 / 10)
    (hfp : IsDouble fp) (hfm : IsDouble fm) :
    fl (2 * fl (e * x)) = 2 * fl (e * x) ∧
    |fl (x + fl (e * x)) - (1 + e) * x| ≤ |x| / 2 ^ 52 ∧
    |fl (fl (x + fl (e * x)) - 2 * fl (e * x)) - (1 - e) * x| ≤ |x| / 2 ^ 51 ∧
    fl (x + fl (e * x)) ≠ fl (fl (x + fl (e * x)) - 2 * fl (e * x)) ∧
    |fl (fl (fp - fm) / (2 * fl (e * x))) - (fp - fm) / (fl (x + fl (e * x)) - fl (fl (x + fl (e * x)) - 2 * fl (e * x)))| ≤
      1 / (2 ^ 53 * e) * |(fp - fm) / (fl (x + fl (e * x)) - fl (fl (x + fl (e * x)) - 2 * fl (e * x)))| + 1 / 2 ^ 1075 := by
  rcases le_total 0 x with h | h
  · rw [abs_of_nonneg h] at hx0 ⊢
    exact entry_pos hx hx0 he1 he hfp hfm
  · rw [abs_of_nonpos h] at hx0 ⊢
    have H := entry_pos (isDouble_neg hx) hx0 he1 he hfp hfm
    have e1 : fl (e * -x) = -fl (e * x) := by rw [mul_neg, fl_neg]
    have key : ∀ y z : K, -y = z → fl z = -fl y := fun y z h => by rw [← h, fl_neg]
    have e2 : fl (-x + -fl (e * x)) = -fl (x + fl (e * x)) := key _ _ (by ring)
    have e3 : ∀ y, fl (-y - 2 * -fl (e * x)) = -fl (y - 2 * fl (e * x)) := fun y => key _ _ (by ring)
    have e4 : fl (2 * -fl (e * x)) = -fl (2 * fl (e * x)) := key _ _ (by ring)
    rw [e1, e2, e3, e4] at H
    obtain ⟨h1, h2, h3, h4, h5⟩ := H
    refine ⟨by linarith, ?_, ?_, fun hab => h4 (congrArg Neg.neg hab), ?_⟩
    · rw [← abs_neg]; refine le_trans (le_of_eq ?_) h2; congr 1; ring
    · rw [← abs_neg]; refine le_trans (le_of_eq ?_) h3; congr 1; ring
    · have e5 : ∀ w, (fp - fm) / (-w) = -((fp - fm) / w) := fun w => div_neg _
      have e6 : ∀ a b : K, -a - -b = -(a - b) := fun a b => by ring
      rw [e6, div_neg, abs_neg, mul_neg, div_neg, fl_neg] at h5
      rw [← abs_neg]; refine le_trans (le_of_eq ?_) h5; congr 1; ring

/-- The coordinate after a body of the loop is the one before. -/
theorem set_restore {x : List K} {i : Nat} {a b v : K} (h : x[i]? = some v) : ((x.set i a).set i b).set i v = x := by
  rw [List.set_set, List.set_set]
  obtain ⟨hi, rfl⟩ := List.getElem?_eq_some_iff.1 h
  exact List.set_getElem_self hi

/-- The two points and the quotient of one round. -/
theorem centralBody_post {E : GEnv K} {e : K} {i : Nat} {s : GradOpt.FDState K} (hi : i < s.point.x.length) :
    Post (centralBody E e i s) (fun s' => s'.evals = s.evals + 2 ∧ s'.point.x = s.point.x ∧ ∃ h a b q : K,
      h = fl (e * vecFun s.point.x i) ∧ a = fl (vecFun s.point.x i + h) ∧ b = fl (a - fl (2 * h)) ∧
      q = fl (fl (E.f (s.point.x.set i a) - E.f (s.point.x.set i b)) / fl (2 * h)) ∧ s'.grad = s.grad ++ [q]) := by
  have hg : s.point.x[i]? = some (vecFun s.point.x i) := by simp [vecFun, hi]
  unfold centralBody
  refine post_of (Mat.vat_vecFun hi) ?_
  refine Post.bind (P := fun h => h = fl (e * vecFun s.point.x i)) (fun v hv => dbl_ok hv) ?_
  intro h hh
  refine Post.bind (P := fun a => a = fl (vecFun s.point.x i + h)) (fun v hv => dbl_ok hv) ?_
  intro a ha
  refine Post.bind (P := fun w => w = fl (2 * h)) (fun v hv => dbl_ok hv) ?_
  intro w hw
  refine Post.bind (P := fun b => b = fl (a - w)) (fun v hv => dbl_ok hv) ?_
  intro b hb
  refine Post.bind (P := fun d => d = fl (E.f (s.point.x.set i a) - E.f ((s.point.x.set i a).set i b)))
    (fun v hv => dbl_ok hv) ?_
  intro d hd
  refine Post.bind (P := fun q => q = fl (d / w)) (fun v hv => (div_ok hv).2) ?_
  intro q hq
  refine Post.ok ⟨rfl, set_restore hg, h, a, b, q, hh, ha, by rw [hb, hw], ?_, rfl⟩
  rw [List.set_set] at hd
  rw [hq, hd, hw]

end Rodeo.Dbl
