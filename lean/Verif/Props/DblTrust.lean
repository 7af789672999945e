import Verif.Lemmas.DblTrust
import Verif.Props.TrustRegion
import Mathlib.Data.Rat.Floor

/-! # C134: the trust region in double arithmetic -/

set_option linter.unusedSectionVars false

namespace Rodeo

open Spec Dbl

variable {K : Type} [Field K] [LinearOrder K] [IsStrictOrderedRing K] [FloorRing K]

/-- C134: whatever the outcomes of the iterations so far, the search window around a design of the box that was
normalized in double arithmetic contains that design. -/
def C134_full (K : Type) [Field K] [LinearOrder K] [IsStrictOrderedRing K] [FloorRing K] : Prop :=
  ∀ (dim : Nat) (outcomes : List Bool) (x lb ub z : List K) (s t : TrustRegion K) (w : List K × List K),
    x.length = dim → lb.length = dim → ub.length = dim →
    (∀ a ∈ x ++ lb ++ ub, IsDouble a) →
    (∀ (i : Nat) (a l u : K), x[i]? = some a → lb[i]? = some l → ub[i]? = some u → l < u ∧ l ≤ a ∧ a ≤ u) →
    Dbl.normalizeVector x lb ub = .ok z → Dbl.trStart dim = .ok s → Dbl.trRun s outcomes = .ok t →
    Dbl.defineTrustRegion dim z t.length = .ok w →
    ∀ (i : Nat) (a l u : K), z[i]? = some a → w.1[i]? = some l → w.2[i]? = some u → l ≤ a ∧ a ≤ u

namespace Dbl

theorem trStart_eq {dim : Nat} (hd : 0 < dim) (hd2 : dim < 2 ^ 32) :
    trStart dim = .ok (trRound (TrustRegion.start dim : TrustRegion K)) := by
  obtain ⟨e1, hT0, hT1⟩ := one_div_ok (K := K) hd
  have hdl := dim_low (K := K) hd hd2
  have h1 : ((1 / 2 : K)) ^ 8 = 2 ^ (-8 : ℤ) := by norm_num
  have h2 : ((1 / 2 : K)) ^ 8 = 1 / 256 := by norm_num
  have hpos : 0 < 1 / (dim : K) := (zp (K := K) _).trans_le hdl
  have hsh : fl ((2 : K) ^ (-8 : ℤ) * (1 / (dim : K))) = 2 ^ (-8 : ℤ) * fl (1 / (dim : K)) := by
    refine fl_shift ?_ ?_
    · rw [abs_of_pos hpos]; exact (zp_mono (by norm_num)).trans hdl
    · rw [abs_of_pos (mul_pos (zp _) hpos)]
      refine (zp_mono (show (-1000 : ℤ) ≤ -8 + -32 by norm_num)).trans ?_
      rw [zp_add]
      exact mul_le_mul_of_nonneg_left hdl (zp _).le
  have e2 : mul ((1 / 2 : K) ^ 8) (fl (1 / (dim : K))) = .ok (fl ((1 / 2) ^ 8 * (1 / (dim : K)))) := by
    unfold mul
    rw [dbl_le_two (by rw [h2, abs_of_nonneg (by positivity)]; linarith), h1, hsh]
    rw [← hsh, fl_of_double (fl_isDouble _)]
  unfold trStart
  exact bind_eq e1 (bind_eq e2 rfl)

theorem trRun_eq (outcomes : List Bool) (t : TrustRegion K)
    (h : ∀ l : List Bool, Moderate (t.run l).length) : trRun (trRound t) outcomes = .ok (trRound (t.run outcomes)) := by
  induction outcomes generalizing t with
  | nil => rfl
  | cons b l ih =>
    unfold trRun
    refine bind_eq (step_round (t := t) (h []) b) ?_
    exact ih (t.step b) fun l => h (b :: l)

theorem run_moderate {dim : Nat} (hd : 0 < dim) (hd2 : dim < 2 ^ 32) (l : List Bool) :
    2 ^ (-40 : ℤ) ≤ ((TrustRegion.start dim : TrustRegion K).run l).length ∧
      ((TrustRegion.start dim : TrustRegion K).run l).length ≤ 1 := by
  obtain ⟨s1, s2, s3⟩ := TrustRegion.start_limits (K := K) hd
  obtain ⟨-, -, r3, r4⟩ := TrustRegion.run_lower _ s1 s2 s3 l
  have hdl := dim_low (K := K) hd hd2
  constructor
  · refine le_trans ?_ r3
    show _ ≤ (1 / 2 : K) ^ 8 * (1 / (dim : K))
    rw [show (-40 : ℤ) = -8 + -32 by norm_num, zp_add, show ((1 / 2 : K)) ^ 8 = 2 ^ (-8 : ℤ) by norm_num]
    exact mul_le_mul_of_nonneg_left hdl (zp _).le
  · refine r4.trans (max_le ?_ ?_)
    · show (8 / 10 : K) ≤ 1
      norm_num
    · show 1 / (dim : K) ≤ 1
      rw [div_le_one (by exact_mod_cast hd)]; exact_mod_cast hd

end Dbl

/-- The length of the trust region does not drift: after any number of iterations with any outcomes the computed
length and its limits are the correctly rounded values of the exact ones, and the counters are the exact ones. -/
theorem C134_length {dim : Nat} (hd : 0 < dim) (hd2 : dim < 2 ^ 32) (outcomes : List Bool) :
    ∃ s t : TrustRegion K, Dbl.trStart dim = .ok s ∧ Dbl.trRun s outcomes = .ok t ∧
      t.length = fl ((TrustRegion.start dim : TrustRegion K).run outcomes).length ∧
      t.lengthMax = fl (1 / (dim : K)) ∧ t.lengthMin = fl (1 / 2 ^ 8 / (dim : K)) ∧
      t.successCounter = streak true outcomes % 3 ∧ t.failureCounter = streak false outcomes % 15 := by
  have hm : ∀ l : List Bool, Moderate ((TrustRegion.start dim : TrustRegion K).run l).length := fun l =>
    ⟨(zp_mono (by norm_num)).trans (run_moderate hd hd2 l).1, (run_moderate hd hd2 l).2⟩
  obtain ⟨s1, s2, s3⟩ := TrustRegion.start_limits (K := K) hd
  obtain ⟨r1, r2, -, -⟩ := TrustRegion.run_lower _ s1 s2 s3 outcomes
  obtain ⟨c1, c2, -, -⟩ := TrustRegion.run_counters (K := K) dim outcomes
  refine ⟨_, _, trStart_eq hd hd2, trRun_eq outcomes _ hm, rfl, ?_, ?_, c1, c2⟩
  · show fl _ = _
    rw [r2]; rfl
  · show fl _ = _
    rw [r1]
    show fl ((1 / 2 : K) ^ 8 * (1 / (dim : K))) = _
    congr 1
    rw [one_div_pow]; ring

/-- C134, what holds: in every dimension, after every sequence of outcomes and around every incumbent whose
coordinates lie between 0 and the computed `1 / dim`, the window is computed without error, lies between 0 and the
computed `1 / dim`, contains the incumbent, reaches at most 1.01 times the half width `length / dim` to either side,
and is at least 0.99 times that wide in every coordinate; so it is never empty.
Missing: a normalized design can lie above the computed `1 / dim`, then it lies outside (`C134_false`). -/
theorem C134_partial {dim : Nat} (hd : 0 < dim) (hd2 : dim < 2 ^ 32) (outcomes : List Bool) {z : List K}
    (hl : z.length = dim) (hz : ∀ a ∈ z, IsDouble a ∧ 0 ≤ a ∧ a ≤ fl (1 / (dim : K))) :
    ∃ (s t : TrustRegion K) (w : List K × List K), Dbl.trStart dim = .ok s ∧ Dbl.trRun s outcomes = .ok t ∧
      Dbl.defineTrustRegion dim z t.length = .ok w ∧ 0 < t.length ∧ w.1.length = dim ∧ w.2.length = dim ∧
      ∀ (i : Nat) (a l u : K), z[i]? = some a → w.1[i]? = some l → w.2[i]? = some u →
        0 ≤ l ∧ l ≤ a ∧ a ≤ u ∧ u ≤ fl (1 / (dim : K)) ∧
        a - 101 / 100 * (t.length / dim) ≤ l ∧ u ≤ a + 101 / 100 * (t.length / dim) ∧
        99 / 100 * (t.length / dim) ≤ u - l := by
  obtain ⟨s, t, h1, h2, h3, -⟩ := C134_length (K := K) hd hd2 outcomes
  obtain ⟨m1, m2⟩ := run_moderate (K := K) hd hd2 outcomes
  have hlow : (2 : K) ^ (-41 : ℤ) ≤ t.length := by
    rw [h3]
    have := (half_le_fl ((zp_mono (show (-999 : ℤ) ≤ -40 by norm_num)).trans m1)).1
    rw [show (-41 : ℤ) = -40 + -1 by norm_num, zp_add, show (2 : K) ^ (-1 : ℤ) = 1 / 2 by norm_num]
    refine le_trans ?_ this
    rw [div_eq_mul_one_div (TrustRegion.length _)]
    have h0 : (0 : K) ≤ 1 / 2 := by norm_num
    exact mul_le_mul_of_nonneg_right m1 h0
  have hup : t.length ≤ 1 := by rw [h3]; exact fl_le_double isDouble_one m2
  obtain ⟨w, e, hw⟩ := defineTrustRegion_total hd hd2 hl hz hlow hup
  refine ⟨s, t, w, h1, h2, e, (zp (K := K) _).trans_le hlow, hw.lower, hw.upper, ?_⟩
  intro i a l u ha h4 h5
  obtain ⟨⟨a1, a2, a3⟩, ⟨b1, b2, b3⟩, c⟩ := hw.entry i a l u ha h4 h5
  exact ⟨a1, a2, b1, b2, a3, b3, c⟩

/-- The window of a gradient based step, for every admissible factor. -/
theorem C134_gradient {dim : Nat} (hd : 0 < dim) (hd2 : dim < 2 ^ 32) {z : List K} {factor trFactor : K}
    (hl : z.length = dim) (hz : ∀ a ∈ z, IsDouble a ∧ 0 ≤ a ∧ a ≤ fl (1 / (dim : K)))
    (hf : 0 < factor) (hf1 : factor ≤ 1) (ht : 0 < trFactor) (ht1 : trFactor ≤ 1)
    (hprod : 1 / 2 ^ 41 ≤ factor * trFactor) :
    ∃ w : List K × List K, Dbl.gradientStepWindow dim z factor trFactor = .ok w ∧ w.1.length = dim ∧
      w.2.length = dim ∧
      ∀ (i : Nat) (a l u : K), z[i]? = some a → w.1[i]? = some l → w.2[i]? = some u →
        0 ≤ l ∧ l ≤ a ∧ a ≤ u ∧ u ≤ fl (1 / (dim : K)) ∧
        a - 101 / 100 * (factor * trFactor / dim) ≤ l ∧ u ≤ a + 101 / 100 * (factor * trFactor / dim) ∧
        99 / 100 * (factor * trFactor / dim) ≤ u - l := by
  have h41 : (2 : K) ^ (-41 : ℤ) = 1 / 2 ^ 41 := by norm_num
  obtain ⟨w, e, hw⟩ := gradientStepWindow_total hd hd2 hl hz (h41.trans_le hprod) hf hf1 ht ht1
  refine ⟨w, e, hw.lower, hw.upper, ?_⟩
  intro i a l u ha h4 h5
  obtain ⟨⟨a1, a2, a3⟩, ⟨b1, b2, b3⟩, c⟩ := hw.entry i a l u ha h4 h5
  exact ⟨a1, a2, b1, b2, a3, b3, c⟩

/-- With five parameters between 0 and 0.1 the design at the upper corner is normalized to 0.20000000000000004, and
the upper bound of its window is 0.2. -/
theorem C134_false : ¬ C134_full ℚ := by
  intro h
  have key := h 5 [] (List.replicate 5 (fl (1 / 10))) (List.replicate 5 0) (List.replicate 5 (fl (1 / 10)))
    (List.replicate 5 (fl (fl (fl (1 / 5) * fl (1 / 10)) / fl (1 / 10)))) (trRound (TrustRegion.start 5))
    (trRound (TrustRegion.start 5))
    (List.replicate 5 (fl (fl (fl (fl (1 / 5) * fl (1 / 10)) / fl (1 / 10)) - fl (fl (1 / 5) * fl (8 / 10)))),
      List.replicate 5 (fl (1 / 5)))
    rfl rfl rfl ?_ ?_ (by decide +kernel) (by decide +kernel) rfl (by decide +kernel) 0 _ _ _ rfl rfl rfl
  · exact absurd key.2 (by decide +kernel)
  · intro a ha
    simp only [List.mem_append, List.mem_replicate] at ha
    rcases ha with (⟨-, rfl⟩ | ⟨-, rfl⟩) | ⟨-, rfl⟩
    · exact fl_isDouble _
    · exact isDouble_zero
    · exact fl_isDouble _
  · intro i a l u h1 h2 h3
    obtain ⟨-, rfl⟩ := List.mem_replicate.1 (List.mem_of_getElem? h1)
    obtain ⟨-, rfl⟩ := List.mem_replicate.1 (List.mem_of_getElem? h2)
    obtain ⟨-, rfl⟩ := List.mem_replicate.1 (List.mem_of_getElem? h3)
    decide +kernel

/-- In dimension 3, after 15 failures, the incumbent (0, 1/4, 1/8). -/
example : ∃ (s t : TrustRegion ℚ) (w : List ℚ × List ℚ), Dbl.trStart 3 = .ok s ∧
    Dbl.trRun s (List.replicate 15 false) = .ok t ∧ Dbl.defineTrustRegion 3 [0, 1 / 4, 1 / 8] t.length = .ok w ∧
      0 < t.length ∧ w.1.length = 3 ∧ w.2.length = 3 := by
  have hq : IsDouble (1 / 4 : ℚ) ∧ IsDouble (1 / 8 : ℚ) := by
    have h1 : fl (1 / 4 : ℚ) = 1 / 4 := by decide +kernel
    have h2 : fl (1 / 8 : ℚ) = 1 / 8 := by decide +kernel
    exact ⟨h1 ▸ fl_isDouble _, h2 ▸ fl_isDouble _⟩
  obtain ⟨s, t, w, h1, h2, h3, h4, h5, h6, -⟩ := C134_partial (K := ℚ) (dim := 3) (by norm_num) (by norm_num)
    (List.replicate 15 false) (z := [0, 1 / 4, 1 / 8]) rfl (by
      intro a ha
      simp only [List.mem_cons, List.not_mem_nil, or_false] at ha
      rcases ha with rfl | rfl | rfl
      · exact ⟨isDouble_zero, by norm_num, by decide +kernel⟩
      · exact ⟨hq.1, by norm_num, by decide +kernel⟩
      · exact ⟨hq.2, by norm_num, by decide +kernel⟩)
  exact ⟨s, t, w, h1, h2, h3, h4, h5, h6⟩

/-- The computed length after 15 failures in dimension 3 is the double next to 0.4. -/
example : ((Dbl.trStart 3 >>= fun s => Dbl.trRun s (List.replicate 15 false) : Res (TrustRegion ℚ)).toOption.map
    (·.length)) = some (fl (4 / 10)) := by decide +kernel

/-- A gradient window with the factors 0.01 and 0.5 rounded to doubles. -/
example : ∃ w : List ℚ × List ℚ, Dbl.gradientStepWindow 2 [0, 1 / 2] (fl (1 / 100)) (1 / 2) = .ok w ∧
    w.1.length = 2 := by
  have hq : IsDouble (1 / 2 : ℚ) := by
    have h1 : fl (1 / 2 : ℚ) = 1 / 2 := by decide +kernel
    exact h1 ▸ fl_isDouble _
  obtain ⟨w, e, h, -⟩ := C134_gradient (K := ℚ) (dim := 2) (z := [0, 1 / 2]) (factor := fl (1 / 100))
    (trFactor := 1 / 2) (by norm_num) (by norm_num) rfl (by
      intro a ha
      simp only [List.mem_cons, List.not_mem_nil, or_false] at ha
      rcases ha with rfl | rfl
      · exact ⟨isDouble_zero, by norm_num, by decide +kernel⟩
      · exact ⟨hq, by norm_num, by decide +kernel⟩) (by decide +kernel) (by decide +kernel) (by norm_num)
      (by norm_num) (by decide +kernel)
  exact ⟨w, e, h⟩

end Rodeo
