import Verif.Lemmas.Rounding
import Verif.Props.Vec
import Mathlib.Data.Rat.Floor
import Mathlib.Tactic.NormNum

/-! # C35 and C36: discrete parameters -/

set_option linter.unusedSectionVars false

namespace Rodeo

open Spec

variable {K : Type} [Field K] [LinearOrder K] [IsStrictOrderedRing K] [FloorRing K]

/-! ## C35: rounding -/

/-- C35: rounding replaces each discrete parameter by the closest grid value (the lowest on ties) and
leaves the others unchanged; a design in the box stays in the box; rounding again changes nothing. -/
def C35_full (K : Type) [Field K] [LinearOrder K] [IsStrictOrderedRing K] [FloorRing K] : Prop :=
  ∀ (d : Nat) (s : DiscreteSetup K) (x : List K), DiscreteBox d s → x.length = d →
    ∃ r, roundDiscreteParameters s x = .ok r ∧ RoundedTo s x r ∧
      (InBox s.lb s.ub x → InBox s.lb s.ub r) ∧ roundDiscreteParameters s r = .ok r

namespace RoundDemo

/-- A parameter in `[0, 1]` with `2^33 + 1` grid values. -/
def fine : DiscreteSetup ℚ := ⟨[0], [1], [1 / 2 ^ 33], [0]⟩

/-- Two parameters, the second one in `[1, 4]` with increment `2/3`: the range is not a multiple. -/
def plain : DiscreteSetup ℚ := ⟨[0, 1], [1, 4], [2 / 3], [1]⟩

theorem fine_box : DiscreteBox 1 fine := by
  refine ⟨rfl, rfl, rfl, by decide, ?_⟩
  intro j i dx hj hd
  match j with
  | 0 =>
    simp only [fine, List.getElem?_cons_zero, Option.some.injEq] at hj hd
    subst hj hd
    refine ⟨by norm_num, by norm_num, ?_⟩
    intro l u hl hu
    simp only [fine, List.getElem?_cons_zero, Option.some.injEq] at hl hu
    subst hl hu
    norm_num
  | j + 1 => simp [fine] at hj

theorem plain_box : DiscreteBox 2 plain := by
  refine ⟨rfl, rfl, rfl, by decide, ?_⟩
  intro j i dx hj hd
  match j with
  | 0 =>
    simp only [plain, List.getElem?_cons_zero, Option.some.injEq] at hj hd
    subst hj hd
    refine ⟨by norm_num, by norm_num, ?_⟩
    intro l u hl hu
    simp only [plain, List.getElem?_cons_zero, List.getElem?_cons_succ, Option.some.injEq] at hl hu
    subst hl hu
    norm_num
  | j + 1 => simp [plain] at hj

theorem plain_few : FewValues plain := by
  intro j i dx l u hj hd hl hu
  match j with
  | 0 =>
    simp only [plain, List.getElem?_cons_zero, Option.some.injEq] at hj hd
    subst hj hd
    simp only [plain, List.getElem?_cons_zero, List.getElem?_cons_succ, Option.some.injEq] at hl hu
    subst hl hu
    norm_num
  | j + 1 => simp [plain] at hj

end RoundDemo

/-- With `2^32` grid values or more the conversion of their number to `unsigned int` is undefined. -/
theorem C35_false : ¬ C35_full ℚ := by
  intro h
  obtain ⟨r, h1, -⟩ := h 1 RoundDemo.fine [0] RoundDemo.fine_box rfl
  have : roundDiscreteParameters RoundDemo.fine [0] = .error .ub := by decide +kernel
  rw [this] at h1
  cases h1

/-- C35 for every box with positive increments in which each discrete parameter has less than `2^32`
grid values.
Missing: more values (`C35_false`). -/
theorem C35_partial {d : Nat} {s : DiscreteSetup K} (hs : DiscreteBox d s) (hfew : FewValues s)
    {x : List K} (hx : x.length = d) :
    ∃ r, roundDiscreteParameters s x = .ok r ∧ RoundedTo s x r ∧
      (InBox s.lb s.ub x → InBox s.lb s.ub r) ∧ roundDiscreteParameters s r = .ok r := by
  obtain ⟨r, h1, h2⟩ := round_ok hs hfew hx
  refine ⟨r, h1, h2, ?_, ?_⟩
  · rintro ⟨b1, b2, b3⟩
    refine ⟨h2.1.trans b1, h2.1.trans b2, ?_⟩
    intro i l u v hl hu hv
    by_cases hi : i ∈ s.indices
    · obtain ⟨j, hj, hj'⟩ := List.getElem_of_mem hi
      have hji : s.indices[j]? = some i := by rw [List.getElem?_eq_getElem hj, hj']
      obtain ⟨s1, s2, s3, s4, s5⟩ := hs
      have hjd : s.increments[j]? = some (s.increments[j]'(by omega)) :=
        List.getElem?_eq_getElem (by omega)
      obtain ⟨q1, q2, -⟩ := s5 j i _ hji hjd
      have hxi : x[i]? = some x[i] := List.getElem?_eq_getElem (by omega)
      obtain ⟨⟨⟨k, rfl⟩, hle⟩, -⟩ := h2.2.1 j i _ _ _ _ _ hji hjd hl hu hxi hv
      refine ⟨?_, hle⟩
      have : 0 ≤ (k : K) * s.increments[j] := mul_nonneg (Nat.cast_nonneg k) q2.le
      linarith
    · rw [h2.2.2 i hi] at hv
      exact b3 i l u v hl hu hv
  · have hr : r.length = d := h2.1.trans hx
    obtain ⟨r', h3, h4⟩ := round_ok hs hfew hr
    have hself : RoundedTo s r r := by
      refine ⟨rfl, ?_, fun i _ => rfl⟩
      intro j i dx l u v w hj hd hl hu hv hw
      rw [hv] at hw
      obtain rfl := Option.some.inj hw
      have hxi : x[i]? = some (x[i]'(by
          have := (List.getElem?_eq_some_iff.1 hv).1; omega)) := List.getElem?_eq_getElem _
      exact closest_self (h2.2.1 j i dx l u _ _ hj hd hl hu hxi hv).1
    rw [h3, roundedTo_unique hs hr h4 hself]

-- Hypotheses are met; the value 3.9 is rounded down to 11/3, the largest grid value, and 4/3 to 1 (tie).
example : ∃ r, roundDiscreteParameters RoundDemo.plain [1 / 2, 39 / 10] = .ok r ∧
    RoundedTo RoundDemo.plain [1 / 2, 39 / 10] r :=
  let ⟨r, h1, h2, _⟩ := C35_partial RoundDemo.plain_box RoundDemo.plain_few rfl
  ⟨r, h1, h2⟩
example : roundDiscreteParameters RoundDemo.plain [1 / 2, 39 / 10] = .ok [1 / 2, 11 / 3] := by
  decide +kernel
example : roundDiscreteParameters RoundDemo.plain [1 / 2, 4 / 3] = .ok [1 / 2, 1] := by
  decide +kernel

/-! ## C36: normalized and actual parameters -/

/-- C36: the normalized parameters recorded for the design are the normalization of the parameters that
will be simulated. -/
def C36_full (K : Type) [Field K] [LinearOrder K] [IsStrictOrderedRing K] [FloorRing K] : Prop :=
  ∀ (d : Nat) (s : DiscreteSetup K) (dvNorm n dv : List K), ValidBox d s.lb s.ub → DiscreteBox d s →
    FewValues s → dvNorm.length = d → designToSimulate s dvNorm = .ok (n, dv) →
    Vec.normalizeVector dv s.lb s.ub = .ok n

/-- Rounding a discrete parameter is not reflected in the normalized parameters. -/
theorem C36_false : ¬ C36_full ℚ := by
  intro h
  have hb : ValidBox 2 RoundDemo.plain.lb RoundDemo.plain.ub := by
    refine ⟨by norm_num, rfl, rfl, ?_⟩
    intro i l u hl hu
    match i with
    | 0 =>
      simp only [RoundDemo.plain, List.getElem?_cons_zero, Option.some.injEq] at hl hu
      subst hl hu; norm_num
    | 1 =>
      simp only [RoundDemo.plain, List.getElem?_cons_zero, List.getElem?_cons_succ,
        Option.some.injEq] at hl hu
      subst hl hu; norm_num
    | i + 2 => simp [RoundDemo.plain] at hl
  have h1 : designToSimulate RoundDemo.plain [1 / 4, 1 / 4] = .ok ([1 / 4, 1 / 4], [1 / 2, 7 / 3]) := by
    decide +kernel
  have h2 := h 2 _ _ _ _ hb RoundDemo.plain_box RoundDemo.plain_few rfl h1
  have h3 : Vec.normalizeVector [1 / 2, 7 / 3] RoundDemo.plain.lb RoundDemo.plain.ub
      = .ok [(1 / 4 : ℚ), 2 / 9] := by decide +kernel
  rw [h3] at h2
  exact absurd h2 (by decide +kernel)

/-- C36, exactly when it holds: the call returns, and the recorded normalized parameters are the
normalization of the simulated ones if and only if every discrete parameter was already on its grid
before rounding.
Missing: designs that are changed by rounding (`C36_false`). -/
theorem C36_partial {d : Nat} {s : DiscreteSetup K} (hb : ValidBox d s.lb s.ub)
    (hs : DiscreteBox d s) (hfew : FewValues s) {dvNorm : List K} (hx : dvNorm.length = d) :
    ∃ before dv, Vec.denormalizeVector dvNorm s.lb s.ub = .ok before ∧
      designToSimulate s dvNorm = .ok (dvNorm, dv) ∧ RoundedTo s before dv ∧
      (Vec.normalizeVector dv s.lb s.ub = .ok dvNorm ↔
        ∀ (j i : Nat) (dx l u v : K), s.indices[j]? = some i → s.increments[j]? = some dx →
          s.lb[i]? = some l → s.ub[i]? = some u → before[i]? = some v → OnGrid l u dx v) := by
  obtain ⟨-, before, h1, h2, h3, -⟩ := C05_normalize_roundtrip hb dvNorm hx
  have hround : OkP (roundIfDiscrete s before) (RoundedTo s before) := by
    unfold roundIfDiscrete
    split_ifs with h
    · exact round_ok hs hfew h2
    · have h' : s.indices = [] := List.eq_nil_of_length_eq_zero (by omega)
      refine okP_ok ⟨rfl, ?_, fun i _ => rfl⟩
      intro j i dx l u v w hj
      simp [h'] at hj
  obtain ⟨dv, h4, h5⟩ := hround
  refine ⟨before, dv, h1, bind_eq h1 (bind_eq h4 rfl), h5, ?_⟩
  have hdv : dv.length = d := h5.1.trans h2
  have hsame : Vec.normalizeVector dv s.lb s.ub = .ok dvNorm ↔ dv = before := by
    constructor
    · intro h
      obtain ⟨⟨n, e1, -, e2, -⟩, -⟩ := C05_normalize_roundtrip hb dv hdv
      rw [h] at e1
      cases e1
      rw [h1] at e2
      exact (Except.ok.inj e2).symm
    · rintro rfl; exact h3
  rw [hsame]
  constructor
  · rintro rfl j i dx l u v hj hd hl hu hv
    exact (h5.2.1 j i dx l u v v hj hd hl hu hv hv).1
  · intro h
    refine roundedTo_unique hs h2 h5 ⟨rfl, ?_, fun i _ => rfl⟩
    intro j i dx l u v w hj hd hl hu hv hw
    rw [hv] at hw
    obtain rfl := Option.some.inj hw
    exact closest_self (h j i dx l u v hj hd hl hu hv)

/-- C36 without discrete parameters. -/
theorem C36_continuous {d : Nat} {lb ub dvNorm : List K} (hb : ValidBox d lb ub)
    (hx : dvNorm.length = d) :
    ∃ dv, designToSimulate ⟨lb, ub, [], []⟩ dvNorm = .ok (dvNorm, dv) ∧
      Vec.normalizeVector dv lb ub = .ok dvNorm ∧
      (InBox (List.replicate d 0) (List.replicate d (1 / (d : K))) dvNorm → InBox lb ub dv) := by
  obtain ⟨-, dv, h1, h2, h3, h4⟩ := C05_normalize_roundtrip hb dvNorm hx
  exact ⟨dv, bind_eq h1 rfl, h3, h4.2⟩

example : designToSimulate RoundDemo.plain [1 / 4, 1 / 3] = .ok ([1 / 4, 1 / 3], [1 / 2, 3]) := by
  decide +kernel

end Rodeo
