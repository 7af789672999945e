import Verif.Lemmas.Basic
import Verif.Spec.Box
import Verif.Model.Bounds

set_option linter.unusedSectionVars false

namespace Rodeo
open Spec

variable {K : Type} [Field K] [LinearOrder K] [IsStrictOrderedRing K]

theorem validBox_iff {d : Nat} {lb ub : List K} :
    ValidBox d lb ub ↔ 0 < d ∧ ∃ (h1 : lb.length = d) (h2 : ub.length = d),
      ∀ i (hi : i < d), lb[i]'(h1 ▸ hi) < ub[i]'(h2 ▸ hi) := by
  constructor
  · rintro ⟨h0, h1, h2, h3⟩
    exact ⟨h0, h1, h2, fun i hi => h3 i _ _ (by simp) (by simp)⟩
  · rintro ⟨h0, h1, h2, h3⟩
    refine ⟨h0, h1, h2, ?_⟩
    intro i l u hl hu
    rw [List.getElem?_eq_some_iff] at hl hu
    obtain ⟨hi, rfl⟩ := hl
    obtain ⟨hi', rfl⟩ := hu
    exact h3 i (by omega)

namespace Bounds

theorem checkBounds_eq {b : Bounds K} (h1 : b.lb.length = b.dim) (h2 : b.ub.length = b.dim)
    (h0 : 0 < b.dim) :
    ∃ r, b.checkBounds = .ok r ∧ (r = true ↔ ValidBox b.dim b.lb b.ub) := by
  unfold checkBounds
  rw [if_neg (by omega)]
  obtain ⟨r, hr, hr'⟩ := noneOf_ok (n := b.dim)
    (test := fun i =>
      match vat b.lb i, vat b.ub i with
      | .ok l, .ok u => .ok (decide (l ≥ u))
      | .error e, _ => .error e
      | _, .error e => .error e)
    (b := fun i => if h : i < b.dim then decide (b.lb[i] ≥ b.ub[i]) else false)
    (by
      intro j hj
      have hl : j < b.lb.length := by omega
      have hu : j < b.ub.length := by omega
      simp [vat_ok_of_lt hl, vat_ok_of_lt hu, hj])
  refine ⟨r, hr, ?_⟩
  rw [hr', validBox_iff]
  constructor
  · intro h
    refine ⟨h0, h1, h2, ?_⟩
    intro i hi
    have := h i hi
    simpa [hi] using this
  · rintro ⟨_, h1', h2', h⟩ j hj
    have := h j hj
    simpa [hj] using this

theorem finish_valid {b : Bounds K} {e : Err} (h1 : b.lb.length = b.dim)
    (h2 : b.ub.length = b.dim) (h : ValidBox b.dim b.lb b.ub) :
    finish b e = ({ b with isSet := true }, .ok ()) := by
  obtain ⟨r, hr, hr'⟩ := checkBounds_eq h1 h2 h.1
  have : r = true := hr'.2 h
  subst this
  simp [finish, hr]

theorem finish_invalid {b : Bounds K} {e : Err} (h1 : b.lb.length = b.dim)
    (h2 : b.ub.length = b.dim) (h : ¬ ValidBox b.dim b.lb b.ub) :
    finish b e = (b, .error e) ∨ finish b e = (b, .error .invalidArgument) := by
  by_cases h0 : 0 < b.dim
  · obtain ⟨r, hr, hr'⟩ := checkBounds_eq h1 h2 h0
    have : r = false := by
      by_contra hc
      exact h (hr'.1 (by simpa using hc))
    subst this
    left; simp [finish, hr]
  · right
    simp [finish, checkBounds, show b.dim = 0 by omega]

end Bounds
end Rodeo
