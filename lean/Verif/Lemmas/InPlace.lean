import Verif.Lemmas.Basic
import Verif.Model.TrustRegion

/-! Loops that replace the entries of a vector one after the other. -/

set_option linter.unusedSectionVars false

namespace Rodeo

/-- A loop whose round `i` replaces entry `i` by `g i (entry i)`. -/
theorem forRange_map {α : Type} {n : Nat} {body : Nat → List α → Res (List α)} {x : List α}
    (g : Nat → α → α) (hn : n ≤ x.length)
    (h : ∀ (i : Nat) (a : α) (y : List α), i < n → y.length = x.length → y[i]? = some a →
      body i y = .ok (y.set i (g i a))) :
    OkP (forRange n body x) (fun r => r.length = x.length ∧
      ∀ (i : Nat) (a : α), x[i]? = some a → r[i]? = some (if i < n then g i a else a)) := by
  obtain ⟨r, h1, h2, h3⟩ := forRange_inv (body := body) (n := n) (s := x)
    (fun k r => r.length = x.length ∧
      ∀ (i : Nat) (a : α), x[i]? = some a → r[i]? = some (if i < k then g i a else a))
    ⟨rfl, fun i a hi => by simpa using hi⟩ (by
      rintro j s hj ⟨hl, hs⟩
      have hjx : j < x.length := lt_of_lt_of_le hj hn
      have hsj := hs j x[j] (List.getElem?_eq_getElem hjx)
      rw [if_neg (lt_irrefl j)] at hsj
      refine ⟨_, h j x[j] s hj hl hsj, by simpa using hl, ?_⟩
      intro i a hi
      rw [List.getElem?_set]
      by_cases hij : j = i
      · subst hij
        have : a = x[j] := by
          have := (List.getElem?_eq_getElem hjx).symm.trans hi
          exact (Option.some.inj this).symm
        subst this
        simp [hl, hjx]
      · rw [if_neg hij, hs i a hi]
        congr 1
        by_cases hlt : i < j
        · rw [if_pos hlt, if_pos (by omega)]
        · rw [if_neg hlt, if_neg (by omega)])
  exact ⟨r, h1, h2, h3⟩

variable {K : Type} [Field K] [LinearOrder K] [IsStrictOrderedRing K]

theorem Vec.add_eq {v w : List K} (h : v.length = w.length) :
    Vec.add v w = .ok (List.zipWith (fun a b => a + b) v w) := by
  unfold Vec.add
  rw [if_neg (by simpa using h)]
  refine tab_ok_list (by simp [h]) ?_
  intro j hj
  simp only [List.length_zipWith, h, min_self] at hj
  have hv : j < v.length := by omega
  rw [rawAt_ok_of_lt hv, rawAt_ok_of_lt (by omega : j < w.length)]
  simp

/-- Cutting a number to `[0, top]`. -/
def clampTo (lo hi a : K) : K := if (if a < lo then lo else a) > hi then hi else (if a < lo then lo else a)

theorem clampTo_mem {lo hi : K} (h : lo ≤ hi) (a : K) : lo ≤ clampTo lo hi a ∧ clampTo lo hi a ≤ hi := by
  unfold clampTo
  split_ifs with h1 h2 h3
  · exact ⟨h, le_refl _⟩
  · exact ⟨le_refl _, h⟩
  · exact ⟨h, le_refl _⟩
  · exact ⟨not_lt.1 h1, not_lt.1 h3⟩

theorem clampTo_mono {lo hi a b : K} (hab : a ≤ b) : clampTo lo hi a ≤ clampTo lo hi b := by
  unfold clampTo
  split_ifs <;> linarith

theorem clampTo_id {lo hi a : K} (h1 : lo ≤ a) (h2 : a ≤ hi) : clampTo lo hi a = a := by
  unfold clampTo
  rw [if_neg (not_lt.2 h1), if_neg (not_lt.2 h2)]

theorem trimVector_ok {dim : Nat} (hd : 0 < dim) {x : List K} (hx : x.length = dim) :
    OkP (trimVector dim x) (fun r => r.length = dim ∧
      ∀ (i : Nat) (a : K), x[i]? = some a → r[i]? = some (clampTo 0 (1 / (dim : K)) a)) := by
  unfold trimVector
  rw [if_neg (by omega)]
  refine (forRange_map (fun _ a => clampTo 0 (1 / (dim : K)) a) (le_of_eq hx.symm) ?_).mono ?_
  · intro i a y hi hy ha
    have hiy : i < y.length := by omega
    have hset : ∀ b : K, (y.set i b)[i]? = some b := by
      intro b; rw [List.getElem?_set]; simp [hiy]
    unfold trimBody
    refine bind_eq (vat_eq_ok.2 ha) ?_
    have hself : y.set i a = y := by
      apply List.ext_getElem?
      intro j
      rw [List.getElem?_set]
      split_ifs with h1
      · subst h1; exact ha.symm
      · rfl
    by_cases h0 : a < 0
    · refine bind_eq (a := (0 : K)) (vat_eq_ok.2 (by rw [if_pos h0]; exact hset 0)) ?_
      simp only [h0, if_true, clampTo]
      split_ifs <;> simp
    · refine bind_eq (a := a) (vat_eq_ok.2 (by rw [if_neg h0]; exact ha)) ?_
      simp only [h0, if_false, clampTo]
      split_ifs <;> simp [hself]
  · rintro r ⟨h1, h2⟩
    refine ⟨by omega, ?_⟩
    intro i a ha
    have hi : i < dim := by
      rw [← hx]; exact (List.getElem?_eq_some_iff.1 ha).1
    simpa [hi] using h2 i a ha

end Rodeo
