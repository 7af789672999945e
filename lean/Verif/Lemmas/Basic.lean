import Verif.Basic
import Mathlib.Tactic.Ring
import Mathlib.Tactic.Linarith

set_option linter.unusedSectionVars false

namespace Rodeo

variable {α σ : Type}

theorem vat_ok_of_lt {v : List α} {i : Nat} (h : i < v.length) : vat v i = .ok v[i] := by
  simp [vat, h]

theorem vat_eq_ok {v : List α} {i : Nat} {a : α} : vat v i = .ok a ↔ v[i]? = some a := by
  unfold vat; cases v[i]? <;> simp

theorem rawAt_ok_of_lt {v : List α} {i : Nat} (h : i < v.length) : rawAt v i = .ok v[i] := by
  simp [rawAt, h]

/-- Run one step of a `do` block. -/
theorem bind_eq {α β : Type} {x : Res α} {f : α → Res β} {a : α} {r : Res β} (h : x = .ok a)
    (h2 : f a = r) : (x >>= f) = r := by
  subst h; exact h2

/-- The call returns, with a value satisfying `P`. -/
def OkP {α : Type} (x : Res α) (P : α → Prop) : Prop := ∃ a, x = .ok a ∧ P a

theorem OkP.bind {α β : Type} {x : Res α} {f : α → Res β} {P : α → Prop} {Q : β → Prop}
    (h : OkP x P) (h2 : ∀ a, P a → OkP (f a) Q) : OkP (x >>= f) Q := by
  obtain ⟨a, rfl, ha⟩ := h
  exact h2 a ha

theorem OkP.mono {α : Type} {x : Res α} {P Q : α → Prop} (h : OkP x P) (h2 : ∀ a, P a → Q a) :
    OkP x Q := by
  obtain ⟨a, h1, ha⟩ := h
  exact ⟨a, h1, h2 a ha⟩

theorem okP_of_eq {α : Type} {x : Res α} {a : α} (h : x = .ok a) : OkP x (fun b => b = a) :=
  ⟨a, h, rfl⟩

theorem okP_ok {α : Type} {a : α} {P : α → Prop} (h : P a) : OkP (.ok a : Res α) P := ⟨a, rfl, h⟩

theorem bind_okP {α β : Type} {x : Res α} {f : α → Res β} {a : α} {Q : β → Prop}
    (h : x = .ok a) (h2 : OkP (f a) Q) : OkP (x >>= f) Q := by
  subst h; exact h2

theorem loopFrom_inv {body : Nat → σ → Res σ} (Inv : Nat → σ → Prop) :
    ∀ (k i : Nat) (s : σ), Inv i s →
      (∀ j s, i ≤ j → j < i + k → Inv j s → ∃ s', body j s = .ok s' ∧ Inv (j + 1) s') →
      ∃ s', loopFrom body i k s = .ok s' ∧ Inv (i + k) s' := by
  intro k
  induction k with
  | zero => intro i s h _; exact ⟨s, rfl, h⟩
  | succ k ih =>
    intro i s h hs
    obtain ⟨s1, h1, h2⟩ := hs i s (Nat.le_refl _) (by omega) h
    obtain ⟨s2, h3, h4⟩ := ih (i + 1) s1 h2 (fun j s hj hj' => hs j s (by omega) (by omega))
    refine ⟨s2, ?_, ?_⟩
    · simp only [loopFrom, h1, h3]
    · have : i + 1 + k = i + (k + 1) := by omega
      rw [← this]; exact h4

/-- Invariant rule for loops that do not throw. -/
theorem forRange_inv {body : Nat → σ → Res σ} (Inv : Nat → σ → Prop) {n : Nat} {s : σ}
    (h0 : Inv 0 s)
    (hs : ∀ j s, j < n → Inv j s → ∃ s', body j s = .ok s' ∧ Inv (j + 1) s') :
    ∃ s', forRange n body s = .ok s' ∧ Inv n s' := by
  have := loopFrom_inv (body := body) Inv n 0 s h0 (fun j s _ hj => hs j s (by omega))
  simpa [forRange] using this

theorem tabFrom_ok {f : Nat → Res α} {g : Nat → α} :
    ∀ (k i : Nat), (∀ j, i ≤ j → j < i + k → f j = .ok (g j)) →
      tabFrom f i k = .ok ((List.range' i k).map g) := by
  intro k
  induction k with
  | zero => intro i _; rfl
  | succ k ih =>
    intro i h
    have h1 := h i (Nat.le_refl _) (by omega)
    have h2 := ih (i + 1) (fun j hj hj' => h j (by omega) (by omega))
    simp only [tabFrom, h1, h2, List.range'_succ, List.map_cons]

theorem tab_ok {n : Nat} {f : Nat → Res α} {g : Nat → α} (h : ∀ j, j < n → f j = .ok (g j)) :
    tab n f = .ok ((List.range n).map g) := by
  unfold tab
  rw [tabFrom_ok n 0 (fun j _ hj => h j (by omega)), List.range_eq_range']

theorem tabFrom_ok_list {f : Nat → Res α} :
    ∀ (l : List α) (i : Nat), (∀ j (h : j < l.length), f (i + j) = .ok l[j]) →
      tabFrom f i l.length = .ok l := by
  intro l
  induction l with
  | nil => intro i _; rfl
  | cons a l ih =>
    intro i h
    have h1 := h 0 (by simp)
    have h2 := ih (i + 1) (fun j hj => by
      have := h (j + 1) (by simpa using hj)
      rw [show i + 1 + j = i + (j + 1) by omega]; simpa using this)
    simp only [Nat.add_zero, List.getElem_cons_zero] at h1
    simp only [List.length_cons, tabFrom, h1, h2]

/-- A vector-building loop whose entries are those of a known list. -/
theorem tab_ok_list {n : Nat} {f : Nat → Res α} {l : List α} (hn : l.length = n)
    (h : ∀ j (h : j < l.length), f j = .ok l[j]) : tab n f = .ok l := by
  subst hn
  exact tabFrom_ok_list l 0 (fun j hj => by simpa using h j hj)

theorem tabFrom_inv {f : Nat → Res α} :
    ∀ (k i : Nat) (l : List α), tabFrom f i k = .ok l →
      l.length = k ∧ ∀ j, j < k → ∃ a, f (i + j) = .ok a ∧ l[j]? = some a := by
  intro k
  induction k with
  | zero =>
    intro i l h
    simp only [tabFrom, Except.ok.injEq] at h
    subst h
    simp
  | succ k ih =>
    intro i l h
    simp only [tabFrom] at h
    cases h1 : f i with
    | error e => simp [h1] at h
    | ok a =>
      simp only [h1] at h
      cases h2 : tabFrom f (i + 1) k with
      | error e => simp [h2] at h
      | ok l' =>
        simp only [h2, Except.ok.injEq] at h
        subst h
        obtain ⟨h3, h4⟩ := ih (i + 1) l' h2
        refine ⟨by simp [h3], ?_⟩
        intro j hj
        cases j with
        | zero => exact ⟨a, by simpa using h1, by simp⟩
        | succ j =>
          obtain ⟨b, hb, hb'⟩ := h4 j (by omega)
          refine ⟨b, ?_, by simpa using hb'⟩
          rw [← hb]; congr 1; omega

/-- What is known about a vector built by a loop that did not throw. -/
theorem tab_inv {n : Nat} {f : Nat → Res α} {l : List α} (h : tab n f = .ok l) :
    l.length = n ∧ ∀ j, j < n → ∃ a, f j = .ok a ∧ l[j]? = some a := by
  have := tabFrom_inv n 0 l h
  simpa using this

theorem allFrom_ok {test : Nat → Res Bool} {b : Nat → Bool} :
    ∀ (k i : Nat), (∀ j, i ≤ j → j < i + k → test j = .ok (b j)) →
      ∃ r, allFrom test i k = .ok r ∧ (r = true ↔ ∀ j, i ≤ j → j < i + k → b j = false) := by
  intro k
  induction k with
  | zero => intro i _; exact ⟨true, rfl, by simp; intros; omega⟩
  | succ k ih =>
    intro i h
    have h1 := h i (Nat.le_refl _) (by omega)
    obtain ⟨r, h2, h3⟩ := ih (i + 1) (fun j hj hj' => h j (by omega) (by omega))
    cases hb : b i with
    | true =>
      refine ⟨false, by simp [allFrom, h1, hb], ?_⟩
      simp only [Bool.false_eq_true, false_iff]
      intro hall
      have := hall i (Nat.le_refl _) (by omega)
      simp [hb] at this
    | false =>
      refine ⟨r, by simp [allFrom, h1, hb, h2], ?_⟩
      rw [h3]
      constructor
      · intro hall j hj hj'
        by_cases hji : j = i
        · subst hji; exact hb
        · exact hall j (by omega) (by omega)
      · intro hall j hj hj'
        exact hall j (by omega) (by omega)

/-- A "return false on the first hit" loop whose tests do not throw. -/
theorem noneOf_ok {n : Nat} {test : Nat → Res Bool} {b : Nat → Bool}
    (h : ∀ j, j < n → test j = .ok (b j)) :
    ∃ r, noneOf n test = .ok r ∧ (r = true ↔ ∀ j, j < n → b j = false) := by
  obtain ⟨r, h1, h2⟩ := allFrom_ok (test := test) (b := b) n 0 (fun j _ hj => h j (by omega))
  exact ⟨r, h1, by simpa using h2⟩

theorem noneOf_eq {n : Nat} {test : Nat → Res Bool} {b : Nat → Bool}
    (h : ∀ j, j < n → test j = .ok (b j)) :
    noneOf n test = .ok (decide (∀ j, j < n → b j = false)) := by
  obtain ⟨r, h1, h2⟩ := noneOf_ok h
  rw [h1]
  congr 1
  by_cases hr : r = true
  · rw [hr]; symm; exact decide_eq_true (h2.1 hr)
  · have hr' : r = false := by simpa using hr
    rw [hr']; symm; exact decide_eq_false (fun hh => hr (h2.2 hh))

end Rodeo
