import Verif.Lemmas.Basic
import Verif.Model.Mem

set_option linter.unusedSectionVars false

namespace Rodeo.Mem

variable {K : Type}

@[simp] theorem length_alloc (n : Nat) : (alloc n : List (Option K)).length = n := by
  simp [alloc]

theorem alloc_get {n j : Nat} (h : j < n) : (alloc n : List (Option K))[j]? = some none := by
  simp [alloc, h]

theorem wr_ok {b : List (Option K)} {i : Nat} {v : K} (h : i < b.length) :
    wr b i v = .ok (b.set i (some v)) := by simp [wr, h]

theorem copyRange_ok {src : List K} {start count pos : Nat} {dst : List (Option K)}
    (h1 : start + count ≤ src.length) (h2 : pos + count ≤ dst.length) :
    ∃ d, copyRange src start count dst pos = .ok d ∧ d.length = dst.length ∧
      ∀ j, d[j]? = if pos ≤ j ∧ j < pos + count then some (src[start + (j - pos)]?) else dst[j]? := by
  have := forRange_inv (n := count) (s := dst)
    (body := fun k d =>
      match rawAt src (start + k) with
      | .error e => .error e
      | .ok v => wr d (pos + k) v)
    (Inv := fun k d => d.length = dst.length ∧
      ∀ j, d[j]? = if pos ≤ j ∧ j < pos + k then some (src[start + (j - pos)]?) else dst[j]?)
    ⟨rfl, by intro j; rw [if_neg (by omega)]⟩
    (by
      rintro k d hk ⟨hl, hd⟩
      have hs : start + k < src.length := by omega
      refine ⟨d.set (pos + k) (some src[start + k]), ?_, by simp [hl], ?_⟩
      · simp [rawAt_ok_of_lt hs, wr, show pos + k < d.length by omega]
      · intro j
        rw [List.getElem?_set]
        by_cases hj : pos + k = j
        · subst hj
          rw [if_pos rfl, if_pos (by omega), if_pos (by omega)]
          simp [hs]
        · rw [if_neg hj, hd j]
          by_cases hc : pos ≤ j ∧ j < pos + k
          · rw [if_pos hc, if_pos (by omega)]
          · rw [if_neg hc, if_neg (by omega)])
  exact this

theorem freeze_ok {b : List (Option K)} {l : List K} (h1 : b.length = l.length)
    (h2 : ∀ j, j < l.length → b[j]? = some (l[j]?)) : freeze b = .ok l := by
  unfold freeze
  apply tab_ok_list h1.symm
  intro j hj
  rw [h2 j hj]
  simp [hj]

end Rodeo.Mem
