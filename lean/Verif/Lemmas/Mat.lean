import Verif.Lemmas.Vec
import Verif.Spec.Mat

set_option linter.unusedSectionVars false

namespace Rodeo
open Spec

theorem colmajor_inj {n a b i j : Nat} (hi : i < n) (hj : j < n) (h : a * n + i = b * n + j) :
    a = b ∧ i = j := by
  have h1 : (a * n + i) / n = a := by
    rw [Nat.mul_comm, Nat.mul_add_div (by omega), Nat.div_eq_of_lt hi]; omega
  have h2 : (b * n + j) / n = b := by
    rw [Nat.mul_comm, Nat.mul_add_div (by omega), Nat.div_eq_of_lt hj]; omega
  have : a = b := by rw [← h1, ← h2, h]
  subst this
  exact ⟨rfl, by omega⟩

theorem colmajor_lt {n m i j : Nat} (hi : i < n) (hj : j < m) : j * n + i < n * m := by
  calc j * n + i < j * n + n := by omega
    _ = (j + 1) * n := by ring
    _ ≤ m * n := Nat.mul_le_mul_right _ hj
    _ = n * m := by ring

theorem colmajor_split {n m k : Nat} (h : k < n * m) :
    ∃ i j, i < n ∧ j < m ∧ k = j * n + i := by
  have hn : 0 < n := by
    rcases Nat.eq_zero_or_pos n with h0 | h0
    · subst h0; simp at h
    · exact h0
  refine ⟨k % n, k / n, Nat.mod_lt _ hn, ?_, ?_⟩
  · exact Nat.div_lt_of_lt_mul h
  · have := Nat.div_add_mod k n
    rw [Nat.mul_comm] at this; omega

section
variable {K : Type}

/-- `d` is a block holding the `n x m` column-major matrix `F`; `none` entries are indeterminate. -/
def Rep2 (d : List (Option K)) (n m : Nat) (F : Nat → Nat → Option K) : Prop :=
  d.length = n * m ∧ ∀ i j, i < n → j < m → d[j * n + i]? = some (F i j)

theorem Rep2.congr {d : List (Option K)} {n m : Nat} {F G : Nat → Nat → Option K}
    (h : Rep2 d n m F) (hFG : ∀ i j, i < n → j < m → F i j = G i j) : Rep2 d n m G :=
  ⟨h.1, fun i j hi hj => by rw [h.2 i j hi hj, hFG i j hi hj]⟩

theorem rep2_alloc (n m : Nat) : Rep2 (Mem.alloc (n * m) : List (Option K)) n m (fun _ _ => none) :=
  ⟨by simp, fun _ _ hi hj => Mem.alloc_get (colmajor_lt hi hj)⟩

theorem rep2_zeros [Zero K] (n m : Nat) :
    Rep2 (Mem.zeros (n * m) : List (Option K)) n m (fun _ _ => some 0) :=
  ⟨by simp [Mem.zeros], fun i j hi hj => by simp [Mem.zeros, colmajor_lt hi hj]⟩

theorem Rep2.wr {d : List (Option K)} {n m : Nat} {F : Nat → Nat → Option K} (h : Rep2 d n m F)
    {i j k : Nat} {v : K} (hi : i < n) (hj : j < m) (hk : k = j * n + i) :
    ∃ d', Mem.wr d k v = .ok d' ∧
      Rep2 d' n m (fun a b => if a = i ∧ b = j then some v else F a b) := by
  subst hk
  have hlt := colmajor_lt hi hj
  refine ⟨d.set (j * n + i) (some v), Mem.wr_ok (by rw [h.1]; exact hlt), by simp [h.1], ?_⟩
  intro a b ha hb
  rw [List.getElem?_set]
  by_cases hc : j * n + i = b * n + a
  · obtain ⟨h1, h2⟩ := colmajor_inj hi ha hc
    subst h1; subst h2
    rw [if_pos rfl, if_pos (by rw [h.1]; exact hlt)]
    simp
  · rw [if_neg hc]
    have : ¬ (a = i ∧ b = j) := by rintro ⟨rfl, rfl⟩; exact hc rfl
    simp only [if_neg this]
    exact h.2 a b ha hb

theorem Rep2.rd {d : List (Option K)} {n m : Nat} {F : Nat → Nat → Option K} (h : Rep2 d n m F)
    {i j k : Nat} {v : K} (hi : i < n) (hj : j < m) (hk : k = j * n + i) (hv : F i j = some v) :
    Mem.rd d k = .ok v := by
  subst hk
  simp [Mem.rd, h.2 i j hi hj, hv]

theorem Rep2.freeze {d : List (Option K)} {n m : Nat} {G : Nat → Nat → K}
    (h : Rep2 d n m (fun i j => some (G i j))) :
    ∃ l, Mem.freeze d = .ok l ∧ l.length = n * m ∧
      ∀ i j, i < n → j < m → l[j * n + i]? = some (G i j) := by
  refine ⟨(List.range (n * m)).map (fun k => G (k % n) (k / n)), ?_, by simp, ?_⟩
  · apply Mem.freeze_ok
    · simp [h.1]
    · intro k hk
      simp at hk
      obtain ⟨i, j, hi, hj, rfl⟩ := colmajor_split hk
      rw [h.2 i j hi hj]
      have h1 : (j * n + i) / n = j := by
        rw [Nat.mul_comm, Nat.mul_add_div (by omega), Nat.div_eq_of_lt hi]; omega
      have h2 : (j * n + i) % n = i := by
        rw [Nat.add_comm, Nat.add_mul_mod_self_right, Nat.mod_eq_of_lt hi]
      simp [hk, h1, h2]
  · intro i j hi hj
    have h1 : (j * n + i) / n = j := by
      rw [Nat.mul_comm, Nat.mul_add_div (by omega), Nat.div_eq_of_lt hi]; omega
    have h2 : (j * n + i) % n = i := by
      rw [Nat.add_comm, Nat.add_mul_mod_self_right, Nat.mod_eq_of_lt hi]
    simp [colmajor_lt hi hj, h1, h2]

/-- Writing one more cell of a target `T`. -/
theorem Rep2.wr_next {d : List (Option K)} {n m : Nat} {c c' : Nat → Nat → Prop}
    [∀ i j, Decidable (c i j)] [∀ i j, Decidable (c' i j)] {T G : Nat → Nat → Option K}
    (h : Rep2 d n m (fun i j => if c i j then T i j else G i j))
    (i j : Nat) {k : Nat} {v : K} (hi : i < n) (hj : j < m) (hk : k = j * n + i)
    (hT : T i j = some v)
    (hc : ∀ a b, a < n → b < m → (c' a b ↔ c a b ∨ (a = i ∧ b = j))) :
    OkP (Mem.wr d k v) (fun d' => Rep2 d' n m (fun i j => if c' i j then T i j else G i j)) := by
  obtain ⟨d', h1, h2⟩ := h.wr (v := v) hi hj hk
  refine ⟨d', h1, h2.congr ?_⟩
  intro a b ha hb
  have := hc a b ha hb
  by_cases hij : a = i ∧ b = j
  · rw [if_pos hij, if_pos (this.2 (Or.inr hij))]
    obtain ⟨rfl, rfl⟩ := hij
    exact hT.symm
  · rw [if_neg hij]
    by_cases hq : c a b
    · rw [if_pos hq, if_pos (this.2 (Or.inl hq))]
    · rw [if_neg hq, if_neg (fun h => (this.1 h).elim hq hij)]

theorem Rep2.cond {d : List (Option K)} {n m : Nat} {c c' : Nat → Nat → Prop}
    [∀ i j, Decidable (c i j)] [∀ i j, Decidable (c' i j)] {T G : Nat → Nat → Option K}
    (h : Rep2 d n m (fun i j => if c i j then T i j else G i j))
    (hc : ∀ a b, a < n → b < m → (c' a b ↔ c a b)) :
    Rep2 d n m (fun i j => if c' i j then T i j else G i j) := by
  refine h.congr ?_
  intro a b ha hb
  by_cases hq : c a b
  · rw [if_pos hq, if_pos ((hc a b ha hb).2 hq)]
  · rw [if_neg hq, if_neg (fun h => hq ((hc a b ha hb).1 h))]

/-- No cell of the target written yet. -/
theorem Rep2.start {d : List (Option K)} {n m : Nat} {c : Nat → Nat → Prop}
    [∀ i j, Decidable (c i j)] {T G : Nat → Nat → Option K} (h : Rep2 d n m G)
    (hc : ∀ a b, a < n → b < m → ¬ c a b) :
    Rep2 d n m (fun i j => if c i j then T i j else G i j) :=
  h.congr (fun a b ha hb => by rw [if_neg (hc a b ha hb)])

/-- All cells of the target written. -/
theorem Rep2.done {d : List (Option K)} {n m : Nat} {c : Nat → Nat → Prop}
    [∀ i j, Decidable (c i j)] {T G : Nat → Nat → Option K}
    (h : Rep2 d n m (fun i j => if c i j then T i j else G i j))
    (hc : ∀ a b, a < n → b < m → c a b) : Rep2 d n m T :=
  h.congr (fun a b ha hb => by rw [if_pos (hc a b ha hb)])

theorem rep2_map_some {l : List K} {n m : Nat} {G : Nat → Nat → K} (hl : l.length = n * m)
    (h : ∀ i j, i < n → j < m → l[j * n + i]? = some (G i j)) :
    Rep2 (l.map some) n m (fun i j => some (G i j)) :=
  ⟨by simp [hl], fun i j hi hj => by simp [h i j hi hj]⟩

end

theorem loopFrom_inv' {σ : Type} {body : Nat → σ → Res σ} (Inv : Nat → σ → Prop) {a b : Nat}
    {s : σ} (hab : a ≤ b) (h0 : Inv a s)
    (hs : ∀ j s, a ≤ j → j < b → Inv j s → ∃ s', body j s = .ok s' ∧ Inv (j + 1) s') :
    OkP (Mat.forFromTo a b body s) (Inv b) := by
  have := loopFrom_inv (body := body) Inv (b - a) a s h0
    (fun j s h1 h2 => hs j s h1 (by omega))
  rwa [show a + (b - a) = b by omega] at this

variable {K : Type} [Field K] [LinearOrder K] [IsStrictOrderedRing K]

namespace Mat

theorem isMat_iff {A : Mat K} {n m : Nat} {F : Nat → Nat → K} :
    IsMat A n m F ↔ A.nrows = n ∧ A.ncols = m ∧ A.buf.length = n * m ∧
      ∀ i j, i < n → j < m → A.buf[j * n + i]? = some (F i j) := by
  unfold IsMat
  constructor
  · rintro ⟨rfl, rfl, h3, h4⟩
    refine ⟨rfl, rfl, h3, fun i j hi hj => ?_⟩
    have := h4 i j hi hj
    unfold at' at this
    rw [if_neg (by omega)] at this
    unfold rawAt at this
    cases h : A.buf[j * A.nrows + i]? with
    | none => simp [h] at this
    | some a => simpa [h] using this
  · rintro ⟨rfl, rfl, h3, h4⟩
    refine ⟨rfl, rfl, h3, fun i j hi hj => ?_⟩
    unfold at'
    rw [if_neg (by omega)]
    simp [rawAt, h4 i j hi hj]

theorem _root_.Rodeo.Spec.IsMat.congr {A : Mat K} {n m : Nat} {F G : Nat → Nat → K} (h : IsMat A n m F)
    (hFG : ∀ i j, i < n → j < m → F i j = G i j) : IsMat A n m G :=
  ⟨h.1, h.2.1, h.2.2.1, fun i j hi hj => by rw [h.2.2.2 i j hi hj, hFG i j hi hj]⟩

/-- Every well-formed matrix object represents some matrix. -/
theorem exists_isMat {A : Mat K} (h : A.WF) : ∃ F, IsMat A A.nrows A.ncols F := by
  refine ⟨fun i j => A.buf.getD (j * A.nrows + i) 0, isMat_iff.2 ⟨rfl, rfl, h, ?_⟩⟩
  intro i j hi hj
  have : j * A.nrows + i < A.buf.length := by rw [h]; exact colmajor_lt hi hj
  simp [List.getD, this]

theorem isMat_unique {A : Mat K} {n m n' m' : Nat} {F G : Nat → Nat → K} (h : IsMat A n m F)
    (h' : IsMat A n' m' G) : n = n' ∧ m = m' ∧ ∀ i j, i < n → j < m → F i j = G i j := by
  obtain ⟨rfl, rfl, _, h4⟩ := h
  obtain ⟨h1, h2, _, h5⟩ := h'
  refine ⟨h1, h2, fun i j hi hj => ?_⟩
  have := h4 i j hi hj
  rw [h5 i j (h1 ▸ hi) (h2 ▸ hj)] at this
  exact (Except.ok.inj this).symm

theorem _root_.Rodeo.Spec.IsMat.raw {A : Mat K} {n m : Nat} {F : Nat → Nat → K} (h : IsMat A n m F) {i j k : Nat}
    (hi : i < n) (hj : j < m) (hk : k = j * n + i) : rawAt A.buf k = .ok (F i j) := by
  subst hk
  simp [rawAt, (isMat_iff.1 h).2.2.2 i j hi hj]

theorem vat_vecFun {v : List K} {i : Nat} (h : i < v.length) : vat v i = .ok (vecFun v i) := by
  simp [vat, vecFun, h]

theorem freeze_isMat {d : List (Option K)} {n m : Nat} {G : Nat → Nat → K}
    (h : Rep2 d n m (fun i j => some (G i j))) :
    ∃ l, Mem.freeze d = .ok l ∧ IsMat ⟨n, m, l⟩ n m G := by
  obtain ⟨l, h1, h2, h3⟩ := h.freeze
  exact ⟨l, h1, isMat_iff.2 ⟨rfl, rfl, h2, h3⟩⟩

/-- Loop rule in `OkP` form. -/
theorem okP_for {σ : Type} {body : Nat → σ → Res σ} (Inv : Nat → σ → Prop) {n : Nat} {s : σ}
    (h0 : Inv 0 s) (hs : ∀ j s, j < n → Inv j s → OkP (body j s) (Inv (j + 1))) :
    OkP (forRange n body s) (Inv n) := forRange_inv Inv h0 hs

theorem okP_freeze {d : List (Option K)} {n m : Nat} {G : Nat → Nat → K}
    (h : Rep2 d n m (fun i j => some (G i j))) :
    OkP (Mem.freeze d) (fun l => IsMat ⟨n, m, l⟩ n m G) := freeze_isMat h

theorem wrAt_eq {n m i j : Nat} {d : List (Option K)} {v : K} (hi : i < n) (hj : j < m) :
    wrAt n m d i j v = Mem.wr d (j * n + i) v := by
  unfold wrAt; rw [if_neg (by omega)]

end Mat
end Rodeo
