import Verif.Lemmas.History
import Verif.Props.Mat

set_option linter.unusedSectionVars false

namespace Rodeo
open Spec

variable {K : Type} [Field K] [LinearOrder K] [IsStrictOrderedRing K]

theorem foldRes_okP {α σ : Type} {f : σ → α → Res σ} {l : List α} (I : Nat → σ → Prop)
    {s : σ} (h0 : I 0 s)
    (hs : ∀ k a s, l[k]? = some a → I k s → OkP (f s a) (I (k + 1))) :
    OkP (foldRes f s l) (I l.length) := by
  suffices H : ∀ (suf : List α) (k : Nat) (s : σ), l.drop k = suf → k ≤ l.length → I k s →
      OkP (foldRes f s suf) (I l.length) from H l 0 s rfl (by omega) h0
  intro suf
  induction suf with
  | nil =>
    intro k s hl hk hI
    have : k = l.length := by
      have := congrArg List.length hl; simp at this; omega
    subst this
    exact okP_ok hI
  | cons a suf ih =>
    intro k s hl hk hI
    have hk' : k < l.length := by
      have := congrArg List.length hl; simp at this; omega
    have ha : l[k]? = some a := by
      have := congrArg (fun z => z[0]?) hl
      simpa using this
    obtain ⟨s', e, hI'⟩ := hs k a s ha hI
    unfold foldRes
    rw [e]
    refine ih (k + 1) s' ?_ hk' hI'
    rw [← List.tail_drop, hl, List.tail_cons]

theorem isMat_const (n m : Nat) (v : K) : IsMat (Mat.const n m v) n m (fun _ _ => v) := by
  refine Mat.isMat_iff.2 ⟨rfl, rfl, by simp [Mat.const], ?_⟩
  intro i j hi hj
  simp [Mat.const, colmajor_lt hi hj]

theorem checkFeasibility_iff (c : Constraint K) (v : K) : c.checkFeasibility v = true ↔ Holds c v := by
  unfold Constraint.checkFeasibility Holds
  by_cases h1 : c.type = ['<']
  · have h2 : ¬ c.type = ['>'] := by rw [h1]; decide
    simp [h1]
  · by_cases h2 : c.type = ['>']
    · simp [h2]
    · simp [h1, h2]

/-- What is entered for a constraint at the design `x`. -/
def Entry (dim : Nat) (c : Constraint K) (x : Nat → K) (v : K) : Prop :=
  match c.source with
  | .user f => v = f ((List.range dim).map x)
  | .data D =>
    (∃ p, p < D.nrows ∧ D.at' p dim = .ok v ∧
      (∀ j, j < dim → ∃ a, D.at' p j = .ok a ∧ |a - x j| ≤ 1 / 10 ^ 8) ∧
      ∀ q, q < p → ¬ ∀ j, j < dim → ∃ a, D.at' q j = .ok a ∧ |a - x j| ≤ 1 / 10 ^ 8) ∨
    ((∀ q, q < D.nrows → ¬ ∀ j, j < dim → ∃ a, D.at' q j = .ok a ∧ |a - x j| ≤ 1 / 10 ^ 8) ∧
      (c.type = ['>'] → v = -10 ^ 15) ∧ (c.type = ['<'] → v = 10 ^ 15))

theorem holds_entry {dim : Nat} {c : Constraint K} {x : Nat → K} {v : K} (hc : UsableConstraint dim c)
    (hv : Entry dim c x v) : Holds c v ↔ SatisfiedAt dim c x := by
  obtain ⟨ht, hlo, hhi, hsrc⟩ := hc
  unfold Entry at hv
  unfold SatisfiedAt
  cases hs : c.source with
  | user f => rw [hs] at hv; dsimp only at hv ⊢; rw [hv]
  | data D =>
    rw [hs] at hv
    dsimp only at hv ⊢
    rcases hv with ⟨p, h1, h2, h3, h4⟩ | ⟨h1, h2, h3⟩
    · constructor
      · intro h; exact ⟨p, v, h1, h2, h, h3, h4⟩
      · rintro ⟨q, w, g1, g2, g3, g4, g5⟩
        have : p = q := by
          rcases lt_trichotomy p q with h | h | h
          · exact absurd h3 (g5 p h)
          · exact h
          · exact absurd g4 (h4 q h)
        subst this
        rw [h2] at g2
        rw [Except.ok.inj g2]; exact g3
    · constructor
      · rintro (⟨ht, h⟩ | ⟨ht, h⟩)
        · rw [h3 ht] at h; exact absurd hhi (not_le.2 h)
        · rw [h2 ht] at h; exact absurd hlo (not_le.2 h)
      · rintro ⟨q, w, g1, g2, g3, g4, g5⟩
        exact absurd g4 (h1 q g1)

namespace Problem

theorem lookup_ok {dim : Nat} {c : Constraint K} {D I : Mat K} {A : Mat K} {N M n m : Nat}
    {F : Nat → Nat → K} {E : Nat → Nat → K} {x : Nat → K} (hA : IsMat A N M F) (hs : c.source = .data D)
    (hD : IsMat D n m E) (hI : IsMat I n dim E) (hm : dim < m)
    (ht : c.type = ['<'] ∨ c.type = ['>']) {i col : Nat} (hi : i < N) (hcol : col < M) :
    OkP (lookup dim c D I ((List.range dim).map x) A i col) (fun B => ∃ v, Entry dim c x v ∧
      IsMat B N M (fun r k => if r = i ∧ k = col then v else F r k)) := by
  obtain ⟨hr, hc, -, hat⟩ := id hD
  have hfind := C49_findRowIndex hI ((List.range dim).map x) (1 / 10 ^ 8)
  rw [if_neg (by simp)] at hfind
  have hvf : ∀ j, j < dim → vecFun ((List.range dim).map x) j = x j := by
    intro j hj; simp [vecFun, hj]
  unfold lookup
  rcases hfind with ⟨p, e, hp, h1, h2⟩ | ⟨e, h2⟩
  · refine bind_okP e ?_
    rw [if_pos (by omega)]
    refine bind_okP (a := E p dim) (by simpa using hat p dim hp hm) ?_
    refine (Mat.put_ok hA hi hcol _).mono ?_
    intro B hB
    refine ⟨E p dim, ?_, hB⟩
    unfold Entry
    rw [hs]
    left
    refine ⟨p, by omega, hat p dim hp hm, fun j hj => ⟨E p j, hat p j hp (by omega), ?_⟩, ?_⟩
    · have := h1 j hj; rwa [hvf j hj] at this
    · intro q hq hcon
      obtain ⟨j, hj, hlt⟩ := h2 q hq
      obtain ⟨a, ha, hle⟩ := hcon j hj
      rw [hat q j (by omega) (by omega)] at ha
      rw [hvf j hj, Except.ok.inj ha] at hlt
      exact absurd hle (not_le.2 hlt)
  · refine bind_okP e ?_
    rw [if_neg (by omega)]
    have hno : ∀ q, q < D.nrows → ¬ ∀ j, j < dim → ∃ a, D.at' q j = .ok a ∧ |a - x j| ≤ 1 / 10 ^ 8 := by
      intro q hq hcon
      obtain ⟨j, hj, hlt⟩ := h2 q (by omega)
      obtain ⟨a, ha, hle⟩ := hcon j hj
      rw [hat q j (by omega) (by omega)] at ha
      rw [hvf j hj, Except.ok.inj ha] at hlt
      exact absurd hle (not_le.2 hlt)
    have hne : ¬ (['<'] = (['>'] : Text.Str)) := by decide
    rcases ht with ht | ht
    · rw [if_neg (by rw [ht]; exact hne), if_pos ht]
      refine (Mat.put_ok hA hi hcol _).mono ?_
      intro B hB
      refine ⟨10 ^ 15, ?_, hB⟩
      unfold Entry; rw [hs]; right
      exact ⟨hno, fun h => by rw [ht] at h; exact absurd h hne, fun _ => rfl⟩
    · rw [if_pos ht]
      refine (Mat.put_ok hA hi hcol _).mono ?_
      intro B hB
      refine ⟨-10 ^ 15, ?_, hB⟩
      unfold Entry; rw [hs]; right
      exact ⟨hno, fun _ => rfl, fun h => by rw [ht] at h; exact absurd h.symm hne⟩

theorem constraintColumn_ok {p : Problem K} {c : Constraint K} {I A : Mat K} {N M k : Nat}
    {F G : Nat → Nat → K} (hd : p.dimension ≠ 0) (hA : IsMat A N M F) (hI : IsMat I N p.dimension G)
    (hc : UsableConstraint p.dimension c) (hid : c.id = (k : Int)) (hk : k < p.constraints.length)
    (hM : p.dimension + k + 1 < M) :
    OkP (constraintColumn p I A c) (fun B => ∃ F', IsMat B N M F' ∧
      (∀ i j, j ≠ p.dimension + 1 + k → F' i j = F i j) ∧
      ∀ i, i < N → Entry p.dimension c (G i) (F' i (p.dimension + 1 + k))) := by
  obtain ⟨ht, -, -, hsrc⟩ := hc
  have hr := hA.1
  unfold constraintColumn
  rw [if_neg (by omega)]
  have hcol : p.dimension + c.id.toNat + 1 = p.dimension + 1 + k := by omega
  dsimp only
  rw [hcol]
  -- the common loop
  have loop : ∀ body : Nat → Mat K → Res (Mat K),
      (∀ i A' F', i < N → IsMat A' N M F' → OkP (body i A') (fun B => ∃ v,
        Entry p.dimension c (G i) v ∧
        IsMat B N M (fun r j => if r = i ∧ j = p.dimension + 1 + k then v else F' r j))) →
      OkP (forRange A.nrows body A) (fun B => ∃ F', IsMat B N M F' ∧
        (∀ i j, j ≠ p.dimension + 1 + k → F' i j = F i j) ∧
        ∀ i, i < N → Entry p.dimension c (G i) (F' i (p.dimension + 1 + k))) := by
    intro body hbody
    rw [hr]
    refine forRange_inv (fun t B => ∃ F', IsMat B N M F' ∧
        (∀ i j, j ≠ p.dimension + 1 + k → F' i j = F i j) ∧
        ∀ i, i < t → Entry p.dimension c (G i) (F' i (p.dimension + 1 + k)))
      ⟨F, hA, fun _ _ _ => rfl, by intro i hi; omega⟩ ?_
    rintro i B hi ⟨F', h1, h2, h3⟩
    obtain ⟨B', e, v, hv, hB'⟩ := hbody i B F' hi h1
    refine ⟨B', e, _, hB', ?_, ?_⟩
    · intro r j hj
      rw [if_neg (by rintro ⟨_, h⟩; exact hj h), h2 r j hj]
    · intro r hr'
      by_cases hri : r = i
      · subst hri; rw [if_pos ⟨rfl, rfl⟩]; exact hv
      · rw [if_neg (by rintro ⟨h, _⟩; exact hri h)]; exact h3 r (by omega)
  cases hs : c.source with
  | user f =>
    dsimp only
    apply loop
    intro i A' F' hi hA'
    refine bind_okP (Mat.getRow_ok hI hi (Or.inl rfl)) ?_
    refine (Mat.put_ok hA' hi (by omega) _).mono ?_
    intro B hB
    refine ⟨_, ?_, hB⟩
    unfold Entry; rw [hs]
  | data D =>
    rw [hs] at hsrc
    obtain ⟨n, m, E, hD, hn, hm⟩ := hsrc
    dsimp only
    have hpred : Mat.predU32 D.nrows = n - 1 := by
      unfold Mat.predU32; rw [if_neg (by rw [hD.1]; omega), hD.1]
    rw [hpred]
    refine OkP.bind (Mat.submat_ok hD (by omega) (by omega) (by omega) (by omega)) ?_
    intro I' hI'
    have hI'' : IsMat I' n p.dimension E := by
      have e1 : n - 1 - 0 + 1 = n := by omega
      have e2 : p.dimension - 1 - 0 + 1 = p.dimension := by omega
      rw [e1, e2] at hI'
      exact hI'.congr (fun i j _ _ => by simp)
    apply loop
    intro i A' F' hi hA'
    refine bind_okP (Mat.getRow_ok hI hi (Or.inl rfl)) ?_
    exact lookup_ok hA' hs hD hI'' hm ht hi (by omega)

/-- What the initial history has to contain apart from the flags. -/
def Filled (p : Problem K) (N : Nat) (G F : Nat → Nat → K) : Prop :=
  (∀ i j, i < N → j ≤ p.dimension → F i j = G i j) ∧
  (∀ i, i < N → F i (p.dimension + 1 + p.constraints.length) = 0) ∧
  ∀ k c, p.constraints[k]? = some c → ∀ i, i < N → Entry p.dimension c (G i) (F i (p.dimension + 1 + k))

theorem setConstraintsData_ok {p : Problem K} {A : Mat K} {N : Nat} {F G : Nat → Nat → K}
    (hd : p.dimension ≠ 0) (hN : N ≠ 0) (hA : IsMat A N (p.dimension + 1 + p.constraints.length + 2) F)
    (h1 : ∀ i j, i < N → j ≤ p.dimension → F i j = G i j)
    (h2 : ∀ i, i < N → F i (p.dimension + 1 + p.constraints.length) = 0)
    (hc : ∀ (k : Nat) c, p.constraints[k]? = some c → UsableConstraint p.dimension c ∧ c.id = (k : Int)) :
    OkP (p.setConstraintsData A) (fun B => ∃ F',
      IsMat B N (p.dimension + 1 + p.constraints.length + 2) F' ∧ Filled p N G F') := by
  have hr := hA.1
  have hcl := hA.2.1
  unfold setConstraintsData
  rw [if_neg (by simp [Mat.isEmpty]; omega), if_neg hd, hr]
  refine OkP.bind (Mat.submat_ok hA (by omega) (by omega) (by omega) (by omega)) ?_
  intro I hI
  have hI' : IsMat I N p.dimension G := by
    have e1 : N - 1 - 0 + 1 = N := by omega
    have e2 : p.dimension - 1 - 0 + 1 = p.dimension := by omega
    rw [e1, e2] at hI
    exact hI.congr (fun i j hi hj => by simpa using h1 i j hi (by omega))
  refine (foldRes_okP (fun t B => ∃ F', IsMat B N (p.dimension + 1 + p.constraints.length + 2) F' ∧
      (∀ i j, i < N → j ≤ p.dimension → F' i j = G i j) ∧
      (∀ i, i < N → F' i (p.dimension + 1 + p.constraints.length) = 0) ∧
      ∀ k c, k < t → p.constraints[k]? = some c → ∀ i, i < N →
        Entry p.dimension c (G i) (F' i (p.dimension + 1 + k)))
    ⟨F, hA, h1, h2, by intro k c hk; omega⟩ ?_).mono ?_
  · rintro k c B hk ⟨F', g1, g2, g3, g4⟩
    have hkl : k < p.constraints.length := by
      by_contra hcon
      rw [List.getElem?_eq_none (by omega)] at hk; cases hk
    refine (constraintColumn_ok hd g1 hI' (hc k c hk).1 (hc k c hk).2 hkl (by omega)).mono ?_
    rintro B' ⟨F'', f1, f2, f3⟩
    refine ⟨F'', f1, ?_, ?_, ?_⟩
    · intro i j hi hj; rw [f2 i j (by omega), g2 i j hi hj]
    · intro i hi; rw [f2 i _ (by omega), g3 i hi]
    · intro k' c' hk' hc' i hi
      by_cases he : k' = k
      · subst he
        rw [hk] at hc'; cases hc'
        exact f3 i hi
      · rw [f2 i _ (by omega)]
        exact g4 k' c' (by omega) hc' i hi
  · rintro B ⟨F', g1, g2, g3, g4⟩
    refine ⟨F', g1, g2, g3, fun k c hk => g4 k c ?_ hk⟩
    by_contra hcon
    rw [List.getElem?_eq_none (by omega)] at hk; cases hk

theorem checkConstraintFeasibility_ok {p : Problem K} {N : Nat} {G F : Nat → Nat → K}
    (hF : Filled p N G F) {i : Nat} (hi : i < N)
    (hc : ∀ (k : Nat) c, p.constraints[k]? = some c → UsableConstraint p.dimension c ∧ c.id = (k : Int)) :
    ∃ b, p.checkConstraintFeasibility
        ((List.range p.constraints.length).map (fun j => F i (j + p.dimension + 1))) = .ok b ∧
      (b = true ↔ ∀ c ∈ p.constraints, SatisfiedAt p.dimension c (G i)) := by
  unfold checkConstraintFeasibility
  rw [if_neg (by simp)]
  obtain ⟨r, e, hr⟩ := noneOf_ok (n := p.constraints.length)
    (test := fun j => match p.constraints[j]?,
        vat ((List.range p.constraints.length).map (fun j => F i (j + p.dimension + 1))) j with
      | some c, .ok v => .ok (! c.checkFeasibility v)
      | none, _ => .error .ub
      | _, .error e => .error e)
    (b := fun j => match p.constraints[j]? with
      | some c => ! c.checkFeasibility (F i (j + p.dimension + 1))
      | none => false)
    (by
      intro j hj
      rw [List.getElem?_eq_getElem hj, vat_ok_of_lt (by simpa using hj)]
      simp)
  refine ⟨r, e, hr.trans ?_⟩
  constructor
  · intro h c hcm
    obtain ⟨k, hk, rfl⟩ := List.getElem_of_mem hcm
    have hk' := List.getElem?_eq_getElem hk
    have := h k hk
    rw [hk'] at this
    simp only [Bool.not_eq_false'] at this
    rw [checkFeasibility_iff] at this
    have hent := hF.2.2 k _ hk' i hi
    have e : p.dimension + 1 + k = k + p.dimension + 1 := by omega
    rw [e] at hent
    exact (holds_entry (hc k _ hk').1 hent).1 this
  · intro h k hk
    have hk' := List.getElem?_eq_getElem hk
    rw [hk']
    simp only [Bool.not_eq_false']
    rw [checkFeasibility_iff]
    have hent := hF.2.2 k _ hk' i hi
    have e : p.dimension + 1 + k = k + p.dimension + 1 := by omega
    rw [e] at hent
    exact (holds_entry (hc k _ hk').1 hent).2 (h _ (List.getElem_mem hk))

theorem checkBox_ok {p : Problem K} (hb : p.boxSet = true) (hd : p.dimension ≠ 0)
    (hl : p.lb.length = p.dimension) (hu : p.ub.length = p.dimension) {x : List K}
    (hx : x.length = p.dimension) :
    ∃ b, p.checkBox x = .ok b ∧ (b = true ↔ InBox p.lb p.ub x) := by
  unfold checkBox
  rw [if_neg (by simp [hb]), if_neg (by omega)]
  obtain ⟨r, e, hr⟩ := noneOf_ok (n := p.dimension)
    (test := fun i => match vat x i, vat p.lb i, vat p.ub i with
      | .ok v, .ok l, .ok u => .ok (decide (v < l ∨ v > u))
      | .error e, _, _ => .error e
      | _, .error e, _ => .error e
      | _, _, .error e => .error e)
    (b := fun i => decide (x.getD i 0 < p.lb.getD i 0 ∨ x.getD i 0 > p.ub.getD i 0))
    (by
      intro j hj
      have h1 : j < x.length := by omega
      have h2 : j < p.lb.length := by omega
      have h3 : j < p.ub.length := by omega
      rw [vat_ok_of_lt h1, vat_ok_of_lt h2, vat_ok_of_lt h3]
      simp [h1, h2, h3])
  refine ⟨r, e, hr.trans ?_⟩
  unfold InBox
  constructor
  · intro h
    refine ⟨by omega, by omega, fun i l u v h1 h2 h3 => ?_⟩
    have hi : i < p.dimension := by
      by_contra hcon
      rw [List.getElem?_eq_none (by omega)] at h1; cases h1
    have := h i hi
    simp only [List.getD_eq_getElem?_getD, h1, h2, h3, Option.getD_some, decide_eq_false_iff_not,
      not_or, not_lt, gt_iff_lt] at this
    exact this
  · rintro ⟨-, -, h⟩ i hi
    have h1 : i < x.length := by omega
    have h2 : i < p.lb.length := by omega
    have h3 : i < p.ub.length := by omega
    have := h i _ _ _ (List.getElem?_eq_getElem h2) (List.getElem?_eq_getElem h3)
      (List.getElem?_eq_getElem h1)
    simp only [List.getD_eq_getElem?_getD, List.getElem?_eq_getElem h1,
      List.getElem?_eq_getElem h2, List.getElem?_eq_getElem h3, Option.getD_some,
      decide_eq_false_iff_not, not_or, not_lt, gt_iff_lt]
    exact this

/-- The flag of row `i` is right. -/
def FlagOK (p : Problem K) (G F : Nat → Nat → K) (i : Nat) : Prop :=
  F i (p.dimension + 1 + p.constraints.length + 1) = 1 ∧
      (InBox p.lb p.ub ((List.range p.dimension).map (G i)) ∧
        ∀ c ∈ p.constraints, SatisfiedAt p.dimension c (G i)) ∨
  F i (p.dimension + 1 + p.constraints.length + 1) = 0 ∧
      ¬ (InBox p.lb p.ub ((List.range p.dimension).map (G i)) ∧
        ∀ c ∈ p.constraints, SatisfiedAt p.dimension c (G i))

theorem setFeasibilityValues_ok {p : Problem K} {A : Mat K} {N : Nat} {F G : Nat → Nat → K}
    (hb : p.boxSet = true) (hd : p.dimension ≠ 0) (hN : N ≠ 0)
    (hl : p.lb.length = p.dimension) (hu : p.ub.length = p.dimension)
    (hA : IsMat A N (p.dimension + 1 + p.constraints.length + 2) F) (hF : Filled p N G F)
    (hc : ∀ (k : Nat) c, p.constraints[k]? = some c → UsableConstraint p.dimension c ∧ c.id = (k : Int))
    (hun : p.constraints ≠ [] ∨ ∀ i, i < N → InBox p.lb p.ub ((List.range p.dimension).map (G i))) :
    OkP (p.setFeasibilityValues A) (fun B => ∃ F',
      IsMat B N (p.dimension + 1 + p.constraints.length + 2) F' ∧ Filled p N G F' ∧
      ∀ i, i < N → FlagOK p G F' i) := by
  have hr := hA.1
  have hcl := hA.2.1
  unfold setFeasibilityValues
  rw [if_neg (by omega), if_neg hd]
  have hput : ∀ (A' : Mat K) (F' : Nat → Nat → K) (i : Nat) (a : K),
      IsMat A' N (p.dimension + 1 + p.constraints.length + 2) F' → Filled p N G F' → i < N →
      OkP (Mat.put A' i (A'.ncols - 1) a) (fun B => ∃ F'',
        IsMat B N (p.dimension + 1 + p.constraints.length + 2) F'' ∧ Filled p N G F'' ∧
        F'' i (p.dimension + 1 + p.constraints.length + 1) = a ∧
        ∀ r, r ≠ i → F'' r (p.dimension + 1 + p.constraints.length + 1) =
          F' r (p.dimension + 1 + p.constraints.length + 1)) := by
    intro A' F' i a hA' hF' hi
    have hcl' : A'.ncols - 1 = p.dimension + 1 + p.constraints.length + 1 := by rw [hA'.2.1]; omega
    rw [hcl']
    refine (Mat.put_ok hA' hi (by omega) a).mono ?_
    intro B hB
    refine ⟨_, hB, ⟨?_, ?_, ?_⟩, ?_, ?_⟩
    · intro r j hr' hj; dsimp only; rw [if_neg (by omega)]; exact hF'.1 r j hr' hj
    · intro r hr'; dsimp only; rw [if_neg (by omega)]; exact hF'.2.1 r hr'
    · intro k c hk r hr'
      have hkl : k < p.constraints.length := by
        by_contra hcon
        rw [List.getElem?_eq_none (by omega)] at hk; cases hk
      dsimp only; rw [if_neg (by omega)]; exact hF'.2.2 k c hk r hr'
    · rw [if_pos ⟨rfl, rfl⟩]
    · intro r hri; rw [if_neg (by rintro ⟨h, _⟩; exact hri h)]
  by_cases hcons : p.constraints = []
  · rw [if_neg (by simp [hcons]), hr]
    refine forRange_inv (fun t B => ∃ F', IsMat B N (p.dimension + 1 + p.constraints.length + 2) F' ∧
      Filled p N G F' ∧ ∀ i, i < t → FlagOK p G F' i) ⟨F, hA, hF, by intro i hi; omega⟩ ?_
    rintro i B hi ⟨F', g1, g2, g3⟩
    obtain ⟨B', e, F'', f1, f2, f3, f4⟩ := hput B F' i 1 g1 g2 hi
    refine ⟨B', e, F'', f1, f2, ?_⟩
    intro r hr'
    by_cases hri : r = i
    · subst hri
      left
      refine ⟨f3, ?_, by rw [hcons]; simp⟩
      rcases hun with h | h
      · contradiction
      · exact h r hi
    · have := g3 r (by omega)
      unfold FlagOK at this ⊢
      rw [f4 r hri]; exact this
  · rw [if_pos (List.length_pos_iff.2 hcons), hr]
    refine forRange_inv (fun t B => ∃ F', IsMat B N (p.dimension + 1 + p.constraints.length + 2) F' ∧
      Filled p N G F' ∧ ∀ i, i < t → FlagOK p G F' i) ⟨F, hA, hF, by intro i hi; omega⟩ ?_
    rintro i B hi ⟨F', g1, g2, g3⟩
    have hrow : ∃ b, p.rowFeasible B i = .ok b ∧
        (b = true ↔ InBox p.lb p.ub ((List.range p.dimension).map (G i)) ∧
          ∀ c ∈ p.constraints, SatisfiedAt p.dimension c (G i)) := by
      unfold rowFeasible
      obtain ⟨b1, e1, hb1⟩ := checkConstraintFeasibility_ok g2 hi hc
      have hhead : ((List.range (p.dimension + 1 + p.constraints.length + 2)).map
          (fun j => F' i j)).take p.dimension = (List.range p.dimension).map (G i) := by
        rw [← List.map_take, List.take_range, Nat.min_eq_left (by omega)]
        apply List.map_congr_left
        intro j hj
        exact g2.1 i j hi (by simp at hj; omega)
      obtain ⟨b2, e2, hb2⟩ := checkBox_ok hb hd hl hu (x := (List.range p.dimension).map (G i)) (by simp)
      refine ⟨b1 && b2, bind_eq (Mat.getRow_ok g1 hi (Or.inl rfl))
        (bind_eq (Vec.head_eq _ (by simp; omega)) (bind_eq (tab_ok
          (g := fun j => F' i (j + p.dimension + 1)) ?_) (bind_eq e1 (bind_eq (hhead ▸ e2) rfl)))), ?_⟩
      · intro j hj
        rw [vat_ok_of_lt (by simp; omega)]; simp
      · rw [Bool.and_eq_true, hb1, hb2]; exact and_comm
    obtain ⟨b, eb, hbiff⟩ := hrow
    obtain ⟨B', e, F'', f1, f2, f3, f4⟩ := hput B F' i (if b then 1 else 0) g1 g2 hi
    refine ⟨B', bind_eq eb e, F'', f1, f2, ?_⟩
    intro r hr'
    by_cases hri : r = i
    · subst hri
      unfold FlagOK
      rw [f3]
      cases b with
      | true => left; exact ⟨rfl, hbiff.1 rfl⟩
      | false => right; exact ⟨rfl, fun h => by have := hbiff.2 h; cases this⟩
    · have := g3 r (by omega)
      unfold FlagOK at this ⊢
      rw [f4 r hri]; exact this

theorem initialData_ok {p : Problem K} {T : Mat K} {N mT : Nat} {G : Nat → Nat → K}
    (hT : IsMat T N mT G) (hmT : p.dimension < mT)
    (hb : p.boxSet = true) (hd : p.dimension ≠ 0) (hN : N ≠ 0)
    (hl : p.lb.length = p.dimension) (hu : p.ub.length = p.dimension)
    (hc : ∀ (k : Nat) c, p.constraints[k]? = some c → UsableConstraint p.dimension c ∧ c.id = (k : Int))
    (hun : p.constraints ≠ [] ∨ ∀ i, i < N → InBox p.lb p.ub ((List.range p.dimension).map (G i))) :
    OkP (p.initialData T) (fun B => ∃ F',
      IsMat B N (p.dimension + 1 + p.constraints.length + 2) F' ∧ Filled p N G F' ∧
      ∀ i, i < N → FlagOK p G F' i) := by
  have hr := hT.1
  have hcl := hT.2.1
  have h1 : Mat.predU32 T.ncols = mT - 1 := by
    unfold Mat.predU32; rw [if_neg (by omega), hcl]
  have h2 : Mat.predU32 T.nrows = N - 1 := by
    unfold Mat.predU32; rw [if_neg (by omega), hr]
  unfold initialData
  rw [if_neg hd, h1, if_neg (by omega), h2, hr]
  refine OkP.bind (Mat.submat_ok hT (by omega) (by omega) (by omega) (by omega)) ?_
  intro _ _
  refine OkP.bind (P := fun A => IsMat A N (p.dimension + 1 + p.constraints.length + 2)
    (fun i j => if j < p.dimension + 1 then G i j else 0)) ?_ ?_
  · refine forRange_inv (fun t A => IsMat A N (p.dimension + 1 + p.constraints.length + 2)
      (fun i j => if j < t then G i j else 0)) ?_ ?_
    · simpa using isMat_const N (p.dimension + 1 + p.constraints.length + 2) (0 : K)
    · intro k A hk hA
      obtain ⟨B, e, hB⟩ := Mat.setCol_ok hA (v := (List.range N).map (fun i => G i k)) (by simp)
        (p := k) (by omega)
      refine ⟨B, bind_eq (Mat.getCol_ok hT (p := k) (by omega) (Or.inl rfl)) e, hB.congr ?_⟩
      intro i j hi hj
      by_cases hjk : j = k
      · subst hjk; rw [if_pos rfl, if_pos (by omega)]; simp [vecFun, hi]
      · rw [if_neg hjk]
        by_cases hlt : j < k
        · rw [if_pos hlt, if_pos (by omega)]
        · rw [if_neg hlt, if_neg (by omega)]
  · intro A hA
    refine OkP.bind (P := fun B => ∃ F', IsMat B N (p.dimension + 1 + p.constraints.length + 2) F' ∧
      Filled p N G F') ?_ ?_
    · have g1 : ∀ i j, i < N → j ≤ p.dimension →
          (if j < p.dimension + 1 then G i j else 0) = G i j := by
        intro i j _ hj; rw [if_pos (by omega)]
      have g2 : ∀ i, i < N → (if p.dimension + 1 + p.constraints.length < p.dimension + 1
          then G i (p.dimension + 1 + p.constraints.length) else 0) = 0 := by
        intro i _; rw [if_neg (by omega)]
      by_cases hcons : p.constraints = []
      · unfold setConstraintsDataIfAny
        rw [if_neg (by simp [hcons])]
        exact okP_ok ⟨_, hA, g1, g2, by intro k c hk; rw [hcons] at hk; simp at hk⟩
      · unfold setConstraintsDataIfAny
        rw [if_pos (List.length_pos_iff.2 hcons)]
        exact setConstraintsData_ok hd hN hA g1 g2 hc
    · rintro B ⟨F', hB, hF⟩
      exact setFeasibilityValues_ok hb hd hN hl hu hB hF hc hun

end Problem
end Rodeo
