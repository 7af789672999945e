import Verif.Lemmas.InitHistory
import Verif.Lemmas.Crowding
import Verif.Props.CSV

set_option linter.unusedSectionVars false

/-! # Optimization history and global optimum (C28 - C33) -/

namespace Rodeo

open Text Spec

variable {K : Type} [Field K] [LinearOrder K] [IsStrictOrderedRing K]

/-! ## The global optimum -/

/-- **C28** as stated: for every history with at least one row, laid out for the design, the call
returns and the global optimum describes an optimal row. -/
def C28_full (K : Type) [Field K] [LinearOrder K] [IsStrictOrderedRing K] : Prop :=
  ∀ (g : GlobalDesign K) (A : Mat K) (n m : Nat) (F : Nat → Nat → K), IsMat A n m F → n ≠ 0 →
    m = g.design.dimension + 1 + g.design.numberOfConstraints + 2 → g.box.isSet = true →
    ValidBox g.design.dimension g.box.lb g.box.ub →
    (∀ i j, i < n → j < m → |F i j| ≤ dblMax) →
    ∃ g' k, g.setFromHistory A = .ok g' ∧ g'.box = g.box ∧
      g'.design.dimension = g.design.dimension ∧
      g'.design.numberOfConstraints = g.design.numberOfConstraints ∧
      IsOptimum F n m g.design.dimension k g'.design.feasible ∧ DescribesRow g' F m k

/-- C28 for histories whose feasible objective values are below the largest `double`.  Missing:
feasible rows whose objective equals it (`C28_false`). -/
theorem C28_partial {g : GlobalDesign K} {A : Mat K} {n m : Nat} {F : Nat → Nat → K}
    (hA : IsMat A n m F) (hn : n ≠ 0)
    (hm : m = g.design.dimension + 1 + g.design.numberOfConstraints + 2) (hs : g.box.isSet = true)
    (hb : ValidBox g.design.dimension g.box.lb g.box.ub)
    (hv : ∀ i, i < n → FeasibleRow F m i → F i g.design.dimension < dblMax) :
    ∃ g' k, g.setFromHistory A = .ok g' ∧ g'.box = g.box ∧
      g'.design.dimension = g.design.dimension ∧
      g'.design.numberOfConstraints = g.design.numberOfConstraints ∧
      IsOptimum F n m g.design.dimension k g'.design.feasible ∧ DescribesRow g' F m k := by
  obtain ⟨hd, hl, hu, -⟩ := hb
  obtain ⟨g', e, h1, h2, h3, k, h4, h5, h6⟩ := GlobalDesign.setFromHistory_ok hA hn (by omega) hm hs hl hu
  refine ⟨g', k, e, h1, h2, h3, ⟨h4, ?_, ?_⟩, h5⟩
  · rintro ⟨i, hi, hf⟩
    rcases h6 with ⟨a1, a2, a3, a4, a5⟩ | ⟨a1, a2, a3, a4⟩
    · exact ⟨a1, a2, a4, a5⟩
    · exact absurd (hv i hi hf) (not_lt.2 (a2 i hi hf))
  · intro hno
    rcases h6 with ⟨a1, a2, a3, a4, a5⟩ | ⟨a1, a2, a3, a4⟩
    · exact absurd a2 (hno k h4)
    · exact ⟨a1, a3, a4⟩

namespace HistDemo

theorem dblMax_big : (1000 : ℚ) ≤ dblMax := by decide +kernel

/-- One-dimensional box `[0, 2]`, no constraints. -/
def g : GlobalDesign ℚ := ⟨Design.ofVec [0], ⟨[0], [2], 1, true⟩⟩

/-- Three rows: `(1, 5, 0, infeasible)`, `(2, 7, 0, feasible)`, `(1/2, 6, 0, feasible)`. -/
def A : Mat ℚ := ⟨3, 4, [1, 2, 1/2, 5, 7, 6, 0, 0, 0, 0, 1, 1]⟩

theorem isMat (n m : Nat) (l : List ℚ) (hl : l.length = n * m) :
    IsMat (⟨n, m, l⟩ : Mat ℚ) n m (fun i j => l.getD (j * n + i) 0) := by
  refine Mat.isMat_iff.2 ⟨rfl, rfl, hl, ?_⟩
  intro i j hi hj
  have := colmajor_lt hi hj
  dsimp only
  rw [List.getD_eq_getElem?_getD, List.getElem?_eq_getElem (by rw [hl]; exact this)]
  simp

theorem validBox : ValidBox g.design.dimension g.box.lb g.box.ub := by
  refine ⟨by decide, rfl, rfl, ?_⟩
  intro i l u hl hu
  match i with
  | 0 => simp [g] at hl hu; subst hl hu; norm_num
  | i + 1 => simp [g] at hl

/-- The hypotheses of C28 are met by `A`; the optimum is row 2, not the infeasible row 0. -/
example : (∀ i, i < 3 → FeasibleRow (fun i j => A.buf.getD (j * 3 + i) 0) 4 i →
      A.buf.getD (g.design.dimension * 3 + i) 0 < dblMax) ∧
    IsMat A 3 4 (fun i j => A.buf.getD (j * 3 + i) 0) ∧
    (g.setFromHistory A).toOption.map (fun g' => (g'.design.id, g'.design.trueValue, g'.design.feasible,
      g'.design.paramsNormalized)) = some (2, 6, true, [1/4]) := by
  refine ⟨?_, isMat 3 4 _ rfl, by decide +kernel⟩
  intro i hi _
  refine lt_of_lt_of_le ?_ dblMax_big
  interval_cases i <;> norm_num [A, g, Design.ofVec]

end HistDemo

/-- A feasible design whose objective is the largest `double` is not taken as feasible. -/
theorem C28_false : ¬ C28_full ℚ := by
  intro h
  let A : Mat ℚ := ⟨1, 4, [1, dblMax, 0, 1]⟩
  have hA : IsMat A 1 4 (fun i j => A.buf.getD (j * 1 + i) 0) := HistDemo.isMat 1 4 _ rfl
  obtain ⟨g', k, e, -, -, -, ⟨hk, h1, -⟩, -⟩ := h HistDemo.g A 1 4 _ hA (by decide) rfl rfl
    HistDemo.validBox (by
      intro i j hi hj
      obtain rfl : i = 0 := by omega
      have := HistDemo.dblMax_big
      interval_cases j <;> norm_num [A] <;> first | linarith | exact le_of_eq (abs_of_nonneg (by linarith)))
  have hf : (HistDemo.g.setFromHistory A).toOption.map (fun g' => g'.design.feasible) = some false := by
    decide +kernel
  have := (h1 ⟨0, by decide, by norm_num [FeasibleRow, A]⟩).1
  rw [e] at hf
  simp [Except.toOption, this] at hf

/-- **C29.** When rows are appended to a history, a feasible global optimum stays feasible and its
objective value does not increase: `A` and `B` agree on the `n` rows of `A`. -/
theorem C29_append {g g1 : GlobalDesign K} {A B : Mat K} {n n' m : Nat} {F G : Nat → Nat → K}
    (hA : IsMat A n m F) (hB : IsMat B n' m G) (hn : n ≠ 0) (hnn : n ≤ n')
    (hFG : ∀ i j, i < n → j < m → G i j = F i j)
    (hm : m = g.design.dimension + 1 + g.design.numberOfConstraints + 2) (hs : g.box.isSet = true)
    (hb : ValidBox g.design.dimension g.box.lb g.box.ub)
    (h1 : g.setFromHistory A = .ok g1) (hf : g1.design.feasible = true) :
    ∃ g2, g1.setFromHistory B = .ok g2 ∧ g2.design.feasible = true ∧
      g2.design.trueValue ≤ g1.design.trueValue := by
  obtain ⟨hd, hl, hu, -⟩ := hb
  obtain ⟨g', e, a1, a2, a3, k, a4, a5, a6⟩ :=
    GlobalDesign.setFromHistory_ok hA hn (by omega) hm hs hl hu
  rw [h1] at e
  cases e
  obtain ⟨g2, e2, b1, b2, b3, k2, b4, b5, b6⟩ :=
    GlobalDesign.setFromHistory_ok (g := g1) hB (by omega) (by omega) (by omega) (by rw [a1]; exact hs)
      (by rw [a1, a2]; exact hl) (by rw [a1, a2]; exact hu)
  refine ⟨g2, e2, ?_⟩
  have hv1 := a5.2.2.1
  have hv2 := b5.2.2.1
  rw [b2] at hv2
  rw [a2] at b6 hv1 hv2
  rcases a6 with ⟨-, c2, c3, -⟩ | ⟨c1, -⟩
  · have hkm : FeasibleRow G m k := by
      unfold FeasibleRow at c2 ⊢
      rw [hFG k _ a4 (by omega)]; exact c2
    have hval : G k g.design.dimension = F k g.design.dimension := hFG k _ a4 (by omega)
    rcases b6 with ⟨d1, d2, d3, d4, -⟩ | ⟨d1, d2, -⟩
    · refine ⟨d1, ?_⟩
      rw [hv1, hv2, ← hval]
      exact d4 k (by omega) hkm
    · have := d2 k (by omega) hkm
      rw [hval] at this
      exact absurd c3 (not_lt.2 this)
  · rw [hf] at c1; cases c1

/-- C29 is met by `A` and `A` with a worse and a better feasible row appended. -/
example : (HistDemo.g.setFromHistory HistDemo.A).toOption.map (fun g => g.design.feasible) = some true ∧
    ((HistDemo.g.setFromHistory HistDemo.A).bind (fun g1 => g1.setFromHistory
      ⟨5, 4, [1, 2, 1/2, 0, 0, 5, 7, 6, 9, 4, 0, 0, 0, 0, 0, 0, 1, 1, 1, 1]⟩)).toOption.map
      (fun g => (g.design.feasible, g.design.trueValue)) = some (true, 4) := by
  decide +kernel

/-! ## Improvement values -/

/-- The best value carried by the loop represents the reference. -/
def RefState (best : K) : Option K → Prop
  | none => best = -dblMax
  | some r => best = r ∧ -dblMax + 1 / 10 ^ 5 ≤ r

/-- Improvement of a design against a reference. -/
def impOf : Option K → Bool → K → K
  | _, false, _ => 0
  | none, true, _ => dblEps
  | some r, true, v => if v < r then r - v else 0

theorem improvement_step {best : K} {R : Option K} (h : RefState best R) (f : Bool) (v : K)
    (hv : f = true → -dblMax + 1 / 10 ^ 5 ≤ v) :
    (improvementValue best f v).2 = impOf R f v ∧
    RefState (improvementValue best f v).1 (match R with
      | some r => some r
      | none => if f = true then some v else none) := by
  unfold improvementValue
  cases f with
  | false =>
    cases R with
    | none => exact ⟨rfl, h⟩
    | some r => exact ⟨rfl, h⟩
  | true =>
    cases R with
    | none =>
      have hb : best = -dblMax := h
      rw [if_pos rfl, hb, neg_add_cancel, abs_zero, if_pos (by positivity)]
      dsimp only
      rw [if_neg (lt_irrefl v)]
      exact ⟨rfl, rfl, hv rfl⟩
    | some r =>
      obtain ⟨rfl, hr⟩ := h
      have hnot : ¬ |best + dblMax| < 1 / 10 ^ 5 := by
        rw [not_lt]
        refine le_trans ?_ (le_abs_self _)
        linarith
      rw [if_pos rfl, if_neg hnot]
      dsimp only [impOf]
      split_ifs with h1
      · exact ⟨rfl, rfl, hr⟩
      · exact ⟨rfl, rfl, hr⟩

theorem improvementValues_spec : ∀ (designs : List (Bool × K)) (best : K) (R : Option K),
    RefState best R → (∀ d ∈ designs, d.1 = true → -dblMax + 1 / 10 ^ 5 ≤ d.2) →
    (improvementValues best designs).length = designs.length ∧
    ∀ (i : Nat) (f : Bool) (v : K), designs[i]? = some (f, v) →
      (improvementValues best designs)[i]? = some (impOf (reference R designs i) f v) := by
  intro designs
  induction designs with
  | nil => intro best R _ _; exact ⟨rfl, by simp⟩
  | cons d l ih =>
    intro best R h hv
    obtain ⟨f0, v0⟩ := d
    obtain ⟨s1, s2⟩ := improvement_step h f0 v0 (hv (f0, v0) (by simp))
    obtain ⟨i1, i2⟩ := ih _ _ s2 (fun d hd => hv d (by simp [hd]))
    refine ⟨by simp [improvementValues, i1], ?_⟩
    intro i f v hi
    cases i with
    | zero =>
      simp only [List.getElem?_cons_zero, Option.some.injEq, Prod.mk.injEq] at hi
      obtain ⟨rfl, rfl⟩ := hi
      have : reference R ((f0, v0) :: l) 0 = R := by cases R <;> rfl
      rw [this]
      simp only [improvementValues, List.getElem?_cons_zero, s1]
    | succ i =>
      simp only [List.getElem?_cons_succ] at hi
      have := i2 i f v hi
      simp only [improvementValues, List.getElem?_cons_succ]
      rw [this]
      congr 2
      cases R with
      | some r => rfl
      | none =>
        cases f0 with
        | true => simp [reference]
        | false => simp [reference]

theorem reference_mono {R : Option K} {designs : List (Bool × K)} {i j : Nat} {r : K}
    (h : reference R designs i = some r) (hij : i ≤ j) : reference R designs j = some r := by
  cases R with
  | some r' => exact h
  | none =>
    simp only [reference, Option.map_eq_some_iff] at h ⊢
    obtain ⟨a, h1, h2⟩ := h
    refine ⟨a, ?_, h2⟩
    obtain ⟨k, rfl⟩ := Nat.exists_eq_add_of_le hij
    rw [List.take_add, List.find?_append, h1]
    rfl

/-- What C30 says about one sequence of designs: `values` are the improvement values. -/
def ImprovementOK (initial : Option K) (designs : List (Bool × K)) (values : List K) : Prop :=
  values.length = designs.length ∧
  ∀ (i : Nat) (f : Bool) (v w : K), designs[i]? = some (f, v) → values[i]? = some w →
    (f = false → w = 0) ∧ 0 ≤ w ∧
    (0 < w ↔ f = true ∧ ∀ r, reference initial designs i = some r → v < r) ∧
    ∀ (j : Nat) (v' w' : K), designs[j]? = some (true, v') → values[j]? = some w' → f = true →
      reference initial designs i ≠ none → reference initial designs j ≠ none → v ≤ v' → w' ≤ w

/-- **C30** as stated: for every initial history and every sequence of designs. -/
def C30_full (K : Type) [Field K] [LinearOrder K] [IsStrictOrderedRing K] : Prop :=
  ∀ (h : History K) (n m : Nat) (F : Nat → Nat → K) (initial : Option K) (designs : List (Bool × K)),
    IsMat h.data n m F → n ≠ 0 → h.dimension ≠ 0 → h.dimension < m →
    (∀ i j, i < n → j < m → |F i j| ≤ dblMax) → (∀ d ∈ designs, |d.2| ≤ dblMax) →
    IsBestFeasible F n m h.dimension initial →
    ∃ best, h.calculateInitialImprovementValue = .ok best ∧
      ImprovementOK initial designs (improvementValues best designs)

/-- C30 when no feasible objective value is within 1e-5 of the lowest `double` or equal to the
largest.  Missing: those values, which the code uses as markers (`C30_false`). -/
theorem C30_partial {h : History K} {n m : Nat} {F : Nat → Nat → K} {initial : Option K}
    {designs : List (Bool × K)} (hA : IsMat h.data n m F) (hn : n ≠ 0) (hd : h.dimension ≠ 0)
    (hm : h.dimension < m)
    (hF : ∀ i, i < n → FeasibleRow F m i →
      -dblMax + 1 / 10 ^ 5 ≤ F i h.dimension ∧ F i h.dimension < dblMax)
    (hD : ∀ d ∈ designs, d.1 = true → -dblMax + 1 / 10 ^ 5 ≤ d.2)
    (hI : IsBestFeasible F n m h.dimension initial) :
    ∃ best, h.calculateInitialImprovementValue = .ok best ∧
      ImprovementOK initial designs (improvementValues best designs) := by
  obtain ⟨best, e, hbest⟩ := History.initialImprovement_ok hA hn hd hm
  refine ⟨best, e, ?_⟩
  have hstate : RefState best initial := by
    cases initial with
    | none =>
      rcases hbest with ⟨k, h1, h2, -⟩ | ⟨h1, -⟩
      · exact absurd h2 (hI k h1)
      · exact h1
    | some r =>
      obtain ⟨⟨i, h1, h2, h3⟩, h4⟩ := hI
      rcases hbest with ⟨k, g1, g2, g3, g4, g5⟩ | ⟨g1, g2⟩
      · have : best = r := le_antisymm (h3 ▸ g5 i h1 h2) (g3 ▸ h4 k g1 g2)
        refine ⟨this, ?_⟩
        rw [← h3]; exact (hF i h1 h2).1
      · exact absurd (hF i h1 h2).2 (not_lt.2 (g2 i h1 h2))
  obtain ⟨l1, l2⟩ := improvementValues_spec designs best initial hstate hD
  refine ⟨l1, ?_⟩
  have heps : (0 : K) < dblEps := by unfold dblEps; positivity
  intro i f v w hi hw
  rw [l2 i f v hi] at hw
  simp only [Option.some.injEq] at hw
  subst hw
  refine ⟨?_, ?_, ?_, ?_⟩
  · rintro rfl
    cases reference initial designs i <;> rfl
  · cases f <;> cases hr : reference initial designs i <;> simp only [impOf]
    · exact le_refl _
    · exact le_refl _
    · exact heps.le
    · split_ifs with h1
      · exact sub_nonneg.2 h1.le
      · exact le_refl _
  · cases f <;> cases hr : reference initial designs i <;> simp only [impOf]
    · simp
    · simp
    · simp [heps]
    · rename_i r
      constructor
      · intro h0
        refine ⟨trivial, ?_⟩
        intro r' hr'; cases hr'
        by_contra hc
        rw [if_neg hc] at h0
        exact lt_irrefl _ h0
      · rintro ⟨-, h0⟩
        rw [if_pos (h0 r rfl)]
        exact sub_pos.2 (h0 r rfl)
  · intro j v' w' hj hw' hf hri hrj hvv
    rw [l2 j true v' hj] at hw'
    simp only [Option.some.injEq] at hw'
    subst hw' hf
    obtain ⟨r, hr⟩ := Option.ne_none_iff_exists'.1 hri
    obtain ⟨r', hr'⟩ := Option.ne_none_iff_exists'.1 hrj
    have : r = r' := by
      rcases Nat.le_total i j with hij | hij
      · have := reference_mono hr hij
        rw [hr'] at this; cases this; rfl
      · have := reference_mono hr' hij
        rw [hr] at this; cases this; rfl
    subst this
    rw [hr, hr']
    simp only [impOf]
    split_ifs with h1 h2
    · linarith
    · exact absurd (lt_of_le_of_lt hvv h1) h2
    · linarith
    · exact le_refl _

/-- C30 is met by a history without feasible rows and four designs: the second is the first feasible
one, the third is better than it, the fourth worse. -/
example : IsMat (⟨2, 4, [0, 1, 3, 4, 0, 0, 0, 0]⟩ : Mat ℚ) 2 4
      (fun i j => [0, 1, 3, 4, 0, 0, 0, 0].getD (j * 2 + i) 0) ∧
    IsBestFeasible (fun i j => ([0, 1, 3, 4, 0, 0, 0, 0] : List ℚ).getD (j * 2 + i) 0) 2 4 1 none ∧
    (History.calculateInitialImprovementValue
      { (History.new : History ℚ) with dimension := 1, data := ⟨2, 4, [0, 1, 3, 4, 0, 0, 0, 0]⟩ }).toOption
      = some (-dblMax) ∧
    improvementValues (-dblMax : ℚ) [(false, 1), (true, 5), (true, 3), (true, 6)] =
      [0, dblEps, 2, 0] := by
  refine ⟨HistDemo.isMat 2 4 _ rfl, ?_, by decide +kernel, by decide +kernel⟩
  intro i hi
  unfold FeasibleRow
  interval_cases i <;> norm_num

/-- An initial feasible design with the lowest `double` as objective is taken for "no feasible
design": a later feasible design that is worse gets a positive improvement. -/
theorem C30_false : ¬ C30_full ℚ := by
  intro hfull
  let A : Mat ℚ := ⟨1, 4, [0, -dblMax, 0, 1]⟩
  obtain ⟨best, e, -, h⟩ := hfull { (History.new : History ℚ) with dimension := 1, data := A } 1 4
    (fun i j => A.buf.getD (j * 1 + i) 0) (some (-dblMax)) [(true, 0)] (HistDemo.isMat 1 4 _ rfl)
    (by decide) (by simp) (by simp)
    (by
      intro i j hi hj
      obtain rfl : i = 0 := by omega
      have := HistDemo.dblMax_big
      interval_cases j <;> norm_num [A] <;> first | linarith | exact le_of_eq (abs_of_nonneg (by linarith)))
    (by have := HistDemo.dblMax_big; norm_num; linarith)
    (by
      refine ⟨⟨0, by decide, by norm_num [FeasibleRow, A], by norm_num [A]⟩, ?_⟩
      intro i hi _
      obtain rfl : i = 0 := by omega
      norm_num [A])
  have hb : (History.calculateInitialImprovementValue
      { (History.new : History ℚ) with dimension := 1, data := A }).toOption = some (-dblMax) := by
    decide +kernel
  rw [e] at hb
  simp only [Except.toOption, Option.some.injEq] at hb
  subst hb
  have hw : (improvementValues (-dblMax : ℚ) [(true, 0)])[0]? = some dblEps := by decide +kernel
  obtain ⟨-, -, h3, -⟩ := h 0 true 0 dblEps rfl hw
  have h4 := (h3.1 (by norm_num [dblEps])).2 (-dblMax) rfl
  have := HistDemo.dblMax_big
  linarith

/-! ## The initial history -/

/-- **C31** as stated: every row of the initial history is flagged 1 exactly when its design lies in
the box and satisfies all constraints, and 0 otherwise. -/
def C31_full (K : Type) [Field K] [LinearOrder K] [IsStrictOrderedRing K] : Prop :=
  ∀ (p : Problem K) (T : Mat K) (N mT : Nat) (G : Nat → Nat → K), IsMat T N mT G → N ≠ 0 →
    p.dimension < mT → p.boxSet = true → ValidBox p.dimension p.lb p.ub →
    (∀ (k : Nat) c, p.constraints[k]? = some c → UsableConstraint p.dimension c ∧ c.id = (k : Int)) →
    ∃ (B : Mat K) (m : Nat) (F : Nat → Nat → K), p.initialData T = .ok B ∧ IsMat B N m F ∧
      ∀ i, i < N → (F i (m - 1) = 1 ∧ (InBox p.lb p.ub ((List.range p.dimension).map (G i)) ∧
          ∀ c ∈ p.constraints, SatisfiedAt p.dimension c (G i))) ∨
        (F i (m - 1) = 0 ∧ ¬ (InBox p.lb p.ub ((List.range p.dimension).map (G i)) ∧
          ∀ c ∈ p.constraints, SatisfiedAt p.dimension c (G i)))

/-- C31 with at least one constraint, or with all training designs in the box; constraints are
numbered in the order they were added.  Moreover the rows start with the training designs and their
objective values, and the improvement column is zero.  Missing: unconstrained problems with training
designs outside the box, where every row is flagged 1 (`C31_false`). -/
theorem C31_partial {p : Problem K} {T : Mat K} {N mT : Nat} {G : Nat → Nat → K}
    (hT : IsMat T N mT G) (hN : N ≠ 0) (hmT : p.dimension < mT) (hb : p.boxSet = true)
    (hbox : ValidBox p.dimension p.lb p.ub)
    (hc : ∀ (k : Nat) c, p.constraints[k]? = some c → UsableConstraint p.dimension c ∧ c.id = (k : Int))
    (hun : p.constraints ≠ [] ∨ ∀ i, i < N → InBox p.lb p.ub ((List.range p.dimension).map (G i))) :
    ∃ (B : Mat K) (m : Nat) (F : Nat → Nat → K), p.initialData T = .ok B ∧ IsMat B N m F ∧
      m = p.dimension + 1 + p.constraints.length + 2 ∧
      (∀ i j, i < N → j ≤ p.dimension → F i j = G i j) ∧ (∀ i, i < N → F i (m - 2) = 0) ∧
      ∀ i, i < N → (F i (m - 1) = 1 ∧ (InBox p.lb p.ub ((List.range p.dimension).map (G i)) ∧
          ∀ c ∈ p.constraints, SatisfiedAt p.dimension c (G i))) ∨
        (F i (m - 1) = 0 ∧ ¬ (InBox p.lb p.ub ((List.range p.dimension).map (G i)) ∧
          ∀ c ∈ p.constraints, SatisfiedAt p.dimension c (G i))) := by
  obtain ⟨hd, hl, hu, -⟩ := hbox
  obtain ⟨B, e, F, h1, h2, h3⟩ := Problem.initialData_ok hT hmT hb (by omega) hN hl hu hc hun
  exact ⟨B, _, F, e, h1, rfl, h2.1, h2.2.1, h3⟩

namespace HistDemo

/-- Box `[0,1]`, one user constraint `x < 3/4` with number 0. -/
def prob : Problem ℚ :=
  ⟨1, [0], [1], true, [⟨0, ['<'], 3/4, .user (fun x => x.getD 0 0)⟩]⟩

theorem probBox (cs : List (Constraint ℚ)) :
    ValidBox 1 (⟨1, [0], [1], true, cs⟩ : Problem ℚ).lb (⟨1, [0], [1], true, cs⟩ : Problem ℚ).ub := by
  refine ⟨by decide, rfl, rfl, ?_⟩
  intro i l u hl hu
  match i with
  | 0 => simp at hl hu; subst hl hu; norm_num
  | i + 1 => simp at hl

/-- C31: three designs, inside, violating the constraint, outside the box. -/
example : (∀ (k : Nat) c, prob.constraints[k]? = some c →
      UsableConstraint prob.dimension c ∧ c.id = (k : Int)) ∧ prob.constraints ≠ [] ∧
    ValidBox prob.dimension prob.lb prob.ub ∧
    (prob.initialData ⟨3, 2, [1/2, 7/8, -1, 5, 6, 7]⟩).toOption =
      some ⟨3, 5, [1/2, 7/8, -1, 5, 6, 7, 1/2, 7/8, -1, 0, 0, 0, 1, 0, 0]⟩ := by
  refine ⟨?_, by simp [prob], probBox _, by decide +kernel⟩
  intro k c hk
  match k with
  | 0 =>
    simp [prob] at hk
    subst hk
    exact ⟨⟨Or.inl rfl, by norm_num, by norm_num, trivial⟩, rfl⟩
  | k + 1 => simp [prob] at hk

/-- C31 with training data for the constraint: the second design has no matching row. -/
example : ((⟨1, [0], [1], true, [⟨0, ['<'], 3, .data ⟨2, 2, [1/2, 3/4, 2, 4]⟩⟩]⟩ :
      Problem ℚ).initialData ⟨3, 2, [1/2, 1/4, 3/4, 5, 6, 7]⟩).toOption =
      some ⟨3, 5, [1/2, 1/4, 3/4, 5, 6, 7, 2, 10 ^ 15, 4, 0, 0, 0, 1, 0, 0]⟩ := by
  decide +kernel

end HistDemo

/-- Without constraints a training design outside the box is flagged feasible. -/
theorem C31_false : ¬ C31_full ℚ := by
  intro h
  obtain ⟨B, m, F, e, hB, hflag⟩ := h ⟨1, [0], [1], true, []⟩ ⟨1, 2, [5, 7]⟩ 1 2 _
    (HistDemo.isMat 1 2 _ rfl) (by decide) (by decide) rfl (HistDemo.probBox []) (by simp)
  have e2 : ((⟨1, [0], [1], true, []⟩ : Problem ℚ).initialData ⟨1, 2, [5, 7]⟩).toOption =
      some ⟨1, 4, [5, 7, 0, 1]⟩ := by decide +kernel
  rw [e] at e2
  simp only [Except.toOption, Option.some.injEq] at e2
  subst e2
  have hm : m = 4 := hB.2.1.symm
  subst hm
  have h3 := hB.2.2.2 0 3 (by decide) (by decide)
  have h4 : (⟨1, 4, [5, 7, 0, 1]⟩ : Mat ℚ).at' 0 3 = .ok 1 := rfl
  rw [h4] at h3
  rcases hflag 0 (by decide) with ⟨-, ⟨-, -, hbox⟩, -⟩ | ⟨h0, -⟩
  · have := (hbox 0 0 1 5 rfl rfl rfl).2
    norm_num at this
  · rw [h0] at h3
    cases h3

/-- A constraint whose number is not its position (every new constraint function starts with -1)
makes the call fail. -/
theorem C31_wrong_number :
    ((⟨1, [0], [1], true, [⟨-1, ['<'], 3/4, .user (fun x => x.getD 0 0)⟩]⟩ : Problem ℚ).initialData
      ⟨1, 2, [1/2, 5]⟩).toOption = none := by
  decide +kernel

/-! ## Adding a design to the history -/

section file
variable [FloorRing K]

/-- **C32.** One update.  A design of the wrong size is rejected with nothing changed, and so is one
with fewer constraint values than the history has constraints; otherwise exactly one row is
appended, the earlier rows stay, and the new row has the documented layout. -/
theorem C32_update {h : History K} {n m : Nat} {F : Nat → Nat → K} (hA : IsMat h.data n m F)
    (hs : n = 0 ∨ m = h.dimension + 1 + h.constraintNames.length + 2)
    (hp : h.parameterNames = [] ∨ h.parameterNames.length = h.dimension) (d : Design K) :
    if d.params.length ≠ h.dimension then h.update d = (h, .error .invalidArgument)
    else if d.constraintTrueValues.length < h.constraintNames.length then
      h.update d = (h, .error .outOfRange)
    else ∃ h', h.update d = (h', .ok ()) ∧
      (historyRow d h.constraintNames.length).length =
        h.dimension + 1 + h.constraintNames.length + 2 ∧
      IsMat h'.data (n + 1) (h.dimension + 1 + h.constraintNames.length + 2)
        (fun i j => if i < n then F i j else (historyRow d h.constraintNames.length).getD j 0) ∧
      h'.dimension = h.dimension ∧ h'.constraintNames = h.constraintNames ∧
      h'.parameterNames = h.parameterNames ∧ h'.crowding = h.crowding ∧
      h'.numberOfDoESamples = h.numberOfDoESamples := by
  split_ifs with h1 h2
  · unfold History.update
    rw [if_pos h1]
  · unfold History.update
    rw [if_neg h1, History.newRow_error h d (not_not.1 h1) h2]
  · have hd : d.params.length = h.dimension := not_not.1 h1
    have hlen := History.historyRow_length h d hd (by omega)
    obtain ⟨B, e, hB⟩ := Mat.addRow_ok hA (v := historyRow d h.constraintNames.length)
      (position := -1) (p := n) (by
        rcases hs with hs | hs
        · exact Or.inl hs
        · right; rw [hlen, hs]; rfl) (le_refl n) (Or.inr ⟨rfl, rfl⟩)
    rw [hlen] at hB
    have hB' : IsMat B (n + 1) (h.dimension + 1 + h.constraintNames.length + 2)
        (fun i j => if i < n then F i j else (historyRow d h.constraintNames.length).getD j 0) := by
      refine hB.congr ?_
      intro i j hi _
      unfold insertRow
      by_cases hin : i < n
      · rw [if_pos hin, if_pos hin]
      · rw [if_neg hin, if_neg hin, if_pos (by omega)]; rfl
    obtain ⟨hdr, eh, hl, -⟩ := History.setHeader_ok { h with data := B } hp
    refine ⟨{ h with data := B, file := some (Mat.csvText 6 hdr (n + 1) h.numberOfEntries
      (insertRow F n (vecFun (historyRow d h.constraintNames.length)))) }, ?_,
      hlen, hB', rfl, rfl, rfl, rfl, rfl⟩
    unfold History.update
    rw [if_neg h1, History.newRow_eq h d hd (by omega)]
    dsimp only
    rw [e]
    dsimp only
    unfold History.save
    have hne : B.isEmpty = false := by
      unfold Mat.isEmpty; simp [hB.1, hB.2.1, History.numberOfEntries]
    dsimp only
    rw [hne, eh]
    dsimp only
    rw [Mat.saveAsCSV_ok hB 6 hdr (Or.inr hl)]
    simp

/-- C32 for a sequence of designs of the right size: after the run, row `n + k` is the row of design
number `k`, and the rows that were there before are unchanged. -/
theorem C32_run (ds : List (Design K)) : ∀ {h : History K} {n m : Nat} {F : Nat → Nat → K},
    IsMat h.data n m F → (n = 0 ∨ m = h.dimension + 1 + h.constraintNames.length + 2) →
    (h.parameterNames = [] ∨ h.parameterNames.length = h.dimension) →
    (∀ d ∈ ds, d.params.length = h.dimension ∧
      h.constraintNames.length ≤ d.constraintTrueValues.length) →
    ∃ h', h.updateAll ds = (h', .ok ()) ∧
      (ds ≠ [] → IsMat h'.data (n + ds.length) (h.dimension + 1 + h.constraintNames.length + 2)
        (fun i j => if i < n then F i j else
          ((ds[i - n]?).map (fun d => (historyRow d h.constraintNames.length).getD j 0)).getD 0)) ∧
      (ds = [] → h' = h) ∧
      h'.dimension = h.dimension ∧ h'.constraintNames = h.constraintNames ∧
      h'.parameterNames = h.parameterNames := by
  induction ds with
  | nil => intro h n m F hA hs hp hd; exact ⟨h, rfl, by simp, by simp, rfl, rfl, rfl⟩
  | cons d ds ih =>
    intro h n m F hA hs hp hd
    have h0 := hd d (by simp)
    have h1 := C32_update hA hs hp d
    rw [if_neg (by simp [h0.1]), if_neg (by omega)] at h1
    obtain ⟨h', e, -, hA', a1, a2, a3, -, -⟩ := h1
    obtain ⟨h'', e', b1, b2, b3, b4, b5⟩ := ih hA' (Or.inr (by rw [a1, a2])) (by rw [a3, a1]; exact hp)
      (fun d' hd' => by rw [a1, a2]; exact hd d' (by simp [hd']))
    refine ⟨h'', ?_, ?_, by simp, by rw [b3, a1], by rw [b4, a2], by rw [b5, a3]⟩
    · unfold History.updateAll
      rw [e]
      exact e'
    · intro _
      by_cases hds : ds = []
      · subst hds
        rw [b2 rfl]
        refine hA'.congr ?_
        intro i j hi _
        by_cases hin : i < n
        · rw [if_pos hin, if_pos hin]
        · rw [if_neg hin, if_neg hin]
          have : i - n = 0 := by omega
          rw [this]; rfl
      · have hb := b1 hds
        rw [a1, a2] at hb
        have hlen : n + 1 + ds.length = n + (d :: ds).length := by simp; omega
        rw [hlen] at hb
        refine hb.congr ?_
        intro i j hi _
        by_cases hin : i < n
        · rw [if_pos (by omega), if_pos hin, if_pos hin]
        · by_cases hin' : i = n
          · subst hin'
            rw [if_pos (by omega), if_neg hin, if_neg hin]
            simp
          · rw [if_neg (by omega), if_neg hin]
            have : i - n = (i - (n + 1)) + 1 := by omega
            rw [this, List.getElem?_cons_succ]

/-- C32, the file: after a successful update the history file can be read back, and each entry agrees
with the history to half a unit in the sixth decimal. -/
theorem C32_file {h h' : History K} {n m : Nat} {F : Nat → Nat → K} {d : Design K}
    (hA : IsMat h.data n m F) (hs : n = 0 ∨ m = h.dimension + 1 + h.constraintNames.length + 2)
    (hp : h.parameterNames = [] ∨ h.parameterNames.length = h.dimension)
    (hnl : ∀ s, s ∈ h.parameterNames ∨ s ∈ h.constraintNames → '\n' ∉ s)
    (hu : h.update d = (h', .ok ())) :
    ∃ B G, Mat.readFromCSV h'.file true = .ok B ∧
      IsMat B (n + 1) (h.dimension + 1 + h.constraintNames.length + 2) G ∧
      ∀ i j, i < n + 1 → j < h.dimension + 1 + h.constraintNames.length + 2 →
        ∃ a, h'.data.at' i j = .ok a ∧ |G i j - a| ≤ 1 / 2 / 10 ^ 6 := by
  have h1 := C32_update hA hs hp d
  split_ifs at h1 with c1 c2
  · rw [hu] at h1; cases h1
  · rw [hu] at h1; cases h1
  · obtain ⟨h'', e, -, hA', a1, a2, a3, -, -⟩ := h1
    rw [hu] at e
    cases e
    obtain ⟨hdr, eh, hl, hne⟩ := History.setHeader_ok h' (by rw [a3, a1]; exact hp)
    have hhn : ∀ s ∈ hdr, '\n' ∉ s := by
      unfold History.setHeader at eh
      rw [if_neg (by rw [a3, a1]; rintro ⟨q1, q2⟩; rcases hp with hp | hp <;> contradiction)] at eh
      cases eh
      intro s hs'
      simp only [List.mem_append, List.mem_singleton] at hs'
      rcases hs' with (((hs' | hs') | hs') | hs') | hs'
      · split_ifs at hs' with q
        · exact hnl s (Or.inl (a3 ▸ hs'))
        · obtain ⟨i, -, rfl⟩ := List.mem_map.1 hs'
          intro hc
          rcases List.mem_cons.1 hc with hc | hc
          · exact absurd hc (by decide)
          · exact absurd ((natStr_spec _).1 _ hc) (by decide)
      · subst hs'; decide
      · exact hnl s (Or.inr (a2 ▸ hs'))
      · subst hs'; decide
      · subst hs'; decide
    obtain ⟨text, B, G, r1, r2, r3, r4, -⟩ := C50_roundtrip hA' (by omega) 6 hdr
      (Or.inr (by rw [hl]; unfold History.numberOfEntries; rw [a1, a2])) hhn
    have hfile : h'.file = some text := by
      have hdata : h'.setHeader = .ok hdr := eh
      unfold History.update at hu
      rw [if_neg (by simpa using c1), History.newRow_eq h d (not_not.1 c1) (by omega)] at hu
      dsimp only at hu
      cases hadd : Mat.addRow h.data (historyRow d h.constraintNames.length) (-1) with
      | error e => rw [hadd] at hu; cases hu
      | ok C =>
        rw [hadd] at hu
        dsimp only at hu
        unfold History.save at hu
        split_ifs at hu with q
        · cases hu
        · cases hset : History.setHeader { h with data := C } with
          | error e => rw [hset] at hu; cases hu
          | ok hdr' =>
            rw [hset] at hu
            dsimp only at hu
            obtain ⟨rfl, -⟩ := Prod.mk.inj hu
            have : hdr' = hdr := by
              have : History.setHeader { h with data := C } = .ok hdr := eh
              rw [hset] at this; cases this; rfl
            subst this
            dsimp only at r1 ⊢
            rw [r1]
    refine ⟨B, G, ?_, r3, ?_⟩
    · rw [hfile]
      rw [show decide (hdr ≠ []) = true by simpa using hne] at r2
      exact r2
    · intro i j hi hj
      exact ⟨_, hA'.2.2.2 i j hi hj, r4 i j hi hj⟩

/-- C32, the header: after a successful update the first line of the history file lists the
documented column names, separated by commas, one for each column. -/
theorem C32_header {h h' : History K} {n m : Nat} {F : Nat → Nat → K} {d : Design K}
    (hA : IsMat h.data n m F) (hs : n = 0 ∨ m = h.dimension + 1 + h.constraintNames.length + 2)
    (hp : h.parameterNames = [] ∨ h.parameterNames.length = h.dimension)
    (hu : h.update d = (h', .ok ())) :
    (historyColumns h.dimension h.parameterNames h.constraintNames).length = h'.data.ncols ∧
    ∃ rest, h'.file = some ([','].intercalate
      (historyColumns h.dimension h.parameterNames h.constraintNames) ++ '\n' :: rest) := by
  have h1 := C32_update hA hs hp d
  split_ifs at h1 with c1 c2
  · rw [hu] at h1; cases h1
  · rw [hu] at h1; cases h1
  obtain ⟨h'', e, -, hA', a1, a2, a3, -, -⟩ := h1
  rw [hu] at e
  cases e
  have hlen : (historyColumns h.dimension h.parameterNames h.constraintNames).length =
      h.dimension + 1 + h.constraintNames.length + 2 := by
    unfold historyColumns
    rcases hp with hp | hp
    · simp [hp]; omega
    · by_cases h0 : h.parameterNames = []
      · simp [h0]; omega
      · simp [h0, hp]; omega
  have hset : ∀ C : Mat K, History.setHeader { h with data := C } =
      .ok (historyColumns h.dimension h.parameterNames h.constraintNames) := by
    intro C
    unfold History.setHeader historyColumns
    rw [if_neg (by rintro ⟨q1, q2⟩; rcases hp with hp | hp <;> contradiction)]
    dsimp only
    congr 1
    by_cases h0 : h.parameterNames = []
    · simp [h0, natStr_eq]
    · simp [h0]
  refine ⟨hlen.trans hA'.2.1.symm, ?_⟩
  unfold History.update at hu
  rw [if_neg (by simpa using c1), History.newRow_eq h d (not_not.1 c1) (by omega)] at hu
  dsimp only at hu
  cases hadd : Mat.addRow h.data (historyRow d h.constraintNames.length) (-1) with
  | error e => rw [hadd] at hu; cases hu
  | ok C =>
    rw [hadd] at hu
    dsimp only at hu
    unfold History.save at hu
    split_ifs at hu with q
    · cases hu
    · rw [hset] at hu
      dsimp only at hu
      obtain ⟨rfl, hr⟩ := Prod.mk.inj hu
      dsimp only at hA' hr ⊢
      rw [Mat.saveAsCSV_ok hA' 6 _ (Or.inr hlen)]
      refine ⟨?_, ?_⟩
      swap
      · unfold Mat.csvText
        rw [if_neg (by intro h; rw [h] at hlen; simp at hlen)]
        simp only [List.map_cons, List.cons_append, List.nil_append,
          List.flatten_cons, List.append_assoc]
        rfl

end file

namespace HistDemo

/-- A two-dimensional history with one constraint and no rows. -/
def h0 : History ℚ := { (History.new : History ℚ) with dimension := 2, constraintNames := [['c']] }

/-- A design with one constraint value. -/
def d0 : Design ℚ := { (Design.ofVec [0, 0] : Design ℚ) with
  params := [1, 2], trueValue := 3, constraintTrueValues := [4], improvement := 5, feasible := true }

set_option maxRecDepth 100000 in
/-- C32: the header of a two-dimensional history with one constraint. -/
example : (h0.update d0).1.file =
    some "x1,x2,Objective,c,Improvement,Feasibility\n1.000000,2.000000,3.000000,4.000000,5.000000,1.000000\n".toList := by
  decide +kernel

set_option maxRecDepth 100000 in
/-- C32: two updates, one of them rejected. -/
example : IsMat h0.data 0 0 (fun _ _ => 0) ∧ (h0.update d0).2 = .ok () ∧
    (h0.update d0).1.data = ⟨1, 6, [1, 2, 3, 4, 5, 1]⟩ ∧
    ((h0.update d0).1.update { d0 with params := [1] }) =
      ((h0.update d0).1, .error .invalidArgument) ∧
    ((h0.update d0).1.update { d0 with trueValue := 7, feasible := false }).1.data =
      ⟨2, 6, [1, 1, 2, 2, 3, 7, 4, 4, 5, 5, 1, 0]⟩ := by
  refine ⟨?_, by decide +kernel, by decide +kernel, by decide +kernel, by decide +kernel⟩
  refine Mat.isMat_iff.2 ⟨rfl, rfl, rfl, ?_⟩
  intro i j hi; omega

end HistDemo

/-! ## Crowding -/

/-- **C33** as stated. -/
def C33_full (K : Type) [Field K] [LinearOrder K] [IsStrictOrderedRing K] : Prop :=
  ∀ (h : History K) (n m : Nat) (F : Nat → Nat → K), IsMat h.data n m F → n ≠ 0 →
    h.dimension ≠ 0 → h.dimension < m → h.numberOfDoESamples ≠ 0 →
    ∃ h', h.calculateCrowdingFactor = .ok h' ∧
      h'.crowding = meanPairwise (min n h.numberOfDoESamples) h.dimension
        (fun i => F (n - min n h.numberOfDoESamples + i)) ∧ 0 ≤ h'.crowding

/-- C33 when there are at least as many designs as initial samples: what is reported.  Nothing else
changes, and it is not negative. -/
theorem C33_reported {h : History K} {n m : Nat} {F : Nat → Nat → K} (hA : IsMat h.data n m F)
    (hd : h.dimension ≠ 0) (hm : h.dimension < m) (hs : h.numberOfDoESamples ≠ 0)
    (hn : h.numberOfDoESamples ≤ n) :
    ∃ c, h.calculateCrowdingFactor = .ok { h with crowding := c } ∧
      c = reportedCrowding h.numberOfDoESamples h.dimension
        (fun i => F (n - h.numberOfDoESamples + i)) ∧ 0 ≤ c := by
  have hr := hA.1
  refine ⟨_, ?_, rfl, reportedCrowding_nonneg _ _ _⟩
  unfold History.calculateCrowdingFactor
  rw [if_neg (by omega), hr, if_pos hn]
  obtain ⟨S, e, hS⟩ := Mat.submat_ok hA (r0 := n - h.numberOfDoESamples) (r1 := n - 1) (c0 := 0)
    (c1 := h.dimension - 1) (by omega) (by omega) (by omega) (by omega)
  have e1 : n - 1 - (n - h.numberOfDoESamples) + 1 = h.numberOfDoESamples := by omega
  have e2 : h.dimension - 1 - 0 + 1 = h.dimension := by omega
  rw [e1, e2] at hS
  obtain ⟨v1, v2⟩ := crowding_value hS
  refine bind_eq e (bind_eq v1 ?_)
  dsimp only
  rw [v2]
  congr 2
  apply reportedCrowding_congr
  intro i j _ _
  simp

/-- C33 when there are at least as many designs as initial samples, and at most 65536 of these: the value is
the mean distance of the most recent ones, nothing else changes, and it is not negative.  Missing: histories
with fewer rows than the number of initial samples (`C33_false`, `C33_few_rows`), and more than 65536
initial samples (`C33_overflow`). -/
theorem C33_partial {h : History K} {n m : Nat} {F : Nat → Nat → K} (hA : IsMat h.data n m F)
    (hd : h.dimension ≠ 0) (hm : h.dimension < m) (hs : h.numberOfDoESamples ≠ 0)
    (hn : h.numberOfDoESamples ≤ n) (h32 : h.numberOfDoESamples ≤ 65536) :
    ∃ c, h.calculateCrowdingFactor = .ok { h with crowding := c } ∧
      c = meanPairwise h.numberOfDoESamples h.dimension
        (fun i => F (n - h.numberOfDoESamples + i)) ∧ 0 ≤ c := by
  obtain ⟨c, e, hc, h0⟩ := C33_reported hA hd hm hs hn
  exact ⟨c, e, hc.trans (reportedCrowding_eq h32 _ _), h0⟩

/-- With 65537 initial samples the number of pairs overflows and the reported value is 65537 times the mean
distance, whatever the designs are. -/
theorem C33_overflow {h : History K} {n m : Nat} {F : Nat → Nat → K} (hA : IsMat h.data n m F)
    (hd : h.dimension ≠ 0) (hm : h.dimension < m) (hs : h.numberOfDoESamples = 65537)
    (hn : 65537 ≤ n) :
    ∃ c, h.calculateCrowdingFactor = .ok { h with crowding := c } ∧
      c = 65537 * meanPairwise 65537 h.dimension (fun i => F (n - 65537 + i)) := by
  obtain ⟨c, e, hc, h0⟩ := C33_reported hA hd hm (by omega) (by omega)
  refine ⟨c, e, ?_⟩
  rw [hc, hs, reportedCrowding_scale, mul_comm]
  congr 1
  have h1 : pairCount32 65537 = 65536 := by decide
  rw [h1]
  norm_num

/-- As long as an `unsigned int` can count the initial samples, the reported value is positive exactly if
the mean distance is. -/
theorem C33_reported_pos {n : Nat} (h : n < 2 ^ 32) (dim : Nat) (F : Nat → Nat → K) :
    0 < reportedCrowding n dim F ↔ 0 < meanPairwise n dim F := by
  rw [reportedCrowding_scale]
  rcases Nat.lt_or_ge n 2 with h2 | h2
  · obtain rfl | rfl : n = 0 ∨ n = 1 := by omega
    · simp [meanPairwise]
    · simp [meanPairwise]
  · have h3 : (0 : K) < pairCount32 n := by exact_mod_cast pairCount32_pos h2 h
    have h4 : (0 : K) < (n * (n - 1) : Nat) := by
      exact_mod_cast Nat.mul_pos (by omega) (by omega)
    exact mul_pos_iff_of_pos_right (div_pos h4 h3)

/-- C33, order: permuting the recent rows does not change the value. -/
theorem C33_permutation {h h2 : History K} {n m : Nat} {F G : Nat → Nat → K} (hA : IsMat h.data n m F)
    (hB : IsMat h2.data n m G) (hdim : h2.dimension = h.dimension)
    (hdoe : h2.numberOfDoESamples = h.numberOfDoESamples)
    (hd : h.dimension ≠ 0) (hm : h.dimension < m) (hs : h.numberOfDoESamples ≠ 0)
    (hn : h.numberOfDoESamples ≤ n) (σ : Nat → Nat)
    (hσ : Set.BijOn σ (Set.Iio h.numberOfDoESamples) (Set.Iio h.numberOfDoESamples))
    (hG : ∀ i j, i < h.numberOfDoESamples → j < h.dimension →
      G (n - h.numberOfDoESamples + i) j = F (n - h.numberOfDoESamples + σ i) j) :
    ∃ a b, h.calculateCrowdingFactor = .ok a ∧ h2.calculateCrowdingFactor = .ok b ∧
      b.crowding = a.crowding := by
  obtain ⟨a, e1, h1, -⟩ := C33_reported hA hd hm hs hn
  obtain ⟨b, e2, h2', -⟩ := C33_reported hB (by omega) (by omega) (by omega) (by omega)
  refine ⟨_, _, e1, e2, ?_⟩
  dsimp only
  rw [h1, h2', hdim, hdoe,
    ← reportedCrowding_perm _ _ (fun i => F (n - h.numberOfDoESamples + i)) σ hσ]
  apply reportedCrowding_congr
  intro i j hi hj
  exact hG i j hi hj

/-- C33: three rows, two initial samples: the distance of the last two designs. -/
example : IsMat HistDemo.A 3 4 (fun i j => HistDemo.A.buf.getD (j * 3 + i) 0) ∧
    (History.calculateCrowdingFactor { (History.new : History ℚ) with
      dimension := 1, data := HistDemo.A, numberOfDoESamples := 2 }).toOption.map
      (fun h => h.crowding) = some (3 / 2) :=
  ⟨HistDemo.isMat 3 4 _ rfl, by decide +kernel⟩

/-- A history of `n` different designs in one dimension, all of them initial. -/
def HistDemo.many (n : Nat) : History ℚ := { (History.new : History ℚ) with
  dimension := 1, data := ⟨n, 2, (List.range (n * 2)).map (fun i : Nat => (i : ℚ))⟩, numberOfDoESamples := n }

theorem HistDemo.many_isMat (n : Nat) : IsMat (HistDemo.many n).data n 2
    (fun i j => ((List.range (n * 2)).map (fun i : Nat => (i : ℚ))).getD (j * n + i) 0) :=
  HistDemo.isMat n 2 _ (by rw [List.length_map, List.length_range])

/-- C33: 65537 designs in one dimension, all different. -/
example : ∃ c, (HistDemo.many 65537).calculateCrowdingFactor = .ok { HistDemo.many 65537 with crowding := c } ∧
    ∃ F, c = 65537 * meanPairwise 65537 (HistDemo.many 65537).dimension F := by
  obtain ⟨c, e, h⟩ := C33_overflow (HistDemo.many_isMat 65537) Nat.one_ne_zero Nat.one_lt_two rfl (le_refl _)
  exact ⟨c, e, _, h⟩

/-- With fewer rows than initial samples the call throws or measures only one row: here two rows,
dimension one, three initial samples, and two rows, dimension two. -/
theorem C33_few_rows :
    (History.calculateCrowdingFactor { (History.new : History ℚ) with
      dimension := 1, data := ⟨2, 4, [0, 1, 0, 0, 0, 0, 1, 1]⟩, numberOfDoESamples := 3 }).toOption
      = none ∧
    (History.calculateCrowdingFactor { (History.new : History ℚ) with
      dimension := 2, data := ⟨2, 5, [0, 1, 0, 1, 0, 0, 0, 0, 1, 1]⟩,
      numberOfDoESamples := 3 }).toOption.map (fun h => h.crowding) = some 0 := by
  decide +kernel

theorem C33_false : ¬ C33_full ℚ := by
  intro h
  obtain ⟨h', e, -⟩ := h { (History.new : History ℚ) with
      dimension := 1, data := ⟨2, 4, [0, 1, 0, 0, 0, 0, 1, 1]⟩, numberOfDoESamples := 3 } 2 4 _
    (HistDemo.isMat 2 4 _ rfl) (by decide) (by simp) (by simp) (by simp)
  have := C33_few_rows.1
  rw [e] at this
  cases this

end Rodeo
