import Verif.Lemmas.Units

/-! # C109: the choice of the next design and the units of the values -/

set_option linter.unusedSectionVars false

namespace Rodeo
open Spec Text

/-- The full property: the design that is proposed for the next simulation does not depend on the units in
which the objective function and the constraints are given. -/
def C109_full : Prop :=
  ∀ (s : SearchSetup ℝ) (o o' : AcqObjective ℝ) (a b : ℝ) (cs cs' : List (AcqConstraint ℝ)) (E E' : Acq ℝ)
    (fuel : Nat) (incumbent : List ℝ) (tr : ℝ) (oracle : SearchOracle ℝ),
    Answers o.surrogate s.problem.dimension → 0 < o.sigmaFactor → Numbered cs →
    (∀ c ∈ cs, GoodConstraint c s.problem.dimension) → s.problem.lb.length = s.problem.dimension →
    s.problem.ub.length = s.problem.dimension → SameObjective s.problem.dimension o o' a b →
    List.Forall₂ (fun c c' => ∃ a b, SameConstraint s.problem.dimension c c' a b) cs cs' →
    IsAcquisition s.problem.dimension E o s.problem.lb s.problem.ub cs →
    IsAcquisition s.problem.dimension E' o' s.problem.lb s.problem.ub cs' →
    findDesignToSimulate E s fuel incumbent tr oracle = findDesignToSimulate E' s fuel incumbent tr oracle

/-- Constraints in other units, at a point where the deviations can be told from zero. -/
abbrev SameConstraints (dim : Nat) (lb ub dv : List ℝ) : List (AcqConstraint ℝ) → List (AcqConstraint ℝ) → Prop :=
  List.Forall₂ (fun c c' => ∃ a b, SameConstraint dim c c' a b ∧ ClearConstraint c a lb ub dv)

theorem sameConstraints_ids {dim : Nat} {lb ub dv : List ℝ} {cs cs' : List (AcqConstraint ℝ)}
    (h : SameConstraints dim lb ub dv cs cs') : cs'.map (·.id) = cs.map (·.id) := by
  induction h with
  | nil => rfl
  | cons hab _ ih =>
    obtain ⟨x, y, k, -⟩ := hab
    rw [List.map_cons, List.map_cons, ih, k.number]

theorem sameConstraints_good {dim : Nat} {lb ub dv : List ℝ} {cs cs' : List (AcqConstraint ℝ)}
    (h : SameConstraints dim lb ub dv cs cs') : (∀ c ∈ cs, GoodConstraint c dim) → ∀ c ∈ cs', GoodConstraint c dim := by
  induction h with
  | nil => exact fun _ c hc => by cases hc
  | @cons c c' l l' hab _ ih =>
    intro hg x hx
    rcases List.mem_cons.1 hx with rfl | hx
    · obtain ⟨p, q, k, -⟩ := hab
      have gc := hg c (by simp)
      refine ⟨?_, ?_⟩
      · rcases k.type with ⟨-, t⟩ | ⟨-, ⟨-, t⟩ | ⟨-, t⟩⟩
        · rw [t]; exact gc.type
        · exact Or.inr t
        · exact Or.inl t
      · intro hx y hy
        cases hq : c.userDefined with
        | some g =>
          obtain ⟨g', e, -⟩ := k.user g hq
          rw [e] at hx
          cases hx
        | none =>
          obtain ⟨m, w, e, hw⟩ := gc.answers hq y hy
          exact ⟨_, _, (k.model hq).2 y m w hy e, mul_nonneg (sq_nonneg p) hw⟩
    · exact ih (fun c hc => hg c (List.mem_cons_of_mem _ hc)) x hx

theorem exists_estimates {dim : Nat} {lb ub dv : List ℝ} (hl : lb.length = dim) (hu : ub.length = dim)
    (hdv : dv.length = dim) (l : List (AcqConstraint ℝ)) (hg : ∀ c ∈ l, GoodConstraint c dim) :
    ∃ m s : AcqConstraint ℝ → ℝ, ∀ c ∈ l, c.estimate realFns lb ub dv = .ok (m c, s c) ∧ 0 ≤ s c := by
  have h := fun c : {c // c ∈ l} => (hg c.1 c.2).estimate hl hu hdv
  choose m s h using h
  classical
  refine ⟨fun c => if hc : c ∈ l then m ⟨c, hc⟩ else 0, fun c => if hc : c ∈ l then s ⟨c, hc⟩ else 0,
    fun c hc => ?_⟩
  dsimp only
  rw [dif_pos hc, dif_pos hc]
  exact h ⟨c, hc⟩

theorem sameConstraint_probability {dim : Nat} {lb ub dv : List ℝ} (hdv : dv.length = dim) {c c' : AcqConstraint ℝ}
    {a b : ℝ} (k : SameConstraint dim c c' a b) (hk : ClearConstraint c a lb ub dv) (hc : GoodConstraint c dim)
    {m s m' s' : ℝ} (hs : 0 ≤ s) (h : c.estimate realFns lb ub dv = .ok (m, s))
    (h' : c'.estimate realFns lb ub dv = .ok (m', s')) : codeProbability c' m' s' = codeProbability c m s := by
  have e := estimate_units k hc hdv h
  rw [h'] at e
  have e2 := Except.ok.inj e
  have e3 : m' = a * m + b := congrArg Prod.fst e2
  have e4 : s' = if c.userDefined = none then |a| * s else s := congrArg Prod.snd e2
  rw [e3, e4]
  exact probability_units k hk hs h

theorem sameConstraints_probabilities {dim : Nat} {lb ub dv : List ℝ} (hdv : dv.length = dim)
    {m s m' s' : AcqConstraint ℝ → ℝ} {cs cs' : List (AcqConstraint ℝ)}
    (h : SameConstraints dim lb ub dv cs cs') : (∀ c ∈ cs, GoodConstraint c dim) →
    (∀ c ∈ cs, c.estimate realFns lb ub dv = .ok (m c, s c) ∧ 0 ≤ s c) →
    (∀ c ∈ cs', c.estimate realFns lb ub dv = .ok (m' c, s' c) ∧ 0 ≤ s' c) →
    cs'.map (fun c => codeProbability c (m' c) (s' c)) = cs.map (fun c => codeProbability c (m c) (s c)) := by
  induction h with
  | nil => exact fun _ _ _ => List.map_nil.trans List.map_nil.symm
  | @cons c c' l l' hab _ ih =>
    intro hc hms hms'
    obtain ⟨p, q, k, hk⟩ := hab
    have ht := ih (fun c h => hc c (List.mem_cons_of_mem _ h))
      (fun c h => hms c (List.mem_cons_of_mem _ h)) (fun c h => hms' c (List.mem_cons_of_mem _ h))
    obtain ⟨k1, k2⟩ := hms c (by simp)
    obtain ⟨k3, -⟩ := hms' c' (by simp)
    rw [List.map_cons, List.map_cons]
    exact List.cons_eq_cons.2 ⟨sameConstraint_probability hdv k hk (hc c (by simp)) k2 k1 k3, ht⟩

/-- **C109**, the acquisition value: at a point where the deviations are zero or large enough to be told from
zero in both units, the acquisition value in the new units is the old one in the new unit of the objective
function, whatever the units of the constraints are. -/
theorem C109_partial {dim : Nat} {o o' : AcqObjective ℝ} {a b : ℝ} (hS : Answers o.surrogate dim)
    (ho : 0 < o.sigmaFactor) (h : SameObjective dim o o' a b) {cs cs' : List (AcqConstraint ℝ)}
    (hn : Numbered cs) (hc : ∀ c ∈ cs, GoodConstraint c dim) {lb ub dv : List ℝ} (hl : lb.length = dim)
    (hu : ub.length = dim) (hdv : dv.length = dim)
    (hcs : List.Forall₂ (fun c c' => ∃ a b, SameConstraint dim c c' a b ∧ ClearConstraint c a lb ub dv) cs cs')
    (hclear : ClearObjective o a dv) :
    ∃ d d', acquisition realFns realErf o lb ub cs dv = .ok d ∧
      acquisition realFns realErf o' lb ub cs' dv = .ok d' ∧ 0 ≤ d.value ∧ d'.value = a * d.value := by
  obtain ⟨f, v, e1, hv⟩ := hS dv hdv
  have e1' := h.model dv f v hdv e1
  have hn' : Numbered cs' := by
    unfold Numbered
    rw [sameConstraints_ids hcs, ← hcs.length_eq]
    exact hn
  have hc' := sameConstraints_good hcs hc
  obtain ⟨m, s, hms⟩ := exists_estimates hl hu hdv cs hc
  obtain ⟨m', s', hms'⟩ := exists_estimates hl hu hdv cs' hc'
  obtain ⟨d, ed, vd⟩ := acquisition_value ho hn hc (lb := lb) (ub := ub) e1 hv hms
  obtain ⟨d', ed', vd'⟩ := acquisition_value (o := o') (by rw [h.factor]; exact ho) hn' hc' (lb := lb)
    (ub := ub) e1' (mul_nonneg (sq_nonneg a) hv) hms'
  refine ⟨d, d', ed, ed', ?_, ?_⟩
  · obtain ⟨-, d2, -, -, e, -, -, -, h0, -⟩ := C61_product hS ho hn hc hl hu hdv
    rw [Except.ok.inj (ed.symm.trans e)]
    exact h0
  · have hs : Real.sqrt (a ^ 2 * v) = a * Real.sqrt v := by
      rw [Real.sqrt_mul (sq_nonneg a), Real.sqrt_sq h.unit.le]
    have he := codeEI_units h.unit b o.sampleMinimum f (s := o.sigmaFactor * Real.sqrt v) (by
      rcases hclear f v e1 with h | h
      · exact Or.inl (by rw [h, Real.sqrt_zero, mul_zero])
      · exact Or.inr h)
    rw [vd, vd', sameConstraints_probabilities hdv hcs hc hms hms', h.factor, h.minimum, hs,
      mul_left_comm o.sigmaFactor, he, mul_assoc]

/-- The order of two designs is the same in both units. -/
theorem C109_order {dim : Nat} {o o' : AcqObjective ℝ} {a b : ℝ} (hS : Answers o.surrogate dim)
    (ho : 0 < o.sigmaFactor) (h : SameObjective dim o o' a b) {cs cs' : List (AcqConstraint ℝ)}
    (hn : Numbered cs) (hc : ∀ c ∈ cs, GoodConstraint c dim) {lb ub x y : List ℝ} (hl : lb.length = dim)
    (hu : ub.length = dim) (hx : x.length = dim) (hy : y.length = dim)
    (hcs : List.Forall₂ (fun c c' => ∃ a b, SameConstraint dim c c' a b ∧ ClearConstraint c a lb ub x ∧
      ClearConstraint c a lb ub y) cs cs') (hox : ClearObjective o a x) (hoy : ClearObjective o a y)
    {dx dy dx' dy' : AcqDesign ℝ} (ex : acquisition realFns realErf o lb ub cs x = .ok dx)
    (ey : acquisition realFns realErf o lb ub cs y = .ok dy)
    (ex' : acquisition realFns realErf o' lb ub cs' x = .ok dx')
    (ey' : acquisition realFns realErf o' lb ub cs' y = .ok dy') :
    dx'.value < dy'.value ↔ dx.value < dy.value := by
  obtain ⟨d1, d1', e1, e1', -, v1⟩ := C109_partial hS ho h hn hc hl hu hx
    (hcs.imp fun _ _ ⟨p, q, k1, k2, _⟩ => ⟨p, q, k1, k2⟩) hox
  obtain ⟨d2, d2', e2, e2', -, v2⟩ := C109_partial hS ho h hn hc hl hu hy
    (hcs.imp fun _ _ ⟨p, q, k1, _, k2⟩ => ⟨p, q, k1, k2⟩) hoy
  rw [ex] at e1; cases e1
  rw [ey] at e2; cases e2
  rw [ex'] at e1'; cases e1'
  rw [ey'] at e2'; cases e2'
  rw [v1, v2]
  exact mul_lt_mul_iff_right₀ h.unit

/-- **C109**, the search: with the same random numbers and the same interleaving of the threads, the search of
the trust region and of the surroundings of the best design finds the same design in both units, or fails in
the same way. -/
theorem C109_search {s : SearchSetup ℝ} {o o' : AcqObjective ℝ} {a b : ℝ}
    (hS : Answers o.surrogate s.problem.dimension) (ho : 0 < o.sigmaFactor)
    (h : SameObjective s.problem.dimension o o' a b) {cs cs' : List (AcqConstraint ℝ)}
    (hn : Numbered cs) (hc : ∀ c ∈ cs, GoodConstraint c s.problem.dimension)
    (hl : s.problem.lb.length = s.problem.dimension) (hu : s.problem.ub.length = s.problem.dimension)
    (hcs : List.Forall₂ (fun c c' => ∃ a b, SameConstraint s.problem.dimension c c' a b ∧
      ∀ dv : List ℝ, dv.length = s.problem.dimension → ClearConstraint c a s.problem.lb s.problem.ub dv) cs cs')
    (hclear : ∀ dv : List ℝ, dv.length = s.problem.dimension → ClearObjective o a dv) {E E' : Acq ℝ}
    (hE : IsAcquisition s.problem.dimension E o s.problem.lb s.problem.ub cs)
    (hE' : IsAcquisition s.problem.dimension E' o' s.problem.lb s.problem.ub cs')
    (incumbent : List ℝ) (tr : ℝ) (oracle : SearchOracle ℝ) :
    (mostPromising E s incumbent tr oracle).map (fun r => (r.1.dv, r.2)) =
      (mostPromising E' s incumbent tr oracle).map (fun r => (r.1.dv, r.2)) := by
  have key : ∀ dv : List ℝ, dv.length = s.problem.dimension → 0 ≤ E.value dv ∧ E'.value dv = a * E.value dv := by
    intro dv hdv
    obtain ⟨d, d', e, e', h0, hv⟩ := C109_partial hS ho h hn hc hl hu hdv
      (hcs.imp fun _ _ ⟨p, q, k1, k2⟩ => ⟨p, q, k1, k2 dv hdv⟩) (hclear dv hdv)
    obtain ⟨-, x, e1, v1⟩ := hE dv hdv
    obtain ⟨-, x', e1', v1'⟩ := hE' dv hdv
    rw [e] at e1; cases e1
    rw [e'] at e1'; cases e1'
    rw [← v1, ← v1']
    exact ⟨h0, hv⟩
  rcases mostPromising_units h.unit (fun dv hdv => (key dv hdv).2) (fun dv hdv => (key dv hdv).1) incumbent tr
    oracle with ⟨e, h1, h2⟩ | ⟨d, d', lb, ub, h1, h2, h3⟩
  · rw [h1, h2]
  · rw [h1, h2]
    have : d'.dv = d.dv := by rcases h3 with ⟨-, rfl⟩ | ⟨-, rfl⟩ <;> rfl
    show Except.ok (d.dv, lb, ub) = Except.ok (d'.dv, lb, ub)
    rw [this]

/-- In a unit in which the deviation at a point is at most `1e-13`, the acquisition value there is 0, however
promising the point is. -/
theorem C109_small_units {dim : Nat} {o o' : AcqObjective ℝ} {a b : ℝ} (hS : Answers o.surrogate dim)
    (ho : 0 < o.sigmaFactor) (h : SameObjective dim o o' a b) {cs : List (AcqConstraint ℝ)}
    (hn : Numbered cs) (hc : ∀ c ∈ cs, GoodConstraint c dim) {lb ub dv : List ℝ} (hl : lb.length = dim)
    (hu : ub.length = dim) (hdv : dv.length = dim)
    (hsmall : ∀ f v, o.surrogate dv = .ok (f, v) → a * (o.sigmaFactor * Real.sqrt v) ≤ cEpsilon) :
    ∃ d, acquisition realFns realErf o' lb ub cs dv = .ok d ∧ d.value = 0 := by
  obtain ⟨f, v, e1, hv⟩ := hS dv hdv
  obtain ⟨m, s, hms⟩ := exists_estimates hl hu hdv cs hc
  obtain ⟨d, ed, vd⟩ := acquisition_value (o := o') (by rw [h.factor]; exact ho) hn hc (lb := lb)
    (ub := ub) (h.model dv f v hdv e1) (mul_nonneg (sq_nonneg a) hv) hms
  refine ⟨d, ed, ?_⟩
  have hs : Real.sqrt (a ^ 2 * v) = a * Real.sqrt v := by
    rw [Real.sqrt_mul (sq_nonneg a), Real.sqrt_sq h.unit.le]
  rw [vd, h.factor, hs, mul_left_comm o.sigmaFactor]
  unfold codeEI
  rw [if_neg (not_lt.2 (hsmall f v e1)), zero_mul]

/-! ### The hypotheses are met -/

/-- `exampleConstraints` in other units: the first one turned round. -/
noncomputable def exampleConstraints' : List (AcqConstraint ℝ) :=
  [⟨1, ['<'], 1, some fun x => -2 * x.headD 0 + 1, fun _ => .error .logicError⟩,
   ⟨0, ['<'], 9, none, fun _ => .ok (3, 36)⟩]

example : ∃ d d', acquisition realFns realErf ⟨fun _ => .ok (0, 4), 1, 1⟩ [0] [2] exampleConstraints [1 / 2] = .ok d ∧
    acquisition realFns realErf ⟨fun _ => .ok (1000 * 0 + 5, 1000 ^ 2 * 4), 1000 * 1 + 5, 1⟩ [0] [2] exampleConstraints'
      [1 / 2] = .ok d' ∧ 0 ≤ d.value ∧ d'.value = 1000 * d.value := by
  refine C109_partial (o := ⟨fun _ => .ok (0, 4), 1, 1⟩)
    (o' := ⟨fun _ => .ok (1000 * 0 + 5, 1000 ^ 2 * 4), 1000 * 1 + 5, 1⟩) (cs := exampleConstraints)
    (cs' := exampleConstraints') (a := 1000) (b := 5) (fun _ _ => ⟨0, 4, rfl, by norm_num⟩) one_pos
    ⟨by norm_num, fun x f v _ e => by cases e; rfl, rfl, rfl⟩ exampleConstraints_numbered exampleConstraints_good rfl
    rfl rfl (.cons ⟨-2, 1, ⟨by norm_num, rfl, ?_, Or.inr ⟨by norm_num, Or.inr ⟨rfl, rfl⟩⟩, ?_, ?_⟩, ?_⟩
      (.cons ⟨3, 0, ⟨by norm_num, rfl, ?_, Or.inl ⟨by norm_num, rfl⟩, ?_, ?_⟩, ?_⟩ .nil)) ?_
  · norm_num
  · intro f hf
    cases hf
    exact ⟨_, rfl, fun x => rfl⟩
  · intro hf
    cases hf
  · intro m s e
    refine Or.inr ⟨Or.inl (by simp), Or.inr ?_⟩
    have e1 : Vec.denormalizeVector [1 / 2] [(0 : ℝ)] [2] = .ok [1] := by
      simp [Vec.denormalizeVector, tab, tabFrom, rawAt, vat]
    obtain ⟨x, k1, k2⟩ := bind_ok_inv e
    rw [e1] at k1
    cases k1
    cases k2
    norm_num
  · norm_num
  · intro f hf
    cases hf
  · refine fun _ => ⟨rfl, fun x m v _ e => ?_⟩
    cases e
    norm_num
  · intro m s e
    have e1 : cSqrt realFns (4 : ℝ) = .ok 2 := by
      unfold cSqrt
      rw [if_neg (by norm_num)]
      show Except.ok (Real.sqrt 4) = _
      rw [show (4 : ℝ) = 2 ^ 2 by norm_num, Real.sqrt_sq (by norm_num)]
    obtain ⟨x, k1, k2⟩ := bind_ok_inv e
    cases k1
    obtain ⟨y, k3, k4⟩ := bind_ok_inv k2
    rw [e1] at k3
    cases k3
    cases k4
    exact Or.inl ⟨rfl, by norm_num, by norm_num⟩
  · intro f v e
    cases e
    have e1 : Real.sqrt (4 : ℝ) = 2 := by
      rw [show (4 : ℝ) = 2 ^ 2 by norm_num, Real.sqrt_sq (by norm_num)]
    show (4 : ℝ) = 0 ∨ (cEpsilon < 1 * Real.sqrt 4 ∧ cEpsilon < 1000 * (1 * Real.sqrt 4))
    rw [e1]
    unfold cEpsilon
    exact Or.inr ⟨by norm_num, by norm_num⟩

/-- The search, with an objective function that has the same deviation everywhere. -/
example (s : SearchSetup ℝ) (hl : s.problem.lb.length = s.problem.dimension)
    (hu : s.problem.ub.length = s.problem.dimension) (incumbent : List ℝ) (tr : ℝ) (oracle : SearchOracle ℝ) :
    ∃ E E' : Acq ℝ,
    (mostPromising E s incumbent tr oracle).map (fun r => (r.1.dv, r.2)) =
      (mostPromising E' s incumbent tr oracle).map (fun r => (r.1.dv, r.2)) := by
  have hS : Answers (fun x : List ℝ => (.ok (x.sum, 4) : Res (ℝ × ℝ))) s.problem.dimension :=
    fun _ _ => ⟨_, 4, rfl, by norm_num⟩
  have hS' : Answers (fun x : List ℝ => (.ok (1000 * x.sum + 5, 1000 ^ 2 * 4) : Res (ℝ × ℝ))) s.problem.dimension :=
    fun _ _ => ⟨_, _, rfl, by norm_num⟩
  have hn : Numbered ([] : List (AcqConstraint ℝ)) := by unfold Numbered; simp
  obtain ⟨E, hE⟩ := C61_search (o := ⟨_, 1, 1⟩) hS one_pos hn (fun c hc => by cases hc) hl hu
  obtain ⟨E', hE'⟩ := C61_search (o := ⟨_, 1000 * 1 + 5, 1⟩) hS' one_pos hn (fun c hc => by cases hc) hl hu
  refine ⟨E, E', C109_search (o := ⟨_, 1, 1⟩)
    (o' := ⟨fun x : List ℝ => .ok (1000 * x.sum + 5, 1000 ^ 2 * 4), 1000 * 1 + 5, 1⟩) hS one_pos (a := 1000) (b := 5) ⟨by norm_num, fun x f v _ e => ?_, rfl, rfl⟩ hn
    (fun c hc => by cases hc) hl hu .nil ?_ (fun dv h => ⟨(hE dv h).1, (hE dv h).2.1⟩)
    (fun dv h => ⟨(hE' dv h).1, (hE' dv h).2.1⟩) incumbent tr oracle⟩
  · cases e
    rfl
  · intro dv _ f v e
    cases e
    have e1 : Real.sqrt (4 : ℝ) = 2 := by
      rw [show (4 : ℝ) = 2 ^ 2 by norm_num, Real.sqrt_sq (by norm_num)]
    show (4 : ℝ) = 0 ∨ (cEpsilon < 1 * Real.sqrt 4 ∧ cEpsilon < 1000 * (1 * Real.sqrt 4))
    rw [e1]
    unfold cEpsilon
    exact Or.inr ⟨by norm_num, by norm_num⟩

/-! ### The step of the gradient based improvement is measured in the unit of the objective -/

/-- A problem in one dimension, without random candidates, with one gradient step. -/
noncomputable def unitsSetup : SearchSetup ℝ := ⟨⟨1, [0], [1], true, []⟩, [], [], 0, 1⟩

/-- No random numbers, one thread. -/
noncomputable def unitsOracle : SearchOracle ℝ := ⟨fun _ _ => 0, fun _ _ => 0, ⟨1, fun _ => 0, []⟩, ⟨1, fun _ => 0, []⟩⟩

theorem forRange_one {σ : Type} {body : Nat → σ → Res σ} {s t : σ} (h : body 0 s = .ok t) :
    forRange 1 body s = .ok t := by
  unfold forRange loopFrom
  rw [h]
  rfl

theorem units_step {E : Acq ℝ} {k : ℝ} (hk : 0 < k) (hk1 : k ≤ 1) (hp : ∀ x, E.penalty x = 1)
    (hE : ∀ x : ℝ, -(1 / 2) ≤ x → E.ei [x] = k * (x + 1)) :
    findDesignToSimulate E unitsSetup 1 [0] 1 unitsOracle = .ok ([k / 1000], [k / 1000]) := by
  have h1 : mostPromising E unitsSetup [0] 1 unitsOracle = .ok (⟨[0], -10 ^ 15⟩, [0], [1]) := by
    have t1 : trimVector 1 [(-1 : ℝ)] = .ok [0] := by
      simp [trimVector, forRange, loopFrom, trimBody, vat, bind, Except.bind]
    have t2 : trimVector 1 [(1 : ℝ)] = .ok [1] := by
      have : ¬ (1 : ℝ) < 0 := by norm_num
      simp [trimVector, forRange, loopFrom, trimBody, vat, bind, Except.bind, this]
    have t3 : defineTrustRegion 1 [(0 : ℝ)] 1 = .ok ([0], [1]) := by
      simp [defineTrustRegion, Vec.subScalar, Vec.addScalar, t1, t2, bind, Except.bind]
    have t4 : searchComplete E 1 0 [0] [1] ⟨1, fun _ => 0, []⟩ (fun _ _ => 0) ⟨[0], -10 ^ 15⟩ =
        .ok ⟨[0], -10 ^ 15⟩ := by
      simp [searchComplete, tab, tabFrom, SearchState.run, SearchState.start, bind, Except.bind]
    have t5 : ∀ d, searchAround E ⟨1, [0], [1], true, []⟩ 0 [0] [0] [1] ⟨1, fun _ => 0, []⟩ (fun _ _ => 0) d =
        .ok d := by
      intro d
      have : ¬ (1 : ℝ) < 0 := by norm_num
      simp [searchAround, Vec.denormalizeVector, Problem.checkBox, noneOf, allFrom, vat, rawAt, this, tab, tabFrom,
        SearchState.run, SearchState.start, bind, Except.bind]
    simp only [mostPromising, unitsSetup, unitsOracle, t3, bind, Except.bind]
    rw [if_neg (by simp)]
    simp only [List.replicate, t4, t5]
  have v0 : E.value [0] = k := by
    rw [Acq.value, hp, hE 0 (by norm_num)]; ring
  have g1 : acqGradient E 1 ⟨[0], k⟩ 1 = .ok ⟨⟨[0], k * (1 / 10 ^ 8 - 2 * (1 / 10 ^ 8) + 1)⟩, [k], 3⟩ := by
    have m1 : max ((0 : ℝ) * (1 / 10 ^ 5)) (1 / 10 ^ 8) = 1 / 10 ^ 8 := by norm_num
    have p1 : E.ei [0 + 1 / 10 ^ 8] = k * (0 + 1 / 10 ^ 8 + 1) := hE _ (by norm_num)
    have p2 : E.ei [0 + 1 / 10 ^ 8 - 2 * (1 / 10 ^ 8)] = k * (0 + 1 / 10 ^ 8 - 2 * (1 / 10 ^ 8) + 1) := hE _ (by norm_num)
    unfold acqGradient
    rw [if_neg one_ne_zero]
    refine forRange_one ?_
    unfold acqGradBody
    refine bind_eq (a := (0 : ℝ)) rfl ?_
    simp only [List.set_cons_zero, m1, p1, p2, List.nil_append]
    congr 3
    · ring
    · field_simp
      ring
  have g2 : acqLineSearch E 1 [k] [0] [1] ⟨[0], k * (1 / 10 ^ 8 - 2 * (1 / 10 ^ 8) + 1)⟩ k 1 3 (1 / 10 ^ 3) =
      .ok ⟨⟨[k / 1000], k * (k / 1000 + 1)⟩, k * (k / 1000 + 1), 4, false⟩ := by
    have u1 : gradientUpdate 1 [0] [k] [0] [1] (1 / 10 ^ 3) = .ok [k / 1000] := by
      have c1 : ¬ k / 1000 < 0 := not_lt.2 (by positivity)
      have c2 : ¬ 1 < k / 1000 := not_lt.2 (by rw [div_le_one (by norm_num)]; linarith)
      have c3 : Vec.add [(0 : ℝ)] (Vec.scale [k] (1 / 10 ^ 3)) = .ok [k / 1000] := by
        simp [Vec.add, Vec.scale, tab, tabFrom, rawAt]
        ring
      refine bind_eq c3 (forRange_one ?_)
      simp [clampBody, vat, bind, Except.bind, c1, c2]
    have v1 : E.value [k / 1000] = k * (k / 1000 + 1) := by
      rw [Acq.value, hp, hE _ (by have : 0 ≤ k / 1000 := by positivity
                                  linarith), mul_one]
    unfold acqLineSearch
    refine bind_eq u1 ?_
    simp only [v1]
    rw [if_pos]
    nlinarith [mul_pos hk hk]
  have h2 : maximizeAcq E 1 [0] [1] 1 1 [0] = .ok (⟨[k / 1000], k * (k / 1000 + 1)⟩, 4) := by
    unfold maximizeAcq acqLoop
    simp only [v0]
    exact bind_eq (bind_eq g1 (bind_eq g2 rfl)) rfl
  refine bind_eq h1 (bind_eq h2 ?_)
  have e1 : Vec.denormalizeVector [k / 1000] [0] [1] = .ok [k / 1000] := by
    simp [Vec.denormalizeVector, tab, tabFrom, rawAt, vat]
  refine bind_eq e1 (bind_eq (a := [k / 1000]) ?_ rfl)
  rfl

/-- **C109** is false: the gradient based improvement goes a fixed multiple of the gradient, which is measured
in the unit of the objective function.  The deviation `x + 1` in one unit is `2 (x + 1)` in another, and the
design that is proposed is twice as far from the start. -/
theorem C109_false : ¬ C109_full := by
  intro h
  set o : AcqObjective ℝ := ⟨fun x => .ok (0, (x.headD 0 + 1) ^ 2), 0, 1⟩ with ho
  set o' : AcqObjective ℝ := ⟨fun x => .ok (0, 2 ^ 2 * (x.headD 0 + 1) ^ 2), 0, 1⟩ with ho'
  set E : Acq ℝ := ⟨fun x => codeEI 0 0 (1 * Real.sqrt ((x.headD 0 + 1) ^ 2)), fun _ => 1⟩ with hE
  set E' : Acq ℝ := ⟨fun x => codeEI 0 0 (1 * Real.sqrt (2 ^ 2 * (x.headD 0 + 1) ^ 2)), fun _ => 1⟩ with hE'
  have hS : Answers o.surrogate 1 := fun x _ => ⟨0, _, rfl, sq_nonneg _⟩
  have c1 : IsAcquisition 1 E o [0] [1] [] := by
    intro dv hdv
    have e := expectedImprovement_ok (o := o) (d := AcqDesign.new dv 0) (f := 0) (v := (dv.headD 0 + 1) ^ 2) rfl
      (sq_nonneg _) one_pos
    exact ⟨⟨_, e, rfl⟩, ⟨_, bind_eq e rfl, (mul_one _).symm⟩⟩
  have c2 : IsAcquisition 1 E' o' [0] [1] [] := by
    intro dv hdv
    have e := expectedImprovement_ok (o := o') (d := AcqDesign.new dv 0) (f := 0)
      (v := 2 ^ 2 * (dv.headD 0 + 1) ^ 2) rfl (by positivity) one_pos
    exact ⟨⟨_, e, rfl⟩, ⟨_, bind_eq e rfl, (mul_one _).symm⟩⟩
  have hx := h unitsSetup o o' 2 0 [] [] E E' 1 [0] 1 unitsOracle hS one_pos (by unfold Numbered; simp)
    (fun c hc => by cases hc) rfl rfl ⟨by norm_num, ?_, by simp [ho, ho'], rfl⟩ List.Forall₂.nil c1 c2
  · have hk : (0 : ℝ) < cInvSqrt2Pi := by unfold cInvSqrt2Pi; norm_num
    have hk2 : (2 : ℝ) * cInvSqrt2Pi ≤ 1 := by unfold cInvSqrt2Pi; norm_num
    have val : ∀ s : ℝ, cEpsilon < s → codeEI 0 0 s = cInvSqrt2Pi * s := by
      intro s hs
      unfold codeEI
      rw [if_pos hs]
      simp [codephi]
      ring
    rw [units_step (k := cInvSqrt2Pi) hk (by linarith) (fun _ => rfl), units_step (k := 2 * cInvSqrt2Pi)
      (by linarith) hk2 (fun _ => rfl)] at hx
    · have := (Prod.mk.inj (Except.ok.inj hx)).1
      have := (List.cons.inj this).1
      linarith
    · intro x hx
      show codeEI 0 0 (1 * Real.sqrt (2 ^ 2 * (x + 1) ^ 2)) = _
      rw [← mul_pow, Real.sqrt_sq (by linarith), one_mul, val]
      · ring
      · unfold cEpsilon
        norm_num
        linarith
    · intro x hx
      show codeEI 0 0 (1 * Real.sqrt ((x + 1) ^ 2)) = _
      rw [Real.sqrt_sq (by linarith), one_mul, val]
      unfold cEpsilon
      norm_num
      linarith
  · intro x f v _ e
    cases e
    show Except.ok _ = Except.ok _
    rw [mul_zero, add_zero]

end Rodeo
