import Verif.Spec.Units
import Verif.Lemmas.AcqSearch

set_option linter.unusedSectionVars false

namespace Rodeo
open Spec Text

theorem realErf_neg (x : ℝ) : realErf (-x) = -realErf x := by
  unfold realErf
  have : ∫ t in (0 : ℝ)..(-x), Real.exp (-t ^ 2) = - ∫ t in (0 : ℝ)..x, Real.exp (-t ^ 2) := by
    have h := intervalIntegral.integral_comp_neg (a := 0) (b := x) (fun t => Real.exp (-t ^ 2))
    simp only [neg_zero, neg_sq] at h
    rw [h, intervalIntegral.integral_symm (-x) 0]
  rw [this]
  ring

theorem codePhi_neg (z : ℝ) : codePhi (-z) = 1 - codePhi z := by
  unfold codePhi
  rw [neg_div, realErf_neg]
  ring

/-- The expected improvement that the code computes. -/
noncomputable def codeEI (m f s : ℝ) : ℝ :=
  if s > cEpsilon then (m - f) * codePhi ((m - f) / s) + s * codephi ((m - f) / s) else 0

theorem codeEI_zero (m f : ℝ) : codeEI m f 0 = 0 := by
  unfold codeEI
  rw [if_neg]
  unfold cEpsilon
  norm_num

theorem codeEI_units {a : ℝ} (ha : 0 < a) (b m f : ℝ) {s : ℝ}
    (h : s = 0 ∨ (cEpsilon < s ∧ cEpsilon < a * s)) :
    codeEI (a * m + b) (a * f + b) (a * s) = a * codeEI m f s := by
  rcases h with rfl | ⟨h1, h2⟩
  · rw [mul_zero, codeEI_zero, codeEI_zero, mul_zero]
  · unfold codeEI
    rw [if_pos h1, if_pos h2]
    have e : (a * m + b - (a * f + b)) / (a * s) = (m - f) / s := by
      rw [show a * m + b - (a * f + b) = a * (m - f) by ring, mul_div_mul_left _ _ ha.ne']
    rw [e]
    ring

theorem expectedImprovement_ok {o : AcqObjective ℝ} {d : AcqDesign ℝ} {f v : ℝ}
    (hS : o.surrogate d.dv = .ok (f, v)) (hv : 0 ≤ v) (ho : 0 < o.sigmaFactor) :
    o.calculateExpectedImprovement realFns realErf d = .ok { d with
      sigma := Real.sqrt v, value := codeEI o.sampleMinimum f (o.sigmaFactor * Real.sqrt v),
      objectiveValue := f } := by
  have hs : 0 ≤ o.sigmaFactor * Real.sqrt v := mul_nonneg ho.le (Real.sqrt_nonneg v)
  refine bind_eq hS (bind_eq (a := Real.sqrt v) ?_ (bind_eq (acqValueOf_eq _ _ _ hs) rfl))
  unfold cSqrt
  rw [if_neg (not_lt.2 hv)]
  rfl

/-- The acquisition value with the probabilities of the code. -/
theorem acquisition_value {o : AcqObjective ℝ} {dim : Nat} {cs : List (AcqConstraint ℝ)}
    (ho : 0 < o.sigmaFactor) (hn : Numbered cs) (hc : ∀ c ∈ cs, GoodConstraint c dim) {lb ub dv : List ℝ}
    {f v : ℝ} (hS : o.surrogate dv = .ok (f, v)) (hv : 0 ≤ v) {m s : AcqConstraint ℝ → ℝ}
    (hms : ∀ c ∈ cs, c.estimate realFns lb ub dv = .ok (m c, s c) ∧ 0 ≤ s c) :
    ∃ d, acquisition realFns realErf o lb ub cs dv = .ok d ∧
      d.value = codeEI o.sampleMinimum f (o.sigmaFactor * Real.sqrt v) *
        (cs.map fun c => codeProbability c (m c) (s c)).prod := by
  have e0 := expectedImprovement_ok (d := AcqDesign.new dv cs.length) hS hv ho
  set d0 : AcqDesign ℝ := { (AcqDesign.new dv cs.length : AcqDesign ℝ) with
      sigma := Real.sqrt v, value := codeEI o.sampleMinimum f (o.sigmaFactor * Real.sqrt v),
      objectiveValue := f } with hd0
  by_cases hlen : cs.length > 0
  · obtain ⟨vs, ss, e1, l1, l2, h1⟩ := estimateConstraints_ok (d := d0) hn m s (fun c h => (hms c h).1)
      (by simp [hd0, AcqDesign.new]) (by simp [hd0, AcqDesign.new])
    obtain ⟨ps, e2, l3, h2, -⟩ := fold_put (n := cs.length) (fun c => codeProbability c (m c) (s c)) cs
      (f := fun ps c => probabilityStep realErf
        { d0 with constraintValues := vs, constraintSigmas := ss } c ps)
      (fun c h ps => by
        obtain ⟨i, hi, -⟩ := numbered_id hn h
        exact probabilityStep_ok hi (h1 c h i hi).1 (h1 c h i hi).2 (hms c h).2 (hc c h).type ps)
      (fun c h => numbered_id hn h) (numbered_nodup hn) (List.replicate cs.length 0) (by simp)
    refine ⟨{ d0 with
        constraintValues := vs, constraintSigmas := ss, probabilities := ps
        value := d0.value * ps.prod }, ?_, ?_⟩
    · refine bind_eq e0 ?_
      unfold addPenalty
      rw [if_pos hlen]
      exact bind_eq e1 (bind_eq (bind_eq e2 rfl) (updateAcquisition_ok _))
    · show d0.value * ps.prod = _
      rw [numbered_prod hn l3 h2]
  · have hnil : cs = [] := List.length_eq_zero_iff.1 (by omega)
    subst hnil
    exact ⟨d0, bind_eq e0 rfl, by simp [hd0]⟩

/-- The estimate of a constraint in other units. -/
theorem estimate_units {dim : Nat} {c c' : AcqConstraint ℝ} {a b : ℝ} (h : SameConstraint dim c c' a b)
    (hc : GoodConstraint c dim) {lb ub dv : List ℝ} (hdv : dv.length = dim) {m s : ℝ}
    (e : c.estimate realFns lb ub dv = .ok (m, s)) :
    c'.estimate realFns lb ub dv = .ok (a * m + b, if c.userDefined = none then |a| * s else s) := by
  unfold AcqConstraint.estimate AcqConstraint.interpolateWithVariance at e ⊢
  cases hu : c.userDefined with
  | some f =>
    obtain ⟨g, hg, hfg⟩ := h.user f hu
    rw [hu] at e
    dsimp only at e
    obtain ⟨x, e1, e2⟩ := bind_ok_inv e
    cases e2
    rw [hg]
    refine bind_eq e1 ?_
    dsimp only
    rw [hfg]
    simp
  | none =>
    obtain ⟨h1, h2⟩ := h.model hu
    obtain ⟨f, v, e1, hv⟩ := hc.answers hu dv hdv
    have hcs : ∀ w : ℝ, 0 ≤ w → cSqrt realFns w = .ok (Real.sqrt w) := by
      intro w hw
      unfold cSqrt
      rw [if_neg (not_lt.2 hw)]
      rfl
    rw [hu] at e
    dsimp only at e
    have e' := bind_eq e1 (f := fun r => do
      let s ← cSqrt realFns r.2
      Except.ok (r.1, s)) (bind_eq (hcs v hv) rfl)
    rw [e'] at e
    cases e
    rw [h1]
    refine bind_eq (h2 dv f v hdv e1) (bind_eq (hcs _ (by positivity)) ?_)
    rw [Real.sqrt_mul (sq_nonneg a), Real.sqrt_sq_eq_abs, if_pos rfl]

/-- The probability of a constraint in other units. -/
theorem probability_units {dim : Nat} {c c' : AcqConstraint ℝ} {a b : ℝ} (h : SameConstraint dim c c' a b)
    {lb ub dv : List ℝ} (hcl : ClearConstraint c a lb ub dv)
    {m s : ℝ} (hs : 0 ≤ s) (e : c.estimate realFns lb ub dv = .ok (m, s)) :
    codeProbability c' (a * m + b) (if c.userDefined = none then |a| * s else s) = codeProbability c m s := by
  have habs : 0 < |a| := abs_pos.2 h.unit
  unfold codeProbability
  dsimp only
  rw [h.target]
  rcases hcl m s e with ⟨hu, h1, h2⟩ | ⟨hu, hside⟩
  · rw [if_pos hu, if_neg (not_lt.2 h1), if_neg (not_lt.2 h2)]
    have h0 : 0 < s := lt_of_lt_of_le (by norm_num) h1
    rcases h.type with ⟨ha, ht⟩ | ⟨ha, ht⟩
    · have : (a * c.target + b - (a * m + b)) / (|a| * s) = (c.target - m) / s := by
        rw [abs_of_pos ha, show a * c.target + b - (a * m + b) = a * (c.target - m) by ring,
          mul_div_mul_left _ _ ha.ne']
      rw [this, ht]
    · have : (a * c.target + b - (a * m + b)) / (|a| * s) = -((c.target - m) / s) := by
        rw [abs_of_neg ha, show a * c.target + b - (a * m + b) = -a * (-(c.target - m)) by ring,
          mul_div_mul_left _ _ (by linarith), neg_div]
      rw [this, codePhi_neg]
      rcases ht with ⟨t1, t2⟩ | ⟨t1, t2⟩
      · rw [if_pos t2, if_neg (by rw [t1]; decide)]; ring
      · rw [if_neg (by rw [t2]; decide), if_pos t1]
  · have hsm : s < 1 / 10 ^ 12 := by
      rcases hu with hu | rfl
      · unfold AcqConstraint.estimate AcqConstraint.interpolateWithVariance at e
        cases hq : c.userDefined with
        | none => exact absurd hq hu
        | some f =>
          rw [hq] at e
          dsimp only at e
          obtain ⟨x, -, e2⟩ := bind_ok_inv e
          cases e2
          unfold cEpsilon
          norm_num
      · norm_num
    have hsm' : (if c.userDefined = none then |a| * s else s) < 1 / 10 ^ 12 := by
      split_ifs with hq
      · rcases hu with hu | rfl
        · exact absurd hq hu
        · norm_num
      · exact hsm
    rw [if_pos hsm, if_pos hsm']
    rcases h.type with ⟨ha, ht⟩ | ⟨ha, ht⟩
    · have : a * c.target + b < a * m + b ↔ c.target < m := by
        rw [add_lt_add_iff_right, mul_lt_mul_iff_right₀ ha]
      simp only [this, ht]
    · have hne := hside.resolve_left (not_lt.2 ha.le)
      have h1 : a * c.target + b < a * m + b ↔ m < c.target := by
        rw [add_lt_add_iff_right, mul_lt_mul_left_of_neg ha]
      have h2 : m < c.target ↔ ¬ c.target < m :=
        ⟨fun h => not_lt.2 h.le, fun h => lt_of_le_of_ne (not_lt.1 h) hne⟩
      rw [if_congr (h1.trans h2) rfl rfl]
      rcases ht with ⟨t1, t2⟩ | ⟨t1, t2⟩
      · by_cases hlt : c.target < m <;> simp [t1, t2, hlt]
      · by_cases hlt : c.target < m <;> simp [t1, t2, hlt]

/-! ## The search -/

section search
variable {K : Type} [Field K] [LinearOrder K] [IsStrictOrderedRing K]

/-- A candidate in other units. -/
def BODesign.inUnits (a : K) (d : BODesign K) : BODesign K := ⟨d.dv, a * d.value⟩

/-- A thread in other units. -/
def SearchThread.inUnits (a : K) (t : SearchThread K) : SearchThread K :=
  ⟨t.todo.map (BODesign.inUnits a), t.pending.map (BODesign.inUnits a)⟩

/-- The shared variable in the two units: it is a candidate, or the design with the very small value that
the search starts from. -/
def SharedUnits (a : K) (d d' : BODesign K) : Prop :=
  (0 ≤ d.value ∧ d' = d.inUnits a) ∨ (d.value < 0 ∧ d' = d)

/-- All candidates of a thread have values that are not negative. -/
def SearchThread.NonNeg (t : SearchThread K) : Prop :=
  (∀ c ∈ t.todo, 0 ≤ c.value) ∧ ∀ c, t.pending = some c → 0 ≤ c.value

theorem sharedUnits_lt {a : K} (ha : 0 < a) {d d' c : BODesign K} (h : SharedUnits a d d')
    (hc : 0 ≤ c.value) : (c.inUnits a).value > d'.value ↔ c.value > d.value := by
  rcases h with ⟨-, rfl⟩ | ⟨h, rfl⟩
  · exact mul_lt_mul_iff_right₀ ha
  · exact ⟨fun _ => lt_of_lt_of_le h hc, fun _ => lt_of_lt_of_le h (mul_nonneg ha.le hc)⟩

theorem threadStep_units {a : K} (ha : 0 < a) {d d' : BODesign K} (h : SharedUnits a d d')
    {t : SearchThread K} (ht : t.NonNeg) :
    SharedUnits a (SearchState.threadStep d t).1 (SearchState.threadStep d' (t.inUnits a)).1 ∧
    (SearchState.threadStep d' (t.inUnits a)).2 = (SearchState.threadStep d t).2.inUnits a ∧
    (SearchState.threadStep d t).2.NonNeg := by
  obtain ⟨todo, pending⟩ := t
  obtain ⟨h1, h2⟩ := ht
  cases pending with
  | some c =>
    exact ⟨Or.inl ⟨h2 c rfl, rfl⟩, rfl, h1, fun c hc => by cases hc⟩
  | none =>
    cases todo with
    | nil => exact ⟨h, rfl, h1, h2⟩
    | cons c cs =>
      have hc : 0 ≤ c.value := h1 c (by simp)
      refine ⟨h, ?_, fun x hx => h1 x (List.mem_cons_of_mem _ hx), ?_⟩
      · show SearchThread.mk (cs.map (BODesign.inUnits a))
            (if (c.inUnits a).value > d'.value then some (c.inUnits a) else none) =
          ⟨cs.map (BODesign.inUnits a), (if c.value > d.value then some c else none).map (BODesign.inUnits a)⟩
        rw [if_congr (sharedUnits_lt ha h hc) rfl rfl]
        split_ifs <;> rfl
      · intro x hx
        show 0 ≤ x.value
        have hx : (if c.value > d.value then some c else none) = some x := hx
        split_ifs at hx
        cases hx
        exact hc

/-- The states of the two searches. -/
def StateUnits (a : K) (s s' : SearchState K) : Prop :=
  SharedUnits a s.shared s'.shared ∧ s'.threads = s.threads.map (SearchThread.inUnits a) ∧
    ∀ t ∈ s.threads, t.NonNeg

theorem step_units {a : K} (ha : 0 < a) {s s' : SearchState K} (h : StateUnits a s s') (i : Nat) :
    StateUnits a (s.step i) (s'.step i) := by
  obtain ⟨h1, h2, h3⟩ := h
  unfold SearchState.step
  rw [h2, List.getElem?_map]
  cases ht : s.threads[i]? with
  | none => exact ⟨h1, h2, h3⟩
  | some t =>
    obtain ⟨k1, k2, k3⟩ := threadStep_units ha h1 (h3 t (List.mem_of_getElem? ht))
    refine ⟨k1, ?_, ?_⟩
    · show (s.threads.map _).set i _ = (s.threads.set i _).map _
      rw [List.map_set, k2]
    · intro x hx
      rcases List.mem_or_eq_of_mem_set hx with hx | rfl
      · exact h3 x hx
      · exact k3

theorem run_units {a : K} (ha : 0 < a) (l : List Nat) : ∀ {s s' : SearchState K}, StateUnits a s s' →
    StateUnits a (s.run l) (s'.run l) := by
  induction l with
  | nil => exact fun h => h
  | cons i l ih => exact fun h => ih (step_units ha h i)

theorem chunks_units (a : K) (x : Execution) (cs : List (BODesign K)) :
    chunks x (cs.map (BODesign.inUnits a)) = (chunks x cs).map (List.map (BODesign.inUnits a)) := by
  unfold chunks
  rw [List.map_map]
  refine List.map_congr_left fun t _ => ?_
  simp only [Function.comp_apply, List.zipIdx_map, List.filter_map, List.map_map]
  rfl

theorem search_units {a : K} (ha : 0 < a) (x : Execution) {cs : List (BODesign K)}
    (hcs : ∀ c ∈ cs, 0 ≤ c.value) {d d' : BODesign K} (h : SharedUnits a d d') :
    SharedUnits a ((SearchState.start d (chunks x cs)).run x.schedule).shared
      ((SearchState.start d' (chunks x (cs.map (BODesign.inUnits a)))).run x.schedule).shared := by
  refine (run_units ha x.schedule (s := SearchState.start d (chunks x cs))
    (s' := SearchState.start d' (chunks x (cs.map (BODesign.inUnits a)))) ⟨h, ?_, ?_⟩).1
  · rw [chunks_units]
    show (List.map _ _).map _ = (List.map _ _).map _
    rw [List.map_map, List.map_map]
    rfl
  · intro t ht
    obtain ⟨l, hl, rfl⟩ := List.mem_map.1 ht
    refine ⟨fun c hc => hcs c (mem_chunks_sub (List.mem_flatten.2 ⟨l, hl, hc⟩)), fun c hc => by cases hc⟩

theorem tabFrom_map {α β : Type} {f : Nat → Res α} {g : Nat → Res β} {φ : α → β}
    (h : ∀ i, g i = (f i).map φ) (k : Nat) : ∀ i, tabFrom g i k = (tabFrom f i k).map (List.map φ) := by
  induction k with
  | zero => exact fun _ => rfl
  | succ k ih =>
    intro i
    unfold tabFrom
    rw [h i, ih (i + 1)]
    cases f i with
    | error e => rfl
    | ok x =>
      cases tabFrom f (i + 1) k <;> rfl

theorem fillRandom_length {dim : Nat} {lb ub : List K} {u : Nat → K} {dv : List K}
    (h : Vec.fillRandom dim lb ub u = .ok dv) : dv.length = dim := by
  unfold Vec.fillRandom at h
  split_ifs at h
  exact (tab_inv h).1

theorem candidate_units {a : K} {dim : Nat} {E E' : Acq K}
    (hE : ∀ dv : List K, dv.length = dim → E'.value dv = a * E.value dv) (lb ub : List K) (u : Nat → K) :
    candidate E' dim lb ub u = (candidate E dim lb ub u).map (BODesign.inUnits a) := by
  unfold candidate
  cases h : Vec.fillRandom dim lb ub u with
  | error e => rfl
  | ok dv =>
    show Except.ok (BODesign.mk dv (E'.value dv)) = Except.ok ⟨dv, a * E.value dv⟩
    rw [hE dv (fillRandom_length h)]

theorem candidateAround_units {a : K} {dim : Nat} {E E' : Acq K}
    (hE : ∀ dv : List K, dv.length = dim → E'.value dv = a * E.value dv) (sample lb ub : List K)
    (u : Nat → K) :
    candidateAround E' dim sample lb ub u = (candidateAround E dim sample lb ub u).map (BODesign.inUnits a) := by
  unfold candidateAround
  cases h0 : aroundBounds dim sample lb ub (1 / 100) with
  | error e => rfl
  | ok b => exact candidate_units hE b.1 b.2 u

theorem candidate_nonneg {dim : Nat} {E : Acq K} (hE : ∀ dv : List K, dv.length = dim → 0 ≤ E.value dv)
    {lb ub : List K} {u : Nat → K} {c : BODesign K} (h : candidate E dim lb ub u = .ok c) : 0 ≤ c.value := by
  unfold candidate at h
  obtain ⟨dv, e1, e2⟩ := bind_ok_inv h
  cases e2
  exact hE dv (fillRandom_length e1)

theorem candidateAround_nonneg {dim : Nat} {E : Acq K} (hE : ∀ dv : List K, dv.length = dim → 0 ≤ E.value dv)
    {sample lb ub : List K} {u : Nat → K} {c : BODesign K}
    (h : candidateAround E dim sample lb ub u = .ok c) : 0 ≤ c.value := by
  unfold candidateAround at h
  obtain ⟨b, -, e2⟩ := bind_ok_inv h
  exact candidate_nonneg hE e2

theorem tab_mem {α : Type} {n : Nat} {f : Nat → Res α} {l : List α} (h : tab n f = .ok l) {x : α} (hx : x ∈ l) :
    ∃ i, f i = .ok x := by
  obtain ⟨h1, h2⟩ := tab_inv h
  obtain ⟨i, hi, rfl⟩ := List.getElem_of_mem hx
  obtain ⟨y, e1, e2⟩ := h2 i (by omega)
  rw [List.getElem?_eq_getElem hi] at e2
  exact ⟨i, e1.trans (congrArg _ (Option.some.inj e2).symm)⟩

/-- The results of a search in the two units. -/
def ResUnits (a : K) (r r' : Res (BODesign K)) : Prop :=
  (∃ e, r = .error e ∧ r' = .error e) ∨ ∃ d d', r = .ok d ∧ r' = .ok d' ∧ SharedUnits a d d'

theorem searchComplete_units {a : K} (ha : 0 < a) {dim : Nat} {E E' : Acq K}
    (hE : ∀ dv : List K, dv.length = dim → E'.value dv = a * E.value dv)
    (h0 : ∀ dv : List K, dv.length = dim → 0 ≤ E.value dv) (n : Nat) (lb ub : List K) (x : Execution)
    (u : Nat → Nat → K) {d d' : BODesign K} (h : SharedUnits a d d') :
    ResUnits a (searchComplete E dim n lb ub x u d) (searchComplete E' dim n lb ub x u d') := by
  unfold searchComplete
  split_ifs with hl
  · exact Or.inl ⟨_, rfl, rfl⟩
  · have e := tabFrom_map (fun i => candidate_units hE lb ub (u i)) n 0
    cases ht : tab n fun i => candidate E dim lb ub (u i) with
    | error er =>
      have e' : tab n (fun i => candidate E' dim lb ub (u i)) = .error er := by
        have e := e.trans (congrArg (Except.map _) ht)
        exact e
      exact Or.inl ⟨er, rfl, by rw [e']; rfl⟩
    | ok cs =>
      have e' : tab n (fun i => candidate E' dim lb ub (u i)) = .ok (cs.map (BODesign.inUnits a)) := by
        have e := e.trans (congrArg (Except.map _) ht)
        exact e
      refine Or.inr ⟨_, _, rfl, by rw [e']; rfl, ?_⟩
      refine search_units ha x (fun c hc => ?_) h
      obtain ⟨i, hi⟩ := tab_mem ht hc
      exact candidate_nonneg h0 hi

theorem searchAround_units {a : K} (ha : 0 < a) {p : Problem K} {E E' : Acq K}
    (hE : ∀ dv : List K, dv.length = p.dimension → E'.value dv = a * E.value dv)
    (h0 : ∀ dv : List K, dv.length = p.dimension → 0 ≤ E.value dv) (n : Nat) (incumbent lb ub : List K)
    (x : Execution) (u : Nat → Nat → K) {d d' : BODesign K} (h : SharedUnits a d d') :
    ResUnits a (searchAround E p n incumbent lb ub x u d) (searchAround E' p n incumbent lb ub x u d') := by
  unfold searchAround
  cases hd : Vec.denormalizeVector incumbent p.lb p.ub with
  | error er => exact Or.inl ⟨er, rfl, rfl⟩
  | ok dv =>
    cases hb : p.checkBox dv with
    | error er => exact Or.inl ⟨er, by simp only [bind, Except.bind, hb], by simp only [bind, Except.bind, hb]⟩
    | ok inside =>
      cases inside with
      | false =>
        exact Or.inr ⟨d, d', by simp [bind, Except.bind, hb], by simp [bind, Except.bind, hb], h⟩
      | true =>
        have e := tabFrom_map (fun i => candidateAround_units hE incumbent lb ub (u i)) n 0
        cases ht : tab n fun i => candidateAround E p.dimension incumbent lb ub (u i) with
        | error er =>
          have e' : tab n (fun i => candidateAround E' p.dimension incumbent lb ub (u i)) = .error er :=
            e.trans (congrArg (Except.map _) ht)
          exact Or.inl ⟨er, by simp [bind, Except.bind, hb], by simp [bind, Except.bind, hb, e']⟩
        | ok cs =>
          have e' : tab n (fun i => candidateAround E' p.dimension incumbent lb ub (u i)) =
              .ok (cs.map (BODesign.inUnits a)) := e.trans (congrArg (Except.map _) ht)
          refine Or.inr ⟨_, _, by simp only [bind, Except.bind, hb]; rfl,
            by simp only [bind, Except.bind, hb, e']; rfl, ?_⟩
          refine search_units ha x (fun c hc => ?_) h
          obtain ⟨i, hi⟩ := tab_mem ht hc
          exact candidateAround_nonneg h0 hi

theorem mostPromising_units {a : K} (ha : 0 < a) {s : SearchSetup K} {E E' : Acq K}
    (hE : ∀ dv : List K, dv.length = s.problem.dimension → E'.value dv = a * E.value dv)
    (h0 : ∀ dv : List K, dv.length = s.problem.dimension → 0 ≤ E.value dv) (incumbent : List K) (tr : K)
    (o : SearchOracle K) :
    (∃ e, mostPromising E s incumbent tr o = .error e ∧ mostPromising E' s incumbent tr o = .error e) ∨
    ∃ d d' lb ub, mostPromising E s incumbent tr o = .ok (d, lb, ub) ∧
      mostPromising E' s incumbent tr o = .ok (d', lb, ub) ∧ SharedUnits a d d' := by
  unfold mostPromising
  split_ifs with hl
  · exact Or.inl ⟨_, rfl, rfl⟩
  · cases hw : defineTrustRegion s.problem.dimension incumbent tr with
    | error er => exact Or.inl ⟨er, rfl, rfl⟩
    | ok w =>
      rcases searchComplete_units ha hE h0 s.innerIterations w.1 w.2 o.execComplete o.complete
        (d := ⟨List.replicate s.problem.dimension 0, -10 ^ 15⟩)
        (d' := ⟨List.replicate s.problem.dimension 0, -10 ^ 15⟩)
        (Or.inr ⟨by show (-10 ^ 15 : K) < 0; norm_num, rfl⟩) with ⟨er, e1, e2⟩ | ⟨d1, d1', e1, e2, h1⟩
      · exact Or.inl ⟨er, by simp only [bind, Except.bind, e1], by simp only [bind, Except.bind, e2]⟩
      · rcases searchAround_units ha hE h0 s.innerIterations incumbent w.1 w.2 o.execAround o.around h1 with
          ⟨er, e3, e4⟩ | ⟨d2, d2', e3, e4, h2⟩
        · exact Or.inl ⟨er, by simp only [bind, Except.bind, e1, e3], by simp only [bind, Except.bind, e2, e4]⟩
        · exact Or.inr ⟨d2, d2', w.1, w.2, by simp only [bind, Except.bind, e1, e3],
            by simp only [bind, Except.bind, e2, e4], h2⟩

end search

end Rodeo
