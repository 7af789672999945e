import Verif.Lemmas.CampaignEnd
import Verif.Spec.Restart

set_option linter.unusedSectionVars false

/-! # The history at the beginning of an optimization, and after a restart -/

namespace Rodeo
open Spec Text EGO Mat

namespace Campaign

variable {E : CampaignEnv ℝ} {names : List Str} {m0 : Models ℝ} {start : Option Nat → TrainingFile}

/-- The training data say that the constraint at position `k` is satisfied at `x`. -/
def KnownAt (E : CampaignEnv ℝ) (start : Option Nat → TrainingFile) (k : Nat) (c : Constraint ℝ)
    (x : Nat → ℝ) : Prop :=
  match c.source with
  | .user f => Holds c (f ((List.range E.base.setup.problem.dimension).map x))
  | .data _ => ∃ p, p < (start (some k)).rows ∧
      Holds c ((start (some k)).table p E.base.setup.problem.dimension) ∧
      (∀ j, j < E.base.setup.problem.dimension → |(start (some k)).table p j - x j| ≤ 1 / 10 ^ 8) ∧
      ∀ q, q < p → ¬ ∀ j, j < E.base.setup.problem.dimension → |(start (some k)).table q j - x j| ≤ 1 / 10 ^ 8

/-- The initial design number `i` counts as feasible. -/
def StartFeasible (E : CampaignEnv ℝ) (start : Option Nat → TrainingFile) (i : Nat) : Prop :=
  E.base.setup.problem.constraints = [] ∨
  (InBox E.base.setup.problem.lb E.base.setup.problem.ub
    ((List.range E.base.setup.problem.dimension).map ((start none).table i)) ∧
  ∀ (k : Nat) c, E.base.setup.problem.constraints[k]? = some c → KnownAt E start k c ((start none).table i))

theorem satisfied_filled {m : Models ℝ} (hm : Held E m0 start [] All m) {k : Nat} {c : Constraint ℝ}
    (hc : E.base.setup.problem.constraints[k]? = some c) (x : Nat → ℝ) :
    SatisfiedAt E.base.setup.problem.dimension (fill m c k) x ↔ KnownAt E start k c x := by
  cases h : c.source with
  | user f =>
    rw [fill_user h]
    unfold SatisfiedAt KnownAt
    rw [h]
  | data D =>
    obtain ⟨⟨r1, r2, r3, r4⟩, -⟩ := held_rows hm (key := some k) (Or.inr ⟨k, c, D, rfl, hc, h⟩)
    rw [fill_data h]
    unfold SatisfiedAt KnownAt
    rw [h]
    dsimp only
    rw [r1]
    have hclose : ∀ q, q < (start (some k)).rows →
        ((∀ j, j < E.base.setup.problem.dimension → ∃ a, (m.fn (some k)).krig.data.rawData.at' q j = .ok a ∧
          |a - x j| ≤ 1 / 10 ^ 8) ↔
        ∀ j, j < E.base.setup.problem.dimension → |(start (some k)).table q j - x j| ≤ 1 / 10 ^ 8) := by
      intro q hq
      constructor
      · intro h j hj
        obtain ⟨a, e, h⟩ := h j hj
        rw [r4 q j hq (by omega)] at e
        cases e
        exact h
      · intro h j hj
        exact ⟨_, r4 q j hq (by omega), h j hj⟩
    constructor
    · rintro ⟨p, v, hp, ev, h1, h2, h3⟩
      rw [r4 p _ hp (by omega)] at ev
      cases ev
      exact ⟨p, hp, h1, (hclose p hp).1 h2, fun q hq h => h3 q hq ((hclose q (by omega)).2 h)⟩
    · rintro ⟨p, hp, h1, h2, h3⟩
      exact ⟨p, _, hp, r4 p _ hp (by omega), h1, (hclose p hp).2 h2,
        fun q hq h => h3 q hq ((hclose q (by omega)).1 h)⟩

/-- The history at the beginning. -/
def BeginsWith (E : CampaignEnv ℝ) (start : Option Nat → TrainingFile) (F : Nat → Nat → ℝ) : Prop :=
  (∀ i j, i < (start none).rows → j ≤ E.base.setup.problem.dimension → F i j = (start none).table i j) ∧
  ∀ i, i < (start none).rows →
    (F i (E.base.setup.problem.dimension + 1 + E.base.setup.problem.constraints.length + 1) = 1 ∧
      StartFeasible E start i) ∨
    (F i (E.base.setup.problem.dimension + 1 + E.base.setup.problem.constraints.length + 1) = 0 ∧
      ¬ StartFeasible E start i)

theorem initial_history (hP : ProperCampaign E names m0 start) {m : Models ℝ}
    (hm : Held E m0 start [] All m) {B : Mat ℝ}
    (e : (filled E m).base.setup.problem.initialData (m.fn none).krig.data.rawData = .ok B) :
    ∃ F, IsMat B (start none).rows
      (E.base.setup.problem.dimension + 1 + E.base.setup.problem.constraints.length + 2) F ∧
      BeginsWith E start F := by
  obtain ⟨hT, hN⟩ := held_rows hm (key := none) (Or.inl rfl)
  have hW := wellPosed_filled hP hm
  have hlen : (filled E m).base.setup.problem.constraints.length = E.base.setup.problem.constraints.length :=
    withData_length m _
  have hd : E.base.setup.problem.dimension ≠ 0 := Nat.pos_iff_ne_zero.1 hP.box.1
  by_cases hcons : E.base.setup.problem.constraints = []
  · have hcons' : (filled E m).base.setup.problem.constraints = [] :=
      List.length_eq_zero_iff.1 (by rw [hlen, hcons]; rfl)
    set p : Problem ℝ := (filled E m).base.setup.problem with hp
    set N := (start none).rows
    set G := (start none).table
    let L : ℝ := ∑ i ∈ Finset.range N, ∑ j ∈ Finset.range p.dimension, |G i j|
    let p' : Problem ℝ := { p with
      lb := List.replicate p.dimension (-L)
      ub := List.replicate p.dimension L }
    have key : p'.initialData (m.fn none).krig.data.rawData = p.initialData (m.fn none).krig.data.rawData := by
      unfold Problem.initialData Problem.setConstraintsDataIfAny Problem.setFeasibilityValues
      simp only [show p'.constraints = p.constraints from rfl, show p'.dimension = p.dimension from rfl,
        hcons', List.length_nil, gt_iff_lt, lt_irrefl, if_false]
    have hL : ∀ i j, i < N → j < p.dimension → |G i j| ≤ L := by
      intro i j hi hj
      refine le_trans ?_ (Finset.single_le_sum (f := fun i => ∑ j ∈ Finset.range p.dimension, |G i j|)
        (fun i _ => Finset.sum_nonneg (fun j _ => abs_nonneg _)) (Finset.mem_range.2 hi))
      exact Finset.single_le_sum (f := fun j => |G i j|) (fun j _ => abs_nonneg _) (Finset.mem_range.2 hj)
    have hin : ∀ i, i < N → InBox p'.lb p'.ub ((List.range p'.dimension).map (G i)) := by
      intro i hi
      refine ⟨by simp [p'], by simp [p'], ?_⟩
      intro j l u x h1 h2 h3
      simp only [p', List.getElem?_replicate, List.getElem?_map] at h1 h2 h3
      have hj : j < p.dimension := by
        by_contra hj; rw [if_neg hj] at h1; cases h1
      rw [if_pos hj] at h1 h2
      rw [List.getElem?_range hj] at h3
      simp only [Option.some.injEq, Option.map_some] at h1 h2 h3
      subst h1 h2 h3
      exact abs_le.1 (hL i j hi hj)
    obtain ⟨B', e', F, h1, h2, h3⟩ := Problem.initialData_ok (p := p') hT (Nat.lt_succ_self _) hW.boxSet hd
      hN.ne' (by simp [p']) (by simp [p']) hW.constraints (Or.inr hin)
    rw [key] at e'
    rw [e] at e'
    cases e'
    have hlen' : p'.constraints.length = E.base.setup.problem.constraints.length := hlen
    have hdim' : p'.dimension = E.base.setup.problem.dimension := rfl
    rw [hlen', hdim'] at h1
    refine ⟨F, h1, fun i j hi hj => h2.1 i j hi hj, fun i hi => Or.inl ⟨?_, Or.inl hcons⟩⟩
    rcases h3 i hi with ⟨a, -⟩ | ⟨-, a⟩
    · rw [hlen', hdim'] at a; exact a
    · exact absurd ⟨hin i hi, by intro c hc; rw [show p'.constraints = [] from hcons'] at hc; cases hc⟩ a
  · have hcons' : (filled E m).base.setup.problem.constraints ≠ [] := by
      intro h
      apply hcons
      exact List.length_eq_zero_iff.1 (by rw [← hlen, h]; rfl)
    obtain ⟨B', e', F, h1, h2, h3⟩ := Problem.initialData_ok (p := (filled E m).base.setup.problem) hT
      (Nat.lt_succ_self _) hW.boxSet hd hN.ne' hW.box.2.1 hW.box.2.2.1 hW.constraints (Or.inl hcons')
    rw [e] at e'
    cases e'
    have hdim' : (filled E m).base.setup.problem.dimension = E.base.setup.problem.dimension := rfl
    rw [hlen, hdim'] at h1
    refine ⟨F, h1, fun i j hi hj => h2.1 i j hi hj, fun i hi => ?_⟩
    have hiff : StartFeasible E start i ↔ (InBox (filled E m).base.setup.problem.lb
        (filled E m).base.setup.problem.ub
        ((List.range (filled E m).base.setup.problem.dimension).map ((start none).table i)) ∧
        ∀ c ∈ (filled E m).base.setup.problem.constraints,
          SatisfiedAt (filled E m).base.setup.problem.dimension c ((start none).table i)) := by
      unfold StartFeasible
      rw [or_iff_right hcons]
      refine and_congr Iff.rfl ⟨?_, ?_⟩
      · intro h c hc
        have hc' : c ∈ withData m E.base.setup.problem.constraints := hc
        obtain ⟨k, hk⟩ := List.getElem?_of_mem hc'
        rw [withData_get] at hk
        obtain ⟨c0, h0, rfl⟩ := Option.map_eq_some_iff.1 hk
        exact (satisfied_filled hm h0 _).2 (h k c0 h0)
      · intro h k c hk
        refine (satisfied_filled hm hk _).1 (h _ ?_)
        have : (withData m E.base.setup.problem.constraints)[k]? = some (fill m c k) := by
          rw [withData_get, hk]; rfl
        exact List.mem_of_getElem? this
    have := h3 i hi
    unfold Problem.FlagOK at this
    rw [hlen, hdim', ← hdim', ← hiff] at this
    exact this

/-- The optimizer before its first iteration. -/
theorem begins_ok (hP : ProperCampaign E names m0 start) (hS : Sane E.base) :
    ∃ s0 s1 m F, fresh E.base.setup.problem names = .ok s0 ∧
      perform E true 0 (s0, m0) = ((s1, m), .error .outOfFuel) ∧
      IsMat s1.history.data (start none).rows
        (E.base.setup.problem.dimension + 1 + E.base.setup.problem.constraints.length + 2) F ∧
      BeginsWith E start F ∧ s1.global.design.dimension = E.base.setup.problem.dimension ∧
      ((∀ i, i < (start none).rows → FeasibleRow F
          (E.base.setup.problem.dimension + 1 + E.base.setup.problem.constraints.length + 2) i →
          F i E.base.setup.problem.dimension < dblMax) → ∃ k,
        IsOptimum F (start none).rows
          (E.base.setup.problem.dimension + 1 + E.base.setup.problem.constraints.length + 2)
          E.base.setup.problem.dimension k s1.global.design.feasible ∧
        DescribesRow s1.global F
          (E.base.setup.problem.dimension + 1 + E.base.setup.problem.constraints.length + 2) k) := by
  obtain ⟨s0, s1, m, F, e0, eD, e1, hm, hr, hF, i1, i2, i3, i4, i5, i6, i7, i8, i9, i10, i11⟩ :=
    init_campaign hP hS
  obtain ⟨F1, h1, h2⟩ := initial_history hP hm eD
  refine ⟨s0, s1, m, F1, e0, e1 0, h1, h2, hr.gdim, ?_⟩
  intro hv
  obtain ⟨g, g1, g2, g3, g4, g5, g6⟩ := i11
  have hlen : (filled E m).base.setup.problem.constraints.length = E.base.setup.problem.constraints.length :=
    withData_length m _
  rw [hlen] at g2
  obtain ⟨g', k, e, -, f2, f3, f4, f5⟩ := C28_partial (g := g) h1 hr.rows (by rw [g1, g2]) g3
    (by rw [g1, g4, g5]; exact hP.box) (by rw [g1]; exact hv)
  rw [g6] at e
  cases e
  rw [g1] at f4
  exact ⟨k, f4, f5⟩

/-- The optimizer at the end of an optimization. -/
theorem ends_ok (hP : ProperCampaign E names m0 start) (hS : Sane E.base)
    (hD : ∀ n, DeliversAt E.base n ∨ FailsAt E.base n) :
    ∃ s0 p ds F, fresh E.base.setup.problem names = .ok s0 ∧
      perform E true E.base.maxSamples (s0, m0) = p ∧ RunOf E m0 start p ds ∧ BeginsWith E start F ∧
      (∀ (i : Nat) d, ds[i]? = some d → ∀ j, F ((start none).rows + i) j =
        (historyRow d E.base.setup.problem.constraints.length).getD j 0) ∧
      p.1.1.global.design.dimension = E.base.setup.problem.dimension ∧
      ((∀ i, i < (start none).rows + ds.length → FeasibleRow F
          (E.base.setup.problem.dimension + 1 + E.base.setup.problem.constraints.length + 2) i →
          F i E.base.setup.problem.dimension < dblMax) → ∃ k,
        IsOptimum F ((start none).rows + ds.length)
          (E.base.setup.problem.dimension + 1 + E.base.setup.problem.constraints.length + 2)
          E.base.setup.problem.dimension k p.1.1.global.design.feasible ∧
        DescribesRow p.1.1.global F
          (E.base.setup.problem.dimension + 1 + E.base.setup.problem.constraints.length + 2) k) := by
  obtain ⟨s0, p, ds, s1, m, F0, s2, e0, e1, hR, eD, hm, hr, hreach, hbook, hh, hg⟩ :=
    run_campaign_data hP hS hD
  obtain ⟨F1, h1, h2⟩ := initial_history hP hm eD
  have hlen : (filled E m).base.setup.problem.constraints.length = E.base.setup.problem.constraints.length :=
    withData_length m _
  obtain ⟨F, q1, q2, q3, q4⟩ := hbook.history
  dsimp only at q1 q2 q3 q4
  refine ⟨s0, p, ds, F, e0, e1, hR, ⟨q2, fun i hi => ?_⟩, q3, by rw [hg]; exact (hreach.ready hr).gdim, ?_⟩
  · have hmat := (hreach.ready hr).mat
    have hmat' : IsMat s2.history.data ((start none).rows + ds.length)
        (E.base.setup.problem.dimension + 1 + E.base.setup.problem.constraints.length + 2)
        (appendRows F0 (start none).rows
          (ds.map (fun d => historyRow d E.base.setup.problem.constraints.length))) := by
      rw [← hlen]; exact hmat
    have a1 := (isMat_unique q1 hmat').2.2 i
      (E.base.setup.problem.dimension + 1 + E.base.setup.problem.constraints.length + 1) (by omega) (by omega)
    unfold appendRows at a1
    rw [if_pos hi] at a1
    have hmat0 : IsMat s1.history.data (start none).rows
        (E.base.setup.problem.dimension + 1 + E.base.setup.problem.constraints.length + 2) F0 := by
      rw [← hlen]; exact hr.mat
    have a2 := (isMat_unique h1 hmat0).2.2 i
      (E.base.setup.problem.dimension + 1 + E.base.setup.problem.constraints.length + 1) hi (by omega)
    rw [a1, ← a2]
    exact h2.2 i hi
  · rw [hg]
    exact q4

/-! ## Samples -/

theorem mem_samplesOf_none {B : EGOEnv ℝ} {ds : List (Design ℝ)} {x : List ℝ} :
    x ∈ samplesOf none (ds.flatMap (newSamples B)) ↔ ∃ d ∈ ds, x = d.params ++ [d.trueValue] := by
  unfold samplesOf
  rw [List.mem_filterMap]
  constructor
  · rintro ⟨⟨key, y⟩, h1, h2⟩
    obtain ⟨d, hd, h1⟩ := List.mem_flatMap.1 h1
    dsimp only at h2
    split_ifs at h2 with hk
    cases h2
    subst hk
    refine ⟨d, hd, ?_⟩
    unfold newSamples at h1
    rcases List.mem_cons.1 h1 with h1 | h1
    · exact (Prod.mk.inj h1).2
    · obtain ⟨c, -, h1⟩ := List.mem_flatMap.1 h1
      unfold constraintSample at h1
      cases hs : c.1.source with
      | user f => rw [hs] at h1; cases h1
      | data D => rw [hs] at h1; simp at h1
  · rintro ⟨d, hd, rfl⟩
    refine ⟨(none, d.params ++ [d.trueValue]), List.mem_flatMap.2 ⟨d, hd, ?_⟩, by simp⟩
    unfold newSamples
    simp

theorem mem_samplesOf_some {B : EGOEnv ℝ} {ds : List (Design ℝ)} {x : List ℝ} {k : Nat} {c : Constraint ℝ}
    {D : Mat ℝ} (hc : B.setup.problem.constraints[k]? = some c) (hs : c.source = .data D) :
    x ∈ samplesOf (some k) (ds.flatMap (newSamples B)) ↔
      ∃ d ∈ ds, x = d.params ++ [d.constraintTrueValues.getD k 0] := by
  unfold samplesOf
  rw [List.mem_filterMap]
  constructor
  · rintro ⟨⟨key, y⟩, h1, h2⟩
    obtain ⟨d, hd, h1⟩ := List.mem_flatMap.1 h1
    dsimp only at h2
    split_ifs at h2 with hk
    cases h2
    subst hk
    refine ⟨d, hd, ?_⟩
    unfold newSamples at h1
    rcases List.mem_cons.1 h1 with h1 | h1
    · cases (Prod.mk.inj h1).1
    · obtain ⟨c', hc', h1⟩ := List.mem_flatMap.1 h1
      unfold constraintSample at h1
      cases hs' : c'.1.source with
      | user f => rw [hs'] at h1; cases h1
      | data D' =>
        rw [hs'] at h1
        simp only [List.mem_singleton, Prod.mk.injEq, Option.some.injEq] at h1
        rw [h1.2, ← h1.1]
  · rintro ⟨d, hd, rfl⟩
    refine ⟨(some k, d.params ++ [d.constraintTrueValues.getD k 0]), List.mem_flatMap.2 ⟨d, hd, ?_⟩, by simp⟩
    unfold newSamples
    refine List.mem_cons_of_mem _ (List.mem_flatMap.2 ⟨(c, k), ?_, ?_⟩)
    · rw [List.mem_zipIdx_iff_getElem?]; exact hc
    · unfold constraintSample
      rw [hs]
      simp

theorem vecFun_append_lt {x : List ℝ} {v : ℝ} {j : Nat} (h : j < x.length) :
    vecFun (x ++ [v]) j = vecFun x j := by
  unfold vecFun
  simp [List.getElem?_append_left h]

theorem vecFun_append_eq {x : List ℝ} {v : ℝ} : vecFun (x ++ [v]) x.length = v := by
  unfold vecFun
  simp

theorem historyRow_value {d : Design ℝ} {nc : Nat} :
    (historyRow d nc).getD d.params.length 0 = d.trueValue := by
  unfold historyRow
  simp [List.getD]

theorem historyRow_flag {d : Design ℝ} {nc : Nat} (h : d.constraintTrueValues.length = nc) :
    (historyRow d nc).getD (d.params.length + 1 + nc + 1) 0 = if d.feasible then 1 else 0 := by
  unfold historyRow
  subst h
  rw [List.take_length, List.getD_eq_getElem?_getD, List.getElem?_append_right (by simp; omega)]
  have : d.params.length + 1 + d.constraintTrueValues.length + 1 -
      (d.params ++ [d.trueValue] ++ d.constraintTrueValues).length = 1 := by simp; omega
  rw [this]
  rfl

end Campaign
end Rodeo
