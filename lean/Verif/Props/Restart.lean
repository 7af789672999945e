import Verif.Lemmas.Restart
import Verif.Props.Campaign

set_option linter.unusedSectionVars false

/-! # C110: an optimization that is started again -/

namespace Rodeo
open Spec Text EGO Mat Campaign

/-- An optimization `E` and, in the same directory, a second one `E'` of the same problem: both are set up
properly and begin with new optimizers (`s0`, `s0'`); the first may end in any way. -/
structure Spec.TwoRuns (E E' : CampaignEnv ℝ) (names names' : List Str) (m0 : Models ℝ)
    (start : Option Nat → TrainingFile) (s0 s0' : EGOState ℝ) : Prop where
  first : ProperCampaign E names m0 start
  second : ProperCampaign E' names' m0 start
  problem : E'.base.setup.problem = E.base.setup.problem
  sane : Sane E.base
  sane' : Sane E'.base
  works : ∀ n, DeliversAt E.base n ∨ FailsAt E.base n
  values : OrdinaryValues E start
  new : fresh E.base.setup.problem names = .ok s0
  new' : fresh E'.base.setup.problem names' = .ok s0'

variable {E E' : CampaignEnv ℝ} {names names' : List Str} {m0 : Models ℝ} {start : Option Nat → TrainingFile}
  {s0 s0' : EGOState ℝ}

/-- **C110** as stated: if the first optimization ended with a feasible optimum, the second one begins with a
feasible optimum with the same value. -/
def C110_full : Prop :=
  ∀ (E E' : CampaignEnv ℝ) (names names' : List Str) (m0 : Models ℝ) (start : Option Nat → TrainingFile)
    (s0 s0' : EGOState ℝ), TwoRuns E E' names names' m0 start s0 s0' →
    ∀ p, perform E true E.base.maxSamples (s0, m0) = p → (optimum p).feasible = true →
      (optimum (secondBegins E' m0 p s0')).feasible = true ∧
      (optimum (secondBegins E' m0 p s0')).trueValue = (optimum p).trueValue

namespace Campaign

set_option exponentiation.threshold 2000 in
theorem big_dblMax : (10 : ℝ) ^ 300 + 1 ≤ dblMax := by
  unfold dblMax
  norm_num

/-- What is known about two runs. -/
theorem two_runs (h : TwoRuns E E' names names' m0 start s0 s0') :
    ∃ ds F F' k k' start', RunOf E m0 start (perform E true E.base.maxSamples (s0, m0)) ds ∧
      (∀ key, HasModel E key → Collected E.base.setup.problem.dimension
        (samplesOf key (ds.flatMap (newSamples E.base))) (start key).rows (start key).table (start' key).rows
        (start' key).table) ∧
      BeginsWith E start F ∧ BeginsWith E' start' F' ∧
      (∀ (i : Nat) d, ds[i]? = some d → d.params.length = E.base.setup.problem.dimension ∧
        F ((start none).rows + i) E.base.setup.problem.dimension = d.trueValue ∧
        F ((start none).rows + i)
          (E.base.setup.problem.dimension + 1 + E.base.setup.problem.constraints.length + 1) =
            if d.feasible then 1 else 0) ∧
      IsOptimum F ((start none).rows + ds.length)
        (E.base.setup.problem.dimension + 1 + E.base.setup.problem.constraints.length + 2)
        E.base.setup.problem.dimension k (optimum (perform E true E.base.maxSamples (s0, m0))).feasible ∧
      (optimum (perform E true E.base.maxSamples (s0, m0))).trueValue = F k E.base.setup.problem.dimension ∧
      (optimum (perform E true E.base.maxSamples (s0, m0))).id = k ∧
      IsOptimum F' (start' none).rows
        (E.base.setup.problem.dimension + 1 + E.base.setup.problem.constraints.length + 2)
        E.base.setup.problem.dimension k'
        (optimum (secondBegins E' m0 (perform E true E.base.maxSamples (s0, m0)) s0')).feasible ∧
      (optimum (secondBegins E' m0 (perform E true E.base.maxSamples (s0, m0)) s0')).trueValue =
        F' k' E.base.setup.problem.dimension := by
  obtain ⟨t0, p, ds, F, e0, e1, hR, hF, hds, hdim, hopt⟩ := ends_ok h.first h.sane h.works
  rw [h.new] at e0
  cases e0
  subst e1
  obtain ⟨start', hP', hcol, -, -⟩ := restart_data h.second h.problem hR.files
  obtain ⟨t0', s1', m1', F', e0', e1', hM', hF', hdim', hopt'⟩ := begins_ok hP' h.sane'
  rw [h.new'] at e0'
  cases e0'
  have hrow : ∀ (i : Nat) d, ds[i]? = some d → d.params.length = E.base.setup.problem.dimension ∧
        F ((start none).rows + i) E.base.setup.problem.dimension = d.trueValue ∧
        F ((start none).rows + i)
          (E.base.setup.problem.dimension + 1 + E.base.setup.problem.constraints.length + 1) =
            if d.feasible then 1 else 0 := by
    intro i d hd
    have hs := (hR.designs i d hd).1
    have hl : d.params.length = E.base.setup.problem.dimension := hs.box.1.trans h.first.box.2.1
    refine ⟨hl, ?_, ?_⟩
    · rw [hds i d hd, ← hl]; exact historyRow_value
    · rw [hds i d hd, ← hl]; exact historyRow_flag hs.size
  have hb := big_dblMax
  have hval : ∀ i, i < (start none).rows + ds.length → F i E.base.setup.problem.dimension < 10 ^ 300 := by
    intro i hi
    by_cases hn : i < (start none).rows
    · rw [hF.1 i _ hn le_rfl]; exact h.values.initial i hn
    · obtain ⟨j, rfl⟩ : ∃ j, i = (start none).rows + j := ⟨i - (start none).rows, by omega⟩
      have hj : j < ds.length := by omega
      have hd := List.getElem?_eq_getElem hj
      rw [(hrow j _ hd).2.1]
      exact h.values.simulated _ _ _ (hR.designs j _ hd).1.objective
  obtain ⟨k, o1, o2⟩ := hopt (fun i hi _ => by have := hval i hi; linarith)
  have hcn := hcol none (Or.inl rfl)
  have hval' : ∀ i, i < (start' none).rows → F' i E.base.setup.problem.dimension < 10 ^ 300 + 1 := by
    intro i hi
    have h1 := hF'.1 i E.base.setup.problem.dimension hi (by rw [h.problem])
    rw [h1]
    by_cases hn : i < (start none).rows
    · rw [hcn.kept i _ hn (Nat.lt_succ_self _)]
      have := h.values.initial i hn
      linarith
    · obtain ⟨x, hx, hl, hx'⟩ := hcn.source i (by omega) hi
      obtain ⟨d, hd, rfl⟩ := mem_samplesOf_none.1 hx
      obtain ⟨j, hj⟩ := List.getElem?_of_mem hd
      obtain ⟨q1, q2, -⟩ := hrow j d hj
      have := (hx' E.base.setup.problem.dimension (Nat.lt_succ_self _)).1
      rw [← q1] at this
      rw [vecFun_append_eq, q1] at this
      have h3 := h.values.simulated _ _ _ (hR.designs j _ hj).1.objective
      have := (abs_le.1 this).2
      have h5 : (1 : ℝ) / 2 / 10 ^ 12 ≤ 1 := by norm_num
      linarith
  rw [h.problem] at hopt' hdim'
  obtain ⟨k', o1', o2'⟩ := hopt' (fun i hi _ => by have := hval' i hi; linarith)
  have e2 : secondBegins E' m0 (perform E true E.base.maxSamples (s0, m0)) s0' =
      ((s1', m1'), .error .outOfFuel) := e1'
  refine ⟨ds, F, F', k, k', start', hR, hcol, hF, hF', hrow, o1, ?_, o2.1, ?_, ?_⟩
  · have := o2.2.2.1
    rw [hdim] at this
    exact this
  · rw [e2]; exact o1'
  · rw [e2]
    have := o2'.2.2.1
    rw [hdim'] at this
    exact this

theorem flag_feasible {F : Nat → Nat → ℝ} {M i : Nat} (h : F i (M + 1) = 1) : FeasibleRow F (M + 2) i := by
  unfold FeasibleRow
  rw [show M + 2 - 1 = M + 1 from rfl, h]
  norm_num

theorem feasible_flag {F : Nat → Nat → ℝ} {M i : Nat} (h : FeasibleRow F (M + 2) i) : F i (M + 1) ≠ 0 := by
  unfold FeasibleRow at h
  rw [show M + 2 - 1 = M + 1 from rfl] at h
  exact h.ne'

theorem startFeasible_row {F : Nat → Nat → ℝ} (hF : BeginsWith E start F) {i : Nat} (hi : i < (start none).rows)
    (h : StartFeasible E start i) : FeasibleRow F
      (E.base.setup.problem.dimension + 1 + E.base.setup.problem.constraints.length + 2) i := by
  rcases hF.2 i hi with ⟨a, -⟩ | ⟨-, a⟩
  · exact flag_feasible a
  · exact absurd h a

theorem row_startFeasible {F : Nat → Nat → ℝ} (hF : BeginsWith E start F) {i : Nat} (hi : i < (start none).rows)
    (h : FeasibleRow F
      (E.base.setup.problem.dimension + 1 + E.base.setup.problem.constraints.length + 2) i) :
    StartFeasible E start i := by
  rcases hF.2 i hi with ⟨-, a⟩ | ⟨a, -⟩
  · exact a
  · exact absurd a (feasible_flag h)

/-- An optimum is as good as any feasible row. -/
theorem optimum_le {F : Nat → Nat → ℝ} {n M dim k : Nat} {b : Bool} (h : IsOptimum F n M dim k b) {i : Nat}
    (hi : i < n) (hf : FeasibleRow F M i) : b = true ∧ F k dim ≤ F i dim := by
  obtain ⟨h1, h2, h3, -⟩ := h.2.1 ⟨i, hi, hf⟩
  exact ⟨h1, h3 i hi hf⟩

theorem optimum_feasible {F : Nat → Nat → ℝ} {n M dim k : Nat} {b : Bool} (h : IsOptimum F n M dim k b)
    (hb : b = true) : FeasibleRow F M k := by
  by_cases hx : ∃ i, i < n ∧ FeasibleRow F M i
  · exact (h.2.1 hx).2.1
  · have := (h.2.2 (fun i hi hf => hx ⟨i, hi, hf⟩)).1
    rw [hb] at this
    cases this

end Campaign

/-- **C110**, problems without constraints: the second optimization begins with a feasible optimum whose value
differs by at most `1e-4` from that of the optimum of the first one, and is better at most by the rounding to
twelve digits. -/
theorem C110_partial (h : TwoRuns E E' names names' m0 start s0 s0')
    (hc : E.base.setup.problem.constraints = []) {p : CampaignState ℝ × Res Unit}
    (hp : perform E true E.base.maxSamples (s0, m0) = p) :
    (optimum (secondBegins E' m0 p s0')).feasible = true ∧
    (optimum (secondBegins E' m0 p s0')).trueValue ≤ (optimum p).trueValue + 1 / 10 ^ 4 ∧
    (optimum p).trueValue - 1 / 2 / 10 ^ 12 ≤ (optimum (secondBegins E' m0 p s0')).trueValue := by
  subst hp
  obtain ⟨ds, F, F', k, k', start', hR, hcol, hF, hF', hrow, o1, o2, o3, o4, o5⟩ := two_runs h
  have hc' : E'.base.setup.problem.constraints = [] := by rw [h.problem, hc]
  have hcn := hcol none (Or.inl rfl)
  have hF1' : ∀ i, i < (start' none).rows → F' i E.base.setup.problem.dimension =
      (start' none).table i E.base.setup.problem.dimension := by
    intro i hi
    exact hF'.1 i _ hi (by rw [h.problem])
  have hall' : ∀ i, i < (start' none).rows → FeasibleRow F'
      (E.base.setup.problem.dimension + 1 + E.base.setup.problem.constraints.length + 2) i := by
    intro i hi
    have := startFeasible_row hF' hi (Or.inl hc')
    rw [h.problem] at this
    exact this
  have hall : ∀ i, i < (start none).rows + ds.length → FeasibleRow F
      (E.base.setup.problem.dimension + 1 + E.base.setup.problem.constraints.length + 2) i := by
    intro i hi
    by_cases hn : i < (start none).rows
    · exact startFeasible_row hF hn (Or.inl hc)
    · obtain ⟨j, rfl⟩ : ∃ j, i = (start none).rows + j := ⟨i - (start none).rows, by omega⟩
      have hd := List.getElem?_eq_getElem (show j < ds.length by omega)
      apply flag_feasible
      rw [(hrow j _ hd).2.2, if_pos]
      rw [(hR.designs j _ hd).1.feasible, hc]
      intro k c v hk
      simp at hk
  have hk := o1.1
  have hk' := o4.1
  refine ⟨(optimum_le o4 hk' (hall' k' hk')).1, ?_, ?_⟩
  · rw [o2, o5]
    by_cases hn : k < (start none).rows
    · have hlt : k < (start' none).rows := lt_of_lt_of_le hn hcn.le
      have := (optimum_le o4 hlt (hall' k hlt)).2
      rw [hF1' k hlt, hcn.kept k _ hn (Nat.lt_succ_self _), ← hF.1 k _ hn le_rfl] at this
      have h4 : (0 : ℝ) ≤ 1 / 10 ^ 4 := by norm_num
      linarith
    · obtain ⟨j, rfl⟩ : ∃ j, k = (start none).rows + j := ⟨k - (start none).rows, by omega⟩
      have hd := List.getElem?_eq_getElem (show j < ds.length by omega)
      obtain ⟨q1, q2, -⟩ := hrow j _ hd
      obtain ⟨-, q, hq, hq'⟩ := hcn.complete _ (mem_samplesOf_none.2 ⟨ds[j], List.mem_of_getElem? hd, rfl⟩)
      have a := hq' E.base.setup.problem.dimension (Nat.lt_succ_self _)
      rw [← q1, vecFun_append_eq, q1] at a
      have := (optimum_le o4 hq (hall' q hq)).2
      rw [hF1' q hq] at this
      rw [q2]
      have := (abs_le.1 a).2
      linarith
  · rw [o2, o5, hF1' k' hk']
    by_cases hn : k' < (start none).rows
    · rw [hcn.kept k' _ hn (Nat.lt_succ_self _), ← hF.1 k' _ hn le_rfl]
      have := (optimum_le o1 (i := k') (by omega) (hall k' (by omega))).2
      have h4 : (0 : ℝ) ≤ 1 / 2 / 10 ^ 12 := by norm_num
      linarith
    · obtain ⟨x, hx, hl, hx'⟩ := hcn.source k' (by omega) hk'
      obtain ⟨d, hd, rfl⟩ := mem_samplesOf_none.1 hx
      obtain ⟨j, hj⟩ := List.getElem?_of_mem hd
      obtain ⟨hjl, -⟩ := List.getElem?_eq_some_iff.1 hj
      obtain ⟨q1, q2, -⟩ := hrow j d hj
      have a := (hx' E.base.setup.problem.dimension (Nat.lt_succ_self _)).1
      rw [← q1, vecFun_append_eq, q1] at a
      have := (optimum_le o1 (i := (start none).rows + j) (by omega) (hall _ (by omega))).2
      rw [q2] at this
      have := (abs_le.1 a).1
      linarith

/-- **C110**, the initial designs: if the optimum of the first optimization is feasible and one of the designs
it began with, the second one begins with a feasible optimum that is at least as good. -/
theorem C110_initial (h : TwoRuns E E' names names' m0 start s0 s0') {p : CampaignState ℝ × Res Unit}
    (hp : perform E true E.base.maxSamples (s0, m0) = p) (hf : (optimum p).feasible = true)
    (hi : (optimum p).id < (start none).rows) :
    (optimum (secondBegins E' m0 p s0')).feasible = true ∧
    (optimum (secondBegins E' m0 p s0')).trueValue ≤ (optimum p).trueValue := by
  subst hp
  obtain ⟨ds, F, F', k, k', start', hR, hcol, hF, hF', hrow, o1, o2, o3, o4, o5⟩ := two_runs h
  rw [o3] at hi
  have hi : k < (start none).rows := by exact_mod_cast hi
  have hcn := hcol none (Or.inl rfl)
  have hlt : k < (start' none).rows := lt_of_lt_of_le hi hcn.le
  have hs := row_startFeasible hF hi (optimum_feasible o1 hf)
  have hx : ∀ j, j ≤ E.base.setup.problem.dimension → (start' none).table k j = (start none).table k j :=
    fun j hj => hcn.kept k j hi (by omega)
  have hmap : (List.range E.base.setup.problem.dimension).map ((start' none).table k) =
      (List.range E.base.setup.problem.dimension).map ((start none).table k) := by
    apply List.map_congr_left
    intro j hj
    exact hx j (by simp at hj; omega)
  have hs' : StartFeasible E' start' k := by
    unfold StartFeasible at hs ⊢
    rw [h.problem, hmap]
    refine hs.imp id (And.imp id fun hs l c hl => ?_)
    have := hs l c hl
    unfold KnownAt at this ⊢
    rw [h.problem, hmap]
    cases hsrc : c.source with
    | user f => rw [hsrc] at this; exact this
    | data D =>
      rw [hsrc] at this
      obtain ⟨p, p1, p2, p3, p4⟩ := this
      have hcl := hcol (some l) (Or.inr ⟨l, c, D, rfl, hl, hsrc⟩)
      refine ⟨p, lt_of_lt_of_le p1 hcl.le, ?_, ?_, ?_⟩
      · rw [hcl.kept p _ p1 (Nat.lt_succ_self _)]; exact p2
      · intro j hj
        rw [hcl.kept p j p1 (by omega), hx j (by omega)]
        exact p3 j hj
      · intro q hq hcon
        refine p4 q hq fun j hj => ?_
        have := hcon j hj
        rw [hcl.kept q j (by omega) (by omega), hx j (by omega)] at this
        exact this
  have hrow' := startFeasible_row hF' hlt hs'
  rw [h.problem] at hrow'
  obtain ⟨r1, r2⟩ := optimum_le o4 hlt hrow'
  refine ⟨r1, ?_⟩
  rw [o2, o5]
  refine r2.trans (le_of_eq ?_)
  rw [hF'.1 k _ hlt (by rw [h.problem]), hx _ le_rfl, hF.1 k _ hi le_rfl]

namespace Campaign

/-- The value in the sample for a function. -/
def valueFor (d : Design ℝ) : Option Nat → ℝ
  | none => d.trueValue
  | some k => d.constraintTrueValues.getD k 0

theorem mem_samplesOf {ds : List (Design ℝ)} {key : Option Nat} (hk : HasModel E key) {x : List ℝ} :
    x ∈ samplesOf key (ds.flatMap (newSamples E.base)) ↔ ∃ d ∈ ds, x = d.params ++ [valueFor d key] := by
  rcases hk with rfl | ⟨k, c, D, rfl, h1, h2⟩
  · exact mem_samplesOf_none
  · exact mem_samplesOf_some h1 h2

/-- The rows near a design that stands alone are its own samples. -/
theorem own_row {ds : List (Design ℝ)} {i : Nat} {d : Design ℝ} {start' : Option Nat → TrainingFile}
    (hd : ∀ (j : Nat) d, ds[j]? = some d → d.params.length = E.base.setup.problem.dimension)
    (hi : ds[i]? = some d) (ha : StandsAlone E start ds i d) {key : Option Nat} (hk : HasModel E key)
    (hc : Collected E.base.setup.problem.dimension
        (samplesOf key (ds.flatMap (newSamples E.base))) (start key).rows (start key).table (start' key).rows
        (start' key).table) {q : Nat} (hq : q < (start' key).rows)
    (hn : ∀ l, l < E.base.setup.problem.dimension →
      |(start' key).table q l - vecFun d.params l| ≤ 1 / 10 ^ 4 + 1 / 10 ^ 6) :
    (∀ l, l < E.base.setup.problem.dimension → Rounded (vecFun d.params l) ((start' key).table q l)) ∧
    Rounded (valueFor d key) ((start' key).table q E.base.setup.problem.dimension) := by
  by_cases hlt : q < (start key).rows
  · exfalso
    obtain ⟨l, hl, hfar⟩ := ha.2 key hk q hlt
    have := hn l hl
    rw [hc.kept q l hlt (by omega), abs_sub_comm] at this
    norm_num at this hfar
    linarith
  · obtain ⟨x, hx, hxl, hx'⟩ := hc.source q (by omega) hq
    obtain ⟨d', hd', rfl⟩ := (mem_samplesOf hk).1 hx
    obtain ⟨j, hj⟩ := List.getElem?_of_mem hd'
    have hlen := hd j d' hj
    have hin : ∀ l, l < E.base.setup.problem.dimension →
        Rounded (vecFun d'.params l) ((start' key).table q l) := by
      intro l hl
      have := hx' l (by omega)
      rwa [vecFun_append_lt (by omega), abs_sub_comm] at this
    have hval := hx' E.base.setup.problem.dimension (Nat.lt_succ_self _)
    rw [← hlen, vecFun_append_eq, hlen, abs_sub_comm] at hval
    by_cases hji : j = i
    · subst hji
      rw [hi] at hj
      cases hj
      exact ⟨hin, hval⟩
    · exfalso
      obtain ⟨l, hl, hfar⟩ := ha.1 j d' hj hji
      have h1 := hn l hl
      have h2 := (hin l hl).1
      rw [abs_sub_comm] at h1 h2
      have := abs_sub_le (vecFun d.params l) ((start' key).table q l) (vecFun d'.params l)
      norm_num at h1 h2 hfar
      linarith

end Campaign

/-- **C110**, with constraints: a simulated design that is feasible with a margin of half a unit of the twelfth
digit, and far from all other samples, is known to be feasible to the second optimization: it begins with a
feasible optimum that is at least as good, up to the rounding. -/
theorem C110_separate (h : TwoRuns E E' names names' m0 start s0 s0') {p : CampaignState ℝ × Res Unit}
    (hp : perform E true E.base.maxSamples (s0, m0) = p) :
    ∃ ds, RunOf E m0 start p ds ∧ ∀ (i : Nat) d, ds[i]? = some d → SafelyFeasible E.base d →
      StandsAlone E start ds i d →
      (optimum (secondBegins E' m0 p s0')).feasible = true ∧
      (optimum (secondBegins E' m0 p s0')).trueValue ≤ d.trueValue + 1 / 2 / 10 ^ 12 := by
  subst hp
  obtain ⟨ds, F, F', k, k', start', hR, hcol, hF, hF', hrow, o1, o2, o3, o4, o5⟩ := two_runs h
  refine ⟨ds, hR, fun i d hi hsafe ha => ?_⟩
  have hlen : ∀ (j : Nat) d, ds[j]? = some d → d.params.length = E.base.setup.problem.dimension :=
    fun j d hj => (hrow j d hj).1
  have hcn := hcol none (Or.inl rfl)
  -- the row of the design in a file
  have hfind : ∀ key, HasModel E key → ∃ q, q < (start' key).rows ∧
      (∀ l, l < E.base.setup.problem.dimension →
        Rounded (vecFun d.params l) ((start' key).table q l)) ∧
      Rounded (valueFor d key) ((start' key).table q E.base.setup.problem.dimension) := by
    intro key hk
    obtain ⟨-, q, hq, hclose⟩ := (hcol key hk).complete _
      ((mem_samplesOf hk).2 ⟨d, List.mem_of_getElem? hi, rfl⟩)
    refine ⟨q, hq, own_row hlen hi ha hk (hcol key hk) hq fun l hl => ?_⟩
    have := hclose l (by omega)
    rw [vecFun_append_lt (by rw [hlen i d hi]; exact hl)] at this
    refine this.trans ?_
    norm_num
  obtain ⟨q, hq, hqx, hqv⟩ := hfind none (Or.inl rfl)
  have hdig : SameDigits d.params ((List.range E.base.setup.problem.dimension).map ((start' none).table q)) := by
    refine List.forall₂_iff_get.2 ⟨by simp [hlen i d hi], fun l h1 h2 => ?_⟩
    have hl : l < E.base.setup.problem.dimension := by rwa [← hlen i d hi]
    have := hqx l hl
    unfold vecFun at this
    rw [List.getD_eq_getElem?_getD, List.getElem?_eq_getElem h1] at this
    simpa using this
  have hs' : StartFeasible E' start' q := by
    unfold StartFeasible
    rw [h.problem]
    right
    refine ⟨hsafe.box _ hdig, fun l c hl => ?_⟩
    unfold KnownAt
    rw [h.problem]
    cases hsrc : c.source with
    | user f => exact hsafe.user c (List.mem_of_getElem? hl) f hsrc _ hdig
    | data D =>
      dsimp only
      have hk : HasModel E (some l) := Or.inr ⟨l, c, D, rfl, hl, hsrc⟩
      obtain ⟨r, hr, hrx, -⟩ := hfind (some l) hk
      classical
      have hex : ∃ r, r < (start' (some l)).rows ∧ ∀ j, j < E.base.setup.problem.dimension →
          |(start' (some l)).table r j - (start' none).table q j| ≤ 1 / 10 ^ 8 := by
        refine ⟨r, hr, fun j hj => ?_⟩
        have h1 := (hrx j hj).1
        have h2 := (hqx j hj).1
        rw [abs_sub_comm] at h1
        have := abs_sub_le ((start' (some l)).table r j) (vecFun d.params j) ((start' none).table q j)
        norm_num at h1 h2 ⊢
        linarith
      obtain ⟨f1, f2⟩ := Nat.find_spec hex
      refine ⟨Nat.find hex, f1, ?_, f2, fun q' hq' hcon => Nat.find_min hex hq' ⟨by omega, hcon⟩⟩
      obtain ⟨-, g2⟩ := own_row hlen hi ha hk (hcol _ hk) f1 fun j hj => by
        have h1 := f2 j hj
        have h2 := (hqx j hj).1
        rw [abs_sub_comm] at h2
        have := abs_sub_le ((start' (some l)).table (Nat.find hex) j) ((start' none).table q j)
          (vecFun d.params j)
        norm_num at h1 h2 ⊢
        linarith
      have hll : l < d.constraintTrueValues.length := by
        rw [(hR.designs i d hi).1.size]
        exact (List.getElem?_eq_some_iff.1 hl).1
      refine hsafe.simulated l c D _ hl hsrc (List.getElem?_eq_getElem hll) _ ?_
      unfold valueFor at g2
      dsimp only at g2
      rwa [List.getD_eq_getElem?_getD, List.getElem?_eq_getElem hll] at g2
  have hrow' := startFeasible_row hF' hq hs'
  rw [h.problem] at hrow'
  obtain ⟨r1, r2⟩ := optimum_le o4 hq hrow'
  refine ⟨r1, ?_⟩
  rw [o5]
  refine r2.trans ?_
  rw [hF'.1 q _ hq (by rw [h.problem])]
  have := (abs_le.1 hqv.1).1
  unfold valueFor at this
  dsimp only at this
  linarith

/-- **C110**, rounding and the box: parameters in a box whose bounds have at most twelve digits after the point
are still in the box when they are rounded to twelve digits. -/
theorem C110_rounding {lb ub x y : List ℝ} (hl : ∀ l ∈ lb, Decimals 12 l) (hu : ∀ u ∈ ub, Decimals 12 u)
    (hx : InBox lb ub x) (hy : SameDigits x y) : InBox lb ub y := by
  obtain ⟨h1, h2, h3⟩ := hx
  have hlen := hy.length_eq
  refine ⟨by omega, by omega, fun i l u w el eu ew => ?_⟩
  have hi : i < x.length := by
    rw [hlen]; exact (List.getElem?_eq_some_iff.1 ew).1
  have hv := List.getElem?_eq_getElem hi
  obtain ⟨a, b⟩ := h3 i l u _ el eu hv
  have hr : Rounded x[i] w := by
    have := List.forall₂_iff_get.1 hy |>.2 i hi (by omega)
    obtain ⟨hw, rfl⟩ := List.getElem?_eq_some_iff.1 ew
    simpa using this
  obtain ⟨hr1, ⟨zw, hzw⟩⟩ := hr
  obtain ⟨zl, hzl⟩ := hl l (List.mem_of_getElem? el)
  obtain ⟨zu, hzu⟩ := hu u (List.mem_of_getElem? eu)
  obtain ⟨r1, r2⟩ := abs_le.1 hr1
  constructor
  · by_contra hlt
    have h4 : w * 10 ^ 12 < l * 10 ^ 12 := by
      have : w < l := not_le.1 hlt
      exact mul_lt_mul_of_pos_right this (by norm_num)
    rw [hzw, hzl] at h4
    have h5 : zw + 1 ≤ zl := by exact_mod_cast h4
    have h6 : (zw : ℝ) + 1 ≤ zl := by exact_mod_cast h5
    rw [← hzw, ← hzl] at h6
    norm_num at r1 r2 h6
    linarith
  · by_contra hlt
    have h4 : u * 10 ^ 12 < w * 10 ^ 12 := by
      have : u < w := not_le.1 hlt
      exact mul_lt_mul_of_pos_right this (by norm_num)
    rw [hzw, hzu] at h4
    have h5 : zu + 1 ≤ zw := by exact_mod_cast h4
    have h6 : (zu : ℝ) + 1 ≤ zw := by exact_mod_cast h5
    rw [← hzw, ← hzu] at h6
    norm_num at r1 r2 h6
    linarith

/-! ## Pairs of optimizations -/

namespace RestartDemo

/-- Minimize a constant `v` over `[lo, hi]`, without constraints or with one simulated constraint, which is
always 1 and must be more than `1/2`. -/
noncomputable def env (con : Bool) (lo hi v : ℝ) : CampaignEnv ℝ where
  base := {
    setup := ⟨⟨1, [lo], [hi], true, if con then [⟨0, ['>'], 1 / 2, .data ⟨0, 0, []⟩⟩] else []⟩, [], [], 2, 1⟩
    maxSamples := 1
    howOften := 1
    variableSigma := true
    constraintNames := if con then [['c']] else []
    objective := fun _ _ => .ok v
    constraint := fun _ _ _ => .ok 1
    isNan := fun x => decide (x = 7)
    initSurrogates := .ok ()
    train := fun _ => .ok ()
    surrogate := fun _ => ⟨fun _ => 0, fun _ => 0⟩
    search := fun _ => ⟨fun i _ => if i = 0 then 3 / 4 else 1 / 4, fun _ _ => 1 / 2, ⟨2, id, [0, 1, 0, 1]⟩,
      ⟨1, fun _ => 0, [0, 0]⟩⟩
    addSample := fun _ _ _ => .ok ()
    sigmaDraw := fun n => (n, 2)
    fuel := 27 }
  fns := realFns
  erf := realErf
  permInit := fun _ _ => List.range
  permInitL := fun _ _ => List.range
  permAdd := fun _ _ => List.range
  permAddL := fun _ _ => List.range
  draws := fun _ _ _ => ⟨fun _ => .ok 0, fun _ => 0, fun _ _ => 0, fun _ => 0, fun _ => 0, 10⟩
  schedule := fun _ _ => []

noncomputable def models (lo hi : ℝ) (ta tb : Str) : Models ℝ where
  fn key := ⟨['f'], if key = none then ['a'] else ['b'], .ordinary, 1, ⟨[lo], [hi], 1, true⟩, true, true, 100,
    false, false, Kriging.new⟩
  files name := if name = ['a'] then some ta else if name = ['b'] then some tb else none

/-- Two rows `x, 1` and `y, 1`. -/
noncomputable def table (x y : ℝ) (i j : Nat) : ℝ := if j = 0 then (if i = 0 then x else y) else 1

/-- The training data files at the beginning. -/
noncomputable def begins (ta tb : Str) (A B : Nat → Nat → ℝ) : Option Nat → TrainingFile := fun key =>
  if key = none then ⟨ta, 2, A⟩ else ⟨tb, 2, B⟩

theorem text_of {x y : ℝ} (hx : Decimals 5 x) (hy : Decimals 5 y) :
    ∃ text : Str, text.getLast? = some '\n' ∧ DataFile (some text) 2 1 (table x y) := by
  have hA : IsMat (⟨2, 2, [x, y, 1, 1]⟩ : Mat ℝ) 2 2 (table x y) := by
    refine isMat_iff.2 ⟨rfl, rfl, rfl, ?_⟩
    intro i j hi hj
    rcases (by omega : i = 0 ∨ i = 1) with rfl | rfl <;>
      rcases (by omega : j = 0 ∨ j = 1) with rfl | rfl <;> simp [table]
  obtain ⟨text, B, G, h1, h2, h3, -, h5⟩ := C50_roundtrip hA (by norm_num) 5 [] (Or.inl rfl) (by simp)
  refine ⟨text, ?_, B, h2, h3.congr fun i j hi hj => ?_⟩
  · rw [saveAsCSV_ok hA 5 [] (Or.inl rfl)] at h1
    rw [← (Prod.mk.inj h1).1]
    simp [csvText, List.range_succ, List.getLast?_cons, List.getLast?_append]
  refine h5 i j hi hj ?_
  unfold table
  split_ifs
  · exact hx
  · exact hy
  · exact ⟨10 ^ 5, by norm_num⟩

theorem hasModel {con : Bool} {lo hi v : ℝ} {key : Option Nat} (h : HasModel (env con lo hi v) key) :
    key = none ∨ (con = true ∧ key = some 0) := by
  rcases h with h | ⟨k, c, D, rfl, h1, h2⟩
  · exact Or.inl h
  · right
    cases con with
    | true =>
      match k with
      | 0 => exact ⟨rfl, rfl⟩
      | k + 1 => simp [env] at h1
    | false => simp [env] at h1

theorem proper {ta tb : Str} {A B : Nat → Nat → ℝ} (hta : ta.getLast? = some '\n')
    (hA : DataFile (some ta) 2 1 A) (htb : tb.getLast? = some '\n') (hB : DataFile (some tb) 2 1 B)
    (con : Bool) {lo hi : ℝ} (hlo : lo < hi) (v : ℝ) :
    ProperCampaign (env con lo hi v) [] (models lo hi ta tb) (begins ta tb A B) where
  fns := rfl
  boxSet := rfl
  box := by
    refine ⟨Nat.one_pos, rfl, rfl, ?_⟩
    intro i l u hl hu
    match i with
    | 0 => simp [env] at hl hu; subst hl hu; exact hlo
    | i + 1 => simp [env] at hl
  discrete := ⟨rfl, rfl, rfl, by simp [SearchSetup.discrete, env], by simp [SearchSetup.discrete, env]⟩
  few := by simp [FewValues, SearchSetup.discrete, env]
  constraints := by
    intro i c hc
    cases con with
    | false => simp [env] at hc
    | true =>
      match i with
      | 0 => simp [env] at hc; subst hc; exact ⟨Or.inr rfl, by norm_num, by norm_num, rfl⟩
      | i + 1 => simp [env] at hc
  constraintNames := by cases con <;> simp [env]
  names := Or.inl rfl
  functions := fun key _ => ⟨⟨by simp [models], by simp only [models]; split_ifs <;> simp, by simp [models],
    by simp [models], rfl, rfl, rfl, rfl⟩, rfl⟩
  files := by
    intro key hk
    rcases hasModel hk with rfl | ⟨-, rfl⟩
    · exact ⟨by simp [Models.file, models, begins], hta, hA⟩
    · exact ⟨by simp [Models.file, models, begins], htb, hB⟩
  distinct := by
    intro key key' h1 h2 h
    rcases hasModel h1 with rfl | ⟨-, rfl⟩ <;> rcases hasModel h2 with rfl | ⟨-, rfl⟩ <;> simp [models] at h ⊢
  shuffles := fun _ _ n => ⟨.refl _, .refl _, .refl _, .refl _⟩
  draws := by
    intro i key t
    simp [Draws, env]
  howOften := by simp [env]
  maxSamples := by simp [env]
  fuel := le_refl _
  complete := by
    intro n i j
    simp only [env]
    split_ifs <;> norm_num
  around := by
    intro n i j
    simp only [env]
    norm_num

theorem sane (con : Bool) (lo hi v : ℝ) : Sane (env con lo hi v).base where
  user := by
    intro c hc f x hs
    cases con with
    | false => simp [env] at hc
    | true => simp [env] at hc; subst hc; cases hs
  zero := by simp [env]

theorem delivers (con : Bool) (lo hi : ℝ) {v : ℝ} (hv : v < 7) (n : Nat) :
    DeliversAt (env con lo hi v).base n where
  objective := fun x => ⟨v, rfl, by simp only [env, decide_eq_false_iff_not]; exact hv.ne⟩
  constraint := fun k x => ⟨1, rfl, by simp [env]⟩

/-- The two runs, both with the same settings. -/
theorem runs {xa ya xb yb : ℝ} (h1 : Decimals 5 xa) (h2 : Decimals 5 ya) (h3 : Decimals 5 xb)
    (h4 : Decimals 5 yb) (con : Bool) {lo hi v : ℝ} (hlo : lo < hi) (hv : v < 7) :
    ∃ m0 ta tb s0, TwoRuns (env con lo hi v) (env con lo hi v) [] [] m0
      (begins ta tb (table xa ya) (table xb yb)) s0 s0 := by
  obtain ⟨ta, hta, hA⟩ := text_of h1 h2
  obtain ⟨tb, htb, hB⟩ := text_of h3 h4
  have hP := proper hta hA htb hB con hlo v
  obtain ⟨s0, -, -, e0, -⟩ := run_campaign hP (sane con lo hi v) (fun n => Or.inl (delivers con lo hi hv n))
  have hbig : (7 : ℝ) ≤ 10 ^ 300 := by
    calc (7 : ℝ) ≤ 10 ^ 1 := by norm_num
      _ ≤ 10 ^ 300 := pow_le_pow_right₀ (by norm_num) (by norm_num)
  refine ⟨_, ta, tb, s0, hP, hP, rfl, sane _ _ _ _, sane _ _ _ _, fun n => Or.inl (delivers con lo hi hv n),
    ⟨?_, ?_⟩, e0, e0⟩
  · intro i hi
    have : (begins ta tb (table xa ya) (table xb yb) none).table i 1 = 1 := by simp [begins, table]
    show (begins ta tb (table xa ya) (table xb yb) none).table i 1 < _
    rw [this]
    exact lt_of_lt_of_le (by norm_num) hbig
  · intro n x w hw
    cases hw
    exact lt_of_lt_of_le hv hbig

/-- Exactly one design is simulated. -/
theorem one_design {con : Bool} {lo hi v : ℝ} (hv : v < 7) {m0 : Models ℝ} {start : Option Nat → TrainingFile}
    {p : CampaignState ℝ × Res Unit} {ds : List (Design ℝ)} (h : RunOf (env con lo hi v) m0 start p ds) :
    ∃ d x, ds = [d] ∧ d.params = [x] ∧ lo ≤ x ∧ x ≤ hi ∧ d.trueValue = v ∧ d.feasible = true ∧
      (con = true → d.constraintTrueValues = [1]) := by
  have hl : ds.length = 1 := by
    rcases h.ended with ⟨s, m, a1, a2⟩ | ⟨s, m, m1, e, a1, a2, a3, a4, a5⟩ |
      ⟨s1, s, m, x, e, a1, a2, a3, a4, a5, a6, a7, a8⟩
    · exact a1
    · have : (ds.length + 1) % 1 = 1 := a2
      omega
    · exact absurd a2 (not_fails (delivers con lo hi hv _))
  match ds, hl with
  | [d], _ =>
    have hs := (h.designs 0 d rfl).1
    obtain ⟨b1, b2, b3⟩ := hs.box
    have b1 : d.params.length = 1 := b1
    have ho : v = d.trueValue := Except.ok.inj hs.objective
    have hcv : con = true → d.constraintTrueValues = [1] := by
      intro hc
      subst hc
      have hsz : d.constraintTrueValues.length = 1 := hs.size
      obtain ⟨w, w1, w2⟩ := hs.constraints 0 _ rfl
      have w2 : (Except.ok 1 : Res ℝ) = .ok w := w2
      cases w2
      match hd : d.constraintTrueValues, hsz with
      | [a], _ => rw [hd] at w1; simpa using w1
    match hx : d.params, b1 with
    | [x], _ =>
      obtain ⟨c1, c2⟩ := b3 0 lo hi x rfl rfl (by rw [hx]; rfl)
      refine ⟨d, x, rfl, hx, c1, c2, ho.symm, ?_, hcv⟩
      rw [hs.feasible]
      intro k c w hk hw
      cases con with
      | false => simp [env] at hk
      | true =>
        match k with
        | 0 =>
          simp [env] at hk
          subst hk
          rw [hcv rfl] at hw
          simp at hw
          subst hw
          exact Or.inr ⟨rfl, by norm_num⟩
        | k + 1 => simp [env] at hk

end RestartDemo

open RestartDemo

/-- C110 is false in full: the first optimization finds a feasible design with the value 0.  Its constraint value
is not stored, since the training data of the constraint have a row within `1e-4` (outside the box); but when
the second optimization looks for the constraint value of this design, it accepts only rows within `1e-8`, and
so the design counts as infeasible: the second optimization begins without a feasible design. -/
theorem C110_false : ¬ C110_full := by
  intro hfull
  obtain ⟨m0, ta, tb, s0, h⟩ := runs (xa := 3 / 10 ^ 5) (ya := 4 / 10 ^ 5) (xb := 0) (yb := 7 / 10 ^ 5)
    ⟨3, by norm_num⟩ ⟨4, by norm_num⟩ ⟨0, by norm_num⟩ ⟨7, by norm_num⟩ true
    (lo := 3 / 10 ^ 5) (hi := 4 / 10 ^ 5) (v := 0) (by norm_num) (by norm_num)
  have hf := hfull _ _ _ _ _ _ _ _ h _ rfl
  obtain ⟨ds, F, F', k, k', start', hR, hcol, hF, hF', hrow, o1, o2, o3, o4, o5⟩ := two_runs h
  obtain ⟨d, x, rfl, hx, x1, x2, hval, hfeas, hcv⟩ := one_design (by norm_num) hR
  have h1 : FeasibleRow F 5 2 := by
    have := (hrow 0 d rfl).2.2
    rw [if_pos hfeas] at this
    exact flag_feasible (M := 3) this
  have hopt := (optimum_le o1 (i := 2) (by show 2 < 2 + 1; norm_num) h1).1
  have hf := (hf hopt).1
  -- the file of the constraint is what it was
  have hcs := hcol (some 0) (Or.inr ⟨0, _, _, rfl, rfl, rfl⟩)
  have hmem : ∀ y ∈ samplesOf (some 0) ([d].flatMap (newSamples (env true (3 / 10 ^ 5) (4 / 10 ^ 5) 0).base)),
      y = [x, 1] := by
    intro y hy
    obtain ⟨d', hd', rfl⟩ := (mem_samplesOf (E := env true (3 / 10 ^ 5) (4 / 10 ^ 5) 0)
      (Or.inr ⟨0, _, _, rfl, rfl, rfl⟩)).1 hy
    rw [List.mem_singleton] at hd'
    subst hd'
    simp [valueFor, hx, hcv rfl]
  have hrows : (start' (some 0)).rows = 2 := by
    have hle : 2 ≤ (start' (some 0)).rows := hcs.le
    by_contra hne
    have h2 : 2 < (start' (some 0)).rows := by omega
    obtain ⟨y, hy, -, hy'⟩ := hcs.source 2 le_rfl h2
    rw [hmem y hy] at hy'
    obtain ⟨j, hj, hj'⟩ := hcs.separated 0 2 (by norm_num) le_rfl h2
    have e0 : (start' (some 0)).table 0 j = table 0 (7 / 10 ^ 5) 0 j := hcs.kept 0 j (by show 0 < 2; norm_num) hj
    rw [e0] at hj'
    have hj : j < 2 := hj
    have b1 := abs_le.1 (hy' 0 (by show 0 < 2; norm_num)).1
    have b2 := abs_le.1 (hy' 1 (by show 1 < 2; norm_num)).1
    rcases (by omega : j = 0 ∨ j = 1) with rfl | rfl
    · norm_num [table, vecFun] at b1 hj' x1 x2
      rw [lt_abs] at hj'
      rcases hj' with hj' | hj' <;> linarith
    · norm_num [table, vecFun] at b2 hj'
      rw [lt_abs] at hj'
      rcases hj' with hj' | hj' <;> linarith
  have hall : ∀ i, i < (start' none).rows → ¬ FeasibleRow F' 5 i := by
    intro i hi hfi
    have hs := row_startFeasible hF' hi hfi
    rcases hs with hs | ⟨-, hs⟩
    · cases hs
    · obtain ⟨r, r1, -, r3, -⟩ := hs 0 _ rfl
      rw [hrows] at r1
      have r3 := abs_le.1 (r3 0 Nat.one_pos)
      have e0 : (start' (some 0)).table r 0 = table 0 (7 / 10 ^ 5) r 0 := hcs.kept r 0 r1 Nat.zero_lt_two
      rw [e0] at r3
      have hcn := hcol none (Or.inl rfl)
      have hb : 3 / 10 ^ 5 - 1 / 10 ^ 6 ≤ (start' none).table i 0 ∧
          (start' none).table i 0 ≤ 4 / 10 ^ 5 + 1 / 10 ^ 6 := by
        by_cases hlt : i < 2
        · have : (start' none).table i 0 = table (3 / 10 ^ 5) (4 / 10 ^ 5) i 0 :=
            hcn.kept i 0 hlt Nat.zero_lt_two
          rw [this]
          rcases (by omega : i = 0 ∨ i = 1) with rfl | rfl <;> norm_num [table]
        · obtain ⟨y, hy, -, hy'⟩ := hcn.source i (by show 2 ≤ i; omega) hi
          obtain ⟨d', hd', rfl⟩ := mem_samplesOf_none.1 hy
          rw [List.mem_singleton] at hd'
          subst hd'
          have b := abs_le.1 (hy' 0 Nat.zero_lt_two).1
          norm_num [hx, vecFun] at b x1 x2 ⊢
          constructor <;> linarith
      rcases (by omega : r = 0 ∨ r = 1) with rfl | rfl <;>
        norm_num [table] at r3 hb <;> linarith
  have := (o4.2.2 hall).1
  rw [hf] at this
  cases this

/-- The tolerance in `C110_partial` is needed: without constraints, the first optimization finds a design with the
value `1 - 1e-5`, which is not stored, since the training data have a row within `1e-4`; the second
optimization begins with the value 1. -/
theorem C110_tolerance : ∃ E m0 start s0, TwoRuns E E [] [] m0 start s0 s0 ∧
    E.base.setup.problem.constraints = [] ∧ ∀ p, perform E true E.base.maxSamples (s0, m0) = p →
      (optimum p).trueValue + 1 / 10 ^ 5 ≤ (optimum (secondBegins E m0 p s0)).trueValue := by
  obtain ⟨m0, ta, tb, s0, h⟩ := runs (xa := 3 / 10 ^ 5) (ya := 4 / 10 ^ 5) (xb := 0) (yb := 7 / 10 ^ 5)
    ⟨3, by norm_num⟩ ⟨4, by norm_num⟩ ⟨0, by norm_num⟩ ⟨7, by norm_num⟩ false
    (lo := 3 / 10 ^ 5) (hi := 4 / 10 ^ 5) (v := 1 - 1 / 10 ^ 5) (by norm_num) (by norm_num)
  refine ⟨_, m0, _, s0, h, rfl, ?_⟩
  rintro p rfl
  obtain ⟨ds, F, F', k, k', start', hR, hcol, hF, hF', hrow, o1, o2, o3, o4, o5⟩ := two_runs h
  obtain ⟨d, x, rfl, hx, x1, x2, hval, hfeas, -⟩ := one_design (by norm_num) hR
  have h1 : FeasibleRow F 4 2 := by
    have := (hrow 0 d rfl).2.2
    rw [if_pos hfeas] at this
    exact flag_feasible (M := 2) this
  have hopt := (optimum_le o1 (i := 2) (by show 2 < 2 + 1; norm_num) h1).2
  have e2 : F 2 1 = 1 - 1 / 10 ^ 5 := (hrow 0 d rfl).2.1.trans hval
  have hcn := hcol none (Or.inl rfl)
  have hrows : (start' none).rows = 2 := by
    have hle : 2 ≤ (start' none).rows := hcn.le
    by_contra hne
    have h2 : 2 < (start' none).rows := by omega
    obtain ⟨y, hy, -, hy'⟩ := hcn.source 2 le_rfl h2
    obtain ⟨d', hd', rfl⟩ := mem_samplesOf_none.1 hy
    rw [List.mem_singleton] at hd'
    subst hd'
    obtain ⟨j, hj, hj'⟩ := hcn.separated 0 2 (by norm_num) le_rfl h2
    have e0 : (start' none).table 0 j = table (3 / 10 ^ 5) (4 / 10 ^ 5) 0 j :=
      hcn.kept 0 j (by show 0 < 2; norm_num) hj
    rw [e0] at hj'
    have hj : j < 2 := hj
    have b1 := abs_le.1 (hy' 0 (by show 0 < 2; norm_num)).1
    have b2 := abs_le.1 (hy' 1 (by show 1 < 2; norm_num)).1
    rcases (by omega : j = 0 ∨ j = 1) with rfl | rfl
    · norm_num [table, vecFun, hx] at b1 hj' x1 x2
      rw [lt_abs] at hj'
      rcases hj' with hj' | hj' <;> linarith
    · norm_num [table, vecFun, hx, hval] at b2 hj'
      rw [lt_abs] at hj'
      rcases hj' with hj' | hj' <;> linarith
  have hk' : k' < 2 := by rw [← hrows]; exact o4.1
  have e3 : F' k' 1 = 1 := by
    have a1 : F' k' 1 = (start' none).table k' 1 := hF'.1 k' 1 o4.1 le_rfl
    have a2 : (start' none).table k' 1 = table (3 / 10 ^ 5) (4 / 10 ^ 5) k' 1 :=
      hcn.kept k' 1 hk' (by show 1 < 2; norm_num)
    rw [a1, a2]
    simp [table]
  rw [o2, o5]
  have hopt : F k 1 ≤ F 2 1 := hopt
  show F k 1 + 1 / 10 ^ 5 ≤ F' k' 1
  rw [e3]
  rw [e2] at hopt
  linarith

-- C110: the hypotheses of `C110_partial` are met by the two runs of `C110_tolerance`.
example : ∃ E m0 start s0, TwoRuns E E [] [] m0 start s0 s0 ∧ E.base.setup.problem.constraints = [] := by
  obtain ⟨E, m0, start, s0, h1, h2, -⟩ := C110_tolerance
  exact ⟨E, m0, start, s0, h1, h2⟩

-- C110: a feasible optimum that is one of the initial designs (the simulated design has the value 5).
example : ∃ E m0 start s0, TwoRuns E E [] [] m0 start s0 s0 ∧ E.base.setup.problem.constraints ≠ [] ∧
    (optimum (perform E true E.base.maxSamples (s0, m0))).feasible = true ∧
    (optimum (perform E true E.base.maxSamples (s0, m0))).id < (start none).rows := by
  obtain ⟨m0, ta, tb, s0, h⟩ := runs (xa := 3 / 10 ^ 5) (ya := 4 / 10 ^ 5) (xb := 3 / 10 ^ 5) (yb := 4 / 10 ^ 5)
    ⟨3, by norm_num⟩ ⟨4, by norm_num⟩ ⟨3, by norm_num⟩ ⟨4, by norm_num⟩ true
    (lo := 3 / 10 ^ 5) (hi := 4 / 10 ^ 5) (v := 5) (by norm_num) (by norm_num)
  refine ⟨_, m0, _, s0, h, by simp [env], ?_⟩
  obtain ⟨ds, F, F', k, k', start', hR, hcol, hF, hF', hrow, o1, o2, o3, o4, o5⟩ := two_runs h
  obtain ⟨d, x, rfl, hx, x1, x2, hval, hfeas, -⟩ := one_design (by norm_num) hR
  have h0 : FeasibleRow F 5 0 := by
    refine startFeasible_row hF (i := 0) Nat.zero_lt_two (Or.inr ⟨?_, ?_⟩)
    · refine ⟨rfl, rfl, ?_⟩
      intro i l u w hl hu hw
      match i with
      | 0 =>
        simp [env, begins, table, List.range_succ] at hl hu hw
        subst hl hu hw
        norm_num
      | i + 1 => simp [env] at hl
    · intro l c hl
      match l with
      | 0 =>
        simp [env] at hl
        subst hl
        refine ⟨0, Nat.zero_lt_two, Or.inr ⟨rfl, ?_⟩, ?_, fun q hq => absurd hq (Nat.not_lt_zero q)⟩
        · show (2 : ℝ)⁻¹ < table (3 / 10 ^ 5) (4 / 10 ^ 5) 0 1
          norm_num [table]
        · intro j hj
          simp [begins]
      | l + 1 => simp [env] at hl
  obtain ⟨a1, a2⟩ := optimum_le o1 (i := 0) (by show 0 < 2 + 1; norm_num) h0
  refine ⟨a1, ?_⟩
  rw [o3]
  have hk : k < 3 := o1.1
  by_contra hge
  have hk2 : k = 2 := by
    have : ¬ ((k : Int) < ((2 : Nat) : Int)) := hge
    omega
  subst hk2
  have e2 : F 2 1 = 5 := (hrow 0 d rfl).2.1.trans hval
  have e0 : F 0 1 = 1 := by
    have a1 : F 0 1 = table (3 / 10 ^ 5) (4 / 10 ^ 5) 0 1 := hF.1 0 1 Nat.zero_lt_two le_rfl
    rw [a1]
    simp [table]
  have a2 : F 2 1 ≤ F 0 1 := a2
  rw [e2, e0] at a2
  norm_num at a2

-- C110: a simulated design that is safely feasible and stands alone.
example : ∃ E m0 start s0, TwoRuns E E [] [] m0 start s0 s0 ∧ E.base.setup.problem.constraints ≠ [] ∧
    ∀ ds, RunOf E m0 start (perform E true E.base.maxSamples (s0, m0)) ds →
      ∃ d, ds[0]? = some d ∧ SafelyFeasible E.base d ∧ StandsAlone E start ds 0 d := by
  obtain ⟨m0, ta, tb, s0, h⟩ := runs (xa := -1) (ya := 3) (xb := -1) (yb := 3)
    ⟨-10 ^ 5, by norm_num⟩ ⟨3 * 10 ^ 5, by norm_num⟩ ⟨-10 ^ 5, by norm_num⟩ ⟨3 * 10 ^ 5, by norm_num⟩ true
    (lo := 0) (hi := 2) (v := 0) (by norm_num) (by norm_num)
  refine ⟨_, m0, _, s0, h, by simp [env], fun ds hR => ?_⟩
  have hbox := fun d hd => (hR.designs 0 d hd).1.box
  obtain ⟨d, x, rfl, hx, x1, x2, hval, hfeas, hcv⟩ := one_design (by norm_num) hR
  refine ⟨d, rfl, ⟨?_, ?_, ?_⟩, ?_, ?_⟩
  · intro y hy
    refine C110_rounding ?_ ?_ (hbox d rfl) hy
    · intro l hl
      simp [env] at hl
      subst hl
      exact ⟨0, by norm_num⟩
    · intro l hl
      simp [env] at hl
      subst hl
      exact ⟨2 * 10 ^ 12, by norm_num⟩
  · intro c hc f hs
    simp [env] at hc
    subst hc
    cases hs
  · intro l c D w hl hs hw w' hr
    match l with
    | 0 =>
      simp [env] at hl
      subst hl
      rw [hcv rfl] at hw
      simp at hw
      subst hw
      have := abs_le.1 hr.1
      norm_num at this
      exact Or.inr ⟨rfl, by norm_num; linarith⟩
    | l + 1 => simp [env] at hl
  · intro j d' hj hne
    match j with
    | 0 => exact absurd rfl hne
    | j + 1 => simp at hj
  · intro key hk r hr
    refine ⟨0, Nat.one_pos, ?_⟩
    have hr2 : r < 2 := by
      rcases hasModel hk with rfl | ⟨-, rfl⟩ <;> exact hr
    have ht : (begins ta tb (table (-1) 3) (table (-1) 3) key).table r 0 = table (-1) 3 r 0 := by
      unfold begins; split_ifs <;> rfl
    rw [ht]
    rcases (by omega : r = 0 ∨ r = 1) with rfl | rfl
    · norm_num [table, vecFun, hx]
      rw [lt_abs]
      left
      linarith
    · norm_num [table, vecFun, hx]
      rw [lt_abs]
      right
      linarith

end Rodeo
