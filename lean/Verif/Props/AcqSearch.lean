import Verif.Lemmas.AcqSearch
import Verif.Lemmas.InitHistory
import Verif.Props.TrustRegion
import Verif.Props.Rounding

/-! # C26, C27, C66: the search for the most promising design -/

set_option linter.unusedSectionVars false

namespace Rodeo

open Spec

variable {K : Type} [Field K] [LinearOrder K] [IsStrictOrderedRing K]

/-! ## C26: the recorded design -/

/-- C26 in full: whatever the execution, the global search records the best of its candidates. -/
def C26_full (K : Type) [Field K] [LinearOrder K] [IsStrictOrderedRing K] : Prop :=
  ∀ (E : Acq K) (dim n : Nat) (lb ub : List K) (x : Execution) (u : Nat → Nat → K)
    (best r : BODesign K) (cs : List (BODesign K)),
    tab n (fun i => candidate E dim lb ub (u i)) = .ok cs → ValidExecution x best cs →
    searchComplete E dim n lb ub x u best = .ok r → IsBestOf best cs r

namespace SearchDemo

/-- The acquisition value is the first parameter. -/
def acq : Acq ℚ := ⟨fun x => x.headD 0, fun _ => 1⟩

/-- The two draws: 3/4, then 1/4. -/
def draws : Nat → Nat → ℚ := fun i _ => if i = 0 then 3 / 4 else 1 / 4

/-- Two threads, one candidate each: both test before either assigns, and the better one assigns
first. -/
def race : Execution := ⟨2, id, [0, 1, 0, 1]⟩

/-- Two threads, one candidate each: each assigns right after its test. -/
def calm : Execution := ⟨2, id, [1, 1, 0, 0]⟩

def first : BODesign ℚ := ⟨[0], -1⟩

theorem cands : tab 2 (fun i => candidate acq 1 [0] [1] (draws i)) =
    .ok [⟨[3 / 4], 3 / 4⟩, ⟨[1 / 4], 1 / 4⟩] := by decide +kernel

theorem race_valid : ValidExecution race first [⟨[3 / 4], 3 / 4⟩, ⟨[1 / 4], 1 / 4⟩] := by
  refine ⟨?_, by decide, ?_⟩
  · intro i hi; simpa [race] using hi
  · intro t ht
    have e : ((SearchState.start first (chunks race [⟨[3 / 4], 3 / 4⟩, ⟨[1 / 4], 1 / 4⟩])).run
        race.schedule).threads = [⟨[], none⟩, ⟨[], none⟩] := by
      have : chunks race [⟨[3 / 4], 3 / 4⟩, ⟨[1 / 4], 1 / 4⟩] =
        [[(⟨[3 / 4], 3 / 4⟩ : BODesign ℚ)], [⟨[1 / 4], 1 / 4⟩]] := by decide +kernel
      rw [this]
      norm_num [SearchState.start, SearchState.run, SearchState.step, SearchState.threadStep, race, first]
    rw [e] at ht
    simp only [List.mem_cons, List.not_mem_nil, or_false, or_self] at ht
    subst ht
    exact ⟨rfl, rfl⟩

end SearchDemo

/-- Two threads may test their candidates one after the other and assign them in any order: the worse
design can be recorded. -/
theorem C26_false : ¬ C26_full ℚ := by
  intro h
  have hr : searchComplete SearchDemo.acq 1 2 [0] [1] SearchDemo.race SearchDemo.draws SearchDemo.first
      = .ok ⟨[1 / 4], 1 / 4⟩ := by decide +kernel
  have := (h _ _ _ _ _ _ _ _ _ _ SearchDemo.cands SearchDemo.race_valid hr).2.2 ⟨[3 / 4], 3 / 4⟩
    List.mem_cons_self
  norm_num at this

theorem search_best {x : Execution} {best : BODesign K} {cs : List (BODesign K)}
    (hx : ValidExecution x best cs)
    (hu : Uninterrupted (SearchState.start best (chunks x cs)) x.schedule) :
    IsBestOf best cs ((SearchState.start best (chunks x cs)).run x.schedule).shared := by
  obtain ⟨h1, -, h3⟩ := hx
  have hi := (SearchState.Inv.start best (chunks x cs)).run x.schedule
  have hb := (SearchState.Best.start best (chunks x cs)).run x.schedule hu
  refine ⟨search_mem x cs best, ?_, ?_⟩
  · rcases hi.shared with e | ⟨-, e⟩
    · rw [e]
    · exact e.le
  · intro c hc
    rcases hb.seen c (mem_chunks h1 hc) with ⟨t, ht, hm⟩ | h | ⟨t, ht, c', hm, -⟩
    · rw [(h3 t ht).1] at hm; cases hm
    · exact h
    · rw [(h3 t ht).2] at hm; cases hm

theorem search_some {x : Execution} {best : BODesign K} {cs : List (BODesign K)}
    (hx : ValidExecution x best cs) :
    let r := ((SearchState.start best (chunks x cs)).run x.schedule).shared
    (r = best ∧ ∀ c ∈ cs, c.value ≤ best.value) ∨ (r ∈ cs ∧ best.value < r.value) := by
  obtain ⟨h1, -, h3⟩ := hx
  have hi := (SearchState.Inv.start best (chunks x cs)).run x.schedule
  rcases hi.shared with e | e
  · left
    refine ⟨e, ?_⟩
    intro c hc
    by_contra hlt
    rcases hi.seen c (mem_chunks h1 hc) (not_le.1 hlt) with ⟨t, ht, hm⟩ | h | ⟨t, ht, hm⟩
    · rw [(h3 t ht).1] at hm; cases hm
    · rw [e] at h; exact lt_irrefl _ h
    · exact hm (h3 t ht).2
  · exact Or.inr ⟨mem_chunks_sub e.1, e.2⟩

/-- C26 for the executions in which no thread is interrupted between test and assignment, any number of
threads.
Missing: the other executions, for which it is false (`C26_false`); see `C26_some_candidate`. -/
theorem C26_partial {E : Acq K} {dim n : Nat} {lb ub : List K} {x : Execution} {u : Nat → Nat → K}
    {best r : BODesign K} {cs : List (BODesign K)}
    (hcs : tab n (fun i => candidate E dim lb ub (u i)) = .ok cs) (hx : ValidExecution x best cs)
    (hu : Uninterrupted (SearchState.start best (chunks x cs)) x.schedule)
    (hr : searchComplete E dim n lb ub x u best = .ok r) : IsBestOf best cs r := by
  unfold searchComplete at hr
  split_ifs at hr
  rw [bind_eq hcs rfl] at hr
  cases hr
  exact search_best hx hu

/-- In particular with one thread. -/
theorem C26_single_thread {E : Acq K} {dim n : Nat} {lb ub : List K} {x : Execution}
    {u : Nat → Nat → K} {best r : BODesign K} {cs : List (BODesign K)}
    (hcs : tab n (fun i => candidate E dim lb ub (u i)) = .ok cs) (hx : ValidExecution x best cs)
    (h1 : x.threads = 1) (hr : searchComplete E dim n lb ub x u best = .ok r) :
    IsBestOf best cs r := by
  refine C26_partial hcs hx (SearchState.uninterrupted_single _ _ ?_ ?_) hr
  · simp [SearchState.start, chunks, h1]
  · intro i hi
    have := hx.2.1 i hi
    omega

/-- Whatever the execution: if some candidate beats the start, the recorded design is a candidate that
beats the start; otherwise the start is kept. -/
theorem C26_some_candidate {E : Acq K} {dim n : Nat} {lb ub : List K} {x : Execution}
    {u : Nat → Nat → K} {best r : BODesign K} {cs : List (BODesign K)}
    (hcs : tab n (fun i => candidate E dim lb ub (u i)) = .ok cs) (hx : ValidExecution x best cs)
    (hr : searchComplete E dim n lb ub x u best = .ok r) :
    (r = best ∧ ∀ c ∈ cs, c.value ≤ best.value) ∨ (r ∈ cs ∧ best.value < r.value) := by
  unfold searchComplete at hr
  split_ifs at hr
  rw [bind_eq hcs rfl] at hr
  cases hr
  exact search_some hx

/-- The same for the search around the incumbent, whose candidates are those of `candidateAround`. -/
theorem C26_around {E : Acq K} {p : Problem K} {n : Nat} {incumbent lb ub : List K} {x : Execution}
    {u : Nat → Nat → K} {best r : BODesign K} {cs : List (BODesign K)}
    (hcs : tab n (fun i => candidateAround E p.dimension incumbent lb ub (u i)) = .ok cs)
    (hx : ValidExecution x best cs)
    (hr : searchAround E p n incumbent lb ub x u best = .ok r) :
    r = best ∨ (r ∈ cs ∧ best.value < r.value ∧
      (Uninterrupted (SearchState.start best (chunks x cs)) x.schedule → IsBestOf best cs r)) := by
  unfold searchAround at hr
  obtain ⟨dv, -, hr⟩ := bind_ok_inv hr
  obtain ⟨b, -, hr⟩ := bind_ok_inv hr
  cases b
  · cases hr; exact Or.inl rfl
  · simp only [if_true] at hr
    rw [bind_eq hcs rfl] at hr
    cases hr
    rcases search_some hx with h | h
    · exact Or.inl h.1
    · exact Or.inr ⟨h.1, h.2, fun hu => search_best hx hu⟩

-- Each thread assigns right after its test: the better candidate is recorded although it comes last.
example : searchComplete SearchDemo.acq 1 2 [0] [1] SearchDemo.calm SearchDemo.draws SearchDemo.first
    = .ok ⟨[3 / 4], 3 / 4⟩ := by decide +kernel

example : Uninterrupted (SearchState.start SearchDemo.first
    [[⟨[3 / 4], 3 / 4⟩], [⟨[1 / 4], 1 / 4⟩]]) SearchDemo.calm.schedule := by
  simp only [Uninterrupted, SearchDemo.calm]
  refine ⟨?_, ?_, ?_, ?_, trivial⟩ <;> intro j t hj hp <;>
    rcases j with _ | _ | j <;>
    norm_num [SearchState.start, SearchState.step, SearchState.threadStep, SearchDemo.first] at hj <;>
    first | (subst hj; simp_all) | exact absurd hj (by simp)

/-! ## C27: gradient based improvement -/

/-- C27: for every acquisition function, box, start in the box and number of iterations, the search
returns after at most `1 + iterations * (2 dim + 27)` evaluations; the design is in the box and its
acquisition value is not below that of the start. -/
theorem C27_ascent (E : Acq K) {dim : Nat} (hd : 0 < dim) {lb ub start : List K}
    (hb : SearchBox dim lb ub) (hs : InBox lb ub start) (iterations : Nat) {fuel : Nat}
    (hf : 27 ≤ fuel) :
    ∃ d evals, maximizeAcq E dim lb ub iterations fuel start = .ok (d, evals) ∧
      InBox lb ub d.dv ∧ E.value start ≤ E.value d.dv ∧
      evals ≤ 1 + iterations * (2 * dim + 27) := by
  have hlen : start.length = dim := by rw [hs.1, hb.1]
  obtain ⟨r, h1, h2, h3, h4⟩ := acqLoop_ok (E := E) hd hb hf hlen iterations
    ⟨⟨start, E.value start⟩, E.value start, 1, false⟩ (Or.inl rfl) rfl (le_refl _)
  refine ⟨r.design, r.evals, bind_eq h1 rfl, ?_, h3, h4⟩
  rcases h2 with h2 | h2
  · rw [h2]; exact hs
  · exact h2

/-- The search direction is the central difference quotient of the acquisition function, with a step
of at least `1e-8`; the design itself is not changed. -/
theorem C27_gradient (E : Acq K) {dim : Nat} (hd : 0 < dim) {d : BODesign K}
    (hl : d.dv.length = dim) (evals : Nat) :
    ∃ g, acqGradient E dim d evals = .ok g ∧ g.design.dv = d.dv ∧ g.evals = evals + 2 * dim ∧
      ∀ (i : Nat) (x : K), d.dv[i]? = some x → ∃ h, 1 / 10 ^ 8 ≤ h ∧
        g.grad[i]? = some ((E.ei (d.dv.set i (x + h)) - E.ei (d.dv.set i (x - h))) / (2 * h)) := by
  obtain ⟨g, h1, h2, -, h4, h5⟩ := acqGradient_ok (E := E) hd hl evals
  exact ⟨g, h1, h2, h4, fun i x hx => ⟨acqEps x, le_max_right _ _, h5 i x hx⟩⟩

/-- The value stored in the returned design need not be its acquisition value: at a maximum it is the
value of the last difference quotient, which is below that of the start. -/
theorem C27_stored_value_stale : ∃ (E : Acq ℚ) (d : BODesign ℚ) (evals : Nat),
    maximizeAcq E 1 [-1] [1] 1 27 [0] = .ok (d, evals) ∧ d.dv = [0] ∧ d.value < E.value [0] := by
  refine ⟨⟨fun x => 1 - x.headD 0 ^ 2, fun _ => 1⟩, ⟨[0], 1 - (1 / 10 ^ 8) ^ 2⟩, 30, ?_, rfl, ?_⟩
  · decide +kernel
  · norm_num [Acq.value]

-- From 0 one step of size `1e-3` along the gradient `2` of `4 - (x - 1)^2`.
example : ∃ d, maximizeAcq ⟨fun x => 4 - (x.headD 0 - 1) ^ 2, fun _ => 1⟩ 1 [(-1 : ℚ)] [1] 1 27 [0] =
    .ok (d, 4) ∧ d.dv = [1 / 500] := by
  refine ⟨⟨[1 / 500], 4 - (1 / 500 - 1) ^ 2⟩, ?_, rfl⟩
  decide +kernel

/-! ## C66: the design to be simulated -/

theorem candidate_ok (E : Acq K) {dim : Nat} {lb ub : List K} (hb : SearchBox dim lb ub) {u : Nat → K}
    (hu : ∀ i, 0 ≤ u i ∧ u i < 1) :
    OkP (candidate E dim lb ub u) (fun c => InBox lb ub c.dv ∧ c.value = E.value c.dv) :=
  (fillRandom_ok hb hu).bind fun _ h => okP_ok ⟨h, rfl⟩

theorem candidateAround_ok (E : Acq K) {dim : Nat} {sample lb ub : List K} (hb : SearchBox dim lb ub)
    (hs : InBox lb ub sample) {u : Nat → K} (hu : ∀ i, 0 ≤ u i ∧ u i < 1) :
    OkP (candidateAround E dim sample lb ub u) (fun c => InBox lb ub c.dv ∧ c.value = E.value c.dv) := by
  unfold candidateAround
  refine (aroundBounds_ok hb hs (by norm_num)).bind ?_
  rintro b ⟨b1, b2⟩
  exact (fillRandom_ok b1 hu).bind fun _ h => okP_ok ⟨b2 _ h, rfl⟩

section round
variable [FloorRing K]

/-- C66: for every surrogate answer, draw, execution of the parallel loops, trust region length and
incumbent of the right dimension, the search returns a design, and the design lies in the box; every
discrete parameter lies on its grid, and the other parameters are the denormalized ones. -/
theorem C66_design_in_box (E : Acq K) {s : SearchSetup K} {incumbent : List K} {trLength : K}
    {o : SearchOracle K} {fuel : Nat} (hset : s.problem.boxSet = true)
    (hb : ValidBox s.problem.dimension s.problem.lb s.problem.ub)
    (hds : DiscreteBox s.problem.dimension s.discrete) (hfew : FewValues s.discrete)
    (hinc : incumbent.length = s.problem.dimension) (htr : 0 ≤ trLength)
    (hc : ∀ i j, 0 ≤ o.complete i j ∧ o.complete i j < 1)
    (ha : ∀ i j, 0 ≤ o.around i j ∧ o.around i j < 1) (hf : 27 ≤ fuel) :
    ∃ norm dv before, findDesignToSimulate E s fuel incumbent trLength o = .ok (norm, dv) ∧
      InBox (List.replicate s.problem.dimension 0)
        (List.replicate s.problem.dimension (1 / (s.problem.dimension : K))) norm ∧
      Vec.denormalizeVector norm s.problem.lb s.problem.ub = .ok before ∧
      RoundedTo s.discrete before dv ∧ InBox s.problem.lb s.problem.ub dv := by
  have hd : 0 < s.problem.dimension := hb.1
  have hunit : (0 : K) ≤ 1 / (s.problem.dimension : K) := by positivity
  obtain ⟨w, hw, hw1, hw2, hgood⟩ := C25_trustRegion hd hinc htr
  have hbox : SearchBox s.problem.dimension w.1 w.2 := by
    refine ⟨hw1, hw2, ?_⟩
    intro i l u hl hu
    have hi : i < incumbent.length := by
      have := (List.getElem?_eq_some_iff.1 hl).1; omega
    exact (hgood i l u incumbent[i] hl hu (List.getElem?_eq_getElem hi)).1
  have hsub : ∀ x, InBox w.1 w.2 x → InBox (List.replicate s.problem.dimension 0)
      (List.replicate s.problem.dimension (1 / (s.problem.dimension : K))) x := by
    rintro x ⟨x1, x2, x3⟩
    refine ⟨by simp [x1, hw1], by simp [x1, hw1], ?_⟩
    intro i l u v hl hu hv
    have hi : i < s.problem.dimension := by
      have := (List.getElem?_eq_some_iff.1 hv).1; omega
    have hl' := List.getElem?_eq_getElem (l := w.1) (i := i) (by omega)
    have hu' := List.getElem?_eq_getElem (l := w.2) (i := i) (by omega)
    obtain ⟨g1, g2, g3, -⟩ := hgood i _ _ incumbent[i] hl' hu' (List.getElem?_eq_getElem (by omega))
    obtain ⟨q1, q2⟩ := x3 i _ _ v hl' hu' hv
    rw [List.getElem?_replicate, if_pos hi] at hl hu
    rw [← Option.some.inj hl, ← Option.some.inj hu]
    exact ⟨g2.trans q1, q2.trans g3⟩
  -- the global search
  obtain ⟨cs1, e1, -, hcs1⟩ := tab_all (n := s.innerIterations)
    (f := fun i => candidate E s.problem.dimension w.1 w.2 (o.complete i))
    (fun i _ => candidate_ok E hbox (hc i))
  set zero : BODesign K := ⟨List.replicate s.problem.dimension 0, -10 ^ 15⟩ with hzero
  have hz : InBox (List.replicate s.problem.dimension 0)
      (List.replicate s.problem.dimension (1 / (s.problem.dimension : K))) zero.dv := by
    refine ⟨by simp [hzero], by simp [hzero], ?_⟩
    intro i l u v hl hu hv
    simp only [hzero, List.getElem?_replicate] at hl hu hv
    split_ifs at hl hu hv with hi
    rw [← Option.some.inj hl, ← Option.some.inj hu, ← Option.some.inj hv]
    exact ⟨le_refl _, hunit⟩
  have h1 : OkP (searchComplete E s.problem.dimension s.innerIterations w.1 w.2 o.execComplete o.complete
      zero) (fun d => InBox (List.replicate s.problem.dimension 0)
        (List.replicate s.problem.dimension (1 / (s.problem.dimension : K))) d.dv) := by
    unfold searchComplete
    rw [if_neg (by omega)]
    refine bind_okP e1 (okP_ok ?_)
    rcases search_mem o.execComplete cs1 zero with h | h
    · rw [h]; exact hz
    · exact hsub _ (hcs1 _ h).1
  obtain ⟨d1, e2, hd1⟩ := h1
  -- the search around the incumbent
  have h2 : OkP (searchAround E s.problem s.innerIterations incumbent w.1 w.2 o.execAround o.around d1)
      (fun d => InBox (List.replicate s.problem.dimension 0)
        (List.replicate s.problem.dimension (1 / (s.problem.dimension : K))) d.dv) := by
    obtain ⟨-, y, y1, y2, -, y4⟩ := C05_normalize_roundtrip hb incumbent hinc
    obtain ⟨b, b1, b2⟩ := Problem.checkBox_ok hset (by omega) hb.2.1 hb.2.2.1 y2
    unfold searchAround
    refine bind_okP y1 (bind_okP b1 ?_)
    cases b
    · exact okP_ok hd1
    · have hin := y4.1 (b2.1 rfl)
      have hw' : InBox w.1 w.2 incumbent := by
        refine ⟨by omega, by omega, ?_⟩
        intro i l u v hl hu hv
        have hi : i < s.problem.dimension := by
          have := (List.getElem?_eq_some_iff.1 hv).1; omega
        obtain ⟨q1, q2⟩ := hin.2.2 i 0 (1 / (s.problem.dimension : K)) v
          (by simp [hi]) (by simp [hi]) hv
        exact (hgood i l u v hl hu hv).2.2.2 q1 q2
      obtain ⟨cs2, e3, -, hcs2⟩ := tab_all (n := s.innerIterations)
        (f := fun i => candidateAround E s.problem.dimension incumbent w.1 w.2 (o.around i))
        (fun i _ => candidateAround_ok E hbox hw' (ha i))
      refine bind_okP e3 (okP_ok ?_)
      rcases search_mem o.execAround cs2 d1 with h | h
      · rw [h]; exact hd1
      · exact hsub _ (hcs2 _ h).1
  obtain ⟨d2, e4, hd2⟩ := h2
  have hm : mostPromising E s incumbent trLength o = .ok (d2, w.1, w.2) := by
    unfold mostPromising
    rw [if_neg (by omega)]
    exact bind_eq hw (bind_eq e2 (bind_eq e4 rfl))
  -- gradient based improvement
  have hd2l : d2.dv.length = s.problem.dimension := by simpa using hd2.1
  obtain ⟨r, e5, e6, -, -⟩ := acqLoop_ok (E := E) hd hbox hf hd2l s.gradientIterations
    ⟨⟨d2.dv, E.value d2.dv⟩, E.value d2.dv, 1, false⟩ (Or.inl rfl) rfl (le_refl _)
  have hnorm : InBox (List.replicate s.problem.dimension 0)
      (List.replicate s.problem.dimension (1 / (s.problem.dimension : K))) r.design.dv := by
    rcases e6 with e6 | e6
    · rw [e6]; exact hd2
    · exact hsub _ e6
  have hnl : r.design.dv.length = s.problem.dimension := by simpa using hnorm.1
  obtain ⟨before, dv, f1, f2, f3, -⟩ := C36_partial hb hds hfew hnl
  obtain ⟨-, y, y1, y2, -, y4⟩ := C05_normalize_roundtrip hb r.design.dv hnl
  have hy : y = before := by
    have := y1.symm.trans f1
    exact Except.ok.inj this
  subst hy
  have hin : InBox s.problem.lb s.problem.ub y := y4.2 hnorm
  refine ⟨r.design.dv, dv, y, ?_, hnorm, f1, f3, ?_⟩
  · exact bind_eq hm (bind_eq (a := (r.design, r.evals)) (bind_eq e5 rfl) f2)
  · obtain ⟨r', g1, g2, g3, -⟩ := C35_partial hds hfew y2
    have := roundedTo_unique hds y2 f3 g2
    rw [this]
    exact g3 hin

end round

-- A two-dimensional problem with one discrete parameter, two threads.
example : findDesignToSimulate (⟨fun x => x.headD 0, fun _ => 1⟩ : Acq ℚ)
    ⟨⟨2, [0, 1], [1, 4], true, []⟩, [2 / 3], [1], 2, 1⟩ 27 [1 / 4, 1 / 4] (1 / 2)
    ⟨fun i _ => if i = 0 then 3 / 4 else 1 / 4, fun _ _ => 1 / 2, ⟨2, id, [0, 1, 0, 1]⟩,
      ⟨1, fun _ => 0, [0, 0]⟩⟩ = .ok ([251 / 1000, 1 / 4], [251 / 500, 7 / 3]) := by
  decide +kernel

end Rodeo
