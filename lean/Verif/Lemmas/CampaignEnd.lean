import Verif.Lemmas.CampaignInit
import Verif.Props.Acquisition
import Verif.Spec.CampaignRun

set_option linter.unusedSectionVars false

/-! # What an optimization with surrogate models and training data files leaves behind -/

namespace Rodeo
open Spec Text EGO Mat

namespace Campaign

variable {E : CampaignEnv ℝ} {names : List Str} {m0 : Models ℝ} {start : Option Nat → TrainingFile}

theorem Reached.ready {s s' : EGOState ℝ} {N : Nat} {F : Nat → Nat → ℝ} {ds : List (Design ℝ)}
    (h : Reached E s s' N F ds) (hr : Ready (plain E) s N F) : Ready (plain E) s' (N + ds.length)
      (appendRows F N (ds.map (fun d => historyRow d E.base.setup.problem.constraints.length))) := by
  rcases h.run with ⟨rfl, rfl⟩ | r
  · refine hr.congr ?_
    intro i j hi
    unfold appendRows
    rw [if_pos hi]
  · exact r.ready

theorem completed_of_reached {m : Models ℝ} {s s' : EGOState ℝ} {N : Nat} {F G : Nat → Nat → ℝ}
    {ds : List (Design ℝ)} (hP : ProperCampaign E names m0 start) (hr : Ready (plain (filled E m)) s N F)
    (hF : Problem.Filled (filled E m).base.setup.problem N G F) (i1 : s.iteration = 0)
    (i2 : s.evaluations = 0) (i4 : s.calls = []) (i5 : s.samples = [])
    (hg : ∃ g : GlobalDesign ℝ, g.design.dimension = E.base.setup.problem.dimension ∧
        g.design.numberOfConstraints = (filled E m).base.setup.problem.constraints.length ∧
        g.box.isSet = true ∧ g.box.lb = E.base.setup.problem.lb ∧ g.box.ub = E.base.setup.problem.ub ∧
        g.setFromHistory s.history.data = .ok s.global)
    (h : Reached (filled E m) s s' N F ds) :
    Completed { E.base with maxSamples := ds.length } N G s' ds := by
  have hlen : (filled E m).base.setup.problem.constraints.length = E.base.setup.problem.constraints.length :=
    withData_length m _
  have hN : N ≠ 0 := hr.rows
  have hmat := (h.ready hr).mat
  have hg' : ∃ g : GlobalDesign ℝ, g.design.dimension = E.base.setup.problem.dimension ∧
        g.design.numberOfConstraints = (filled E m).base.setup.problem.constraints.length ∧
        g.box.isSet = true ∧ g.box.lb = E.base.setup.problem.lb ∧ g.box.ub = E.base.setup.problem.ub ∧
        g.setFromHistory s'.history.data = .ok s'.global := by
    rcases h.run with ⟨rfl, rfl⟩ | r
    · exact hg
    · exact r.global
  have hc : s'.calls = ds.map (fun d => d.params) ∧ s'.samples = ds.flatMap (newSamples E.base) ∧
      ∀ (i : Nat) d, ds[i]? = some d → Simulated (plain (filled E m)) (i + 1) d := by
    rcases h.run with ⟨rfl, rfl⟩ | r
    · exact ⟨i4, i5, by simp⟩
    · refine ⟨by rw [r.calls, i4, List.nil_append], ?_, ?_⟩
      · rw [r.samples, i5, List.nil_append]
        have : newSamples (plain (filled E m)) = newSamples E.base := funext (newSamples_filled m)
        rw [this]
      · intro i d hd
        have := r.simulated i d hd
        rw [i1, Nat.zero_add] at this
        exact this
  refine ⟨rfl, hc.1, ?_, ?_, hc.2.1, ?_⟩
  · rw [h.evaluations, i2, Nat.zero_add]
  · intro i d hd
    have := simulated_filled (hc.2.2 i d hd)
    exact ⟨this.box, this.objective, this.size, this.constraints, this.feasible⟩
  · have hmat' : IsMat s'.history.data (N + ds.length)
        (E.base.setup.problem.dimension + 1 + E.base.setup.problem.constraints.length + 2)
        (appendRows F N (ds.map (fun d => historyRow d E.base.setup.problem.constraints.length))) := by
      rw [← hlen]; exact hmat
    refine ⟨_, hmat', ?_, ?_, ?_⟩
    · intro i j hi hj
      unfold appendRows
      rw [if_pos hi]
      exact hF.1 i j hi hj
    · intro i d hd j
      unfold appendRows
      rw [if_neg (by omega), Nat.add_sub_cancel_left]
      simp [List.getD, hd]
    · intro hv
      obtain ⟨g, g1, g2, g3, g4, g5, g6⟩ := hg'
      rw [hlen] at g2
      obtain ⟨g', k, e, -, f2, f3, f4, f5⟩ := C28_partial (g := g) hmat' (by omega) (by rw [g1, g2]) g3
        (by rw [g1, g4, g5]; exact hP.box) (by rw [g1]; exact hv)
      rw [g6] at e
      cases e
      rw [g1] at f4
      exact ⟨k, f4, f5⟩

/-- The factor of the exploration. -/
theorem sigma_of_reached {m : Models ℝ} {s s' : EGOState ℝ} {N : Nat} {F G : Nat → Nat → ℝ}
    {ds : List (Design ℝ)} (hF : Problem.Filled (filled E m).base.setup.problem N G F)
    (i6 : s.sigma = .fin 1) (i7 : s.sigmaMultiplier = 1)
    (i10 : E.base.variableSigma = true → s.crowdingCoefficient =
        reportedCrowding N E.base.setup.problem.dimension F)
    (hdraw : ∀ n, 2 ≤ (E.base.sigmaDraw n).2)
    (hdiff : 0 < reportedCrowding N E.base.setup.problem.dimension G)
    (h : Reached (filled E m) s s' N F ds) : ∃ x, s'.sigma = .fin x ∧ 1 ≤ x ∧ x ≤ 100 := by
  rcases h.run with ⟨rfl, rfl⟩ | r
  · exact ⟨1, i6, le_rfl, by norm_num⟩
  · by_cases hv : E.base.variableSigma = true
    · obtain ⟨D, k, n, hm, hs⟩ := (r.sigma.1 (by rw [i7])).2 hv
      have hc : s.crowdingCoefficient ≠ 0 := by
        rw [i10 hv]
        have e : reportedCrowding N E.base.setup.problem.dimension F =
            reportedCrowding N E.base.setup.problem.dimension G :=
          reportedCrowding_congr (fun i j hi hj => hF.1 i j hi (le_of_lt hj))
        rw [e]
        exact hdiff.ne'
      obtain ⟨x, h1, h2, h3⟩ := C34_partial (lo := (1 : ℝ)) (hi := 100) (multiplier := k)
        (crowding := reportedCrowding s.history.numberOfDoESamples E.base.setup.problem.dimension D)
        (draw := E.base.sigmaDraw n) (Or.inl hc) (by rintro rfl; linarith)
        (by have := hdraw n; intro h; linarith) (by norm_num)
      exact ⟨x, hs.trans h1, h2, h3⟩
    · refine ⟨1, ?_, le_refl _, by norm_num⟩
      rw [r.sigma.2 (by simpa [plain, filled] using hv), i6]

theorem files_of_held {l : List (Option Nat × List ℝ)} {m : Models ℝ} {ready : Option Nat → Prop}
    (h : Held E m0 start l ready m) : FilesAfter E m0 start l m.files where
  others := h.others
  data := by
    intro key hk
    obtain ⟨⟨text, n, G, t1, t2, t3, t4, t5, -⟩, -⟩ := h.held key hk
    refine ⟨text, n, G, ?_, t2, t3, t4, t5⟩
    rw [← (h.same key).fileName]
    exact t1

theorem models_of_held {l : List (Option Nat × List ℝ)} {m : Models ℝ} (h : Held E m0 start l All m) :
    ModelsFollow E m := by
  intro key hk
  obtain ⟨⟨text, n, G, t1, t2, t3, t4, t5, t6⟩, -⟩ := h.held key hk
  obtain ⟨p1, p2⟩ := (t6 trivial).predicts
  exact ⟨n, G, by rw [t1]; exact p1, p2⟩

theorem hasModel_congr {E E' : CampaignEnv ℝ} (h : E'.base.setup.problem = E.base.setup.problem)
    (key : Option Nat) : HasModel E' key ↔ HasModel E key := by
  unfold HasModel
  rw [h]

/-- A whole optimization, with its state after the initialization. -/
theorem run_campaign_data (hP : ProperCampaign E names m0 start) (hS : Sane E.base)
    (hD : ∀ n, DeliversAt E.base n ∨ FailsAt E.base n) :
    ∃ s0 p ds s1 m F s2, fresh E.base.setup.problem names = .ok s0 ∧
      perform E true E.base.maxSamples (s0, m0) = p ∧ RunOf E m0 start p ds ∧
      (filled E m).base.setup.problem.initialData (m.fn none).krig.data.rawData = .ok s1.history.data ∧
      Held E m0 start [] All m ∧ Ready (plain (filled E m)) s1 (start none).rows F ∧
      Reached (filled E m) s1 s2 (start none).rows F ds ∧ BookOf E start s2 ds ∧
      p.1.1.history = s2.history ∧ p.1.1.global = s2.global := by
  obtain ⟨s0, s1, m, F, e0, eData, e1, hm, hr, hF, i1, i2, i3, i4, i5, i6, i7, i8, i9, i10, i11⟩ :=
    init_campaign hP hS
  obtain ⟨k, hk⟩ : ∃ k, E.base.maxSamples = k + 1 := Nat.exists_eq_succ_of_ne_zero hP.maxSamples
  have hmax : (filled E m).base.maxSamples = k + 1 := hk
  have hm' := (held_filled (m := m)).2 hm
  have hns : newSamples (filled E m).base = newSamples E.base := funext (newSamples_filled m)
  obtain ⟨p, ds, e2, q1, q2, q3⟩ := loop_campaign (proper_filled hP m) (wellPosed_filled hP hm)
    (sane_filled hS m) (fun n => (hD n).imp (fun h => delivers_filled h m) (fails_filled n m).2)
    k [] s1 m (start none).rows F hr hm' (by rw [hmax, i1]; omega)
  rw [List.nil_append, hns] at q1
  have q1' := (held_filled (m := m)).1 q1
  have hbook : ∀ {s : EGOState ℝ} {ds : List (Design ℝ)},
      Reached (filled E m) s1 s (start none).rows F ds → BookOf E start s ds :=
    fun h => completed_of_reached hP hr hF i1 i2 i4 i5 i11 h
  have hiter : ∀ {s : EGOState ℝ} {ds : List (Design ℝ)},
      Reached (filled E m) s1 s (start none).rows F ds → s.iteration = ds.length := by
    intro s ds h
    rw [h.iteration, i1, Nat.zero_add]
  have hfound : ∀ {s : EGOState ℝ} {m1 : Models ℝ} {ds : List (Design ℝ)} {x : List ℝ},
      Reached (filled E m) s1 s (start none).rows F ds →
      Held E m0 start (ds.flatMap (newSamples E.base)) All m1 → ProposedBy (filled E m) m1 s x →
      Found E m0 start ds x := by
    intro s m1 ds x h1 h2 h3
    exact ⟨s, m1, hbook h1, hiter h1, files_of_held h2, models_of_held h2, proposedBy_filled h3,
      fun a b => sigma_of_reached hF i6 i7 i10 a b h1⟩
  have hprop : ∀ (i : Nat) d, ds[i]? = some d → Found E m0 start (ds.take i) d.params ∧
      ¬ FailsAt E.base (i + 1) := by
    intro i d hd
    obtain ⟨s2, m2, r1, r2, r3, r4⟩ := q2 i d hd
    rw [List.nil_append, hns] at r2
    refine ⟨hfound r1 ((held_filled (m := m)).1 r2) r3, ?_⟩
    obtain ⟨hi, -⟩ := List.getElem?_eq_some_iff.1 hd
    rw [hiter r1, List.length_take, min_eq_left hi.le] at r4
    exact fun hf => r4 ((fails_filled _ m).2 hf)
  have hend : EndOf E m0 start ds p ∧ ∃ s, Reached (filled E m) s1 s (start none).rows F ds ∧
      BookOf E start s ds ∧ p.1.1.history = s.history ∧ p.1.1.global = s.global := by
    rcases p with ⟨⟨s, mm⟩, r⟩
    rcases q3 with ⟨r1, r2, r3⟩ | ⟨s2, m2, e, r1, r2, r3, r4, r5, r6, r7⟩ |
      ⟨s2, x, e, r1, r2, r3, r4, r5, r6, r7, r8, r9⟩
    · simp only at r1 r3
      subst r1
      exact ⟨.completed s mm (by rw [r2, hk]) (hbook r3), s, r3, hbook r3, rfl, rfl⟩
    · simp only at r5 r6 r7
      subst r6 r7
      rw [List.nil_append, hns] at r4
      have hb := hbook r3
      rw [hiter r3] at r2 r5
      rw [trainSurrogates_filled] at r5
      refine ⟨.training _ mm m2 e (by rw [hk]; exact r1) r2 ?_
        (files_of_held ((held_filled (m := m)).1 r4)) r5, s2, r3, hb, rfl, rfl⟩
      exact ⟨hb.count, hb.calls, hb.evaluations, hb.simulated, hb.samples, hb.history⟩
    · simp only at r4 r5 r6 r7 r8 r9
      subst r9
      rw [hiter r3] at r2
      exact ⟨.simulation s2 s mm x e (by rw [hk]; exact r1) ((fails_filled _ m).1 r2) (hbook r3) r5 r6 r7 r8
        (hfound r3 q1' r4), s2, r3, hbook r3, r6, r7⟩
  obtain ⟨hend, s2, hreach, hs2, hh, hg⟩ := hend
  refine ⟨s0, p, ds, s1, m, F, s2, e0, ?_, ⟨?_, files_of_held q1', models_of_held q1', hend⟩, eData, hm, hr, hreach,
    hs2, hh, hg⟩
  · rw [e1, hk, e2]
  · intro i d hd
    have := hs2.simulated i d hd
    exact ⟨⟨this.box, this.objective, this.size, this.constraints, this.feasible⟩, (hprop i d hd).2, (hprop i d hd).1⟩

/-- A whole optimization. -/
theorem run_campaign (hP : ProperCampaign E names m0 start) (hS : Sane E.base)
    (hD : ∀ n, DeliversAt E.base n ∨ FailsAt E.base n) :
    ∃ s0 p ds, fresh E.base.setup.problem names = .ok s0 ∧
      perform E true E.base.maxSamples (s0, m0) = p ∧ RunOf E m0 start p ds := by
  obtain ⟨s0, p, ds, s1, m, F, s2, e0, e1, h, -⟩ := run_campaign_data hP hS hD
  exact ⟨s0, p, ds, e0, e1, h⟩

/-! ## Several optimizations one after the other -/

theorem _root_.Rodeo.Spec.Collected.trans {dim n n1 n2 : Nat} {l1 l2 : List (List ℝ)} {F G1 G2 : Nat → Nat → ℝ}
    (h1 : Collected dim l1 n F n1 G1) (h2 : Collected dim l2 n1 G1 n2 G2) :
    Collected dim (l1 ++ l2) n F n2 G2 := by
  have a1 := h1.le
  have a2 := h2.le
  refine ⟨a1.trans a2, ?_, ?_, ?_, ?_, ?_⟩
  · intro i j hi hj
    rw [h2.kept i j (by omega) hj, h1.kept i j hi hj]
  · intro q b1 b2
    by_cases hq : q < n1
    · obtain ⟨x, c1, c2, c3⟩ := h1.source q b1 hq
      refine ⟨x, by simp [c1], c2, fun j hj => ?_⟩
      rw [h2.kept q j hq hj]
      exact c3 j hj
    · obtain ⟨x, c1, c2⟩ := h2.source q (by omega) b2
      exact ⟨x, by simp [c1], c2⟩
  · intro p q b1 b2 b3
    by_cases hq : q < n1
    · obtain ⟨j, hj, c⟩ := h1.separated p q b1 b2 hq
      refine ⟨j, hj, ?_⟩
      rw [h2.kept p j (by omega) hj, h2.kept q j hq hj]
      exact c
    · exact h2.separated p q b1 (by omega) b3
  · intro x hx
    rcases List.mem_append.1 hx with hx | hx
    · obtain ⟨c1, q, c2, c3⟩ := h1.complete x hx
      refine ⟨c1, q, by omega, fun j hj => ?_⟩
      rw [h2.kept q j c2 hj]
      exact c3 j hj
    · exact h2.complete x hx
  · have b1 := h1.few
    have b2 := h2.few
    rw [List.length_append]
    omega

theorem samplesOf_append (key : Option Nat) (l1 l2 : List (Option Nat × List ℝ)) :
    samplesOf key (l1 ++ l2) = samplesOf key l1 ++ samplesOf key l2 := by
  unfold samplesOf
  rw [List.filterMap_append]

/-- The files of one optimization are proper files for the next one. -/
theorem restart_data {E E' : CampaignEnv ℝ} {names' : List Str} {l : List (Option Nat × List ℝ)} {files : Files}
    (hP : ProperCampaign E' names' m0 start) (hE : E'.base.setup.problem = E.base.setup.problem)
    (h : FilesAfter E m0 start l files) : ∃ start',
      ProperCampaign E' names' { m0 with files := files } start' ∧
      (∀ key, HasModel E key → Collected E.base.setup.problem.dimension (samplesOf key l) (start key).rows
        (start key).table (start' key).rows (start' key).table) ∧
      (∀ key, HasModel E key → (start key).text <+: (start' key).text) ∧
      ∀ l' files', FilesAfter E' { m0 with files := files } start' l' files' →
        FilesAfter E m0 start (l ++ l') files' := by
  classical
  have h2 : ∀ key, ∃ f : TrainingFile, HasModel E key →
      files (m0.fn key).fileName = some f.text ∧ (start key).text <+: f.text ∧
      f.text.getLast? = some '\n' ∧
      DataFile (some f.text) f.rows E.base.setup.problem.dimension f.table ∧
      Collected E.base.setup.problem.dimension (samplesOf key l) (start key).rows (start key).table
        f.rows f.table := by
    intro key
    by_cases hk : HasModel E key
    · obtain ⟨text, n, G, t1, t2, t3, t4, t5⟩ := h.data key hk
      exact ⟨⟨text, n, G⟩, fun _ => ⟨t1, t2, t3, t4, t5⟩⟩
    · exact ⟨start key, fun hk' => absurd hk' hk⟩
  choose start' hs using h2
  refine ⟨start', ?_, fun key hk => (hs key hk).2.2.2.2, fun key hk => (hs key hk).2.1, ?_⟩
  · exact { hP with
      functions := hP.functions
      files := fun key hk => by
        obtain ⟨t1, t2, t3, t4, t5⟩ := hs key ((hasModel_congr hE key).1 hk)
        refine ⟨t1, t3, ?_⟩
        rw [hE]
        exact t4
      distinct := hP.distinct }
  · intro l' files' h'
    refine ⟨?_, ?_⟩
    · intro name hn
      rw [h'.others name fun key hk => hn key ((hasModel_congr hE key).1 hk)]
      exact h.others name hn
    · intro key hk
      obtain ⟨t1, t2, t3, t4, t5⟩ := hs key hk
      obtain ⟨text, n, G, u1, u2, u3, u4, u5⟩ := h'.data key ((hasModel_congr hE key).2 hk)
      rw [hE] at u4 u5
      refine ⟨text, n, G, u1, t2.trans u2, u3, u4, ?_⟩
      rw [samplesOf_append]
      exact t5.trans u5

theorem restart {E E' : CampaignEnv ℝ} {names' : List Str} {l : List (Option Nat × List ℝ)} {files : Files}
    (hP : ProperCampaign E' names' m0 start) (hE : E'.base.setup.problem = E.base.setup.problem)
    (h : FilesAfter E m0 start l files) : ∃ start',
      ProperCampaign E' names' { m0 with files := files } start' ∧
      (∀ key, HasModel E key → (start key).text <+: (start' key).text) ∧
      ∀ l' files', FilesAfter E' { m0 with files := files } start' l' files' →
        FilesAfter E m0 start (l ++ l') files' := by
  obtain ⟨start', h1, -, h2, h3⟩ := restart_data hP hE h
  exact ⟨start', h1, h2, h3⟩

/-! ## The acquisition function -/

/-- The penalty is the product of the probabilities, whatever the design has as value. -/
theorem addPenalty_ok {dim : Nat} {cs : List (AcqConstraint ℝ)} (hn : Numbered cs)
    (hc : ∀ c ∈ cs, GoodConstraint c dim) {lb ub : List ℝ} (hl : lb.length = dim) (hu : ub.length = dim)
    {dv : List ℝ} (hdv : dv.length = dim) : ∃ p : AcqConstraint ℝ → ℝ,
      (∀ c ∈ cs, ∃ m s, c.estimate realFns lb ub dv = .ok (m, s) ∧ IsProbability c.type c.target m s (p c)) ∧
      ∀ d0 : AcqDesign ℝ, d0.dv = dv → d0.constraintValues.length = cs.length →
        d0.constraintSigmas.length = cs.length →
        ∃ d, addPenalty realFns realErf lb ub cs d0 = .ok d ∧ d.value = d0.value * (cs.map p).prod := by
  classical
  let m : AcqConstraint ℝ → ℝ := fun c => if h : c ∈ cs then
    ((hc c h).estimate hl hu hdv).choose else 0
  let s : AcqConstraint ℝ → ℝ := fun c => if h : c ∈ cs then
    ((hc c h).estimate hl hu hdv).choose_spec.choose else 0
  have hms : ∀ c ∈ cs, c.estimate realFns lb ub dv = .ok (m c, s c) ∧ 0 ≤ s c := by
    intro c h
    have := ((hc c h).estimate hl hu hdv).choose_spec.choose_spec
    simp only [m, s, dif_pos h]
    exact this
  let p : AcqConstraint ℝ → ℝ := fun c => codeProbability c (m c) (s c)
  refine ⟨p, fun c h => ⟨m c, s c, (hms c h).1, codeProbability_is (hc c h).type _ _⟩, ?_⟩
  rintro d0 rfl k2 k3
  by_cases hlen : cs.length > 0
  · obtain ⟨vs, ss, e1, l1, l2, h1⟩ := estimateConstraints_ok hn m s (fun c h => (hms c h).1) k2 k3
    obtain ⟨ps, e2, l3, h2, -⟩ := fold_put (n := cs.length) p cs
      (f := fun ps c => probabilityStep realErf
        { d0 with constraintValues := vs, constraintSigmas := ss } c ps)
      (fun c h ps => by
        obtain ⟨i, hi, -⟩ := numbered_id hn h
        exact probabilityStep_ok hi (h1 c h i hi).1 (h1 c h i hi).2 (hms c h).2 (hc c h).type ps)
      (fun c h => numbered_id hn h) (numbered_nodup hn) (List.replicate cs.length 0) (by simp)
    refine ⟨{ d0 with
        constraintValues := vs, constraintSigmas := ss, probabilities := ps, value := d0.value * ps.prod }, ?_, ?_⟩
    · unfold addPenalty
      rw [if_pos hlen]
      exact bind_eq e1 (bind_eq (bind_eq e2 rfl) (updateAcquisition_ok _))
    · show d0.value * ps.prod = _
      rw [numbered_prod hn l3 h2]
  · have hnil : cs = [] := List.length_eq_zero_iff.1 (by omega)
    subst hnil
    exact ⟨d0, rfl, by simp⟩

end Campaign
end Rodeo
