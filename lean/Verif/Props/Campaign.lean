import Verif.Lemmas.CampaignEnd
import Verif.Spec.CampaignRun

set_option linter.unusedSectionVars false

/-! # Whole optimizations with surrogate models and training data files (C90 - C93) -/

namespace Rodeo
open Spec Text EGO Mat Campaign

variable {E : CampaignEnv ℝ} {names : List Str} {m0 : Models ℝ} {start : Option Nat → TrainingFile}

/-! ## C90: how designs are found -/

/-- **C90.** In every optimization that is set up properly, whatever the simulations deliver, and however it
ends: every design simulated was found by a search with the acquisition function of models that predict from
exactly the rows of the training data files at that time, which were the initial rows and those of all designs
simulated before, while history and optimum were those of these designs too. -/
theorem C90_found (hP : ProperCampaign E names m0 start) (hS : Sane E.base)
    (hD : ∀ n, DeliversAt E.base n ∨ FailsAt E.base n) :
    ∃ s0 p ds, fresh E.base.setup.problem names = .ok s0 ∧
      perform E true E.base.maxSamples (s0, m0) = p ∧
      (∀ (i : Nat) d, ds[i]? = some d → Simulated E.base (i + 1) d ∧
        Found E m0 start (ds.take i) d.params) ∧
      ModelsFollow E p.1.2 ∧ FilesOf E m0 start ds p.1.2.files := by
  obtain ⟨s0, p, ds, e0, e1, h⟩ := run_campaign hP hS hD
  exact ⟨s0, p, ds, e0, e1, fun i d hd => ⟨(h.designs i d hd).1, (h.designs i d hd).2.2⟩, h.models, h.files⟩

/-- The probability that a constraint holds at the point `dv` of the unit box: that of a normal distribution
with the mean and the variance of its model, or its value at the point of the box of the problem, with a
deviation of `1e-13`, if it is user defined. -/
def Spec.ConstraintProbability (E : CampaignEnv ℝ) (m : Models ℝ) (dv : List ℝ) (k : Nat) (c : Constraint ℝ)
    (p : ℝ) : Prop :=
  match c.source with
  | .user g => ∃ y : List ℝ, y.length = E.base.setup.problem.dimension ∧
      (∀ (i : Nat) l u t, E.base.setup.problem.lb[i]? = some l → E.base.setup.problem.ub[i]? = some u →
        dv[i]? = some t → y[i]? = some (l + t * E.base.setup.problem.dimension * (u - l))) ∧
      IsProbability c.type c.target (g y) (1 / 10 ^ 13) p
  | .data _ => ∃ f v, (m.fn (some k)).krig.interpolateWithVariance realFns dv = .ok (f, v) ∧ 0 ≤ v ∧
      IsProbability c.type c.target f (Real.sqrt v) p

theorem answers_of_follow (hm : ModelsFollow E m0) {key : Option Nat} (hk : HasModel E key) :
    Answers ((m0.fn key).krig.interpolateWithVariance realFns) E.base.setup.problem.dimension := by
  obtain ⟨n, G, -, -, -, T, -, hp⟩ := hm key hk
  intro x hx
  obtain ⟨lam, v, -, e, hv, -⟩ := hp x hx
  exact ⟨_, v, e, hv⟩

/-- The constraint number `k` in the acquisition function. -/
noncomputable def acqAt (E : CampaignEnv ℝ) (m : Models ℝ) (k : Nat) (c : Constraint ℝ) : AcqConstraint ℝ :=
  ⟨c.id, c.type, c.target, (match c.source with
    | .user f => some f
    | .data _ => none), (m.fn (some k)).krig.interpolateWithVariance E.fns⟩

theorem acqConstraints_get (m : Models ℝ) (k : Nat) :
    (acqConstraints E m)[k]? = (E.base.setup.problem.constraints[k]?).map (acqAt E m k) := by
  unfold acqConstraints
  rw [List.getElem?_map, List.getElem?_zipIdx]
  cases E.base.setup.problem.constraints[k]? with
  | none => rfl
  | some c =>
    simp only [Option.map_some, Option.some.injEq, Nat.zero_add]
    unfold acqAt
    cases c.source <;> rfl

/-- **C90, the acquisition function.** When the models predict from their files, the acquisition function of
the search is computed at every point.  It is the expected improvement over the best feasible value (or over
`1e15` without one) under the prediction of the model of the objective function with its deviation times the
exploration factor, times the product of the probabilities that the constraints hold.  As in `C78_partial`,
the expected improvement is exact up to rounding unless the deviation is below `1e-13` and the prediction below
the minimum. -/
theorem C90_acquisition (hP : ProperCampaign E names m0 start) (he : E.erf = realErf) {m : Models ℝ}
    (hm : ModelsFollow E m) {s : EGOState ℝ} {x : ℝ} (hs : s.sigma = .fin x) (hx : 0 < x) {dv : List ℝ}
    (hdv : dv.length = E.base.setup.problem.dimension) :
    ∃ f v, (m.fn none).krig.interpolateWithVariance realFns dv = .ok (f, v) ∧ 0 ≤ v ∧
      0 ≤ (acqOf E m s).ei dv ∧
      (∀ best, best = (if s.global.design.feasible = true then s.global.design.trueValue else 10 ^ 15) →
        (x * Real.sqrt v > 1 / 10 ^ 13 ∨ best ≤ f) →
        |(acqOf E m s).ei dv - expectedImprovement best f (x * Real.sqrt v)| ≤
          1 / 10 ^ 12 + x * Real.sqrt v / 10 ^ 15) ∧
      (∃ d, acquisition realFns realErf (acqObjective E m (feasibleMinimum s) x) E.base.setup.problem.lb
        E.base.setup.problem.ub (acqConstraints E m) dv = .ok d ∧ d.value = (acqOf E m s).value dv) ∧
      ∃ q : Nat → ℝ, (acqOf E m s).penalty dv =
          ((List.range E.base.setup.problem.constraints.length).map q).prod ∧
        ∀ (k : Nat) c, E.base.setup.problem.constraints[k]? = some c → ConstraintProbability E m dv k c (q k) := by
  have hlen : (acqConstraints E m).length = E.base.setup.problem.constraints.length := by
    unfold acqConstraints; simp
  have hget : ∀ k c, E.base.setup.problem.constraints[k]? = some c →
      (acqConstraints E m)[k]? = some (acqAt E m k c) := by
    intro k c hk
    rw [acqConstraints_get, hk]; rfl
  have hn : Numbered (acqConstraints E m) := by
    unfold Numbered
    refine List.Perm.of_eq (List.ext_getElem? fun k => ?_)
    rw [List.getElem?_map, acqConstraints_get, List.getElem?_map, hlen]
    cases hk : E.base.setup.problem.constraints[k]? with
    | none =>
      rw [List.getElem?_eq_none (by simpa using List.getElem?_eq_none_iff.1 hk)]; rfl
    | some c =>
      obtain ⟨hl, -⟩ := List.getElem?_eq_some_iff.1 hk
      rw [List.getElem?_range hl]
      simp only [Option.map_some, Option.some.injEq]
      exact (hP.constraints k c hk).2.2.2
  have hmem : ∀ c ∈ acqConstraints E m, ∃ k c', E.base.setup.problem.constraints[k]? = some c' ∧
      c = acqAt E m k c' := by
    intro c hc
    obtain ⟨k, hk⟩ := List.mem_iff_getElem?.1 hc
    rw [acqConstraints_get] at hk
    obtain ⟨c', h1, h2⟩ := Option.map_eq_some_iff.1 hk
    exact ⟨k, c', h1, h2.symm⟩
  have hgood : ∀ c ∈ acqConstraints E m, GoodConstraint c E.base.setup.problem.dimension := by
    intro c hc
    obtain ⟨k, c', h1, rfl⟩ := hmem c hc
    refine ⟨(hP.constraints k c' h1).1, fun hu => ?_⟩
    have h2 : ∃ D, c'.source = .data D := by
      cases hsrc : c'.source with
      | user f => simp [acqAt, hsrc] at hu
      | data D => exact ⟨D, rfl⟩
    obtain ⟨D, h2⟩ := h2
    show Answers ((m.fn (some k)).krig.interpolateWithVariance E.fns) _
    rw [hP.fns]
    exact answers_of_follow hm (Or.inr ⟨k, c', D, rfl, h1, h2⟩)
  have hl : E.base.setup.problem.lb.length = E.base.setup.problem.dimension := hP.box.2.1
  have hu : E.base.setup.problem.ub.length = E.base.setup.problem.dimension := hP.box.2.2.1
  obtain ⟨f, v, e, hv⟩ := answers_of_follow hm (key := none) (Or.inl rfl) dv hdv
  have hsur : (acqObjective E m (feasibleMinimum s) x).surrogate =
      (m.fn none).krig.interpolateWithVariance realFns := by unfold acqObjective; rw [hP.fns]
  have hans : Answers (acqObjective E m (feasibleMinimum s) x).surrogate E.base.setup.problem.dimension := by
    rw [hsur]; exact answers_of_follow hm (Or.inl rfl)
  obtain ⟨q, hq, hpen⟩ := addPenalty_ok hn hgood hl hu hdv
  obtain ⟨d0, e0, h0, -, -⟩ := C61_nonneg (o := acqObjective E m (feasibleMinimum s) x)
    (d := AcqDesign.new dv (acqConstraints E m).length) (by rw [hsur]; exact e) hv hx
  have hei : (acqOf E m s).ei dv = d0.value := by
    simp only [acqOf, hs]
    rw [hP.fns, he, ← hlen, e0]
    rfl
  have hkeep : d0.dv = dv ∧ d0.constraintValues.length = (acqConstraints E m).length ∧
      d0.constraintSigmas.length = (acqConstraints E m).length := by
    have e0' := e0
    unfold AcqObjective.calculateExpectedImprovement at e0'
    obtain ⟨r, -, e0'⟩ := bind_ok_inv e0'
    obtain ⟨s, -, e0'⟩ := bind_ok_inv e0'
    obtain ⟨w, -, e0'⟩ := bind_ok_inv e0'
    cases e0'
    simp [AcqDesign.new]
  have hp : (acqOf E m s).penalty dv = ((acqConstraints E m).map q).prod := by
    obtain ⟨d, e3, e4⟩ := hpen { AcqDesign.new dv (acqConstraints E m).length with value := 1 } rfl
      (by simp [AcqDesign.new]) (by simp [AcqDesign.new])
    simp only [acqOf]
    rw [hP.fns, he, ← hlen, e3]
    show d.value = _
    rw [e4]
    exact one_mul _
  refine ⟨f, v, e, hv, by rw [hei]; exact h0, ?_, ?_, ?_⟩
  · rintro best rfl hb
    rw [hei]
    exact C78_partial (o := acqObjective E m (feasibleMinimum s) x)
      (d := AcqDesign.new dv (acqConstraints E m).length) (by rw [hsur]; exact e) hv hx e0 hb
  · obtain ⟨d, e3, e4⟩ := hpen d0 hkeep.1 hkeep.2.1 hkeep.2.2
    exact ⟨d, bind_eq e0 e3, by unfold Acq.value; rw [e4, hei, hp]⟩
  · refine ⟨fun k => ((acqConstraints E m)[k]?.map q).getD 0, ?_, ?_⟩
    · rw [hp, ← hlen]
      congr 1
      refine List.ext_getElem (by simp) fun i h1 h2 => ?_
      simp at h1
      simp [h1]
    · intro k c hk
      obtain ⟨mu, sd, h1, h2⟩ := hq _ (List.mem_of_getElem? (hget k c hk))
      simp only [hget k c hk, Option.map_some, Option.getD_some]
      have hmod : ∀ D, c.source = .data D → HasModel E (some k) := fun D hD => Or.inr ⟨k, c, D, rfl, hk, hD⟩
      revert h1 h2
      generalize q (acqAt E m k c) = qq
      intro h1 h2
      unfold ConstraintProbability
      unfold AcqConstraint.estimate AcqConstraint.interpolateWithVariance acqAt at h1
      cases hc : c.source with
      | user g =>
        rw [hc] at h1
        simp only at h1 ⊢
        obtain ⟨y, hy, h1⟩ := bind_ok_inv h1
        cases h1
        have hy' := Vec.denormalizeVector_eq (x := Vec.dnrm _ dv _ _ hdv hl hu) (by simp [Vec.dnrm]) hl hu hdv
          (by intro i hi; simp [Vec.dnrm])
        have ey : y = Vec.dnrm _ dv _ _ hdv hl hu := Except.ok.inj (hy.symm.trans hy')
        refine ⟨y, by rw [ey]; simp [Vec.dnrm], ?_, ?_⟩
        · intro i l u t b1 b2 b3
          obtain ⟨c1, rfl⟩ := List.getElem?_eq_some_iff.1 b1
          obtain ⟨c2, rfl⟩ := List.getElem?_eq_some_iff.1 b2
          obtain ⟨c3, rfl⟩ := List.getElem?_eq_some_iff.1 b3
          rw [ey]
          unfold Vec.dnrm
          rw [List.getElem?_ofFn, dif_pos (by omega)]
          simp only [Fin.getElem_fin, Option.some.injEq]
          ring
        · have : (cEpsilon : ℝ) = 1 / 10 ^ 13 := by unfold cEpsilon; norm_num
          rw [← this]
          exact h2
      | data D =>
        rw [hc] at h1
        simp only at h1 ⊢
        obtain ⟨f', v', a1, a2⟩ := answers_of_follow hm (hmod D hc) dv hdv
        rw [hP.fns, bind_eq a1 (bind_eq (a := Real.sqrt v')
          (by unfold cSqrt; rw [if_neg (not_lt.2 a2)]; rfl) rfl)] at h1
        cases h1
        exact ⟨f', v', a1, a2, h2⟩

/-! ## C91: completion -/

/-- **C91.** If the simulations deliver numbers, an optimization that is set up properly returns after exactly
the configured number of simulations, with every simulated design recorded once in history, training data
and list of calls and with the best row as optimum, or it ends in an iteration in which the models are
trained, because the training threw, with the exception of the training, and then everything is recorded for the
designs before. -/
theorem C91_completed (hP : ProperCampaign E names m0 start) (hD : Delivers E.base) :
    ∃ s0 s m r ds, fresh E.base.setup.problem names = .ok s0 ∧
      perform E true E.base.maxSamples (s0, m0) = ((s, m), r) ∧ BookOf E start s ds ∧
      FilesOf E m0 start ds m.files ∧
      ((r = .ok () ∧ ds.length = E.base.maxSamples) ∨
        ∃ m1 e, r = .error e ∧ ds.length < E.base.maxSamples ∧ (ds.length + 1) % E.base.howOften = 1 ∧
          FilesOf E m0 start ds m1.files ∧ trainSurrogates E (ds.length + 1) m1 = (m, .error e)) := by
  obtain ⟨s0, p, ds, e0, e1, h⟩ := run_campaign hP hD.sane (fun n => Or.inl (hD.at_ n))
  have hf := h.files
  rcases h.ended with ⟨s, m, h1, h2⟩ | ⟨s, m, m1, e, h1, h2, h3, h4, h5⟩ |
    ⟨s1, s, m, x, e, h1, h2, -, -, -, -, -, -⟩
  · exact ⟨s0, s, m, _, ds, e0, e1, h2, hf, Or.inl ⟨rfl, h1⟩⟩
  · exact ⟨s0, s, m, _, ds, e0, e1, h3, hf, Or.inr ⟨m1, e, rfl, h1, h2, h4, h5⟩⟩
  · exact absurd h2 (not_fails (hD.at_ _))

/-- **C91** for the setting in which the models are never trained again: the optimization always returns. -/
theorem C91_untrained (hP : ProperCampaign E names m0 start) (hD : Delivers E.base)
    (hk : E.base.howOften = 1) : ∃ s0 s m ds, fresh E.base.setup.problem names = .ok s0 ∧
      perform E true E.base.maxSamples (s0, m0) = ((s, m), .ok ()) ∧ ds.length = E.base.maxSamples ∧
      BookOf E start s ds ∧ FilesOf E m0 start ds m.files := by
  obtain ⟨s0, s, m, r, ds, e0, e1, h1, h2, ⟨rfl, h3⟩ | ⟨m1, e, -, -, h3, -⟩⟩ := C91_completed hP hD
  · exact ⟨s0, s, m, ds, e0, e1, h3, h1, h2⟩
  · rw [hk] at h3
    omega

/-! ## C92: several optimizations with the same files -/

/-- The files after one more optimization, which starts with new models. -/
noncomputable def Spec.session (names : List Str) (m0 : Models ℝ) (files : Files) (E : CampaignEnv ℝ) : Files :=
  match fresh E.base.setup.problem names with
  | .ok s0 => (perform E true E.base.maxSamples (s0, { m0 with files := files })).1.2.files
  | .error _ => files

/-- **C92.** For every sequence of optimizations of the same problem with the same training data files, of any
number and each with its own numbers of samples, random numbers and simulations, completed or ended early by
a simulation or a training that failed: in the end the training data files have the initial rows and the
rows of all designs simulated in all of them, and no other file has changed. -/
theorem C92_sessions (hP : ProperCampaign E names m0 start) : ∀ Es : List (CampaignEnv ℝ),
    (∀ E' ∈ Es, ProperCampaign E' names m0 start ∧ Sane E'.base ∧
      (∀ n, DeliversAt E'.base n ∨ FailsAt E'.base n) ∧ E'.base.setup.problem = E.base.setup.problem) →
    ∃ dss : List (List (Design ℝ)), dss.length = Es.length ∧
      (∀ (i : Nat) E' ds, Es[i]? = some E' → dss[i]? = some ds → ds.length ≤ E'.base.maxSamples ∧
        (Delivers E'.base → E'.base.howOften = 1 → ds.length = E'.base.maxSamples) ∧
        ∀ (j : Nat) d, ds[j]? = some d → Simulated E'.base (j + 1) d) ∧
      FilesOf E m0 start dss.flatten (Es.foldl (session names m0) m0.files) := by
  have H : ∀ (Es : List (CampaignEnv ℝ)) (l : List (Option Nat × List ℝ)) (files : Files),
      FilesAfter E m0 start l files →
      (∀ E' ∈ Es, ProperCampaign E' names m0 start ∧ Sane E'.base ∧
        (∀ n, DeliversAt E'.base n ∨ FailsAt E'.base n) ∧
        E'.base.setup.problem = E.base.setup.problem) →
      ∃ dss : List (List (Design ℝ)), dss.length = Es.length ∧
        (∀ (i : Nat) E' ds, Es[i]? = some E' → dss[i]? = some ds → ds.length ≤ E'.base.maxSamples ∧
          (Delivers E'.base → E'.base.howOften = 1 → ds.length = E'.base.maxSamples) ∧
          ∀ (j : Nat) d, ds[j]? = some d → Simulated E'.base (j + 1) d) ∧
        FilesAfter E m0 start (l ++ dss.flatten.flatMap (newSamples E.base))
          (Es.foldl (session names m0) files) := by
    intro Es
    induction Es with
    | nil =>
      intro l files hf _
      exact ⟨[], rfl, by simp, by simpa using hf⟩
    | cons E' Es ih =>
      intro l files hf hE
      obtain ⟨c1, c2, c3, c4⟩ := hE E' (by simp)
      obtain ⟨start', p1, -, p2⟩ := restart c1 c4 hf
      obtain ⟨s0, p, ds, e0, e1, h⟩ := run_campaign p1 c2 c3
      have hs : session names m0 files E' = p.1.2.files := by
        unfold session
        rw [e0]
        dsimp only
        rw [e1]
      have hns : newSamples E'.base = newSamples E.base := by
        funext d
        unfold newSamples
        rw [c4]
      have hf' := p2 _ _ h.files
      rw [hns] at hf'
      obtain ⟨dss, q1, q2, q3⟩ := ih _ _ (hs ▸ hf') fun E2 h2 => hE E2 (by simp [h2])
      refine ⟨ds :: dss, by simp [q1], ?_, ?_⟩
      · intro i E2 ds2 h1 h2
        match i with
        | 0 =>
          simp only [List.getElem?_cons_zero, Option.some.injEq] at h1 h2
          subst h1 h2
          refine ⟨?_, ?_, fun j d hd => (h.designs j d hd).1⟩
          · rcases h.ended with ⟨s, m, h1, h2⟩ | ⟨s, m, m1, e, h1, h2, h3, h4, h5⟩ |
              ⟨s1, s, m, x, e, h1, h2, -, -, -, -, -, -⟩
            · exact h1.le
            · exact h1.le
            · exact h1.le
          · intro hD hk
            rcases h.ended with ⟨s, m, h1, h2⟩ | ⟨s, m, m1, e, h1, h2, h3, h4, h5⟩ |
              ⟨s1, s, m, x, e, h1, h2, -, -, -, -, -, -⟩
            · exact h1
            · rw [hk] at h2; omega
            · exact absurd h2 (not_fails (hD.at_ _))
        | i + 1 =>
          simp only [List.getElem?_cons_succ] at h1 h2
          exact q2 i E2 ds2 h1 h2
      · rw [List.flatten_cons, List.flatMap_append, ← List.append_assoc]
        exact q3
  intro Es hE
  obtain ⟨dss, h1, h2, h3⟩ := H Es [] m0.files (files_of_held (held_start hP)) hE
  exact ⟨dss, h1, h2, by simpa [FilesOf] using h3⟩

/-! ## C93: simulations that fail -/

/-- **C93.** If the simulation of iteration `n` fails (it throws or delivers NaN), the optimization ends with an
error before it records anything of this iteration: history, training data files and optimum are those of
fewer than `n` designs; of exactly `n - 1` if the simulations before deliver and the models are not trained
again. -/
theorem C93_failure (hP : ProperCampaign E names m0 start) (hS : Sane E.base)
    (hD : ∀ n, DeliversAt E.base n ∨ FailsAt E.base n) {n : Nat} (h1 : 1 ≤ n) (hn : n ≤ E.base.maxSamples)
    (hF : FailsAt E.base n) :
    ∃ s0 s m e ds s1, fresh E.base.setup.problem names = .ok s0 ∧
      perform E true E.base.maxSamples (s0, m0) = ((s, m), .error e) ∧ ds.length < n ∧
      BookOf E start s1 ds ∧ s.history = s1.history ∧ s.global = s1.global ∧ s.samples = s1.samples ∧
      FilesOf E m0 start ds m.files ∧
      ((∀ j, j < n → DeliversAt E.base j) → E.base.howOften = 1 → ds.length = n - 1) := by
  obtain ⟨s0, p, ds, e0, e1, h⟩ := run_campaign hP hS hD
  have hf := h.files
  have hlt : ds.length < n := by
    by_contra hle
    have hl : n - 1 < ds.length := by omega
    have := (h.designs (n - 1) ds[n - 1] (List.getElem?_eq_getElem hl)).2.1
    rw [Nat.sub_add_cancel h1] at this
    exact this hF
  rcases h.ended with ⟨s, m, a1, a2⟩ | ⟨s, m, m1, e, a1, a2, a3, a4, a5⟩ |
    ⟨s1, s, m, x, e, a1, a2, a3, a4, a5, a6, a7, a8⟩
  · omega
  · refine ⟨s0, s, m, e, ds, s, e0, e1, hlt, a3, rfl, rfl, rfl, hf, fun _ hk => ?_⟩
    rw [hk] at a2
    omega
  · refine ⟨s0, s, m, e, ds, s1, e0, e1, hlt, a3, a5, a6, a4, hf, fun hd _ => ?_⟩
    by_contra hne
    exact not_fails (hd (ds.length + 1) (by omega)) a2

/-! ## A campaign that meets the hypotheses -/

namespace CampaignDemo

/-- Minimize `x²` over `[0, 2]` with the user defined constraint `x < 3/2` and a simulated constraint
`x + 1 > 1/2`; the simulation of iteration `bad` delivers the number 7, which stands for NaN here. -/
noncomputable def env (M k : Nat) (bad : Option Nat) : CampaignEnv ℝ where
  base := {
    setup := ⟨⟨1, [0], [2], true, [⟨0, ['<'], 3 / 2, .user (fun x => if x.headD 0 = 7 then 0 else x.headD 0)⟩,
      ⟨1, ['>'], 1 / 2, .data ⟨0, 0, []⟩⟩]⟩, [], [], 2, 1⟩
    maxSamples := M
    howOften := k
    variableSigma := true
    constraintNames := [['c'], ['d']]
    objective := fun n x => if bad = some n then .ok 7 else .ok (if x.headD 0 ^ 2 = 7 then 0 else x.headD 0 ^ 2)
    constraint := fun _ _ x => .ok (if x.headD 0 + 1 = 7 then 0 else x.headD 0 + 1)
    isNan := fun x => decide (x = 7)
    initSurrogates := .ok ()
    train := fun _ => .ok ()
    surrogate := fun _ => ⟨fun _ => 0, fun _ => 0⟩
    search := fun _ => ⟨fun i _ => if i = 0 then 3 / 4 else 1 / 4, fun _ _ => 1 / 2, ⟨2, id, [0, 1, 0, 1]⟩,
      ⟨1, fun _ => 0, [0, 0]⟩⟩
    addSample := fun _ _ _ => .ok ()
    sigmaDraw := fun n => (n, 2)
    fuel := 27 }
  fns := realFns
  erf := realErf
  permInit := fun _ _ => List.range
  permInitL := fun _ _ => List.range
  permAdd := fun _ _ => List.range
  permAddL := fun _ _ => List.range
  draws := fun _ _ _ => ⟨fun _ => .ok 0, fun _ => 0, fun _ _ => 0, fun _ => 0, fun _ => 0, 10⟩
  schedule := fun _ _ => []

/-- Objective and constraint with the same table in two files. -/
noncomputable def models (text : Str) : Models ℝ where
  fn key := ⟨['f'], if key = none then ['a'] else ['b'], .ordinary, 1, ⟨[0], [2], 1, true⟩, true, true, 100,
    false, false, Kriging.new⟩
  files name := if name = ['a'] ∨ name = ['b'] then some text else none

/-- The training data files at the beginning. -/
noncomputable def begins (text : Str) : Option Nat → TrainingFile := fun _ => ⟨text, 2, exampleTable⟩

theorem hasModel {M k : Nat} {bad : Option Nat} {key : Option Nat} (h : HasModel (env M k bad) key) :
    key = none ∨ key = some 1 := by
  rcases h with h | ⟨k, c, D, rfl, h1, h2⟩
  · exact Or.inl h
  · match k with
    | 0 => simp [env] at h1; subst h1; cases h2
    | 1 => exact Or.inr rfl
    | k + 2 => simp [env] at h1

theorem proper {text : Str} (ht : text.getLast? = some '\n') (hf : DataFile (some text) 2 1 exampleTable)
    {M k : Nat} (bad : Option Nat) (hM : M ≠ 0) (hk : k ≠ 0) :
    ProperCampaign (env M k bad) [] (models text) (begins text) where
  fns := rfl
  boxSet := rfl
  box := by
    refine ⟨Nat.one_pos, rfl, rfl, ?_⟩
    intro i l u hl hu
    match i with
    | 0 => simp [env] at hl hu; subst hl hu; norm_num
    | i + 1 => simp [env] at hl
  discrete := ⟨rfl, rfl, rfl, by simp [SearchSetup.discrete, env], by simp [SearchSetup.discrete, env]⟩
  few := by simp [FewValues, SearchSetup.discrete, env]
  constraints := by
    intro i c hc
    match i with
    | 0 => simp [env] at hc; subst hc; exact ⟨Or.inl rfl, by norm_num, by norm_num, rfl⟩
    | 1 => simp [env] at hc; subst hc; exact ⟨Or.inr rfl, by norm_num, by norm_num, rfl⟩
    | i + 2 => simp [env] at hc
  constraintNames := ⟨rfl, by simp [env], by simp [env]⟩
  names := Or.inl rfl
  functions := fun key _ => ⟨⟨by simp [models], by simp only [models]; split_ifs <;> simp, by simp [models],
    by simp [models], rfl, rfl, rfl, rfl⟩, rfl⟩
  files := by
    intro key _
    refine ⟨?_, ht, hf⟩
    simp only [Models.file, models, begins]
    split_ifs <;> simp_all
  distinct := by
    intro key key' h1 h2 h
    rcases hasModel h1 with rfl | rfl <;> rcases hasModel h2 with rfl | rfl <;> simp [models] at h ⊢
  shuffles := fun _ _ n => ⟨.refl _, .refl _, .refl _, .refl _⟩
  draws := by
    intro i key t
    simp [Draws, env]
  howOften := hk
  maxSamples := hM
  fuel := le_refl _
  complete := by
    intro n i j
    simp only [env]
    split_ifs <;> norm_num
  around := by
    intro n i j
    simp only [env]
    norm_num

theorem sane (M k : Nat) (bad : Option Nat) : Sane (env M k bad).base where
  user := by
    intro c hc f x hs
    simp only [env, List.mem_cons, List.not_mem_nil, or_false] at hc
    rcases hc with rfl | rfl
    · cases hs
      simp only [env, decide_eq_false_iff_not]
      split_ifs with h
      · norm_num
      · exact h
    · cases hs
  zero := by simp [env]

theorem delivers (M k : Nat) {bad : Option Nat} {n : Nat} (h : bad ≠ some n) : DeliversAt (env M k bad).base n where
  objective := by
    intro x
    refine ⟨_, by simp only [env]; rw [if_neg h], ?_⟩
    simp only [env, decide_eq_false_iff_not]
    split_ifs with h
    · norm_num
    · exact h
  constraint := by
    intro i x
    refine ⟨_, rfl, ?_⟩
    simp only [env, decide_eq_false_iff_not]
    split_ifs with h
    · norm_num
    · exact h

theorem fails (M k n : Nat) : FailsAt (env M k (some n)).base n := by
  left
  intro x v h
  simp only [env, if_true] at h
  cases h
  simp [env]

theorem deliversOrFails (M k : Nat) (bad : Option Nat) (n : Nat) :
    DeliversAt (env M k bad).base n ∨ FailsAt (env M k bad).base n := by
  by_cases h : bad = some n
  · subst h; exact Or.inr (fails M k n)
  · exact Or.inl (delivers M k h)

theorem alwaysDelivers (M k : Nat) : Delivers (env M k none).base :=
  ⟨sane M k none, fun n => delivers M k (by simp)⟩

end CampaignDemo

open CampaignDemo

-- C90: a campaign of five simulations, the models trained in every second iteration, in which the third
-- simulation fails.
example : ∃ text s0 p ds, fresh (env 5 2 (some 3)).base.setup.problem [] = .ok s0 ∧
    perform (env 5 2 (some 3)) true 5 (s0, models text) = p ∧
    (∀ (i : Nat) d, ds[i]? = some d → Simulated (env 5 2 (some 3)).base (i + 1) d ∧
      Found (env 5 2 (some 3)) (models text) (begins text) (ds.take i) d.params) ∧
    ModelsFollow (env 5 2 (some 3)) p.1.2 ∧
    FilesOf (env 5 2 (some 3)) (models text) (begins text) ds p.1.2.files := by
  obtain ⟨text, ht, hf⟩ := exampleText
  exact ⟨text, C90_found (proper ht hf _ (by norm_num) (by norm_num)) (sane 5 2 _) (deliversOrFails 5 2 _)⟩

-- The exploration factor of this campaign is between 1 and 100.
example (text : Str) : (∀ n, 2 ≤ ((env 5 2 (some 3)).base.sigmaDraw n).2) ∧
    0 < reportedCrowding (begins text none).rows (env 5 2 (some 3)).base.setup.problem.dimension
      (begins text none).table := by
  refine ⟨fun n => by simp [env], ?_⟩
  norm_num [reportedCrowding, pairCount32, begins, env, Finset.sum_range_succ, rowDist, exampleTable]

-- C90: the acquisition function in the first search of such a campaign.
example : ∃ (m : Models ℝ) (s : EGOState ℝ) (x : ℝ), ModelsFollow (env 5 1 none) m ∧ s.sigma = .fin x ∧ 0 < x ∧
    ∀ dv : List ℝ, dv.length = 1 → 0 ≤ (acqOf (env 5 1 none) m s).ei dv := by
  obtain ⟨text, ht, hf⟩ := exampleText
  have hP := proper ht hf none (M := 5) (k := 1) (by norm_num) (by norm_num)
  obtain ⟨s0, p, ds, e0, e1, h⟩ := run_campaign hP (sane 5 1 _) (deliversOrFails 5 1 _)
  obtain ⟨s0', s, m, ds', e0', e1', hl, -⟩ := C91_untrained hP (alwaysDelivers 5 1) rfl
  rw [e0] at e0'
  cases e0'
  rw [e1'] at e1
  subst e1
  rcases h.ended with ⟨_, _, h1, h2⟩
  have hlen : 0 < ds.length := by rw [h1]; simp [env]
  obtain ⟨-, -, s1, m1, -, -, -, h3, -, h4⟩ := h.designs 0 ds[0] (List.getElem?_eq_getElem hlen)
  obtain ⟨y, h5, h6, -⟩ := h4 (fun n => by simp [env])
    (by norm_num [reportedCrowding, pairCount32, begins, env, Finset.sum_range_succ, rowDist, exampleTable])
  refine ⟨m1, s1, y, h3, h5, by linarith, fun dv hdv => ?_⟩
  obtain ⟨f, v, -, -, h7, -⟩ := C90_acquisition hP rfl h3 h5 (by linarith) (dv := dv) hdv
  exact h7

-- C91: without new training it completes, with five designs in the history and in the training data files.
example : ∃ text s0 s m ds, fresh (env 5 1 none).base.setup.problem [] = .ok s0 ∧
    perform (env 5 1 none) true 5 (s0, models text) = ((s, m), .ok ()) ∧ ds.length = 5 ∧
    BookOf (env 5 1 none) (begins text) s ds ∧
    FilesOf (env 5 1 none) (models text) (begins text) ds m.files := by
  obtain ⟨text, ht, hf⟩ := exampleText
  exact ⟨text, C91_untrained (proper ht hf _ (by norm_num) (by norm_num)) (alwaysDelivers 5 1) rfl⟩

-- C92: an optimization in which the third simulation fails, then two that complete.
example : ∃ (text : Str) (ds1 ds2 ds3 : List (Design ℝ)), ds1.length ≤ 5 ∧ ds2.length = 5 ∧ ds3.length = 4 ∧
    FilesOf (env 1 1 none) (models text) (begins text) (ds1 ++ (ds2 ++ ds3))
      ([env 5 1 (some 3), env 5 1 none, env 4 1 none].foldl (session [] (models text))
        (models text).files) := by
  obtain ⟨text, ht, hf⟩ := exampleText
  obtain ⟨dss, h1, h2, h3⟩ := C92_sessions (proper ht hf none (M := 1) (k := 1) (by norm_num) (by norm_num))
    [env 5 1 (some 3), env 5 1 none, env 4 1 none] (by
      intro E' hE
      simp only [List.mem_cons, List.not_mem_nil, or_false] at hE
      rcases hE with rfl | rfl | rfl <;>
        exact ⟨proper ht hf _ (by norm_num) (by norm_num), sane _ _ _, deliversOrFails _ _ _, rfl⟩)
  match dss, h1, h2, h3 with
  | [ds1, ds2, ds3], _, h2, h3 =>
    exact ⟨text, ds1, ds2, ds3, (h2 0 _ _ rfl rfl).1, (h2 1 _ _ rfl rfl).2.1 (alwaysDelivers _ _) rfl,
      (h2 2 _ _ rfl rfl).2.1 (alwaysDelivers _ _) rfl, by simpa using h3⟩

-- C93: the third simulation fails; two designs are recorded.
example : ∃ text s0 s m e ds s1, fresh (env 5 1 (some 3)).base.setup.problem [] = .ok s0 ∧
    perform (env 5 1 (some 3)) true 5 (s0, models text) = ((s, m), .error e) ∧ ds.length = 2 ∧
    BookOf (env 5 1 (some 3)) (begins text) s1 ds ∧ s.history = s1.history ∧
    FilesOf (env 5 1 (some 3)) (models text) (begins text) ds m.files := by
  obtain ⟨text, ht, hf⟩ := exampleText
  obtain ⟨s0, s, m, e, ds, s1, e0, e1, h1, h2, h3, -, -, h4, h5⟩ := C93_failure
    (proper ht hf (some 3) (M := 5) (k := 1) (by norm_num) (by norm_num)) (sane 5 1 _) (deliversOrFails 5 1 _)
    (n := 3) (by norm_num) (by simp [env]) (fails 5 1 3)
  exact ⟨text, s0, s, m, e, ds, s1, e0, e1, h5 (fun j hj => delivers 5 1 (by
    intro h; cases h; omega)) rfl, h2, h3, h4⟩

end Rodeo
