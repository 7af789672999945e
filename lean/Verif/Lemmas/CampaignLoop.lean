import Verif.Lemmas.CampaignRun

set_option linter.unusedSectionVars false

/-! # The loop of an optimization with surrogate models and training data files -/

namespace Rodeo
open Spec Text EGO Mat

namespace Campaign

variable {E : CampaignEnv ℝ} {names : List Str} {m0 : Models ℝ} {start : Option Nat → TrainingFile}

theorem Iterated.ran {s s' : EGOState ℝ} {N : Nat} {F : Nat → Nat → ℝ} {d : Design ℝ}
    (hr : Ready (plain E) s N F) (h : Iterated E s s' N F d) : Ran (plain E) s s' N F [d] := by
  refine ⟨?_, ?_, ?_, by simpa using h.calls,
    by rw [h.samples]; simp [plain, newSamples], h.doe,
    ⟨s.global, hr.gdim, hr.gnc, hr.gset, hr.glb, hr.gub, h.global⟩, ⟨[_], rfl, h.tr⟩, h.sigma⟩
  · refine h.ready.congr ?_
    intro i j hi
    rw [List.map_cons, ← appendRows_cons, List.map_nil, appendRows_nil _ _ _ _ hi]
    rfl
  · intro i d' hd
    match i with
    | 0 => simp at hd; subst hd; exact h.simulated
    | i + 1 => simp at hd
  · simp [improvementValues, h.improvement]

theorem Iterated.ran_cons {s s1 s' : EGOState ℝ} {N : Nat} {F : Nat → Nat → ℝ} {d : Design ℝ}
    {ds : List (Design ℝ)} (h : Iterated E s s1 N F d)
    (r : Ran (plain E) s1 s' (N + 1)
      (appendRow F N (historyRow d E.base.setup.problem.constraints.length)) ds) :
    Ran (plain E) s s' N F (d :: ds) := by
  refine ⟨?_, ?_, ?_, ?_, ?_, r.doe.trans h.doe, r.global, ?_, ?_, ?_⟩
  · rw [List.map_cons, ← appendRows_cons, List.length_cons]
    have : N + (ds.length + 1) = N + 1 + ds.length := by omega
    rw [this]; exact r.ready
  · intro i d' hd
    match i with
    | 0 => simp at hd; subst hd; exact h.simulated
    | i + 1 =>
      simp only [List.getElem?_cons_succ] at hd
      have := r.simulated i d' hd
      rw [h.iteration] at this
      have e2 : s.iteration + (i + 1) + 1 = s.iteration + 1 + i + 1 := by omega
      rw [e2]; exact this
  · simp only [List.map_cons, improvementValues]
    rw [h.improvement, r.improvements, h.best]
  · rw [r.calls, h.calls]; simp
  · rw [r.samples, h.samples]; simp [plain, newSamples]
  · obtain ⟨bs, hb, ht⟩ := r.tr
    exact ⟨decide (d.improvement > s.global.design.improvement) :: bs, by simp [hb], by rw [ht, h.tr]; rfl⟩
  · intro hm1
    obtain ⟨a1, a2⟩ := h.sigma.1 hm1
    obtain ⟨b1, b2⟩ := r.sigma.1 a1
    refine ⟨b1, fun hv => ?_⟩
    obtain ⟨c, mm, n, c1, c2⟩ := b2 hv
    exact ⟨c, mm, n, c1, by rw [c2, h.crowding, h.doe]⟩
  · intro hv
    rw [r.sigma.2 hv, h.sigma.2 hv]

/-- The optimizer came from `s` to `s'` by iterations that simulated the designs `ds`. -/
structure Reached (E : CampaignEnv ℝ) (s s' : EGOState ℝ) (N : Nat) (F : Nat → Nat → ℝ)
    (ds : List (Design ℝ)) : Prop where
  run : (ds = [] ∧ s' = s) ∨ Ran (plain E) s s' N F ds
  iteration : s'.iteration = s.iteration + ds.length
  evaluations : s'.evaluations = s.evaluations + ds.length

theorem Reached.nil (s : EGOState ℝ) (N : Nat) (F : Nat → Nat → ℝ) : Reached E s s N F [] :=
  ⟨Or.inl ⟨rfl, rfl⟩, rfl, rfl⟩

theorem Reached.cons {s s1 s' : EGOState ℝ} {N : Nat} {F : Nat → Nat → ℝ} {d : Design ℝ}
    {ds : List (Design ℝ)} (hr : Ready (plain E) s N F) (h : Iterated E s s1 N F d)
    (r : Reached E s1 s' (N + 1)
      (appendRow F N (historyRow d E.base.setup.problem.constraints.length)) ds) :
    Reached E s s' N F (d :: ds) := by
  refine ⟨Or.inr ?_, ?_, ?_⟩
  · rcases r.run with ⟨rfl, rfl⟩ | r
    · exact h.ran hr
    · exact h.ran_cons r
  · rw [r.iteration, h.iteration, List.length_cons]; omega
  · rw [r.evaluations, h.evaluations, List.length_cons]; omega

/-- How the designs of a run were found: before design number `i` the optimizer was in the state `p.1`, with
the models and files `p.2`. -/
def Proposals (E : CampaignEnv ℝ) (m0 : Models ℝ) (start : Option Nat → TrainingFile)
    (l : List (Option Nat × List ℝ)) (s : EGOState ℝ) (N : Nat) (F : Nat → Nat → ℝ)
    (ds : List (Design ℝ)) : Prop :=
  ∀ (i : Nat) d, ds[i]? = some d → ∃ (s1 : EGOState ℝ) (m1 : Models ℝ), Reached E s s1 N F (ds.take i) ∧
    Held E m0 start (l ++ (ds.take i).flatMap (newSamples E.base)) All m1 ∧ ProposedBy E m1 s1 d.params ∧
    ¬ FailsAt E.base (s1.iteration + 1)

theorem not_fails {n : Nat} (h : DeliversAt E.base n) : ¬ FailsAt E.base n := by
  rintro (h1 | ⟨k, c, D, -, -, h1⟩)
  · obtain ⟨v, e, hv⟩ := h.objective []
    rw [h1 [] v e] at hv
    cases hv
  · obtain ⟨v, e, hv⟩ := h.constraint k []
    rw [h1 [] v e] at hv
    cases hv

theorem Proposals.cons {l : List (Option Nat × List ℝ)} {s s1 : EGOState ℝ} {N : Nat}
    {F : Nat → Nat → ℝ} {d : Design ℝ} {ds : List (Design ℝ)} {m : Models ℝ}
    (hr : Ready (plain E) s N F) (h : Iterated E s s1 N F d) (hm : Held E m0 start l All m)
    (hd : ProposedBy E m s d.params) (hf : ¬ FailsAt E.base (s.iteration + 1))
    (hp : Proposals E m0 start (l ++ newSamples E.base d) s1 (N + 1)
      (appendRow F N (historyRow d E.base.setup.problem.constraints.length)) ds) :
    Proposals E m0 start l s N F (d :: ds) := by
  intro i d' hi
  match i with
  | 0 =>
    simp at hi
    subst hi
    exact ⟨s, m, Reached.nil s N F, by simpa using hm, hd, hf⟩
  | i + 1 =>
    simp only [List.getElem?_cons_succ] at hi
    obtain ⟨s2, m2, r1, r2, r3⟩ := hp i d' hi
    refine ⟨s2, m2, ?_, ?_, r3⟩
    · rw [List.take_succ_cons]
      exact r1.cons hr h
    · rw [List.take_succ_cons, List.flatMap_cons, ← List.append_assoc]
      exact r2

/-- The end of a run: it was completed, a training threw or a simulation failed. -/
def Ended (E : CampaignEnv ℝ) (m0 : Models ℝ) (start : Option Nat → TrainingFile)
    (l : List (Option Nat × List ℝ)) (s : EGOState ℝ) (N : Nat) (F : Nat → Nat → ℝ)
    (ds : List (Design ℝ)) (rounds : Nat) (p : CampaignState ℝ × Res Unit) : Prop :=
  (p.2 = .ok () ∧ ds.length = rounds ∧ Reached E s p.1.1 N F ds) ∨
  (∃ s1 m1 e, ds.length < rounds ∧ (s1.iteration + 1) % E.base.howOften = 1 ∧ Reached E s s1 N F ds ∧
    Held E m0 start (l ++ ds.flatMap (newSamples E.base)) All m1 ∧
    trainSurrogates E (s1.iteration + 1) m1 = (p.1.2, .error e) ∧
    p.1.1 = { s1 with
      iteration := s1.iteration + 1, trained := s1.trained ++ trainedAt E.base (s1.iteration + 1) } ∧
    p.2 = .error e) ∨
  ∃ s1 x e, ds.length < rounds ∧ FailsAt E.base (s1.iteration + 1) ∧ Reached E s s1 N F ds ∧
    ProposedBy E p.1.2 s1 x ∧ p.1.1.samples = s1.samples ∧ p.1.1.history = s1.history ∧
    p.1.1.global = s1.global ∧ p.1.1.calls = s1.calls ++ [x] ∧ p.2 = .error e

/-- One iteration. -/
theorem iterate_any (hP : ProperCampaign E names m0 start) (hW : WellPosed (plain E) names)
    (hS : Sane E.base) (hD : ∀ n, DeliversAt E.base n ∨ FailsAt E.base n)
    {l : List (Option Nat × List ℝ)} {s : EGOState ℝ} {m : Models ℝ} {N : Nat} {F : Nat → Nat → ℝ}
    (hr : Ready (plain E) s N F) (hm : Held E m0 start l All m) :
    (∃ s' m' m1 d, iterate E (s, m) = ((s', m'), .ok ()) ∧ Held E m0 start l All m1 ∧
      Held E m0 start (l ++ newSamples E.base d) All m' ∧ ProposedBy E m1 s d.params ∧
      Iterated E s s' N F d ∧ ¬ FailsAt E.base (s.iteration + 1)) ∨
    ∃ p e, iterate E (s, m) = (p, .error e) ∧ Held E m0 start l All p.2 ∧
      ∀ k, Ended E m0 start l s N F [] (k + 1) (p, .error e) := by
  have ht : (∃ m1 m' e, (s.iteration + 1) % E.base.howOften = 1 ∧ Held E m0 start l All m1 ∧
      Held E m0 start l All m' ∧ trainSurrogates E (s.iteration + 1) m1 = (m', .error e) ∧
      iterate E (s, m) = (({ s with
        iteration := s.iteration + 1, trained := s.trained ++ trainedAt E.base (s.iteration + 1) }, m'),
        .error e)) → ∃ p e, iterate E (s, m) = (p, .error e) ∧ Held E m0 start l All p.2 ∧
      ∀ k, Ended E m0 start l s N F [] (k + 1) (p, .error e) := by
    rintro ⟨m1, m', e, h1, h2, h3, h4, h5⟩
    exact ⟨_, e, h5, h3, fun k => Or.inr (Or.inl ⟨s, m1, e, by simp, h1, Reached.nil s N F,
      by simpa using h2, h4, rfl, rfl⟩)⟩
  rcases hD (s.iteration + 1) with hD | hF
  · rcases iterate_campaign hP hW hS hD hr hm with h | h
    · obtain ⟨s', m', m1, d, h1, h2, h3, h4, h5⟩ := h
      exact Or.inl ⟨s', m', m1, d, h1, h2, h3, h4, h5, not_fails hD⟩
    · exact Or.inr (ht h)
  · rcases iterate_fails hP hW hS hF hr hm with ⟨s', m', e, x, h1, h2, h3, h4, h5, h6, h7⟩ | h
    · exact Or.inr ⟨_, e, h1, h2, fun k => Or.inr (Or.inr ⟨s, x, e, by simp, hF, Reached.nil s N F, h3, h4, h5,
        h6, h7, rfl⟩)⟩
    · exact Or.inr (ht h)

theorem Ended.cons {l : List (Option Nat × List ℝ)} {s s1 : EGOState ℝ} {N : Nat}
    {F : Nat → Nat → ℝ} {d : Design ℝ} {ds : List (Design ℝ)} {k : Nat} {p : CampaignState ℝ × Res Unit}
    (hr : Ready (plain E) s N F) (h : Iterated E s s1 N F d)
    (hp : Ended E m0 start (l ++ newSamples E.base d) s1 (N + 1)
      (appendRow F N (historyRow d E.base.setup.problem.constraints.length)) ds k p) :
    Ended E m0 start l s N F (d :: ds) (k + 1) p := by
  rcases hp with ⟨r1, r2, r3⟩ | ⟨s1, m2, e2, r1, r2, r3, r4, r5, r6, r7⟩ |
    ⟨s1, x, e2, r1, r2, r3, r4, r5, r6, r7, r8, r9⟩
  · exact Or.inl ⟨r1, by rw [List.length_cons, r2], r3.cons hr h⟩
  · refine Or.inr (Or.inl ⟨s1, m2, e2, by rw [List.length_cons]; omega, r2, r3.cons hr h, ?_, r5, r6, r7⟩)
    rw [List.flatMap_cons, ← List.append_assoc]
    exact r4
  · exact Or.inr (Or.inr ⟨s1, x, e2, by rw [List.length_cons]; omega, r2, r3.cons hr h, r4, r5, r6, r7, r8,
      r9⟩)

/-- The loop. -/
theorem loop_campaign (hP : ProperCampaign E names m0 start) (hW : WellPosed (plain E) names)
    (hS : Sane E.base) (hD : ∀ n, DeliversAt E.base n ∨ FailsAt E.base n) : ∀ (k : Nat)
    (l : List (Option Nat × List ℝ)) (s : EGOState ℝ) (m : Models ℝ)
    (N : Nat) (F : Nat → Nat → ℝ), Ready (plain E) s N F → Held E m0 start l All m →
    s.iteration + (k + 1) = max (s.iteration + 1) E.base.maxSamples →
    ∃ p ds, loop E (k + 1) (s, m) = p ∧
      Held E m0 start (l ++ ds.flatMap (newSamples E.base)) All p.1.2 ∧
      Proposals E m0 start l s N F ds ∧ Ended E m0 start l s N F ds (k + 1) p := by
  intro k
  induction k with
  | zero =>
    intro l s m N F hr hm hk
    rcases iterate_any hP hW hS hD hr hm with ⟨s', m', m1, d, e, h1, h2, h3, h4, h5⟩ | ⟨p, e, h1, h2, h3⟩
    · refine ⟨((s', m'), .ok ()), [d], ?_, ?_, ?_, Or.inl ⟨rfl, rfl, (Reached.nil s' _ _).cons hr h4⟩⟩
      · unfold loop
        rw [cthen_ok e]
        exact if_pos (by rw [h4.iteration]; omega)
      · simpa using h2
      · refine Proposals.cons hr h4 h1 h3 h5 ?_
        intro i d hd
        simp at hd
    · refine ⟨(p, .error e), [], ?_, by simpa using h2, ?_, h3 0⟩
      · unfold loop
        rw [cthen_error h1]
      · intro i d hd
        simp at hd
  | succ k ih =>
    intro l s m N F hr hm hk
    rcases iterate_any hP hW hS hD hr hm with ⟨s', m', m1, d, e, h1, h2, h3, h4, h5⟩ | ⟨p, e, h1, h2, h3⟩
    · obtain ⟨p, ds, q1, q2, q3, q4⟩ := ih (l ++ newSamples E.base d) s' m' (N + 1) _ h4.ready h2
        (by rw [h4.iteration]; omega)
      refine ⟨p, d :: ds, ?_, ?_, Proposals.cons hr h4 h1 h3 h5 q3, q4.cons hr h4⟩
      · unfold loop
        rw [cthen_ok e]
        dsimp only
        rw [if_neg (by rw [h4.iteration]; omega)]
        exact q1
      · rw [List.flatMap_cons, ← List.append_assoc]
        exact q2
    · refine ⟨(p, .error e), [], ?_, by simpa using h2, ?_, h3 _⟩
      · unfold loop
        rw [cthen_error h1]
      · intro i d hd
        simp at hd

end Campaign
end Rodeo
