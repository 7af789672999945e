import Verif.Lemmas.KrigingBuild
import Verif.Props.EA
import Verif.Lemmas.API

set_option linter.unusedSectionVars false

/-! # Lemmas on the training of a Kriging model -/

namespace Rodeo
open Spec Mat Finset Text

theorem mapRes_perm {α β : Type} {f : α → Res β} {s s' : List α} (hp : s.Perm s') :
    ∀ {rs : List β}, mapRes f s = .ok rs → ∃ rs', mapRes f s' = .ok rs' ∧ rs.Perm rs' := by
  have cons_inv : ∀ {a : α} {l : List α} {rs : List β}, mapRes f (a :: l) = .ok rs →
      ∃ b bs, f a = .ok b ∧ mapRes f l = .ok bs ∧ rs = b :: bs := by
    intro a l rs h
    simp only [mapRes] at h
    cases ha : f a with
    | error e => rw [ha] at h; cases h
    | ok b =>
      cases hl : mapRes f l with
      | error e => rw [ha, hl] at h; cases h
      | ok bs => rw [ha, hl] at h; cases h; exact ⟨b, bs, rfl, rfl, rfl⟩
  have cons_ok : ∀ {a : α} {l : List α} {b : β} {bs : List β}, f a = .ok b → mapRes f l = .ok bs →
      mapRes f (a :: l) = .ok (b :: bs) := by
    intro a l b bs h1 h2
    simp only [mapRes, h1, h2]
  induction hp with
  | nil => exact fun {rs} h => ⟨rs, h, List.Perm.refl _⟩
  | cons a _ ih =>
    intro rs h
    obtain ⟨b, bs, h1, h2, rfl⟩ := cons_inv h
    obtain ⟨bs', h3, h4⟩ := ih h2
    exact ⟨b :: bs', cons_ok h1 h3, h4.cons b⟩
  | swap a a' l =>
    intro rs h
    obtain ⟨b, bs, h1, h2, rfl⟩ := cons_inv h
    obtain ⟨b', bs', h3, h4, rfl⟩ := cons_inv h2
    exact ⟨b' :: b :: bs', cons_ok h3 (cons_ok h1 h4), List.Perm.swap _ _ _⟩
  | trans _ _ ih1 ih2 =>
    intro rs h
    obtain ⟨r1, h1, p1⟩ := ih1 h
    obtain ⟨r2, h2, p2⟩ := ih2 h1
    exact ⟨r2, h2, p1.trans p2⟩

section generic
variable {K : Type} [Field K] [LinearOrder K] [IsStrictOrderedRing K]

theorem dblMax_pos : (0 : K) < dblMax := by
  unfold dblMax
  exact sub_pos.2 (pow_lt_pow_right₀ (by norm_num) (by norm_num))

namespace Kriging

/-- The object with other values of what the evaluation of the objective function changes. -/
def withScratch (k : Kriging K) (M : Mat K) (th ga : List K) (L : CholeskySystem K)
    (a b c o : List K) (beta s : K) : Kriging K :=
  { k with
    corr := ⟨{ k.corr.base with matrix := M }, th, ga⟩, chol := L, RinvYs := a, RinvI := b,
    RinvYsMinBeta := c, ones := o, beta0 := beta, sigmaSquared := s }

/-- Two objects that differ only in what the evaluation of the objective function changes. -/
def SameInputs (k k' : Kriging K) : Prop :=
  ∃ M th ga L a b c o beta s, k' = withScratch k M th ga L a b c o beta s

theorem SameInputs.refl (k : Kriging K) : SameInputs k k :=
  ⟨_, _, _, _, _, _, _, _, _, _, rfl⟩

theorem setHyperParameters_same (s : Corr.ExpCorr K) (M : Mat K) (th ga h : List K) :
    (∃ e, s.setHyperParameters h = .error e ∧
      (⟨{ s.base with matrix := M }, th, ga⟩ : Corr.ExpCorr K).setHyperParameters h = .error e) ∨
    ∃ th' ga', s.setHyperParameters h = .ok ⟨s.base, th', ga'⟩ ∧
      (⟨{ s.base with matrix := M }, th, ga⟩ : Corr.ExpCorr K).setHyperParameters h =
        .ok ⟨{ s.base with matrix := M }, th', ga'⟩ := by
  unfold Corr.ExpCorr.setHyperParameters
  by_cases h1 : h.length ≠ 2 * s.base.dim
  · rw [if_pos h1]
    exact Or.inl ⟨_, rfl, if_pos h1⟩
  · rw [if_neg h1, if_neg (show ¬ h.length ≠ 2 * s.base.dim from h1)]
    cases hh : Vec.head h s.base.dim with
    | error e => exact Or.inl ⟨e, rfl, rfl⟩
    | ok t =>
      simp only [bind, Except.bind, Corr.ExpCorr.setTheta]
      by_cases h2 : t.length = 0 ∨ t.length ≠ s.base.dim
      · simp only [if_pos h2]
        exact Or.inl ⟨_, rfl, rfl⟩
      · simp only [if_neg h2]
        cases ht : Vec.tail h s.base.dim with
        | error e => exact Or.inl ⟨e, rfl, rfl⟩
        | ok g =>
          simp only [Corr.ExpCorr.setGamma]
          by_cases h3 : g.length = 0 ∨ g.length ≠ s.base.dim
          · simp only [if_pos h3]
            exact Or.inl ⟨_, rfl, rfl⟩
          · simp only [if_neg h3]
            exact Or.inr ⟨t, g, rfl, rfl⟩

/-- The update does not depend on what was computed before. -/
theorem update_same (F : Fns K) (k : Kriging K) (M : Mat K) (L : CholeskySystem K)
    (a b c o : List K) (beta s : K) :
    ((withScratch k M k.corr.theta k.corr.gamma L a b c o beta s).updateAuxilliaryFields F).2 =
      (k.updateAuxilliaryFields F).2 ∧
    ((k.updateAuxilliaryFields F).2 = .ok () →
      (withScratch k M k.corr.theta k.corr.gamma L a b c o beta s).updateAuxilliaryFields F =
        k.updateAuxilliaryFields F) := by
  set k' := withScratch k M k.corr.theta k.corr.gamma L a b c o beta s with hk'
  by_cases h0 : k.isRead = false ∨ k.isNormalized = false ∨ k.corrInitialized = false ∨
      k.numberOfSamples = 0 ∨ k.dimension = 0
  · have : ∃ e, k.updateAuxilliaryFields F = (k, .error e) ∧ k'.updateAuxilliaryFields F = (k', .error e) := by
      unfold updateAuxilliaryFields
      by_cases c1 : k.isRead = false
      · exact ⟨_, if_pos c1, if_pos c1⟩
      by_cases c2 : k.isNormalized = false
      · exact ⟨_, (if_neg c1).trans (if_pos c2), (if_neg c1).trans (if_pos c2)⟩
      by_cases c3 : k.corrInitialized = false
      · exact ⟨_, (if_neg c1).trans ((if_neg c2).trans (if_pos c3)),
          (if_neg c1).trans ((if_neg c2).trans (if_pos c3))⟩
      by_cases c4 : k.numberOfSamples = 0
      · exact ⟨_, (if_neg c1).trans ((if_neg c2).trans ((if_neg c3).trans (if_pos c4))),
          (if_neg c1).trans ((if_neg c2).trans ((if_neg c3).trans (if_pos c4)))⟩
      have c5 : k.dimension = 0 := by tauto
      exact ⟨_, (if_neg c1).trans ((if_neg c2).trans ((if_neg c3).trans ((if_neg c4).trans (if_pos c5)))),
          (if_neg c1).trans ((if_neg c2).trans ((if_neg c3).trans ((if_neg c4).trans (if_pos c5))))⟩
    obtain ⟨e, e1, e2⟩ := this
    rw [e1, e2]
    exact ⟨rfl, fun h => by cases h⟩
  · push Not at h0
    obtain ⟨c1, c2, c3, c4, c5⟩ := h0
    unfold updateAuxilliaryFields
    rw [if_neg c1, if_neg c2, if_neg c3, if_neg c4, if_neg c5,
      if_neg (show ¬ k'.isRead = false from c1), if_neg (show ¬ k'.isNormalized = false from c2),
      if_neg (show ¬ k'.corrInitialized = false from c3), if_neg (show ¬ k'.numberOfSamples = 0 from c4),
      if_neg (show ¬ k'.dimension = 0 from c5)]
    have hcm : (∃ e, k.corr.computeCorrelationMatrix F.exp F.pow = .error e ∧
        k'.corr.computeCorrelationMatrix F.exp F.pow = .error e) ∨
        ∃ R, k.corr.computeCorrelationMatrix F.exp F.pow =
            .ok { k.corr with base := { k.corr.base with matrix := R } } ∧
          k'.corr.computeCorrelationMatrix F.exp F.pow =
            .ok { k.corr with base := { k.corr.base with matrix := R } } := by
      unfold Corr.ExpCorr.computeCorrelationMatrix
      by_cases h1 : k.corr.base.isSet = false
      · exact Or.inl ⟨_, if_pos h1, if_pos h1⟩
      · rw [if_neg h1, if_neg (show ¬ k'.corr.base.isSet = false from h1)]
        have : Corr.corrMatrixExponentialNaive F.exp F.pow k'.corr.base.X k'.corr.theta k'.corr.gamma =
          Corr.corrMatrixExponentialNaive F.exp F.pow k.corr.base.X k.corr.theta k.corr.gamma := rfl
        rw [this]
        cases Corr.corrMatrixExponentialNaive F.exp F.pow k.corr.base.X k.corr.theta k.corr.gamma with
        | error e => exact Or.inl ⟨e, rfl, rfl⟩
        | ok R =>
          simp only [bind, Except.bind]
          rw [show k'.corr.base.epsilon = k.corr.base.epsilon from rfl]
          cases Mat.addEpsilonToDiagonal R k.corr.base.epsilon with
          | error e => exact Or.inl ⟨e, rfl, rfl⟩
          | ok R' => exact Or.inr ⟨R', rfl, rfl⟩
    rcases hcm with ⟨e, e1, e2⟩ | ⟨R, e1, e2⟩
    · rw [e1, e2]
      exact ⟨rfl, fun h => by cases h⟩
    · rw [e1, e2]
      simp only [bind, Except.bind, commit, andThen]
      rw [show k'.chol.setMatrix R = k.chol.setMatrix R from rfl]
      cases (k.chol.setMatrix R).factorize F.sqrt with
      | error e => exact ⟨rfl, fun h => by cases h⟩
      | ok L' => exact ⟨rfl, fun _ => rfl⟩

/-- Neither does the evaluation at given hyperparameters. -/
theorem evaluateAt_same (F : Fns K) {k k' : Kriging K} (hs : SameInputs k k') (h : List K) :
    (k'.evaluateAt F h).2 = (k.evaluateAt F h).2 ∧
    ((k.evaluateAt F h).2 = .ok () → k'.evaluateAt F h = k.evaluateAt F h) := by
  obtain ⟨M, th, ga, L, a, b, c, o, beta, s, rfl⟩ := hs
  unfold evaluateAt
  rcases setHyperParameters_same k.corr M th ga h with ⟨e, e1, e2⟩ | ⟨th', ga', e1, e2⟩
  · rw [e1, show (withScratch k M th ga L a b c o beta s).corr.setHyperParameters h = .error e from e2]
    exact ⟨rfl, fun h => by cases h⟩
  · rw [e1, show (withScratch k M th ga L a b c o beta s).corr.setHyperParameters h =
      .ok ⟨{ k.corr.base with matrix := M }, th', ga'⟩ from e2]
    exact update_same F { k with corr := ⟨k.corr.base, th', ga'⟩ } M L a b c o beta s

theorem score_same (F : Fns K) (obj : KrigingObjective) {k k' : Kriging K} (hs : SameInputs k k')
    (h : List K) : (score F obj k' h).2 = (score F obj k h).2 := by
  have hE := evaluateAt_same F hs h
  have hf : k'.isRead = k.isRead ∧ k'.isNormalized = k.isNormalized ∧
      k'.numberOfSamples = k.numberOfSamples ∧ k'.data = k.data := by
    obtain ⟨M, th, ga, L, a, b, c, o, beta, s, rfl⟩ := hs
    exact ⟨rfl, rfl, rfl, rfl⟩
  obtain ⟨f1, f2, f3, f4⟩ := hf
  have key : ∀ g : Kriging K → Res K,
      (match k'.evaluateAt F h with
        | (k, .error e) => ((k, .error e) : Kriging K × Res K)
        | (k, .ok ()) => (k, g k)).2 =
      (match k.evaluateAt F h with
        | (k, .error e) => ((k, .error e) : Kriging K × Res K)
        | (k, .ok ()) => (k, g k)).2 := by
    intro g
    cases hr : k.evaluateAt F h with
    | mk k1 r =>
      rw [hr] at hE
      cases r with
      | error e =>
        cases hr' : k'.evaluateAt F h with
        | mk k2 r' =>
          rw [hr'] at hE
          obtain rfl : r' = .error e := hE.1
          rfl
      | ok u => rw [hE.2 rfl]
  cases obj with
  | validationError =>
    show (k'.validationErrorAt F h).2 = (k.validationErrorAt F h).2
    unfold validationErrorAt
    rw [f1, f2, f3, f4]
    split_ifs
    · rfl
    · rfl
    · rfl
    · rfl
    · exact key fun k => if k.chol.done = false then .ok (-dblMax) else k.calculateValidationError F
  | maximumLikelihood =>
    have hL : (k'.likelihoodAt F h).2 = (k.likelihoodAt F h).2 := by
      unfold likelihoodAt
      rw [f1, f2, f3]
      split_ifs
      · rfl
      · rfl
      · rfl
      · exact key fun k => k.likelihoodValue F
    unfold score
    cases h1 : k'.likelihoodAt F h with
    | mk k1 r1 =>
      cases h2 : k.likelihoodAt F h with
      | mk k2 r2 =>
        rw [h1, h2] at hL
        obtain rfl : r1 = r2 := hL
        cases r1 <;> rfl

theorem setHyperParameters_base {s c : Corr.ExpCorr K} {h : List K}
    (e : s.setHyperParameters h = .ok c) : ∃ th ga, c = ⟨s.base, th, ga⟩ := by
  rcases setHyperParameters_same s s.base.matrix s.theta s.gamma h with ⟨e', e1, -⟩ | ⟨th, ga, e1, -⟩
  · rw [e1] at e; cases e
  · rw [e1] at e; cases e; exact ⟨th, ga, rfl⟩

theorem update_keeps (F : Fns K) {k0 k : Kriging K} (h : SameInputs k0 k) :
    SameInputs k0 (k.updateAuxilliaryFields F).1 := by
  unfold updateAuxilliaryFields
  split_ifs
  · exact h
  · exact h
  · exact h
  · exact h
  · exact h
  · refine andThen_keeps (P := SameInputs k0) (commit_keeps h ?_) fun k h =>
      andThen_keeps (P := SameInputs k0) (commit_keeps h ?_) fun k h =>
      andThen_keeps (P := SameInputs k0) (commit_keeps ?_ ?_) fun k h => ?_
    · intro k' e
      obtain ⟨c, e1, e2⟩ := bind_ok_inv e
      cases e2
      obtain ⟨M, th, ga, L, a, b, c', o, beta, s, rfl⟩ := h
      unfold Corr.ExpCorr.computeCorrelationMatrix at e1
      split_ifs at e1
      obtain ⟨R, -, e1⟩ := bind_ok_inv e1
      obtain ⟨R', -, e1⟩ := bind_ok_inv e1
      cases e1
      exact ⟨R', th, ga, L, a, b, c', o, beta, s, rfl⟩
    · intro k' e
      obtain ⟨c, -, e2⟩ := bind_ok_inv e
      cases e2
      obtain ⟨M, th, ga, L, a, b, c', o, beta, s, rfl⟩ := h
      exact ⟨M, th, ga, c, a, b, c', o, beta, s, rfl⟩
    · obtain ⟨M, th, ga, L, a, b, c', o, beta, s, rfl⟩ := h
      exact ⟨M, th, ga, L, _, _, _, _, _, _, rfl⟩
    · intro k' e
      unfold resizeDataObjects at e
      split_ifs at e
      cases e
      obtain ⟨M, th, ga, L, a, b, c', o, beta, s, rfl⟩ := h
      exact ⟨M, th, ga, L, _, _, _, _, _, _, rfl⟩
    · split_ifs
      · refine commit_keeps h fun k' e => ?_
        unfold solveAll at e
        obtain ⟨_, -, e⟩ := bind_ok_inv e
        obtain ⟨_, -, e⟩ := bind_ok_inv e
        obtain ⟨_, -, e⟩ := bind_ok_inv e
        obtain ⟨_, -, e⟩ := bind_ok_inv e
        obtain ⟨_, -, e⟩ := bind_ok_inv e
        obtain ⟨_, -, e⟩ := bind_ok_inv e
        obtain ⟨_, -, e⟩ := bind_ok_inv e
        obtain ⟨_, -, e⟩ := bind_ok_inv e
        cases e
        obtain ⟨M, th, ga, L, a, b, c', o, beta, s, rfl⟩ := h
        exact ⟨M, th, ga, L, _, _, _, _, _, _, rfl⟩
      · exact h

theorem evaluateAt_keeps (F : Fns K) {k0 k : Kriging K} (h : SameInputs k0 k) (x : List K) :
    SameInputs k0 (k.evaluateAt F x).1 := by
  unfold evaluateAt
  refine andThen_keeps (P := SameInputs k0) (commit_keeps h ?_) fun k h => update_keeps F h
  intro k' e
  obtain ⟨c, e1, e2⟩ := bind_ok_inv e
  cases e2
  obtain ⟨th', ga', rfl⟩ := setHyperParameters_base e1
  obtain ⟨M, th, ga, L, a, b, c', o, beta, s, rfl⟩ := h
  exact ⟨M, th', ga', L, a, b, c', o, beta, s, rfl⟩

theorem score_keeps (F : Fns K) (obj : KrigingObjective) {k0 k : Kriging K} (h : SameInputs k0 k)
    (x : List K) : SameInputs k0 (score F obj k x).1 := by
  have hE := evaluateAt_keeps F h x
  have key : ∀ g : Kriging K → Res K, SameInputs k0
      (match k.evaluateAt F x with
        | (k, .error e) => ((k, .error e) : Kriging K × Res K)
        | (k, .ok ()) => (k, g k)).1 := by
    intro g
    cases hr : k.evaluateAt F x with
    | mk k1 r =>
      rw [hr] at hE
      cases r <;> exact hE
  cases obj with
  | validationError =>
    show SameInputs k0 (k.validationErrorAt F x).1
    unfold validationErrorAt
    split_ifs
    · exact h
    · exact h
    · exact h
    · exact h
    · exact key fun k => if k.chol.done = false then .ok (-dblMax) else k.calculateValidationError F
  | maximumLikelihood =>
    have hL : SameInputs k0 (k.likelihoodAt F x).1 := by
      unfold likelihoodAt
      split_ifs
      · exact h
      · exact h
      · exact h
      · exact key fun k => k.likelihoodValue F
    unfold score
    cases h1 : k.likelihoodAt F x with
    | mk k1 r1 =>
      rw [h1] at hL
      cases r1 <;> exact hL

/-- The objective function of the search has no memory: whatever hyperparameters were tried before,
the value for given hyperparameters is that of a fresh copy of the model. -/
theorem score_stateless (F : Fns K) (obj : KrigingObjective) (k : Kriging K) (before : List (List K))
    (h : List K) :
    (score F obj (before.foldl (fun k x => (score F obj k x).1) k) h).2 = (score F obj k h).2 := by
  have : ∀ (l : List (List K)) (k' : Kriging K), SameInputs k k' →
      SameInputs k (l.foldl (fun k x => (score F obj k x).1) k') := by
    intro l
    induction l with
    | nil => exact fun k' h => h
    | cons x l ih => exact fun k' h => ih _ (score_keeps F obj h x)
  exact score_same F obj (this before k (SameInputs.refl k)) h

/-! ## The search of one thread -/

theorem hyper_gt (dim : Nat) : Vec.gt (hyperUb dim : List K) (hyperLb dim) = .ok true := by
  unfold Vec.gt
  rw [if_neg (by simp [hyperUb, hyperLb])]
  refine (noneOf_eq (b := fun _ => false) ?_).trans (by simp)
  intro j hj
  have hj2 : j < 2 * dim := by simp [hyperUb] at hj; omega
  have h1 : j < (hyperLb dim : List K).length := by simp [hyperLb]; omega
  simp only [rawAt_ok_of_lt hj, rawAt_ok_of_lt h1]
  refine congrArg Except.ok (decide_eq_false (not_le.2 ?_))
  simp only [hyperUb, hyperLb, List.getElem_append, List.getElem_replicate, List.length_replicate]
  split_ifs <;> norm_num

theorem threadOptimizer_ok (dim gens maxEvals : Nat) :
    (maxEvals = 0 → threadOptimizer dim gens maxEvals = (.error .invalidArgument : Res (EA K))) ∧
    (maxEvals ≠ 0 → ∃ o : EA K, threadOptimizer dim gens maxEvals = .ok o ∧ o.dim = 2 * dim ∧
      o.lb = hyperLb dim ∧ o.ub = hyperUb dim ∧ o.maxEvals = maxEvals ∧ o.gens = gens ∧
      o.births = 200 * dim ∧ o.deaths = 180 * dim ∧ o.sizeInit = min (2 * dim * 100) 5000 ∧
      o.evaluated = []) := by
  have hm : ∀ o : EA K, o.setMutationProbability (1 / 10) = .ok { o with mutProb := 1 / 10 } := by
    intro o
    refine if_neg ?_
    rw [not_or]
    constructor <;> norm_num
  unfold threadOptimizer
  constructor
  · intro h
    refine bind_eq (hyper_gt dim) ?_
    rw [if_neg (by simp)]
    exact bind_eq (hm _) (if_pos h)
  · intro h
    refine ⟨{ ((EA.new : EA K).setDimension (2 * dim)) with
      lb := hyperLb dim, ub := hyperUb dim, boundsSet := true, births := 200 * dim,
      deaths := 180 * dim, sizeInit := min (2 * dim * 100) 5000, mutProb := 1 / 10,
      maxEvals := maxEvals, gens := gens }, bind_eq (hyper_gt dim) ?_, ?_⟩
    · rw [if_neg (by simp)]
      exact bind_eq (hm _) (if_neg h)
    · exact ⟨rfl, rfl, rfl, rfl, rfl, rfl, rfl, rfl, rfl⟩

theorem hyperBox (dim : Nat) : IsBox (2 * dim) (hyperLb dim : List K) (hyperUb dim) := by
  refine ⟨by simp [hyperLb]; omega, by simp [hyperUb]; omega, ?_⟩
  intro i l u hl hu
  unfold hyperLb at hl
  unfold hyperUb at hu
  rw [List.getElem?_append] at hl hu
  simp only [List.length_replicate] at hl hu
  split_ifs at hl hu with h1
  · simp only [List.getElem?_replicate, h1, if_true, Option.some.injEq] at hl hu
    rw [← hl, ← hu]; norm_num
  · simp only [List.getElem?_replicate] at hl hu
    split_ifs at hl hu
    simp only [Option.some.injEq] at hl hu
    rw [← hl, ← hu]; norm_num

theorem getSolution_mem {o : EA K} {x : Indiv K} (h : o.getSolution = .ok x) :
    x ∈ o.population.inds := by
  unfold EA.getSolution Pop.best Pop.getIndividual at h
  split at h
  · cases h
  · exact List.mem_of_getElem? (vat_eq_ok.1 h)

theorem threadSearch_post [FloorRing K] {F : Fns K} {k : Kriging K} {gens maxEvals : Nat}
    {E : EAEnv K} (hE : Draws E) {r : List K × K} (h : threadSearch F k gens maxEvals E = .ok r) :
    InBox (hyperLb k.dimension) (hyperUb k.dimension) r.1 ∧
      (score F k.objective k r.1).2 = .ok r.2 := by
  unfold threadSearch at h
  split at h
  · cases h
  obtain ⟨o, e1, h⟩ := bind_ok_inv h
  obtain ⟨o', e2, h⟩ := bind_ok_inv h
  obtain ⟨x, e3, h⟩ := bind_ok_inv h
  cases h
  by_cases h0 : maxEvals = 0
  · rw [(threadOptimizer_ok k.dimension gens maxEvals).1 h0] at e1; cases e1
  obtain ⟨o1, f1, f2, f3, f4, -⟩ := (threadOptimizer_ok (K := K) k.dimension gens maxEvals).2 h0
  rw [f1] at e1; cases e1
  have hE' : Draws { E with f := fun h => (score F k.objective k h).2 } := hE
  obtain ⟨n, xs, ys, hr⟩ := EA.optimize_run hE' (by rw [f2, f3, f4]; exact hyperBox _) e2
  have hg := EA.pop_lengths (xs := xs ++ ys) (ys := []) (by simpa using hr.pop) hr.good (by simp) x
    (getSolution_mem e3)
  rw [f3, f4] at hg
  exact ⟨hg.1, hg.2.2⟩

/-! ## The critical section -/

theorem merge_le (s r : List K × K) : (merge s r).2 ≤ s.2 ∧ (merge s r).2 ≤ r.2 := by
  unfold merge
  split_ifs with h
  · exact ⟨h.le, le_rfl⟩
  · exact ⟨le_rfl, not_lt.1 h⟩

theorem foldl_merge_le (rs : List (List K × K)) (s : List K × K) :
    (rs.foldl merge s).2 ≤ s.2 ∧ ∀ r ∈ rs, (rs.foldl merge s).2 ≤ r.2 := by
  induction rs generalizing s with
  | nil => exact ⟨le_rfl, by simp⟩
  | cons a rs ih =>
    obtain ⟨h1, h2⟩ := ih (merge s a)
    refine ⟨h1.trans (merge_le s a).1, ?_⟩
    intro r hr
    rcases List.mem_cons.1 hr with rfl | hr
    · exact h1.trans (merge_le s r).2
    · exact h2 r hr

theorem foldl_merge_mem (rs : List (List K × K)) (s : List K × K) :
    rs.foldl merge s = s ∨ rs.foldl merge s ∈ rs ∧ (rs.foldl merge s).2 < s.2 := by
  induction rs generalizing s with
  | nil => exact Or.inl rfl
  | cons a rs ih =>
    rw [List.foldl_cons]
    by_cases h : a.2 < s.2
    · rw [show merge s a = a from if_pos h]
      refine Or.inr ?_
      rcases ih a with e | ⟨e, e'⟩
      · rw [e]; exact ⟨by simp, h⟩
      · exact ⟨List.mem_cons_of_mem _ e, e'.trans h⟩
    · rw [show merge s a = s from if_neg h]
      rcases ih s with e | ⟨e, e'⟩
      · exact Or.inl e
      · exact Or.inr ⟨List.mem_cons_of_mem _ e, e'⟩

/-- The smallest value does not depend on the order of the threads. -/
theorem foldl_merge_perm {rs rs' : List (List K × K)} (hp : rs.Perm rs') (s : List K × K) :
    (rs.foldl merge s).2 = (rs'.foldl merge s).2 := by
  have key : ∀ {a b : List (List K × K)}, a.Perm b → (a.foldl merge s).2 ≤ (b.foldl merge s).2 := by
    intro a b hab
    obtain ⟨h1, h2⟩ := foldl_merge_le a s
    rcases foldl_merge_mem b s with e | ⟨e, -⟩
    · rw [e]; exact h1
    · exact h2 _ (hab.mem_iff.2 e)
  exact le_antisymm (key hp) (key hp.symm)

/-! ## What every call of `train` keeps -/

/-- The object `k` has the settings of `k0`, and `it` training iterations. -/
structure Kept (k0 : Kriging K) (it : Nat) (k : Kriging K) : Prop where
  dimension : k.dimension = k0.dimension
  threads : k.threads = k0.threads
  isInitialized : k.isInitialized = k0.isInitialized
  readWarm : k.readWarm = k0.readWarm
  writeWarm : k.writeWarm = k0.writeWarm
  isRead : k.isRead = k0.isRead
  isNormalized : k.isNormalized = k0.isNormalized
  hasValidation : k.hasValidation = k0.hasValidation
  usesLinear : k.usesLinear = k0.usesLinear
  iterations : k.iterations = it

theorem Kept.same {k0 k k' : Kriging K} {it : Nat} (h : Kept k0 it k) (hs : SameInputs k k') :
    Kept k0 it k' := by
  obtain ⟨M, th, ga, L, a, b, c', o, beta, s, rfl⟩ := hs
  exact ⟨h.1, h.2, h.3, h.4, h.5, h.6, h.7, h.8, h.9, h.10⟩

theorem Kept.trans {k0 k1 k : Kriging K} {i j : Nat} (h : Kept k0 i k1) (h' : Kept k1 j k) :
    Kept k0 j k :=
  ⟨h'.1.trans h.1, h'.2.trans h.2, h'.3.trans h.3, h'.4.trans h.4, h'.5.trans h.5, h'.6.trans h.6,
    h'.7.trans h.7, h'.8.trans h.8, h'.9.trans h.9, h'.10⟩

theorem revertToFullData_keeps {k0 k : Kriging K} {it : Nat} (h : Kept k0 it k) :
    Kept k0 it k.revertToFullData.1 := by
  unfold revertToFullData
  refine andThen_keeps (P := Kept k0 it) ⟨h.1, h.2, h.3, h.4, h.5, h.6, h.7, h.8, h.9, h.10⟩
    fun k h => ?_
  have h : Kept k0 it { k with numberOfSamples := k.data.numberOfSamples } :=
    ⟨h.1, h.2, h.3, h.4, h.5, h.6, h.7, h.8, h.9, h.10⟩
  refine andThen_keeps (P := Kept k0 it) (commit_keeps h ?_) fun k h => ?_
  · intro k' e
    obtain ⟨b, -, e⟩ := bind_ok_inv e
    cases e
    exact ⟨h.1, h.2, h.3, h.4, h.5, h.6, h.7, h.8, h.9, h.10⟩
  · refine andThen_keeps (P := Kept k0 it) ?_ fun k h => ?_
    · split_ifs
      · refine commit_keeps h fun k' e => ?_
        unfold subtractLinear at e
        obtain ⟨_, -, e⟩ := bind_ok_inv e
        obtain ⟨_, -, e⟩ := bind_ok_inv e
        obtain ⟨_, -, e⟩ := bind_ok_inv e
        cases e
        exact ⟨h.1, h.2, h.3, h.4, h.5, h.6, h.7, h.8, h.9, h.10⟩
      · exact h
    · refine commit_keeps h fun k' e => ?_
      unfold resizeDataObjects at e
      split_ifs at e
      cases e
      exact ⟨h.1, h.2, h.3, h.4, h.5, h.6, h.7, h.8, h.9, h.10⟩

theorem loadHyperParameters_keeps [FloorRing K] {k0 k k' : Kriging K} {it : Nat} {file : Option Str}
    (h : Kept k0 it k) (e : k.loadHyperParameters file = .ok k') : Kept k0 it k' := by
  unfold loadHyperParameters at e
  split_ifs at e
  obtain ⟨buf, -, e⟩ := bind_ok_inv e
  split_ifs at e
  · obtain ⟨_, -, e⟩ := bind_ok_inv e
    obtain ⟨_, -, e⟩ := bind_ok_inv e
    obtain ⟨_, -, e⟩ := bind_ok_inv e
    obtain ⟨_, -, e⟩ := bind_ok_inv e
    cases e
    exact ⟨h.1, h.2, h.3, h.4, h.5, h.6, h.7, h.8, h.9, h.10⟩
  · cases e; exact h

theorem searchHyperParameters_keeps [FloorRing K] (F : Fns K) {k : Kriging K} (E : Nat → EAEnv K)
    (schedule : List Nat) (file : Option Str) (hd : k.dimension ≠ 0) (ht : k.threads ≠ 0) :
    Kept k (k.iterations / k.threads) (searchHyperParameters F k E schedule file).1.1 := by
  unfold searchHyperParameters
  rw [if_neg hd]
  set k1 : Kriging K := if k.hasValidation then { k with objective := .validationError } else k with hk1
  have h1 : Kept k k.iterations k1 := by
    rw [hk1]
    split_ifs
    · exact ⟨rfl, rfl, rfl, rfl, rfl, rfl, rfl, rfl, rfl, rfl⟩
    · exact ⟨rfl, rfl, rfl, rfl, rfl, rfl, rfl, rfl, rfl, rfl⟩
  simp only []
  rw [if_neg (by rw [h1.threads]; exact ht)]
  set k2 : Kriging K := { k1 with iterations := k1.iterations / k1.threads } with hk2
  have h2 : Kept k (k.iterations / k.threads) k2 :=
    ⟨h1.1, h1.2, h1.3, h1.4, h1.5, h1.6, h1.7, h1.8, h1.9, by
      show k1.iterations / k1.threads = _
      rw [h1.iterations, h1.threads]⟩
  refine andThen_keeps (P := fun p : Kriging K × Option Str => Kept k (k.iterations / k.threads) p.1)
    (commit_keeps (P := fun p : Kriging K × Option Str => Kept k (k.iterations / k.threads) p.1) h2 ?_)
    fun p hp => ?_
  · intro p e
    obtain ⟨_, -, e⟩ := bind_ok_inv e
    obtain ⟨_, -, e⟩ := bind_ok_inv e
    obtain ⟨_, -, e⟩ := bind_ok_inv e
    obtain ⟨_, -, e⟩ := bind_ok_inv e
    cases e
    exact ⟨h2.1, h2.2, h2.3, h2.4, h2.5, h2.6, h2.7, h2.8, h2.9, h2.10⟩
  · show Kept k (k.iterations / k.threads) (if p.1.writeWarm then _ else _ :
      (Kriging K × Option Str) × Res Unit).1.1
    split_ifs
    · refine commit_keeps (P := fun p : Kriging K × Option Str =>
        Kept k (k.iterations / k.threads) p.1) hp fun p' e => ?_
      obtain ⟨_, -, e⟩ := bind_ok_inv e
      cases e
      exact hp
    · exact hp

/-- The part of `train` after the search. -/
def finish (F : Fns K) (p : Kriging K × Option Str) : (Kriging K × Option Str) × Res Unit :=
  andThen (if p.1.objective = .validationError then withFile p p.1.revertToFullData
    else (p, .ok ())) fun p =>
  andThen (withFile p (p.1.updateAuxilliaryFields F)) fun p =>
  (({ p.1 with isTrained := true }, p.2), .ok ())

theorem finish_keeps (F : Fns K) {k0 : Kriging K} {it : Nat} {p : Kriging K × Option Str}
    (h : Kept k0 it p.1) : Kept k0 it (finish F p).1.1 := by
  unfold finish
  refine andThen_keeps (P := fun p : Kriging K × Option Str => Kept k0 it p.1) ?_ fun p h =>
    andThen_keeps (P := fun p : Kriging K × Option Str => Kept k0 it p.1) ?_ fun p h => ?_
  · split_ifs
    · exact revertToFullData_keeps h
    · exact h
  · exact h.same (update_keeps F (SameInputs.refl _))
  · exact ⟨h.1, h.2, h.3, h.4, h.5, h.6, h.7, h.8, h.9, h.10⟩

theorem train_keeps [FloorRing K] (F : Fns K) {k : Kriging K} (E : Nat → EAEnv K)
    (schedule : List Nat) (file : Option Str) (hi : k.isInitialized = true) (hw : k.readWarm = false)
    (hd : k.dimension ≠ 0) (ht : k.threads ≠ 0) :
    Kept k (k.iterations / k.threads) (train F k E schedule file).1.1 := by
  unfold train
  rw [if_neg (by simp [hi]), if_neg (by simp [hw])]
  exact andThen_keeps (P := fun p : Kriging K × Option Str => Kept k (k.iterations / k.threads) p.1)
    (searchHyperParameters_keeps F E schedule file hd ht) fun p h => finish_keeps F h

theorem train_keeps_warm [FloorRing K] (F : Fns K) {k : Kriging K} (E : Nat → EAEnv K)
    (schedule : List Nat) (file : Option Str) (hi : k.isInitialized = true) (hw : k.readWarm = true) :
    Kept k k.iterations (train F k E schedule file).1.1 := by
  unfold train
  rw [if_neg (by simp [hi]), if_pos hw]
  have h0 : Kept k k.iterations k := ⟨rfl, rfl, rfl, rfl, rfl, rfl, rfl, rfl, rfl, rfl⟩
  refine andThen_keeps (P := fun p : Kriging K × Option Str => Kept k k.iterations p.1) ?_
    fun p h => finish_keeps F h
  show Kept k k.iterations (commit k (k.loadHyperParameters file)).1
  exact commit_keeps h0 fun k' e => loadHyperParameters_keeps h0 e

/-- Without iterations left the search throws. -/
theorem search_exhausted [FloorRing K] (F : Fns K) (k : Kriging K) (gens : Nat) (E : Nat → EAEnv K)
    {schedule : List Nat} (hs : schedule ≠ []) (hr : k.isRead = true) (hn : k.isNormalized = true)
    (hi : k.isInitialized = true) : searchAll F k gens 0 E schedule = .error .invalidArgument := by
  cases schedule with
  | nil => exact absurd rfl hs
  | cons t ts =>
    have : threadSearch F k gens 0 (E t) = .error .invalidArgument := by
      unfold threadSearch
      rw [if_neg (by simp [hr, hn, hi])]
      rw [(threadOptimizer_ok k.dimension gens 0).1 rfl]
      rfl
    unfold searchAll
    simp only [mapRes, this]
    rfl

theorem train_exhausted [FloorRing K] (F : Fns K) {k : Kriging K} (E : Nat → EAEnv K)
    {schedule : List Nat} (file : Option Str) (hs : schedule ≠ []) (hr : k.isRead = true)
    (hn : k.isNormalized = true) (hi : k.isInitialized = true) (hw : k.readWarm = false)
    (hd : k.dimension ≠ 0) (ht : k.threads ≠ 0) (h0 : k.iterations / k.threads = 0) :
    (train F k E schedule file).2 = .error .invalidArgument := by
  unfold train
  rw [if_neg (by simp [hi]), if_neg (by simp [hw])]
  have : ∃ s, searchHyperParameters F k E schedule file = (s, .error .invalidArgument) := by
    unfold searchHyperParameters
    rw [if_neg hd]
    by_cases hv : k.hasValidation = true
    · simp only [hv, if_true]
      rw [if_neg ht, h0]
      rw [search_exhausted F _ _ E hs (by exact hr) (by exact hn) (by exact hi)]
      exact ⟨_, rfl⟩
    · simp only [if_neg hv]
      rw [if_neg ht, h0]
      rw [search_exhausted F _ _ E hs (by exact hr) (by exact hn) (by exact hi)]
      exact ⟨_, rfl⟩
  obtain ⟨s, e⟩ := this
  rw [e]
  rfl

/-! ## Values of the objective function -/

/-- What a call of `updateAuxilliaryFields` that returns has done. -/
theorem update_post {F : Fns K} {k k1 : Kriging K}
    (h : k.updateAuxilliaryFields F = (k1, .ok ())) :
    ∃ c L r, k.corr.computeCorrelationMatrix F.exp F.pow = .ok c ∧
      cholesky F.sqrt c.base.matrix = .ok (L, r) ∧ k1.corr = c ∧ k1.chol.done = decide (r ≠ -1) ∧
      (r = -1 → k1.beta0 = 0 ∧ k1.RinvYsMinBeta = Vec.resize [] k.numberOfSamples) := by
  unfold updateAuxilliaryFields at h
  split at h; · cases h
  split at h; · cases h
  split at h; · cases h
  split at h; · cases h
  split at h; · cases h
  obtain ⟨ka, ea, h⟩ := andThen_inv h
  have ea' := commit_inv ea
  obtain ⟨c, ec, e⟩ := bind_ok_inv ea'
  cases e
  obtain ⟨kb, eb, h⟩ := andThen_inv h
  obtain ⟨L0, eL, e⟩ := bind_ok_inv (commit_inv eb)
  cases e
  obtain ⟨kc, ek, h⟩ := andThen_inv h
  have ek' := commit_inv ek
  unfold resizeDataObjects at ek'
  split at ek'; · cases ek'
  cases ek'
  obtain ⟨⟨L, r⟩, er, eL⟩ := bind_ok_inv eL
  refine ⟨c, L, r, ec, er, ?_⟩
  by_cases hr : r = -1
  · rw [if_pos (show (L, r).2 = -1 from hr)] at eL
    cases eL
    have h := (if_neg Bool.false_ne_true).symm.trans h
    cases h
    exact ⟨rfl, (decide_eq_false fun h => h hr).symm, fun _ => ⟨rfl, rfl⟩⟩
  · rw [if_neg (show ¬ (L, r).2 = -1 from hr)] at eL
    cases eL
    have h := commit_inv ((if_pos (rfl : true = true)).symm.trans h)
    unfold solveAll at h
    obtain ⟨_, -, h⟩ := bind_ok_inv h
    obtain ⟨_, -, h⟩ := bind_ok_inv h
    obtain ⟨_, -, h⟩ := bind_ok_inv h
    obtain ⟨_, -, h⟩ := bind_ok_inv h
    obtain ⟨_, -, h⟩ := bind_ok_inv h
    obtain ⟨_, -, h⟩ := bind_ok_inv h
    obtain ⟨_, -, h⟩ := bind_ok_inv h
    obtain ⟨_, -, h⟩ := bind_ok_inv h
    cases h
    exact ⟨rfl, (decide_eq_true hr).symm, fun h => absurd h hr⟩

end Kriging

/-- The correlation matrix of the samples with given hyperparameters. -/
def Spec.matrixAt (F : Fns K) (k : Kriging K) (h : List K) : Res (Mat K) := do
  let c ← k.corr.setHyperParameters h
  let c ← c.computeCorrelationMatrix F.exp F.pow
  .ok c.base.matrix

/-- The Cholesky factorization of the correlation matrix with given hyperparameters fails. -/
def Spec.FactorizationFails (F : Fns K) (k : Kriging K) (h : List K) : Prop :=
  ∃ M L, matrixAt F k h = .ok M ∧ cholesky F.sqrt M = .ok (L, -1)

/-- The Cholesky factorization of the correlation matrix with given hyperparameters succeeds. -/
def Spec.FactorizationSucceeds (F : Fns K) (k : Kriging K) (h : List K) : Prop :=
  ∃ M L r, matrixAt F k h = .ok M ∧ cholesky F.sqrt M = .ok (L, r) ∧ r ≠ -1

namespace Kriging

theorem evaluateAt_post {F : Fns K} {k k1 : Kriging K} {h : List K}
    (e : k.evaluateAt F h = (k1, .ok ())) :
    (k1.chol.done = false ∧ FactorizationFails F k h) ∨
      (k1.chol.done = true ∧ FactorizationSucceeds F k h) := by
  unfold evaluateAt at e
  obtain ⟨k2, e1, e2⟩ := andThen_inv e
  obtain ⟨c, ec, e3⟩ := bind_ok_inv (commit_inv e1)
  cases e3
  obtain ⟨c', L, r, f1, f2, f3, f4, -⟩ := update_post e2
  have hM : matrixAt F k h = .ok c'.base.matrix := bind_eq ec (bind_eq f1 rfl)
  by_cases hr : r = -1
  · subst hr
    exact Or.inl ⟨by simpa using f4, _, _, hM, f2⟩
  · exact Or.inr ⟨by simpa [hr] using f4, _, _, r, hM, f2, hr⟩

theorem fails_not_succeeds {F : Fns K} {k : Kriging K} {h : List K} (h1 : FactorizationFails F k h) :
    ¬ FactorizationSucceeds F k h := by
  rintro ⟨M, L, r, a, b, c⟩
  obtain ⟨M', L', a', b'⟩ := h1
  rw [a] at a'; cases a'
  rw [b] at b'; cases b'
  exact c rfl

theorem validationError_nonneg {F : Fns K} {k : Kriging K} {v : K}
    (hv : k.data.numberOfValidationSamples ≠ 0) (h : k.calculateValidationError F = .ok v) : 0 ≤ v := by
  unfold calculateValidationError at h
  rw [if_pos (by omega)] at h
  split at h; · cases h
  obtain ⟨e, e1, h⟩ := bind_ok_inv h
  cases h
  refine div_nonneg ?_ (Nat.cast_nonneg _)
  refine forRange_post (P := fun s : K => 0 ≤ s) le_rfl ?_ e e1
  intro j s hs s' e2
  obtain ⟨x, e3, e2⟩ := bind_ok_inv e2
  cases e2
  obtain ⟨_, -, e3⟩ := bind_ok_inv e3
  obtain ⟨_, -, e3⟩ := bind_ok_inv e3
  obtain ⟨_, -, e3⟩ := bind_ok_inv e3
  cases e3
  exact add_nonneg hs (abs_nonneg _)

/-- With the validation error as objective: failed factorizations have the smallest possible value,
successful ones a nonnegative value. -/
theorem score_validation {F : Fns K} {k : Kriging K} {h : List K} {v : K}
    (e : (score F .validationError k h).2 = .ok v) :
    (FactorizationFails F k h ∧ v = -dblMax) ∨ (FactorizationSucceeds F k h ∧ 0 ≤ v) := by
  have e : (k.validationErrorAt F h).2 = .ok v := e
  unfold validationErrorAt at e
  split at e; · cases e
  split at e; · cases e
  split at e; · cases e
  split at e; · cases e
  rename_i hv
  cases hr : k.evaluateAt F h with
  | mk k1 r =>
    rw [hr] at e
    cases r with
    | error e' => cases e
    | ok u =>
      have hs := evaluateAt_keeps F (SameInputs.refl k) h
      rw [hr] at hs
      have hd : k1.data = k.data := by
        obtain ⟨M, th, ga, L, a, b, c', o, beta, s, h⟩ := hs
        show (k1, (Except.ok u : Res Unit)).1.data = _
        rw [h]; rfl
      have e : (if k1.chol.done = false then .ok (-dblMax) else k1.calculateValidationError F) = .ok v := e
      rcases evaluateAt_post hr with ⟨d, f⟩ | ⟨d, f⟩
      · rw [if_pos d] at e
        cases e
        exact Or.inl ⟨f, rfl⟩
      · rw [if_neg (by simp [d])] at e
        exact Or.inr ⟨f, validationError_nonneg (by rw [hd]; exact hv) e⟩

/-- With the likelihood as objective: failed factorizations have the largest possible value. -/
theorem score_likelihood {F : Fns K} {k : Kriging K} {h : List K} {v : K}
    (e : (score F .maximumLikelihood k h).2 = .ok v) :
    (FactorizationFails F k h ∧ v = dblMax) ∨ FactorizationSucceeds F k h := by
  have e' : ∃ w, (k.likelihoodAt F h).2 = .ok w ∧ v = -1 * w := by
    unfold score at e
    cases hl : k.likelihoodAt F h with
    | mk k1 r =>
      rw [hl] at e
      cases r with
      | error _ => cases e
      | ok w => cases e; exact ⟨w, rfl, rfl⟩
  clear e
  obtain ⟨w, e, rfl⟩ := e'
  unfold likelihoodAt at e
  split at e; · cases e
  split at e; · cases e
  split at e; · cases e
  cases hr : k.evaluateAt F h with
  | mk k1 r =>
    rw [hr] at e
    cases r with
    | error e' => cases e
    | ok u =>
      have e : k1.likelihoodValue F = .ok w := e
      rcases evaluateAt_post hr with ⟨d, f⟩ | ⟨d, f⟩
      · unfold likelihoodValue at e
        rw [if_pos d] at e
        cases e
        exact Or.inl ⟨f, by ring⟩
      · exact Or.inr f

/-! ## The search of all threads -/

/-- The object during the search: the objective is chosen and the iterations are divided. -/
def searchState (k : Kriging K) : Kriging K :=
  { k with
    objective := if k.hasValidation then .validationError else k.objective
    iterations := k.iterations / k.threads }

theorem searchAll_post [FloorRing K] {F : Fns K} {k : Kriging K} {gens maxEvals : Nat}
    {E : Nat → EAEnv K} {schedule : List Nat} {best : List K × K}
    (h : searchAll F k gens maxEvals E schedule = .ok best) :
    (∀ t ∈ schedule, ∃ r, threadSearch F k gens maxEvals (E t) = .ok r ∧ best.2 ≤ r.2) ∧
    (best = ([], dblMax) ∨ best.2 < dblMax ∧
      ∃ t ∈ schedule, threadSearch F k gens maxEvals (E t) = .ok best) := by
  unfold searchAll at h
  obtain ⟨rs, e, h⟩ := bind_ok_inv h
  cases h
  have hf := mapRes_inv e
  have hl := (foldl_merge_le rs ([], dblMax)).2
  constructor
  · intro t ht
    obtain ⟨i, hi, rfl⟩ := List.getElem_of_mem ht
    have hi' : i < rs.length := by rw [← hf.length_eq]; exact hi
    exact ⟨rs[i], hf.get hi hi', hl _ (List.getElem_mem hi')⟩
  · rcases foldl_merge_mem rs ([], dblMax) with h | ⟨h1, h2⟩
    · exact Or.inl h
    · obtain ⟨i, hi, e⟩ := List.getElem_of_mem h1
      have hi' : i < schedule.length := by rw [hf.length_eq]; exact hi
      refine Or.inr ⟨h2, schedule[i], List.getElem_mem hi', ?_⟩
      rw [← e]
      exact hf.get hi' hi

theorem setHyperParameters_inv {s c : Corr.ExpCorr K} {h : List K}
    (e : s.setHyperParameters h = .ok c) :
    h.length = 2 * s.base.dim ∧ c = ⟨s.base, h.take s.base.dim, h.drop s.base.dim⟩ := by
  unfold Corr.ExpCorr.setHyperParameters at e
  split at e; · cases e
  rename_i hl
  push Not at hl
  refine ⟨hl, ?_⟩
  obtain ⟨t, e1, e⟩ := bind_ok_inv e
  obtain ⟨s1, e2, e⟩ := bind_ok_inv e
  obtain ⟨g, e3, e⟩ := bind_ok_inv e
  unfold Corr.ExpCorr.setTheta at e2
  split at e2; · cases e2
  cases e2
  unfold Corr.ExpCorr.setGamma at e
  split at e; · cases e
  cases e
  rw [Vec.head_eq _ (by omega)] at e1
  rw [Vec.tail_eq _ (by show s.base.dim ≤ _; omega)] at e3
  cases e1; cases e3
  show (⟨s.base, _, _⟩ : Corr.ExpCorr K) = _
  congr 1
  rw [hl]
  congr 1
  show 2 * s.base.dim - s.base.dim = s.base.dim
  omega

theorem searchHyperParameters_inv [FloorRing K] {F : Fns K} {k : Kriging K} {E : Nat → EAEnv K}
    {schedule : List Nat} {file : Option Str} {p : Kriging K × Option Str}
    (h : searchHyperParameters F k E schedule file = (p, .ok ())) :
    k.dimension ≠ 0 ∧ k.threads ≠ 0 ∧ ∃ best c,
      searchAll F (searchState k) (generations k.iterations k.dimension) (k.iterations / k.threads) E
        schedule = .ok best ∧
      k.corr.setHyperParameters best.1 = .ok c ∧ p.1 = { searchState k with corr := c } ∧
      best.1.length = 2 * k.corr.base.dim ∧ best.1 ≠ [] := by
  unfold searchHyperParameters at h
  split at h; · cases h
  rename_i hd
  have hk : (if k.hasValidation then { k with objective := .validationError } else k : Kriging K) =
      { k with objective := if k.hasValidation then .validationError else k.objective } := by
    split_ifs <;> rfl
  simp only [hk] at h
  split at h; · cases h
  rename_i ht
  refine ⟨hd, ht, ?_⟩
  obtain ⟨q, e1, e2⟩ := andThen_inv h
  obtain ⟨best, f1, e1⟩ := bind_ok_inv (commit_inv e1)
  obtain ⟨_, f2, e1⟩ := bind_ok_inv e1
  obtain ⟨_, f3, e1⟩ := bind_ok_inv e1
  obtain ⟨c, f4, e1⟩ := bind_ok_inv e1
  cases e1
  refine ⟨best, c, f1, f4, ?_, (setHyperParameters_inv f4).1, ?_⟩
  · by_cases hw : k.writeWarm = true
    · obtain ⟨_, -, e2⟩ := bind_ok_inv (commit_inv ((if_pos hw).symm.trans e2))
      cases e2; rfl
    · have e2 := (if_neg hw).symm.trans e2
      cases e2; rfl
  · intro h0
    rw [h0] at f2
    have : Vec.head ([] : List K) k.dimension = .error .outOfRange := if_pos (by
      show 0 < k.dimension
      omega)
    exact absurd (f2.symm.trans this) (by simp)

/-- A call of `train` that returns, without warm start. -/
theorem train_inv [FloorRing K] {F : Fns K} {k k' : Kriging K} {E : Nat → EAEnv K}
    {schedule : List Nat} {file file' : Option Str} (hw : k.readWarm = false)
    (h : train F k E schedule file = ((k', file'), .ok ())) :
    k.dimension ≠ 0 ∧ k.threads ≠ 0 ∧ ∃ best c f1 k1,
      searchAll F (searchState k) (generations k.iterations k.dimension) (k.iterations / k.threads) E
        schedule = .ok best ∧
      k.corr.setHyperParameters best.1 = .ok c ∧
      best.1.length = 2 * k.corr.base.dim ∧ best.1 ≠ [] ∧
      finish F ({ searchState k with corr := c }, f1) = ((k', file'), .ok ()) ∧
      (if k.hasValidation = true ∨ k.objective = .validationError then
        Kriging.revertToFullData { searchState k with corr := c } = (k1, .ok ())
        else k1 = { searchState k with corr := c }) ∧
      k1.updateAuxilliaryFields F = ({ k' with isTrained := k1.isTrained }, .ok ()) ∧
      k'.isTrained = true := by
  unfold train at h
  split at h; · cases h
  rw [if_neg (by simp [hw])] at h
  obtain ⟨p, e1, e2⟩ := andThen_inv h
  obtain ⟨hd, ht, best, c, f1, f2, f3, f4, f5⟩ := searchHyperParameters_inv e1
  obtain ⟨p1, p2⟩ := p
  have f3 : p1 = _ := f3
  subst f3
  refine ⟨hd, ht, best, c, p2, ?_⟩
  have e2' := e2
  obtain ⟨q, g1, e2⟩ := andThen_inv e2
  obtain ⟨q', g2, e2⟩ := andThen_inv e2
  have hobj : ({ searchState k with corr := c } : Kriging K).objective =
      if k.hasValidation then .validationError else k.objective := rfl
  have hb : ∀ x : Bool, x = true ∨ ¬ x = true := fun x => by cases x <;> simp
  obtain ⟨q1, q2⟩ := q
  obtain ⟨q1', q2'⟩ := q'
  have g2' : q1.updateAuxilliaryFields F = (q1', .ok ()) := by
    have h1 := congrArg (fun z => z.1.1) g2
    have h2 := congrArg (fun z => z.2) g2
    exact Prod.ext h1 h2
  refine ⟨q1, f1, f2, f4, f5, e2', ?_, ?_, ?_⟩
  · by_cases hv : k.hasValidation = true ∨ k.objective = .validationError
    · rw [if_pos hv]
      have : ({ searchState k with corr := c } : Kriging K).objective = .validationError := by
        rw [hobj]
        rcases hv with hv | hv
        · rw [if_pos hv]
        · rw [hv]; simp
      rw [if_pos this] at g1
      have h1 := congrArg (fun z => z.1.1) g1
      have h2 := congrArg (fun z => z.2) g1
      exact Prod.ext h1 h2
    · rw [if_neg hv]
      push Not at hv
      rw [if_neg (by rw [hobj, if_neg hv.1]; exact hv.2)] at g1
      exact (congrArg (fun z => z.1.1) g1).symm
  · have hk := congrArg (fun z => z.1.1) e2
    have hk : { q1' with isTrained := true } = k' := hk
    rw [g2', ← hk]
    have hs := update_keeps F (SameInputs.refl q1)
    rw [g2'] at hs
    obtain ⟨M, th, ga, L, a, b, c', o, beta, s, hs⟩ := hs
    have hs : q1' = _ := hs
    rw [hs]; rfl
  · have hk := congrArg (fun z => z.1.1.isTrained) e2
    exact hk.symm

theorem computeCorrelationMatrix_inv {exp : K → K} {pow : K → K → Res K} {s c : Corr.ExpCorr K}
    (h : s.computeCorrelationMatrix exp pow = .ok c) :
    ∃ R, c = { s with base := { s.base with matrix := R } } := by
  unfold Corr.ExpCorr.computeCorrelationMatrix at h
  split at h; · cases h
  obtain ⟨_, -, h⟩ := bind_ok_inv h
  obtain ⟨R, -, h⟩ := bind_ok_inv h
  cases h
  exact ⟨R, rfl⟩

theorem revertToFullData_hyper {k k1 : Kriging K} (h : k.revertToFullData = (k1, .ok ())) :
    k1.corr.theta = k.corr.theta ∧ k1.corr.gamma = k.corr.gamma := by
  set P : Kriging K → Prop := fun s => s.corr.theta = k.corr.theta ∧ s.corr.gamma = k.corr.gamma with hP
  have key : P k.revertToFullData.1 := by
    unfold revertToFullData
    refine andThen_keeps (P := P) ⟨rfl, rfl⟩ fun k h => ?_
    refine andThen_keeps (P := P) (commit_keeps h ?_) fun k h => ?_
    · intro k' e
      obtain ⟨b, -, e⟩ := bind_ok_inv e
      cases e
      exact h
    · refine andThen_keeps (P := P) ?_ fun k h => ?_
      · split_ifs
        · refine commit_keeps h fun k' e => ?_
          unfold subtractLinear at e
          obtain ⟨_, -, e⟩ := bind_ok_inv e
          obtain ⟨_, -, e⟩ := bind_ok_inv e
          obtain ⟨_, -, e⟩ := bind_ok_inv e
          cases e
          exact h
        · exact h
      · refine commit_keeps h fun k' e => ?_
        unfold resizeDataObjects at e
        split_ifs at e
        cases e
        exact h
  rw [h] at key
  exact key

end Kriging
end generic
end Rodeo
