import Verif.Lemmas.EAPop
import Verif.Model.EA
import Verif.Spec.EA

/-! # Run-level lemmas about the evolutionary optimizer -/

set_option linter.unusedSectionVars false

namespace Rodeo
open Spec

variable {K : Type} [Field K] [LinearOrder K] [IsStrictOrderedRing K]

/-- What the population bookkeeping never changes in an individual. -/
def Indiv.core (x : Indiv K) : Nat × K × Nat × List K := (x.id, x.obj, x.dim, x.genes)

theorem Indiv.core_eq {x y : Indiv K} (h : x.core = y.core) :
    x.id = y.id ∧ x.obj = y.obj ∧ x.dim = y.dim ∧ x.genes = y.genes := by
  simpa [Indiv.core] using h

namespace Pop

/-- Same individuals up to fitness and probabilities, same bookkeeping. -/
def Same (p p' : Pop K) : Prop :=
  p'.inds.map Indiv.core = p.inds.map Indiv.core ∧ p'.pmin = p.pmin ∧ p'.pmax = p.pmax ∧
  p'.idMin = p.idMin ∧ p'.idMax = p.idMax ∧ p'.dim = p.dim

theorem updateProperties_post [FloorRing K] (p : Pop K) :
    Post p.updateProperties (fun p' => 2 ≤ p.inds.length ∧ Same p p') := by
  by_cases h2 : 2 ≤ p.inds.length
  · rcases updateProperties_spec p h2 with ⟨e, -, h⟩ | ⟨-, q, S, D, -, -, -, -, -, h⟩
    · rw [h]; exact Post.error
    · rw [h]
      refine Post.ok ⟨h2, ?_, rfl, rfl, rfl, rfl, rfl⟩
      rw [List.map_map]
      rfl
  · unfold updateProperties
    by_cases h0 : p.inds.length = 0
    · rw [if_pos h0]; exact Post.error
    · rw [if_neg h0]
      have hlen : p.inds.length = 1 := by omega
      obtain ⟨x, hx⟩ := List.length_eq_one_iff.1 hlen
      have : Post p.updateFitness (fun p1 => ∃ y : Indiv K, p1.inds = [y] ∧ y.fitness ≠ 0) := by
        rcases updateFitness_spec p with ⟨-, h⟩ | ⟨e, -, h⟩ | ⟨-, -, -, h⟩
        · rw [h]; exact Post.error
        · rw [h]; exact Post.error
        · rw [h]
          refine Post.ok ⟨{ x with fitness := quad p.pmin p.pmax x.obj }, by simp [hx], ?_⟩
          exact (quad_pos _ _ _).ne'
      refine this.bind ?_
      rintro p1 ⟨y, hy, hne⟩
      have : Post p1.updateRep (fun _ => False) := by
        unfold updateRep
        rw [hy]
        simp only [List.foldl_cons, List.foldl_nil, zero_add, mapRes, fdiv, if_neg hne,
          div_self hne, bind, Except.bind, Indiv.setRep]
        rw [if_neg (by simp), if_pos le_rfl]
        exact Post.error
      exact this.bind (fun _ h => h.elim)

theorem Same.length {p p' : Pop K} (h : Same p p') : p'.inds.length = p.inds.length := by
  have := congrArg List.length h.1
  simpa using this

theorem removeById_post (p : Pop K) (id : Nat) :
    Post (p.removeById id) (fun p' => ∃ k x, p.inds[k]? = some x ∧ x.id = id ∧
      (∀ j, j < k → ∀ y, p.inds[j]? = some y → y.id ≠ id) ∧
      p'.inds = p.inds.eraseIdx k ∧ p'.dim = p.dim) := by
  unfold removeById
  cases h : orderById id p.inds with
  | none => exact Post.error
  | some k =>
    obtain ⟨x, h1, h2, h3⟩ := orderById_some h
    simp only [removeIndividual, h1]
    refine Post.ok ⟨k, x, h1, h2, h3, ?_⟩
    split_ifs
    · exact ⟨(updateMinMax_spec _).2.1, (updateMinMax_spec _).2.2⟩
    · exact ⟨rfl, rfl⟩

end Pop

namespace EA

/-- The settings of an optimizer. -/
def cfg (o : EA K) : Nat × List K × List K × Bool × Nat × Nat × Nat × Nat × Nat × K :=
  (o.dim, o.lb, o.ub, o.boundsSet, o.maxEvals, o.sizeInit, o.births, o.deaths, o.gens, o.mutProb)

theorem cfg_eq {o o' : EA K} (h : o'.cfg = o.cfg) :
    o'.dim = o.dim ∧ o'.lb = o.lb ∧ o'.ub = o.ub ∧ o'.boundsSet = o.boundsSet ∧
    o'.maxEvals = o.maxEvals ∧ o'.sizeInit = o.sizeInit ∧ o'.births = o.births ∧
    o'.deaths = o.deaths ∧ o'.gens = o.gens ∧ o'.mutProb = o.mutProb := by
  simpa [cfg] using h

/-- An evaluated individual of the box. -/
def Good (f : List K → Res K) (d : Nat) (lb ub : List K) (x : Indiv K) : Prop :=
  InBox lb ub x.genes ∧ x.dim = d ∧ f x.genes = .ok x.obj

/-- `o'` differs from `o` only in the positions of the random streams. -/
def Adv (o o' : EA K) : Prop :=
  ∃ a b c d, o' = { o with nPick := a, nVec := b, nMut := c, nNrm := d }

theorem Adv.refl (o : EA K) : Adv o o := ⟨_, _, _, _, rfl⟩

theorem Adv.trans {o o' o'' : EA K} (h : Adv o o') (h' : Adv o' o'') : Adv o o'' := by
  obtain ⟨a, b, c, d, rfl⟩ := h
  obtain ⟨a', b', c', d', rfl⟩ := h'
  exact ⟨a', b', c', d', rfl⟩

theorem randomGenes_post {E : EAEnv K} (hE : Draws E) (o : EA K) :
    Post (randomGenes E o) (fun r => r.1 = { o with nVec := o.nVec + 1 } ∧ InBox o.lb o.ub r.2) := by
  unfold randomGenes
  have : Post (Vec.generateRandomVectorBetween o.lb o.ub (E.vecs o.nVec))
      (fun g => InBox o.lb o.ub g) := by
    intro g hg
    unfold Vec.generateRandomVectorBetween at hg
    split_ifs at hg with hl
    obtain ⟨h1, h2⟩ := tab_inv hg
    refine ⟨h1, by omega, ?_⟩
    intro i l u v hli hui hvi
    have hi : i < o.lb.length := (List.getElem?_eq_some_iff.1 hli).1
    obtain ⟨a, ha, ha'⟩ := h2 i hi
    simp only [rawAt, hli, hui] at ha
    rw [hvi] at ha'
    cases ha'
    split_ifs at ha with hlu
    cases ha
    have hd := hE.2.1 o.nVec i
    unfold uniformReal
    push Not at hlu
    constructor
    · have := mul_nonneg hd.1 (sub_nonneg.2 hlu); linarith
    · have := mul_le_of_le_one_left (sub_nonneg.2 hlu) hd.2.le; linarith
  exact this.bind (fun g hg => Post.ok ⟨rfl, hg⟩)

/-- `f` and `g` agree on the box of `o`. -/
def Agree (o : EA K) (f g : List K → Res K) : Prop := ∀ x, InBox o.lb o.ub x → f x = g x

theorem callObjective_rel {E : EAEnv K} {g : List K → Res K} {o : EA K} {x : Indiv K}
    (hx : InBox o.lb o.ub x.genes) (hfg : Agree o E.f g) :
    RelP (callObjective E o x) (callObjective (withF E g) o x) (fun r =>
      r.1 = { o with evaluated := o.evaluated ++ [x.genes] } ∧ o.dim ≠ 0 ∧
      ∃ J, E.f x.genes = .ok J ∧ r.2 = { x with obj := J }) := by
  unfold callObjective Spec.withF
  dsimp only
  split_ifs with h1 h2
  · exact RelP.error
  · exact RelP.error
  · rw [← hfg _ hx]
    refine RelP.bind (Post.rel (Post.trivial)) ?_
    intro J hJ
    exact RelP.ok ⟨rfl, h1, J, hJ, rfl⟩

theorem generateRandomIndividual_rel {E : EAEnv K} (hE : Draws E) {g : List K → Res K} {o : EA K}
    (hfg : Agree o E.f g) :
    RelP (generateRandomIndividual E o) (generateRandomIndividual (withF E g) o) (fun r =>
      r.1 = { o with nVec := o.nVec + 1, total := o.total + 1,
                     evaluated := o.evaluated ++ [r.2.genes] } ∧
      r.2.id = o.total + 1 ∧ Good E.f o.dim o.lb o.ub r.2) := by
  unfold generateRandomIndividual
  split_ifs with h
  · exact RelP.error
  refine RelP.bind (y := randomGenes (withF E g) o) (randomGenes_post hE o).rel ?_
  rintro ⟨o1, gs⟩ ⟨h1, h2⟩
  dsimp only at h1 h2 ⊢
  subst h1
  refine RelP.bind (P := fun x => x = { (Indiv.new o.dim : Indiv K) with genes := gs })
    (Post.rel ?_) ?_
  · unfold Indiv.initializeGenes
    split_ifs
    · exact Post.error
    · exact Post.ok rfl
  · rintro x rfl
    refine (callObjective_rel (by exact h2) (by exact hfg)).mono ?_
    rintro ⟨o2, y⟩ ⟨h3, -, J, h4, h5⟩
    dsimp only at h3 h5 ⊢
    subst h3 h5
    exact ⟨rfl, rfl, h2, rfl, h4⟩

theorem generateInitial_rel {E : EAEnv K} (hE : Draws E) {g : List K → Res K} :
    ∀ (k : Nat) (o : EA K) (xs : List (Indiv K)), Agree o E.f g →
    RelP (generateInitial E k o xs) (generateInitial (withF E g) k o xs) (fun r =>
      ∃ ys, r.2 = xs ++ ys ∧ ys.map (·.id) = List.range' (o.total + 1) k ∧
        (∀ y ∈ ys, Good E.f o.dim o.lb o.ub y) ∧
        r.1 = { o with nVec := o.nVec + k, total := o.total + k,
                       evaluated := o.evaluated ++ ys.map (·.genes) }) := by
  intro k
  induction k with
  | zero => intro o xs _; exact RelP.ok ⟨[], by simp⟩
  | succ k ih =>
    intro o xs hfg
    unfold generateInitial
    refine RelP.bind (generateRandomIndividual_rel hE hfg) ?_
    rintro ⟨o1, x⟩ ⟨h1, h2, h3⟩
    dsimp only at h1 h2 h3 ⊢
    subst h1
    refine (ih _ _ (by exact hfg)).mono ?_
    rintro ⟨o2, zs⟩ ⟨ys, h4, h5, h6, h7⟩
    dsimp only at h4 h5 h6 h7 ⊢
    subst h7
    refine ⟨x :: ys, by simp [h4], ?_, ?_, ?_⟩
    · rw [List.map_cons, h2, h5, List.range'_succ]
    · intro y hy
      rcases List.mem_cons.1 hy with rfl | hy
      · exact h3
      · exact h6 y hy
    · have e1 : o.nVec + 1 + k = o.nVec + (k + 1) := by omega
      have e2 : o.total + 1 + k = o.total + (k + 1) := by omega
      simp [e1, e2]

/-- Result of `initializePopulation`. -/
structure Init (f : List K → Res K) (o o' : EA K) (ys : List (Indiv K)) : Prop where
  cfg : o'.cfg = o.cfg
  init : o'.initialized = true
  total : o'.total = o.total + o.sizeInit
  ids : ys.map (·.id) = List.range' (o.total + 1) o.sizeInit
  good : ∀ y ∈ ys, Good f o.dim o.lb o.ub y
  evals : o'.evaluated = o.evaluated ++ ys.map (·.genes)
  hist : o'.history.inds = o.history.inds ++ ys
  pop : o'.population.inds.map Indiv.core = ys.map Indiv.core
  size : 2 ≤ o.sizeInit
  removed : o'.removed = o.removed

theorem initializePopulation_rel [FloorRing K] {E : EAEnv K} (hE : Draws E) {g : List K → Res K}
    {o : EA K} (hfg : Agree o E.f g) :
    RelP (initializePopulation E o) (initializePopulation (withF E g) o)
      (fun o' => ∃ ys, Init E.f o o' ys) := by
  unfold initializePopulation
  dsimp only
  split_ifs with h1 h2
  · exact RelP.error
  · exact RelP.error
  refine RelP.bind (generateInitial_rel hE _ _ _ (by exact hfg)) ?_
  rintro ⟨o1, xs⟩ ⟨ys, h3, h4, h5, h6⟩
  dsimp only at h3 h4 h5 h6 ⊢
  rw [List.nil_append] at h3
  subst h3 h6
  refine RelP.bind (Post.rel Pop.addGroup_spec) ?_
  rintro p ⟨hp1, hp2, -⟩
  refine RelP.bind (Post.rel Pop.addGroup_spec) ?_
  rintro h ⟨hh1, hh2, -⟩
  refine RelP.bind (Post.rel (Pop.updateProperties_post p)) ?_
  rintro p' ⟨hs2, hs⟩
  dsimp only
  split_ifs with hrep
  · exact RelP.error
  · refine RelP.ok ⟨xs, rfl, rfl, rfl, h4, h5, rfl, hh1, ?_, ?_, rfl⟩
    · have := hs.1
      rw [hp1] at this
      simpa [Pop.reset] using this
    · have e1 : p.inds.length = xs.length := by rw [hp1]; simp [Pop.reset]
      have e2 : xs.length = o.sizeInit := by
        have := congrArg List.length h4
        simpa using this
      omega

/-! ## Children -/

theorem clampGenes_ok {d : Nat} {lb ub g : List K} (hB : IsBox d lb ub) (hg : g.length = d) :
    ∃ g', clampGenes d lb ub g = .ok g' ∧ InBox lb ub g' := by
  obtain ⟨hl, hu, hle⟩ := hB
  suffices H : ∃ g', clampGenes d lb ub g = .ok g' ∧ g'.length = d ∧ ∀ j, j < d → ∀ l u v,
      lb[j]? = some l → ub[j]? = some u → g'[j]? = some v → l ≤ v ∧ v ≤ u by
    obtain ⟨g', h1, h2, h3⟩ := H
    exact ⟨g', h1, by omega, by omega, fun i l u v a b c =>
      h3 i (by have := (List.getElem?_eq_some_iff.1 a).1; omega) l u v a b c⟩
  unfold clampGenes
  refine forRange_inv (fun i (g : List K) => g.length = d ∧ ∀ j, j < i → ∀ l u v,
    lb[j]? = some l → ub[j]? = some u → g[j]? = some v → l ≤ v ∧ v ≤ u)
    ⟨hg, by intro j hj; omega⟩ ?_
  · rintro i s hi ⟨hs, hI⟩
    have e1 : vat s i = .ok s[i] := vat_ok_of_lt (by omega)
    have e2 : vat lb i = .ok lb[i] := vat_ok_of_lt (by omega)
    have e3 : vat ub i = .ok ub[i] := vat_ok_of_lt (by omega)
    refine ⟨_, bind_eq e1 (bind_eq e2 (bind_eq e3 rfl)), by simp [hs], ?_⟩
    intro j hj l u v hjl hju hjv
    by_cases hji : j = i
    · subst hji
      have hl' : lb[j] = l := by
        have := List.getElem?_eq_getElem (l := lb) (i := j) (by omega)
        rw [hjl] at this; exact (Option.some.inj this).symm
      have hu' : ub[j] = u := by
        have := List.getElem?_eq_getElem (l := ub) (i := j) (by omega)
        rw [hju] at this; exact (Option.some.inj this).symm
      rw [List.getElem?_set_self (by omega)] at hjv
      have hlu := hle j l u hjl hju
      cases hjv
      rw [hl', hu']
      split_ifs with a b b
      · exact ⟨hlu, le_rfl⟩
      · exact ⟨le_rfl, not_lt.1 b⟩
      · exact ⟨hlu, le_rfl⟩
      · exact ⟨not_lt.1 a, not_lt.1 b⟩
    · rw [List.getElem?_set_ne (by omega)] at hjv
      exact hI j (by omega) l u v hjl hju hjv

theorem applyMutation_post {E : EAEnv K} (hE : Draws E) {o : EA K} {g : List K} :
    Post (applyMutation E o g) (fun r => Adv o r.1 ∧ r.2.length = g.length) := by
  unfold applyMutation
  split_ifs
  · exact Post.error
  · exact Post.error
  refine (randomGenes_post hE o).bind ?_
  rintro ⟨o1, r⟩ ⟨h1, -⟩
  dsimp only at h1 ⊢
  subst h1
  have : Post (mutateGenes (fun i => E.muts (o.nMut + i)) o.mutProb g r)
      (fun g' => g'.length = g.length) := fun g' hg' => (tab_inv hg').1
  exact this.bind (fun g' hg' => Post.ok ⟨⟨_, _, _, _, rfl⟩, hg'⟩)

theorem crossOver_post {E : EAEnv K} (hE : Draws E) {o : EA K} {par : Indiv K × Indiv K}
    (hB : IsBox o.dim o.lb o.ub) (hm : par.1.genes.length = o.dim) :
    Post (crossOver E o par) (fun r => Adv o r.1 ∧ InBox o.lb o.ub r.2) := by
  unfold crossOver
  split_ifs
  · exact Post.error
  · exact Post.error
  refine Post.bind (P := fun g : List K => g.length = o.dim)
    (fun g hg => (tab_inv hg).1.trans hm) ?_
  intro g hg
  dsimp only
  refine (applyMutation_post hE).bind ?_
  rintro ⟨o2, g2⟩ ⟨h1, h2⟩
  dsimp only at h1 h2 ⊢
  have h1' : Adv o o2 := Adv.trans ⟨_, _, _, _, rfl⟩ h1
  obtain ⟨a, b, c, d, rfl⟩ := h1'
  obtain ⟨g3, h3, h4⟩ := clampGenes_ok hB (g := g2) (by omega)
  refine Post.bind (P := fun x => x = g3) (by
    intro x hx
    have : clampGenes o.dim o.lb o.ub g2 = .ok x := hx
    rw [h3] at this; exact (Except.ok.inj this).symm) ?_
  rintro x rfl
  exact Post.ok ⟨⟨_, _, _, _, rfl⟩, h4⟩

theorem generateIndividualByReproduction_post {E : EAEnv K} (hE : Draws E) {o : EA K}
    {par : Indiv K × Indiv K} (hB : IsBox o.dim o.lb o.ub) (hm : par.1.genes.length = o.dim) :
    Post (generateIndividualByReproduction E o par) (fun r =>
      Adv { o with total := o.total + 1 } r.1 ∧ InBox o.lb o.ub r.2.genes ∧ r.2.id = o.total ∧
      r.2.dim = o.dim) := by
  unfold generateIndividualByReproduction
  split_ifs
  · exact Post.error
  refine (crossOver_post hE hB hm).bind ?_
  rintro ⟨o1, g⟩ ⟨⟨a, b, c, d, h1⟩, h2⟩
  dsimp only at h1 h2 ⊢
  subst h1
  exact Post.ok ⟨⟨_, _, _, _, rfl⟩, h2, rfl, rfl⟩

theorem pickRep_mem {p : Pop K} {u : K} (hu : 0 ≤ u) :
    Post (p.pickRep u) (fun x => x ∈ p.inds ∧ 0 < x.rep) := Pop.roulette_post _ _ hu

theorem pickFather_post {p : Pop K} {u : Nat → K} (hu : ∀ i, 0 ≤ u i) {m : Indiv K} :
    ∀ (fuel i : Nat), Post (p.pickFather u m fuel i) (fun r => r.1 ∈ p.inds ∧ m.id ≠ r.1.id) := by
  intro fuel
  induction fuel with
  | zero => intro i; exact Post.error
  | succ n ih =>
    intro i
    unfold Pop.pickFather
    refine (pickRep_mem (hu i)).bind ?_
    rintro x ⟨hx, -⟩
    split_ifs with h
    · exact ih (i + 1)
    · exact Post.ok ⟨hx, h⟩

theorem popParents_post {p : Pop K} {u : Nat → K} (hu : ∀ i, 0 ≤ u i) {fuel i : Nat} :
    Post (p.generateRandomParents u fuel i)
      (fun r => r.1.1 ∈ p.inds ∧ r.1.2 ∈ p.inds ∧ r.1.1.id ≠ r.1.2.id) := by
  unfold Pop.generateRandomParents
  split_ifs
  · exact Post.error
  refine (pickRep_mem (hu i)).bind ?_
  rintro m ⟨hm, -⟩
  refine (pickFather_post hu fuel (i + 1)).bind ?_
  rintro ⟨f, j⟩ ⟨h1, h2⟩
  exact Post.ok ⟨hm, h1, h2⟩

theorem generateRandomParents_post {E : EAEnv K} (hE : Draws E) {o : EA K} :
    Post (generateRandomParents E o) (fun r => Adv o r.1 ∧ r.2.1 ∈ o.population.inds ∧
      r.2.2 ∈ o.population.inds ∧ r.2.1.id ≠ r.2.2.id) := by
  unfold generateRandomParents
  split_ifs
  · exact Post.error
  refine (popParents_post (fun i => (hE.1 i).1)).bind ?_
  rintro ⟨par, j⟩ ⟨h1, h2, h3⟩
  exact Post.ok ⟨⟨_, _, _, _, rfl⟩, h1, h2, h3⟩

theorem generateGroup_post {E : EAEnv K} (hE : Draws E) :
    ∀ (k : Nat) (o : EA K) (xs : List (Indiv K)), IsBox o.dim o.lb o.ub →
      (∀ x ∈ o.population.inds, x.genes.length = o.dim) →
      Post (generateGroup E k o xs) (fun r => Adv { o with total := o.total + k } r.1 ∧
        ∃ ys, r.2 = xs ++ ys ∧ ys.map (·.id) = List.range' o.total k ∧
          ∀ y ∈ ys, InBox o.lb o.ub y.genes ∧ y.dim = o.dim) := by
  intro k
  induction k with
  | zero => intro o xs _ _; exact Post.ok ⟨Adv.refl _, [], by simp⟩
  | succ k ih =>
    intro o xs hB hlen
    unfold generateGroup
    refine (generateRandomParents_post hE).bind ?_
    rintro ⟨o1, par⟩ ⟨⟨a, b, c, d, h1⟩, h2, -, -⟩
    dsimp only at h1 h2 ⊢
    subst h1
    refine (generateIndividualByReproduction_post
      (o := { o with nPick := a, nVec := b, nMut := c, nNrm := d }) hE hB (hlen _ h2)).bind ?_
    rintro ⟨o2, ch⟩ ⟨⟨a', b', c', d', h3⟩, h4, h5, h6⟩
    dsimp only at h3 h4 h5 h6 ⊢
    subst h3
    refine (ih _ _ (by exact hB) (by exact hlen)).mono ?_
    rintro ⟨o3, zs⟩ ⟨⟨a'', b'', c'', d'', h7⟩, ys, h8, h9, h10⟩
    dsimp only at h7 h8 h9 h10 ⊢
    subst h7
    refine ⟨⟨a'', b'', c'', d'', ?_⟩, ch :: ys, by simp [h8], ?_, ?_⟩
    · have e2 : o.total + 1 + k = o.total + (k + 1) := by omega
      simp [e2]
    · rw [List.map_cons, h5, h9, List.range'_succ]
    · intro y hy
      rcases List.mem_cons.1 hy with rfl | hy
      · exact ⟨h4, h6⟩
      · exact h10 y hy

theorem withF_parents (E : EAEnv K) (g : List K → Res K) (o : EA K) :
    generateRandomParents (withF E g) o = generateRandomParents E o := rfl

theorem generateGroup_withF (E : EAEnv K) (g : List K → Res K) :
    ∀ (k : Nat) (o : EA K) (xs : List (Indiv K)),
      generateGroup (withF E g) k o xs = generateGroup E k o xs := by
  intro k
  induction k with
  | zero => intro o xs; rfl
  | succ k ih =>
    intro o xs
    unfold generateGroup
    rw [withF_parents]
    congr 1
    funext r
    obtain ⟨o1, par⟩ := r
    have : generateIndividualByReproduction (withF E g) o1 par
        = generateIndividualByReproduction E o1 par := rfl
    dsimp only
    rw [this]
    congr 1
    funext r2
    exact ih _ _

theorem callObjectiveGroup_rel {E : EAEnv K} {g : List K → Res K} :
    ∀ (xs : List (Indiv K)) (o : EA K), Agree o E.f g → (∀ x ∈ xs, InBox o.lb o.ub x.genes) →
      RelP (callObjectiveGroup E o xs) (callObjectiveGroup (withF E g) o xs) (fun r =>
        r.1 = { o with evaluated := o.evaluated ++ xs.map (·.genes) } ∧
        List.Forall₂ (fun x y => ∃ J, E.f x.genes = .ok J ∧ y = { x with obj := J }) xs r.2) := by
  intro xs
  induction xs with
  | nil => intro o _ _; exact RelP.ok ⟨by simp, .nil⟩
  | cons x xs ih =>
    intro o hfg hin
    unfold callObjectiveGroup
    refine RelP.bind (callObjective_rel (hin x (by simp)) hfg) ?_
    rintro ⟨o1, x1⟩ ⟨h1, -, J, h2, h3⟩
    dsimp only at h1 h2 h3 ⊢
    subst h1 h3
    refine RelP.bind (ih _ (by exact hfg) (fun y hy => hin y (by simp [hy]))) ?_
    rintro ⟨o2, ys⟩ ⟨h4, h5⟩
    dsimp only at h4 h5 ⊢
    subst h4
    exact RelP.ok ⟨by simp, .cons ⟨J, h2, rfl⟩ h5⟩

/-- Effect of the births of one generation: `ys` are the children. -/
structure Births (f : List K → Res K) (o o' : EA K) (ys : List (Indiv K)) : Prop where
  cfg : o'.cfg = o.cfg
  init : o'.initialized = o.initialized
  total : o'.total = o.total + o.births
  ids : ys.map (·.id) = List.range' o.total o.births
  good : ∀ y ∈ ys, Good f o.dim o.lb o.ub y
  evals : o'.evaluated = o.evaluated ++ ys.map (·.genes)
  hist : o'.history.inds = o.history.inds ++ ys
  pop : o'.population.inds = o.population.inds ++ ys
  removed : o'.removed = o.removed

theorem addNewIndividuals_rel {E : EAEnv K} (hE : Draws E) {g : List K → Res K} {o : EA K}
    (hfg : Agree o E.f g) (hB : IsBox o.dim o.lb o.ub)
    (hlen : ∀ x ∈ o.population.inds, x.genes.length = o.dim) :
    RelP (addNewIndividuals E o) (addNewIndividuals (withF E g) o)
      (fun o' => ∃ ys, Births E.f o o' ys) := by
  unfold addNewIndividuals
  split_ifs with h0
  · exact RelP.error
  rw [generateGroup_withF]
  refine RelP.bind (Post.rel (generateGroup_post hE _ o [] hB hlen)) ?_
  rintro ⟨o1, xs⟩ ⟨⟨a, b, c, d, h1⟩, ys, h2, h3, h4⟩
  dsimp only at h1 h2 h3 h4 ⊢
  rw [List.nil_append] at h2
  subst h1 h2
  refine RelP.bind (callObjectiveGroup_rel xs _ (by exact hfg) (fun x hx => (h4 x hx).1)) ?_
  rintro ⟨o2, ys⟩ ⟨h5, h6⟩
  dsimp only at h5 h6 ⊢
  subst h5
  refine RelP.bind (Post.rel Pop.addGroup_spec) ?_
  rintro p ⟨hp1, -, -⟩
  refine RelP.bind (Post.rel Pop.addGroup_spec) ?_
  rintro gn -
  refine RelP.bind (Post.rel Pop.addGroup_spec) ?_
  rintro h ⟨hh1, -, -⟩
  have key : ys.map (·.id) = xs.map (·.id) ∧ ys.map (·.genes) = xs.map (·.genes) ∧
      ∀ y ∈ ys, Good E.f o.dim o.lb o.ub y := by
    clear hp1 hh1 h3
    induction h6 with
    | nil => simp
    | cons hxy _ ih =>
      obtain ⟨J, hJ, rfl⟩ := hxy
      obtain ⟨i1, i2, i3⟩ := ih (fun x hx => h4 x (by simp [hx]))
      have := h4 _ (List.mem_cons_self)
      refine ⟨by simp [i1], by simp [i2], ?_⟩
      intro z hz
      rcases List.mem_cons.1 hz with rfl | hz
      · exact ⟨this.1, this.2, hJ⟩
      · exact i3 z hz
  refine RelP.ok ⟨ys, rfl, rfl, rfl, key.1.trans h3, key.2.2, ?_, hh1, hp1, rfl⟩
  rw [key.2.1]

/-! ## Deaths -/

/-- Effect of removing individuals. -/
structure Deaths (k : Nat) (o o' : EA K) : Prop where
  cfg : o'.cfg = o.cfg
  init : o'.initialized = o.initialized
  total : o'.total = o.total
  evals : o'.evaluated = o.evaluated
  hist : o'.history = o.history
  pop : (o'.population.inds.map Indiv.core).Sublist (o.population.inds.map Indiv.core)
  size : o'.population.inds.length + k = o.population.inds.length
  two : k ≠ 0 → 2 ≤ o'.population.inds.length
  removed : o'.removed.dim = o.removed.dim

theorem removeOne_post [FloorRing K] (E : EAEnv K) (o : EA K) :
    Post (removeOne E o) (fun o' => Deaths 1 o o') := by
  unfold removeOne
  refine Post.bind (P := fun _ => True) (fun _ _ => trivial) ?_
  rintro x -
  refine Post.bind (P := fun r => r.dim = o.removed.dim) ?_ ?_
  · unfold Pop.addIndividual
    split_ifs
    · exact Post.error
    · exact Post.ok (Pop.updateMinMaxIf_inds _ _ _).2
  intro r hr
  refine (Pop.removeById_post _ _).bind ?_
  rintro p ⟨k, y, h1, -, -, h2, -⟩
  refine (Pop.updateProperties_post p).bind ?_
  rintro p' ⟨h3, h4⟩
  have hk : k < o.population.inds.length := (List.getElem?_eq_some_iff.1 h1).1
  refine Post.ok ⟨rfl, rfl, rfl, rfl, rfl, ?_, ?_, ?_, hr⟩
  · show (p'.inds.map Indiv.core).Sublist _
    rw [h4.1, h2]
    exact (List.eraseIdx_sublist _ _).map _
  · show p'.inds.length + 1 = _
    rw [h4.length, h2, List.length_eraseIdx_of_lt hk]
    omega
  · intro _
    show 2 ≤ p'.inds.length
    rw [h4.length]; exact h3

theorem removeIndividuals_post [FloorRing K] (E : EAEnv K) :
    ∀ (k : Nat) (o : EA K), Post (removeIndividuals E k o) (fun o' => Deaths k o o') := by
  intro k
  induction k with
  | zero =>
    intro o
    exact Post.ok ⟨rfl, rfl, rfl, rfl, rfl, List.Sublist.refl _, rfl, by simp, rfl⟩
  | succ k ih =>
    intro o
    unfold removeIndividuals
    refine (removeOne_post E o).bind ?_
    intro o1 h1
    refine (ih o1).mono ?_
    intro o2 h2
    refine ⟨h2.cfg.trans h1.cfg, h2.init.trans h1.init, h2.total.trans h1.total,
      h2.evals.trans h1.evals, h2.hist.trans h1.hist, h2.pop.trans h1.pop, ?_, ?_,
      h2.removed.trans h1.removed⟩
    · have := h1.size; have := h2.size; omega
    · intro _
      by_cases hk : k = 0
      · subst hk
        have := h2.size; have := h1.two (by omega); omega
      · exact h2.two hk

theorem removeIndividuals_withF [FloorRing K] (E : EAEnv K) (g : List K → Res K) :
    ∀ (k : Nat) (o : EA K), removeIndividuals (withF E g) k o = removeIndividuals E k o := by
  intro k
  induction k with
  | zero => intro o; rfl
  | succ k ih =>
    intro o
    unfold removeIndividuals
    have : removeOne (withF E g) o = removeOne E o := rfl
    rw [this]
    congr 1
    funext o1
    exact ih o1

/-! ## Generations -/

/-- Effect of one generation. -/
structure Gen (f : List K → Res K) (o o' : EA K) (ys : List (Indiv K)) : Prop where
  cfg : o'.cfg = o.cfg
  init : o'.initialized = o.initialized
  total : o'.total = o.total + o.births
  ids : ys.map (·.id) = List.range' o.total o.births
  good : ∀ y ∈ ys, Good f o.dim o.lb o.ub y
  evals : o'.evaluated = o.evaluated ++ ys.map (·.genes)
  hist : o'.history.inds = o.history.inds ++ ys
  pop : (o'.population.inds.map Indiv.core).Sublist
    (o.population.inds.map Indiv.core ++ ys.map Indiv.core)
  size : o'.population.inds.length + o.deaths = o.population.inds.length + o.births
  two : 2 ≤ o'.population.inds.length
  minMax : Pop.MinMax dblMax dblMin o'.population o'.population.inds
  removed : o'.removed.dim = o.removed.dim

theorem newGeneration_rel [FloorRing K] {E : EAEnv K} (hE : Draws E) {g : List K → Res K} {o : EA K}
    (hfg : Agree o E.f g) (hB : IsBox o.dim o.lb o.ub)
    (hlen : ∀ x ∈ o.population.inds, x.genes.length = o.dim) :
    RelP (newGeneration E o) (newGeneration (withF E g) o)
      (fun o' => ∃ ys, Gen E.f o o' ys) := by
  unfold newGeneration
  refine RelP.bind (addNewIndividuals_rel hE hfg hB hlen) ?_
  rintro o1 ⟨ys, h1⟩
  refine RelP.bind (Post.rel (Pop.updateProperties_post _)) ?_
  rintro p1 ⟨-, h2⟩
  dsimp only
  rw [removeIndividuals_withF]
  refine RelP.bind (Post.rel (removeIndividuals_post E _ _)) ?_
  intro o3 h3
  refine RelP.bind (Post.rel (Pop.updateProperties_post _)) ?_
  rintro p3 ⟨h4, h5⟩
  obtain ⟨m1, m2, -⟩ := Pop.updateMinMax_spec p3
  have hc1 := cfg_eq h1.cfg
  have hylen : ys.length = o.births := by
    have := congrArg List.length h1.ids
    simpa using this
  refine RelP.ok ⟨ys, h3.cfg.trans h1.cfg, h3.init.trans h1.init, h3.total.trans h1.total, h1.ids,
    h1.good, h3.evals.trans h1.evals, ?_, ?_, ?_, ?_, ?_, by rw [← h1.removed]; exact h3.removed⟩
  · show o3.history.inds = _
    rw [h3.hist]; exact h1.hist
  · show (p3.updateMinMax.inds.map Indiv.core).Sublist _
    rw [m2, h5.1]
    refine h3.pop.trans ?_
    show (p1.inds.map Indiv.core).Sublist _
    rw [h2.1, h1.pop, List.map_append]
  · show p3.updateMinMax.inds.length + _ = _
    rw [m2, h5.length]
    have := h3.size
    have e : p1.inds.length = o.population.inds.length + ys.length := by
      rw [h2.length, h1.pop, List.length_append]
    have hd : o1.deaths = o.deaths := hc1.2.2.2.2.2.2.2.1
    rw [hd] at this
    dsimp only at this
    omega
  · show 2 ≤ p3.updateMinMax.inds.length
    rw [m2, h5.length]; exact h4
  · show Pop.MinMax dblMax dblMin p3.updateMinMax p3.updateMinMax.inds
    rw [m2]; exact m1

end EA
end Rodeo
