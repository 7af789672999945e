import Verif.Lemmas.EARun
import Verif.Lemmas.DblEA
import Verif.Lemmas.DblSearch
import Verif.Model.DblEARun
import Verif.Spec.DblEARun

/-! # Run-level lemmas about the evolutionary optimizer in double arithmetic -/

set_option linter.unusedSectionVars false

namespace Rodeo.DblEA
open Spec EA

variable {K : Type} [Field K] [LinearOrder K] [IsStrictOrderedRing K] [FloorRing K]

/-! ## Fitness and selection -/

theorem roulette_mem {prob : Indiv K → K} {u : K} : ∀ (l : List (Indiv K)) (acc : K),
    Post (Dbl.roulette prob u acc l) (fun x => x ∈ l)
  | [], _ => Post.error
  | x :: l, acc => by
    unfold Dbl.roulette
    refine Post.bind (P := fun _ => True) (fun _ _ => trivial) ?_
    rintro s -
    split_ifs
    · exact Post.ok (by simp)
    · exact (roulette_mem l s).mono (fun y hy => by simp [hy])

theorem Same.trans {p q r : Pop K} (h : Pop.Same p q) (h' : Pop.Same q r) : Pop.Same p r := by
  obtain ⟨a, b, c, d, e, f⟩ := h
  obtain ⟨a', b', c', d', e', f'⟩ := h'
  exact ⟨a'.trans a, b'.trans b, c'.trans c, d'.trans d, e'.trans e, f'.trans f⟩

theorem mapRes_core {α : Type} {f : α → Res (Indiv K)} {h : α → Indiv K} {l : List α} {ys : List (Indiv K)}
    (hf : ∀ x ∈ l, Post (f x) (fun y => y.core = (h x).core)) (e : mapRes f l = .ok ys) :
    ys.map Indiv.core = (l.map h).map Indiv.core := by
  induction l generalizing ys with
  | nil => cases e; rfl
  | cons x l ih =>
    unfold mapRes at e
    cases e1 : f x with
    | error er => rw [e1] at e; cases e
    | ok y =>
      rw [e1] at e
      cases e2 : mapRes f l with
      | error er => rw [e2] at e; cases e
      | ok zs =>
        rw [e2] at e
        cases e
        simp only [List.map_cons]
        rw [hf x (by simp) y e1, ih (fun z hz => hf z (by simp [hz])) e2]

theorem mapRes_all {α β : Type} {f : α → Res β} {P : β → Prop} {l : List α} {ys : List β}
    (hf : ∀ x, Post (f x) P) (e : mapRes f l = .ok ys) : ∀ y ∈ ys, P y := by
  induction l generalizing ys with
  | nil => cases e; simp
  | cons x l ih =>
    unfold mapRes at e
    cases e1 : f x with
    | error er => rw [e1] at e; cases e
    | ok y =>
      rw [e1] at e
      cases e2 : mapRes f l with
      | error er => rw [e2] at e; cases e
      | ok zs =>
        rw [e2] at e
        cases e
        intro z hz
        rcases List.mem_cons.1 hz with rfl | hz
        · exact hf x z e1
        · exact ih e2 z hz

theorem fitnessOf_post (c : List K) (x : K) : Post (Dbl.fitnessOf c x) (fun y => IsDouble y) := by
  intro y hy
  unfold Dbl.fitnessOf at hy
  obtain ⟨_, -, hy⟩ := bind_ok_inv hy
  obtain ⟨_, -, hy⟩ := bind_ok_inv hy
  obtain ⟨_, -, hy⟩ := bind_ok_inv hy
  obtain ⟨_, -, hy⟩ := bind_ok_inv hy
  obtain ⟨_, -, hy⟩ := bind_ok_inv hy
  obtain ⟨_, -, hy⟩ := bind_ok_inv hy
  obtain ⟨_, -, hy⟩ := bind_ok_inv hy
  rw [Dbl.add_ok hy]
  exact Dbl.fl_isDouble _

theorem updateFitness_post (p : Pop K) : Post (Dbl.updateFitness p) (fun q => Pop.Same p q ∧
    ∀ y ∈ q.inds, IsDouble y.fitness ∧ 0 < y.fitness) := by
  unfold Dbl.updateFitness
  split_ifs
  · exact Post.error
  unfold Dbl.updateFitnessQuadratic
  split_ifs
  · exact Post.error
  refine Post.bind (P := fun _ => True) (fun _ _ => trivial) ?_
  rintro c -
  intro q hq
  obtain ⟨xs, e, hq⟩ := bind_ok_inv hq
  cases hq
  refine ⟨⟨?_, rfl, rfl, rfl, rfl, rfl⟩, ?_⟩
  · have := mapRes_core (h := id) (fun x _ => ?_) e
    · simpa using this
    · refine Post.bind (P := fun _ => True) (fun _ _ => trivial) ?_
      rintro fit -
      split_ifs
      · exact Post.error
      · exact Post.ok rfl
  · refine mapRes_all (P := fun y : Indiv K => IsDouble y.fitness ∧ 0 < y.fitness) (fun x => ?_) e
    refine (fitnessOf_post c x.obj).bind ?_
    intro fit hfit
    split_ifs with h
    · exact Post.error
    · exact Post.ok ⟨hfit, not_le.1 h⟩

theorem updateRep_post (p : Pop K) : Post (Dbl.updateRep p) (fun q => Pop.Same p q) := by
  intro q hq
  unfold Dbl.updateRep at hq
  obtain ⟨s, -, hq⟩ := bind_ok_inv hq
  obtain ⟨xs, e, hq⟩ := bind_ok_inv hq
  cases hq
  refine ⟨?_, rfl, rfl, rfl, rfl, rfl⟩
  have := mapRes_core (h := id) (fun x _ => ?_) e
  · simpa using this
  · refine Post.bind (P := fun _ => True) (fun _ _ => trivial) ?_
    rintro v -
    unfold Indiv.setRep
    split_ifs
    · exact Post.error
    · exact Post.error
    · exact Post.ok rfl

theorem updateRep_single {p : Pop K} {y : Indiv K} (hp : p.inds = [y]) (hd : IsDouble y.fitness) :
    Post (Dbl.updateRep p) (fun _ => False) := by
  intro q hq
  unfold Dbl.updateRep at hq
  rw [hp] at hq
  obtain ⟨s, e1, hq⟩ := bind_ok_inv hq
  obtain ⟨xs, e2, -⟩ := bind_ok_inv hq
  have hs : s = y.fitness := by
    unfold foldRes at e1
    cases e : Dbl.add 0 y.fitness with
    | error er => rw [e] at e1; cases e1
    | ok t =>
      rw [e] at e1
      have ht : t = s := Except.ok.inj e1
      rw [← ht, Dbl.add_ok e, zero_add, Dbl.fl_of_double hd]
  subst hs
  unfold mapRes at e2
  cases e : ((do let v ← Dbl.div y.fitness y.fitness; y.setRep v) : Res (Indiv K)) with
  | error er => rw [e] at e2; cases e2
  | ok z =>
    obtain ⟨v, ev, e⟩ := bind_ok_inv e
    obtain ⟨hne, rfl⟩ := Dbl.div_ok ev
    rw [div_self hne, Dbl.fl_of_double Dbl.isDouble_one] at e
    unfold Indiv.setRep at e
    rw [if_neg (by simp), if_pos le_rfl] at e
    cases e

theorem updateDeath_post (p : Pop K) : Post (Dbl.updateDeath p) (fun q => Pop.Same p q) := by
  intro q hq
  unfold Dbl.updateDeath at hq
  obtain ⟨th, -, hq⟩ := bind_ok_inv hq
  obtain ⟨w, ew, hq⟩ := bind_ok_inv hq
  obtain ⟨s, -, hq⟩ := bind_ok_inv hq
  obtain ⟨xs, e, hq⟩ := bind_ok_inv hq
  cases hq
  refine ⟨?_, rfl, rfl, rfl, rfl, rfl⟩
  have hl : w.length = p.inds.length := by
    have := (mapRes_inv ew).length_eq
    simpa using this.symm
  have := mapRes_core (h := Prod.fst) (fun x _ => ?_) e
  · rwa [List.map_fst_zip (by omega)] at this
  · refine Post.bind (P := fun _ => True) (fun _ _ => trivial) ?_
    rintro v -
    unfold Indiv.setDeath
    split_ifs
    · exact Post.error
    · exact Post.error
    · exact Post.ok rfl

theorem updateProperties_post (p : Pop K) :
    Post (Dbl.updateProperties p) (fun p' => 2 ≤ p.inds.length ∧ Pop.Same p p') := by
  unfold Dbl.updateProperties
  split_ifs with h0
  · exact Post.error
  refine (updateFitness_post p).bind ?_
  rintro p1 ⟨h1, h1'⟩
  by_cases h2 : 2 ≤ p.inds.length
  · refine (updateRep_post p1).bind ?_
    intro p2 h3
    refine (updateDeath_post p2).mono ?_
    intro p3 h4
    exact ⟨h2, Same.trans (Same.trans h1 h3) h4⟩
  · have hl : p1.inds.length = 1 := by rw [h1.length]; omega
    obtain ⟨y, hy⟩ := List.length_eq_one_iff.1 hl
    obtain ⟨hd, -⟩ := h1' y (by rw [hy]; simp)
    exact (updateRep_single hy hd).bind (fun _ h => h.elim)

/-! ## The initial population -/

theorem randomGenes_post {E : EAEnv K} (hE : DblDraws E) (o : EA K) (hD : Doubles o.lb ∧ Doubles o.ub) :
    Post (randomGenes E o) (fun r => r.1 = { o with nVec := o.nVec + 1 } ∧ InBox o.lb o.ub r.2) := by
  unfold randomGenes
  have : Post (randomVectorBetween o.lb o.ub (E.vecs o.nVec)) (fun g => InBox o.lb o.ub g) := by
    intro g hg
    unfold randomVectorBetween at hg
    split_ifs at hg with hl
    obtain ⟨h1, h2⟩ := tab_inv hg
    refine ⟨h1, by omega, ?_⟩
    intro i l u v hli hui hvi
    have hi : i < o.lb.length := (List.getElem?_eq_some_iff.1 hli).1
    obtain ⟨a, ha, ha'⟩ := h2 i hi
    simp only [rawAt, hli, hui] at ha
    rw [hvi] at ha'
    cases ha'
    have ha' : (if l > u then .error .ub else Dbl.uniformReal l u (E.vecs o.nVec i)) = Except.ok v := ha
    split_ifs at ha' with hlu
    have hd := hE.1.2.1 o.nVec i
    exact (Dbl.uniformReal_post (hD.1 l (List.mem_of_getElem? hli)) (hD.2 u (List.mem_of_getElem? hui))
      (not_lt.1 hlu) (hE.2 _ _) hd.1 hd.2 v ha').2
  exact this.bind (fun g hg => Post.ok ⟨rfl, hg⟩)

theorem generateRandomIndividual_rel {E : EAEnv K} (hE : DblDraws E) {g : List K → Res K} {o : EA K}
    (hfg : Agree o E.f g) (hD : Doubles o.lb ∧ Doubles o.ub) :
    RelP (generateRandomIndividual E o) (generateRandomIndividual (withF E g) o) (fun r =>
      r.1 = { o with nVec := o.nVec + 1, total := o.total + 1,
                     evaluated := o.evaluated ++ [r.2.genes] } ∧
      r.2.id = o.total + 1 ∧ Good E.f o.dim o.lb o.ub r.2) := by
  unfold generateRandomIndividual
  split_ifs with h
  · exact RelP.error
  refine RelP.bind (y := randomGenes (withF E g) o) (randomGenes_post hE o hD).rel ?_
  rintro ⟨o1, gs⟩ ⟨h1, h2⟩
  dsimp only at h1 h2 ⊢
  subst h1
  refine RelP.bind (P := fun x => x = { (Indiv.new o.dim : Indiv K) with genes := gs })
    (Post.rel ?_) ?_
  · unfold Indiv.initializeGenes
    split_ifs
    · exact Post.error
    · exact Post.ok rfl
  · rintro x rfl
    refine (callObjective_rel (by exact h2) (by exact hfg)).mono ?_
    rintro ⟨o2, y⟩ ⟨h3, -, J, h4, h5⟩
    dsimp only at h3 h5 ⊢
    subst h3 h5
    exact ⟨rfl, rfl, h2, rfl, h4⟩

theorem generateInitial_rel {E : EAEnv K} (hE : DblDraws E) {g : List K → Res K} :
    ∀ (k : Nat) (o : EA K) (xs : List (Indiv K)), Agree o E.f g → Doubles o.lb ∧ Doubles o.ub →
    RelP (generateInitial E k o xs) (generateInitial (withF E g) k o xs) (fun r =>
      ∃ ys, r.2 = xs ++ ys ∧ ys.map (·.id) = List.range' (o.total + 1) k ∧
        (∀ y ∈ ys, Good E.f o.dim o.lb o.ub y) ∧
        r.1 = { o with nVec := o.nVec + k, total := o.total + k,
                       evaluated := o.evaluated ++ ys.map (·.genes) }) := by
  intro k
  induction k with
  | zero => intro o xs _ _; exact RelP.ok ⟨[], by simp⟩
  | succ k ih =>
    intro o xs hfg hD
    unfold generateInitial
    refine RelP.bind (generateRandomIndividual_rel hE hfg hD) ?_
    rintro ⟨o1, x⟩ ⟨h1, h2, h3⟩
    dsimp only at h1 h2 h3 ⊢
    subst h1
    refine (ih _ _ (by exact hfg) (by exact hD)).mono ?_
    rintro ⟨o2, zs⟩ ⟨ys, h4, h5, h6, h7⟩
    dsimp only at h4 h5 h6 h7 ⊢
    subst h7
    refine ⟨x :: ys, by simp [h4], ?_, ?_, ?_⟩
    · rw [List.map_cons, h2, h5, List.range'_succ]
    · intro y hy
      rcases List.mem_cons.1 hy with rfl | hy
      · exact h3
      · exact h6 y hy
    · have e1 : o.nVec + 1 + k = o.nVec + (k + 1) := by omega
      have e2 : o.total + 1 + k = o.total + (k + 1) := by omega
      simp [e1, e2]

theorem initializePopulation_rel {E : EAEnv K} (hE : DblDraws E) {g : List K → Res K}
    {o : EA K} (hfg : Agree o E.f g) (hD : Doubles o.lb ∧ Doubles o.ub) :
    RelP (initializePopulation E o) (initializePopulation (withF E g) o)
      (fun o' => ∃ ys, Init E.f o o' ys) := by
  unfold initializePopulation
  dsimp only
  split_ifs with h1 h2
  · exact RelP.error
  · exact RelP.error
  refine RelP.bind (generateInitial_rel hE _ _ _ (by exact hfg) (by exact hD)) ?_
  rintro ⟨o1, xs⟩ ⟨ys, h3, h4, h5, h6⟩
  dsimp only at h3 h4 h5 h6 ⊢
  rw [List.nil_append] at h3
  subst h3 h6
  refine RelP.bind (Post.rel Pop.addGroup_spec) ?_
  rintro p ⟨hp1, hp2, -⟩
  refine RelP.bind (Post.rel Pop.addGroup_spec) ?_
  rintro h ⟨hh1, hh2, -⟩
  refine RelP.bind (Post.rel (updateProperties_post p)) ?_
  rintro p' ⟨hs2, hs⟩
  dsimp only
  split_ifs with hrep
  · exact RelP.error
  · refine RelP.ok ⟨xs, rfl, rfl, rfl, h4, h5, rfl, hh1, ?_, ?_, rfl⟩
    · have := hs.1
      rw [hp1] at this
      simpa [Pop.reset] using this
    · have e1 : p.inds.length = xs.length := by rw [hp1]; simp [Pop.reset]
      have e2 : xs.length = o.sizeInit := by
        have := congrArg List.length h4
        simpa using this
      omega

/-! ## Children -/

theorem applyMutation_post {E : EAEnv K} {o : EA K} {g : List K} :
    Post (applyMutation E o g) (fun r => Adv o r.1 ∧ r.2.length = g.length) := by
  unfold applyMutation
  split_ifs
  · exact Post.error
  · exact Post.error
  refine Post.bind (P := fun r => r.1 = { o with nVec := o.nVec + 1 }) ?_ ?_
  · unfold randomGenes
    exact Post.bind (P := fun _ => True) (fun _ _ => trivial) (fun g _ => Post.ok rfl)
  rintro ⟨o1, r⟩ h1
  dsimp only at h1 ⊢
  subst h1
  have : Post (mutateGenes (fun i => E.muts (o.nMut + i)) o.mutProb g r)
      (fun g' => g'.length = g.length) := fun g' hg' => (tab_inv hg').1
  exact this.bind (fun g' hg' => Post.ok ⟨⟨_, _, _, _, rfl⟩, hg'⟩)

theorem crossOver_post {E : EAEnv K} {o : EA K} {par : Indiv K × Indiv K}
    (hB : IsBox o.dim o.lb o.ub) (hm : par.1.genes.length = o.dim) :
    Post (crossOver E o par) (fun r => Adv o r.1 ∧ InBox o.lb o.ub r.2) := by
  unfold crossOver
  split_ifs
  · exact Post.error
  · exact Post.error
  refine Post.bind (P := fun g : List K => g.length = o.dim)
    (fun g hg => (tab_inv hg).1.trans hm) ?_
  intro g hg
  dsimp only
  refine (applyMutation_post).bind ?_
  rintro ⟨o2, g2⟩ ⟨h1, h2⟩
  dsimp only at h1 h2 ⊢
  have h1' : Adv o o2 := Adv.trans ⟨_, _, _, _, rfl⟩ h1
  obtain ⟨a, b, c, d, rfl⟩ := h1'
  obtain ⟨g3, h3, h4⟩ := clampGenes_ok hB (g := g2) (by omega)
  refine Post.bind (P := fun x => x = g3) (by
    intro x hx
    have : clampGenes o.dim o.lb o.ub g2 = .ok x := hx
    rw [h3] at this; exact (Except.ok.inj this).symm) ?_
  rintro x rfl
  exact Post.ok ⟨⟨_, _, _, _, rfl⟩, h4⟩

theorem generateIndividualByReproduction_post {E : EAEnv K} {o : EA K}
    {par : Indiv K × Indiv K} (hB : IsBox o.dim o.lb o.ub) (hm : par.1.genes.length = o.dim) :
    Post (generateIndividualByReproduction E o par) (fun r =>
      Adv { o with total := o.total + 1 } r.1 ∧ InBox o.lb o.ub r.2.genes ∧ r.2.id = o.total ∧
      r.2.dim = o.dim) := by
  unfold generateIndividualByReproduction
  split_ifs
  · exact Post.error
  refine (crossOver_post hB hm).bind ?_
  rintro ⟨o1, g⟩ ⟨⟨a, b, c, d, h1⟩, h2⟩
  dsimp only at h1 h2 ⊢
  subst h1
  exact Post.ok ⟨⟨_, _, _, _, rfl⟩, h2, rfl, rfl⟩

theorem pickFather_post {p : Pop K} {u : Nat → K} {m : Indiv K} :
    ∀ (fuel i : Nat), Post (pickFather p u m fuel i) (fun r => r.1 ∈ p.inds ∧ m.id ≠ r.1.id) := by
  intro fuel
  induction fuel with
  | zero => intro i; exact Post.error
  | succ n ih =>
    intro i
    unfold pickFather
    refine Post.bind (P := fun x => x ∈ p.inds) (roulette_mem _ _) ?_
    intro x hx
    split_ifs with h
    · exact ih (i + 1)
    · exact Post.ok ⟨hx, h⟩

theorem popParents_post {p : Pop K} {u : Nat → K} {fuel i : Nat} :
    Post (popParents p u fuel i)
      (fun r => r.1.1 ∈ p.inds ∧ r.1.2 ∈ p.inds ∧ r.1.1.id ≠ r.1.2.id) := by
  unfold popParents
  split_ifs
  · exact Post.error
  refine Post.bind (P := fun x => x ∈ p.inds) (roulette_mem _ _) ?_
  intro m hm
  refine (pickFather_post fuel (i + 1)).bind ?_
  rintro ⟨f, j⟩ ⟨h1, h2⟩
  exact Post.ok ⟨hm, h1, h2⟩

theorem generateRandomParents_post {E : EAEnv K} {o : EA K} :
    Post (generateRandomParents E o) (fun r => Adv o r.1 ∧ r.2.1 ∈ o.population.inds ∧
      r.2.2 ∈ o.population.inds ∧ r.2.1.id ≠ r.2.2.id) := by
  unfold generateRandomParents
  split_ifs
  · exact Post.error
  refine (popParents_post (p := o.population)).bind ?_
  rintro ⟨par, j⟩ ⟨h1, h2, h3⟩
  exact Post.ok ⟨⟨_, _, _, _, rfl⟩, h1, h2, h3⟩

theorem generateGroup_post {E : EAEnv K} :
    ∀ (k : Nat) (o : EA K) (xs : List (Indiv K)), IsBox o.dim o.lb o.ub →
      (∀ x ∈ o.population.inds, x.genes.length = o.dim) →
      Post (generateGroup E k o xs) (fun r => Adv { o with total := o.total + k } r.1 ∧
        ∃ ys, r.2 = xs ++ ys ∧ ys.map (·.id) = List.range' o.total k ∧
          ∀ y ∈ ys, InBox o.lb o.ub y.genes ∧ y.dim = o.dim) := by
  intro k
  induction k with
  | zero => intro o xs _ _; exact Post.ok ⟨Adv.refl _, [], by simp⟩
  | succ k ih =>
    intro o xs hB hlen
    unfold generateGroup
    refine (generateRandomParents_post).bind ?_
    rintro ⟨o1, par⟩ ⟨⟨a, b, c, d, h1⟩, h2, -, -⟩
    dsimp only at h1 h2 ⊢
    subst h1
    refine (generateIndividualByReproduction_post
      (o := { o with nPick := a, nVec := b, nMut := c, nNrm := d }) hB (hlen _ h2)).bind ?_
    rintro ⟨o2, ch⟩ ⟨⟨a', b', c', d', h3⟩, h4, h5, h6⟩
    dsimp only at h3 h4 h5 h6 ⊢
    subst h3
    refine (ih _ _ (by exact hB) (by exact hlen)).mono ?_
    rintro ⟨o3, zs⟩ ⟨⟨a'', b'', c'', d'', h7⟩, ys, h8, h9, h10⟩
    dsimp only at h7 h8 h9 h10 ⊢
    subst h7
    refine ⟨⟨a'', b'', c'', d'', ?_⟩, ch :: ys, by simp [h8], ?_, ?_⟩
    · have e2 : o.total + 1 + k = o.total + (k + 1) := by omega
      simp [e2]
    · rw [List.map_cons, h5, h9, List.range'_succ]
    · intro y hy
      rcases List.mem_cons.1 hy with rfl | hy
      · exact ⟨h4, h6⟩
      · exact h10 y hy

theorem withF_parents (E : EAEnv K) (g : List K → Res K) (o : EA K) :
    generateRandomParents (withF E g) o = generateRandomParents E o := rfl

theorem generateGroup_withF (E : EAEnv K) (g : List K → Res K) :
    ∀ (k : Nat) (o : EA K) (xs : List (Indiv K)),
      generateGroup (withF E g) k o xs = generateGroup E k o xs := by
  intro k
  induction k with
  | zero => intro o xs; rfl
  | succ k ih =>
    intro o xs
    unfold generateGroup
    rw [withF_parents]
    congr 1
    funext r
    obtain ⟨o1, par⟩ := r
    have : generateIndividualByReproduction (withF E g) o1 par
        = generateIndividualByReproduction E o1 par := rfl
    dsimp only
    rw [this]
    congr 1
    funext r2
    exact ih _ _

theorem addNewIndividuals_rel {E : EAEnv K} {g : List K → Res K} {o : EA K}
    (hfg : Agree o E.f g) (hB : IsBox o.dim o.lb o.ub)
    (hlen : ∀ x ∈ o.population.inds, x.genes.length = o.dim) :
    RelP (addNewIndividuals E o) (addNewIndividuals (withF E g) o)
      (fun o' => ∃ ys, Births E.f o o' ys) := by
  unfold addNewIndividuals
  split_ifs with h0
  · exact RelP.error
  rw [generateGroup_withF]
  refine RelP.bind (Post.rel (generateGroup_post _ o [] hB hlen)) ?_
  rintro ⟨o1, xs⟩ ⟨⟨a, b, c, d, h1⟩, ys, h2, h3, h4⟩
  dsimp only at h1 h2 h3 h4 ⊢
  rw [List.nil_append] at h2
  subst h1 h2
  refine RelP.bind (callObjectiveGroup_rel xs _ (by exact hfg) (fun x hx => (h4 x hx).1)) ?_
  rintro ⟨o2, ys⟩ ⟨h5, h6⟩
  dsimp only at h5 h6 ⊢
  subst h5
  refine RelP.bind (Post.rel Pop.addGroup_spec) ?_
  rintro p ⟨hp1, -, -⟩
  refine RelP.bind (Post.rel Pop.addGroup_spec) ?_
  rintro gn -
  refine RelP.bind (Post.rel Pop.addGroup_spec) ?_
  rintro h ⟨hh1, -, -⟩
  have key : ys.map (·.id) = xs.map (·.id) ∧ ys.map (·.genes) = xs.map (·.genes) ∧
      ∀ y ∈ ys, Good E.f o.dim o.lb o.ub y := by
    clear hp1 hh1 h3
    induction h6 with
    | nil => simp
    | cons hxy _ ih =>
      obtain ⟨J, hJ, rfl⟩ := hxy
      obtain ⟨i1, i2, i3⟩ := ih (fun x hx => h4 x (by simp [hx]))
      have := h4 _ (List.mem_cons_self)
      refine ⟨by simp [i1], by simp [i2], ?_⟩
      intro z hz
      rcases List.mem_cons.1 hz with rfl | hz
      · exact ⟨this.1, this.2, hJ⟩
      · exact i3 z hz
  refine RelP.ok ⟨ys, rfl, rfl, rfl, key.1.trans h3, key.2.2, ?_, hh1, hp1, rfl⟩
  rw [key.2.1]

/-! ## Deaths and generations -/

theorem removeOne_post (E : EAEnv K) (o : EA K) :
    Post (removeOne E o) (fun o' => Deaths 1 o o') := by
  unfold removeOne
  refine Post.bind (P := fun _ => True) (fun _ _ => trivial) ?_
  rintro x -
  refine Post.bind (P := fun r => r.dim = o.removed.dim) ?_ ?_
  · unfold Pop.addIndividual
    split_ifs
    · exact Post.error
    · exact Post.ok (Pop.updateMinMaxIf_inds _ _ _).2
  intro r hr
  refine (Pop.removeById_post _ _).bind ?_
  rintro p ⟨k, y, h1, -, -, h2, -⟩
  refine (updateProperties_post p).bind ?_
  rintro p' ⟨h3, h4⟩
  have hk : k < o.population.inds.length := (List.getElem?_eq_some_iff.1 h1).1
  refine Post.ok ⟨rfl, rfl, rfl, rfl, rfl, ?_, ?_, ?_, hr⟩
  · show (p'.inds.map Indiv.core).Sublist _
    rw [h4.1, h2]
    exact (List.eraseIdx_sublist _ _).map _
  · show p'.inds.length + 1 = _
    rw [h4.length, h2, List.length_eraseIdx_of_lt hk]
    omega
  · intro _
    show 2 ≤ p'.inds.length
    rw [h4.length]; exact h3

theorem removeIndividuals_post (E : EAEnv K) :
    ∀ (k : Nat) (o : EA K), Post (removeIndividuals E k o) (fun o' => Deaths k o o') := by
  intro k
  induction k with
  | zero =>
    intro o
    exact Post.ok ⟨rfl, rfl, rfl, rfl, rfl, List.Sublist.refl _, rfl, by simp, rfl⟩
  | succ k ih =>
    intro o
    unfold removeIndividuals
    refine (removeOne_post E o).bind ?_
    intro o1 h1
    refine (ih o1).mono ?_
    intro o2 h2
    refine ⟨h2.cfg.trans h1.cfg, h2.init.trans h1.init, h2.total.trans h1.total,
      h2.evals.trans h1.evals, h2.hist.trans h1.hist, h2.pop.trans h1.pop, ?_, ?_,
      h2.removed.trans h1.removed⟩
    · have := h1.size; have := h2.size; omega
    · intro _
      by_cases hk : k = 0
      · subst hk
        have := h2.size; have := h1.two (by omega); omega
      · exact h2.two hk

theorem removeIndividuals_withF (E : EAEnv K) (g : List K → Res K) :
    ∀ (k : Nat) (o : EA K), removeIndividuals (withF E g) k o = removeIndividuals E k o := by
  intro k
  induction k with
  | zero => intro o; rfl
  | succ k ih =>
    intro o
    unfold removeIndividuals
    have : removeOne (withF E g) o = removeOne E o := rfl
    rw [this]
    congr 1
    funext o1
    exact ih o1

theorem newGeneration_rel {E : EAEnv K} {g : List K → Res K} {o : EA K}
    (hfg : Agree o E.f g) (hB : IsBox o.dim o.lb o.ub)
    (hlen : ∀ x ∈ o.population.inds, x.genes.length = o.dim) :
    RelP (newGeneration E o) (newGeneration (withF E g) o)
      (fun o' => ∃ ys, Gen E.f o o' ys) := by
  unfold newGeneration
  refine RelP.bind (addNewIndividuals_rel hfg hB hlen) ?_
  rintro o1 ⟨ys, h1⟩
  refine RelP.bind (Post.rel (updateProperties_post _)) ?_
  rintro p1 ⟨-, h2⟩
  dsimp only
  rw [removeIndividuals_withF]
  refine RelP.bind (Post.rel (removeIndividuals_post E _ _)) ?_
  intro o3 h3
  refine RelP.bind (Post.rel (updateProperties_post _)) ?_
  rintro p3 ⟨h4, h5⟩
  obtain ⟨m1, m2, -⟩ := Pop.updateMinMax_spec p3
  have hc1 := cfg_eq h1.cfg
  have hylen : ys.length = o.births := by
    have := congrArg List.length h1.ids
    simpa using this
  refine RelP.ok ⟨ys, h3.cfg.trans h1.cfg, h3.init.trans h1.init, h3.total.trans h1.total, h1.ids,
    h1.good, h3.evals.trans h1.evals, ?_, ?_, ?_, ?_, ?_, by rw [← h1.removed]; exact h3.removed⟩
  · show o3.history.inds = _
    rw [h3.hist]; exact h1.hist
  · show (p3.updateMinMax.inds.map Indiv.core).Sublist _
    rw [m2, h5.1]
    refine h3.pop.trans ?_
    show (p1.inds.map Indiv.core).Sublist _
    rw [h2.1, h1.pop, List.map_append]
  · show p3.updateMinMax.inds.length + _ = _
    rw [m2, h5.length]
    have := h3.size
    have e : p1.inds.length = o.population.inds.length + ys.length := by
      rw [h2.length, h1.pop, List.length_append]
    have hd : o1.deaths = o.deaths := hc1.2.2.2.2.2.2.2.1
    rw [hd] at this
    dsimp only at this
    omega
  · show 2 ≤ p3.updateMinMax.inds.length
    rw [m2, h5.length]; exact h4
  · show Pop.MinMax dblMax dblMin p3.updateMinMax p3.updateMinMax.inds
    rw [m2]; exact m1

theorem generationLoop_rel {E : EAEnv K} {g : List K → Res K} :
    ∀ (m : Nat) (o : EA K), Agree o E.f g → IsBox o.dim o.lb o.ub →
      (∀ x ∈ o.population.inds, Good E.f o.dim o.lb o.ub x) →
      RelP (generationLoop E m o) (generationLoop (withF E g) m o) (fun o' => ∃ k ys,
        Gens E.f o o' k ys ∧ k ≤ m ∧ (m ≠ 0 → k ≠ 0) ∧
        (∀ j, 1 ≤ j → j < k → o.total + j * o.births < o.maxEvals) ∧
        (k = m ∨ o.maxEvals ≤ o.total + k * o.births)) := by
  intro m
  induction m with
  | zero =>
    intro o _ _ _
    exact RelP.ok ⟨0, [], Gens.zero _ _, le_rfl, by simp, by intro j h1 h2; omega, Or.inl rfl⟩
  | succ m ih =>
    intro o hfg hB hg
    unfold generationLoop
    refine RelP.bind (newGeneration_rel hfg hB (fun x hx => (hg x hx).length hB)) ?_
    rintro o1 ⟨ys, h1⟩
    obtain ⟨e1, e2, e3, -, e5, -, e7, e8, -, -⟩ := cfg_eq h1.cfg
    have hg1 : ∀ x ∈ o1.population.inds, Good E.f o1.dim o1.lb o1.ub x := by
      rw [e1, e2, e3]
      exact pop_lengths h1.pop hg h1.good
    split_ifs with hM
    · refine RelP.ok ⟨1, ys, by simpa using Gens.cons h1 (Gens.zero _ _), by omega, by simp,
        by intro j a b; omega, Or.inr ?_⟩
      rw [e5, h1.total] at hM
      omega
    · refine (ih o1 (by unfold Agree; rw [e2, e3]; exact hfg) (by rw [e1, e2, e3]; exact hB)
        hg1).mono ?_
      rintro o2 ⟨k, zs, a1, a2, a3, a4, a5⟩
      have ht : ∀ j, o1.total + j * o1.births = o.total + (j + 1) * o.births := by
        intro j; rw [h1.total, e7]; ring
      refine ⟨k + 1, ys ++ zs, Gens.cons h1 a1, by omega, by simp, ?_, ?_⟩
      · intro j hj1 hj2
        by_cases hj : j = 1
        · subst hj
          rw [e5, h1.total] at hM
          omega
        · have := a4 (j - 1) (by omega) (by omega)
          rw [ht, e5] at this
          have e : j - 1 + 1 = j := by omega
          rwa [e] at this
      · rcases a5 with rfl | h
        · exact Or.inl rfl
        · rw [ht, e5] at h; exact Or.inr h

theorem optimize_rel {E : EAEnv K} (hE : DblDraws E) {g : List K → Res K} {o : EA K}
    (hfg : Agree o E.f g) (hB : IsDblBox o.dim o.lb o.ub) :
    RelP (optimize E o) (optimize (withF E g) o) (fun o' => ∃ k xs ys, Run E.f o o' k xs ys) := by
  unfold optimize
  dsimp only
  refine RelP.bind (P := fun _ => o.gens ≠ 0) (Post.rel ?_) ?_
  · unfold checkSettings
    dsimp only
    split_ifs <;> first | exact Post.error | exact Post.ok (by omega)
  intro _ hgens
  refine RelP.bind (initializePopulation_rel hE (by exact hfg) (by exact hB.2)) ?_
  rintro o1 ⟨xs, h1⟩
  obtain ⟨e1, e2, e3, -, e5, e6, e7, e8, e9, -⟩ := cfg_eq h1.cfg
  dsimp only at e1 e2 e3 e5 e6 e7 e8 e9
  have hg1 : ∀ x ∈ o1.population.inds, Good E.f o1.dim o1.lb o1.ub x := by
    rw [e1, e2, e3]
    refine pop_lengths (xs := xs) (ys := []) ?_ h1.good (by simp)
    rw [h1.pop]; simp
  refine RelP.bind (generationLoop_rel _ o1 (by unfold Agree; rw [e2, e3]; exact hfg)
    (by rw [e1, e2, e3]; exact hB.1) hg1) ?_
  rintro o2 ⟨k, ys, a1, a2, a3, a4, a5⟩
  refine RelP.bind (Post.rel Post.trivial) ?_
  intro x hx
  have hk : k ≠ 0 := a3 (by rw [e9]; exact hgens)
  have t := h1.total
  dsimp only at t
  rw [Nat.zero_add] at t
  have hxl : xs.length = o.sizeInit := by
    have := congrArg List.length h1.ids
    simpa using this
  have hpl : o1.population.inds.length = o.sizeInit := by
    have := congrArg List.length h1.pop
    simp only [List.length_map] at this
    omega
  refine RelP.ok ⟨k, xs, ys, a1.cfg.trans h1.cfg, ?_, by simpa using h1.ids, ?_, ?_, ?_, ?_, ?_, ?_,
    a1.two hk, h1.size, a1.minMax hk, by omega, by omega, ?_, ?_, ⟨x, hx⟩⟩
  · rw [a1.total, t, e7]
  · rw [a1.ids, t, e7]
  · intro y hy
    rcases List.mem_append.1 hy with hy | hy
    · exact h1.good y hy
    · have := a1.good y hy
      rwa [e1, e2, e3] at this
  · rw [a1.evals, h1.evals, List.map_append, List.append_assoc]
  · rw [a1.hist, h1.hist, List.append_assoc]
  · have := a1.pop
    rwa [h1.pop, ← List.map_append] at this
  · have := a1.size
    rwa [e7, e8, hpl] at this
  · intro j h h'
    have := a4 j h h'
    rwa [t, e7, e5] at this
  · rwa [t, e7, e5, e9] at a5

theorem optimize_run {E : EAEnv K} (hE : DblDraws E) {o o' : EA K}
    (hB : IsDblBox o.dim o.lb o.ub) (h : optimize E o = .ok o') :
    ∃ k xs ys, Run E.f o o' k xs ys :=
  (optimize_rel hE (g := E.f) (fun _ _ => rfl) hB).2 o' h

end Rodeo.DblEA
