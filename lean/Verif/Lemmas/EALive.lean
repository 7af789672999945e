import Verif.Lemmas.EASelect
import Verif.Spec.EALive

/-! # A search on negative objective values completes -/

set_option linter.unusedSectionVars false

namespace Rodeo
open Spec

variable {K : Type} [Field K] [LinearOrder K] [IsStrictOrderedRing K]

/-- `r` succeeds with a result in `P`; without `Q` it may also run out of rounds. -/
def Runs (Q : Prop) {α : Type} (r : Res α) (P : α → Prop) : Prop :=
  (¬ Q ∧ r = .error .outOfFuel) ∨ ∃ a, r = .ok a ∧ P a

theorem Runs.ok {Q : Prop} {α : Type} {a : α} {P : α → Prop} (h : P a) : Runs Q (.ok a) P :=
  Or.inr ⟨a, rfl, h⟩

theorem Runs.of_eq {Q : Prop} {α : Type} {r : Res α} {a : α} {P : α → Prop} (e : r = .ok a) (h : P a) :
    Runs Q r P := Or.inr ⟨a, e, h⟩

theorem Runs.bind {Q : Prop} {α β : Type} {r : Res α} {f : α → Res β} {P : α → Prop} {P' : β → Prop}
    (h : Runs Q r P) (hf : ∀ a, r = .ok a → P a → Runs Q (f a) P') : Runs Q (r >>= f) P' := by
  rcases h with ⟨hq, rfl⟩ | ⟨a, rfl, ha⟩
  · exact Or.inl ⟨hq, rfl⟩
  · exact hf a rfl ha

theorem Runs.mono {Q : Prop} {α : Type} {r : Res α} {P P' : α → Prop} (h : Runs Q r P)
    (hP : ∀ a, r = .ok a → P a → P' a) : Runs Q r P' := by
  rcases h with h | ⟨a, e, ha⟩
  · exact Or.inl h
  · exact Or.inr ⟨a, e, hP a e ha⟩

theorem dblMin_pos : (0 : K) < dblMin := by unfold dblMin; positivity

theorem dblMin_small : (dblMin : K) ≤ 1 / 10 ^ 4 := by
  unfold dblMin
  apply one_div_le_one_div_of_le (by positivity)
  have h1 : (10 : K) ^ 4 ≤ 2 ^ 14 := by norm_num
  exact h1.trans (pow_le_pow_right₀ (by norm_num) (by norm_num))

namespace Pop

/-- A population of individuals with values of at most `-1e-4` whose extremes are known. -/
structure Alive (p : Pop K) : Prop where
  pmax : p.pmax = dblMin
  minLe : ∀ x ∈ p.inds, p.pmin ≤ x.obj
  neg : p.pmin ≤ -(1 / 10 ^ 4)
  objs : ∀ x ∈ p.inds, x.obj ≤ -(1 / 10 ^ 4)

theorem Alive.coefficients {p : Pop K} (h : Alive p) : ∃ c, p.coefficients = .ok c := by
  have e0 := dblMin_pos (K := K)
  have e1 := dblMin_small (K := K)
  have hM := h.pmax
  have hn := h.neg
  have hD : (1 : K) / 10 ^ 4 ≤ p.pmax - p.pmin := by rw [hM]; linarith
  have hM1 : p.pmax ≤ p.pmax - p.pmin := by
    have : (0 : K) < 1 / 10 ^ 4 := by positivity
    linarith
  have hM0 : 0 < p.pmax := by rw [hM]; exact e0
  have hMs : p.pmax ≤ 1 / 10 ^ 4 := by rw [hM]; exact e1
  have hne : p.pmin ≠ p.pmax := by
    intro he
    rw [he, sub_self] at hD
    have : (0 : K) < 1 / 10 ^ 4 := by positivity
    linarith
  set D := p.pmax - p.pmin with hDdef
  set M := p.pmax with hMdef
  have hD0 : 0 < D := lt_of_lt_of_le (by positivity) hD
  have hinv : 1 / D ≤ 10 ^ 4 := by
    rw [div_le_iff₀ hD0]
    have : (1 : K) = 10 ^ 4 * (1 / 10 ^ 4) := by norm_num
    nlinarith [hD]
  have hinv0 : 0 < 1 / D := by positivity
  have hinv2 : 1 / D ^ 2 ≤ 10 ^ 8 := by
    have : 1 / D ^ 2 = (1 / D) * (1 / D) := by field_simp
    rw [this]
    nlinarith
  have hMD : M / D ≤ 1 := (div_le_one hD0).2 hM1
  have hMD0 : 0 ≤ M / D := by positivity
  refine coefficients_ok hne ?_ ?_ ?_
  · rw [abs_of_pos hD0]
    have : (2 : K) / D ^ 2 = 2 * (1 / D ^ 2) := by ring
    rw [this]
    have : (2 : K) * 10 ^ 8 + 10 ^ 4 ≤ 10 ^ 9 := by norm_num
    linarith
  · rw [abs_of_pos hM0]
    have a1 : 4 * M / D ^ 2 = 4 * ((M / D) * (1 / D)) := by field_simp
    have a2 : (M / D) * (1 / D) ≤ 1 * 10 ^ 4 := mul_le_mul hMD hinv hinv0.le (by norm_num)
    have a3 : |1 - 2 * M / D| ≤ 1 := by
      have : 2 * M / D = 2 * (M / D) := by ring
      rw [this, abs_le]
      constructor <;> linarith
    rw [a1]
    have : (4 : K) * (1 * 10 ^ 4) + 1 ≤ 10 ^ 9 := by norm_num
    linarith
  · have a1 : M ^ 2 / D ^ 2 = (M / D) ^ 2 := by rw [div_pow]
    have a2 : (M / D) ^ 2 ≤ 1 := by nlinarith
    have a3 : |1 - (M / D) ^ 2| ≤ 1 := by
      rw [abs_le]; constructor <;> nlinarith
    have a4 : |M ^ 2 / D - M| ≤ 1 := by
      have : M ^ 2 / D - M = M * (M / D - 1) := by ring
      rw [this, abs_le]
      have hM2 : M ≤ 1 := hMs.trans (by norm_num)
      constructor <;> nlinarith
    rw [a1]
    have : (1 : K) + 1 + 1 ≤ 10 ^ 9 := by norm_num
    linarith

theorem Alive.update [FloorRing K] {p : Pop K} (h : Alive p) (h2 : 2 ≤ p.inds.length) :
    ∃ p', p.updateProperties = .ok p' ∧ Same p p' ∧ Alive p' := by
  rcases updateProperties_spec p h2 with ⟨e, he, -⟩ | ⟨-, q, S, D, -, -, -, -, -, hok⟩
  · exfalso
    rcases updateFitness_spec p with ⟨hz, -⟩ | ⟨e', hc, -⟩ | ⟨-, -, -, hu⟩
    · obtain ⟨x, hx⟩ := List.exists_mem_of_length_pos (l := p.inds) (by omega)
      have := List.all_eq_true.1 hz x hx
      simp only [decide_eq_true_eq] at this
      have h1 := h.objs x hx
      have h3 : -x.obj ≤ |x.obj| := neg_le_abs _
      have : (1 : K) / 10 ^ 14 < 1 / 10 ^ 4 := by norm_num
      linarith
    · obtain ⟨c, hc'⟩ := h.coefficients
      rw [hc] at hc'; cases hc'
    · rw [he] at hu; cases hu
  · obtain ⟨-, hs⟩ := updateProperties_post p _ hok
    refine ⟨_, hok, hs, h.pmax, ?_, h.neg, ?_⟩
    · intro x hx
      obtain ⟨y, hy, rfl⟩ := List.mem_map.1 hx
      exact h.minLe y hy
    · intro x hx
      obtain ⟨y, hy, rfl⟩ := List.mem_map.1 hx
      exact h.objs y hy

theorem MinMax.pmaxNeg {m0 : K} {q : Pop K} {l : List (Indiv K)} (h : MinMax m0 dblMin q l)
    (hl : ∀ x ∈ l, x.obj ≤ -(1 / 10 ^ 4)) : q.pmax = dblMin := by
  rcases h.maxEq with e | ⟨x, hx, e⟩
  · exact e
  · have h1 := hl x hx
    have h2 := h.maxGe.1
    have h3 := dblMin_pos (K := K)
    have : (0 : K) < 1 / 10 ^ 4 := by positivity
    rw [← e] at h2
    linarith

theorem Alive.minMax {p : Pop K} (hobj : ∀ x ∈ p.inds, x.obj ≤ -(1 / 10 ^ 4)) (h0 : p.inds ≠ []) :
    Alive p.updateMinMax := by
  obtain ⟨hm, hi, -⟩ := updateMinMax_spec p
  refine ⟨hm.pmaxNeg hobj, by rw [hi]; exact hm.minLe.2, ?_, by rw [hi]; exact hobj⟩
  obtain ⟨x, hx⟩ := List.exists_mem_of_ne_nil _ h0
  exact (hm.minLe.2 x hx).trans (hobj x hx)

theorem Alive.removeById {p q : Pop K} (h : Alive p) {id : Nat} (hq : p.removeById id = .ok q)
    (h0 : q.inds ≠ []) : Alive q ∧ q.dim = p.dim := by
  obtain ⟨k, x, -, -, -, hi, hd⟩ := removeById_post _ _ _ hq
  refine ⟨?_, hd⟩
  have hsub : ∀ x ∈ q.inds, x ∈ p.inds := by
    intro x hx
    rw [hi] at hx
    exact (List.eraseIdx_sublist _ _).subset hx
  unfold Pop.removeById at hq
  cases hk : orderById id p.inds with
  | none => rw [hk] at hq; cases hq
  | some k' =>
    rw [hk] at hq
    unfold Pop.removeIndividual at hq
    dsimp only at hq
    cases hx' : p.inds[k']? with
    | none => rw [hx'] at hq; cases hq
    | some y =>
      rw [hx'] at hq
      simp only [Except.ok.injEq] at hq
      split_ifs at hq
      · subst hq
        have hi' := (updateMinMax_spec ({ p with inds := p.inds.eraseIdx k' } : Pop K)).2.1
        rw [hi'] at h0 hsub
        exact Alive.minMax (fun x hx => h.objs x (hsub x hx)) h0
      · subst hq
        exact ⟨h.pmax, fun x hx => h.minLe x (hsub x hx), h.neg, fun x hx => h.objs x (hsub x hx)⟩

/-- Adding individuals with small values. -/
theorem Alive.addGroup {p q : Pop K} (hp : p.pmax = dblMin) (hmin : ∀ x ∈ p.inds, p.pmin ≤ x.obj)
    (hobj : ∀ x ∈ p.inds, x.obj ≤ -(1 / 10 ^ 4)) {xs : List (Indiv K)} (h0 : xs ≠ [])
    (hxs : ∀ x ∈ xs, x.obj ≤ -(1 / 10 ^ 4)) (hq : p.addGroup xs = .ok q) : Alive q := by
  obtain ⟨hi, hd, hm⟩ := addGroup_spec q hq
  rw [hp] at hm
  refine ⟨hm.pmaxNeg hxs, ?_, ?_, ?_⟩
  · intro x hx
    rw [hi] at hx
    rcases List.mem_append.1 hx with hx | hx
    · exact hm.minLe.1.trans (hmin x hx)
    · exact hm.minLe.2 x hx
  · obtain ⟨x, hx⟩ := List.exists_mem_of_ne_nil _ h0
    exact (hm.minLe.2 x hx).trans (hxs x hx)
  · intro x hx
    rw [hi] at hx
    rcases List.mem_append.1 hx with hx | hx
    · exact hobj x hx
    · exact hxs x hx

/-! ## Selection of parents -/

/-- The part of the roulette wheel that belongs to an individual. -/
theorem roulette_sector {prob : Indiv K → K} {l : List (Indiv K)} (hn : ∀ x ∈ l, 0 ≤ prob x)
    {x : Indiv K} (hx : x ∈ l) (acc : K) :
    ∃ a, acc ≤ a ∧ a + prob x ≤ acc + (l.map prob).sum ∧
      ∀ u, a ≤ u → u < a + prob x → roulette prob u acc l = .ok x := by
  induction l generalizing acc with
  | nil => simp at hx
  | cons y l ih =>
    have hs : 0 ≤ (l.map prob).sum := by
      apply List.sum_nonneg
      intro a ha
      obtain ⟨z, hz, rfl⟩ := List.mem_map.1 ha
      exact hn z (by simp [hz])
    by_cases hxy : x = y
    · subst hxy
      refine ⟨acc, le_rfl, by simp only [List.map_cons, List.sum_cons]; linarith, ?_⟩
      intro u _ h2
      simp only [roulette]
      rw [if_pos h2]
    · have hx' : x ∈ l := by
        rcases List.mem_cons.1 hx with h | h
        · exact absurd h hxy
        · exact h
      obtain ⟨a, h1, h2, h3⟩ := ih (fun z hz => hn z (by simp [hz])) hx' (acc + prob y)
      have hy := hn y (by simp)
      refine ⟨a, by linarith, by simp only [List.map_cons, List.sum_cons]; linarith, ?_⟩
      intro u hu1 hu2
      simp only [roulette]
      rw [if_neg (by push Not; linarith)]
      exact h3 u hu1 hu2

/-- The smallest selection probability in a population with known extremes. -/
theorem rep_ge [FloorRing K] {p0 p : Pop K} (h : p0.updateProperties = .ok p)
    (hM : ∀ x ∈ p0.inds, p0.pmin ≤ x.obj ∧ x.obj ≤ p0.pmax) :
    ∀ x ∈ p.inds, 1 / (100 * (p.inds.length : K)) ≤ x.rep := by
  obtain ⟨h2, hs⟩ := Pop.updateProperties_post p0 p h
  rcases Pop.updateProperties_spec p0 h2 with ⟨e, -, he⟩ | ⟨hne, q, S, D, -, hS, -, -, hb, hok⟩
  · rw [h] at he; cases he
  · rw [h] at hok
    have hp := Except.ok.inj hok
    have hl := hs.length
    have hq : ∀ x ∈ p0.inds, 1 / 100 ≤ quad p0.pmin p0.pmax x.obj ∧ quad p0.pmin p0.pmax x.obj ≤ 1 := by
      intro x hx
      obtain ⟨a, b⟩ := hM x hx
      have hlt : p0.pmin < p0.pmax := lt_of_le_of_ne (a.trans b) hne
      have hD : 0 < p0.pmax - p0.pmin := sub_pos.2 hlt
      have c0 : 0 ≤ (p0.pmax - x.obj) / (p0.pmax - p0.pmin) := div_nonneg (by linarith) hD.le
      have c1 : (p0.pmax - x.obj) / (p0.pmax - p0.pmin) ≤ 1 := (div_le_one hD).2 (by linarith)
      unfold quad
      constructor <;> nlinarith
    have hSle : S ≤ p0.inds.length := by
      rw [hS]
      have := List.sum_le_card_nsmul (p0.inds.map (fun x => quad p0.pmin p0.pmax x.obj)) 1 (by
        intro a ha
        obtain ⟨x, hx, rfl⟩ := List.mem_map.1 ha
        exact (hq x hx).2)
      simpa using this
    intro x hx
    rw [hp] at hx
    obtain ⟨y, hy, rfl⟩ := List.mem_map.1 hx
    show _ ≤ quad p0.pmin p0.pmax y.obj / S
    have hb1 := (hb y hy).1
    have hq1 := (hq y hy).1
    have hSpos : 0 < S := by
      by_contra hc
      have := div_nonpos_of_nonneg_of_nonpos (a := quad p0.pmin p0.pmax y.obj) (b := S) (by
        have : (0 : K) ≤ 1 / 100 := by norm_num
        linarith) (not_lt.1 hc)
      linarith
    rw [hl, ← div_div]
    exact div_le_div₀ (by
      have : (0 : K) ≤ 1 / 100 := by norm_num
      linarith) hq1 hSpos hSle

end Pop

namespace EA

theorem pickFather_runs [FloorRing K] {p : Pop K} (h : Updated p) {u : Nat → K}
    (hu : ∀ i, 0 ≤ u i ∧ u i < 1) {m f : Indiv K} (hmf : m.id ≠ f.id) (Q : Prop) :
    ∀ (fuel i : Nat), (Q → ∃ j, j < fuel ∧ p.pickRep (u (i + j)) = .ok f) →
      Runs Q (p.pickFather u m fuel i) (fun _ => True) := by
  intro fuel
  induction fuel with
  | zero =>
    intro i hq
    refine Or.inl ⟨fun q => ?_, rfl⟩
    obtain ⟨j, hj, -⟩ := hq q
    omega
  | succ n ih =>
    intro i hq
    unfold Pop.pickFather
    obtain ⟨x, hx, -⟩ := h.pickRep (hu i).1 (hu i).2
    by_cases hmx : m.id = x.id
    · have := ih (i + 1) (by
        intro q
        obtain ⟨j, hj, e⟩ := hq q
        cases j with
        | zero =>
          rw [Nat.add_zero, hx] at e
          cases e
          exact absurd hmx hmf
        | succ j => exact ⟨j, by omega, by rw [show i + 1 + j = i + (j + 1) by omega]; exact e⟩)
      refine Runs.bind (P := fun y => y = x) (Runs.of_eq hx rfl) ?_
      rintro _ - rfl
      rw [if_pos hmx]; exact this
    · exact Runs.of_eq (bind_eq hx (if_neg hmx)) trivial

/-- A population from which parents can be selected. -/
structure Selectable [FloorRing K] (p : Pop K) (eps : K) : Prop where
  updated : ∃ p1, Updated p1 ∧ p.inds = p1.inds
  share : ∀ x ∈ p.inds, eps ≤ x.rep
  two : 2 ≤ p.inds.length
  distinct : ∀ x ∈ p.inds, ∃ y ∈ p.inds, x.id ≠ y.id

theorem popParents_runs [FloorRing K] {E : EAEnv K} (hE : Draws E) {p : Pop K} {eps : K}
    (h : Selectable p eps) (i : Nat) :
    Runs (FairDraws E eps) (p.generateRandomParents E.pick E.fuel i) (fun _ => True) := by
  obtain ⟨p1, hp1, hi⟩ := h.updated
  rw [Pop.parents_congr hi]
  unfold Pop.generateRandomParents
  rw [if_neg (by have := h.two; rw [hi] at this; omega)]
  obtain ⟨m, hm, hmm⟩ := hp1.pickRep (hE.1 i).1 (hE.1 i).2
  obtain ⟨f, hf, hmf⟩ := h.distinct m (by rw [hi]; exact hmm)
  rw [hi] at hf
  refine Runs.bind (P := fun y => y = m) (Runs.of_eq hm rfl) ?_
  rintro _ - rfl
  refine Runs.bind (pickFather_runs hp1 hE.1 hmf (FairDraws E eps) E.fuel (i + 1) ?_) ?_
  · intro hfair
    obtain ⟨hsum, hb⟩ := hp1.rep
    obtain ⟨a, a1, a2, a3⟩ := Pop.roulette_sector (prob := fun x : Indiv K => x.rep)
      (fun y hy => (hb y hy).1.le) hf 0
    rw [hsum, zero_add] at a2
    have hs := h.share f (by rw [hi]; exact hf)
    obtain ⟨j, j1, j2, j3⟩ := hfair (i + 1) a a1 (by linarith)
    exact ⟨j, j1, a3 _ j2 (by linarith)⟩
  · rintro ⟨f, j⟩ - -
    exact Runs.ok trivial

theorem generateGroup_runs [FloorRing K] {E : EAEnv K} (hE : Draws E) {eps : K} :
    ∀ (k : Nat) (o : EA K) (xs : List (Indiv K)), IsBox o.dim o.lb o.ub → o.boundsSet = true →
      (0 < o.mutProb ∧ o.mutProb < 1) → o.initialized = true →
      (∀ x ∈ o.population.inds, x.genes.length = o.dim) → Selectable o.population eps →
      Runs (FairDraws E eps) (generateGroup E k o xs) (fun _ => True) := by
  intro k
  induction k with
  | zero => intro o xs _ _ _ _ _ _; exact Runs.ok trivial
  | succ k ih =>
    intro o xs hB hbs hmp hin hlen hsel
    unfold generateGroup
    have hpar : Runs (FairDraws E eps) (generateRandomParents E o) (fun _ => True) := by
      unfold generateRandomParents
      rw [if_neg (by simp [hin])]
      exact (popParents_runs hE hsel o.nPick).bind fun _ _ _ => Runs.ok trivial
    refine hpar.bind ?_
    rintro ⟨o1, par⟩ e -
    obtain ⟨⟨a, b, c, d, h1⟩, h2, h3, h4⟩ := generateRandomParents_post hE _ e
    dsimp only at h1 h2 h3 h4 ⊢
    subst h1
    obtain ⟨⟨o2, g⟩, hr⟩ := crossOver_ok (o := { o with nPick := a, nVec := b, nMut := c, nNrm := d })
      hE hB hbs hmp (hlen _ h2) (hlen _ h3) h4
    obtain ⟨⟨a', b', c', d', h5⟩, -⟩ := crossOver_post
      (o := { o with nPick := a, nVec := b, nMut := c, nNrm := d }) hE hB (par := par) (hlen _ h2) _ hr
    dsimp only at h5
    have hrep : ∃ ch, generateIndividualByReproduction E
        { o with nPick := a, nVec := b, nMut := c, nNrm := d } par =
        .ok ({ o2 with total := o2.total + 1 }, ch) := by
      unfold generateIndividualByReproduction
      rw [if_neg (by simp [hbs])]
      exact ⟨_, bind_eq hr rfl⟩
    obtain ⟨ch, hrep⟩ := hrep
    refine Runs.bind (P := fun y => y = ({ o2 with total := o2.total + 1 }, ch)) (Runs.of_eq hrep rfl) ?_
    rintro _ - rfl
    subst h5
    exact ih _ _ hB hbs hmp hin hlen hsel

theorem callObjectiveGroup_ok {E : EAEnv K} : ∀ (xs : List (Indiv K)) (o : EA K), 0 < o.dim →
    (∀ x ∈ xs, x.genes.length = o.dim ∧ ∃ J, E.f x.genes = .ok J) →
    ∃ r, callObjectiveGroup E o xs = .ok r := by
  intro xs
  induction xs with
  | nil => intro o _ _; exact ⟨_, rfl⟩
  | cons x xs ih =>
    intro o hd h
    obtain ⟨hx, J, hJ⟩ := h x (by simp)
    have e : callObjective E o x
        = .ok ({ o with evaluated := o.evaluated ++ [x.genes] }, { x with obj := J }) := by
      unfold callObjective
      rw [if_neg (by omega), if_neg (by simp [hx])]
      exact bind_eq hJ rfl
    obtain ⟨⟨o2, ys⟩, hr⟩ := ih { o with evaluated := o.evaluated ++ [x.genes] } hd
      (fun y hy => h y (by simp [hy]))
    exact ⟨_, bind_eq e (bind_eq hr rfl)⟩

/-- All populations of an optimizer have its dimension. -/
structure Dims (o : EA K) : Prop where
  pop : o.population.dim = o.dim
  gen : o.generated.dim = o.dim
  rem : o.removed.dim = o.dim
  hist : o.history.dim = o.dim

/-- The objective has a value of at most `-1e-4` everywhere in the box. -/
def Negative (f : List K → Res K) (lb ub : List K) : Prop :=
  ∀ x, InBox lb ub x → ∃ J, f x = .ok J ∧ J ≤ -(1 / 10 ^ 4)

theorem Negative.obj {f : List K → Res K} {lb ub : List K} (h : Negative f lb ub) {d : Nat}
    {x : Indiv K} (hx : Good f d lb ub x) : x.obj ≤ -(1 / 10 ^ 4) := by
  obtain ⟨J, e, hJ⟩ := h _ hx.1
  rw [hx.2.2] at e
  cases e
  exact hJ

theorem addNewIndividuals_runs [FloorRing K] {E : EAEnv K} (hE : Draws E) {eps : K} {o : EA K}
    (hB : IsBox o.dim o.lb o.ub) (hbs : o.boundsSet = true) (hmp : 0 < o.mutProb ∧ o.mutProb < 1)
    (hin : o.initialized = true) (hlen : ∀ x ∈ o.population.inds, x.genes.length = o.dim)
    (hsel : Selectable o.population eps) (hd : 0 < o.dim) (hb : 0 < o.births)
    (hf : Negative E.f o.lb o.ub) (hD : Dims o) (hA : o.population.Alive) :
    Runs (FairDraws E eps) (addNewIndividuals E o) (fun o' => Dims o' ∧ o'.population.Alive) := by
  unfold addNewIndividuals
  rw [if_neg (by omega)]
  refine Runs.bind (generateGroup_runs hE _ o [] hB hbs hmp hin hlen hsel) ?_
  rintro ⟨o1, xs⟩ e -
  obtain ⟨⟨a, b, c, d, h1⟩, ys, h2, h3, h4⟩ := generateGroup_post hE _ o [] hB hlen _ e
  dsimp only at h1 h2 h3 h4 ⊢
  rw [List.nil_append] at h2
  subst h1 h2
  obtain ⟨⟨o2, ys⟩, hr⟩ := callObjectiveGroup_ok (E := E) xs
    { o with nPick := a, nVec := b, nMut := c, nNrm := d, total := o.total + o.births } hd (by
      intro x hx
      obtain ⟨J, hJ, -⟩ := hf _ (h4 x hx).1
      exact ⟨((h4 x hx).1.1).trans hB.1, J, hJ⟩)
  obtain ⟨h5, h6⟩ := (callObjectiveGroup_rel (g := E.f) xs
    { o with nPick := a, nVec := b, nMut := c, nNrm := d, total := o.total + o.births }
    (fun _ _ => rfl) (fun x hx => (h4 x hx).1)).2 _ hr
  dsimp only at h5 h6
  refine Runs.bind (P := fun y => y = (o2, ys)) (Runs.of_eq hr rfl) ?_
  rintro _ - rfl
  dsimp only
  subst h5
  have hys : ∀ y ∈ ys, y.dim = o.dim ∧ y.obj ≤ -(1 / 10 ^ 4) := by
    clear hr e h3
    induction h6 with
    | nil => simp
    | cons hxy _ ih =>
      obtain ⟨J, hJ, rfl⟩ := hxy
      have h7 := h4 _ (List.mem_cons_self)
      intro z hz
      rcases List.mem_cons.1 hz with rfl | hz
      · refine ⟨h7.2, ?_⟩
        obtain ⟨J', hJ', hle⟩ := hf _ h7.1
        rw [hJ] at hJ'
        cases hJ'
        exact hle
      · exact ih (fun x hx => h4 x (by simp [hx])) z hz
  have hyne : ys ≠ [] := by
    have hl := congrArg List.length h3
    have hl2 := h6.length_eq
    simp only [List.length_map, List.length_range'] at hl
    intro h0
    rw [h0] at hl2
    simp only [List.length_nil] at hl2
    omega
  obtain ⟨p, hp⟩ := Pop.addGroup_ok (p := o.population) (xs := ys) (fun y hy => by
    rw [(hys y hy).1, hD.pop])
  obtain ⟨q, hq⟩ := Pop.addGroup_ok (p := o.generated) (xs := ys) (fun y hy => by
    rw [(hys y hy).1, hD.gen])
  obtain ⟨r, hr'⟩ := Pop.addGroup_ok (p := o.history) (xs := ys) (fun y hy => by
    rw [(hys y hy).1, hD.hist])
  refine Runs.of_eq (bind_eq hp (bind_eq hq (bind_eq hr' rfl))) ⟨⟨?_, ?_, hD.rem, ?_⟩, ?_⟩
  · exact (Pop.addGroup_spec p hp).2.1.trans hD.pop
  · exact (Pop.addGroup_spec q hq).2.1.trans hD.gen
  · exact (Pop.addGroup_spec r hr').2.1.trans hD.hist
  · exact Pop.Alive.addGroup hA.pmax hA.minLe hA.objs hyne (fun y hy => (hys y hy).2) hp

theorem removeIndividuals_ok [FloorRing K] {E : EAEnv K} (hE : Draws E) :
    ∀ (n : Nat) (a : EA K), Updated a.population → Dims a → a.population.Alive →
      (∀ x ∈ a.population.inds, x.dim = a.dim) → n + 2 ≤ a.population.inds.length →
      ∃ b, removeIndividuals E n a = .ok b ∧ Dims b ∧ b.population.Alive := by
  intro n
  induction n with
  | zero => intro a _ hD hA _ _; exact ⟨a, rfl, hD, hA⟩
  | succ n ih =>
    intro a hu hD hA hdim hlen
    obtain ⟨x, hx, hxm, -⟩ := hu.pickDeath (hE.1 a.nPick).1 (hE.1 a.nPick).2
    obtain ⟨q, hq, hql⟩ := removeById_ok hxm
    have hadd : a.removed.addIndividual x
        = .ok ({ a.removed with inds := a.removed.inds ++ [x] }.updateMinMaxIf x.obj x.id) := by
      unfold Pop.addIndividual
      rw [if_neg (by rw [hdim x hxm, hD.rem]; simp)]
    obtain ⟨hqA, hqd⟩ := hA.removeById hq (by
      intro h0
      rw [h0] at hql
      simp only [List.length_nil] at hql
      omega)
    obtain ⟨p', hp', hs, hA'⟩ := hqA.update (by omega)
    have hone : removeOne E a = .ok { a with
        population := p'
        removed := { a.removed with inds := a.removed.inds ++ [x] }.updateMinMaxIf x.obj x.id
        nPick := a.nPick + 1 } :=
      bind_eq hx (bind_eq hadd (bind_eq hq (bind_eq hp' rfl)))
    have hDe := removeOne_post _ _ _ hone
    obtain ⟨b, hb, hDb, hAb⟩ := ih { a with
        population := p'
        removed := { a.removed with inds := a.removed.inds ++ [x] }.updateMinMaxIf x.obj x.id
        nPick := a.nPick + 1 } ⟨q, hp'⟩
      ⟨(hs.2.2.2.2.2.trans hqd).trans hD.pop, hD.gen, ((Pop.updateMinMaxIf_inds ({ a.removed with inds := a.removed.inds ++ [x] } : Pop K) x.obj x.id).2).trans hD.rem,
        hD.hist⟩ hA' (by
          intro y hy
          obtain ⟨z, hz, e⟩ := List.mem_map.1 (hDe.pop.subset (List.mem_map_of_mem hy))
          rw [← (Indiv.core_eq e).2.2.1]
          exact hdim z hz) (by have := hDe.size; omega)
    exact ⟨b, bind_eq hone hb, hDb, hAb⟩

/-- What holds between two generations. -/
structure Between [FloorRing K] (E : EAEnv K) (o : EA K) (k : Nat) (a : EA K) : Prop where
  point : GenPoint E o k a
  dims : Dims a
  alive : a.population.Alive
  share : ∃ p0 p1 : Pop K, p0.updateProperties = .ok p1 ∧ a.population.inds = p1.inds ∧
    ∀ x ∈ p0.inds, p0.pmin ≤ x.obj ∧ x.obj ≤ p0.pmax

theorem Pop.Alive.bounds {p : Pop K} (h : p.Alive) : ∀ x ∈ p.inds, p.pmin ≤ x.obj ∧ x.obj ≤ p.pmax := by
  intro x hx
  refine ⟨h.minLe x hx, ?_⟩
  have h1 := h.objs x hx
  have h2 := dblMin_pos (K := K)
  rw [h.pmax]
  have : (0 : K) < 1 / 10 ^ 4 := by positivity
  linarith

theorem PInv.distinct {f : List K → Res K} {o a : EA K} (h : PInv f o a)
    (h3 : 3 ≤ a.population.inds.length) :
    ∀ x ∈ a.population.inds, ∃ y ∈ a.population.inds, x.id ≠ y.id := by
  intro x hx
  by_contra hno
  push Not at hno
  have : (a.population.inds.map (·.id)).count x.id = a.population.inds.length := by
    rw [← List.length_map (f := fun y : Indiv K => y.id), List.count_eq_length]
    intro i hi
    obtain ⟨y, hy, rfl⟩ := List.mem_map.1 hi
    exact hno y hy
  have hc := h.count x.id
  rw [this] at hc
  split_ifs at hc <;> omega

theorem newGeneration_runs [FloorRing K] {E : EAEnv K} (hE : Draws E) {o a : EA K} (hR : ReadyToSearch o)
    (hf : Negative E.f o.lb o.ub) {k : Nat} (hk : k < o.gens) (h : Between E o k a) :
    Runs (FairDraws E (smallestShare o)) (newGeneration E a) (fun b => Between E o (k + 1) b) := by
  have hP := point_inv hE hR.box (genPoint_point h.point)
  obtain ⟨hsize, h2⟩ := genPoint_size hE hR.box h.point
  obtain ⟨c1, c2, c3, c4, c5, c6, c7, c8, c9, c10⟩ := cfg_eq hP.cfg
  obtain ⟨hB, hlen⟩ := hP.lengths hR.box
  have hleft := hR.threeLeft
  have h3i := hR.three
  have hthree : k * o.deaths + 3 ≤ o.sizeInit + k * o.births := by
    by_cases hdb : o.deaths ≤ o.births
    · have := Nat.mul_le_mul_left k hdb
      omega
    · push Not at hdb
      have e : o.gens = k + (o.gens - k) := by omega
      have := Nat.mul_le_mul_left (o.gens - k) hdb.le
      rw [e, Nat.add_mul, Nat.add_mul] at hleft
      omega
  have hthree' : (k + 1) * o.deaths + 3 ≤ o.sizeInit + (k + 1) * o.births := by
    by_cases hdb : o.deaths ≤ o.births
    · have := Nat.mul_le_mul_left (k + 1) hdb
      omega
    · push Not at hdb
      have e : o.gens = (k + 1) + (o.gens - (k + 1)) := by omega
      have := Nat.mul_le_mul_left (o.gens - (k + 1)) hdb.le
      rw [e, Nat.add_mul, Nat.add_mul (k + 1)] at hleft
      omega
  have hn3 : 3 ≤ a.population.inds.length := by omega
  have hnle : a.population.inds.length ≤ o.sizeInit + o.gens * o.births := by
    have := Nat.mul_le_mul_right o.births hk.le
    omega
  have hsel : Selectable a.population (smallestShare o) := by
    obtain ⟨p0, p1, hp, hi, hm⟩ := h.share
    refine ⟨⟨p1, ⟨p0, hp⟩, hi⟩, ?_, h2, hP.distinct hn3⟩
    intro x hx
    rw [hi] at hx hnle h2
    refine le_trans ?_ (Pop.rep_ge hp hm x hx)
    unfold smallestShare
    have h1 : (0 : K) < (p1.inds.length : K) := by
      have : 0 < p1.inds.length := by omega
      exact_mod_cast this
    apply one_div_le_one_div_of_le (by positivity)
    have : (p1.inds.length : K) ≤ ((o.sizeInit + o.gens * o.births : Nat) : K) := by exact_mod_cast hnle
    linarith
  have hnew : Runs (FairDraws E (smallestShare o)) (newGeneration E a)
      (fun b => Dims b ∧ b.population.Alive ∧ ∃ p0 p1 : Pop K, p0.updateProperties = .ok p1 ∧
        b.population.inds = p1.inds ∧ ∀ x ∈ p0.inds, p0.pmin ≤ x.obj ∧ x.obj ≤ p0.pmax) := by
    unfold newGeneration
    refine Runs.bind (addNewIndividuals_runs hE hB (c4.trans hR.boundsSet)
      (by rw [c10]; exact hR.mutProb) hP.init hlen hsel (by rw [c1]; exact hR.dimPos)
      (by rw [c7]; exact hR.births) (by rw [c2, c3]; exact hf) h.dims h.alive) ?_
    rintro o1 e1 ⟨hD1, hA1⟩
    obtain ⟨ys, hb⟩ := hP.of_births hE hR.box e1
    have hP1 := hP.births hb
    have hl1 : o1.population.inds.length = a.population.inds.length + a.births := by
      have := congrArg List.length hb.ids
      rw [List.length_map, List.length_range'] at this
      rw [hb.pop, List.length_append, this]
    obtain ⟨p1, e2, hs1, hA2⟩ := hA1.update (by omega)
    refine Runs.bind (P := fun y => p1 = y) (Runs.of_eq e2 rfl) ?_
    rintro _ - rfl
    dsimp only
    have hl2 := hs1.length
    obtain ⟨d1, -, -, -, -, -, -, d8, -⟩ := cfg_eq hP1.cfg
    have hkk : (k + 1) * o.deaths = k * o.deaths + o.deaths := by ring
    have hkb : (k + 1) * o.births = k * o.births + o.births := by ring
    have hdim1 : ∀ x ∈ p1.inds, x.dim = o1.dim := by
      intro y hy
      have : y.core ∈ o1.population.inds.map Indiv.core := by
        rw [← hs1.1]; exact List.mem_map_of_mem hy
      obtain ⟨z, hz, e⟩ := List.mem_map.1 this
      rw [← (Indiv.core_eq e).2.2.1, d1]
      exact (hP1.good z hz).2.1
    obtain ⟨o3, e3, hD3, hA3⟩ := removeIndividuals_ok hE o1.deaths { o1 with population := p1 }
      ⟨_, e2⟩ ⟨hs1.2.2.2.2.2.trans hD1.pop, hD1.gen, hD1.rem, hD1.hist⟩ hA2 hdim1 (by
        show o1.deaths + 2 ≤ p1.inds.length
        rw [d8]; rw [c7] at hl1; omega)
    refine Runs.bind (P := fun y => o3 = y) (Runs.of_eq e3 rfl) ?_
    rintro _ - rfl
    have hDe := removeIndividuals_post E _ _ _ e3
    have hl3 : 2 ≤ o3.population.inds.length := by
      have := hDe.size
      dsimp only at this
      rw [d8] at this
      rw [c7] at hl1
      omega
    obtain ⟨p3, e4, hs3, hA4⟩ := hA3.update hl3
    refine Runs.of_eq (bind_eq e4 rfl) ⟨⟨?_, hD3.gen, hD3.rem, hD3.hist⟩, ?_, o3.population, p3, e4, ?_, ?_⟩
    · show p3.updateMinMax.dim = o3.dim
      rw [(Pop.updateMinMax_spec p3).2.2, hs3.2.2.2.2.2, hD3.pop]
    · refine Pop.Alive.minMax hA4.objs ?_
      intro h0
      have := hs3.length
      rw [h0] at this
      simp only [List.length_nil] at this
      omega
    · exact (Pop.updateMinMax_spec p3).2.1
    · exact Pop.Alive.bounds hA3
  exact hnew.mono fun b e ⟨x1, x2, x3⟩ => ⟨.next h.point e, x1, x2, x3⟩

theorem generateInitial_ok {E : EAEnv K} (hE : Draws E) :
    ∀ (k : Nat) (o : EA K) (xs : List (Indiv K)), IsBox o.dim o.lb o.ub → o.boundsSet = true →
      0 < o.dim → (∀ x, InBox o.lb o.ub x → ∃ J, E.f x = .ok J) →
      ∃ r, generateInitial E k o xs = .ok r := by
  intro k
  induction k with
  | zero => intro o xs _ _ _ _; exact ⟨_, rfl⟩
  | succ k ih =>
    intro o xs hB hbs hd hf
    unfold generateInitial
    obtain ⟨g, hg, hgb⟩ := randomGenes_ok hE hB
    have hgl : g.length = o.dim := by have := hgb.1; have := hB.1; omega
    obtain ⟨J, hJ⟩ := hf g hgb
    have e : generateRandomIndividual E o = .ok (
        { o with nVec := o.nVec + 1, total := o.total + 1, evaluated := o.evaluated ++ [g] },
        { (Indiv.new o.dim : Indiv K) with genes := g, id := o.total + 1, obj := J }) := by
      unfold generateRandomIndividual
      rw [if_neg (by simp [hbs])]
      refine bind_eq hg ?_
      refine bind_eq (a := { (Indiv.new o.dim : Indiv K) with genes := g }) ?_ ?_
      · unfold Indiv.initializeGenes
        rw [if_neg (by simp [Indiv.new, hgl])]
      · unfold callObjective
        rw [if_neg (by dsimp only; omega), if_neg (by simp [hgl])]
        exact bind_eq hJ rfl
    obtain ⟨r, hr⟩ := ih
      { o with nVec := o.nVec + 1, total := o.total + 1, evaluated := o.evaluated ++ [g] }
      (xs ++ [{ (Indiv.new o.dim : Indiv K) with genes := g, id := o.total + 1, obj := J }]) hB hbs hd hf
    exact ⟨r, bind_eq e hr⟩

theorem initializePopulation_ok [FloorRing K] {E : EAEnv K} (hE : Draws E) {o : EA K}
    (hR : ReadyToSearch o) (hf : Negative E.f o.lb o.ub) :
    ∃ a, initializePopulation E { o with total := 0 } = .ok a ∧ Between E o 0 a := by
  set o0 : EA K := { { o with total := 0 } with population := o.population.reset } with ho0
  obtain ⟨⟨o1, xs⟩, hr⟩ := generateInitial_ok (o := o0) hE o.sizeInit [] hR.box hR.boundsSet hR.dimPos
    (fun x hx => by obtain ⟨J, hJ, -⟩ := hf x hx; exact ⟨J, hJ⟩)
  obtain ⟨ys, h3, h4, h5, h6⟩ := (generateInitial_rel (g := E.f) hE o.sizeInit o0 [] (fun _ _ => rfl)).2 _ hr
  dsimp only at h3 h4 h5 h6
  rw [List.nil_append] at h3
  subst h3 h6
  have hlen : xs.length = o.sizeInit := by
    have := congrArg List.length h4
    simpa using this
  have h3i := hR.three
  have hne : xs ≠ [] := by
    intro h0
    rw [h0] at hlen
    simp only [List.length_nil] at hlen
    omega
  have hobj : ∀ x ∈ xs, x.obj ≤ -(1 / 10 ^ 4) := fun x hx => hf.obj (h5 x hx)
  have hpd : o0.population.dim = o.dim := by
    show o.population.dim = o.dim
    rw [hR.population]; rfl
  obtain ⟨p, hp⟩ := Pop.addGroup_ok (p := o0.population) (xs := xs) (fun y hy => by
    rw [(h5 y hy).2.1, hpd])
  obtain ⟨q, hq⟩ := Pop.addGroup_ok (p := o.history) (xs := xs) (fun y hy => by
    rw [(h5 y hy).2.1, hR.history])
  have hpA : p.Alive := Pop.Alive.addGroup (p := o0.population) (by
    show o.population.pmax = _
    rw [hR.population]; rfl) (by simp [ho0, Pop.reset]) (by simp [ho0, Pop.reset]) hne hobj hp
  obtain ⟨hpi, hpd', -⟩ := Pop.addGroup_spec p hp
  have hpi' : p.inds = xs := by rw [hpi]; simp [ho0, Pop.reset]
  obtain ⟨p', hp', hs, hA'⟩ := hpA.update (by rw [hpi']; omega)
  have hids : p'.inds.map (·.id) = List.range' 1 o.sizeInit := by
    have := congrArg (List.map Prod.fst) hs.1
    rw [List.map_map, List.map_map, hpi'] at this
    exact this.trans (show xs.map (·.id) = _ by simpa using h4)
  have hrep : p'.hasRepeatedIDs = false := by
    unfold Pop.hasRepeatedIDs
    rw [hids]
    simp [List.nodup_range']
  have hok : initializePopulation E { o with total := 0 } = .ok
      { { o0 with nVec := o0.nVec + o.sizeInit, total := o0.total + o.sizeInit,
                  evaluated := o0.evaluated ++ xs.map (fun x : Indiv K => x.genes) } with
        population := p', history := q, initialized := true } := by
    unfold initializePopulation
    dsimp only
    rw [if_neg (by omega), if_neg (by simp [hR.boundsSet])]
    refine bind_eq hr (bind_eq hp (bind_eq hq (bind_eq hp' ?_)))
    rw [if_neg (by simp [hrep])]
  refine ⟨_, hok, .start hok, ⟨?_, hR.generated, hR.removed, ?_⟩, hA', p, p', hp', rfl,
    Pop.Alive.bounds hpA⟩
  · exact (hs.2.2.2.2.2.trans hpd').trans hpd
  · exact (Pop.addGroup_spec q hq).2.1.trans hR.history

theorem genPoint_minMax [FloorRing K] {E : EAEnv K} (hE : Draws E) {o a : EA K}
    (hB : IsBox o.dim o.lb o.ub) {k : Nat} (h : GenPoint E o (k + 1) a) :
    Pop.MinMax dblMax dblMin a.population a.population.inds := by
  cases h with
  | next h hn =>
    have hP := point_inv hE hB (genPoint_point h)
    obtain ⟨hb, hl⟩ := hP.lengths hB
    obtain ⟨ys, h1⟩ := (newGeneration_rel hE (g := E.f) (fun _ _ => rfl) hb hl).2 _ hn
    exact h1.minMax

theorem dblMax_gt_zero : (0 : K) < dblMax := by
  unfold dblMax
  exact sub_pos.2 (pow_lt_pow_right₀ (by norm_num) (by norm_num))

theorem optimize_runs [FloorRing K] {E : EAEnv K} (hE : Draws E) {o : EA K} (hR : ReadyToSearch o)
    (hf : Negative E.f o.lb o.ub) :
    Runs (FairDraws E (smallestShare o)) (optimize E o) (fun _ => True) := by
  unfold optimize
  dsimp only
  refine Runs.bind (P := fun _ => True) (Runs.of_eq (a := ()) ?_ trivial) ?_
  · have hg := hR.gens
    have hb := hR.births
    have h3 := hR.three
    have hl := hR.threeLeft
    have hm := hR.maxEvals
    have hd := hR.dimPos
    unfold checkSettings
    dsimp only
    have : o.deaths < o.sizeInit + o.births := by
      by_cases hdb : o.deaths ≤ o.births
      · omega
      · push Not at hdb
        have e : o.gens = 1 + (o.gens - 1) := by omega
        have := Nat.mul_le_mul_left (o.gens - 1) hdb.le
        rw [e, Nat.add_mul, Nat.add_mul 1] at hl
        omega
    rw [if_neg (by simp [hR.boundsSet]), if_neg (by omega), if_neg (by omega), if_neg (by omega),
      if_neg (by omega), if_neg (by omega), if_neg (by omega)]
  rintro _ - -
  obtain ⟨a, ha, hbt⟩ := initializePopulation_ok hE hR hf
  refine Runs.bind (P := fun y => a = y) (Runs.of_eq ha rfl) ?_
  rintro _ - rfl
  have hcfg := point_inv hE hR.box (genPoint_point hbt.point)
  obtain ⟨-, -, -, -, -, -, -, -, c9, -⟩ := cfg_eq hcfg.cfg
  have hg := hR.gens
  have hloop : Runs (FairDraws E (smallestShare o)) (generationLoop E a.gens a)
      (fun b => ∃ x, b.population.best = .ok x) := by
    rw [c9]
    obtain ⟨g, hge⟩ : ∃ g, o.gens = g + 1 := ⟨o.gens - 1, by omega⟩
    rw [hge]
    unfold generationLoop
    have fin : ∀ (k : Nat) (b : EA K), Between E o (k + 1) b → ∃ x, b.population.best = .ok x := by
      intro k b hb
      have hmm := genPoint_minMax hE hR.box hb.point
      obtain ⟨-, h2⟩ := genPoint_size hE hR.box hb.point
      obtain ⟨y, hy⟩ := List.exists_mem_of_length_pos (l := b.population.inds) (by omega)
      obtain ⟨z, hz, -, hzi⟩ := hmm.minAt ⟨y, hy, by
        have h1 := hb.alive.objs y hy
        have h2 := dblMax_gt_zero (K := K)
        have : (0 : K) < 1 / 10 ^ 4 := by positivity
        linarith⟩
      obtain ⟨x, -, hx, -⟩ := Pop.getIndividual_ok (p := b.population) (id := b.population.idMin)
        ⟨z, hz, hzi⟩
      exact ⟨x, hx⟩
    have fin' : ∀ (m k : Nat) (b : EA K), (k + 1) + m = o.gens → Between E o (k + 1) b →
        Runs (FairDraws E (smallestShare o)) (generationLoop E m b)
          (fun b => ∃ x, b.population.best = .ok x) := by
      intro m
      induction m with
      | zero => intro k b _ h; exact Runs.ok (fin k b h)
      | succ m ih =>
        intro k b hk h
        unfold generationLoop
        refine Runs.bind (newGeneration_runs hE hR hf (by omega) h) ?_
        intro b' _ hb'
        split_ifs
        · exact Runs.ok (fin _ _ hb')
        · exact ih (k + 1) b' (by omega) hb'
    refine Runs.bind (newGeneration_runs hE hR hf (by omega) hbt) ?_
    intro b _ hb
    split_ifs
    · exact Runs.ok (fin _ _ hb)
    · exact fin' g 0 b (by omega) hb
  refine Runs.bind hloop ?_
  rintro b - ⟨x, hx⟩
  exact Runs.of_eq (bind_eq hx rfl) trivial

end EA
end Rodeo
