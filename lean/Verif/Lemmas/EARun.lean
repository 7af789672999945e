import Verif.Lemmas.EA

/-! # The generation loop and a whole run of the evolutionary optimizer -/

set_option linter.unusedSectionVars false

namespace Rodeo
open Spec

variable {K : Type} [Field K] [LinearOrder K] [IsStrictOrderedRing K]

namespace EA

/-- Effect of `k` generations: `ys` are all children, in order of creation. -/
structure Gens (f : List K → Res K) (o o' : EA K) (k : Nat) (ys : List (Indiv K)) : Prop where
  cfg : o'.cfg = o.cfg
  init : o'.initialized = o.initialized
  total : o'.total = o.total + k * o.births
  ids : ys.map (·.id) = List.range' o.total (k * o.births)
  good : ∀ y ∈ ys, Good f o.dim o.lb o.ub y
  evals : o'.evaluated = o.evaluated ++ ys.map (·.genes)
  hist : o'.history.inds = o.history.inds ++ ys
  pop : (o'.population.inds.map Indiv.core).Sublist
    (o.population.inds.map Indiv.core ++ ys.map Indiv.core)
  size : o'.population.inds.length + k * o.deaths = o.population.inds.length + k * o.births
  two : k ≠ 0 → 2 ≤ o'.population.inds.length
  minMax : k ≠ 0 → Pop.MinMax dblMax dblMin o'.population o'.population.inds
  same : k = 0 → o' = o

theorem Gens.zero (f : List K → Res K) (o : EA K) : Gens f o o 0 [] :=
  ⟨rfl, rfl, by simp, by simp, by simp, by simp, by simp, by simp, by simp, by simp, by simp,
    fun _ => rfl⟩

theorem Gens.cons {f : List K → Res K} {o o1 o2 : EA K} {k : Nat} {ys zs : List (Indiv K)}
    (h1 : Gen f o o1 ys) (h2 : Gens f o1 o2 k zs) : Gens f o o2 (k + 1) (ys ++ zs) := by
  obtain ⟨e1, e2, e3, -, -, -, e7, e8, -, -⟩ := cfg_eq h1.cfg
  refine ⟨h2.cfg.trans h1.cfg, h2.init.trans h1.init, ?_, ?_, ?_, ?_, ?_, ?_, ?_, ?_, ?_,
    by simp⟩
  · rw [h2.total, h1.total, e7]; ring
  · rw [List.map_append, h1.ids, h2.ids, e7, h1.total, List.range'_append_1]
    congr 1; ring
  · intro y hy
    rcases List.mem_append.1 hy with hy | hy
    · exact h1.good y hy
    · have := h2.good y hy
      rwa [e1, e2, e3] at this
  · rw [h2.evals, h1.evals, List.map_append, List.append_assoc]
  · rw [h2.hist, h1.hist, List.append_assoc]
  · rw [List.map_append, ← List.append_assoc]
    exact h2.pop.trans (h1.pop.append_right _)
  · have a := h2.size
    have b := h1.size
    rw [e7, e8] at a
    have c1 : (k + 1) * o.deaths = k * o.deaths + o.deaths := by ring
    have c2 : (k + 1) * o.births = k * o.births + o.births := by ring
    omega
  · intro _
    by_cases hk : k = 0
    · subst hk
      have := h2.size; have := h1.two; omega
    · exact h2.two hk
  · intro _
    by_cases hk : k = 0
    · rw [h2.same hk]; exact h1.minMax
    · exact h2.minMax hk

theorem pop_lengths {f : List K → Res K} {d : Nat} {lb ub : List K} {xs ys zs : List (Indiv K)}
    (hs : (zs.map Indiv.core).Sublist (xs.map Indiv.core ++ ys.map Indiv.core))
    (hx : ∀ x ∈ xs, Good f d lb ub x) (hy : ∀ y ∈ ys, Good f d lb ub y) :
    ∀ z ∈ zs, Good f d lb ub z := by
  intro z hz
  have h1 := hs.subset (List.mem_map_of_mem hz)
  have h2 : ∃ w, Good f d lb ub w ∧ w.core = z.core := by
    rcases List.mem_append.1 h1 with h | h
    · obtain ⟨w, hw, e⟩ := List.mem_map.1 h; exact ⟨w, hx w hw, e⟩
    · obtain ⟨w, hw, e⟩ := List.mem_map.1 h; exact ⟨w, hy w hw, e⟩
  obtain ⟨w, hw, e⟩ := h2
  obtain ⟨-, e2, e3, e4⟩ := Indiv.core_eq e
  obtain ⟨a, b, c⟩ := hw
  exact ⟨e4 ▸ a, e3 ▸ b, by rw [← e4, ← e2]; exact c⟩

theorem Good.length {f : List K → Res K} {d : Nat} {lb ub : List K} {x : Indiv K}
    (hB : IsBox d lb ub) (h : Good f d lb ub x) : x.genes.length = d := by
  have := h.1.1; have := hB.1; omega

theorem generationLoop_rel [FloorRing K] {E : EAEnv K} (hE : Draws E) {g : List K → Res K} :
    ∀ (m : Nat) (o : EA K), Agree o E.f g → IsBox o.dim o.lb o.ub →
      (∀ x ∈ o.population.inds, Good E.f o.dim o.lb o.ub x) →
      RelP (generationLoop E m o) (generationLoop (withF E g) m o) (fun o' => ∃ k ys,
        Gens E.f o o' k ys ∧ k ≤ m ∧ (m ≠ 0 → k ≠ 0) ∧
        (∀ j, 1 ≤ j → j < k → o.total + j * o.births < o.maxEvals) ∧
        (k = m ∨ o.maxEvals ≤ o.total + k * o.births)) := by
  intro m
  induction m with
  | zero =>
    intro o _ _ _
    exact RelP.ok ⟨0, [], Gens.zero _ _, le_rfl, by simp, by intro j h1 h2; omega, Or.inl rfl⟩
  | succ m ih =>
    intro o hfg hB hg
    unfold generationLoop
    refine RelP.bind (newGeneration_rel hE hfg hB (fun x hx => (hg x hx).length hB)) ?_
    rintro o1 ⟨ys, h1⟩
    obtain ⟨e1, e2, e3, -, e5, -, e7, e8, -, -⟩ := cfg_eq h1.cfg
    have hg1 : ∀ x ∈ o1.population.inds, Good E.f o1.dim o1.lb o1.ub x := by
      rw [e1, e2, e3]
      exact pop_lengths h1.pop hg h1.good
    split_ifs with hM
    · refine RelP.ok ⟨1, ys, by simpa using Gens.cons h1 (Gens.zero _ _), by omega, by simp,
        by intro j a b; omega, Or.inr ?_⟩
      rw [e5, h1.total] at hM
      omega
    · refine (ih o1 (by unfold Agree; rw [e2, e3]; exact hfg) (by rw [e1, e2, e3]; exact hB)
        hg1).mono ?_
      rintro o2 ⟨k, zs, a1, a2, a3, a4, a5⟩
      have ht : ∀ j, o1.total + j * o1.births = o.total + (j + 1) * o.births := by
        intro j; rw [h1.total, e7]; ring
      refine ⟨k + 1, ys ++ zs, Gens.cons h1 a1, by omega, by simp, ?_, ?_⟩
      · intro j hj1 hj2
        by_cases hj : j = 1
        · subst hj
          rw [e5, h1.total] at hM
          omega
        · have := a4 (j - 1) (by omega) (by omega)
          rw [ht, e5] at this
          have e : j - 1 + 1 = j := by omega
          rwa [e] at this
      · rcases a5 with rfl | h
        · exact Or.inl rfl
        · rw [ht, e5] at h; exact Or.inr h

/-- What a completed run did: `k` generations; `xs` the initial individuals, `ys` the children. -/
structure Run (f : List K → Res K) (o o' : EA K) (k : Nat) (xs ys : List (Indiv K)) : Prop where
  cfg : o'.cfg = o.cfg
  total : o'.total = o.sizeInit + k * o.births
  idsX : xs.map (·.id) = List.range' 1 o.sizeInit
  idsY : ys.map (·.id) = List.range' o.sizeInit (k * o.births)
  good : ∀ y ∈ xs ++ ys, Good f o.dim o.lb o.ub y
  evals : o'.evaluated = o.evaluated ++ (xs ++ ys).map (·.genes)
  hist : o'.history.inds = o.history.inds ++ (xs ++ ys)
  pop : (o'.population.inds.map Indiv.core).Sublist ((xs ++ ys).map Indiv.core)
  size : o'.population.inds.length + k * o.deaths = o.sizeInit + k * o.births
  two : 2 ≤ o'.population.inds.length
  sizeInit : 2 ≤ o.sizeInit
  minMax : Pop.MinMax dblMax dblMin o'.population o'.population.inds
  pos : 1 ≤ k
  le : k ≤ o.gens
  before : ∀ j, 1 ≤ j → j < k → o.sizeInit + j * o.births < o.maxEvals
  stop : k = o.gens ∨ o.maxEvals ≤ o.sizeInit + k * o.births
  best : ∃ x, o'.getSolution = .ok x

theorem optimize_rel [FloorRing K] {E : EAEnv K} (hE : Draws E) {g : List K → Res K} {o : EA K}
    (hfg : Agree o E.f g) (hB : IsBox o.dim o.lb o.ub) :
    RelP (optimize E o) (optimize (withF E g) o) (fun o' => ∃ k xs ys, Run E.f o o' k xs ys) := by
  unfold optimize
  dsimp only
  refine RelP.bind (P := fun _ => o.gens ≠ 0) (Post.rel ?_) ?_
  · unfold checkSettings
    dsimp only
    split_ifs <;> first | exact Post.error | exact Post.ok (by omega)
  intro _ hgens
  refine RelP.bind (initializePopulation_rel hE (by exact hfg)) ?_
  rintro o1 ⟨xs, h1⟩
  obtain ⟨e1, e2, e3, -, e5, e6, e7, e8, e9, -⟩ := cfg_eq h1.cfg
  dsimp only at e1 e2 e3 e5 e6 e7 e8 e9
  have hg1 : ∀ x ∈ o1.population.inds, Good E.f o1.dim o1.lb o1.ub x := by
    rw [e1, e2, e3]
    refine pop_lengths (xs := xs) (ys := []) ?_ h1.good (by simp)
    rw [h1.pop]; simp
  refine RelP.bind (generationLoop_rel hE _ o1 (by unfold Agree; rw [e2, e3]; exact hfg)
    (by rw [e1, e2, e3]; exact hB) hg1) ?_
  rintro o2 ⟨k, ys, a1, a2, a3, a4, a5⟩
  refine RelP.bind (Post.rel Post.trivial) ?_
  intro x hx
  have hk : k ≠ 0 := a3 (by rw [e9]; exact hgens)
  have t := h1.total
  dsimp only at t
  rw [Nat.zero_add] at t
  have hxl : xs.length = o.sizeInit := by
    have := congrArg List.length h1.ids
    simpa using this
  have hpl : o1.population.inds.length = o.sizeInit := by
    have := congrArg List.length h1.pop
    simp only [List.length_map] at this
    omega
  refine RelP.ok ⟨k, xs, ys, a1.cfg.trans h1.cfg, ?_, by simpa using h1.ids, ?_, ?_, ?_, ?_, ?_, ?_,
    a1.two hk, h1.size, a1.minMax hk, by omega, by omega, ?_, ?_, ⟨x, hx⟩⟩
  · rw [a1.total, t, e7]
  · rw [a1.ids, t, e7]
  · intro y hy
    rcases List.mem_append.1 hy with hy | hy
    · exact h1.good y hy
    · have := a1.good y hy
      rwa [e1, e2, e3] at this
  · rw [a1.evals, h1.evals, List.map_append, List.append_assoc]
  · rw [a1.hist, h1.hist, List.append_assoc]
  · have := a1.pop
    rwa [h1.pop, ← List.map_append] at this
  · have := a1.size
    rwa [e7, e8, hpl] at this
  · intro j h h'
    have := a4 j h h'
    rwa [t, e7, e5] at this
  · rwa [t, e7, e5, e9] at a5

theorem optimize_run [FloorRing K] {E : EAEnv K} (hE : Draws E) {o o' : EA K}
    (hB : IsBox o.dim o.lb o.ub) (h : optimize E o = .ok o') :
    ∃ k xs ys, Run E.f o o' k xs ys :=
  (optimize_rel hE (g := E.f) (fun _ _ => rfl) hB).2 o' h

end EA
end Rodeo
