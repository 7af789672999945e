import Verif.Props.EA

/-! # C14 - C17: fitness, selection, deaths and parents -/

set_option linter.unusedSectionVars false

namespace Rodeo
open Spec

variable {K : Type} [Field K] [LinearOrder K] [IsStrictOrderedRing K]

/-! ## C14 -/

/-- The fitness of `p` is a decreasing score: 1 at the smallest objective value, 0.01 at the largest,
strictly decreasing and positive. -/
def IsScore (p : Pop K) : Prop :=
  (∀ x ∈ p.inds, 0 < x.fitness) ∧
  (∀ x ∈ p.inds, (∀ y ∈ p.inds, x.obj ≤ y.obj) → x.fitness = 1) ∧
  (∀ x ∈ p.inds, (∀ y ∈ p.inds, y.obj ≤ x.obj) → x.fitness = 1 / 100) ∧
  (∀ x ∈ p.inds, ∀ y ∈ p.inds, x.obj < y.obj → y.fitness < x.fitness)

/-- The full property, for a population filled with the individuals `xs`. -/
def C14_full (K : Type) [Field K] [LinearOrder K] [IsStrictOrderedRing K] : Prop :=
  ∀ (d : Nat) (xs : List (Indiv K)) (p : Pop K), xs ≠ [] →
    (Pop.new.setDimension d).addGroup xs = .ok p →
    ((∃ x ∈ xs, ∃ y ∈ xs, x.obj ≠ y.obj) → ∃ p', p.updateFitness = .ok p' ∧ IsScore p') ∧
    ((∀ x ∈ xs, ∀ y ∈ xs, x.obj = y.obj) → ∃ e, p.updateFitness = .error e)

/-- One-dimensional individuals with these objective values, for the examples. -/
def demoInds (objs : List ℚ) : List (Indiv ℚ) :=
  objs.zipIdx.map fun (J, i) => { Indiv.new 1 with id := i + 1, obj := J }

/-- Not true: with the objective values -2 and -1 the largest value is taken to be 2^-1022 (the
largest value starts at the smallest positive number), so the worst individual gets more than
0.25. -/
theorem C14_false : ¬ C14_full ℚ := by
  intro h
  obtain ⟨p, h1, h2⟩ := EADemo.of_test (r := (Pop.new.setDimension 1).addGroup (demoInds [-2, -1]))
    (P := fun p => EADemo.test p.updateFitness (fun q => decide (q.inds.map (·.obj) = [-2, -1]) &&
      q.inds.all (fun x => decide (1 / 4 < x.fitness)))) (by decide +kernel)
  obtain ⟨q, h3, h4⟩ := EADemo.of_test h2
  rw [Bool.and_eq_true] at h4
  have hobj := of_decide_eq_true h4.1
  obtain ⟨q', h5, -, -, h6, -⟩ := (h 1 _ p (by decide +kernel) h1).1 (by decide +kernel)
  rw [h3] at h5
  obtain rfl := Except.ok.inj h5
  have hm : (-1 : ℚ) ∈ q.inds.map (·.obj) := by rw [hobj]; simp
  obtain ⟨x, hx, e⟩ := List.mem_map.1 hm
  have := h6 x hx (by
    intro y hy
    have : y.obj ∈ q.inds.map (·.obj) := List.mem_map_of_mem hy
    rw [hobj] at this
    simp at this
    rw [e]
    rcases this with h | h <;> norm_num [h])
  have h7 := of_decide_eq_true (List.all_eq_true.1 h4.2 x hx)
  rw [this] at h7
  norm_num at h7

/-- Not true either: with all values equal to -1 the update does not throw. -/
theorem C14_false_equal : ∃ p p' : Pop ℚ,
    (Pop.new.setDimension 1).addGroup (demoInds [-1, -1]) = .ok p ∧ p.updateFitness = .ok p' := by
  obtain ⟨p, h1, h2⟩ := EADemo.of_test (r := (Pop.new.setDimension 1).addGroup (demoInds [-1, -1]))
    (P := fun p => EADemo.test p.updateFitness (fun _ => true)) (by decide +kernel)
  obtain ⟨q, h3, -⟩ := EADemo.of_test h2
  exact ⟨p, q, h1, h3⟩

/-- Not true either: nearby values (1 and 1 + 1e-5) are refused. -/
theorem C14_false_close :
    ∃ p : Pop ℚ, (Pop.new.setDimension 1).addGroup (demoInds [1, 1 + 1 / 10 ^ 5]) = .ok p ∧
      p.updateFitness = .error .runtimeError := by
  obtain ⟨p, h1, h2⟩ := EADemo.of_test
    (r := (Pop.new.setDimension 1).addGroup (demoInds [1, 1 + 1 / 10 ^ 5]))
    (P := fun p => decide (p.updateFitness = .error .runtimeError)) (by decide +kernel)
  exact ⟨p, h1, of_decide_eq_true h2⟩

/-- What holds of the fitness, for populations in which some value exceeds 2^-1022 and some value is
below the largest double.  Let `m` and `M` be the smallest and largest values.
1. Once the three coefficients are computed and not all values are below 1e-14, the update succeeds:
   the invalid-fitness error is never raised.
2. If the update succeeds, the fitness is a decreasing score, and the fitness of a value `J` is
   `0.01 + 0.99 ((M - J) / (M - m))^2`.
3. If `m = M` the update throws.
4. If `m ≠ M`, some value is at least 1e-14 in absolute value, and three bounds on `1/(M-m)` and `M`
   hold, the update succeeds.
Missing: populations without positive values (`C14_false`, `C14_false_equal`), values too close for
the absolute pivot tolerance (`C14_false_close`), values all below 1e-14. -/
theorem C14_partial {d : Nat} {xs : List (Indiv K)} {p : Pop K}
    (hadd : (Pop.new.setDimension d).addGroup xs = .ok p)
    (hpos : ∃ x ∈ xs, dblMin < x.obj) (hlt : ∃ x ∈ xs, x.obj < dblMax) :
    ∃ m M : K, (∃ x ∈ xs, x.obj = m) ∧ (∃ x ∈ xs, x.obj = M) ∧ (∀ x ∈ xs, m ≤ x.obj ∧ x.obj ≤ M) ∧
      (∀ c, p.coefficients = .ok c → (∃ x ∈ xs, 1 / 10 ^ 14 ≤ |x.obj|) →
        ∃ p', p.updateFitness = .ok p') ∧
      (∀ p', p.updateFitness = .ok p' → m < M ∧ IsScore p' ∧ p'.inds.map (·.obj) = xs.map (·.obj) ∧
        ∀ x ∈ p'.inds, x.fitness = 1 / 100 + 99 / 100 * ((M - x.obj) / (M - m)) ^ 2) ∧
      (m = M → ∃ e, p.updateFitness = .error e) ∧
      (m ≠ M → (∃ x ∈ xs, 1 / 10 ^ 14 ≤ |x.obj|) →
        2 / (M - m) ^ 2 + 1 / (M - m) ≤ 10 ^ 9 →
        4 * |M| / (M - m) ^ 2 + |1 - 2 * M / (M - m)| ≤ 10 ^ 9 →
        M ^ 2 / (M - m) ^ 2 + |1 - M ^ 2 / (M - m) ^ 2| + |M ^ 2 / (M - m) - M| ≤ 10 ^ 9 →
        ∃ p', p.updateFitness = .ok p') := by
  obtain ⟨hinds, -, hmm⟩ := Pop.addGroup_spec p hadd
  have hinds' : p.inds = xs := by simpa [Pop.setDimension, Pop.new] using hinds
  change Pop.MinMax dblMax dblMin p xs at hmm
  obtain ⟨x, hx, hxm, -⟩ := hmm.minAt hlt
  obtain ⟨y, hy, hyM, -⟩ := hmm.maxAt hpos
  have hbnd : ∀ z ∈ xs, p.pmin ≤ z.obj ∧ z.obj ≤ p.pmax := fun z hz =>
    ⟨hmm.minLe.2 z hz, hmm.maxGe.2 z hz⟩
  have hnz : (∃ x ∈ xs, 1 / 10 ^ 14 ≤ |x.obj|) →
      ¬ p.inds.all (fun x => decide (|x.obj| < 1 / 10 ^ 14)) = true := by
    rintro ⟨z, hz, hz'⟩ hall
    rw [List.all_eq_true] at hall
    have := of_decide_eq_true (hall z (by rw [hinds']; exact hz))
    exact absurd hz' (not_le.2 this)
  have h1 : ∀ c, p.coefficients = .ok c → (∃ x ∈ xs, 1 / 10 ^ 14 ≤ |x.obj|) →
        ∃ p', p.updateFitness = .ok p' := by
    intro c hc hz
    rcases Pop.updateFitness_spec p with ⟨h, -⟩ | ⟨e, h, -⟩ | ⟨-, -, -, h⟩
    · exact absurd h (hnz hz)
    · rw [hc] at h; cases h
    · exact ⟨_, h⟩
  refine ⟨p.pmin, p.pmax, ⟨x, hx, hxm⟩, ⟨y, hy, hyM⟩, hbnd, h1, ?_, ?_, ?_⟩
  · intro p' hp'
    rcases Pop.updateFitness_spec p with ⟨-, h⟩ | ⟨e, -, h⟩ | ⟨-, hne, -, h⟩
    · rw [hp'] at h; cases h
    · rw [hp'] at h; cases h
    · rw [hp'] at h
      obtain rfl := Except.ok.inj h
      have hlt : p.pmin < p.pmax := lt_of_le_of_ne ((hbnd x hx).1.trans (hbnd x hx).2) hne
      have hmem : ∀ z ∈ p.inds.map (fun x => { x with fitness := Pop.quad p.pmin p.pmax x.obj }),
          p.pmin ≤ z.obj ∧ z.obj ≤ p.pmax ∧ z.fitness = Pop.quad p.pmin p.pmax z.obj := by
        intro z hz
        obtain ⟨w, hw, rfl⟩ := List.mem_map.1 hz
        have := hbnd w (by rw [← hinds']; exact hw)
        exact ⟨this.1, this.2, rfl⟩
      have hx' : ∃ z ∈ p.inds.map (fun x => { x with fitness := Pop.quad p.pmin p.pmax x.obj }),
          z.obj = p.pmin := ⟨_, List.mem_map_of_mem (by rw [hinds']; exact hx), hxm⟩
      have hy' : ∃ z ∈ p.inds.map (fun x => { x with fitness := Pop.quad p.pmin p.pmax x.obj }),
          z.obj = p.pmax := ⟨_, List.mem_map_of_mem (by rw [hinds']; exact hy), hyM⟩
      refine ⟨hlt, ⟨?_, ?_, ?_, ?_⟩, ?_, ?_⟩
      · intro z hz; rw [(hmem z hz).2.2]; exact Pop.quad_pos _ _ _
      · intro z hz hle
        obtain ⟨w, hw, e⟩ := hx'
        have : z.obj = p.pmin := le_antisymm (by rw [← e]; exact hle w hw) (hmem z hz).1
        rw [(hmem z hz).2.2, this, Pop.quad_min hne]
      · intro z hz hge
        obtain ⟨w, hw, e⟩ := hy'
        have : z.obj = p.pmax := le_antisymm (hmem z hz).2.1 (by rw [← e]; exact hge w hw)
        rw [(hmem z hz).2.2, this, Pop.quad_max]
      · intro z hz w hw hzw
        rw [(hmem z hz).2.2, (hmem w hw).2.2]
        exact Pop.quad_anti hlt hzw (hmem w hw).2.1
      · show (p.inds.map _).map _ = _
        rw [List.map_map, ← hinds']; rfl
      · intro z hz; exact (hmem z hz).2.2
  · intro he
    rcases Pop.updateFitness_spec p with ⟨-, h⟩ | ⟨e, -, h⟩ | ⟨-, hne, -⟩
    · exact ⟨_, h⟩
    · exact ⟨_, h⟩
    · exact absurd he hne
  · intro hne hz a b c
    have hlt : p.pmin < p.pmax := lt_of_le_of_ne ((hbnd x hx).1.trans (hbnd x hx).2) hne
    obtain ⟨co, hco⟩ := Pop.coefficients_ok hne (by rw [abs_of_pos (sub_pos.2 hlt)]; exact a) b c
    exact h1 co hco hz

/-- The hypotheses of parts 1, 2 and 4 are met by the values 1, 3, 2. -/
example : ∃ p : Pop ℚ, (Pop.new.setDimension 1).addGroup (demoInds [1, 3, 2]) = .ok p ∧
    (∃ x ∈ demoInds [1, 3, 2], dblMin < x.obj) ∧ (∃ x ∈ demoInds [1, 3, 2], x.obj < dblMax) ∧
    ∃ p', p.updateFitness = .ok p' ∧ p'.inds.map (·.fitness) = [1, 1 / 100, 103 / 400] := by
  obtain ⟨p, h1, h2⟩ := EADemo.of_test (r := (Pop.new.setDimension 1).addGroup (demoInds [1, 3, 2]))
    (P := fun p => EADemo.test p.updateFitness
      (fun q => q.inds.map (·.fitness) = [1, 1 / 100, 103 / 400])) (by decide +kernel)
  obtain ⟨q, h3, h4⟩ := EADemo.of_test h2
  exact ⟨p, h1, by decide +kernel, by decide +kernel, q, h3, of_decide_eq_true h4⟩

/-! ## C15 -/

variable [FloorRing K]

/-- If the fitness of a population of at least two can be computed, the probabilities are computed
too. -/
theorem C15_no_failure {p : Pop K} (h2 : 2 ≤ p.inds.length) {q : Pop K}
    (h : p.updateFitness = .ok q) : ∃ p', p.updateProperties = .ok p' := by
  rcases Pop.updateProperties_spec p h2 with ⟨e, he, -⟩ | ⟨-, _, _, _, -, -, -, -, -, h'⟩
  · rw [h] at he; cases he
  · exact ⟨_, h'⟩

/-- After `updatePopulationProperties()` the probabilities are distributions, and both selections
return a member for every draw.  (With a single individual the update throws.)  Reproduction
probabilities are proportional to the fitness, and every individual is selected by some draw; an
individual selected to die has positive death probability. -/
theorem C15_distributions {p p' : Pop K} (h : p.updateProperties = .ok p') :
    2 ≤ p'.inds.length ∧
    (∀ x ∈ p'.inds, 0 < x.rep ∧ x.rep < 1) ∧ (p'.inds.map (·.rep)).sum = 1 ∧
    (∀ x ∈ p'.inds, 0 ≤ x.death ∧ x.death ≤ 1) ∧ (p'.inds.map (·.death)).sum = 1 ∧
    (∀ x ∈ p'.inds, x.rep * (p'.inds.map (·.fitness)).sum = x.fitness) ∧
    (∀ u, 0 ≤ u → u < 1 → (∃ x ∈ p'.inds, p'.pickRep u = .ok x) ∧
      (∃ x ∈ p'.inds, p'.pickDeath u = .ok x ∧ 0 < x.death)) ∧
    (∀ x ∈ p'.inds, ∃ u, 0 ≤ u ∧ u < 1 ∧ p'.pickRep u = .ok x) := by
  have hu : EA.Updated p' := ⟨p, h⟩
  obtain ⟨d1, d2, d3⟩ := hu.death
  obtain ⟨r1, r2⟩ := hu.rep
  refine ⟨d1, r2, r1, d3, d2, ?_, ?_, fun x hx => hu.reach hx⟩
  · obtain ⟨h2, -⟩ := Pop.updateProperties_post p p' h
    rcases Pop.updateProperties_spec p h2 with ⟨e, -, he⟩ | ⟨-, q, S, D, -, hS, -, -, hb, hok⟩
    · rw [h] at he; cases he
    · rw [h] at hok
      obtain rfl := Except.ok.inj hok
      have hSne : S ≠ 0 := by
        rintro rfl
        obtain ⟨x, hx⟩ := List.exists_mem_of_length_pos (l := p.inds) (by omega)
        have := (hb x hx).1
        simp at this
      have hsum : ((p.inds.map (fun x => { x with
          fitness := Pop.quad p.pmin p.pmax x.obj
          rep := Pop.quad p.pmin p.pmax x.obj / S
          death := Pop.deathWeight q (Pop.quad p.pmin p.pmax x.obj) / D })).map (·.fitness)).sum = S := by
        rw [hS, List.map_map]; rfl
      intro x hx
      show x.rep * ((p.inds.map _).map _).sum = _
      rw [hsum]
      obtain ⟨y, hy, rfl⟩ := List.mem_map.1 hx
      exact div_mul_cancel₀ _ hSne
  · intro u h0 h1
    obtain ⟨x, hx, hxm⟩ := hu.pickRep h0 h1
    obtain ⟨y, hy, hym, hyd⟩ := hu.pickDeath h0 h1
    exact ⟨⟨x, hxm, hx⟩, ⟨y, hym, hy, hyd⟩⟩

/-- A population whose properties can be updated. -/
example : ∃ p p' : Pop ℚ, (Pop.new.setDimension 1).addGroup (demoInds [1, 3, 2]) = .ok p ∧
    p.updateProperties = .ok p' ∧ p'.inds.map (·.rep) = [400 / 507, 4 / 507, 103 / 507] ∧
    p'.inds.map (·.death) = [0, 103 / 107, 4 / 107] := by
  obtain ⟨p, h1, h2⟩ := EADemo.of_test (r := (Pop.new.setDimension 1).addGroup (demoInds [1, 3, 2]))
    (P := fun p => EADemo.test p.updateProperties
      (fun q => q.inds.map (·.rep) = [400 / 507, 4 / 507, 103 / 507] ∧
        q.inds.map (·.death) = [0, 103 / 107, 4 / 107])) (by decide +kernel)
  obtain ⟨q, h3, h4⟩ := EADemo.of_test h2
  exact ⟨p, q, h1, h3, of_decide_eq_true h4⟩

/-! ## C16 -/

/-- A unique fittest individual has death probability zero and is not selected by any draw. -/
theorem C16_fittest_survives {p0 p : Pop K} (h : p0.updateProperties = .ok p)
    {s t : List (Indiv K)} {x : Indiv K} (hx : p.inds = s ++ x :: t)
    (hf : ∀ y ∈ s ++ t, y.fitness < x.fitness) :
    x.death = 0 ∧ ∀ u y, 0 ≤ u → p.pickDeath u = .ok y → y ∈ s ++ t := by
  have h0 := Pop.fittest_death h hx hf
  refine ⟨h0, ?_⟩
  intro u y hu hy
  obtain ⟨hm, hd⟩ := Pop.roulette_post _ _ hu y hy
  rw [hx] at hm
  rcases List.mem_append.1 hm with hm | hm
  · exact List.mem_append_left _ hm
  · rcases List.mem_cons.1 hm with rfl | hm
    · rw [h0] at hd; exact absurd hd (lt_irrefl _)
    · exact List.mem_append_right _ hm

/-- The second half of the property: a death never raises the smallest objective value. -/
def C16_full (K : Type) [Field K] [LinearOrder K] [IsStrictOrderedRing K] [FloorRing K] : Prop :=
  ∀ (E : EAEnv K) (o a b : EA K) (p : Pop K) (x : Indiv K), Draws E → IsBox o.dim o.lb o.ub →
    Point E o a → a.population.updateProperties = .ok p → x ∈ p.inds →
    (∀ y ∈ p.inds, x.obj ≤ y.obj) → EA.removeOne E { a with population := p } = .ok b →
    ∃ y ∈ b.population.inds, y.obj = x.obj

/-- Draws for the counterexample: initial genes `1/2` and `1/4`, child `999/1000`. -/
def EADemo.env2 : EAEnv ℚ :=
  { EADemo.env 5 with vecs := fun k _ => if k = 0 then 1 / 2 else if k = 1 then 1 / 4 else 999 / 1000,
                      pick := fun i => if i = 0 then 0 else 9999 / 10000 }

theorem EADemo.draws2 : Draws EADemo.env2 := by
  refine ⟨?_, ?_, (EADemo.draws 5).2.2⟩
  · intro i; simp only [EADemo.env2]; split_ifs <;> norm_num
  · intro k j; simp only [EADemo.env2]; split_ifs <;> norm_num

set_option maxRecDepth 100000 in
/-- Not true: the death of the worst individual, whose ID is 2, removes the best one, whose ID is 2
as well. -/
theorem C16_false : ¬ C16_full ℚ := by
  intro h
  obtain ⟨a, h1, h2⟩ := EADemo.of_test (r := EA.initializePopulation EADemo.env2
    { EADemo.cfg 2 1 1 1 with total := 0 }) (P := fun a => EADemo.test
      (EA.addNewIndividuals EADemo.env2 a) (fun b => EADemo.test b.population.updateProperties
        (fun p => decide (p.inds.map (·.obj) = [3 / 2, 5 / 4, 1999 / 1000]) &&
          EADemo.test (EA.removeOne EADemo.env2 { b with population := p })
            (fun c => c.population.inds.map (·.obj) = [3 / 2, 1999 / 1000]))))
    (by decide +kernel)
  obtain ⟨b, h3, h4⟩ := EADemo.of_test h2
  obtain ⟨p, h5, h6⟩ := EADemo.of_test h4
  rw [Bool.and_eq_true] at h6
  have hobj := of_decide_eq_true h6.1
  obtain ⟨c, h7, h8⟩ := EADemo.of_test h6.2
  have hobj' := of_decide_eq_true h8
  have : (5 / 4 : ℚ) ∈ p.inds.map (·.obj) := by rw [hobj]; simp
  obtain ⟨x, hx, e⟩ := List.mem_map.1 this
  obtain ⟨y, hy, e'⟩ := h _ _ b c p x EADemo.draws2 (EADemo.box 2 1 1 1)
    ((Point.start h1).births h3) h5 hx (by
      intro y hy
      have : y.obj ∈ p.inds.map (·.obj) := List.mem_map_of_mem hy
      rw [hobj] at this
      simp at this
      rw [e]
      rcases this with h | h | h <;> norm_num [h]) h7
  have hm : y.obj ∈ c.population.inds.map (·.obj) := List.mem_map_of_mem hy
  rw [hobj', e', e] at hm
  norm_num at hm

/-- A death never raises the smallest objective value, if the ID of its owner is unique and the
extreme values the population has noted bound its objective values.  (Holds also if several
individuals have the smallest value.)  Missing: the doubly used ID (`C16_false`). -/
theorem C16_partial {E : EAEnv K} (hE : Draws E) {a b : EA K} {p : Pop K}
    (hu : a.population.updateProperties = .ok p)
    (hM : ∀ y ∈ p.inds, a.population.pmin ≤ y.obj ∧ y.obj ≤ a.population.pmax) {x : Indiv K}
    (hx : x ∈ p.inds) (hmin : ∀ y ∈ p.inds, x.obj ≤ y.obj)
    (hid : (p.inds.map (·.id)).count x.id ≤ 1)
    (h : EA.removeOne E { a with population := p } = .ok b) :
    ∃ y ∈ b.population.inds, y.obj = x.obj :=
  EA.death_keeps_min hE hu hM hx hmin hid h

set_option maxRecDepth 100000 in
/-- The hypotheses are met: births of the first generation, then a death; the best individual has
the ID 1. -/
example : ∃ a b p c, EA.initializePopulation EADemo.env2 { EADemo.cfg 3 1 1 1 with total := 0 } = .ok a ∧
    EA.addNewIndividuals EADemo.env2 a = .ok b ∧ b.population.updateProperties = .ok p ∧
    EA.removeOne EADemo.env2 { b with population := p } = .ok c ∧
    p.inds.map (fun x => (x.id, x.obj)) = [(1, 3 / 2), (2, 5 / 4), (3, 1999 / 1000), (3, 1999 / 1000)] ∧
    c.population.inds.map (fun x => (x.id, x.obj)) = [(1, 3 / 2), (2, 5 / 4), (3, 1999 / 1000)] ∧
    b.population.pmin = 5 / 4 ∧ b.population.pmax = 1999 / 1000 := by
  obtain ⟨a, h1, h2⟩ := EADemo.of_test (r := EA.initializePopulation EADemo.env2
    { EADemo.cfg 3 1 1 1 with total := 0 }) (P := fun a => EADemo.test
      (EA.addNewIndividuals EADemo.env2 a) (fun b => EADemo.test b.population.updateProperties
        (fun p => EADemo.test (EA.removeOne EADemo.env2 { b with population := p })
            (fun c => p.inds.map (fun x => (x.id, x.obj)) = [(1, 3 / 2), (2, 5 / 4), (3, 1999 / 1000), (3, 1999 / 1000)] ∧
    c.population.inds.map (fun x => (x.id, x.obj)) = [(1, 3 / 2), (2, 5 / 4), (3, 1999 / 1000)] ∧
    b.population.pmin = 5 / 4 ∧ b.population.pmax = 1999 / 1000))))
    (by decide +kernel)
  obtain ⟨b, h3, h4⟩ := EADemo.of_test h2
  obtain ⟨p, h5, h6⟩ := EADemo.of_test h4
  obtain ⟨c, h7, h8⟩ := EADemo.of_test h6
  exact ⟨a, b, p, c, h1, h3, h5, h7, of_decide_eq_true h8⟩

/-! ## C17 -/

/-- The full property: on every reachable population of at least two individuals with up to date
probabilities, parent selection returns for some continuation of the stream. -/
def C17_full (K : Type) [Field K] [LinearOrder K] [IsStrictOrderedRing K] [FloorRing K] : Prop :=
  ∀ (E : EAEnv K) (o a : EA K) (k : Nat), Draws E → IsBox o.dim o.lb o.ub → GenPoint E o k a →
    ∃ (u : Nat → K) (fuel : Nat), (∀ i, 0 ≤ u i ∧ u i < 1) ∧
      ∃ r, a.population.generateRandomParents u fuel a.nPick = .ok r

set_option maxRecDepth 100000 in
/-- Not true: after one generation with one birth and one death, two individuals with the ID 2 can be
left; then the search for a second parent goes on for ever, whatever is drawn. -/
theorem C17_diverges : ∃ a : EA ℚ, GenPoint (EADemo.env 5) (EADemo.cfg 2 1 1 2) 1 a ∧
    a.population.inds.map (·.id) = [2, 2] ∧
    ∀ (u : Nat → ℚ) (fuel i : Nat), (∀ i, 0 ≤ u i ∧ u i < 1) →
      a.population.generateRandomParents u fuel i = .error .outOfFuel := by
  obtain ⟨a, h1, h2⟩ := EADemo.of_test (r := EA.initializePopulation (EADemo.env 5)
    { EADemo.cfg 2 1 1 2 with total := 0 }) (P := fun a => EADemo.test
      (EA.newGeneration (EADemo.env 5) a) (fun b => b.population.inds.map (·.id) = [2, 2]))
    (by decide +kernel)
  obtain ⟨b, h3, h4⟩ := EADemo.of_test h2
  have hids := of_decide_eq_true h4
  refine ⟨b, GenPoint.next (GenPoint.start h1) h3, hids, ?_⟩
  intro u fuel i hu
  obtain ⟨p, hp, hinds⟩ := EA.newGeneration_updated h3
  have : ∀ x ∈ b.population.inds, x.id = 2 := by
    intro x hx
    have : x.id ∈ b.population.inds.map (·.id) := List.mem_map_of_mem hx
    rw [hids] at this
    simpa using this
  rw [Pop.parents_congr hinds]
  refine EA.parents_never hp hu ?_ fuel i
  intro x hx y hy
  rw [this x (by rw [hinds]; exact hx), this y (by rw [hinds]; exact hy)]

theorem C17_false : ¬ C17_full ℚ := by
  intro h
  obtain ⟨a, h1, -, h2⟩ := C17_diverges
  obtain ⟨u, fuel, hu, r, hr⟩ := h _ _ a 1 (EADemo.draws 5) (EADemo.box 2 1 1 2) h1
  rw [h2 u fuel _ hu] at hr
  cases hr

/-- If the population has up to date probabilities and two different IDs, then whatever has been
drawn before (the first `n` draws of `u`), the stream has a continuation for which parent selection
returns; and whenever it returns, the parents are two members with different IDs.  Missing: the
reachable populations in which all IDs are equal (`C17_diverges`). -/
theorem C17_partial {p0 p : Pop K} (h : p0.updateProperties = .ok p) {x y : Indiv K}
    (hx : x ∈ p.inds) (hy : y ∈ p.inds) (hxy : x.id ≠ y.id) (u : Nat → K)
    (hu : ∀ i, 0 ≤ u i ∧ u i < 1) (n i : Nat) :
    (∃ (u' : Nat → K) (fuel : Nat), (∀ j, 0 ≤ u' j ∧ u' j < 1) ∧ (∀ j, j < n → u' j = u j) ∧
      ∃ r, p.generateRandomParents u' fuel i = .ok r) ∧
    (∀ fuel r, p.generateRandomParents u fuel i = .ok r →
      r.1.1 ∈ p.inds ∧ r.1.2 ∈ p.inds ∧ r.1.1.id ≠ r.1.2.id) := by
  have hup : EA.Updated p := ⟨p0, h⟩
  refine ⟨?_, fun fuel r hr => EA.popParents_post (fun i => (hu i).1) r hr⟩
  obtain ⟨m, hm, hmm⟩ := hup.pickRep (hu i).1 (hu i).2
  obtain ⟨f, hf, hmf⟩ : ∃ f ∈ p.inds, m.id ≠ f.id := by
    by_cases hmx : m.id = x.id
    · exact ⟨y, hy, by rw [hmx]; exact hxy⟩
    · exact ⟨x, hx, hmx⟩
  obtain ⟨c, hc0, hc1, hc⟩ := hup.reach hf
  set u' : Nat → K := fun j => if j < n ∨ j = i then u j else c with hu'
  have hu'b : ∀ j, 0 ≤ u' j ∧ u' j < 1 := by
    intro j
    simp only [hu']
    split_ifs
    · exact hu j
    · exact ⟨hc0, hc1⟩
  obtain ⟨r, hr⟩ := EA.pickFather_ends hup hu'b hmf n (i + 1) (by
    simp only [hu']
    rw [if_neg (by omega)]
    exact hc)
  refine ⟨u', n + 1, hu'b, ?_, ?_⟩
  · intro j hj; simp only [hu']; rw [if_pos (Or.inl hj)]
  · refine ⟨((m, r.1), r.2), ?_⟩
    unfold Pop.generateRandomParents
    rw [if_neg (by have := hup.death.1; omega)]
    have : p.pickRep (u' i) = .ok m := by
      show p.pickRep (if i < n ∨ i = i then u i else c) = _
      rw [if_pos (Or.inr rfl)]; exact hm
    exact bind_eq this (bind_eq hr rfl)

/-- The parents are accepted by `crossOver`: at every point of a run, two members with different IDs
produce a child in the box, if the mutation probability is admissible. -/
theorem C17_crossOver {E : EAEnv K} (hE : Draws E) {o a : EA K} (hB : IsBox o.dim o.lb o.ub)
    (hbs : o.boundsSet = true) (hmp : 0 < o.mutProb ∧ o.mutProb < 1) (hp : Point E o a)
    {m f : Indiv K} (hm : m ∈ a.population.inds) (hf : f ∈ a.population.inds) (hid : m.id ≠ f.id) :
    ∃ a' g, EA.crossOver E a (m, f) = .ok (a', g) ∧ InBox o.lb o.ub g := by
  have hI := EA.point_inv hE hB hp
  obtain ⟨hB', hl⟩ := hI.lengths hB
  obtain ⟨e1, e2, e3, e4, -, -, -, -, -, e10⟩ := EA.cfg_eq hI.cfg
  obtain ⟨⟨a', g⟩, hr⟩ := EA.crossOver_ok hE hB' (by rw [e4]; exact hbs) (by rw [e10]; exact hmp)
    (hl m hm) (hl f hf) hid
  refine ⟨a', g, hr, ?_⟩
  have := (EA.crossOver_post hE hB' (hl m hm) _ hr).2
  rwa [e2, e3] at this

set_option maxRecDepth 100000 in
/-- The hypotheses of the last two theorems are met by the initial population. -/
example : ∃ a, Point (EADemo.env 5) (EADemo.cfg 3 1 1 1) a ∧
    a.population.inds.map (·.id) = [1, 2, 3] ∧ EA.Updated a.population := by
  obtain ⟨a, h1, h2⟩ := EADemo.of_test (r := EA.initializePopulation (EADemo.env 5)
    { EADemo.cfg 3 1 1 1 with total := 0 }) (P := fun a => a.population.inds.map (·.id) = [1, 2, 3])
    (by decide +kernel)
  exact ⟨a, Point.start h1, of_decide_eq_true h2, EA.initializePopulation_updated h1⟩

end Rodeo
