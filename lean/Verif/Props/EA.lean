import Verif.Lemmas.EASelect
import Mathlib.Data.Rat.Floor

/-! # C09 - C13: runs of the evolutionary optimizer -/

set_option linter.unusedSectionVars false

namespace Rodeo
open Spec

variable {K : Type} [Field K] [LinearOrder K] [IsStrictOrderedRing K] [FloorRing K]

/-! ## A concrete run, used for examples and counterexamples -/

namespace EADemo

/-- Objective `x + 1` in one dimension. -/
def f : List ℚ → Res ℚ
  | [a] => .ok (a + 1)
  | _ => .error .logicError

/-- Draws: parents and deaths alternate between the two ends of the wheel, the initial genes are
`1/2` and `999/1000`, and every child is mutated to `1/4`. -/
def env (fuel : Nat) : EAEnv ℚ where
  f := f
  pick := fun i => if i % 2 = 0 then 0 else 9999 / 10000
  vecs := fun k _ => if k = 0 then 1 / 2 else if k = 1 then 999 / 1000 else 1 / 4
  muts := fun _ => 0
  nrm := fun _ => 0
  fuel := fuel

/-- Settings: box `[0,1]`, `N` initial individuals, `b` births and `d` deaths per generation, `g`
generations, at most 100 evaluations. -/
def cfg (N b d g : Nat) : EA ℚ :=
  { (EA.new.setDimension 1 : EA ℚ) with
    lb := [0], ub := [1], boundsSet := true, maxEvals := 100, sizeInit := N, births := b,
    deaths := d, gens := g, mutProb := 1 / 2 }

theorem draws (n : Nat) : Draws (env n) := by
  refine ⟨?_, ?_, ?_⟩
  · intro i; simp only [env]; split_ifs <;> norm_num
  · intro k j; simp only [env]; split_ifs <;> norm_num
  · intro i; simp only [env]; norm_num

theorem box (N b d g : Nat) : IsBox (cfg N b d g).dim (cfg N b d g).lb (cfg N b d g).ub := by
  refine ⟨rfl, rfl, ?_⟩
  intro i l u hl hu
  match i with
  | 0 => simp [cfg] at hl hu; subst hl hu; norm_num
  | i + 1 => simp [cfg] at hl

/-- The call returns and its value passes the test. -/
def test {α : Type} (r : Res α) (P : α → Bool) : Bool :=
  match r with
  | .ok a => P a
  | .error _ => false

theorem of_test {α : Type} {r : Res α} {P : α → Bool} (h : test r P = true) :
    ∃ a, r = .ok a ∧ P a = true := by
  cases r with
  | ok a => exact ⟨a, rfl, h⟩
  | error e => cases h

/-- Both deaths are picked; after the first the fitness can be computed, the second leaves only one
individual and the generation fails. -/
def deathsRunOut (b : EA ℚ) (p : Pop ℚ) : Bool :=
  test (EA.removeIndividuals (env 5) 0 { b with population := p }) (fun c =>
    test (c.population.pickDeath ((env 5).pick c.nPick)) fun x =>
    test (c.population.removeById x.id) fun q => test q.updateFitness fun _ => true) &&
  test (EA.removeIndividuals (env 5) 1 { b with population := p }) (fun c =>
    test (c.population.pickDeath ((env 5).pick c.nPick)) fun x =>
    test (c.population.removeById x.id) fun q => decide (q.inds.length < 2)) &&
  !(test (EA.removeIndividuals (env 5) 2 { b with population := p }) fun _ => true)

/-- The same draws with more varied genes. -/
def env' (fuel : Nat) : EAEnv ℚ :=
  { env fuel with vecs := fun k _ => if k = 0 then 1 / 2 else if k = 1 then 999 / 1000 else
      if k = 2 then 1 / 3 else if k = 4 then 1 / 5 else 1 / 4 }

theorem draws' (n : Nat) : Draws (env' n) := by
  refine ⟨(draws n).1, ?_, (draws n).2.2⟩
  intro k j; simp only [env']; split_ifs <;> norm_num

end EADemo

/-! ## C09 -/

/-- The full property: no two individuals of a population have the same ID, at every point. -/
def C09_full (K : Type) [Field K] [LinearOrder K] [IsStrictOrderedRing K] [FloorRing K] : Prop :=
  ∀ (E : EAEnv K) (o a : EA K), Draws E → IsBox o.dim o.lb o.ub →
    EA.checkSettings o = .ok () → Point E o a → (a.population.inds.map (·.id)).Nodup

/-- The first child always gets the ID of the last initial individual: after the births of the first
generation two individuals have the ID `N`, whatever the settings, objective and draws. -/
theorem C09_always_violated {E : EAEnv K} (hE : Draws E) {o a b : EA K}
    (hB : IsBox o.dim o.lb o.ub) (h1 : EA.initializePopulation E { o with total := 0 } = .ok a)
    (h2 : EA.addNewIndividuals E a = .ok b) :
    (b.population.inds.map (·.id)).count o.sizeInit = 2 := by
  have hI := EA.point_inv hE hB (Point.start h1)
  obtain ⟨ys, hi⟩ := (EA.initializePopulation_rel hE (g := E.f) (fun _ _ => rfl)).2 _ h1
  obtain ⟨zs, hb⟩ := hI.of_births hE hB h2
  have hb0 : a.births ≠ 0 := by
    intro h0
    unfold EA.addNewIndividuals at h2
    rw [if_pos h0] at h2; cases h2
  have ht : a.total = o.sizeInit := by simpa using hi.total
  have hN : 2 ≤ o.sizeInit := hi.size
  have hpi : a.population.inds.map (·.id) = List.range' 1 o.sizeInit := by
    have := congrArg (List.map Prod.fst) hi.pop
    rw [List.map_map, List.map_map] at this
    exact this.trans (show ys.map (·.id) = _ by simpa using hi.ids)
  rw [hb.pop, List.map_append, List.count_append, hb.ids, ht, hpi]
  have c1 : (List.range' 1 o.sizeInit).count o.sizeInit = 1 :=
    List.count_eq_one_of_mem List.nodup_range' (List.mem_range'_1.2 (by omega))
  have c2 : (List.range' o.sizeInit a.births).count o.sizeInit = 1 :=
    List.count_eq_one_of_mem List.nodup_range' (List.mem_range'_1.2 (by omega))
  omega

set_option maxRecDepth 100000 in
/-- The hypotheses are met. -/
example : ∃ a b, EA.initializePopulation (EADemo.env 5) { EADemo.cfg 2 1 0 1 with total := 0 } = .ok a ∧
    EA.addNewIndividuals (EADemo.env 5) a = .ok b ∧ b.population.inds.map (·.id) = [1, 2, 2] := by
  obtain ⟨a, h1, h2⟩ := EADemo.of_test (r := EA.initializePopulation (EADemo.env 5)
    { EADemo.cfg 2 1 0 1 with total := 0 }) (P := fun a => EADemo.test
      (EA.addNewIndividuals (EADemo.env 5) a) (fun b => b.population.inds.map (·.id) = [1, 2, 2]))
    (by decide +kernel)
  obtain ⟨b, h3, h4⟩ := EADemo.of_test h2
  exact ⟨a, b, h1, h3, by simpa using h4⟩

set_option maxRecDepth 100000 in
theorem C09_false : ¬ C09_full ℚ := by
  intro h
  obtain ⟨a, h1, h2⟩ := EADemo.of_test (r := EA.initializePopulation (EADemo.env 5)
    { EADemo.cfg 2 1 0 1 with total := 0 }) (P := fun a => EADemo.test
      (EA.addNewIndividuals (EADemo.env 5) a) (fun b => b.population.inds.map (·.id) = [1, 2, 2]))
    (by decide +kernel)
  obtain ⟨b, h3, h4⟩ := EADemo.of_test h2
  have := h (EADemo.env 5) (EADemo.cfg 2 1 0 1) b (EADemo.draws 5) (EADemo.box 2 1 0 1) (by decide +kernel)
    ((Point.start h1).births h3)
  rw [of_decide_eq_true h4] at this
  revert this
  decide

/-- Only the ID `N` can be used twice: at every point every other ID occurs at most once, and `N` at
most twice.  Missing: uniqueness of the ID `N`, which fails (`C09_always_violated`). -/
theorem C09_partial {E : EAEnv K} (hE : Draws E) {o a : EA K} (hB : IsBox o.dim o.lb o.ub)
    (hp : Point E o a) (id : Nat) :
    (a.population.inds.map (·.id)).count id ≤ if id = o.sizeInit then 2 else 1 := by
  refine ((EA.point_inv hE hB hp).count id).trans ?_
  split_ifs <;> omega

/-! ## C10 -/

/-- The full property: the returned individual is a best individual of the final population. -/
def C10_full (K : Type) [Field K] [LinearOrder K] [IsStrictOrderedRing K] [FloorRing K] : Prop :=
  ∀ (E : EAEnv K) (o o' : EA K) (x : Indiv K), Draws E → IsBox o.dim o.lb o.ub →
    EA.optimize E o = .ok o' → o'.getSolution = .ok x →
    x ∈ o'.population.inds ∧ ∀ y ∈ o'.population.inds, x.obj ≤ y.obj

set_option maxRecDepth 100000 in
/-- Not true: here the population contains a design with value 5/4, and the solution returned has
value 1999/1000, because both have the ID 2. -/
theorem C10_false : ¬ C10_full ℚ := by
  intro h
  obtain ⟨a, h1, h2⟩ := EADemo.of_test (r := EA.optimize (EADemo.env 5) (EADemo.cfg 2 1 0 1))
    (P := fun a => EADemo.test a.getSolution (fun x => x.obj = 1999 / 1000 ∧
      (a.population.inds.map (·.obj)) = [3 / 2, 1999 / 1000, 5 / 4])) (by decide +kernel)
  obtain ⟨x, h3, h4⟩ := EADemo.of_test h2
  obtain ⟨h5, h6⟩ := of_decide_eq_true h4
  obtain ⟨-, h7⟩ := h _ _ _ x (EADemo.draws 5) (EADemo.box 2 1 0 1) h1 h3
  have : (5 / 4 : ℚ) ∈ a.population.inds.map (·.obj) := by rw [h6]; simp
  obtain ⟨y, hy, e⟩ := List.mem_map.1 this
  have := h7 y hy
  rw [h5, e] at this
  norm_num at this

/-- The solution returned by a completed run is a member of the final population, its design and
value are what the getters deliver, the value is what the objective function delivers for the design,
and some individual with the same ID has the smallest value; so the solution is a best individual
unless its ID is `N`.  Missing: the case of the doubly used ID `N` (`C10_false`). -/
theorem C10_partial {E : EAEnv K} (hE : Draws E) {o o' : EA K} (hB : IsBox o.dim o.lb o.ub)
    (h : EA.optimize E o = .ok o') (hlt : ∃ y ∈ o'.population.inds, y.obj < dblMax) :
    ∃ x ∈ o'.population.inds, o'.getSolution = .ok x ∧ o'.getBestDesignVector = .ok x.genes ∧
      o'.getBestObjectiveFunctionValue = .ok x.obj ∧ E.f x.genes = .ok x.obj ∧
      (∃ z ∈ o'.population.inds, z.id = x.id ∧ ∀ y ∈ o'.population.inds, z.obj ≤ y.obj) ∧
      (x.id ≠ o.sizeInit → ∀ y ∈ o'.population.inds, x.obj ≤ y.obj) := by
  obtain ⟨k, xs, ys, hr⟩ := EA.optimize_run hE hB h
  obtain ⟨z, hz, hzo, hzi⟩ := hr.minMax.minAt hlt
  have hzmin : ∀ y ∈ o'.population.inds, z.obj ≤ y.obj := by
    intro y hy; rw [hzo]; exact hr.minMax.minLe.2 y hy
  obtain ⟨x, hx, hg, hxi⟩ := Pop.getIndividual_ok (p := o'.population) (id := o'.population.idMin)
    ⟨z, hz, hzi⟩
  have hsol : o'.getSolution = .ok x := hg
  have hgood := EA.pop_lengths (xs := xs ++ ys) (ys := []) (by simpa using hr.pop) hr.good (by simp) x hx
  refine ⟨x, hx, hsol, ?_, ?_, hgood.2.2, ⟨z, hz, by rw [hzi, hxi], hzmin⟩, ?_⟩
  · unfold EA.getBestDesignVector; exact bind_eq hsol rfl
  · unfold EA.getBestObjectiveFunctionValue; exact bind_eq hsol rfl
  · intro hne
    have hsub := (EA.ids_of_core hr.pop).count_le x.id
    have hcount : ((xs ++ ys).map (·.id)).count x.id ≤ 1 := by
      rw [List.map_append, hr.idsX, hr.idsY, List.count_append]
      have c1 : (List.range' 1 o.sizeInit).count x.id ≤ 1 :=
        List.nodup_iff_count_le_one.1 List.nodup_range' _
      have c2 : (List.range' o.sizeInit (k * o.births)).count x.id ≤ 1 :=
        List.nodup_iff_count_le_one.1 List.nodup_range' _
      by_cases hm : x.id ∈ List.range' 1 o.sizeInit
      · have : x.id ∉ List.range' o.sizeInit (k * o.births) := by
          rw [List.mem_range'_1] at hm ⊢; omega
        rw [List.count_eq_zero.2 this]; omega
      · rw [List.count_eq_zero.2 hm]; omega
    have : x = z := Pop.unique_of_count (hsub.trans hcount) hx hz rfl (by rw [hzi, hxi])
    rw [this]; exact hzmin

set_option maxRecDepth 100000 in
/-- A run that meets the hypotheses, with two generations, and whose solution has an ID other than
`N`. -/
example : ∃ o' x, EA.optimize (EADemo.env' 5) (EADemo.cfg 3 1 1 2) = .ok o' ∧ o'.getSolution = .ok x ∧
    x.id = 4 ∧ x.obj = 6 / 5 ∧ x.obj < dblMax ∧ o'.population.inds.map (·.id) = [2, 3, 4] := by
  obtain ⟨a, h1, h2⟩ := EADemo.of_test (r := EA.optimize (EADemo.env' 5) (EADemo.cfg 3 1 1 2))
    (P := fun a => EADemo.test a.getSolution (fun x => x.id = 4 ∧ x.obj = 6 / 5 ∧ x.obj < dblMax ∧
      a.population.inds.map (·.id) = [2, 3, 4])) (by decide +kernel)
  obtain ⟨x, h3, h4⟩ := EADemo.of_test h2
  exact ⟨a, x, h1, h3, of_decide_eq_true h4⟩

/-! ## C11 -/

/-- Every design evaluated, every member of the final population and every individual added to the
history during the run lies in the box. -/
theorem C11_in_box {E : EAEnv K} (hE : Draws E) {o o' : EA K} (hB : IsBox o.dim o.lb o.ub)
    (h : EA.optimize E o = .ok o') :
    (∃ L, o'.evaluated = o.evaluated ++ L ∧ ∀ x ∈ L, InBox o.lb o.ub x) ∧
    (∃ H, o'.history.inds = o.history.inds ++ H ∧ ∀ x ∈ H, InBox o.lb o.ub x.genes) ∧
    (∀ x ∈ o'.population.inds, InBox o.lb o.ub x.genes) := by
  obtain ⟨k, xs, ys, hr⟩ := EA.optimize_run hE hB h
  refine ⟨⟨_, hr.evals, ?_⟩, ⟨_, hr.hist, fun x hx => (hr.good x hx).1⟩, ?_⟩
  · intro g hg
    obtain ⟨x, hx, rfl⟩ := List.mem_map.1 hg
    exact (hr.good x hx).1
  · intro x hx
    exact (EA.pop_lengths (xs := xs ++ ys) (ys := []) (by simpa using hr.pop) hr.good (by simp) x hx).1

/-- At every point, also of a run that fails later, all individuals lie in the box. -/
theorem C11_points {E : EAEnv K} (hE : Draws E) {o a : EA K} (hB : IsBox o.dim o.lb o.ub)
    (hp : Point E o a) : ∀ x ∈ a.population.inds, InBox o.lb o.ub x.genes :=
  fun x hx => ((EA.point_inv hE hB hp).good x hx).1

/-- The objective function is never called outside of the box, not even in a run that fails: a
function that differs outside of the box gives the same outcome. -/
theorem C11_never_called_outside {E : EAEnv K} (hE : Draws E) {o : EA K}
    (hB : IsBox o.dim o.lb o.ub) (g : List K → Res K)
    (hg : ∀ x, InBox o.lb o.ub x → E.f x = g x) : EA.optimize E o = EA.optimize (withF E g) o :=
  (EA.optimize_rel hE hg hB).1

set_option maxRecDepth 100000 in
/-- A run with normal draws of size 1000, which leave the box before the clamping. -/
example : ∃ o', EA.optimize { EADemo.env 5 with muts := fun _ => 3 / 4, nrm := fun _ => 1000 }
    (EADemo.cfg 3 2 1 2) = .ok o' ∧ o'.evaluated = [[1/2], [999/1000], [1/4], [1], [1], [1], [1]] := by
  obtain ⟨a, h1, h2⟩ := EADemo.of_test (r := EA.optimize
    { EADemo.env 5 with muts := fun _ => 3 / 4, nrm := fun _ => 1000 } (EADemo.cfg 3 2 1 2))
    (P := fun a => a.evaluated = [[1/2], [999/1000], [1/4], [1], [1], [1], [1]]) (by decide +kernel)
  exact ⟨a, h1, of_decide_eq_true h2⟩

/-! ## C12 -/

/-- A completed run makes exactly `N + k b` evaluations, where `k` is the least number of generations
in `1..G` with `N + k b ≥ M`, or `G`; hence at most `max (N + b) (M + b - 1)`. -/
theorem C12_budget {E : EAEnv K} (hE : Draws E) {o o' : EA K} (hB : IsBox o.dim o.lb o.ub)
    (h : EA.optimize E o = .ok o') :
    ∃ k, 1 ≤ k ∧ k ≤ o.gens ∧
      o'.evaluated.length = o.evaluated.length + (o.sizeInit + k * o.births) ∧
      (∀ j, 1 ≤ j → j < k → o.sizeInit + j * o.births < o.maxEvals) ∧
      (k = o.gens ∨ o.maxEvals ≤ o.sizeInit + k * o.births) ∧
      o.sizeInit + k * o.births ≤ max (o.sizeInit + o.births) (o.maxEvals + o.births - 1) := by
  obtain ⟨k, xs, ys, hr⟩ := EA.optimize_run hE hB h
  refine ⟨k, hr.pos, hr.le, ?_, hr.before, hr.stop, ?_⟩
  · have e1 := congrArg List.length hr.idsX
    have e2 := congrArg List.length hr.idsY
    simp only [List.length_map, List.length_range'] at e1 e2
    rw [hr.evals]
    simp only [List.length_append, List.length_map]
    omega
  · by_cases hk : k = 1
    · subst hk; simp
    · have h1 := hr.before (k - 1) (by have := hr.pos; omega) (by have := hr.pos; omega)
      have e : k * o.births = (k - 1) * o.births + o.births := by
        have : k = k - 1 + 1 := by have := hr.pos; omega
        rw [this, Nat.add_mul, one_mul, Nat.add_sub_cancel]
      omega

set_option maxRecDepth 100000 in
/-- Budget 5, three initial individuals, one birth: stopped after two of four generations. -/
example : ∃ o', EA.optimize (EADemo.env 5) { EADemo.cfg 3 1 1 4 with maxEvals := 5 } = .ok o' ∧
    o'.evaluated.length = 5 := by
  obtain ⟨a, h1, h2⟩ := EADemo.of_test (r := EA.optimize (EADemo.env 5)
    { EADemo.cfg 3 1 1 4 with maxEvals := 5 }) (P := fun a => a.evaluated.length = 5)
    (by decide +kernel)
  exact ⟨a, h1, of_decide_eq_true h2⟩

/-! ## C13 -/

/-- The full property: if the settings are accepted, then in every generation the deaths can be
picked: a failure can only come from the fitness update of at least two survivors. -/
def C13_full (K : Type) [Field K] [LinearOrder K] [IsStrictOrderedRing K] [FloorRing K] : Prop :=
  ∀ (E : EAEnv K) (o a b : EA K) (p : Pop K) (k : Nat), Draws E → IsBox o.dim o.lb o.ub →
    o.removed.dim = o.dim → EA.checkSettings o = .ok () → GenPoint E o k a →
    EA.addNewIndividuals E a = .ok b → b.population.updateProperties = .ok p →
    FitnessFails E o.deaths { b with population := p } ∨
    ∃ c, EA.removeIndividuals E o.deaths { b with population := p } = .ok c

/-- Accepted settings that lose too many individuals never complete, whatever the objective and the
draws: after `G` generations fewer than two individuals would be left. -/
theorem C13_runs_out {E : EAEnv K} (hE : Draws E) {o : EA K} (hB : IsBox o.dim o.lb o.ub)
    (hM : o.sizeInit + o.gens * o.births < o.maxEvals)
    (hout : o.sizeInit + o.gens * o.births < o.gens * o.deaths + 2) :
    ∀ o', EA.optimize E o ≠ .ok o' := by
  intro o' h
  obtain ⟨k, xs, ys, hr⟩ := EA.optimize_run hE hB h
  have hk : k = o.gens := by
    rcases hr.stop with h | h
    · exact h
    · have := Nat.mul_le_mul_right o.births hr.le
      omega
  have h1 := hr.size
  have h2 := hr.two
  rw [hk] at h1
  omega

/-- The hypotheses are met by accepted settings: 10 individuals, 5 births, 10 deaths, 2
generations. -/
example : EA.checkSettings (EADemo.cfg 10 5 10 2) = .ok () ∧
    (EADemo.cfg 10 5 10 2).sizeInit + (EADemo.cfg 10 5 10 2).gens * (EADemo.cfg 10 5 10 2).births
      < (EADemo.cfg 10 5 10 2).maxEvals ∧
    (EADemo.cfg 10 5 10 2).sizeInit + (EADemo.cfg 10 5 10 2).gens * (EADemo.cfg 10 5 10 2).births
      < (EADemo.cfg 10 5 10 2).gens * (EADemo.cfg 10 5 10 2).deaths + 2 := by
  decide +kernel

/-- Settings with which no search is possible are refused: nothing is evaluated, and the error does not depend on
the objective function or the draws.  In particular a generation may not kill as many individuals as there
are after the births of the first generation. -/
theorem C13_refused {o : EA K} (h : o.boundsSet = false ∨ o.births = 0 ∨ o.sizeInit = 0 ∨ o.dim = 0 ∨ o.gens = 0 ∨
    o.maxEvals = 0 ∨ o.sizeInit + o.births ≤ o.deaths) :
    ∃ e, (e = .runtimeError ∨ e = .invalidArgument) ∧ ∀ E : EAEnv K, EA.optimize E o = .error e := by
  have key : ∃ e, (e = Err.runtimeError ∨ e = Err.invalidArgument) ∧
      EA.checkSettings { o with total := 0 } = .error e := by
    unfold EA.checkSettings
    dsimp only
    split_ifs with h1 h2 h3 h4 h5 h6 h7
    · exact ⟨_, Or.inl rfl, rfl⟩
    all_goals first
      | exact ⟨_, Or.inr rfl, rfl⟩
      | (exfalso
         rcases h with h | h | h | h | h | h | h
         · exact h1 h
         all_goals omega)
  obtain ⟨e, he, hc⟩ := key
  refine ⟨e, he, fun E => ?_⟩
  unfold EA.optimize
  dsimp only
  rw [hc]
  rfl

example : (EADemo.cfg 4 2 6 3).sizeInit + (EADemo.cfg 4 2 6 3).births ≤ (EADemo.cfg 4 2 6 3).deaths := by
  decide +kernel

set_option maxRecDepth 100000 in
/-- Not true: two individuals, one birth and two deaths are accepted, but the last death leaves one
individual, whose reproduction probability 1 is refused. -/
theorem C13_false : ¬ C13_full ℚ := by
  intro h
  obtain ⟨a, h1, h2⟩ := EADemo.of_test (r := EA.initializePopulation (EADemo.env 5)
    { EADemo.cfg 2 1 2 1 with total := 0 }) (P := fun a => EADemo.test
      (EA.addNewIndividuals (EADemo.env 5) a) (fun b => EADemo.test b.population.updateProperties
        (fun p => EADemo.deathsRunOut b p))) (by decide +kernel)
  obtain ⟨b, h3, h4⟩ := EADemo.of_test h2
  obtain ⟨p, h5, h6⟩ := EADemo.of_test h4
  have hor := h _ (EADemo.cfg 2 1 2 1) a b p 0 (EADemo.draws 5) (EADemo.box 2 1 2 1) rfl
    (by decide +kernel) (GenPoint.start h1) h3 h5
  unfold EADemo.deathsRunOut at h6
  rw [Bool.and_eq_true, Bool.and_eq_true] at h6
  obtain ⟨⟨t0, t1⟩, t2⟩ := h6
  rcases hor with ⟨j, c, x, q, e, hj, hc, hx, hq, hlen, hfit⟩ | ⟨c, hc⟩
  · have hj' : j = 0 ∨ j = 1 := by
      have : (EADemo.cfg 2 1 2 1).deaths = 2 := rfl
      omega
    rcases hj' with rfl | rfl
    · obtain ⟨c', e1, t⟩ := EADemo.of_test t0
      rw [hc] at e1; obtain rfl := Except.ok.inj e1
      obtain ⟨x', e1, t⟩ := EADemo.of_test t
      rw [hx] at e1; obtain rfl := Except.ok.inj e1
      obtain ⟨q', e1, t⟩ := EADemo.of_test t
      rw [hq] at e1; obtain rfl := Except.ok.inj e1
      obtain ⟨q'', e1, -⟩ := EADemo.of_test t
      rw [hfit] at e1; cases e1
    · obtain ⟨c', e1, t⟩ := EADemo.of_test t1
      rw [hc] at e1; obtain rfl := Except.ok.inj e1
      obtain ⟨x', e1, t⟩ := EADemo.of_test t
      rw [hx] at e1; obtain rfl := Except.ok.inj e1
      obtain ⟨q', e1, t⟩ := EADemo.of_test t
      rw [hq] at e1; obtain rfl := Except.ok.inj e1
      have := of_decide_eq_true t
      omega
  · have hc' : EA.removeIndividuals (EADemo.env 5) 2 { b with population := p } = .ok c := hc
    rw [hc'] at t2
    simp [EADemo.test] at t2

/-- If there are at least two initial individuals and no more deaths than births, then after every
generation at least `N` individuals are left, and the deaths of a generation can fail only in the
fitness update of at least two survivors.  Missing: more deaths than births (`C13_false`,
`C13_runs_out`). -/
theorem C13_partial {E : EAEnv K} (hE : Draws E) {o a : EA K} {k : Nat}
    (hB : IsBox o.dim o.lb o.ub) (hr : o.removed.dim = o.dim) (hN : 2 ≤ o.sizeInit)
    (hd : o.deaths ≤ o.births) (hp : GenPoint E o k a) :
    o.sizeInit ≤ a.population.inds.length ∧
    ∀ b p, EA.addNewIndividuals E a = .ok b → b.population.updateProperties = .ok p →
      FitnessFails E o.deaths { b with population := p } ∨
      ∃ c, EA.removeIndividuals E o.deaths { b with population := p } = .ok c ∧
        c.population.inds.length + o.deaths = a.population.inds.length + o.births := by
  have hs := (EA.genPoint_size hE hB hp).1
  have hle : o.sizeInit ≤ a.population.inds.length := by
    have := Nat.mul_le_mul_left k hd; omega
  refine ⟨hle, ?_⟩
  intro b p hb hu
  have hpa := EA.genPoint_point hp
  have hIa := EA.point_inv hE hB hpa
  obtain ⟨ys, hys⟩ := hIa.of_births hE hB hb
  have hIu := EA.point_inv hE hB ((hpa.births hb).update hu)
  have hyl := congrArg List.length hys.ids
  simp only [List.length_map, List.length_range'] at hyl
  obtain ⟨-, -, -, -, -, -, e7, -⟩ := EA.cfg_eq hIa.cfg
  have hpl : p.inds.length = a.population.inds.length + o.births := by
    rw [(Pop.updateProperties_post _ _ hu).2.length, hys.pop, List.length_append, hyl, e7]
  rcases EA.removeIndividuals_cases hE hr o.deaths _ hIu ⟨_, hu⟩ (by show _ ≤ p.inds.length; omega)
    with h | ⟨c, hc, -, hcl⟩
  · exact Or.inl h
  · exact Or.inr ⟨c, hc, by have : _ = p.inds.length := hcl; omega⟩

/-- The hypotheses are met. -/
example : ∃ a, GenPoint (EADemo.env' 5) (EADemo.cfg 3 2 1 2) 0 a ∧
    (EADemo.cfg 3 2 1 2).removed.dim = (EADemo.cfg 3 2 1 2).dim := by
  obtain ⟨a, h1, -⟩ := EADemo.of_test (r := EA.initializePopulation (EADemo.env' 5)
    { EADemo.cfg 3 2 1 2 with total := 0 }) (P := fun _ => true) (by decide +kernel)
  exact ⟨a, GenPoint.start h1, rfl⟩

end Rodeo
