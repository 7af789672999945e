import Verif.Lemmas.DblEAGene
import Verif.Lemmas.EASelect
import Mathlib.Data.Rat.Floor

/-! # C135, C136: runs of the evolutionary optimizer in double arithmetic -/

set_option linter.unusedSectionVars false

namespace Rodeo
open Spec

variable {K : Type} [Field K] [LinearOrder K] [IsStrictOrderedRing K] [FloorRing K]

namespace DblEADemo

/-- Objective `x + 1` in one dimension. -/
def f : List ℚ → Res ℚ
  | [a] => .ok (a + 1)
  | _ => .error .logicError

/-- Draws: parents and deaths alternate between the two ends of the wheel, the initial genes are `1/2`, `7/8`
and `1/4`, genes are not mutated, and every normal draw is `1000`. -/
def env : EAEnv ℚ where
  f := f
  pick := fun i => if i % 2 = 0 then 0 else 9999 / 10000
  vecs := fun k _ => if k = 0 then 1 / 2 else if k = 1 then 7 / 8 else 1 / 4
  muts := fun _ => 3 / 4
  nrm := fun _ => 1000
  fuel := 5

/-- Settings: box `[0,1]`, `N` initial individuals, `b` births and `d` deaths per generation, `g`
generations, at most `M` evaluations. -/
def cfg (N b d g M : Nat) : EA ℚ :=
  { (EA.new.setDimension 1 : EA ℚ) with
    lb := [0], ub := [1], boundsSet := true, maxEvals := M, sizeInit := N, births := b,
    deaths := d, gens := g, mutProb := 1 / 2 }

theorem draws : DblDraws env := by
  refine ⟨⟨?_, ?_, ?_⟩, ?_⟩
  · intro i; simp only [env]; split_ifs <;> norm_num
  · intro k j; simp only [env]; split_ifs <;> norm_num
  · intro i; simp only [env]; norm_num
  · intro k j; simp only [env]
    split_ifs
    · exact ⟨1, -1, by norm_num, by norm_num, by norm_num⟩
    · exact ⟨7, -3, by norm_num, by norm_num, by norm_num⟩
    · exact ⟨1, -2, by norm_num, by norm_num, by norm_num⟩

theorem box (N b d g M : Nat) :
    IsDblBox (cfg N b d g M).dim (cfg N b d g M).lb (cfg N b d g M).ub := by
  refine ⟨⟨rfl, rfl, ?_⟩, ?_, ?_⟩
  · intro i l u hl hu
    match i with
    | 0 => simp [cfg] at hl hu; subst hl hu; norm_num
    | i + 1 => simp [cfg] at hl
  · intro x hx; simp only [cfg, List.mem_singleton] at hx; rw [hx]; exact Dbl.isDouble_zero
  · intro x hx; simp only [cfg, List.mem_singleton] at hx; rw [hx]; exact Dbl.isDouble_one

/-- The call returns and its value passes the test. -/
def test {α : Type} (r : Res α) (P : α → Bool) : Bool :=
  match r with
  | .ok a => P a
  | .error _ => false

theorem of_test {α : Type} {r : Res α} {P : α → Bool} (h : test r P = true) :
    ∃ a, r = .ok a ∧ P a = true := by
  cases r with
  | ok a => exact ⟨a, rfl, h⟩
  | error e => cases h

end DblEADemo

/-! ## C135 -/

/-- Every design evaluated, every member of the final population and every individual added to the history during
a run in double arithmetic lies in the box, exactly. -/
theorem C135_in_box {E : EAEnv K} (hE : DblDraws E) {o o' : EA K} (hB : IsDblBox o.dim o.lb o.ub)
    (h : DblEA.optimize E o = .ok o') :
    (∃ L, o'.evaluated = o.evaluated ++ L ∧ ∀ x ∈ L, InBox o.lb o.ub x) ∧
    (∃ H, o'.history.inds = o.history.inds ++ H ∧ ∀ x ∈ H, InBox o.lb o.ub x.genes) ∧
    (∀ x ∈ o'.population.inds, InBox o.lb o.ub x.genes) := by
  obtain ⟨k, xs, ys, hr⟩ := DblEA.optimize_run hE hB h
  refine ⟨⟨_, hr.evals, ?_⟩, ⟨_, hr.hist, fun x hx => (hr.good x hx).1⟩, ?_⟩
  · intro g hg
    obtain ⟨x, hx, rfl⟩ := List.mem_map.1 hg
    exact (hr.good x hx).1
  · intro x hx
    exact (EA.pop_lengths (xs := xs ++ ys) (ys := []) (by simpa using hr.pop) hr.good (by simp) x hx).1

/-- The objective function is never called outside of the box, not even in a run that fails or overflows: a
function that differs outside of the box gives the same outcome. -/
theorem C135_never_called_outside {E : EAEnv K} (hE : DblDraws E) {o : EA K}
    (hB : IsDblBox o.dim o.lb o.ub) (g : List K → Res K)
    (hg : ∀ x, InBox o.lb o.ub x → E.f x = g x) : DblEA.optimize E o = DblEA.optimize (withF E g) o :=
  (DblEA.optimize_rel hE hg hB).1

set_option maxRecDepth 100000 in
/-- A run with normal draws of size 1000, which leave the box before the clamping. -/
example : ∃ o', DblEA.optimize DblEADemo.env (DblEADemo.cfg 3 2 1 2 100) = .ok o' ∧
    o'.evaluated = [[1/2], [7/8], [1/4], [1], [1], [1], [1]] := by
  obtain ⟨a, h1, h2⟩ := DblEADemo.of_test (r := DblEA.optimize DblEADemo.env (DblEADemo.cfg 3 2 1 2 100))
    (P := fun a => a.evaluated = [[1/2], [7/8], [1/4], [1], [1], [1], [1]]) (by decide +kernel)
  exact ⟨a, h1, of_decide_eq_true h2⟩

/-- A completed run in double arithmetic makes exactly `N + k b` evaluations, where `k` is the least number of
generations in `1..G` with `N + k b ≥ M`, or `G`; hence at most `max (N + b) (M + b - 1)`. -/
theorem C135_budget {E : EAEnv K} (hE : DblDraws E) {o o' : EA K} (hB : IsDblBox o.dim o.lb o.ub)
    (h : DblEA.optimize E o = .ok o') :
    ∃ k, 1 ≤ k ∧ k ≤ o.gens ∧
      o'.evaluated.length = o.evaluated.length + (o.sizeInit + k * o.births) ∧
      (∀ j, 1 ≤ j → j < k → o.sizeInit + j * o.births < o.maxEvals) ∧
      (k = o.gens ∨ o.maxEvals ≤ o.sizeInit + k * o.births) ∧
      o.sizeInit + k * o.births ≤ max (o.sizeInit + o.births) (o.maxEvals + o.births - 1) := by
  obtain ⟨k, xs, ys, hr⟩ := DblEA.optimize_run hE hB h
  refine ⟨k, hr.pos, hr.le, ?_, hr.before, hr.stop, ?_⟩
  · have e1 := congrArg List.length hr.idsX
    have e2 := congrArg List.length hr.idsY
    simp only [List.length_map, List.length_range'] at e1 e2
    rw [hr.evals]
    simp only [List.length_append, List.length_map]
    omega
  · by_cases hk : k = 1
    · subst hk; simp
    · have h1 := hr.before (k - 1) (by have := hr.pos; omega) (by have := hr.pos; omega)
      have e : k * o.births = (k - 1) * o.births + o.births := by
        have : k = k - 1 + 1 := by have := hr.pos; omega
        rw [this, Nat.add_mul, one_mul, Nat.add_sub_cancel]
      omega

set_option maxRecDepth 100000 in
/-- Budget 5, three initial individuals, one birth: stopped after two of four generations. -/
example : ∃ o', DblEA.optimize DblEADemo.env (DblEADemo.cfg 3 1 1 4 5) = .ok o' ∧ o'.evaluated.length = 5 := by
  obtain ⟨a, h1, h2⟩ := DblEADemo.of_test (r := DblEA.optimize DblEADemo.env (DblEADemo.cfg 3 1 1 4 5))
    (P := fun a => a.evaluated.length = 5) (by decide +kernel)
  exact ⟨a, h1, of_decide_eq_true h2⟩

/-- The solution returned by a completed run in double arithmetic is a member of the final population, its design
and value are what the getters deliver, the value is exactly what the objective function delivers for the design,
and it is the smallest value of the population unless the ID of the solution is `N`, which two individuals
share. -/
theorem C135_solution {E : EAEnv K} (hE : DblDraws E) {o o' : EA K} (hB : IsDblBox o.dim o.lb o.ub)
    (h : DblEA.optimize E o = .ok o') (hlt : ∃ y ∈ o'.population.inds, y.obj < dblMax) :
    ∃ x ∈ o'.population.inds, o'.getSolution = .ok x ∧ o'.getBestDesignVector = .ok x.genes ∧
      o'.getBestObjectiveFunctionValue = .ok x.obj ∧ E.f x.genes = .ok x.obj ∧
      (x.id ≠ o.sizeInit → ∀ y ∈ o'.population.inds, x.obj ≤ y.obj) := by
  obtain ⟨k, xs, ys, hr⟩ := DblEA.optimize_run hE hB h
  obtain ⟨z, hz, hzo, hzi⟩ := hr.minMax.minAt hlt
  have hzmin : ∀ y ∈ o'.population.inds, z.obj ≤ y.obj := by
    intro y hy; rw [hzo]; exact hr.minMax.minLe.2 y hy
  obtain ⟨x, hx, hg, hxi⟩ := Pop.getIndividual_ok (p := o'.population) (id := o'.population.idMin)
    ⟨z, hz, hzi⟩
  have hsol : o'.getSolution = .ok x := hg
  have hgood := EA.pop_lengths (xs := xs ++ ys) (ys := []) (by simpa using hr.pop) hr.good (by simp) x hx
  refine ⟨x, hx, hsol, ?_, ?_, hgood.2.2, ?_⟩
  · unfold EA.getBestDesignVector; exact bind_eq hsol rfl
  · unfold EA.getBestObjectiveFunctionValue; exact bind_eq hsol rfl
  · intro hne
    have hsub := (EA.ids_of_core hr.pop).count_le x.id
    have hcount : ((xs ++ ys).map (·.id)).count x.id ≤ 1 := by
      rw [List.map_append, hr.idsX, hr.idsY, List.count_append]
      have c1 : (List.range' 1 o.sizeInit).count x.id ≤ 1 :=
        List.nodup_iff_count_le_one.1 List.nodup_range' _
      have c2 : (List.range' o.sizeInit (k * o.births)).count x.id ≤ 1 :=
        List.nodup_iff_count_le_one.1 List.nodup_range' _
      by_cases hm : x.id ∈ List.range' 1 o.sizeInit
      · have : x.id ∉ List.range' o.sizeInit (k * o.births) := by
          rw [List.mem_range'_1] at hm ⊢; omega
        rw [List.count_eq_zero.2 this]; omega
      · rw [List.count_eq_zero.2 hm]; omega
    have : x = z := Pop.unique_of_count (hsub.trans hcount) hx hz rfl (by rw [hzi, hxi])
    rw [this]; exact hzmin

set_option maxRecDepth 100000 in
/-- A run that meets the hypotheses and whose solution has an ID other than `N`: normal draws of size -1000 give
children at 0, the second of which has the ID 4. -/
example : ∃ o' x, DblEA.optimize { DblEADemo.env with nrm := fun i => if i = 0 then 1000 else -1000 }
      (DblEADemo.cfg 3 1 1 2 100) = .ok o' ∧ o'.getSolution = .ok x ∧ x.id = 4 ∧ x.genes = [0] ∧ x.obj = 1 ∧
      x.obj < dblMax := by
  obtain ⟨a, h1, h2⟩ := DblEADemo.of_test (r := DblEA.optimize
      { DblEADemo.env with nrm := fun i => if i = 0 then 1000 else -1000 } (DblEADemo.cfg 3 1 1 2 100))
    (P := fun a => DblEADemo.test a.getSolution (fun x => x.id = 4 ∧ x.genes = [0] ∧ x.obj = 1 ∧
      x.obj < dblMax)) (by decide +kernel)
  obtain ⟨x, h3, h4⟩ := DblEADemo.of_test h2
  exact ⟨a, x, h1, h3, of_decide_eq_true h4⟩

/-! ## C136 -/

/-- The full property: for parents with different genes, the gene drawn for the child with the standard normal
number `z` differs from the mean of the parents' genes by `z` times a sixth of their distance, up to rounding
(relative error `5/2^53` of the two terms, and denormal underflow). -/
def C136_full (K : Type) [Field K] [LinearOrder K] [IsStrictOrderedRing K] [FloorRing K] : Prop :=
  ∀ xs xe z : K, IsDouble xs → IsDouble xe → IsDouble z → |xs| ≤ 2 ^ (1000 : ℤ) → |xe| ≤ 2 ^ (1000 : ℤ) →
    |z| ≤ 2 ^ (10 : ℤ) → xe ≠ xs →
    ∃ r, DblEA.normalDraw xs xe z = .ok r ∧ IsDouble r ∧
      |r - (z * (|xe - xs| / 6) + (xe + xs) / 2)| ≤
        5 / 2 ^ 53 * (|z| * (|xe - xs| / 6) + |(xe + xs) / 2|) + (2 * |z| + 3) * 2 ^ (-1075 : ℤ)

set_option maxRecDepth 100000 in
/-- Not true: for the genes `0` and `2^-1074`, the smallest positive double, the standard deviation underflows to
zero and is then replaced by one: the child's gene is `z`. -/
theorem C136_false : ¬ C136_full ℚ := by
  intro h
  have h1 : DblEA.normalDraw (0 : ℚ) (2 ^ (-1074 : ℤ)) 1 = .ok 1 := by decide +kernel
  obtain ⟨r, hr, -, he⟩ := h 0 (2 ^ (-1074 : ℤ)) 1 Dbl.isDouble_zero
    ⟨1, -1074, by norm_num, by norm_num, by norm_num⟩ Dbl.isDouble_one (by decide +kernel) (by decide +kernel)
    (by decide +kernel) (by decide +kernel)
  rw [h1] at hr
  obtain rfl := Except.ok.inj hr
  revert he
  decide +kernel

/-- True for genes at least `2^-1000` apart.  Missing: closer genes (`C136_false`). -/
theorem C136_partial {xs xe z : K} (hs : IsDouble xs) (he : IsDouble xe) (hz : IsDouble z)
    (bs : |xs| ≤ 2 ^ (1000 : ℤ)) (be : |xe| ≤ 2 ^ (1000 : ℤ)) (bz : |z| ≤ 2 ^ (10 : ℤ))
    (hd : 2 ^ (-1000 : ℤ) ≤ |xe - xs|) :
    ∃ r, DblEA.normalDraw xs xe z = .ok r ∧ IsDouble r ∧
      |r - (z * (|xe - xs| / 6) + (xe + xs) / 2)| ≤
        5 / 2 ^ 53 * (|z| * (|xe - xs| / 6) + |(xe + xs) / 2|) + (2 * |z| + 3) * 2 ^ (-1075 : ℤ) := by
  have hne : xe ≠ xs := by
    rintro rfl
    rw [sub_self, abs_zero] at hd
    exact absurd hd (not_le.2 (Dbl.zp _))
  obtain ⟨r, h1, h2, h3⟩ := DblEA.normalDraw_total hs he hz bs be bz (Or.inr hd)
  rw [if_neg hne] at h3
  refine ⟨r, h1, h2, h3.trans (le_of_eq ?_)⟩
  rw [show (5 : K) / 2 ^ 53 = 5 * Dbl.eps by unfold Dbl.eps; ring]
  rfl

/-- For equal genes the standard deviation is one: the child's gene is the common gene plus `z`, up to
rounding. -/
theorem C136_equal {x z : K} (hx : IsDouble x) (hz : IsDouble z) (bx : |x| ≤ 2 ^ (1000 : ℤ))
    (bz : |z| ≤ 2 ^ (10 : ℤ)) :
    ∃ r, DblEA.normalDraw x x z = .ok r ∧ IsDouble r ∧
      |r - (x + z)| ≤ 5 / 2 ^ 53 * (|z| + |x|) + (2 * |z| + 3) * 2 ^ (-1075 : ℤ) := by
  obtain ⟨r, h1, h2, h3⟩ := DblEA.normalDraw_total hx hx hz bx bx bz (Or.inl rfl)
  rw [if_pos rfl, mul_one, mul_one, show (x + x) / 2 = x by ring, add_comm z x] at h3
  refine ⟨r, h1, h2, h3.trans (le_of_eq ?_)⟩
  rw [show (5 : K) / 2 ^ 53 = 5 * Dbl.eps by unfold Dbl.eps; ring]
  rfl

set_option maxRecDepth 100000 in
/-- The hypotheses are met by the genes 1/4 and 3/4 and by equal genes; the first draw is inexact, because a sixth
of 1/2 is not a double. -/
example : (2 ^ (-1000 : ℤ) : ℚ) ≤ |3 / 4 - 1 / 4| ∧
    DblEA.normalDraw (1 / 4 : ℚ) (3 / 4) 1 ≠ .ok (1 / 12 + 1 / 2) ∧
    DblEADemo.test (DblEA.normalDraw (1 / 4 : ℚ) (3 / 4) 1)
      (fun r => |r - (1 / 12 + 1 / 2)| ≤ 1 / 2 ^ 53 ∧ r ≠ 1 / 2) = true ∧
    DblEA.normalDraw (1 / 4 : ℚ) (1 / 4) 3 = .ok (13 / 4) := by
  refine ⟨by decide +kernel, by decide +kernel, by decide +kernel, by decide +kernel⟩

end Rodeo
