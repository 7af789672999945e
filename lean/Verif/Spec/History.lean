import Verif.Spec.Mat
import Verif.Spec.Box
import Verif.Model.InitHistory

/-! # Specification: histories, optima, feasibility, crowding

A history matrix with `m` columns has one row per design: the design parameters (columns
`0 .. dim-1`), the objective (column `dim`), the constraint values, the improvement (column `m-2`)
and the feasibility flag (column `m-1`). -/

namespace Rodeo.Spec

variable {K : Type} [Field K] [LinearOrder K] [IsStrictOrderedRing K]

/-- The documented layout of the row of one design. -/
def historyRow (d : Design K) (nc : Nat) : List K :=
  d.params ++ [d.trueValue] ++ d.constraintTrueValues.take nc ++
    [d.improvement, if d.feasible then 1 else 0]

/-- The documented column names: the given names of the parameters, or `x1, x2, ...`, then the
objective, the constraints, the improvement and the feasibility. -/
def historyColumns (dim : Nat) (parameters constraints : List Text.Str) : List Text.Str :=
  (if parameters = [] then (List.range dim).map fun i => 'x' :: Nat.toDigits 10 (i + 1)
    else parameters) ++ ["Objective".toList] ++ constraints ++
    ["Improvement".toList, "Feasibility".toList]

/-- Row `i` is flagged feasible. -/
def FeasibleRow (F : Nat → Nat → K) (m i : Nat) : Prop := 0 < F i (m - 1)

/-- Row `k` with the given flag is what the global optimum of the `n x m` history `F` has to be. -/
def IsOptimum (F : Nat → Nat → K) (n m dim k : Nat) (flag : Bool) : Prop :=
  k < n ∧
  ((∃ i, i < n ∧ FeasibleRow F m i) →
    flag = true ∧ FeasibleRow F m k ∧ (∀ i, i < n → FeasibleRow F m i → F k dim ≤ F i dim) ∧
      ∀ i, i < k → FeasibleRow F m i → F k dim < F i dim) ∧
  ((∀ i, i < n → ¬ FeasibleRow F m i) →
    flag = false ∧ (∀ i, i < n → F k dim ≤ F i dim) ∧ ∀ i, i < k → F k dim < F i dim)

/-- The design describes row `k` of the history: parameters, objective, constraints, improvement,
and its normalized parameters are the parameters scaled from the box to `[0, 1/dimension]`. -/
def DescribesRow (g : GlobalDesign K) (F : Nat → Nat → K) (m k : Nat) : Prop :=
  g.design.id = k ∧
  g.design.params = (List.range g.design.dimension).map (F k) ∧
  g.design.trueValue = F k g.design.dimension ∧
  g.design.constraintTrueValues =
    (List.range g.design.numberOfConstraints).map (fun i => F k (g.design.dimension + 1 + i)) ∧
  g.design.improvement = F k (m - 2) ∧
  g.design.paramsNormalized = (List.range g.design.dimension).map (fun i =>
    (F k i - g.box.lb.getD i 0) / (g.box.ub.getD i 0 - g.box.lb.getD i 0) / (g.design.dimension : K))

/-- The least objective value of the feasible rows, `none` if there is no feasible row. -/
def IsBestFeasible (F : Nat → Nat → K) (n m dim : Nat) : Option K → Prop
  | none => ∀ i, i < n → ¬ FeasibleRow F m i
  | some r => (∃ i, i < n ∧ FeasibleRow F m i ∧ F i dim = r) ∧
      ∀ i, i < n → FeasibleRow F m i → r ≤ F i dim

/-- What the improvement of design number `i` is measured against: the best feasible initial sample;
without one, the first feasible design before number `i`, if there is one. -/
def reference (initial : Option K) (designs : List (Bool × K)) (i : Nat) : Option K :=
  match initial with
  | some r => some r
  | none => ((designs.take i).find? (fun d => d.1)).map (fun d => d.2)

/-- `x` satisfies the inequality of the constraint. -/
def Holds (c : Constraint K) (v : K) : Prop :=
  (c.type = ['<'] ∧ v < c.target) ∨ (c.type = ['>'] ∧ c.target < v)

/-- The constraint is known to be satisfied at `x`: the user's function satisfies it there, or the
first row of the training data whose input is `x` (up to 1e-8 in every coordinate) does. -/
def SatisfiedAt (dim : Nat) (c : Constraint K) (x : Nat → K) : Prop :=
  match c.source with
  | .user f => Holds c (f ((List.range dim).map x))
  | .data D => ∃ p v, p < D.nrows ∧ D.at' p dim = .ok v ∧ Holds c v ∧
      (∀ j, j < dim → ∃ a, D.at' p j = .ok a ∧ |a - x j| ≤ 1 / 10 ^ 8) ∧
      ∀ q, q < p → ¬ ∀ j, j < dim → ∃ a, D.at' q j = .ok a ∧ |a - x j| ≤ 1 / 10 ^ 8

/-- A constraint the optimizer can work with: one of the two inequality types, a target between the
values used for missing data, and training data with at least one row and an output column. -/
def UsableConstraint (dim : Nat) (c : Constraint K) : Prop :=
  (c.type = ['<'] ∨ c.type = ['>']) ∧ -10 ^ 15 ≤ c.target ∧ c.target ≤ 10 ^ 15 ∧
  match c.source with
  | .user _ => True
  | .data D => ∃ n m F, IsMat D n m F ∧ 0 < n ∧ dim < m

/-- L1 distance of rows `i` and `j` in the first `dim` columns. -/
def rowDist (dim : Nat) (F : Nat → Nat → K) (i j : Nat) : K :=
  ∑ k ∈ Finset.range dim, |F i k - F j k|

/-- Mean of the distance over the unordered pairs of distinct rows among `n`; 0 if there are none.
(Every unordered pair is counted twice in the sum and in `n * (n - 1)`.) -/
def meanPairwise (n dim : Nat) (F : Nat → Nat → K) : K :=
  (∑ i ∈ Finset.range n, ∑ j ∈ Finset.range n, if i = j then 0 else rowDist dim F i j) /
    ((n : K) * (n - 1))

/-- The number of ordered pairs of distinct rows among `n` in 32-bit unsigned arithmetic. -/
def pairCount32 (n : Nat) : Nat := n * (n - 1) % 2 ^ 32

/-- The value reported as the crowding of `n` rows: the distances summed over the ordered pairs, divided
by the number of these pairs in 32-bit unsigned arithmetic; 0 if that number is 0.  It is `meanPairwise`
for up to 65536 rows (`C33_partial`) and not for more (`C33_overflow`). -/
def reportedCrowding (n dim : Nat) (F : Nat → Nat → K) : K :=
  (∑ i ∈ Finset.range n, ∑ j ∈ Finset.range n, if i = j then 0 else rowDist dim F i j) /
    (pairCount32 n : K)

end Rodeo.Spec
