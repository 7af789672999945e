import Verif.Model.OptimumGradient
import Verif.Props.Mat
import Verif.Lemmas.Vec
import Verif.Lemmas.Post
import Mathlib.Tactic.IntervalCases

/-! # C102: the gradient of the global optimum -/

set_option linter.unusedSectionVars false

namespace Rodeo
open Text Spec

variable {K : Type} [Field K] [LinearOrder K] [IsStrictOrderedRing K] [FloorRing K]

namespace Spec

/-- `F` is a table of training data with `n` rows of `dim` parameters, one value and, in the last
columns, `extra` other numbers, and the file has these numbers. -/
structure TrainingTable (file : Option Str) (n dim extra : Nat) (F : Nat → Nat → K) : Prop where
  rows : 0 < n
  read : ∃ A : Mat K, Mat.readFromCSV file false = .ok A ∧ IsMat A n (dim + 1 + extra) F

/-- The parameters `x` are those of row `i`, up to `10 ^ (-5)` in every parameter. -/
def SameDesign (F : Nat → Nat → K) (i : Nat) (x : List K) : Prop :=
  ∀ j, j < x.length → |F i j - vecFun x j| ≤ 1 / 10 ^ 5

end Spec

theorem drop_range_map (f : Nat → K) (a b : Nat) :
    ((List.range (a + b)).map f).drop a = (List.range b).map fun j => f (a + j) := by
  apply List.ext_getElem
  · simp
  · intro i h1 h2
    simp

theorem GlobalDesign.setGradient_eq {g : GlobalDesign K} {name : Str} {file : Option Str}
    {n extra : Nat} {F : Nat → Nat → K} (hname : name ≠ []) (hdim : 0 < g.design.dimension)
    (hp : g.design.params.length = g.design.dimension)
    (hF : TrainingTable file n g.design.dimension extra F) :
    (∃ i, i < n ∧ SameDesign F i g.design.params ∧
      (∀ k, k < i → ¬ SameDesign F k g.design.params) ∧
      g.setGradient name file =
        if 1 + extra < g.design.dimension then .error .runtimeError
        else .ok { g with design := { g.design with
          gradient := (List.range g.design.dimension).map fun j => F i (1 + extra + j) } }) ∨
    ((∀ i, i < n → ¬ SameDesign F i g.design.params) ∧
      g.setGradient name file = .error .runtimeError) := by
  obtain ⟨A, hA, hm⟩ := hF.read
  have hn := hF.rows
  obtain ⟨r1, r2, -, -⟩ := id hm
  obtain ⟨I, hI, hI'⟩ := Mat.submat_ok hm (r0 := 0) (r1 := n - 1) (c0 := 0)
    (c1 := g.design.dimension - 1) (by omega) (by omega) (by omega) (by omega)
  have e1 : n - 1 - 0 + 1 = n := by omega
  have e2 : g.design.dimension - 1 - 0 + 1 = g.design.dimension := by omega
  rw [e1, e2] at hI'
  have hf := C49_findRowIndex hI' g.design.params (1 / 10 ^ 5)
  rw [if_neg (by simp [hp])] at hf
  have start : g.setGradient name file = (do
      let i ← I.findRowIndex g.design.params (1 / 10 ^ 5)
      if i = -1 then .error .runtimeError
      else do
        let row ← A.getRow i
        if row.length < g.design.dimension * 2 then .error .runtimeError
        else do
          let gradient ← Vec.tail row g.design.dimension
          .ok { g with design := { g.design with gradient := gradient } }) := by
    unfold GlobalDesign.setGradient
    rw [if_neg hname, if_neg (by omega), if_neg (by omega), hA]
    show (if A.nrows = 0 ∨ A.ncols < g.design.dimension then _ else _) = _
    rw [if_neg (by omega), r1, hI]
    rfl
  have same : ∀ i, SameDesign F i g.design.params ↔
      ∀ j, j < g.design.dimension → |F (0 + i) (0 + j) - vecFun g.design.params j| ≤ 1 / 10 ^ 5 := by
    intro i
    simp only [SameDesign, hp, Nat.zero_add]
  rcases hf with ⟨p, h1, h2, h3, h4⟩ | ⟨h1, h2⟩
  · refine Or.inl ⟨p, h2, (same p).2 h3, ?_, ?_⟩
    · intro k hk hs
      obtain ⟨j, j1, j2⟩ := h4 k hk
      exact absurd ((same k).1 hs j j1) (not_le.2 j2)
    · rw [start, h1]
      refine bind_eq rfl ?_
      rw [if_neg (by omega)]
      refine bind_eq (Mat.getRow_ok hm h2 (Or.inl rfl)) ?_
      simp only [List.length_map, List.length_range]
      by_cases hx : 1 + extra < g.design.dimension
      · rw [if_pos (by omega), if_pos hx]
      · rw [if_neg (by omega), if_neg hx, Vec.tail_eq _ (by simp; omega)]
        have e3 : ((List.range (g.design.dimension + 1 + extra)).map fun j => F p j).length -
            g.design.dimension = 1 + extra := by simp; omega
        have e4 : g.design.dimension + 1 + extra = 1 + extra + g.design.dimension := by omega
        rw [e3, e4, drop_range_map]
        rfl
  · refine Or.inr ⟨?_, by rw [start, h1]; rfl⟩
    intro i hi hs
    obtain ⟨j, j1, j2⟩ := h2 i hi
    exact absurd ((same i).1 hs j j1) (not_le.2 j2)

/-- The full claim: whatever training data there are, with gradients (`extra = dimension`) or only with
values (`extra = 0`), a gradient that is attached to the optimum is that of a row with its parameters. -/
def C102_full (K : Type) [Field K] [LinearOrder K] [IsStrictOrderedRing K] [FloorRing K] : Prop :=
  ∀ (g g' : GlobalDesign K) (name : Str) (file : Option Str) (n extra : Nat) (F : Nat → Nat → K),
    0 < g.design.dimension → g.design.params.length = g.design.dimension →
    TrainingTable file n g.design.dimension extra F → (extra = g.design.dimension ∨ extra = 0) →
    g.setGradient name file = .ok g' →
      extra = g.design.dimension ∧ ∃ i, i < n ∧ SameDesign F i g.design.params ∧
        g'.design.gradient = (List.range g.design.dimension).map fun j => F i (g.design.dimension + 1 + j)

/-- **C102 for training data with gradients**: the optimum gets the gradient of the first row with its
parameters and is otherwise unchanged; without such a row the call throws. -/
theorem C102_partial {g : GlobalDesign K} {name : Str} {file : Option Str} {n : Nat}
    {F : Nat → Nat → K} (hname : name ≠ []) (hdim : 0 < g.design.dimension)
    (hp : g.design.params.length = g.design.dimension)
    (hF : TrainingTable file n g.design.dimension g.design.dimension F) :
    (∃ i, i < n ∧ SameDesign F i g.design.params ∧ (∀ k, k < i → ¬ SameDesign F k g.design.params) ∧
      g.setGradient name file = .ok { g with design := { g.design with
        gradient := (List.range g.design.dimension).map fun j => F i (g.design.dimension + 1 + j) } }) ∨
    ((∀ i, i < n → ¬ SameDesign F i g.design.params) ∧
      g.setGradient name file = .error .runtimeError) := by
  rcases GlobalDesign.setGradient_eq hname hdim hp hF with ⟨i, h1, h2, h3, h4⟩ | h
  · refine Or.inl ⟨i, h1, h2, h3, ?_⟩
    rw [h4, if_neg (by omega), Nat.add_comm 1 g.design.dimension]
  · exact Or.inr h

/-- **C102 for training data without gradients**: with at least two parameters the call throws. -/
theorem C102_values {g : GlobalDesign K} {name : Str} {file : Option Str} {n : Nat}
    {F : Nat → Nat → K} (hname : name ≠ []) (hdim : 2 ≤ g.design.dimension)
    (hp : g.design.params.length = g.design.dimension)
    (hF : TrainingTable file n g.design.dimension 0 F) :
    g.setGradient name file = .error .runtimeError := by
  rcases GlobalDesign.setGradient_eq hname (by omega) hp hF with ⟨i, -, -, -, h4⟩ | h
  · rw [h4, if_pos (by omega)]
  · exact h.2

/-- Whatever is read, the call changes nothing but the gradient. -/
theorem C102_only_gradient {g g' : GlobalDesign K} {name : Str} {file : Option Str}
    (h : g.setGradient name file = .ok g') :
    g' = { g with design := { g.design with gradient := g'.design.gradient } } ∧
      g'.design.gradient.length = g.design.dimension := by
  unfold GlobalDesign.setGradient at h
  split_ifs at h
  obtain ⟨A, -, h⟩ := bind_ok_inv h
  split_ifs at h
  obtain ⟨I, -, h⟩ := bind_ok_inv h
  obtain ⟨i, -, h⟩ := bind_ok_inv h
  split_ifs at h
  obtain ⟨row, -, h⟩ := bind_ok_inv h
  split_ifs at h with hl
  obtain ⟨gr, e, h⟩ := bind_ok_inv h
  rw [Vec.tail_eq _ (by omega)] at e
  obtain rfl := Except.ok.inj e
  obtain rfl := Except.ok.inj h
  refine ⟨rfl, ?_⟩
  simp only [List.length_drop]
  omega

namespace GradientDemo

/-- An optimum with two parameters. -/
def g : GlobalDesign ℚ := ⟨{ Design.ofVec [(1 : ℚ) / 2, 2] with dimension := 2 }, ⟨[0, 0], [4, 4], 2, true⟩⟩

/-- The file of three samples with gradients. -/
def file : Option Str := some "0,1,7,-1,-2\n0.5,2,3,4,5\n0.500001,2,9,8,7\n".toList

end GradientDemo

/-- The second row is found, and the file meets the hypotheses of `C102_partial`. -/
example : (GradientDemo.g.setGradient "f.csv".toList GradientDemo.file).map (·.design.gradient) =
    .ok [4, 5] := by decide +kernel

example : ∃ F : Nat → Nat → ℚ, TrainingTable GradientDemo.file 3 GradientDemo.g.design.dimension
    GradientDemo.g.design.dimension F ∧ 0 < GradientDemo.g.design.dimension ∧
    GradientDemo.g.design.params.length = GradientDemo.g.design.dimension := by
  refine ⟨fun i j => ((⟨3, 5, [0, 1/2, 500001/1000000, 1, 2, 2, 7, 3, 9, -1, 4, 8, -2, 5, 7]⟩ : Mat ℚ).buf).getD
    (j * 3 + i) 0, ⟨by decide, ⟨3, 5, [0, 1/2, 500001/1000000, 1, 2, 2, 7, 3, 9, -1, 4, 8, -2, 5, 7]⟩,
    by decide +kernel, rfl, rfl, rfl, ?_⟩, by decide +kernel, by decide +kernel⟩
  intro i j hi hj
  have : j < 5 := hj
  interval_cases i <;> interval_cases j <;> decide +kernel

/-- A file with values only is refused. -/
example : GradientDemo.g.setGradient "f.csv".toList (some "0,1,7\n0.5,2,3\n".toList) =
    .error .runtimeError := by decide +kernel

/-- **C102 fails** for one parameter and values only: the value 5 of the sample is taken as the
gradient. -/
theorem C102_false : ¬ C102_full ℚ := by
  intro h
  have := (h ⟨{ Design.ofVec [(0 : ℚ)] with dimension := 1 }, ⟨[0], [2], 1, true⟩⟩
    ⟨{ Design.ofVec [(0 : ℚ)] with dimension := 1, gradient := [5] }, ⟨[0], [2], 1, true⟩⟩ "f.csv".toList
    (some "0,5\n".toList) 1 0 (fun _ j => if j = 0 then 0 else 5) (by decide +kernel) (by decide +kernel)
    ⟨by decide, ⟨1, 2, [0, 5]⟩, by decide +kernel, rfl, rfl, rfl, by
      intro i j hi hj
      have : j < 2 := hj
      interval_cases i; interval_cases j <;> decide +kernel⟩ (Or.inr rfl) (by decide +kernel)).1
  revert this
  decide +kernel

end Rodeo
