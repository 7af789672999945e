import Verif.Lemmas.Normalize
import Verif.Lemmas.CSV
import Verif.Spec.Derivative
import Mathlib.Analysis.Calculus.Deriv.Mul
import Mathlib.Analysis.Calculus.Deriv.Add
import Mathlib.Analysis.Calculus.Deriv.Comp
import Mathlib.Data.Rat.Floor

set_option linter.unusedSectionVars false

/-! # Derivative data after normalization (C73) -/

namespace Rodeo
open Spec Mat SMData Text

/-- An object that has been given its bounds, ratio and kind of data, and has read nothing yet. -/
structure Spec.Unread {K : Type} [Field K] [LinearOrder K] (d : SMData K) (dim : Nat) : Prop where
  noRows : d.rawDataValidation = Mat.empty
  noCount : d.numberOfValidationSamples = 0
  ratio0 : 0 ≤ d.ratio
  dim0 : d.dimension = 0 ∨ d.dimension = dim
  kind : ¬ (d.hasDirectional = true ∧ d.hasGradients = true)
  set : d.box.isSet = true
  boxDim : d.box.dim = dim
  lbLen : d.box.lb.length = dim
  ubLen : d.box.ub.length = dim
  lt : ∀ j, j < dim → vecFun d.box.lb j < vecFun d.box.ub j

section
variable (K : Type) [NontriviallyNormedField K] [LinearOrder K] [IsStrictOrderedRing K] [FloorRing K]

/-- The full property: if the derivative columns of the file are derivatives of some function of the
parameters, then after `readData` and `normalize` the stored derivatives are derivatives of the same
function of the normalized parameters, at the stored normalized points (and along the stored
directions). -/
def C73_full : Prop :=
  ∀ (d d1 d2 : SMData K) (file : Option Str) (A : Mat K) (n m dim k : Nat)
    (F X : Nat → Nat → K) (perm : List Nat) (f : (Fin dim → K) → K),
    readFromCSV file false = .ok A → IsMat A n m F → 0 < dim →
    m = dataColumns d.hasGradients d.hasDirectional dim → Unread d dim →
    perm.Perm (List.range n) →
    d.readData file perm = (d1, .ok ()) → d1.normalize = (d2, .ok ()) → IsMat d2.X k dim X →
    (d.hasGradients = true → (∀ r < n, IsGradAt f (rowAt F dim r 0) (rowAt F dim r (dim + 1))) →
      ∃ G, IsMat d2.gradient k dim G ∧
        ∀ i < k, IsGradAt (fun u => f (physical d.box.lb d.box.ub u)) (rowAt X dim i 0)
          (rowAt G dim i 0)) ∧
    (d.hasDirectional = true →
      (∀ r < n, IsDirDerivAt f (rowAt F dim r 0) (rowAt F dim r (dim + 2)) (F r (dim + 1))) →
      ∃ V, IsMat d2.differentiationDirections k dim V ∧ d2.directionalDerivatives.length = k ∧
        ∀ i < k, IsDirDerivAt (fun u => f (physical d.box.lb d.box.ub u)) (rowAt X dim i 0)
          (rowAt V dim i 0) (vecFun d2.directionalDerivatives i))

end

section
variable {K : Type} [NontriviallyNormedField K] [LinearOrder K] [IsStrictOrderedRing K]
  [FloorRing K]

theorem physical_norm {dim : Nat} (hdim : 0 < dim) {lb ub : List K}
    (hlt : ∀ j, j < dim → vecFun lb j < vecFun ub j) (x : Fin dim → K) :
    physical lb ub (fun j => 1 / (dim : K) * ((x j - vecFun lb j) / (vecFun ub j - vecFun lb j))) =
      x := by
  funext j
  have h1 : (dim : K) ≠ 0 := by exact_mod_cast (by omega : dim ≠ 0)
  have h2 : vecFun ub j - vecFun lb j ≠ 0 := (sub_pos.2 (hlt j j.2)).ne'
  simp only [physical]
  field_simp
  ring

/-- What is true: the property holds for gradients, for all bounds; for directional derivatives it
holds if the bounds of all parameters span intervals of the same length.  Missing for the full
property: directional derivatives with intervals of different lengths. -/
theorem C73_partial {d d1 d2 : SMData K} {file : Option Str} {A : Mat K} {n m dim k : Nat}
    {F X : Nat → Nat → K} {perm : List Nat} {f : (Fin dim → K) → K}
    (hread : readFromCSV file false = .ok A) (hA : IsMat A n m F) (hdim : 0 < dim)
    (hm : m = dataColumns d.hasGradients d.hasDirectional dim) (hd : Unread d dim)
    (hp : perm.Perm (List.range n))
    (h1 : d.readData file perm = (d1, .ok ())) (h2 : d1.normalize = (d2, .ok ()))
    (hX : IsMat d2.X k dim X) :
    (d.hasGradients = true → (∀ r < n, IsGradAt f (rowAt F dim r 0) (rowAt F dim r (dim + 1))) →
      ∃ G, IsMat d2.gradient k dim G ∧
        ∀ i < k, IsGradAt (fun u => f (physical d.box.lb d.box.ub u)) (rowAt X dim i 0)
          (rowAt G dim i 0)) ∧
    (d.hasDirectional = true →
      (∀ j < dim, vecFun d.box.ub j - vecFun d.box.lb j = vecFun d.box.ub 0 - vecFun d.box.lb 0) →
      (∀ r < n, IsDirDerivAt f (rowAt F dim r 0) (rowAt F dim r (dim + 2)) (F r (dim + 1))) →
      ∃ V, IsMat d2.differentiationDirections k dim V ∧ d2.directionalDerivatives.length = k ∧
        ∀ i < k, IsDirDerivAt (fun u => f (physical d.box.lb d.box.ub u)) (rowAt X dim i 0)
          (rowAt V dim i 0) (vecFun d2.directionalDerivatives i)) := by
  have hn : 0 < n := by
    cases file with
    | none => unfold readFromCSV at hread; cases hread
    | some text =>
      obtain ⟨n', m', F', hn', hA', -⟩ := readFromCSV_inv hread
      obtain ⟨rfl, -, -⟩ := isMat_unique hA' hA
      exact hn'
  obtain ⟨tr, va, hs, -, h3⟩ := readData_ok (R := []) hread hA hn hdim hm hd.dim0 hd.kind hd.ratio0
    (fun _ => hd.noCount) (by rw [hd.noRows]; exact hasRows_empty m) hp
  split_ifs at h3 with htr
  · rw [h1] at h3; cases h3
  obtain ⟨d1', e1, a1, a2, a3, -, a4, -, a5, a6, a7, -, a8, -, -, a9, a10, a11⟩ := h3
  rw [h1] at e1
  cases e1
  have htr' : ∀ i, i < tr.length → tr.getD i 0 < n := by
    intro i hi
    have : tr.getD i 0 ∈ tr := by simp [List.getD, hi]
    exact List.mem_range.1 (hs.1.mem_iff.1 (List.mem_append_left _ this))
  obtain ⟨d2', e2, -, -, -, -, -, -, -, -, -, b1, -, b2, b3, b4⟩ := normalize_ok (d := d1)
    (n := tr.length) (kv := va.length) (Fv := fun i j => ((([] : List (List K)) ++ va.map (tableRow F m)).getD i []).getD j 0)
    (G := fun i j => F (tr.getD i 0) (dim + 1 + j))
    hdim a7 a2 a1 a8 (fun h => (a9 (by
        intro hva; rw [a3, hva] at h; simp at h)).1) (by rw [a5]; exact a10)
    (by rw [a4]; exact hd.set) (by rw [a4]; exact hd.boxDim) (by rw [a4]; exact hd.lbLen)
    (by rw [a4]; exact hd.ubLen) (by rw [a4]; exact hd.lt)
  rw [h2] at e2
  cases e2
  rw [a4] at b1 b2 b3
  obtain ⟨rfl, -, hXe⟩ := isMat_unique hX b1
  have hpt : ∀ i < tr.length, physical d.box.lb d.box.ub (rowAt X dim i 0) =
      rowAt F dim (tr.getD i 0) 0 := by
    intro i hi
    have : rowAt X dim i 0 = fun j : Fin dim => 1 / (dim : K) *
        ((rowAt F dim (tr.getD i 0) 0 j - vecFun d.box.lb j) /
          (vecFun d.box.ub j - vecFun d.box.lb j)) := by
      funext j
      simp only [rowAt, Nat.zero_add]
      exact hXe i j hi j.2
    rw [this, physical_norm hdim hd.lt]
  have hdimK : (dim : K) ≠ 0 := by exact_mod_cast (by omega : dim ≠ 0)
  constructor
  · intro hg hf
    refine ⟨_, b2 (by rw [a5]; exact hg), fun i hi j => ?_⟩
    have hfi := hf _ (htr' i hi) j
    have hw : vecFun d.box.ub j - vecFun d.box.lb j ≠ 0 := (sub_pos.2 (hd.lt j j.2)).ne'
    have hin : HasDerivAt (fun t : K => vecFun d.box.lb j + (dim : K) * t *
        (vecFun d.box.ub j - vecFun d.box.lb j))
        ((vecFun d.box.ub j - vecFun d.box.lb j) * (dim : K)) (rowAt X dim i 0 j) := by
      have := ((hasDerivAt_id (rowAt X dim i 0 j)).const_mul
        ((dim : K) * (vecFun d.box.ub j - vecFun d.box.lb j))).const_add (vecFun d.box.lb j)
      refine (this.congr_deriv (by ring)).congr_of_eventuallyEq ?_
      exact Filter.Eventually.of_forall fun t => by simp only [id]; ring
    have hval : vecFun d.box.lb j + (dim : K) * rowAt X dim i 0 j *
        (vecFun d.box.ub j - vecFun d.box.lb j) = rowAt F dim (tr.getD i 0) 0 j := by
      rw [← hpt i hi]; rfl
    have hcomp := HasDerivAt.comp (h₂ := fun t => f (Function.update (rowAt F dim (tr.getD i 0) 0) j t))
      (h := fun t : K => vecFun d.box.lb j + (dim : K) * t *
        (vecFun d.box.ub j - vecFun d.box.lb j)) (rowAt X dim i 0 j)
      (by rw [hval]; exact hfi) hin
    refine (hcomp.congr_deriv ?_).congr_of_eventuallyEq ?_
    · simp only [rowAt, Nat.zero_add]
    · refine Filter.Eventually.of_forall fun t => ?_
      show f _ = f _
      congr 1
      funext l
      by_cases hl : l = j
      · subst hl; simp [physical]
      · simp only [physical, Function.update_of_ne hl]
        have := congrFun (hpt i hi) l
        simpa [physical] using this
  · intro hdir heq hf
    have hg : d.hasGradients = false := by
      have := hd.kind
      cases h : d.hasGradients
      · rfl
      · exact absurd ⟨hdir, h⟩ this
    obtain ⟨c1, c2⟩ := a11 hg hdir
    rw [b4]
    have b3' := b3 (by rw [a6]; exact hdir)
    refine ⟨_, c2, by rw [b3', c1]; simp, fun i hi => ?_⟩
    have hfi := hf _ (htr' i hi)
    have hin : HasDerivAt (fun t : K => (vecFun d.box.ub 0 - vecFun d.box.lb 0) * (dim : K) * t)
        ((vecFun d.box.ub 0 - vecFun d.box.lb 0) * (dim : K)) 0 := by
      simpa using (hasDerivAt_id (0 : K)).const_mul
        ((vecFun d.box.ub 0 - vecFun d.box.lb 0) * (dim : K))
    have hcomp := HasDerivAt.comp (h₂ := fun t => f (fun j => rowAt F dim (tr.getD i 0) 0 j +
        t * rowAt F dim (tr.getD i 0) (dim + 2) j))
      (h := fun t : K => (vecFun d.box.ub 0 - vecFun d.box.lb 0) * (dim : K) * t) 0
      (by rw [mul_zero]; exact hfi) hin
    refine (hcomp.congr_deriv ?_).congr_of_eventuallyEq ?_
    · rw [b3', c1]
      simp [vecFun, List.getD, hi]
    · refine Filter.Eventually.of_forall fun t => ?_
      show f _ = f _
      congr 1
      funext l
      have := congrFun (hpt i hi) l
      rw [← this]
      simp only [physical, rowAt, Nat.zero_add]
      rw [heq l l.2]
      ring

end

/-- A fresh object for two parameters with the bounds `[0,1]` and `[0,2]`. -/
def c73obj : SMData ℚ :=
  { (SMData.new : SMData ℚ) with box := ⟨[0, 0], [1, 2], 2, true⟩, hasDirectional := true }

theorem c73obj_unread : Unread c73obj 2 := by
  refine ⟨rfl, rfl, by decide +kernel, Or.inl rfl, by decide, rfl, rfl, rfl, rfl, ?_⟩
  intro j hj
  have : j = 0 ∨ j = 1 := by omega
  rcases this with rfl | rfl <;> decide +kernel

/-- Two parameters with the bounds `[0,1]` and `[0,2]`, the function `x ↦ x₁`, the point `(0,0)` and
the direction `(0,1)`: the stored derivative is 2, the true one 4. -/
theorem C73_false : ¬ C73_full ℚ := by
  intro h
  have e1 : readFromCSV (some "0,0,0,1,0,1\n".toList) false =
      .ok (⟨1, 6, [0, 0, 0, 1, 0, 1]⟩ : Mat ℚ) := by decide +kernel
  have hM : IsMat (⟨1, 6, [0, 0, 0, 1, 0, 1]⟩ : Mat ℚ) 1 6
      (fun _ j => ([0, 0, 0, 1, 0, 1] : List ℚ).getD j 0) := by
    refine ⟨rfl, rfl, rfl, ?_⟩
    intro i j hi hj
    have : i = 0 := by omega
    subst this
    interval_cases j <;> rfl
  have e2 : (c73obj.readData (some "0,0,0,1,0,1\n".toList) [0]).2 = .ok () := by decide +kernel
  have e3 : (c73obj.readData (some "0,0,0,1,0,1\n".toList) [0]).1.normalize.2 = .ok () := by
    decide +kernel
  have eX : (c73obj.readData (some "0,0,0,1,0,1\n".toList) [0]).1.normalize.1.X =
      ⟨1, 2, [0, 0]⟩ := by decide +kernel
  have eD : (c73obj.readData (some "0,0,0,1,0,1\n".toList) [0]).1.normalize.1.directionalDerivatives =
      [2] := by decide +kernel
  have eV : (c73obj.readData (some "0,0,0,1,0,1\n".toList) [0]).1.normalize.1.differentiationDirections =
      ⟨1, 2, [0, 1]⟩ := by decide +kernel
  obtain ⟨d1, f1⟩ : ∃ d1, d1 = (c73obj.readData (some "0,0,0,1,0,1\n".toList) [0]).1 := ⟨_, rfl⟩
  rw [← f1] at e3 eX eD eV
  obtain ⟨d2, f2⟩ : ∃ d2, d2 = d1.normalize.1 := ⟨_, rfl⟩
  rw [← f2] at eX eD eV
  have g1 : c73obj.readData (some "0,0,0,1,0,1\n".toList) [0] = (d1, .ok ()) := by
    rw [f1, ← e2]
  have g2 : d1.normalize = (d2, .ok ()) := by rw [f2, ← e3]
  have hX : IsMat d2.X 1 2
      (fun _ _ => 0) := by
    rw [eX]
    refine ⟨rfl, rfl, rfl, ?_⟩
    intro i j hi hj
    have : i = 0 := by omega
    subst this
    interval_cases j <;> rfl
  obtain ⟨-, h2⟩ := h c73obj d1 d2 (some "0,0,0,1,0,1\n".toList) _ 1 6 2 1 _ _ [0] (fun x => x 1)
    e1 hM (by omega) (by decide) c73obj_unread (by decide) g1 g2 hX
  obtain ⟨V, hV, -, h3⟩ := h2 rfl (by
    intro r hr
    have : r = 0 := by omega
    subst this
    have := (hasDerivAt_id (0 : ℚ))
    simp only [IsDirDerivAt, rowAt]
    refine (this.congr_deriv (by simp)).congr_of_eventuallyEq ?_
    exact Filter.Eventually.of_forall fun t => by simp)
  have h4 := h3 0 (by omega)
  rw [eD] at h4
  rw [eV] at hV
  have hv : V 0 1 = 1 := by
    have := hV.2.2.2 0 1 (by omega) (by omega)
    exact (Except.ok.inj this).symm
  have h5 : IsDirDerivAt (fun u : Fin 2 → ℚ => (physical c73obj.box.lb c73obj.box.ub u) 1)
      (rowAt (fun _ _ => 0) 2 0 0) (rowAt V 2 0 0) 4 := by
    have := (hasDerivAt_id (0 : ℚ)).const_mul 4
    simp only [IsDirDerivAt, physical, rowAt]
    refine (this.congr_deriv (by simp)).congr_of_eventuallyEq ?_
    refine Filter.Eventually.of_forall fun t => ?_
    simp [hv, c73obj, vecFun]
    ring
  have := h4.unique h5
  norm_num [vecFun] at this

end Rodeo
