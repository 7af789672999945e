import Verif.Lemmas.SurrogateData
import Verif.Lemmas.CSV
import Verif.Lemmas.Normalize
import Mathlib.Data.Rat.Floor

set_option linter.unusedSectionVars false

/-! # Training and validation samples (C53) -/

namespace Rodeo
open Spec Mat SMData Text

variable {K : Type} [Field K] [LinearOrder K] [IsStrictOrderedRing K] [FloorRing K]

/-- Successive reads: each with its own file content, ratio and shuffle. -/
structure Spec.Read (K : Type) where
  ratio : K
  file : Option Str
  perm : List Nat

/-- `setValidationRatio(r.ratio); readData(file);` for every entry, ended by the first exception. -/
def Spec.readAll (d : SMData K) : List (Spec.Read K) → SMData K × Res Unit
  | [] => (d, .ok ())
  | r :: rs =>
    match d.setValidationRatio r.ratio with
    | .error e => (d, .error e)
    | .ok d1 => andThen (d1.readData r.file r.perm) fun d => readAll d rs

/-- The full property: after every history of successful reads (with any ratios, files and
shuffles) the object holds a split of the rows of the file read last, with the requested number of
validation rows. -/
def C53_full (K : Type) [Field K] [LinearOrder K] [IsStrictOrderedRing K] [FloorRing K] : Prop :=
  ∀ (pre : List (Spec.Read K)) (last : Spec.Read K) (d : SMData K) (A : Mat K) (n m : Nat)
    (F : Nat → Nat → K),
    (∀ r ∈ pre ++ [last], ∃ A : Mat K, readFromCSV r.file false = .ok A ∧
      r.perm.Perm (List.range A.nrows)) →
    readAll SMData.new (pre ++ [last]) = (d, .ok ()) →
    readFromCSV last.file false = .ok A → IsMat A n m F →
    ∃ tr va, IsSplit n (validationCount n last.ratio) tr va ∧ HoldsSplit d (m - 1) F tr va

/-- Two samples, ratio one half, and a second read whose shuffle picks the other row: the first row
is then a training sample and a validation sample at the same time. -/
theorem C53_false : ¬ C53_full ℚ := by
  intro h
  have e1 : readFromCSV (some "1,5\n2,7\n".toList) false = .ok (⟨2, 2, [1, 2, 5, 7]⟩ : Mat ℚ) := by
    decide +kernel
  have hM : IsMat (⟨2, 2, [1, 2, 5, 7]⟩ : Mat ℚ) 2 2
      (fun i j => ([1, 2, 5, 7] : List ℚ).getD (j * 2 + i) 0) := by
    refine ⟨rfl, rfl, rfl, ?_⟩
    intro i j hi hj
    have h1 : i = 0 ∨ i = 1 := by omega
    have h2 : j = 0 ∨ j = 1 := by omega
    rcases h1 with rfl | rfl <;> rcases h2 with rfl | rfl <;> rfl
  obtain ⟨tr, va, h1, h2⟩ := h [⟨1 / 2, some "1,5\n2,7\n".toList, [0, 1]⟩]
    ⟨1 / 2, some "1,5\n2,7\n".toList, [1, 0]⟩
    (readAll SMData.new [⟨1 / 2, some "1,5\n2,7\n".toList, [0, 1]⟩,
      ⟨1 / 2, some "1,5\n2,7\n".toList, [1, 0]⟩]).1 ⟨2, 2, [1, 2, 5, 7]⟩ 2 2
    (fun i j => ([1, 2, 5, 7] : List ℚ).getD (j * 2 + i) 0)
    (by
      intro r hr
      simp only [List.cons_append, List.nil_append, List.mem_cons, List.not_mem_nil, or_false] at hr
      rcases hr with rfl | rfl
      · exact ⟨_, e1, by decide⟩
      · exact ⟨_, e1, by decide⟩)
    (by
      refine Prod.ext rfl ?_
      decide +kernel) e1 hM
  have hX : (readAll SMData.new [⟨1 / 2, some "1,5\n2,7\n".toList, [0, 1]⟩,
      ⟨1 / 2, some "1,5\n2,7\n".toList, [1, 0]⟩] : SMData ℚ × Res Unit).1.X = ⟨1, 1, [1]⟩ := by
    decide +kernel
  have hV : (readAll SMData.new [⟨1 / 2, some "1,5\n2,7\n".toList, [0, 1]⟩,
      ⟨1 / 2, some "1,5\n2,7\n".toList, [1, 0]⟩] : SMData ℚ × Res Unit).1.XValidation = ⟨1, 1, [1]⟩ := by
    decide +kernel
  have hk : validationCount 2 (1 / 2 : ℚ) = 1 := by decide +kernel
  obtain ⟨p1, p2⟩ := h1
  rw [hk] at p2
  have hl := p1.length_eq
  have p3 := h2.trainX
  have p4 := h2.validX (by intro h; rw [h] at p2; simp at p2)
  rw [hX] at p3
  rw [hV] at p4
  obtain ⟨a, rfl⟩ := List.length_eq_one_iff.1 p2
  have htl : tr.length = 1 := by simpa using hl
  obtain ⟨b, rfl⟩ := List.length_eq_one_iff.1 htl
  have c3 := p3.2.2.2 0 0 (by simp) (by omega)
  have c4 := p4.2.2.2 0 0 (by simp) (by omega)
  have ha : a < 2 := List.mem_range.1 (p1.mem_iff.1 (by simp))
  have hb : b < 2 := List.mem_range.1 (p1.mem_iff.1 (by simp))
  have hab : b ≠ a := by
    have := p1.nodup_iff.2 List.nodup_range
    simpa using this
  have hne : a = 1 ∨ b = 1 := by omega
  rcases hne with rfl | rfl
  · revert c4; decide +kernel
  · revert c3; decide +kernel

/-- The first read of an object (and every read when no validation rows have been collected before):
for every readable file with the expected columns, every ratio and shuffle, either no training row
is left, and this is reported, or the object holds a split of the rows with exactly the requested
number of validation rows.  Missing for the full property: reads after an earlier read with a
positive ratio. -/
theorem C53_partial {d : SMData K} {file : Option Str} {A : Mat K} {n m dim : Nat}
    {F : Nat → Nat → K} (hread : readFromCSV file false = .ok A) (hA : IsMat A n m F)
    (hdim : 0 < dim) (hm : m = dataColumns d.hasGradients d.hasDirectional dim)
    (hD : d.dimension = 0 ∨ d.dimension = dim)
    (hexcl : ¬ (d.hasDirectional = true ∧ d.hasGradients = true)) (h0 : 0 ≤ d.ratio)
    (h1 : d.ratio ≤ 1) (hnone : d.rawDataValidation = Mat.empty)
    (hcount : d.numberOfValidationSamples = 0) {perm : List Nat} (hp : perm.Perm (List.range n)) :
    ∃ k : Nat, (k : Int) = ⌊d.ratio * (n : K)⌋ ∧ ∃ tr va, IsSplit n k tr va ∧
      if k = n then (d.readData file perm).2 = .error .runtimeError
      else ∃ d', d.readData file perm = (d', .ok ()) ∧ HoldsSplit d' dim F tr va ∧ d'.rawData = A := by
  have hn : 0 < n := by
    cases file with
    | none => unfold readFromCSV at hread; cases hread
    | some text =>
      obtain ⟨n', m', F', hn', hA', -⟩ := readFromCSV_inv hread
      obtain ⟨rfl, -, -⟩ := isMat_unique hA' hA
      exact hn'
  obtain ⟨tr, va, hs, -, h2⟩ := readData_ok (R := []) hread hA hn hdim hm hD hexcl h0
    (fun _ => hcount) (by rw [hnone]; exact hasRows_empty m) hp
  refine ⟨validationCount n d.ratio, validationCount_eq h0 h1, tr, va, hs, ?_⟩
  have hl := hs.1.length_eq
  rw [List.length_append, hs.2, List.length_range] at hl
  by_cases htr : tr = []
  · rw [if_pos (by rw [htr] at hl; simpa using hl)]
    rwa [if_pos htr] at h2
  · have : 0 < tr.length := List.length_pos_iff.2 htr
    rw [if_neg (by omega)]
    rw [if_neg htr] at h2
    obtain ⟨d', h3, h4, h5, h6, h7, -, -, -, -, -, -, h8, -, h9, h10, -⟩ := h2
    refine ⟨d', h3, ⟨h4, h5, h8, h9, h6, fun h => ?_, fun h => ?_⟩, h7⟩
    · refine (h10 h).1.congr fun i j hi hj => ?_
      simp only [List.nil_append]
      have hj' : j < m := by rw [hm]; unfold dataColumns; split_ifs <;> omega
      simp [List.getD, hi, tableRow, hj']
    · rw [(h10 h).2]
      simp only [List.nil_append, List.map_map]
      refine List.map_congr_left fun r _ => ?_
      have hj' : dim < m := by rw [hm]; unfold dataColumns; split_ifs <;> omega
      simp [tableRow, List.getD, hj']

/-- Four rows, ratio 1/4, shuffle `2 0 3 1`: row 2 is the validation sample. -/
example : (match ({ (SMData.new : SMData ℚ) with ratio := 1 / 4 }).readData
      (some "1,10\n2,20\n3,30\n4,40\n".toList) [2, 0, 3, 1] with
    | (d, .ok ()) => (d.X, d.y, d.XValidation, d.yValidation) ==
        (⟨3, 1, [1, 2, 4]⟩, [10, 20, 40], ⟨1, 1, [3]⟩, [30])
    | _ => false) = true := by decide +kernel

/-- C53, the return to the full data: an object that has read the `n` rows of a file, whatever the ratio
and the shuffle, and has got its box, holds after the return all the `n` rows in the order of the file as
training samples, scaled by the box, and no validation sample. -/
theorem C53_revert {d d' : SMData K} {file : Option Str} {A : Mat K} {n m dim : Nat}
    {F : Nat → Nat → K} (hread : readFromCSV file false = .ok A) (hA : IsMat A n m F)
    (hdim : 0 < dim) (hm : m = dataColumns d.hasGradients d.hasDirectional dim)
    (hD : d.dimension = 0 ∨ d.dimension = dim)
    (hexcl : ¬ (d.hasDirectional = true ∧ d.hasGradients = true)) (h0 : 0 ≤ d.ratio)
    (hnone : d.rawDataValidation = Mat.empty) (hcount : d.numberOfValidationSamples = 0)
    {perm : List Nat} (hp : perm.Perm (List.range n)) (hd : d.readData file perm = (d', .ok ()))
    {b : Bounds K} (hb : b.isSet = true) (hbd : b.dim = dim) (hl : b.lb.length = dim) (hu : b.ub.length = dim)
    (hlt : ∀ j, j < dim → vecFun b.lb j < vecFun b.ub j) :
    ∃ d1 d2, d'.setBoxConstraints b = .ok d1 ∧ d1.revertBackToFullData = (d2, .ok ()) ∧
      d2.dimension = dim ∧ d2.numberOfSamples = n ∧ d2.numberOfValidationSamples = 0 ∧
      d2.y = (List.range n).map (fun i => F i dim) ∧
      IsMat d2.X n dim (fun i j => 1 / (dim : K) * ((F i j - vecFun b.lb j) / (vecFun b.ub j - vecFun b.lb j))) ∧
      (d.hasGradients = true → IsMat d2.gradient n dim (fun i j =>
        F i (dim + 1 + j) * ((vecFun b.ub j - vecFun b.lb j) * (dim : K)))) := by
  have hn : 0 < n := by
    cases file with
    | none => unfold readFromCSV at hread; cases hread
    | some text =>
      obtain ⟨n', m', F', hn', hA', -⟩ := readFromCSV_inv hread
      obtain ⟨rfl, -, -⟩ := isMat_unique hA' hA
      exact hn'
  obtain ⟨tr, va, hs, -, h2⟩ := readData_ok (R := []) hread hA hn hdim hm hD hexcl h0
    (fun _ => hcount) (by rw [hnone]; exact hasRows_empty m) hp
  by_cases htr : tr = []
  · rw [if_pos htr, hd] at h2
    cases h2
  rw [if_neg htr] at h2
  obtain ⟨d'', h3, h4, -, -, h7, -, -, h8, h9, h10, -⟩ := h2
  rw [hd] at h3
  obtain ⟨rfl, -⟩ := Prod.mk.inj h3
  refine ⟨{ d' with box := b }, ?_⟩
  obtain ⟨e, he, hsame, hX, -, hy, -, hg, -⟩ := assignAll_ok (d := { d' with
    box := b, numberOfValidationSamples := 0, rawDataWork := d'.rawData, numberOfSamples := d'.rawData.nrows
    yValidation := [], XValidation := .empty, XrawValidation := .empty }) (n := n) (m := m) (dim := dim) (W := F)
    (V := F) (kv := 0) hn hdim (by show IsMat d'.rawData n m F; rw [h7]; exact hA)
    (by show d'.rawData.nrows = n; rw [h7]; exact hA.1) h4 (by rw [h8, h9]; exact hm) (by rw [h8, h9]; exact hexcl)
    (fun h => absurd h (by simp))
  have hbox : e.box = b := hsame.box
  obtain ⟨d2, f1, -, f3, f4, -, f6, -, f8, -, -, f9, -, f10, -⟩ := normalize_ok (d := e) (n := n) (kv := 0) (Fx := F)
    (Fv := F) (G := fun i j => F i (dim + 1 + j)) hdim (hsame.isRead.trans h10)
    (hsame.numberOfSamples.trans (by show d'.rawData.nrows = n; rw [h7]; exact hA.1))
    (hsame.dimension.trans h4) hX (fun h => absurd h (by rw [hsame.numberOfValidationSamples]; simp))
    (fun h => hg (hsame.hasGradients.symm.trans h)) (by rw [hbox]; exact hb) (by rw [hbox]; exact hbd)
    (by rw [hbox]; exact hl) (by rw [hbox]; exact hu) (by rw [hbox]; exact hlt)
  rw [hbox] at f9 f10
  refine ⟨d2, ?_, ?_, f4, f3, f8.trans hsame.numberOfValidationSamples, f6.trans hy, f9, fun h =>
    f10 (hsame.hasGradients.trans (h8.trans h))⟩
  · unfold setBoxConstraints
    rw [if_neg (by simp [hb])]
  · unfold revertBackToFullData
    dsimp only
    rw [he]
    exact f1

/-- The object of the example above after the return: all four rows, none for validation. -/
example : (match ({ (SMData.new : SMData ℚ) with ratio := 1 / 4 }).readData
      (some "1,10\n2,20\n3,30\n4,40\n".toList) [2, 0, 3, 1] with
    | (d, .ok ()) =>
      match d.setBoxConstraints ⟨[0], [4], 1, true⟩ with
      | .ok d => (match d.revertBackToFullData with
        | (d, .ok ()) => (d.X, d.y) == (⟨4, 1, [1 / 4, 1 / 2, 3 / 4, 1]⟩, [10, 20, 30, 40])
        | _ => false)
      | _ => false
    | _ => false) = true := by decide +kernel

end Rodeo
