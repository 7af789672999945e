import Verif.Spec.ModelTest
import Verif.Lemmas.DataConfig
import Verif.Lemmas.Kriging
import Verif.Lemmas.CSV
import Verif.Lemmas.Vec

set_option linter.unusedSectionVars false

/-! # Testing a surrogate model: lemmas -/

namespace Rodeo

open Text Spec Mat Finset

variable {K : Type} [Field K] [LinearOrder K] [IsStrictOrderedRing K]

/-- The estimates of a model in a mode. -/
def Spec.Estimates (P : Predictor K) (mode : TestMode) (x : List K) (f v : K) : Prop :=
  P.estimate mode x = .ok (f, v)

/-- The test data of `d` are the table `F`, in the coordinates of the box. -/
structure Spec.TestData (d : SMData K) (values : Bool) (n dim : Nat) (F : Nat → Nat → K) (b : Bounds K) :
    Prop where
  dimension : d.dimension = dim
  count : d.numberOfTestSamples = n
  hasValues : d.testHasValues = values
  read : d.isTestRead = true
  raw : IsMat d.XrawTest n (tableColumns values dim) F
  inputs : IsMat d.XTest n dim (normalized b dim F)

namespace SMData

theorem readDataTest_ok [FloorRing K] {d : SMData K} {file : Option Str} {A : Mat K} {values : Bool}
    {n dim : Nat} {F : Nat → Nat → K} (hread : readFromCSV file false = .ok A)
    (hA : IsMat A n (tableColumns values dim) F) (hn : 0 < n) (hdim : 0 < dim) (hd : d.dimension = dim) :
    ∃ X, IsMat X n dim F ∧ d.readDataTest file = .ok { d with
      XrawTest := A
      numberOfTestSamples := n
      yTest := if values then (List.range n).map (fun i => F i dim) else d.yTest
      XTest := X
      testHasValues := values || d.testHasValues
      isTestRead := true } := by
  unfold readDataTest
  rw [if_neg (by omega)]
  cases values
  · refine ⟨A, hA, ?_⟩
    rw [hread]
    refine Eq.trans (if_neg ?_) (Eq.trans (if_pos ?_) ?_)
    · show ¬ A.ncols = d.dimension + 1
      rw [hA.2.1, hd]; simp [tableColumns]
    · show A.ncols = d.dimension
      rw [hA.2.1, hd]; rfl
    · simp [hA.1]
  · have hA' : IsMat A n (dim + 1) F := hA
    obtain ⟨X, e, hX⟩ := submat_ok hA' (r0 := 0) (r1 := n - 1) (c0 := 0) (c1 := dim - 1) (by omega)
      (by omega) (by omega) (by omega)
    refine ⟨X, ?_, ?_⟩
    · have h1 : n - 1 - 0 + 1 = n := by omega
      have h2 : dim - 1 - 0 + 1 = dim := by omega
      rw [h1, h2] at hX
      exact hX.congr fun i j _ _ => by rw [Nat.zero_add, Nat.zero_add]
    · rw [hread]
      refine Eq.trans (if_pos ?_) ?_
      · show A.ncols = d.dimension + 1
        rw [hA'.2.1, hd]
      · refine bind_eq (a := (List.range n).map (fun i => F i dim)) ?_ (bind_eq (a := X) ?_ ?_)
        · show getCol A ((d.dimension : Nat) : Int) = _
          rw [hd]
          exact getCol_ok hA' (by omega) (Or.inl rfl)
        · show submat A 0 (A.nrows - 1) 0 (d.dimension - 1) = _
          rw [hA'.1, hd]
          exact e
        · simp [hA'.1]

theorem normalizeTest_ok {d : SMData K} {n dim : Nat} {F : Nat → Nat → K} (hb : ProperBox d.box dim)
    (hdim : 0 < dim) (hX : IsMat d.XTest n dim F) :
    ∃ X, IsMat X n dim (normalized d.box dim F) ∧ d.normalizeTest = .ok { d with XTest := X } := by
  obtain ⟨X, e, h⟩ := normalizeMatrix_ok hX hb.lb hb.ub hdim hb.lt
  refine ⟨X, h, ?_⟩
  unfold normalizeTest
  rw [if_neg (by simp [hb.set])]
  refine bind_eq (zeroRange_ok hb.lb hb.ub hb.lt) ?_
  exact bind_eq e rfl

end SMData

theorem isMat_zeros (n m : Nat) : IsMat (⟨n, m, List.replicate (n * m) 0⟩ : Mat K) n m (fun _ _ => 0) := by
  refine isMat_iff.2 ⟨rfl, rfl, by simp, ?_⟩
  intro i j hi hj
  have : j * n + i < n * m := by
    calc j * n + i < j * n + n := by omega
      _ = (j + 1) * n := by ring
      _ ≤ m * n := Nat.mul_le_mul_right _ hj
      _ = n * m := Nat.mul_comm _ _
  simp [this]

namespace ModelTest

theorem reportRow_length (values variances : Bool) (dim : Nat) (F : Nat → Nat → K) (f v : Nat → K)
    (i : Nat) : (reportRow values variances dim F f v i).length =
      dim + 1 + (if values then 2 else 0) + if variances then 1 else 0 := by
  unfold reportRow
  cases values <;> cases variances <;> simp

theorem entries_eq {t : ModelTest K} {values : Bool} {dim : Nat} (h1 : t.data.dimension = dim)
    (h2 : t.data.testHasValues = values) (mode : TestMode) :
    t.entries mode = dim + 1 + (if values then 2 else 0) + if mode = .withVariances then 1 else 0 := by
  unfold entries
  rw [h1, h2]
  cases values <;> simp <;> split_ifs <;> omega

theorem tryRow_ok {t : ModelTest K} {values : Bool} {n dim : Nat} {F : Nat → Nat → K} {b : Bounds K}
    (ht : TestData t.data values n dim F b) (hdim : t.dimension = dim) {P : Predictor K} {mode : TestMode}
    {f v : Nat → K} {i : Nat} (hi : i < n)
    (hP : Estimates P mode ((List.range dim).map (normalized b dim F i)) (f i) (v i))
    {fExact : List K} (hf : values = true → fExact = (List.range n).map (fun i => F i dim))
    {G : Nat → Nat → K} {R : Mat K} {errs : List K} (hR : IsMat R n (t.entries mode) G) :
    ∃ R', t.tryRow P mode fExact i (R, errs) =
        .ok (R', if values then errs ++ [(F i dim - f i) ^ 2] else errs) ∧
      IsMat R' n (t.entries mode) (fun i' j => if i' = i then
        vecFun (reportRow values (decide (mode = .withVariances)) dim F f v i) j else G i' j) := by
  have hlen : (reportRow values (decide (mode = .withVariances)) dim F f v i).length = t.entries mode := by
    rw [reportRow_length, entries_eq ht.dimension ht.hasValues]
    simp
  obtain ⟨R', e, hR'⟩ := setRow_ok hR (v := reportRow values (decide (mode = .withVariances)) dim F f v i)
    hlen hi
  refine ⟨R', ?_, hR'⟩
  unfold tryRow
  have e1 : t.data.getRowXTest i = .ok ((List.range dim).map (normalized b dim F i)) := by
    unfold SMData.getRowXTest
    rw [if_pos (by rw [ht.inputs.1]; exact hi)]
    exact getRow_ok ht.inputs hi (Or.inl rfl)
  have e2 : t.data.getRowXRawTest i = .ok ((List.range (tableColumns values dim)).map (F i)) := by
    unfold SMData.getRowXRawTest
    rw [if_pos (by rw [ht.raw.1]; exact hi)]
    exact getRow_ok ht.raw hi (Or.inl rfl)
  have e3 : Vec.head ((List.range (tableColumns values dim)).map (F i)) t.dimension =
      .ok ((List.range dim).map (F i)) := by
    have hle : dim ≤ tableColumns values dim := by unfold tableColumns; split_ifs <;> omega
    rw [hdim, Vec.head_eq _ (by simpa using hle), ← List.map_take, List.take_range, min_eq_left hle]
  refine bind_eq e1 (bind_eq e2 (bind_eq e3 (bind_eq hP (bind_eq (Vec.pushBack_eq _ _) ?_))))
  refine bind_eq (a := ((List.range dim).map (F i) ++ [f i] ++
    (if values then [F i dim, (F i dim - f i) ^ 2] else []),
    if values then errs ++ [(F i dim - f i) ^ 2] else errs)) ?_ ?_
  · unfold addError
    rw [ht.hasValues]
    cases values
    · simp
    · rw [if_pos rfl, hf rfl]
      refine bind_eq (a := F i dim) ?_ (bind_eq (Vec.pushBack_eq _ _) (bind_eq (Vec.pushBack_eq _ _) ?_))
      · rw [vat_ok_of_lt (by simpa using hi)]; simp
      · simp [pow_two]
  · refine bind_eq (a := reportRow values (decide (mode = .withVariances)) dim F f v i) ?_ (bind_eq e rfl)
    unfold addVariance reportRow
    by_cases hm : mode = .withVariances
    · simp only [hm, if_true, Vec.pushBack_eq, decide_true]
    · simp [hm]

theorem tryOnTestData_ok {t : ModelTest K} {values : Bool} {n dim : Nat} {F : Nat → Nat → K}
    {b : Bounds K} (ht : TestData t.data values n dim F b) (hn : 0 < n) (hdim : t.dimension = dim)
    (hN : t.isTestNormalized = true) {P : Predictor K} {mode : TestMode} {f v : Nat → K}
    (hP : ∀ i, i < n → Estimates P mode ((List.range dim).map (normalized b dim F i)) (f i) (v i)) :
    ∃ R, t.tryOnTestData P mode = .ok { t with
        results := R
        generalizationError := if values then meanSquare n (fun i => F i dim) f
          else t.generalizationError } ∧
      IsMat R n (t.entries mode)
        (fun i j => vecFun (reportRow values (decide (mode = .withVariances)) dim F f v i) j) := by
  set fExact : List K := if values then (List.range n).map (fun i => F i dim) else [] with hfE
  have e1 : t.exactValues = .ok fExact := by
    unfold exactValues SMData.getOutputVectorTest
    rw [ht.hasValues, hfE]
    cases values
    · simp
    · rw [if_pos rfl, if_pos ht.read, ht.dimension, if_pos rfl]
      exact getCol_ok (show IsMat t.data.XrawTest n (dim + 1) F from ht.raw) (by omega) (Or.inl rfl)
  have e2 := okP_for (σ := Mat K × List K) (body := t.tryRow P mode fExact) (n := n)
    (s := (⟨n, t.entries mode, List.replicate (n * t.entries mode) 0⟩, []))
    (fun c s => IsMat s.1 n (t.entries mode) (fun i j => if i < c then
        vecFun (reportRow values (decide (mode = .withVariances)) dim F f v i) j else 0) ∧
      s.2 = if values then (List.range c).map (fun i => (F i dim - f i) ^ 2) else [])
    ⟨(isMat_zeros n (t.entries mode)).congr fun i j _ _ => by simp, by cases values <;> simp⟩ (by
      rintro i ⟨R, errs⟩ hi ⟨h1, h2⟩
      obtain ⟨R', e, hR'⟩ := tryRow_ok ht hdim hi (hP i hi) (fExact := fExact)
        (fun hv => by rw [hfE, if_pos hv]) (errs := errs) h1
      refine ⟨_, e, hR'.congr fun i' j _ _ => ?_, ?_⟩
      · by_cases h : i' = i
        · subst h; simp
        · rw [if_neg h]
          by_cases h' : i' < i
          · rw [if_pos h', if_pos (by omega)]
          · rw [if_neg h', if_neg (by omega)]
      · dsimp only at h2 ⊢
        rw [h2]
        cases values
        · simp
        · simp [List.range_succ])
  obtain ⟨⟨R, errs⟩, e2, hR, herr⟩ := e2
  dsimp only at hR herr
  refine ⟨R, ?_, hR.congr fun i j hi _ => by rw [if_pos hi]⟩
  unfold tryOnTestData
  rw [if_neg (by simp [hN])]
  refine bind_eq e1 (bind_eq (a := (R, errs)) ?_ (bind_eq
    (a := if values then meanSquare n (fun i => F i dim) f else t.generalizationError) ?_ rfl))
  · rw [ht.count]; exact e2
  · unfold meanError
    rw [ht.hasValues]
    cases values
    · simp
    · rw [if_pos rfl, if_pos rfl]
      subst herr
      rw [if_pos rfl, Vec.mean_ok (by simpa using hn)]
      congr 1
      unfold meanSquare
      rw [List.length_map, List.length_range]
      congr 1
      refine sum_congr rfl fun i hi => ?_
      exact Corr.vecFun_map _ (mem_range.1 hi)

end ModelTest
end Rodeo
