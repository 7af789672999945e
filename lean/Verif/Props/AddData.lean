import Verif.Model.AddData
import Verif.Props.KrigingHistory
import Verif.Props.Design

set_option linter.unusedSectionVars false

/-! # Every simulated design is added to the training data (C121) -/

namespace Rodeo
open Spec Mat Finset Text DataFn

/-- The function is ready: its model was built from a file with a line break at its end and has since
been trained and given samples in any order.  The file now has the rows `F`. -/
structure Spec.ReadyFn (x : DataFn ℝ) (text : Str) (n dim : Nat) (F : Nat → Nat → ℝ) : Prop where
  named : x.fn.fileName ≠ []
  initialized : x.fn.initialized = true
  model : ∃ k0 text0 n0 F0 b lin eps evs, Built k0 text0 n0 dim F0 b lin eps ∧ (∀ e ∈ evs, e.Valid) ∧
    historyK (k0, some text0) evs = (x.fn.krig, some text)
  rows : DataFile (some text) n dim F

/-- The shuffles of a call. -/
def Spec.Shuffles (perm permL : Nat → List Nat) : Prop :=
  ∀ m, (perm m).Perm (List.range m) ∧ (permL m).Perm (List.range m)

/-- The file `text'` holds the sample: it is `text` and a row of it is close to the sample, or it is `text`
and one more row, which is the sample to the digits written. -/
def Spec.HoldsSample (text text' : Str) (n dim : Nat) (F : Nat → Nat → ℝ) (sample : List ℝ) : Prop :=
  (text' = text ∧ ∃ q, q < n ∧ CloseTo dim F q sample) ∨
  (text <+: text' ∧ ∃ G, DataFile (some text') (n + 1) dim G ∧
    (∀ i j, i < n → j < dim + 1 → G i j = F i j) ∧
    ∀ j, j < dim + 1 → |G n j - vecFun sample j| ≤ 1 / 2 / 10 ^ 12)

/-- The three modes that can be chosen. -/
def Spec.Mode (mode : Str) : Prop :=
  mode = "primal".toList ∨ mode = "adjoint".toList ∨ mode = "tangent".toList

/-- C121, choice of the mode: exactly these three are accepted, another one changes nothing. -/
theorem C121_mode (x : DataFn ℝ) (mode : Str) :
    (Mode mode ∧ x.setDataAddMode mode = ({ x with addDataMode := mode }, .ok ())) ∨
    (¬ Mode mode ∧ x.setDataAddMode mode = (x, .error .invalidArgument)) := by
  unfold setDataAddMode validMode
  by_cases h : Mode mode
  · left
    refine ⟨h, ?_⟩
    rcases h with rfl | rfl | rfl <;> rfl
  · right
    refine ⟨h, ?_⟩
    have h2 : ["primal".toList, "adjoint".toList, "tangent".toList].contains mode = false := by
      rw [← Bool.not_eq_true, List.contains_iff_mem]
      intro hm
      simp only [List.mem_cons, List.not_mem_nil, or_false] at hm
      exact h hm
    rw [if_pos h2, ite_self]

theorem Spec.ReadyFn.nrows {x : DataFn ℝ} {text : Str} {n dim : Nat} {F : Nat → Nat → ℝ}
    (h : ReadyFn x text n dim F) : x.fn.krig.data.rawData.nrows = n := by
  obtain ⟨k0, text0, n0, F0, b, lin, eps, evs, hb, hv, hk⟩ := h.model
  obtain ⟨t2, n2, G2, T, h1, h2, h3, -⟩ := hb.history hv
  rw [hk] at h1 h3
  obtain rfl : text = t2 := Option.some.inj h1
  obtain ⟨A, r1, r2⟩ := h.rows.table
  obtain ⟨A', r1', r2'⟩ := (⟨_, h3.table, h3.rows⟩ : DataFile _ _ _ _).table
  rw [r1] at r1'
  cases r1'
  obtain ⟨rfl, -, hF⟩ := isMat_unique r2 r2'
  exact h3.rows.1

/-- What the model does with a sample. -/
theorem addNewSample_ready {x : DataFn ℝ} {text : Str} {n dim : Nat} {F : Nat → Nat → ℝ}
    (h : ReadyFn x text n dim F) (sample : List ℝ) {perm permL : Nat → List Nat} (hp : Shuffles perm permL) :
    (sample.length ≠ dim + 1 ∧ x.fn.krig.addNewSampleToData realFns (some text) sample (perm (n + 1))
      (permL (n + 1)) = ((x.fn.krig, some text), .error .runtimeError)) ∨
    (sample.length = dim + 1 ∧ ∃ k' text', x.fn.krig.addNewSampleToData realFns (some text) sample (perm (n + 1))
      (permL (n + 1)) = ((k', some text'), .ok ()) ∧ HoldsSample text text' n dim F sample ∧
      ∃ n' G, ReadyFn { x with fn := { x.fn with krig := k' } } text' n' dim G) := by
  have hrows := h.nrows
  obtain ⟨k0, text0, n0, F0, b, lin, eps, evs, hb, hv, hk⟩ := h.model
  obtain ⟨t2, n2, G2, T, h1, h2, h3, h5, -, h6, h7, h4⟩ := hb.history hv
  rw [hk] at h1 h3 h5 h6
  obtain rfl : text = t2 := Option.some.inj h1
  obtain ⟨A, r1, r2⟩ := h.rows.table
  obtain ⟨A', r1', r2'⟩ := (⟨_, h3.table, h3.rows⟩ : DataFile _ _ _ _).table
  rw [r1] at r1'
  cases r1'
  obtain ⟨rfl, -, hF⟩ := isMat_unique r2 r2'
  rcases Kriging.addNewSample_cases h3 (by rw [h6]; exact hb.nugget) hb.box
    (by rw [h5]; exact hb.dim99) h7 sample (hp (n + 1)).1 (hp (n + 1)).2 with ⟨a1, a2⟩ | ⟨a1, ⟨q, hq, hc⟩, a2⟩ |
      ⟨a1, a2, k', text', G, T', a3, a4, a5, a6, a7, a8, a9, -⟩
  · exact Or.inl ⟨a1, a2⟩
  · refine Or.inr ⟨a1, x.fn.krig, text, a2, Or.inl ⟨rfl, q, hq, fun j hj => ?_⟩, n, F, h⟩
    rw [hF q j hq hj]
    exact hc j hj
  · refine Or.inr ⟨a1, k', text', a3, Or.inr ⟨a7, G, ⟨_, a4.table, a4.rows⟩, fun i j hi hj => ?_,
      fun j hj => (a9 j hj).1⟩, n + 1, G, h.named, h.initialized, ?_, ⟨_, a4.table, a4.rows⟩⟩
    · rw [a8 i j hi hj, hF i j hi hj]
    · refine ⟨k0, text0, n0, F0, b, lin, eps, evs ++ [.add sample perm permL], hb, ?_, ?_⟩
      · intro e he
        rw [List.mem_append, List.mem_singleton] at he
        rcases he with he | rfl
        · exact hv e he
        · exact hp
      · unfold historyK at hk ⊢
        rw [List.foldl_append, hk]
        show stepK (x.fn.krig, some text) (.add sample perm permL) = (k', some text')
        simp only [stepK, hrows, a3]

/-- What one call with a given sample does. -/
theorem addOne_ready {x : DataFn ℝ} {text : Str} {n dim : Nat} {F : Nat → Nat → ℝ}
    (h : ReadyFn x text n dim F) {d : Design ℝ} {mode : Str} {sample : List ℝ}
    (hs : chooseSample d mode = .ok sample) (h0 : sample ≠ []) {perm permL : Nat → List Nat}
    (hp : Shuffles perm permL) :
    (sample.length ≠ dim + 1 ∧ addOne realFns x (some text) d mode perm permL =
      ((x, some text), .error .runtimeError)) ∨
    (sample.length = dim + 1 ∧ ∃ x' text', addOne realFns x (some text) d mode perm permL =
      ((x', some text'), .ok ()) ∧ HoldsSample text text' n dim F sample ∧ ∃ n' G, ReadyFn x' text' n' dim G) := by
  have e : addOne realFns x (some text) d mode perm permL =
      (({ x with fn := { x.fn with krig := (x.fn.krig.addNewSampleToData realFns (some text) sample
          (perm (n + 1)) (permL (n + 1))).1.1 } },
        (x.fn.krig.addNewSampleToData realFns (some text) sample (perm (n + 1)) (permL (n + 1))).1.2),
        (x.fn.krig.addNewSampleToData realFns (some text) sample (perm (n + 1)) (permL (n + 1))).2) := by
    unfold addOne SurrogateFn.addSample
    rw [hs]
    simp only [h.named, h.initialized, h0, h.nrows, Bool.true_eq_false, or_self, if_false]
  rw [e]
  rcases addNewSample_ready h sample hp with ⟨a1, a2⟩ | ⟨a1, k', text', a2, a3, a4⟩
  · left
    rw [a2]
    exact ⟨a1, rfl⟩
  · right
    rw [a2]
    exact ⟨a1, _, text', rfl, a3, a4⟩

/-! ## The mode for values -/

/-- C121: with one fidelity and the mode `primal`, whether set before or given with the call (as the
optimizer does), every design ends up in the training data, and the function is ready for the next one. -/
theorem C121_partial {x : DataFn ℝ} {text : Str} {n dim : Nat} {F : Nat → Nat → ℝ}
    (h : ReadyFn x text n dim F) (h1 : x.multiLevel = false) {d : Design ℝ} (hd : WellSized d)
    (hdim : d.dimension = dim) {perm permL : Nat → List Nat} (hp : Shuffles perm permL) :
    (∃ x' text', x.addDesignToDataHow realFns (some text) d "primal".toList perm permL = ((x', some text'), .ok ()) ∧
      HoldsSample text text' n dim F (d.params ++ [d.trueValue]) ∧ ∃ n' G, ReadyFn x' text' n' dim G) ∧
    ∃ x' text', (x.setDataAddMode "primal".toList).1.addDesignToData realFns (some text) d perm permL =
        ((x', some text'), .ok ()) ∧
      HoldsSample text text' n dim F (d.params ++ [d.trueValue]) ∧ ∃ n' G, ReadyFn x' text' n' dim G := by
  have hs : chooseSample d "primal".toList = .ok (d.params ++ [d.trueValue]) :=
    C59_partial hd .objective trivial .high .value (by simp)
  have hl : (d.params ++ [d.trueValue]).length = dim + 1 := by
    rw [List.length_append, hd.2.1, hdim]; rfl
  constructor
  · have e : x.addDesignToDataHow realFns (some text) d "primal".toList perm permL =
        addOne realFns x (some text) d "primal".toList perm permL := by
      unfold addDesignToDataHow
      rw [if_neg (by simp [h.named, h.initialized]), if_pos h1]
    rw [e]
    rcases addOne_ready h hs (by simp) hp with ⟨a1, -⟩ | ⟨-, a2⟩
    · exact absurd hl a1
    · exact a2
  · have h' : ReadyFn { x with addDataMode := "primal".toList } text n dim F :=
      ⟨h.named, h.initialized, h.model, h.rows⟩
    have e : (x.setDataAddMode "primal".toList).1.addDesignToData realFns (some text) d perm permL =
        addOne realFns { x with addDataMode := "primal".toList } (some text) d "primal".toList perm permL := by
      show addDesignToData realFns { x with addDataMode := "primal".toList } _ _ _ _ = _
      unfold addDesignToData
      rw [if_neg (by simp [h.named, h.initialized]), if_pos h1]
    rw [e]
    rcases addOne_ready h' hs (by simp) hp with ⟨a1, -⟩ | ⟨-, a2⟩
    · exact absurd hl a1
    · exact a2

/-! ## The modes with derivatives -/

/-- C121, where it fails: with one fidelity a design is never added in the modes `adjoint` and `tangent`.
The model throws, the function and the file stay as they are. -/
theorem C121_derivatives {x : DataFn ℝ} {text : Str} {n dim : Nat} {F : Nat → Nat → ℝ}
    (h : ReadyFn x text n dim F) (h1 : x.multiLevel = false) {d : Design ℝ} (hd : WellSized d)
    (hdim : d.dimension = dim) {perm permL : Nat → List Nat} (hp : Shuffles perm permL) {mode : Str}
    (hm : mode = "adjoint".toList ∨ mode = "tangent".toList) :
    x.addDesignToDataHow realFns (some text) d mode perm permL = ((x, some text), .error .runtimeError) ∧
    (x.setDataAddMode mode).1.addDesignToData realFns (some text) d perm permL =
      (((x.setDataAddMode mode).1, some text), .error .runtimeError) := by
  have hs : ∃ sample, chooseSample d mode = .ok sample ∧ sample ≠ [] ∧ sample.length ≠ dim + 1 := by
    have hpos := hd.1
    rcases hm with rfl | rfl
    · refine ⟨_, C59_partial hd .objective trivial .high .gradient (by simp), by simp [sampleSpec], ?_⟩
      have : (storedGradient d .objective .high).length = d.dimension := hd.2.2.1
      simp only [sampleSpec, List.length_append, List.length_singleton, hd.2.1, this]
      omega
    · refine ⟨_, C59_partial hd .objective trivial .high .tangent (by simp), by simp [sampleSpec], ?_⟩
      have : (storedDirection d .objective .high).length = d.dimension := hd.2.2.2.2.1
      simp only [sampleSpec, List.length_append, List.length_cons, List.length_nil, hd.2.1, this]
      omega
  obtain ⟨sample, s1, s2, s3⟩ := hs
  have hm0 : mode ≠ [] := by rcases hm with rfl | rfl <;> decide
  constructor
  · have e : x.addDesignToDataHow realFns (some text) d mode perm permL =
        addOne realFns x (some text) d mode perm permL := by
      unfold addDesignToDataHow
      rw [if_neg (by simp [h.named, h.initialized, hm0]), if_pos h1]
    rw [e]
    rcases addOne_ready h s1 s2 hp with ⟨-, a2⟩ | ⟨a1, -⟩
    · exact a2
    · exact absurd a1 s3
  · have e0 : (x.setDataAddMode mode).1 = { x with addDataMode := mode } := by
      rcases hm with rfl | rfl <;> rfl
    have h' : ReadyFn { x with addDataMode := mode } text n dim F :=
      ⟨h.named, h.initialized, h.model, h.rows⟩
    have e : (x.setDataAddMode mode).1.addDesignToData realFns (some text) d perm permL =
        addOne realFns { x with addDataMode := mode } (some text) d mode perm permL := by
      rw [e0]
      unfold addDesignToData
      rw [if_neg (by simp [h.named, h.initialized, hm0]), if_pos h1]
    rw [e, e0]
    rcases addOne_ready h' s1 s2 hp with ⟨-, a2⟩ | ⟨a1, -⟩
    · exact a2
    · exact absurd a1 s3

/-! ## Two fidelities -/

/-- A call that adds a design: with the mode set before, or with the mode in the call. -/
inductive Spec.AddCall where
  | mode (mode : Str)
  | add (d : Design ℝ) (perm permL : Nat → List Nat)
  | addHow (d : Design ℝ) (how : Str) (perm permL : Nat → List Nat)

/-- The function and its file after a call, whether it returns or throws. -/
noncomputable def Spec.stepAdd (s : DataFn ℝ × Option Str) : AddCall → DataFn ℝ × Option Str
  | .mode mode => ((s.1.setDataAddMode mode).1, s.2)
  | .add d perm permL => (s.1.addDesignToData realFns s.2 d perm permL).1
  | .addHow d how perm permL => (s.1.addDesignToDataHow realFns s.2 d how perm permL).1

/-- C121, where it fails: with two fidelities the file is the same after every sequence of calls, whatever
the designs and the modes. -/
theorem C121_multi (calls : List AddCall) {x : DataFn ℝ} (h1 : x.multiLevel = true) (file : Option Str) :
    (calls.foldl stepAdd (x, file)).2 = file ∧ (calls.foldl stepAdd (x, file)).1.fn = x.fn := by
  induction calls generalizing x with
  | nil => exact ⟨rfl, rfl⟩
  | cons c cs ih =>
    have step : ∃ x', stepAdd (x, file) c = (x', file) ∧ x'.multiLevel = true ∧ x'.fn = x.fn := by
      cases c with
      | mode mode =>
        rcases C121_mode x mode with ⟨-, e⟩ | ⟨-, e⟩
        · exact ⟨{ x with addDataMode := mode }, by simp [stepAdd, e], h1, rfl⟩
        · exact ⟨x, by simp [stepAdd, e], h1, rfl⟩
      | add d perm permL =>
        refine ⟨x, ?_, h1, rfl⟩
        show (x.addDesignToData realFns file d perm permL).1 = _
        have two : ∀ a b : Res (List ℝ), (addTwo x file a b).1 = (x, file) := by
          intro a b
          unfold addTwo
          split
          · rfl
          · rfl
          · split_ifs <;> rfl
        unfold addDesignToData
        split_ifs with c1 c2 c3 c4
        · rfl
        · rw [h1] at c2; cases c2
        · exact two _ _
        · exact two _ _
        · rfl
      | addHow d how perm permL =>
        refine ⟨x, ?_, h1, rfl⟩
        show (x.addDesignToDataHow realFns file d how perm permL).1 = _
        unfold addDesignToDataHow
        split_ifs with c1 c2
        · rfl
        · rw [h1] at c2; cases c2
        · rfl
    obtain ⟨x', e, h2, h3⟩ := step
    rw [List.foldl_cons, e]
    obtain ⟨i1, i2⟩ := ih h2
    exact ⟨i1, i2.trans h3⟩

/-- C121, where it fails: with two fidelities no call reports that the design is lost, in the modes that
can be chosen. -/
theorem C121_multi_silent {x : DataFn ℝ} (hn : x.fn.fileName ≠ []) (hi : x.fn.initialized = true)
    (h1 : x.multiLevel = true) (file : Option Str) (d : Design ℝ) (perm permL : Nat → List Nat) {mode : Str}
    (hm : Mode mode) :
    x.addDesignToDataHow realFns file d mode perm permL = ((x, file), .ok ()) ∧
    (x.setDataAddMode mode).1.addDesignToData realFns file d perm permL =
      (((x.setDataAddMode mode).1, file), .ok ()) := by
  have hm0 : mode ≠ [] := by rcases hm with rfl | rfl | rfl <;> decide
  constructor
  · unfold addDesignToDataHow
    rw [if_neg (by simp [hn, hi, hm0]), if_neg (by simp [h1])]
  · have e0 : (x.setDataAddMode mode).1 = { x with addDataMode := mode } := by
      rcases hm with rfl | rfl | rfl <;> rfl
    rw [e0]
    unfold addDesignToData
    rw [if_neg (by simp [hn, hi, hm0]), if_neg (by simp [h1]),
      if_neg (show ¬ mode = "primalBoth".toList by rcases hm with rfl | rfl | rfl <;> decide),
      if_neg (show ¬ mode = "primalHiFiAdjointLowFi".toList by rcases hm with rfl | rfl | rfl <;> decide)]

/-! ## The full statement -/

/-- The full property: in every mode that can be chosen, a call that adds a design returns, and the file
holds the parameters and the value of the design. -/
def C121_full : Prop :=
  ∀ (x : DataFn ℝ) (text : Str) (n dim : Nat) (F : Nat → Nat → ℝ) (d : Design ℝ) (perm permL : Nat → List Nat)
    (mode : Str), ReadyFn x text n dim F → WellSized d → d.dimension = dim → Shuffles perm permL → Mode mode →
    ∃ x' text', x.addDesignToDataHow realFns (some text) d mode perm permL = ((x', some text'), .ok ()) ∧
      HoldsSample text text' n dim F (d.params ++ [d.trueValue])

namespace AddDemo

/-- A design with one parameter, the value 7 and a gradient. -/
noncomputable def d : Design ℝ := { (Design.ofVec [1] : Design ℝ) with
  numberOfConstraints := 0, tangentDirection := [1], trueValue := 7, gradient := [3], gradientLowFi := [3],
  constraintTrueValues := [], constraintTrueValuesLowFi := [], constraintTangent := [],
  constraintTangentLowFi := [], gradientsMatrix := ⟨0, 1, []⟩,
  gradientsMatrixLowFi := ⟨0, 1, []⟩, directionsMatrix := ⟨0, 1, []⟩,
  directionsMatrixLowFi := ⟨0, 1, []⟩ }

theorem wellSized : WellSized d := by
  refine ⟨by simp [d, Design.ofVec], rfl, rfl, rfl, rfl, rfl, rfl, rfl, rfl, ?_⟩
  intro A hA
  simp only [List.mem_cons, List.not_mem_nil, or_false] at hA
  rcases hA with rfl | rfl | rfl | rfl <;> exact ⟨rfl, rfl, rfl⟩

/-- A function of one parameter with the model `k`. -/
noncomputable def fn (k : Kriging ℝ) (multi : Bool) : DataFn ℝ :=
  { fn := { name := "f".toList, fileName := "f.csv".toList, kind := .ordinary, dim := 1,
            box := ⟨[(0 : ℝ)], [2], 1, true⟩, boundsSet := true, definitionSet := true, iterations := 10,
            bound := true, initialized := true, krig := k },
    multiLevel := multi, addDataMode := [] }

theorem ready (multi : Bool) : ∃ k text, ReadyFn (fn k multi) text 2 1 exampleTable := by
  obtain ⟨k, text, hb⟩ := exists_built false
  exact ⟨k, text, by simp [fn], rfl, ⟨k, text, 2, _, _, _, _, [], hb, by simp, rfl⟩, hb.file⟩

theorem shuffles : Shuffles List.range List.range := fun _ => ⟨List.Perm.refl _, List.Perm.refl _⟩

/-- C121_partial, C121_derivatives on a file with two rows: the design is added as a third row. -/
example : ∃ x text, ReadyFn x text 2 1 exampleTable ∧ x.multiLevel = false ∧
    (∃ x' text' G, x.addDesignToDataHow realFns (some text) d "primal".toList List.range List.range =
      ((x', some text'), .ok ()) ∧ DataFile (some text') 3 1 G) ∧
    (x.addDesignToDataHow realFns (some text) d "adjoint".toList List.range List.range).2 =
      .error .runtimeError := by
  obtain ⟨k, text, h⟩ := ready false
  refine ⟨_, text, h, rfl, ?_, ?_⟩
  · obtain ⟨⟨x', text', e, hh, -⟩, -⟩ := C121_partial h rfl wellSized rfl shuffles
    rcases hh with ⟨-, q, hq, hc⟩ | ⟨-, G, hG, -⟩
    · have h1 := hc 1 (by norm_num)
      have e1 : vecFun (d.params ++ [d.trueValue]) 1 = 7 := rfl
      rw [e1] at h1
      rcases (by omega : q = 0 ∨ q = 1) with rfl | rfl <;> norm_num [exampleTable] at h1
    · exact ⟨x', text', G, e, hG⟩
  · rw [(C121_derivatives h rfl wellSized rfl shuffles (Or.inl rfl)).1]

end AddDemo

/-- C121 is false in full: with two fidelities the design with the value 7 is lost. -/
theorem C121_false : ¬ C121_full := by
  intro hfull
  obtain ⟨k, text, h⟩ := AddDemo.ready true
  obtain ⟨x', text', e, hh⟩ := hfull _ _ _ _ _ _ _ _ "primal".toList h AddDemo.wellSized rfl AddDemo.shuffles (Or.inl rfl)
  rw [(C121_multi_silent h.named h.initialized rfl (some text) _ _ _ (Or.inl rfl)).1] at e
  have e1 : some text = some text' := by injection e with e2 _; injection e2
  obtain rfl := Option.some.inj e1
  rcases hh with ⟨-, q, hq, hc⟩ | ⟨-, G, hG, -⟩
  · have h1 := hc 1 (by norm_num)
    have e1 : vecFun (AddDemo.d.params ++ [AddDemo.d.trueValue]) 1 = 7 := rfl
    rw [e1] at h1
    rcases (by omega : q = 0 ∨ q = 1) with rfl | rfl <;> norm_num [exampleTable] at h1
  · obtain ⟨A, r1, r2⟩ := h.rows.table
    obtain ⟨A', r1', r2'⟩ := hG.table
    rw [r1] at r1'
    cases r1'
    obtain ⟨h3, -⟩ := isMat_unique r2 r2'
    omega

/-- C121_multi on a sequence of calls. -/
example (k : Kriging ℝ) (file : Option Str) :
    ([AddCall.mode "primal".toList, .add AddDemo.d List.range List.range,
      .addHow AddDemo.d "primal".toList List.range List.range].foldl stepAdd (AddDemo.fn k true, file)).2 = file :=
  (C121_multi _ rfl file).1

end Rodeo
