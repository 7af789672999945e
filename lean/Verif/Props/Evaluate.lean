import Verif.Lemmas.Evaluate
import Verif.Spec.Simulation
import Mathlib.Data.Rat.Floor

/-! # C82-C85: designs evaluated by external programs -/

set_option linter.unusedSectionVars false

namespace Rodeo

open Text Spec ExternalFn

variable {K : Type} [Field K] [LinearOrder K] [IsStrictOrderedRing K] [FloorRing K]

theorem ExternalFn.command_spec (exe : Str) : Command exe (command exe) := by
  have hiff : ".py".toList <:+ exe ↔ exe.length ≥ 3 ∧ exe.drop (exe.length - 3) = ".py".toList := by
    constructor
    · rintro ⟨t, rfl⟩
      have : ".py".toList.length = 3 := by decide
      refine ⟨by rw [List.length_append, this]; omega, ?_⟩
      rw [List.length_append, this, Nat.add_sub_cancel, List.drop_left]
    · rintro ⟨_, h2⟩
      rw [← h2]
      exact List.drop_suffix _ _
  unfold command
  split_ifs with h1 h2
  · exact Or.inl ⟨hiff.2 h1, rfl⟩
  · exact Or.inr (Or.inl ⟨fun h => h1 (hiff.1 h), h2, rfl⟩)
  · exact Or.inr (Or.inr ⟨fun h => h1 (hiff.1 h), h2, rfl⟩)

theorem Spec.Command.unique {exe a b : Str} (ha : Command exe a) (hb : Command exe b) : a = b := by
  rcases ha with ⟨a1, rfl⟩ | ⟨a1, a2, rfl⟩ | ⟨a1, a2, rfl⟩ <;>
    rcases hb with ⟨b1, rfl⟩ | ⟨b1, b2, rfl⟩ | ⟨b1, b2, rfl⟩ <;> first | rfl | contradiction

theorem Files.putAll_append (fs : Files) (a b : List (Str × Option Str)) :
    fs.putAll (a ++ b) = (fs.putAll a).putAll b := List.foldl_append

theorem Files.putAll_untouched {fs : Files} {ws : List (Str × Option Str)} {name : Str}
    (h : ∀ w ∈ ws, w.1 ≠ name) : fs.putAll ws name = fs name := by
  induction ws generalizing fs with
  | nil => rfl
  | cons w ws ih =>
    show (fs.put w.1 w.2).putAll ws name = _
    rw [ih fun w hw => h w (by simp [hw])]
    exact if_neg (Ne.symm (h w (by simp)))

theorem Files.putAll_wrote {fs : Files} {r : RunResult} {name text : Str} (h : Wrote r name text) :
    fs.putAll r.writes name = some text := by
  obtain ⟨a, b, hw, hb⟩ := h
  rw [hw, Files.putAll_append]
  show ((fs.putAll a).put name (some text)).putAll b name = _
  rw [Files.putAll_untouched hb]
  exact if_pos rfl

/-- One rounding for all functions. -/
theorem ExternalFn.exists_rounding (K : Type) [Field K] [LinearOrder K] [IsStrictOrderedRing K] [FloorRing K] :
    ∃ R : List K → List K, ∀ xs, SixDigits (R xs) xs ∧ ∀ F : ExternalFn K, xs.length = F.dim →
      ∃ text, F.designText xs = .ok text ∧ Listing text (R xs) := by
  choose g h1 h2 using (generalStr_shows (K := K))
  refine ⟨fun xs => xs.map g, fun xs => ⟨?_, fun F hF => ⟨_, designText_eq F hF, xs.map generalStr,
    by simp [List.map_map, Function.comp_def], ?_⟩⟩⟩
  · unfold SixDigits
    rw [List.forall₂_map_left_iff]
    exact List.forall₂_same.2 fun x _ => h2 x
  · rw [List.forall₂_map_left_iff, List.forall₂_map_right_iff]
    exact List.forall₂_same.2 fun x _ => h1 x

theorem ExternalFn.writeDesign_ok {O : Outside} {F : ExternalFn K} (h1 : F.designFile ≠ [])
    (h2 : O.writable F.designFile = true) (D : Disk) {xs : List K} (hx : xs.length = F.dim) {text : Str}
    (ht : F.designText xs = .ok text) :
    writeDesign O F D xs = ({ D with files := D.files.put F.designFile (some text) }, .ok ()) := by
  unfold writeDesign
  rw [if_neg (not_not.2 hx), if_neg (by simp [h1, h2]), ht]

/-- The value of a program that computes `f`. -/
theorem ExternalFn.externalValue_computes {O : Outside} {F : ExternalFn K} {f : List K → K} (hF : External O F)
    (hc : Computes O F f) (D : Disk) {xs ys : List K} (hx : xs.length = F.dim) {text : Str}
    (ht : F.designText xs = .ok text) (hl : Listing text ys) (hy : ys.length = F.dim) :
    ∃ D', externalValue O F D xs = (D', .ok (f ys)) := by
  obtain ⟨he, out, hw, ho⟩ := hc D.started.length _ (D.files.put F.designFile (some text)) text ys
    (command_spec F.executable) (if_pos rfl) hl hy
  obtain ⟨rest, hr⟩ := streamRead_output ho
  unfold externalValue
  rw [writeDesign_ok hF.designFile hF.writable D hx ht]
  dsimp only
  unfold runProgram
  rw [if_neg hF.executable]
  dsimp only
  rw [if_pos he]
  dsimp only
  rw [readOutput_one _ hF.outputFile, Files.putAll_wrote hw]
  dsimp only
  rw [hr]
  exact ⟨_, rfl⟩

theorem Spec.SixDigits.length {ys xs : List K} (h : SixDigits ys xs) : ys.length = xs.length :=
  List.Forall₂.length_eq h

/-! ## C82: the recorded value -/

/-- **C82, full statement (false).** A design whose simulation program computes `f` is recorded with the value
of `f` at this design. -/
def C82_full (K : Type) [Field K] [LinearOrder K] [IsStrictOrderedRing K] [FloorRing K] : Prop :=
  ∀ (O : Outside) (F : ExternalFn K) (f : List K → K) (D : Disk) (d : Design K), External O F →
    Computes O F f → d.params.length = F.dim →
    ∃ D', F.evaluateDesign O (D, d) = ((D', { d with trueValue := f d.params }), .ok ())

/-- **C82, as far as it holds.** The evaluation succeeds and records the value of `f` at a point that agrees with
the design to six significant digits; it is the design itself if all its parameters have at most six
significant digits.  Missing: the value at the design itself.  What has happened on the disk before, and what
is in the files, makes no difference. -/
theorem C82_partial {O : Outside} {F : ExternalFn K} {f : List K → K} (hF : External O F)
    (hc : Computes O F f) (D : Disk) (d : Design K) (hd : d.params.length = F.dim) :
    ∃ ys D', SixDigits ys d.params ∧
      F.evaluateDesign O (D, d) = ((D', { d with trueValue := f ys }), .ok ()) := by
  obtain ⟨R, hR⟩ := exists_rounding K
  obtain ⟨h6, h⟩ := hR d.params
  obtain ⟨text, ht, hl⟩ := h F hd
  obtain ⟨D', hD⟩ := externalValue_computes hF hc D hd ht hl (h6.length.trans hd)
  refine ⟨_, D', h6, ?_⟩
  unfold ExternalFn.evaluateDesign
  rw [if_neg (not_not.2 hd), hF.noPointer]
  dsimp only
  rw [hD]

/-- The value is exact for a design with at most six significant digits in each parameter. -/
theorem C82_six_digits {O : Outside} {F : ExternalFn K} {f : List K → K} (hF : External O F)
    (hc : Computes O F f) (D : Disk) (d : Design K) (hd : d.params.length = F.dim)
    (h6 : ∀ x ∈ d.params, SigDigits 6 x) :
    ∃ D', F.evaluateDesign O (D, d) = ((D', { d with trueValue := f d.params }), .ok ()) := by
  obtain ⟨ys, D', hs, h⟩ := C82_partial hF hc D d hd
  have : ys = d.params := by
    have : ∀ {ys xs : List K}, SixDigits ys xs → (∀ x ∈ xs, SigDigits 6 x) → ys = xs := by
      intro ys xs h
      induction h with
      | nil => intro _; rfl
      | cons h _ ih =>
        intro hx
        rw [h.2 (hx _ (by simp)), ih fun x hx' => hx x (by simp [hx'])]
    exact this hs h6
  rw [this] at h
  exact ⟨D', h⟩

/-- A simulation of one variable that gives this variable back: it copies the design file to the output
file. -/
def copySimulation : Outside where
  run := fun _ _ files => ⟨some 0, [("out.dat".toList, files "dv.dat".toList)]⟩
  writable := fun _ => true

/-- Settings for it. -/
def copyFn : ExternalFn ℚ := ⟨1, "sim".toList, "dv.dat".toList, "out.dat".toList, none⟩

theorem copySimulation_external : External copySimulation copyFn := by
  refine ⟨rfl, ?_, ?_, rfl, ?_⟩ <;> (show _ ≠ _; decide)

theorem Spec.Listing.one {text : Str} {ys : List K} (h : Listing text ys) (hy : ys.length = 1) :
    Output text (ys.headD 0) := by
  obtain ⟨lines, rfl, h⟩ := h
  obtain ⟨y, rfl⟩ := List.length_eq_one_iff.1 hy
  obtain ⟨l, ls, hl, hls, rfl⟩ := List.forall₂_cons_right_iff.1 h
  obtain rfl := List.forall₂_nil_right_iff.1 hls
  refine ⟨[], l, ['\n'], by simp [Gap], hl, by simp, ?_⟩
  intro c hc
  obtain rfl := Option.some.inj hc
  decide

theorem copySimulation_computes : Computes copySimulation copyFn (fun ys => ys.headD 0) := by
  intro k cmd files text ys _ hf hl hy
  refine ⟨rfl, text, ⟨[], [], ?_, by simp⟩, hl.one hy⟩
  show [_] = [_]
  have : files "dv.dat".toList = some text := hf
  rw [this]; rfl

/-- A disk without files. -/
def emptyDisk : Disk := ⟨fun _ => none, []⟩

/-- The hypotheses of C82 hold for it; the design `1.5` is recorded with the value 1.5. -/
example : External copySimulation copyFn ∧ Computes copySimulation copyFn (fun ys => ys.headD 0) ∧
    (copyFn.evaluateDesign copySimulation (emptyDisk, Design.ofVec [3 / 2])).1.2.trueValue = 3 / 2 ∧
    (copyFn.evaluateDesign copySimulation (emptyDisk, Design.ofVec [3 / 2])).2 = .ok () :=
  ⟨copySimulation_external, copySimulation_computes, by decide +kernel, by decide +kernel⟩

/-- **C82 is false as stated in full.** The design 1.0000001 reaches the program as 1, and the value for 1 is
recorded for it. -/
theorem C82_false : ¬ C82_full ℚ := by
  intro h
  obtain ⟨D', h⟩ := h copySimulation copyFn _ emptyDisk (Design.ofVec [10000001 / 10000000])
    copySimulation_external copySimulation_computes rfl
  have h1 : (copyFn.evaluateDesign copySimulation
      (emptyDisk, Design.ofVec [10000001 / 10000000])).1.2.trueValue = 1 := by decide +kernel
  rw [h] at h1
  have h2 : (10000001 / 10000000 : ℚ) = 1 := h1
  norm_num at h2

/-! ## C83: where a recorded value comes from -/

/-- **C83, full statement (false).** When an evaluation succeeds, the program has been run for this design, has
ended with exit code 0 and has written the output file in this run, and the recorded value is the number at the
beginning of what it wrote. -/
def C83_full (K : Type) [Field K] [LinearOrder K] [IsStrictOrderedRing K] [FloorRing K] : Prop :=
  ∀ (O : Outside) (F : ExternalFn K) (D D' : Disk) (d d' : Design K), F.pointer = none →
    F.evaluateDesign O (D, d) = ((D', d'), .ok ()) →
    ∃ cmd design ys out, Command F.executable cmd ∧ Listing design ys ∧ SixDigits ys d.params ∧
      (O.run D.started.length cmd (D.files.put F.designFile (some design))).exit = some 0 ∧
      Wrote (O.run D.started.length cmd (D.files.put F.designFile (some design))) F.outputFile out ∧
      StartsWith out d'.trueValue

/-- **C83, as far as it holds.** When an evaluation succeeds, only the value of the objective has changed in the
design, and it is the number at the beginning of the output file as it is then.  If an executable is configured,
exactly one program has been started: the configured one, with the design file written before for this design;
it has ended with exit code 0, and if it has written the output file then the number is from what it wrote.
Missing: that the program has written the output file at all. -/
theorem C83_partial {O : Outside} {F : ExternalFn K} {D D' : Disk} {d d' : Design K} (hp : F.pointer = none)
    (h : F.evaluateDesign O (D, d) = ((D', d'), .ok ())) :
    d.params.length = F.dim ∧ d' = { d with trueValue := d'.trueValue } ∧
    ∃ text design ys, D'.files F.outputFile = some text ∧ StartsWith text d'.trueValue ∧
      Listing design ys ∧ SixDigits ys d.params ∧
      (F.executable = [] → D' = ⟨D.files.put F.designFile (some design), D.started⟩) ∧
      (F.executable ≠ [] → ∃ cmd, Command F.executable cmd ∧ D'.started = D.started ++ [cmd] ∧
        (O.run D.started.length cmd (D.files.put F.designFile (some design))).exit = some 0 ∧
        (∀ out, Wrote (O.run D.started.length cmd (D.files.put F.designFile (some design))) F.outputFile out →
          text = out) ∧
        (Untouched (O.run D.started.length cmd (D.files.put F.designFile (some design))) F.outputFile →
          F.outputFile ≠ F.designFile → D.files F.outputFile = some text)) := by
  unfold ExternalFn.evaluateDesign at h
  split at h
  · cases h
  rename_i hdim
  rw [not_not] at hdim
  dsimp only at hdim
  rw [hp] at h
  dsimp only at h
  obtain ⟨design, ys, ht, hl, h6⟩ := designText_listing F hdim
  split at h
  · cases h
  rename_i D1 v hv
  simp only [Prod.mk.injEq, and_true] at h
  obtain ⟨rfl, rfl⟩ := h
  refine ⟨hdim, rfl, ?_⟩
  unfold externalValue at hv
  split at hv
  · cases hv
  rename_i D2 hw
  have hD2 : D2 = { D with files := D.files.put F.designFile (some design) } := by
    unfold writeDesign at hw
    split at hw
    · cases hw
    split at hw
    · cases hw
    rw [ht] at hw
    simp only [Prod.mk.injEq, and_true] at hw
    exact hw.symm
  subst hD2
  split at hv
  · cases hv
  rename_i D3 hr
  simp only [Prod.mk.injEq] at hv
  obtain ⟨rfl, hv⟩ := hv
  obtain ⟨l, hl1, hl2⟩ := bind_ok_inv hv
  have hout : F.outputFile ≠ [] := by
    intro h0
    unfold readOutput at hl1
    rw [if_pos h0] at hl1
    cases hl1
  rw [readOutput_one _ hout] at hl1
  split at hl1
  · cases hl1
  rename_i text htext
  split at hl1
  · cases hl1
  rename_i w rest hread
  obtain rfl := Except.ok.inj hl1
  obtain rfl : w = v := Except.ok.inj hl2
  refine ⟨text, design, ys, htext, streamRead_sound hread, hl, h6, ?_, ?_⟩
  · intro he
    unfold runProgram at hr
    rw [if_pos he] at hr
    simp only [Prod.mk.injEq, and_true] at hr
    exact hr.symm
  · intro he
    unfold runProgram at hr
    rw [if_neg he] at hr
    simp only [Prod.mk.injEq] at hr
    obtain ⟨rfl, hr⟩ := hr
    refine ⟨_, command_spec _, rfl, ?_, ?_, ?_⟩
    · by_contra hne
      rw [if_neg hne] at hr
      cases hr
    · intro out hwr
      have := Files.putAll_wrote (fs := D.files.put F.designFile (some design)) hwr
      exact Option.some.inj (htext.symm.trans this)
    · intro hun hne
      have := Files.putAll_untouched (fs := D.files.put F.designFile (some design)) hun
      rw [show (D.files.put F.designFile (some design)) F.outputFile = D.files F.outputFile from if_neg hne] at this
      exact this.symm.trans htext

/-- A simulation that works in the first run only: later runs end with exit code 0 and write nothing. -/
def brokenSimulation : Outside where
  run := fun k _ files => if k = 0 then ⟨some 0, [("out.dat".toList, files "dv.dat".toList)]⟩ else ⟨some 0, []⟩
  writable := fun _ => true

theorem brokenSimulation_later (cmd : Str) (files : Files) : brokenSimulation.run 1 cmd files = ⟨some 0, []⟩ := rfl

/-- The disk after the evaluation of the design 1 from an empty directory. -/
def diskAfterFirst : Disk := (copyFn.evaluateDesign brokenSimulation (emptyDisk, Design.ofVec [1])).1.1

/-- The hypotheses of `C83_partial` hold in both runs of it. -/
example : copyFn.pointer = none ∧
    (copyFn.evaluateDesign brokenSimulation (emptyDisk, Design.ofVec [1])).2 = .ok () ∧
    (copyFn.evaluateDesign brokenSimulation (diskAfterFirst, Design.ofVec [2])).2 = .ok () ∧
    (copyFn.evaluateDesign brokenSimulation (diskAfterFirst, Design.ofVec [2])).1.2.trueValue = 1 :=
  ⟨rfl, by decide +kernel, by decide +kernel, by decide +kernel⟩

/-- **C83 is false as stated in full.** The second run writes nothing; the design 2 is recorded with the value of
the design 1. -/
theorem C83_false : ¬ C83_full ℚ := by
  intro h
  have h2 : (copyFn.evaluateDesign brokenSimulation (diskAfterFirst, Design.ofVec [2])).2 = .ok () := by
    decide +kernel
  obtain ⟨cmd, design, ys, out, -, -, -, -, ⟨a, b, hw, -⟩, -⟩ := h brokenSimulation copyFn diskAfterFirst _
    (Design.ofVec [2]) _ rfl (Prod.ext rfl h2)
  have hk : diskAfterFirst.started.length = 1 := by decide +kernel
  rw [hk, brokenSimulation_later] at hw
  exact absurd hw.symm (List.append_ne_nil_of_right_ne_nil _ (List.cons_ne_nil _ _))

/-- **C83, what goes wrong.** If no executable is configured, or the program ends with exit code 0 without having
touched the output file, then every design is recorded with the number that was in the output file before. -/
theorem C83_stale {O : Outside} {F : ExternalFn K} (hp : F.pointer = none) (h1 : F.designFile ≠ [])
    (h2 : O.writable F.designFile = true) (h3 : F.outputFile ≠ []) (h4 : F.outputFile ≠ F.designFile)
    {D : Disk} {text : Str} {v : K} (ht : D.files F.outputFile = some text) (hv : Output text v)
    (hr : F.executable = [] ∨ ∀ cmd files, (O.run D.started.length cmd files).exit = some 0 ∧
      Untouched (O.run D.started.length cmd files) F.outputFile)
    (d : Design K) (hd : d.params.length = F.dim) :
    ∃ D', F.evaluateDesign O (D, d) = ((D', { d with trueValue := v }), .ok ()) := by
  obtain ⟨design, ys, hdt, -, -⟩ := designText_listing F hd
  obtain ⟨rest, hread⟩ := streamRead_output hv
  have hput : (D.files.put F.designFile (some design)) F.outputFile = some text := by
    rw [← ht]; exact if_neg h4
  unfold ExternalFn.evaluateDesign
  rw [if_neg (not_not.2 hd), hp]
  dsimp only
  unfold externalValue
  rw [writeDesign_ok h1 h2 D hd hdt]
  dsimp only
  unfold runProgram
  rcases hr with he | hr
  · rw [if_pos he]
    dsimp only
    rw [readOutput_one _ h3, hput]
    dsimp only
    rw [hread]
    exact ⟨_, rfl⟩
  · by_cases he : F.executable = []
    · rw [if_pos he]
      dsimp only
      rw [readOutput_one _ h3, hput]
      dsimp only
      rw [hread]
      exact ⟨_, rfl⟩
    · rw [if_neg he]
      dsimp only
      rw [if_pos (hr _ _).1]
      dsimp only
      rw [readOutput_one _ h3, Files.putAll_untouched (hr _ _).2, hput]
      dsimp only
      rw [hread]
      exact ⟨_, rfl⟩

/-- The second run of `brokenSimulation` is such a case. -/
example : ∃ text, diskAfterFirst.files copyFn.outputFile = some text ∧ Output text (1 : ℚ) ∧
    ∀ cmd files, (brokenSimulation.run diskAfterFirst.started.length cmd files).exit = some 0 ∧
      Untouched (brokenSimulation.run diskAfterFirst.started.length cmd files) copyFn.outputFile := by
  refine ⟨"1\n".toList, by decide +kernel, ⟨[], ['1'], ['\n'], by simp [Gap],
    ⟨false, ⟨false, ['1'], [], none⟩, ⟨by simp [Digit], by simp, by simp, by simp⟩, rfl, ?_⟩, by decide, ?_⟩, ?_⟩
  · simp [Numeral.value, Numeral.scale, digitsValue]
  · intro c hc
    obtain rfl := Option.some.inj hc
    decide
  · have hk : diskAfterFirst.started.length = 1 := by decide +kernel
    rw [hk]
    exact fun cmd files => by
      rw [brokenSimulation_later]
      exact ⟨rfl, fun w hw => absurd hw List.not_mem_nil⟩

/-! ## C84: failed simulations -/

/-- **C84.** An evaluation that does not succeed leaves the design as it was. -/
theorem C84_unchanged {O : Outside} {F : ExternalFn K} {s s' : Disk × Design K} {e : Err}
    (h : F.evaluateDesign O s = (s', .error e)) : s'.2 = s.2 := by
  unfold ExternalFn.evaluateDesign at h
  split at h
  · simp only [Prod.mk.injEq] at h
    rw [← h.1]
  split at h
  · cases h
  split at h
  · simp only [Prod.mk.injEq] at h
    rw [← h.1]
  · cases h

/-- **C84.** A program that cannot be started or does not end with exit code 0, an output file that does not exist
after the run, and an output file that does not start with a number (for instance `nan`) all end the evaluation
with a `runtime_error`, and the design stays as it was. -/
theorem C84_failure {O : Outside} {F : ExternalFn K} (hF : External O F) (D : Disk) (d : Design K)
    (hd : d.params.length = F.dim)
    (hbad : ∀ cmd design, Command F.executable cmd →
      (O.run D.started.length cmd (D.files.put F.designFile (some design))).exit ≠ some 0 ∨
      ∀ text, (D.files.put F.designFile (some design)).putAll
          (O.run D.started.length cmd (D.files.put F.designFile (some design))).writes F.outputFile = some text →
        ∀ v : K, ¬ StartsWith text v) :
    ∃ D', F.evaluateDesign O (D, d) = ((D', d), .error .runtimeError) := by
  have key : ∃ D', externalValue O F D d.params = (D', .error .runtimeError) := by
    obtain ⟨design, ys, hdt, -, -⟩ := designText_listing F hd
    unfold externalValue
    rw [writeDesign_ok hF.designFile hF.writable D hd hdt]
    dsimp only
    unfold runProgram
    rw [if_neg hF.executable]
    dsimp only
    have h := hbad _ design (command_spec F.executable)
    by_cases hx : (O.run D.started.length (command F.executable)
        (D.files.put F.designFile (some design))).exit = some 0
    · rw [if_pos hx]
      dsimp only
      rw [readOutput_one _ hF.outputFile]
      have h' := h.resolve_left (not_not.2 hx)
      rcases hf : (D.files.put F.designFile (some design)).putAll (O.run D.started.length (command F.executable)
          (D.files.put F.designFile (some design))).writes F.outputFile with _ | text
      · exact ⟨_, rfl⟩
      · dsimp only
        rcases hs : (streamRead text : Option (K × Str)) with _ | ⟨v, rest⟩
        · exact ⟨_, rfl⟩
        · exact absurd (streamRead_sound hs) (h' text hf v)
    · rw [if_neg hx]
      exact ⟨_, rfl⟩
  obtain ⟨D', hD⟩ := key
  refine ⟨D', ?_⟩
  unfold ExternalFn.evaluateDesign
  rw [if_neg (not_not.2 hd), hF.noPointer]
  dsimp only
  rw [hD]

/-- The first character of a text that starts with a number. -/
theorem Spec.StartsWith.head {text : Str} {v : K} (h : StartsWith text v) :
    ∃ c, text.head? = some c ∧ (White c ∨ Digit c ∨ c = '+' ∨ c = '-' ∨ c = '.') := by
  obtain ⟨gap, sign, whole, point, fraction, exponent, rest, e, hg, hs, hw, hf, hne, hp, -, rfl, -⟩ := h
  rcases gap with _ | ⟨c, gap⟩
  · rcases hs with rfl | rfl | rfl
    · rcases whole with _ | ⟨c, whole⟩
      · rcases hp with rfl | ⟨rfl, rfl⟩
        · exact ⟨'.', rfl, by simp⟩
        · simp at hne
      · exact ⟨c, rfl, Or.inr (Or.inl (hw c (by simp)))⟩
    · exact ⟨'+', rfl, by simp⟩
    · exact ⟨'-', rfl, by simp⟩
  · exact ⟨c, rfl, Or.inl (hg c (by simp))⟩

/-- A simulation that has not converged: exit code 0 and `nan` in the output file. -/
def nanSimulation : Outside where
  run := fun _ _ _ => ⟨some 0, [("out.dat".toList, some "nan".toList)]⟩
  writable := fun _ => true

/-- The hypotheses of `C84_failure` hold for it. -/
example (d : Design ℚ) (hd : d.params.length = copyFn.dim) :
    ∃ D', copyFn.evaluateDesign nanSimulation (emptyDisk, d) = ((D', d), .error .runtimeError) := by
  refine C84_failure ?_ emptyDisk d hd fun cmd design _ => Or.inr fun text ht v hv => ?_
  · refine ⟨rfl, ?_, ?_, rfl, ?_⟩ <;> (show _ ≠ _; decide)
  · have : some "nan".toList = some text := ht
    obtain rfl := Option.some.inj this
    obtain ⟨c, hc, h⟩ := hv.head
    obtain rfl : 'n' = c := Option.some.inj hc
    revert h
    unfold Digit
    decide

/-! ## C85: the objective and all constraints, through a whole study -/

theorem ExternalConstraint.store_ok {C : ExternalConstraint K} {d : Design K} (h0 : 0 ≤ C.id)
    (h1 : C.id < d.constraintTrueValues.length) (v : K) :
    C.store d v = ({ d with constraintTrueValues := d.constraintTrueValues.set C.id.toNat v }, .ok ()) := by
  unfold ExternalConstraint.store
  rw [if_neg (by omega), if_neg (by omega)]

/-- Evaluating one constraint. -/
theorem ExternalConstraint.evaluate_ok {O : Outside} {C : ExternalConstraint K} {g : List K → K}
    (hC : ConstraintComputes O C g) (D : Disk) {d : Design K} (hd : d.params.length = C.fn.dim)
    (h0 : 0 ≤ C.id) (h1 : C.id < d.constraintTrueValues.length) {R : List K → List K}
    (hR : ∀ xs, SixDigits (R xs) xs ∧ ∀ F : ExternalFn K, xs.length = F.dim →
      ∃ text, F.designText xs = .ok text ∧ Listing text (R xs)) :
    ∃ D' v, C.evaluateDesign O (D, d) = ((D', { d with
        constraintTrueValues := d.constraintTrueValues.set C.id.toNat v }), .ok ()) ∧
      ConstraintGives C g d.params (R d.params) v := by
  unfold ExternalConstraint.evaluateDesign ExternalConstraint.evaluateBody
  rcases he : C.explicit with _ | h
  · dsimp only
    rw [if_neg (not_not.2 hd)]
    rcases hp : C.fn.pointer with _ | h
    · dsimp only
      obtain ⟨hF, hc⟩ : External O C.fn ∧ Computes O C.fn g := by
        rcases hC with h | h | h
        · rw [he] at h; cases h
        · rw [hp] at h; cases h
        · exact h
      obtain ⟨text, ht, hl⟩ := (hR d.params).2 C.fn hd
      obtain ⟨D', hD⟩ := externalValue_computes hF hc D hd ht hl ((hR d.params).1.length.trans hd)
      rw [hD]
      dsimp only
      rw [ExternalConstraint.store_ok h0 h1]
      exact ⟨D', _, rfl, fun h hh => (by rw [he] at hh; cases hh),
        fun h _ hh => (by rw [hp] at hh; cases hh), fun _ _ => rfl⟩
    · dsimp only
      rw [ExternalConstraint.store_ok h0 h1]
      refine ⟨D, _, rfl, fun h hh => (by rw [he] at hh; cases hh), fun h' _ hh => ?_,
        fun _ hh => (by rw [hp] at hh; cases hh)⟩
      rw [hp] at hh
      cases hh
      rfl
  · dsimp only
    rw [ExternalConstraint.store_ok h0 h1]
    refine ⟨D, _, rfl, fun h' hh => ?_, fun h hh => (by rw [he] at hh; cases hh),
      fun hh => (by rw [he] at hh; cases hh)⟩
    rw [he] at hh
    cases hh
    rfl

/-- Evaluating all constraints. -/
theorem ExternalConstraint.evaluateAll_ok {O : Outside} {R : List K → List K}
    (hR : ∀ xs, SixDigits (R xs) xs ∧ ∀ F : ExternalFn K, xs.length = F.dim →
      ∃ text, F.designText xs = .ok text ∧ Listing text (R xs)) :
    ∀ {Cs : List (ExternalConstraint K × (List K → K))} (D : Disk) {d : Design K},
      (∀ C ∈ Cs, ConstraintComputes O C.1 C.2 ∧ d.params.length = C.1.fn.dim ∧ 0 ≤ C.1.id ∧
        C.1.id < d.constraintTrueValues.length) →
      (Cs.map fun C => C.1.id).Nodup →
      ∃ D' vs, ExternalConstraint.evaluateAll O (Cs.map Prod.fst) (D, d) =
          ((D', { d with constraintTrueValues := vs }), .ok ()) ∧
        vs.length = d.constraintTrueValues.length ∧
        (∀ C ∈ Cs, ∃ v, vs[C.1.id.toNat]? = some v ∧ ConstraintGives C.1 C.2 d.params (R d.params) v) ∧
        ∀ i : Nat, (∀ C ∈ Cs, C.1.id ≠ i) → vs[i]? = d.constraintTrueValues[i]? := by
  intro Cs
  induction Cs with
  | nil =>
    intro D d _ _
    exact ⟨D, d.constraintTrueValues, rfl, rfl, by simp, fun _ _ => rfl⟩
  | cons C Cs ih =>
    intro D d hC hnd
    obtain ⟨hc, hdim, h0, h1⟩ := hC C (by simp)
    obtain ⟨D1, v, he, hv⟩ := ExternalConstraint.evaluate_ok hc D hdim h0 h1 hR
    rw [List.map_cons, List.nodup_cons] at hnd
    obtain ⟨D2, vs, h2, h3, h4, h5⟩ := ih (d := { d with
        constraintTrueValues := d.constraintTrueValues.set C.1.id.toNat v }) D1
      (fun C' hC' => by
        obtain ⟨a, b, c, e⟩ := hC C' (by simp [hC'])
        exact ⟨a, b, c, by rw [List.length_set]; exact e⟩) hnd.2
    refine ⟨D2, vs, ?_, by rw [h3, List.length_set], ?_, ?_⟩
    · rw [List.map_cons]
      unfold ExternalConstraint.evaluateAll
      rw [he]
      exact h2
    · intro C' hC'
      rcases List.mem_cons.1 hC' with rfl | hC'
      · refine ⟨v, ?_, hv⟩
        rw [h5 C'.1.id.toNat fun C'' hC'' hid => hnd.1 (List.mem_map.2 ⟨C'', hC'', by rw [hid]; omega⟩)]
        dsimp only
        rw [List.getElem?_set_self (by omega)]
      · exact h4 C' hC'
    · intro i hi
      rw [h5 i fun C' hC' => hi C' (by simp [hC'])]
      dsimp only
      rw [List.getElem?_set_ne]
      have := hi C (by simp)
      omega

/-- **C85.** Every design of a study is recorded with the values of its own simulations: if the objective is
computed by a program and every constraint by a program, by a function in memory or by a user defined function,
and the constraints have different numbers, then for every sequence of designs and whatever is on the disk at
the beginning all evaluations succeed, and each design is left with the value of the objective and with the value
of each constraint at the place of this constraint's number, and nothing else in it is changed.  Functions may
share executables, design files and output files. -/
theorem C85_study {O : Outside} {F : ExternalFn K} {f : List K → K}
    {Cs : List (ExternalConstraint K × (List K → K))} (hF : External O F) (hf : Computes O F f)
    (hC : ∀ C ∈ Cs, ConstraintComputes O C.1 C.2 ∧ C.1.fn.dim = F.dim ∧ 0 ≤ C.1.id)
    (hnd : (Cs.map fun C => C.1.id).Nodup) (ds : List (Design K))
    (hds : ∀ d ∈ ds, d.params.length = F.dim ∧ ∀ C ∈ Cs, C.1.id < d.constraintTrueValues.length) (D : Disk) :
    ∃ D' ds', evaluateHistory O F (Cs.map Prod.fst) D ds = (D', ds', .ok ()) ∧
      List.Forall₂ (Evaluated f Cs) ds ds' := by
  obtain ⟨R, hR⟩ := exists_rounding K
  induction ds generalizing D with
  | nil => exact ⟨D, [], rfl, List.Forall₂.nil⟩
  | cons d ds ih =>
    obtain ⟨hd, hid⟩ := hds d (by simp)
    obtain ⟨text, ht, hl⟩ := (hR d.params).2 F hd
    obtain ⟨D1, hv⟩ := externalValue_computes hF hf D hd ht hl ((hR d.params).1.length.trans hd)
    have he : F.evaluateDesign O (D, d) = ((D1, { d with trueValue := f (R d.params) }), .ok ()) := by
      unfold ExternalFn.evaluateDesign
      rw [if_neg (not_not.2 hd), hF.noPointer]
      dsimp only
      rw [hv]
    obtain ⟨D2, vs, h2, h3, h4, h5⟩ := ExternalConstraint.evaluateAll_ok (O := O) hR (Cs := Cs) D1
      (d := { d with trueValue := f (R d.params) })
      (fun C hCm => ⟨(hC C hCm).1, hd.trans (hC C hCm).2.1.symm, (hC C hCm).2.2, hid C hCm⟩) hnd
    obtain ⟨D3, ds', h6, h7⟩ := ih (fun d hd => hds d (by simp [hd])) D2
    refine ⟨D3, { d with trueValue := f (R d.params), constraintTrueValues := vs } :: ds', ?_,
      List.Forall₂.cons ⟨R d.params, (hR _).1, rfl, h3, h4, h5⟩ h7⟩
    have hs : evaluateStudyDesign O F (Cs.map Prod.fst) (D, d) =
        ((D2, { d with trueValue := f (R d.params), constraintTrueValues := vs }), .ok ()) := by
      unfold evaluateStudyDesign
      rw [he]
      exact h2
    rw [evaluateHistory, hs]
    dsimp only
    rw [h6]

/-- A constraint in memory: twice the first variable. -/
def memoryConstraint : ExternalConstraint ℚ := ⟨⟨1, [], [], [], some fun xs => 2 * xs.headD 0⟩, 0, none⟩

/-- A constraint with the same program and files as the objective. -/
def fileConstraint : ExternalConstraint ℚ := ⟨copyFn, 1, none⟩

/-- The hypotheses of `C85_study` hold for the copying simulation with these two constraints. -/
example (ds : List (Design ℚ))
    (hds : ∀ d ∈ ds, d.params.length = 1 ∧ d.constraintTrueValues.length = 2) (D : Disk) :
    ∃ D' ds', evaluateHistory copySimulation copyFn [memoryConstraint, fileConstraint] D ds = (D', ds', .ok ()) ∧
      List.Forall₂ (Evaluated (fun ys => ys.headD 0)
        [(memoryConstraint, fun _ => 0), (fileConstraint, fun ys => ys.headD 0)]) ds ds' := by
  refine C85_study (Cs := [(memoryConstraint, fun _ => 0), (fileConstraint, fun ys => ys.headD 0)])
    copySimulation_external copySimulation_computes ?_ (by decide) ds ?_ D
  · intro C hC
    rcases List.mem_cons.1 hC with rfl | hC
    · exact ⟨Or.inr (Or.inl rfl), rfl, by decide⟩
    · obtain rfl := List.mem_singleton.1 hC
      exact ⟨Or.inr (Or.inr ⟨copySimulation_external, copySimulation_computes⟩), rfl, by decide⟩
  · intro d hd
    obtain ⟨h1, h2⟩ := hds d hd
    refine ⟨h1, fun C hC => ?_⟩
    rw [h2]
    rcases List.mem_cons.1 hC with rfl | hC
    · decide
    · obtain rfl := List.mem_singleton.1 hC
      decide

/-- Reading a constraint from a file that is already there. -/
theorem ExternalConstraint.passive_ok {O : Outside} {C : ExternalConstraint K} (hC : Passive O C)
    {D : Disk} {d : Design K} (hd : d.params.length = C.fn.dim) (h0 : 0 ≤ C.id)
    (h1 : C.id < d.constraintTrueValues.length) (hne : C.fn.outputFile ≠ C.fn.designFile)
    {out : Str} {v : K} (hf : D.files C.fn.outputFile = some out) (ho : Output out v) :
    ∃ design, C.evaluateDesign O (D, d) = ((⟨D.files.put C.fn.designFile (some design), D.started⟩, { d with
        constraintTrueValues := d.constraintTrueValues.set C.id.toNat v }), .ok ()) := by
  obtain ⟨design, ys, hdt, -, -⟩ := designText_listing C.fn hd
  obtain ⟨rest, hread⟩ := streamRead_output ho
  have hv : externalValue O C.fn D d.params =
      (⟨D.files.put C.fn.designFile (some design), D.started⟩, .ok v) := by
    unfold externalValue
    rw [writeDesign_ok hC.designFile hC.writable D hd hdt]
    dsimp only
    unfold runProgram
    rw [if_pos hC.executable]
    dsimp only
    rw [readOutput_one _ hC.outputFile, show (D.files.put C.fn.designFile (some design)) C.fn.outputFile =
      some out from (if_neg hne).trans hf]
    dsimp only
    rw [hread]
    rfl
  refine ⟨design, ?_⟩
  unfold ExternalConstraint.evaluateDesign ExternalConstraint.evaluateBody
  rw [hC.notExplicit]
  dsimp only
  rw [if_neg (not_not.2 hd), hC.noPointer]
  dsimp only
  rw [hv]
  dsimp only
  rw [ExternalConstraint.store_ok h0 h1]
  rfl

theorem ExternalConstraint.passiveAll_ok {O : Outside} {ys : List K} :
    ∀ {Cs : List (ExternalConstraint K × (List K → K))} (D : Disk) {d : Design K},
      (∀ C ∈ Cs, Passive O C.1 ∧ d.params.length = C.1.fn.dim ∧ 0 ≤ C.1.id ∧
        C.1.id < d.constraintTrueValues.length ∧ (∀ C' ∈ Cs, C.1.fn.outputFile ≠ C'.1.fn.designFile) ∧
        ∃ out, D.files C.1.fn.outputFile = some out ∧ Output out (C.2 ys)) →
      (Cs.map fun C => C.1.id).Nodup →
      ∃ D' vs, ExternalConstraint.evaluateAll O (Cs.map Prod.fst) (D, d) =
          ((D', { d with constraintTrueValues := vs }), .ok ()) ∧
        vs.length = d.constraintTrueValues.length ∧
        (∀ C ∈ Cs, vs[C.1.id.toNat]? = some (C.2 ys)) ∧
        ∀ i : Nat, (∀ C ∈ Cs, C.1.id ≠ i) → vs[i]? = d.constraintTrueValues[i]? := by
  intro Cs
  induction Cs with
  | nil =>
    intro D d _ _
    exact ⟨D, d.constraintTrueValues, rfl, rfl, by simp, fun _ _ => rfl⟩
  | cons C Cs ih =>
    intro D d hC hnd
    obtain ⟨hc, hdim, h0, h1, hne, out, hout, ho⟩ := hC C (by simp)
    obtain ⟨design, he⟩ := ExternalConstraint.passive_ok hc hdim h0 h1 (hne C (by simp)) hout ho
    rw [List.map_cons, List.nodup_cons] at hnd
    obtain ⟨D2, vs, h2, h3, h4, h5⟩ := ih (d := { d with
        constraintTrueValues := d.constraintTrueValues.set C.1.id.toNat (C.2 ys) })
      ⟨D.files.put C.1.fn.designFile (some design), D.started⟩
      (fun C' hC' => by
        obtain ⟨a, b, c, e, f, out', g, h⟩ := hC C' (by simp [hC'])
        exact ⟨a, b, c, by rw [List.length_set]; exact e, fun C'' hC'' => f C'' (by simp [hC'']), out',
          (if_neg (f C (by simp))).trans g, h⟩) hnd.2
    refine ⟨D2, vs, ?_, by rw [h3, List.length_set], ?_, ?_⟩
    · rw [List.map_cons]
      unfold ExternalConstraint.evaluateAll
      rw [he]
      exact h2
    · intro C' hC'
      rcases List.mem_cons.1 hC' with rfl | hC'
      · rw [h5 C'.1.id.toNat fun C'' hC'' hid => hnd.1 (List.mem_map.2 ⟨C'', hC'', by rw [hid]; omega⟩)]
        dsimp only
        rw [List.getElem?_set_self (by omega)]
      · exact h4 C' hC'
    · intro i hi
      rw [h5 i fun C' hC' => hi C' (by simp [hC'])]
      dsimp only
      rw [List.getElem?_set_ne]
      have := hi C (by simp)
      omega

/-- **C85, one program for everything.** If the program of the objective also leaves the value of each constraint
in the constraint's output file, the constraints have no executables of their own, and no output file of a
constraint is also used as a design file, then for every sequence of designs each design is left with the value
of the objective and of each constraint for this design. -/
theorem C85_shared {O : Outside} {F : ExternalFn K} {f : List K → K}
    {Cs : List (ExternalConstraint K × (List K → K))} (hF : External O F)
    (hf : ComputesAll O F ((F.outputFile, f) :: Cs.map fun C => (C.1.fn.outputFile, C.2)))
    (hC : ∀ C ∈ Cs, Passive O C.1 ∧ C.1.fn.dim = F.dim ∧ 0 ≤ C.1.id ∧
      ∀ C' ∈ Cs, C.1.fn.outputFile ≠ C'.1.fn.designFile)
    (hnd : (Cs.map fun C => C.1.id).Nodup) (ds : List (Design K))
    (hds : ∀ d ∈ ds, d.params.length = F.dim ∧ ∀ C ∈ Cs, C.1.id < d.constraintTrueValues.length) (D : Disk) :
    ∃ D' ds', evaluateHistory O F (Cs.map Prod.fst) D ds = (D', ds', .ok ()) ∧
      List.Forall₂ (Evaluated f Cs) ds ds' := by
  induction ds generalizing D with
  | nil => exact ⟨D, [], rfl, List.Forall₂.nil⟩
  | cons d ds ih =>
    obtain ⟨hd, hid⟩ := hds d (by simp)
    obtain ⟨design, ys, hdt, hl, h6⟩ := designText_listing F hd
    obtain ⟨he, ha⟩ := hf D.started.length _ (D.files.put F.designFile (some design)) design ys
      (command_spec F.executable) (if_pos rfl) hl (h6.length.trans hd)
    obtain ⟨out, hw, ho⟩ := ha (F.outputFile, f) (by simp)
    obtain ⟨rest, hr⟩ := streamRead_output ho
    obtain ⟨D1, hD1, hv⟩ : ∃ D1 : Disk, D1.files = (D.files.put F.designFile (some design)).putAll
        (O.run D.started.length (command F.executable) (D.files.put F.designFile (some design))).writes ∧
        externalValue O F D d.params = (D1, .ok (f ys)) := by
      unfold externalValue
      rw [writeDesign_ok hF.designFile hF.writable D hd hdt]
      dsimp only
      unfold runProgram
      rw [if_neg hF.executable]
      dsimp only
      rw [if_pos he]
      dsimp only
      rw [readOutput_one _ hF.outputFile, Files.putAll_wrote hw]
      dsimp only
      rw [hr]
      exact ⟨_, rfl, rfl⟩
    have hev : F.evaluateDesign O (D, d) = ((D1, { d with trueValue := f ys }), .ok ()) := by
      unfold ExternalFn.evaluateDesign
      rw [if_neg (not_not.2 hd), hF.noPointer]
      dsimp only
      rw [hv]
    obtain ⟨D2, vs, h2, h3, h4, h5⟩ := ExternalConstraint.passiveAll_ok (O := O) (ys := ys) (Cs := Cs) D1
      (d := { d with trueValue := f ys })
      (fun C hCm => by
        obtain ⟨a, b, c, e⟩ := hC C hCm
        obtain ⟨out', hw', ho'⟩ := ha (C.1.fn.outputFile, C.2)
          (List.mem_cons_of_mem _ (List.mem_map.2 ⟨C, hCm, rfl⟩))
        exact ⟨a, hd.trans b.symm, c, hid C hCm, e, out', by rw [hD1]; exact Files.putAll_wrote hw', ho'⟩) hnd
    obtain ⟨D3, ds', h6', h7⟩ := ih (fun d hd => hds d (by simp [hd])) D2
    refine ⟨D3, { d with trueValue := f ys, constraintTrueValues := vs } :: ds', ?_,
      List.Forall₂.cons ⟨ys, h6, rfl, h3, fun C hCm => ⟨C.2 ys, h4 C hCm, ?_⟩, h5⟩ h7⟩
    · have hs : evaluateStudyDesign O F (Cs.map Prod.fst) (D, d) =
          ((D2, { d with trueValue := f ys, constraintTrueValues := vs }), .ok ()) := by
        unfold evaluateStudyDesign
        rw [hev]
        exact h2
      rw [evaluateHistory, hs]
      dsimp only
      rw [h6']
    · have := (hC C hCm).1
      exact ⟨fun h hh => (by rw [this.notExplicit] at hh; cases hh),
        fun h _ hh => (by rw [this.noPointer] at hh; cases hh), fun _ _ => rfl⟩

/-- A constraint whose value the copying simulation leaves in the output file of the objective. -/
def passiveConstraint : ExternalConstraint ℚ := ⟨⟨1, [], "dv.dat".toList, "out.dat".toList, none⟩, 0, none⟩

/-- The hypotheses of `C85_shared` hold for it. -/
example (ds : List (Design ℚ))
    (hds : ∀ d ∈ ds, d.params.length = 1 ∧ d.constraintTrueValues.length = 1) (D : Disk) :
    ∃ D' ds', evaluateHistory copySimulation copyFn [passiveConstraint] D ds = (D', ds', .ok ()) ∧
      List.Forall₂ (Evaluated (fun ys => ys.headD 0) [(passiveConstraint, fun ys => ys.headD 0)]) ds ds' := by
  refine C85_shared (Cs := [(passiveConstraint, fun ys => ys.headD 0)]) copySimulation_external ?_ ?_
    (by decide) ds ?_ D
  · intro k cmd files text ys hcmd hf hl hy
    obtain ⟨h1, out, h2, h3⟩ := copySimulation_computes k cmd files text ys hcmd hf hl hy
    refine ⟨h1, fun o ho => ?_⟩
    rcases List.mem_cons.1 ho with rfl | ho
    · exact ⟨out, h2, h3⟩
    · obtain rfl := List.mem_singleton.1 ho
      exact ⟨out, h2, h3⟩
  · intro C hC
    obtain rfl := List.mem_singleton.1 hC
    refine ⟨⟨rfl, rfl, rfl, ?_, rfl, ?_⟩, rfl, by decide, ?_⟩
    · show _ ≠ _; decide
    · show _ ≠ _; decide
    · intro C' hC'
      obtain rfl := List.mem_singleton.1 hC'
      show "out.dat".toList ≠ "dv.dat".toList
      decide
  · intro d hd
    obtain ⟨h1, h2⟩ := hds d hd
    refine ⟨h1, fun C hC => ?_⟩
    obtain rfl := List.mem_singleton.1 hC
    rw [h2]
    decide

theorem ExternalFn.externalValue_error {O : Outside} {F : ExternalFn K} {D D' : Disk} {xs : List K} {e : Err}
    (h : externalValue O F D xs = (D', .error e)) : e.isException = true ∨ e = .abort := by
  unfold externalValue at h
  split at h
  · rename_i D1 e1 hw
    simp only [Prod.mk.injEq, Except.error.injEq] at h
    obtain ⟨rfl, rfl⟩ := h
    unfold writeDesign at hw
    split at hw
    · simp only [Prod.mk.injEq, Except.error.injEq] at hw
      exact Or.inr hw.2.symm
    rename_i hx
    split at hw
    · simp only [Prod.mk.injEq, Except.error.injEq] at hw
      exact Or.inr hw.2.symm
    rw [designText_eq F (not_not.1 hx)] at hw
    cases hw
  · rename_i D1 hw
    split at h
    · rename_i D2 e2 hr
      simp only [Prod.mk.injEq, Except.error.injEq] at h
      obtain ⟨rfl, rfl⟩ := h
      unfold runProgram at hr
      split at hr
      · cases hr
      · simp only [Prod.mk.injEq] at hr
        obtain ⟨-, hr⟩ := hr
        split at hr
        · cases hr
        · left
          rw [← Except.error.inj hr]; rfl
    · rename_i D2 hr
      simp only [Prod.mk.injEq] at h
      obtain ⟨rfl, h⟩ := h
      left
      by_cases h0 : F.outputFile = []
      · unfold readOutput at h
        rw [if_pos h0] at h
        rw [← Except.error.inj h]; rfl
      · rw [readOutput_one _ h0] at h
        rcases hf : D2.files F.outputFile with _ | text
        · rw [hf] at h
          rw [← Except.error.inj h]; rfl
        · rw [hf] at h
          dsimp only at h
          rcases hs : (streamRead text : Option (K × Str)) with _ | ⟨v, rest⟩
          · rw [hs] at h
            rw [← Except.error.inj h]; rfl
          · rw [hs] at h
            cases h

theorem ExternalConstraint.store_error {C : ExternalConstraint K} {d : Design K} {v : K} {e : Err}
    (h : (C.store d v).2 = .error e) : (C.store d v).1 = d ∧ e.isException = true := by
  unfold ExternalConstraint.store at h ⊢
  split_ifs at h ⊢ with h1 h2
  · exact ⟨rfl, by rw [← Except.error.inj h]; rfl⟩
  · exact ⟨rfl, by rw [← Except.error.inj h]; rfl⟩

/-- **C85.** A constraint that throws leaves the design as it was, and what is thrown is a `runtime_error`
(unless the design file cannot be opened, which ends the program). -/
theorem C85_failure {O : Outside} {C : ExternalConstraint K} {s s' : Disk × Design K} {e : Err}
    (h : C.evaluateDesign O s = (s', .error e)) : s'.2 = s.2 ∧ (e = .runtimeError ∨ e = .abort) := by
  have body : ∀ s1 e1, C.evaluateBody O s = (s1, .error e1) → s1.2 = s.2 ∧ (e1.isException = true ∨ e1 = .abort) := by
    intro s1 e1 hb
    unfold ExternalConstraint.evaluateBody at hb
    split at hb
    · simp only [Prod.mk.injEq] at hb
      obtain ⟨rfl, hb⟩ := hb
      exact ⟨(ExternalConstraint.store_error hb).1, Or.inl (ExternalConstraint.store_error hb).2⟩
    split at hb
    · simp only [Prod.mk.injEq, Except.error.injEq] at hb
      obtain ⟨rfl, rfl⟩ := hb
      exact ⟨rfl, Or.inl rfl⟩
    split at hb
    · simp only [Prod.mk.injEq] at hb
      obtain ⟨rfl, hb⟩ := hb
      exact ⟨(ExternalConstraint.store_error hb).1, Or.inl (ExternalConstraint.store_error hb).2⟩
    split at hb
    · rename_i hv
      simp only [Prod.mk.injEq, Except.error.injEq] at hb
      obtain ⟨rfl, rfl⟩ := hb
      exact ⟨rfl, externalValue_error hv⟩
    · simp only [Prod.mk.injEq] at hb
      obtain ⟨rfl, hb⟩ := hb
      exact ⟨(ExternalConstraint.store_error hb).1, Or.inl (ExternalConstraint.store_error hb).2⟩
  unfold ExternalConstraint.evaluateDesign rethrow at h
  split at h
  · rename_i s1 e1 hb
    obtain ⟨b1, b2⟩ := body _ _ hb
    simp only [Prod.mk.injEq, Except.error.injEq] at h
    obtain ⟨rfl, rfl⟩ := h
    refine ⟨b1, ?_⟩
    rcases b2 with b2 | rfl
    · rw [if_pos b2]; exact Or.inl rfl
    · exact Or.inr rfl
  · cases h

/-- The constraint in memory, when the design has no place for it. -/
example : (memoryConstraint.evaluateDesign copySimulation (emptyDisk, Design.ofVec [1])).2 =
    .error .runtimeError := by decide +kernel

end Rodeo
