import Verif.Lemmas.KrigingHistory
import Verif.Props.KrigingTrain

set_option linter.unusedSectionVars false

/-! # Histories of training and new samples (C58, C77) -/

namespace Rodeo
open Spec Mat Finset Text

/-- A call on a Kriging model that has been built from a file.  `perm m` and `permL m` are the shuffles
for a file of `m` rows. -/
inductive Spec.KEvent where
  | add (sample : List ℝ) (perm permL : Nat → List Nat)
  | train (call : TrainCall ℝ)

/-- The random numbers of a call are what the generators deliver. -/
def Spec.KEvent.Valid : KEvent → Prop
  | .add _ perm permL => ∀ m, (perm m).Perm (List.range m) ∧ (permL m).Perm (List.range m)
  | .train c => ∀ t, Draws (c.env t)

/-- The model and its training data file after a call, whether it returns or throws. -/
noncomputable def Spec.stepK (s : Kriging ℝ × Option Str) : KEvent → Kriging ℝ × Option Str
  | .add sample perm permL => (s.1.addNewSampleToData realFns s.2 sample
      (perm (s.1.data.rawData.nrows + 1)) (permL (s.1.data.rawData.nrows + 1))).1
  | .train c => ((s.1.train realFns c.env c.schedule c.file).1.1, s.2)

/-- The model and its file after a sequence of calls. -/
noncomputable def Spec.historyK (s : Kriging ℝ × Option Str) (evs : List KEvent) :
    Kriging ℝ × Option Str := evs.foldl stepK s

/-- The sample is close to row `q` of the table in all entries, the value included. -/
def Spec.CloseTo (dim : Nat) (G : Nat → Nat → ℝ) (q : Nat) (sample : List ℝ) : Prop :=
  ∀ j, j < dim + 1 → |G q j - vecFun sample j| ≤ 1 / 10 ^ 4

/-- How the table `G` with `n'` rows comes from the table `F` with `n` rows by the calls `evs`: the old
rows are there, every new row is one of the samples up to the digits in the file, new rows differ from
all rows before them in some entry, and every sample of the right size is close to some row. -/
structure Spec.Grown (dim : Nat) (evs : List KEvent) (n : Nat) (F : Nat → Nat → ℝ) (n' : Nat)
    (G : Nat → Nat → ℝ) : Prop where
  le : n ≤ n'
  kept : ∀ i j, i < n → j < dim + 1 → G i j = F i j
  source : ∀ q, n ≤ q → q < n' → ∃ sample perm permL, KEvent.add sample perm permL ∈ evs ∧
    sample.length = dim + 1 ∧
    ∀ j, j < dim + 1 → |G q j - vecFun sample j| ≤ 1 / 2 / 10 ^ 12 ∧ Decimals 12 (G q j)
  separated : ∀ p q, p < q → n ≤ q → q < n' → ∃ j, j < dim + 1 ∧
    1 / 10 ^ 4 - 1 / 2 / 10 ^ 12 < |G p j - G q j|
  complete : ∀ sample perm permL, KEvent.add sample perm permL ∈ evs → sample.length = dim + 1 →
    ∃ q, q < n' ∧ CloseTo dim G q sample

theorem Spec.Grown.train {dim n n' : Nat} {evs : List KEvent} {F G : Nat → Nat → ℝ}
    (h : Grown dim evs n F n' G) (c : TrainCall ℝ) : Grown dim (evs ++ [.train c]) n F n' G :=
  ⟨h.le, h.kept, fun q h1 h2 => by
    obtain ⟨s, p, pL, h3, h4⟩ := h.source q h1 h2
    exact ⟨s, p, pL, by simp [h3], h4⟩, h.separated, fun s p pL hs hl => h.complete s p pL (by simpa using hs) hl⟩

theorem Spec.Grown.ignored {dim n n' : Nat} {evs : List KEvent} {F G : Nat → Nat → ℝ}
    (h : Grown dim evs n F n' G) (sample : List ℝ) (perm permL : Nat → List Nat)
    (hc : sample.length = dim + 1 → ∃ q, q < n' ∧ CloseTo dim G q sample) :
    Grown dim (evs ++ [.add sample perm permL]) n F n' G :=
  ⟨h.le, h.kept, fun q h1 h2 => by
    obtain ⟨s, p, pL, h3, h4⟩ := h.source q h1 h2
    exact ⟨s, p, pL, by simp [h3], h4⟩, h.separated, fun s p pL hs hl => by
    rw [List.mem_append, List.mem_singleton] at hs
    rcases hs with hs | hs
    · exact h.complete s p pL hs hl
    · cases hs; exact hc hl⟩

theorem Spec.Grown.appended {dim n n' : Nat} {evs : List KEvent} {F G G' : Nat → Nat → ℝ}
    (h : Grown dim evs n F n' G) {sample : List ℝ} (perm permL : Nat → List Nat)
    (hl : sample.length = dim + 1) (hG : ∀ i j, i < n' → j < dim + 1 → G' i j = G i j)
    (hnew : ∀ j, j < dim + 1 → |G' n' j - vecFun sample j| ≤ 1 / 2 / 10 ^ 12 ∧ Decimals 12 (G' n' j))
    (hfar : ∀ q, q < n' → ∃ j, j < dim + 1 ∧ 1 / 10 ^ 4 < |G q j - vecFun sample j|) :
    Grown dim (evs ++ [.add sample perm permL]) n F (n' + 1) G' := by
  have hle := h.le
  refine ⟨by omega, ?_, ?_, ?_, ?_⟩
  · intro i j hi hj
    rw [hG i j (by omega) hj, h.kept i j hi hj]
  · intro q h1 h2
    rcases (by omega : q < n' ∨ q = n') with h3 | rfl
    · obtain ⟨s, p, pL, h4, h5, h6⟩ := h.source q h1 h3
      exact ⟨s, p, pL, by simp [h4], h5, fun j hj => by rw [hG q j h3 hj]; exact h6 j hj⟩
    · exact ⟨sample, perm, permL, by simp, hl, hnew⟩
  · intro p q h1 h2 h3
    rcases (by omega : q < n' ∨ q = n') with h4 | rfl
    · obtain ⟨j, hj, h5⟩ := h.separated p q h1 h2 h4
      exact ⟨j, hj, by rw [hG p j (by omega) hj, hG q j h4 hj]; exact h5⟩
    · obtain ⟨j, hj, h5⟩ := hfar p h1
      refine ⟨j, hj, ?_⟩
      rw [hG p j h1 hj]
      have h6 := (hnew j hj).1
      have h7 : |G p j - vecFun sample j| ≤ |G p j - G' q j| + |G' q j - vecFun sample j| :=
        abs_sub_le _ _ _
      linarith
  · intro s p pL hs hl'
    rw [List.mem_append, List.mem_singleton] at hs
    rcases hs with hs | hs
    · obtain ⟨q, hq, hc⟩ := h.complete s p pL hs hl'
      exact ⟨q, by omega, fun j hj => by rw [hG q j hq hj]; exact hc j hj⟩
    · cases hs
      refine ⟨n', by omega, fun j hj => (hnew j hj).1.trans (by norm_num)⟩

/-- What holds after every history. -/
theorem history_inv {k : Kriging ℝ} {text : Str} {n dim : Nat} {F : Nat → Nat → ℝ} {b : Bounds ℝ}
    {T : List ℝ → ℝ} (h : CurrentModel k (some text) n dim F b T) (hl : Likelihood k)
    (hb : ProperBox b dim) (h99 : k.usesLinear = true → dim ≤ 99)
    (hend : text.getLast? = some '\n') (evs : List KEvent) (hv : ∀ e ∈ evs, e.Valid) :
    ∃ text' n' G T', (historyK (k, some text) evs).2 = some text' ∧ text'.getLast? = some '\n' ∧
      text <+: text' ∧
      CurrentModel (historyK (k, some text) evs).1 (some text') n' dim G b T' ∧
      SameConfig k (historyK (k, some text) evs).1 ∧ Grown dim evs n F n' G := by
  induction evs using List.reverseRecOn with
  | nil =>
    refine ⟨text, n, F, T, rfl, hend, List.prefix_rfl, h, SameConfig.refl k, le_rfl, fun _ _ _ _ => rfl,
      ?_, ?_, ?_⟩
    · intro q h1 h2; omega
    · intro p q h1 h2 h3; omega
    · intro s p pL hs; simp at hs
  | append_singleton evs e ih =>
    obtain ⟨text', n', G, T', e1, hend', hpre, hcur, hsame, hgr⟩ := ih fun e he => hv e (by simp [he])
    have hve := hv e (by simp)
    have hstep : historyK (k, some text) (evs ++ [e]) = stepK (historyK (k, some text) evs) e := by
      unfold historyK
      rw [List.foldl_append]
      rfl
    rw [hstep]
    generalize historyK (k, some text) evs = st at e1 hcur hsame ⊢
    obtain ⟨k', f'⟩ := st
    have e1 : f' = some text' := e1
    subst e1
    have hl' := hl.of_same hsame
    cases e with
    | train c =>
      obtain ⟨t1, t2⟩ := Kriging.train_current hcur hl' hve c.schedule c.file
      exact ⟨text', n', G, T', rfl, hend', hpre, t1, hsame.trans t2, hgr.train c⟩
    | add sample perm permL =>
      have hrows : k'.data.rawData.nrows = n' := hcur.rows.1
      have hval : ∀ m, (perm m).Perm (List.range m) ∧ (permL m).Perm (List.range m) := hve
      rcases Kriging.addNewSample_cases hcur hl'.nugget hb
        (by rw [show k'.usesLinear = k.usesLinear from hsame.usesLinear]; exact h99) hend' sample
        (hval (n' + 1)).1 (hval (n' + 1)).2 with ⟨a1, a2⟩ | ⟨a1, ⟨q, hq, hc⟩, a2⟩ |
          ⟨a1, a2, k2, text2, G2, T2, a3, a4, a5, a6, a7, a8, a9, -⟩
      · refine ⟨text', n', G, T', ?_, hend', hpre, ?_, ?_, hgr.ignored sample perm permL
          fun hs => absurd hs a1⟩
        · simp only [stepK, hrows, a2]
        · simp only [stepK, hrows, a2]; exact hcur
        · simp only [stepK, hrows, a2]; exact hsame
      · refine ⟨text', n', G, T', ?_, hend', hpre, ?_, ?_, hgr.ignored sample perm permL
          fun _ => ⟨q, hq, hc⟩⟩
        · simp only [stepK, hrows, a2]
        · simp only [stepK, hrows, a2]; exact hcur
        · simp only [stepK, hrows, a2]; exact hsame
      · refine ⟨text2, n' + 1, G2, T2, ?_, a6, hpre.trans a7, ?_, ?_, hgr.appended perm permL a1 a8 a9 a2⟩
        · simp only [stepK, hrows, a3]
        · simp only [stepK, hrows, a3]; exact a4
        · simp only [stepK, hrows, a3]
          exact hsame.trans ⟨a5.threads, a5.usesLinear, a5.epsilon, a5.average, a5.objective,
            a5.validation, a5.writeWarm, a5.readWarm⟩

/-! ## C58 -/

/-- A Kriging model that is built from a file with `n` rows and a line break at its end, with a positive
nugget, without validation samples. -/
structure Spec.Built (k : Kriging ℝ) (text : Str) (n dim : Nat) (F : Nat → Nat → ℝ) (b : Bounds ℝ)
    (lin : Bool) (eps : ℝ) : Prop where
  file : DataFile (some text) n dim F
  lineBreak : text.getLast? = some '\n'
  box : ProperBox b dim
  dimPos : 0 < dim
  dim99 : lin = true → dim ≤ 99
  nugget : 0 < eps
  nugget1 : eps < 1
  built : ∃ perm permL : List Nat, perm.Perm (List.range n) ∧ permL.Perm (List.range n) ∧
    buildKriging dim lin b eps none (some text) perm permL = (k, .ok ())

theorem Spec.Built.history {k : Kriging ℝ} {text : Str} {n dim : Nat} {F : Nat → Nat → ℝ} {b : Bounds ℝ}
    {lin : Bool} {eps : ℝ} (h : Built k text n dim F b lin eps) {evs : List KEvent}
    (hv : ∀ e ∈ evs, e.Valid) :
    ∃ text' n' G T, (historyK (k, some text) evs).2 = some text' ∧ text <+: text' ∧
      CurrentModel (historyK (k, some text) evs).1 (some text') n' dim G b T ∧
      (historyK (k, some text) evs).1.usesLinear = lin ∧
      (historyK (k, some text) evs).1.averageBeta0 = false ∧
      (historyK (k, some text) evs).1.corr.base.epsilon = eps ∧ text'.getLast? = some '\n' ∧
      Grown dim evs n F n' G := by
  obtain ⟨perm, permL, hp, hpL, e⟩ := h.built
  obtain ⟨k', T, e', hcur, hc, -, -⟩ := buildKriging_current h.file h.box h.dimPos h.dim99 h.nugget.le
    h.nugget1 (fun h0 => absurd h0 h.nugget.ne') hp hpL
  rw [e] at e'
  obtain rfl : k = k' := (Prod.mk.inj e').1
  obtain ⟨text', n', G, T', a1, a2, a3, a4, a5, a6⟩ := history_inv hcur
    ⟨by rw [hc.epsilon]; exact h.nugget, hc.validation, hc.objective, hc.readWarm⟩ h.box
    (by rw [hc.usesLinear]; exact h.dim99) h.lineBreak evs hv
  exact ⟨text', n', G, T', a1, a3, a4, a5.usesLinear.trans hc.usesLinear, a5.average.trans hc.average,
    a5.epsilon.trans hc.epsilon, a2, a6⟩

/-- The full property: no new row has the parameters of a row before it. -/
def C58_full : Prop :=
  ∀ (k : Kriging ℝ) (text : Str) (n dim : Nat) (F : Nat → Nat → ℝ) (b : Bounds ℝ) (lin : Bool)
    (eps : ℝ) (evs : List KEvent), Built k text n dim F b lin eps → (∀ e ∈ evs, e.Valid) →
    ∃ n' G, DataFile (historyK (k, some text) evs).2 n' dim G ∧
      ∀ p q, p < q → n ≤ q → q < n' → ∃ j, j < dim ∧ 1 / 10 ^ 4 - 1 / 2 / 10 ^ 12 < |G p j - G q j|

/-- What holds for every history of new samples and trainings: the file only grows, the rows that were
there remain, every new row is one of the samples, every sample of the right size is close to a row, and
a new row differs from each row before it in a parameter *or in the value*.  Missing: that the
parameters differ (`C58_false`). -/
theorem C58_partial {k : Kriging ℝ} {text : Str} {n dim : Nat} {F : Nat → Nat → ℝ} {b : Bounds ℝ}
    {lin : Bool} {eps : ℝ} (h : Built k text n dim F b lin eps) {evs : List KEvent}
    (hv : ∀ e ∈ evs, e.Valid) :
    ∃ text' n' G, (historyK (k, some text) evs).2 = some text' ∧ text <+: text' ∧
      DataFile (some text') n' dim G ∧ Grown dim evs n F n' G := by
  obtain ⟨text', n', G, T, h1, h2, h3, -, -, -, -, h4⟩ := h.history hv
  exact ⟨text', n', G, h1, h2, ⟨_, h3.table, h3.rows⟩, h4⟩

/-- After every history: a sample of a wrong size and a sample that is close to a row change neither
the model nor the file; the first is reported, the second is not. -/
theorem C58_rejected {k : Kriging ℝ} {text : Str} {n dim : Nat} {F : Nat → Nat → ℝ} {b : Bounds ℝ}
    {lin : Bool} {eps : ℝ} (h : Built k text n dim F b lin eps) {evs : List KEvent}
    (hv : ∀ e ∈ evs, e.Valid) {k' : Kriging ℝ} {text' : Str} {n' : Nat} {G : Nat → Nat → ℝ}
    (hk : historyK (k, some text) evs = (k', some text')) (hG : DataFile (some text') n' dim G)
    (sample : List ℝ) {perm permL : List Nat} (hp : perm.Perm (List.range (n' + 1)))
    (hpL : permL.Perm (List.range (n' + 1))) :
    (sample.length ≠ dim + 1 → k'.addNewSampleToData realFns (some text') sample perm permL =
      ((k', some text'), .error .runtimeError)) ∧
    (sample.length = dim + 1 → (∃ q, q < n' ∧ CloseTo dim G q sample) →
      k'.addNewSampleToData realFns (some text') sample perm permL = ((k', some text'), .ok ())) := by
  obtain ⟨t2, n2, G2, T, h1, h2, h3, h5, -, h6, h7, h4⟩ := h.history hv
  rw [hk] at h1 h3 h5 h6
  obtain rfl : text' = t2 := Option.some.inj h1
  obtain ⟨A, r1, r2⟩ := hG.table
  obtain ⟨A', r1', r2'⟩ := (⟨_, h3.table, h3.rows⟩ : DataFile _ _ _ _).table
  rw [r1] at r1'
  cases r1'
  obtain ⟨rfl, -, hF⟩ := isMat_unique r2 r2'
  rcases Kriging.addNewSample_cases h3 (by rw [h6]; exact h.nugget) h.box
    (by rw [h5]; exact h.dim99) h7 sample hp hpL with ⟨a1, a2⟩ | ⟨a1, -, a2⟩ | ⟨a1, a2, -⟩
  · exact ⟨fun _ => a2, fun hl => absurd hl a1⟩
  · exact ⟨fun hl => absurd a1 hl, fun _ _ => a2⟩
  · refine ⟨fun hl => absurd a1 hl, fun _ ⟨q, hq, hc⟩ => ?_⟩
    obtain ⟨j, hj, hlt⟩ := a2 q hq
    have := hc j hj
    rw [hF q j hq hj] at this
    exact absurd this (not_le.2 hlt)

/-! ## C77 -/

/-- The model predicts from exactly the `n` rows of the table `F`: for some trend of these rows and
parameters in the range of the correlation function, at every point the prediction is the trend plus the
best linear unbiased predictor of the differences to the trend, with the mean squared error of this
predictor (up to `2e-9` of the process variance), which is not negative. -/
def Spec.PredictsFrom (k : Kriging ℝ) (n dim : Nat) (F : Nat → Nat → ℝ) (b : Bounds ℝ) (lin : Bool)
    (eps : ℝ) : Prop :=
  k.corr.base.epsilon = eps ∧ GoodParameters k.corr.theta k.corr.gamma dim ∧
  ∃ T, TrendOf lin n dim b F T ∧ ∀ x : List ℝ, x.length = dim → ∃ lam v,
    IsBLUP n (corrOf k dim (normalized b dim F)) (corrWith k dim (normalized b dim F) x) lam ∧
    k.interpolateWithVariance realFns x = .ok (T x + ∑ i ∈ range n,
      lam i * (F i dim - T ((List.range dim).map (normalized b dim F i))), v) ∧ 0 ≤ v ∧
    |v - k.sigmaSquared * predictorError n (corrOf k dim (normalized b dim F))
      (corrWith k dim (normalized b dim F) x) lam| ≤ k.sigmaSquared * (2 / 10 ^ 9)

/-- **C77.** After every history of new samples and trainings, also of calls that throw, the model
predicts from exactly the rows of its data file. -/
theorem C77_current {k : Kriging ℝ} {text : Str} {n dim : Nat} {F : Nat → Nat → ℝ} {b : Bounds ℝ}
    {lin : Bool} {eps : ℝ} (h : Built k text n dim F b lin eps) {evs : List KEvent}
    (hv : ∀ e ∈ evs, e.Valid) :
    ∃ n' G, n ≤ n' ∧ DataFile (historyK (k, some text) evs).2 n' dim G ∧
      PredictsFrom (historyK (k, some text) evs).1 n' dim G b lin eps := by
  obtain ⟨text', n', G, T, h1, -, h3, h5, h6, h7, -, h4⟩ := h.history hv
  refine ⟨n', G, h4.le, by rw [h1]; exact ⟨_, h3.table, h3.rows⟩, h7, h3.good, T, ?_, ?_⟩
  · rw [← h5]; exact h3.trend
  · intro x hx
    obtain ⟨lam, v, b1, b2, b3⟩ := C76_blup h3.model h6 hx
    obtain ⟨f, v', c1, -, c3⟩ := C75_variance_nonneg h3.model hx
    rw [b2] at c1
    cases c1
    exact ⟨lam, v, b1, b2, c3, b3⟩

/-! ## The hypotheses are met -/

theorem exampleText : ∃ text : Str, text.getLast? = some '\n' ∧ DataFile (some text) 2 1 exampleTable := by
  have hA : IsMat (⟨2, 2, [0, 2, 1, 3]⟩ : Mat ℝ) 2 2 exampleTable := by
    refine isMat_iff.2 ⟨rfl, rfl, rfl, ?_⟩
    intro i j hi hj
    rcases (by omega : i = 0 ∨ i = 1) with rfl | rfl <;>
      rcases (by omega : j = 0 ∨ j = 1) with rfl | rfl <;> simp [exampleTable]
  obtain ⟨text, B, G, h1, h2, h3, -, h5⟩ := C50_roundtrip hA (by norm_num) 0 [] (Or.inl rfl) (by simp)
  refine ⟨text, ?_, B, h2, h3.congr fun i j hi hj => ?_⟩
  · rw [saveAsCSV_ok hA 0 [] (Or.inl rfl)] at h1
    rw [← (Prod.mk.inj h1).1]
    simp [csvText, List.range_succ, List.getLast?_cons, List.getLast?_append]
  refine h5 i j hi hj ?_
  unfold exampleTable
  split_ifs
  · exact ⟨0, by norm_num⟩
  · exact ⟨2, by norm_num⟩
  · exact ⟨1, by norm_num⟩
  · exact ⟨3, by norm_num⟩

/-- There is such a model, with and without a linear trend. -/
theorem exists_built (lin : Bool) : ∃ k text,
    Built k text 2 1 exampleTable ⟨[(0 : ℝ)], [2], 1, true⟩ lin (1 / 10 ^ 12) := by
  obtain ⟨text, ht, hf⟩ := exampleText
  obtain ⟨k, T, e, -⟩ := buildKriging_current (lin := lin) (eps := 1 / 10 ^ 12)
    (perm := [0, 1]) (permL := [0, 1]) hf exampleBox (by norm_num) (by simp) (by norm_num)
    (by norm_num) (by norm_num) (by decide) (by decide)
  exact ⟨k, text, hf, ht, exampleBox, by norm_num, by simp, by norm_num, by norm_num, [0, 1], [0, 1],
    by decide, by decide, e⟩

/-- C58 is false in full: with the rows `0, 1` and `2, 3` in the file, the sample `0, 5` is stored,
although `0` is there. -/
theorem C58_false : ¬ C58_full := by
  intro h
  obtain ⟨k, text, hb⟩ := exists_built false
  have hv : ∀ e ∈ [KEvent.add [0, 5] List.range List.range], e.Valid := by
    intro e he
    rw [List.mem_singleton] at he
    subst he
    exact fun m => ⟨List.Perm.refl _, List.Perm.refl _⟩
  obtain ⟨n', G, h1, h2⟩ := h k text 2 1 _ _ _ _ _ hb hv
  obtain ⟨text', n2, G2, e1, -, h3, h4⟩ := C58_partial hb hv
  rw [e1] at h1
  obtain ⟨A, r1, r2⟩ := h1.table
  obtain ⟨A', r1', r2'⟩ := h3.table
  rw [r1] at r1'
  cases r1'
  obtain ⟨rfl, -, hF⟩ := isMat_unique r2 r2'
  -- the sample is in the file
  obtain ⟨q, hq, hc⟩ := h4.complete _ _ _ (List.mem_singleton.2 rfl) rfl
  have hle := h4.le
  have hq2 : 2 ≤ q := by
    by_contra hlt
    have h6 := hc 1 (by norm_num)
    rw [h4.kept q 1 (by omega) (by norm_num)] at h6
    rcases (by omega : q = 0 ∨ q = 1) with rfl | rfl <;> norm_num [exampleTable, vecFun] at h6
  obtain ⟨j, hj, h7⟩ := h2 0 q (by omega) hq2 hq
  obtain rfl : j = 0 := by omega
  obtain ⟨s, p, pL, m1, m2, m3⟩ := h4.source q hq2 hq
  rw [List.mem_singleton] at m1
  cases m1
  have h8 := m3 0 (by norm_num)
  rw [hF 0 0 (by omega) (by norm_num), h4.kept 0 0 (by norm_num) (by norm_num),
    hF q 0 hq (by norm_num)] at h7
  have e0 : vecFun [(0 : ℝ), 5] 0 = 0 := rfl
  have e2 : exampleTable 0 0 = 0 := by simp [exampleTable]
  rw [e0, sub_zero] at h8
  rw [e2, zero_sub, abs_neg] at h7
  norm_num at h7 h8
  linarith

/-- A history with a stored sample, the same sample once more and a sample of a wrong size: the file has
one row more. -/
example : ∃ k text n' G, Built k text 2 1 exampleTable ⟨[(0 : ℝ)], [2], 1, true⟩ true (1 / 10 ^ 12) ∧
    DataFile (historyK (k, some text) [.add [1, 7] List.range List.range,
      .add [1, 7] List.range List.range, .add [1] List.range List.range]).2 n' 1 G ∧ n' = 3 ∧
    PredictsFrom (historyK (k, some text) [.add [1, 7] List.range List.range,
      .add [1, 7] List.range List.range, .add [1] List.range List.range]).1 n' 1 G
        ⟨[(0 : ℝ)], [2], 1, true⟩ true (1 / 10 ^ 12) := by
  obtain ⟨k, text, hb⟩ := exists_built true
  have hv : ∀ e ∈ [KEvent.add [1, 7] List.range List.range, .add [1, 7] List.range List.range,
      .add [1] List.range List.range], e.Valid := by
    intro e he
    simp only [List.mem_cons, List.not_mem_nil, or_false] at he
    rcases he with rfl | rfl | rfl <;> exact fun m => ⟨List.Perm.refl _, List.Perm.refl _⟩
  obtain ⟨n', G, -, h1, h2⟩ := C77_current hb hv
  refine ⟨k, text, n', G, hb, h1, ?_, h2⟩
  obtain ⟨text', n2, G2, e1, -, h3, h4⟩ := C58_partial hb hv
  rw [e1] at h1
  obtain ⟨A, r1, r2⟩ := h1.table
  obtain ⟨A', r1', r2'⟩ := h3.table
  rw [r1] at r1'
  cases r1'
  obtain ⟨rfl, -, hF⟩ := isMat_unique r2 r2'
  obtain ⟨q, hq, hc⟩ := h4.complete [1, 7] List.range List.range (by simp) rfl
  have hle := h4.le
  have hq2 : 2 ≤ q := by
    by_contra hlt
    have h6 := hc 1 (by norm_num)
    rw [h4.kept q 1 (by omega) (by norm_num)] at h6
    rcases (by omega : q = 0 ∨ q = 1) with rfl | rfl <;> norm_num [exampleTable, vecFun] at h6
  by_contra hne
  -- two new rows would both be the sample
  have hsrc : ∀ r, 2 ≤ r → r < n' → ∀ j, j < 2 → |G2 r j - vecFun [(1 : ℝ), 7] j| ≤ 1 / 2 / 10 ^ 12 := by
    intro r hr1 hr2 j hj
    obtain ⟨s, p, pL, m1, m2, m3⟩ := h4.source r hr1 hr2
    simp only [List.mem_cons, List.not_mem_nil, or_false] at m1
    rcases m1 with m1 | m1 | m1
    · cases m1; exact (m3 j hj).1
    · cases m1; exact (m3 j hj).1
    · cases m1; simp at m2
  obtain ⟨j, hj, h7⟩ := h4.separated 2 3 (by norm_num) (by norm_num) (by omega)
  have a1 := hsrc 2 (by norm_num) (by omega) j hj
  have a2 := hsrc 3 (by norm_num) (by omega) j hj
  have a3 := abs_sub_le (G2 2 j) (vecFun [(1 : ℝ), 7] j) (G2 3 j)
  rw [abs_sub_comm (vecFun [(1 : ℝ), 7] j)] at a3
  norm_num at h7 a1 a2
  linarith

end Rodeo
