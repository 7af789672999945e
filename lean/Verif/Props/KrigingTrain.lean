import Verif.Lemmas.KrigingTrain
import Verif.Props.KrigingBuild
import Mathlib.Data.Rat.Floor

set_option linter.unusedSectionVars false

/-! # Training of a Kriging model (C56, C57) -/

namespace Rodeo
open Spec Mat Finset Text

section generic
variable {K : Type} [Field K] [LinearOrder K] [IsStrictOrderedRing K]

/-! ## C56 -/

/-- A call of `train`: the random numbers of the threads, the order in which they enter the critical
section, and the hyperparameter file. -/
structure Spec.TrainCall (K : Type) where
  env : Nat → EAEnv K
  schedule : List Nat
  file : Option Str

/-- The object after calls of `train`, also of calls that throw. -/
def Spec.afterTrainings [FloorRing K] (F : Fns K) (k : Kriging K) (calls : List (TrainCall K)) : Kriging K :=
  calls.foldl (fun k c => (k.train F c.env c.schedule c.file).1.1) k

/-- An initialized model that searches its hyperparameters. -/
structure Spec.Trainable0 (k : Kriging K) : Prop where
  isInitialized : k.isInitialized = true
  isRead : k.isRead = true
  isNormalized : k.isNormalized = true
  search : k.readWarm = false
  dimension : k.dimension ≠ 0
  threads : k.threads ≠ 0

/-- The full property: calls of `train` leave the number of iterations as it was set. -/
def C56_full (K : Type) [Field K] [LinearOrder K] [IsStrictOrderedRing K] [FloorRing K] (F : Fns K) :
    Prop :=
  ∀ (k : Kriging K) (calls : List (TrainCall K)), Trainable0 k →
    (afterTrainings F k calls).iterations = k.iterations

/-- After `j` calls, whatever their outcomes, the number of iterations is the configured number
divided by the `j`-th power of the number of threads. -/
theorem C56_iterations [FloorRing K] (F : Fns K) {k : Kriging K} (hk : Trainable0 k)
    (calls : List (TrainCall K)) :
    Trainable0 (afterTrainings F k calls) ∧ (afterTrainings F k calls).threads = k.threads ∧
      (afterTrainings F k calls).iterations = k.iterations / k.threads ^ calls.length := by
  induction calls generalizing k with
  | nil => exact ⟨hk, rfl, by simp [afterTrainings]⟩
  | cons c calls ih =>
    have h := Kriging.train_keeps F c.env c.schedule c.file hk.isInitialized hk.search hk.dimension
      hk.threads
    set k1 := (k.train F c.env c.schedule c.file).1.1 with hk1
    have hk' : Trainable0 k1 := ⟨h.isInitialized.trans hk.isInitialized, h.isRead.trans hk.isRead,
      h.isNormalized.trans hk.isNormalized, h.readWarm.trans hk.search, by
        rw [h.dimension]; exact hk.dimension, by rw [h.threads]; exact hk.threads⟩
    obtain ⟨h1, h2, h3⟩ := ih hk'
    refine ⟨h1, h2.trans h.threads, ?_⟩
    show (afterTrainings F k1 calls).iterations = _
    rw [h3, h.iterations, h.threads, List.length_cons, pow_succ', Nat.div_div_eq_div_mul]

/-- With more than one thread training comes to an end: as soon as the number of calls makes the
power of the number of threads larger than the configured number of iterations, every further call
throws. -/
theorem C56_ends [FloorRing K] (F : Fns K) {k : Kriging K} (hk : Trainable0 k)
    (calls : List (TrainCall K)) (hN : k.iterations < k.threads ^ (calls.length + 1))
    (c : TrainCall K) (hc : c.schedule ≠ []) :
    ((afterTrainings F k calls).train F c.env c.schedule c.file).2 = .error .invalidArgument := by
  obtain ⟨h1, h2, h3⟩ := C56_iterations F hk calls
  refine Kriging.train_exhausted F c.env c.file hc h1.isRead h1.isNormalized h1.isInitialized h1.search
    h1.dimension h1.threads ?_
  rw [h3, h2, Nat.div_div_eq_div_mul, ← pow_succ]
  exact Nat.div_eq_of_lt hN

/-- With one thread every call works with the configured number.  Missing: more than one thread
(`C56_iterations`). -/
theorem C56_partial [FloorRing K] (F : Fns K) {k : Kriging K} (hk : Trainable0 k) (h1 : k.threads = 1)
    (calls : List (TrainCall K)) : (afterTrainings F k calls).iterations = k.iterations := by
  rw [(C56_iterations F hk calls).2.2, h1, one_pow, Nat.div_one]

end generic

/-- A model that is built from a file can be trained, with every number of threads and
iterations. -/
theorem trainable_of_current {k : Kriging ℝ} {file : Option Str} {n dim : Nat} {F : Nat → Nat → ℝ}
    {b : Bounds ℝ} {T : List ℝ → ℝ} (h : CurrentModel k file n dim F b T) (hw : k.readWarm = false)
    {t : Nat} (ht : t ≠ 0) (N : Nat) :
    Trainable0 ((k.setNumberOfThreads t).setNumberOfTrainingIterations N) := by
  have := h.prepared.dim
  have := h.prepared.dimPos
  exact ⟨h.isInitialized, h.prepared.read, h.prepared.normalized, hw, by
    show k.dimension ≠ 0
    omega, ht⟩

/-- There is a file for which the model is built and can be trained with `t` threads and `N`
iterations. -/
theorem exists_trainable {t : Nat} (ht : t ≠ 0) (N : Nat) : ∃ k : Kriging ℝ, Trainable0 k ∧
    k.threads = t ∧ k.iterations = N := by
  obtain ⟨file, hf⟩ := exampleFile
  obtain ⟨k, T, -, hcur, hc, -, -⟩ := buildKriging_current (lin := false) (eps := 1 / 10 ^ 12)
    (perm := [0, 1]) (permL := [0, 1]) hf exampleBox (by norm_num) (by simp) (by norm_num)
    (by norm_num) (by norm_num) (by decide) (by decide)
  exact ⟨_, trainable_of_current hcur hc.readWarm ht N, rfl, rfl⟩

/-- Not true: with two threads one call halves the number. -/
theorem C56_false : ¬ C56_full ℝ realFns := by
  intro h
  obtain ⟨k, hk, ht, hN⟩ := exists_trainable (t := 2) (by norm_num) 10000
  have h1 := h k [⟨fun _ => ⟨fun _ => .ok 0, fun _ => 0, fun _ _ => 0, fun _ => 0, fun _ => 0, 0⟩,
    [0, 1], none⟩] hk
  rw [(C56_iterations realFns hk _).2.2, ht, hN] at h1
  norm_num at h1

/-- With four threads and the default number of iterations the seventh call throws, whatever happened
in the first six. -/
example : ∃ k : Kriging ℝ, Trainable0 k ∧ k.threads = 4 ∧ k.iterations = 10000 ∧
    ∀ (calls : List (TrainCall ℝ)) (c : TrainCall ℝ), calls.length = 6 → c.schedule ≠ [] →
      ((afterTrainings realFns k calls).train realFns c.env c.schedule c.file).2 =
        .error .invalidArgument := by
  obtain ⟨k, hk, ht, hN⟩ := exists_trainable (t := 4) (by norm_num) 10000
  refine ⟨k, hk, ht, hN, fun calls c hl hc => C56_ends realFns hk calls ?_ c hc⟩
  rw [ht, hN, hl]; norm_num

section generic
variable {K : Type} [Field K] [LinearOrder K] [IsStrictOrderedRing K]

/-! ## C57 -/

/-- For every schedule of the threads and all random numbers: if `train` returns, the hyperparameters
kept are the result of one of the threads, no thread has a result with a smaller value of the
objective, this value is what the objective function delivers for the hyperparameters, and `theta`
lies in `[0, 20]`, `gamma` in `[1, 2]`. -/
theorem C57_best [FloorRing K] {F : Fns K} {k k' : Kriging K} {E : Nat → EAEnv K}
    {schedule : List Nat} {file file' : Option Str} (hw : k.readWarm = false)
    (hE : ∀ t, Draws (E t)) (h : k.train F E schedule file = ((k', file'), .ok ())) :
    ∃ res : Nat → List K × K, ∃ t0 ∈ schedule,
      (∀ t ∈ schedule,
        Kriging.threadSearch F k.searchState (Kriging.generations k.iterations k.dimension)
          (k.iterations / k.threads) (E t) = .ok (res t) ∧
        InBox (Kriging.hyperLb k.dimension) (Kriging.hyperUb k.dimension) (res t).1 ∧
        (Kriging.score F k.searchState.objective k.searchState (res t).1).2 = .ok (res t).2 ∧
        (res t0).2 ≤ (res t).2) ∧
      (res t0).2 < dblMax ∧ k'.corr.theta ++ k'.corr.gamma = (res t0).1 := by
  obtain ⟨hd, ht, best, c, f1, k1, g1, g2, g3, g4, -, g6, g7, -⟩ := Kriging.train_inv hw h
  obtain ⟨s1, s2⟩ := Kriging.searchAll_post g1
  rcases s2 with s2 | ⟨s2, t0, ht0, s3⟩
  · exact absurd (by rw [s2]) g4
  classical
  let res : Nat → List K × K := fun t => if ht : t ∈ schedule then (s1 t ht).choose else best
  have hres : ∀ t ∈ schedule, Kriging.threadSearch F k.searchState
      (Kriging.generations k.iterations k.dimension) (k.iterations / k.threads) (E t) = .ok (res t) ∧
      best.2 ≤ (res t).2 := by
    intro t ht
    have := (s1 t ht).choose_spec
    simp only [res, dif_pos ht]
    exact this
  have e0 : res t0 = best := by
    have := (hres t0 ht0).1
    rw [s3] at this
    exact (Except.ok.inj this).symm
  refine ⟨res, t0, ht0, ?_, by rw [e0]; exact s2, ?_⟩
  · intro t ht
    obtain ⟨a, b⟩ := hres t ht
    obtain ⟨c, d⟩ := Kriging.threadSearch_post (hE t) a
    exact ⟨a, c, d, by rw [e0]; exact b⟩
  · rw [e0]
    obtain ⟨q1, q2⟩ := Kriging.setHyperParameters_inv g2
    have hk1 : k1.corr.theta = c.theta ∧ k1.corr.gamma = c.gamma := by
      split at g6
      · exact Kriging.revertToFullData_hyper g6
      · rw [g6]; exact ⟨rfl, rfl⟩
    obtain ⟨c', L, r, u1, -, u3, -⟩ := Kriging.update_post g7
    have u3 : k'.corr = c' := u3
    obtain ⟨R, hR⟩ := Kriging.computeCorrelationMatrix_inv u1
    rw [u3, hR]
    show k1.corr.theta ++ k1.corr.gamma = _
    rw [hk1.1, hk1.2, q2]
    exact List.take_append_drop _ _

/-- The outcome does not depend on the order of the threads: with another order `train` finds
hyperparameters with the same value of the objective. -/
theorem C57_schedule [FloorRing K] {F : Fns K} {k : Kriging K} {gens maxEvals : Nat}
    {E : Nat → EAEnv K} {s s' : List Nat} (hp : s.Perm s') {best : List K × K}
    (h : Kriging.searchAll F k gens maxEvals E s = .ok best) :
    ∃ best', Kriging.searchAll F k gens maxEvals E s' = .ok best' ∧ best'.2 = best.2 := by
  unfold Kriging.searchAll at h ⊢
  obtain ⟨rs, e, h⟩ := bind_ok_inv h
  cases h
  obtain ⟨rs', e', hp'⟩ := mapRes_perm hp e
  exact ⟨_, bind_eq e' rfl, (Kriging.foldl_merge_perm hp' _).symm⟩

/-- The full property on failures: hyperparameters for which the factorization fails never have a
smaller (better) value than hyperparameters for which it succeeds. -/
def C57_full (K : Type) [Field K] [LinearOrder K] [IsStrictOrderedRing K] : Prop :=
  ∀ (F : Fns K) (obj : KrigingObjective) (k : Kriging K) (h1 h2 : List K) (v1 v2 : K),
    FactorizationFails F k h1 → FactorizationSucceeds F k h2 →
    (Kriging.score F obj k h1).2 = .ok v1 → (Kriging.score F obj k h2).2 = .ok v2 → v2 ≤ v1

/-- With the validation error as objective it is the other way round, always: a failed factorization
is better than every successful one. -/
theorem C57_always_violated {F : Fns K} {k : Kriging K} {h1 h2 : List K} {v1 v2 : K}
    (f1 : FactorizationFails F k h1) (f2 : FactorizationSucceeds F k h2)
    (e1 : (Kriging.score F .validationError k h1).2 = .ok v1)
    (e2 : (Kriging.score F .validationError k h2).2 = .ok v2) : v1 < v2 := by
  have hpos : (0 : K) < dblMax := dblMax_pos
  rcases Kriging.score_validation e1 with ⟨-, rfl⟩ | ⟨a, -⟩
  · rcases Kriging.score_validation e2 with ⟨a, -⟩ | ⟨-, a⟩
    · exact absurd f2 (Kriging.fails_not_succeeds a)
    · linarith
  · exact absurd a (Kriging.fails_not_succeeds f1)

/-- So with validation samples one thread with a failed factorization is enough: the hyperparameters
kept have a failed factorization, however many threads succeeded, under every schedule. -/
theorem C57_failure_wins [FloorRing K] {F : Fns K} {k : Kriging K} {gens maxEvals : Nat}
    {E : Nat → EAEnv K} (hE : ∀ t, Draws (E t)) {s : List Nat} {best : List K × K}
    (hobj : k.objective = .validationError)
    (h : Kriging.searchAll F k gens maxEvals E s = .ok best) {t : Nat} (ht : t ∈ s) {r : List K × K}
    (hr : Kriging.threadSearch F k gens maxEvals (E t) = .ok r) (hf : FactorizationFails F k r.1) :
    FactorizationFails F k best.1 := by
  have hpos : (0 : K) < dblMax := dblMax_pos
  obtain ⟨s1, s2⟩ := Kriging.searchAll_post h
  obtain ⟨r', e', hle⟩ := s1 t ht
  rw [hr] at e'; cases e'
  have e1 := (Kriging.threadSearch_post (hE t) hr).2
  rw [hobj] at e1
  rcases Kriging.score_validation e1 with ⟨-, e1⟩ | ⟨a, -⟩
  · rcases s2 with rfl | ⟨-, t', ht', s3⟩
    · rw [e1] at hle
      exact absurd hle (not_le.2 (by show -dblMax < dblMax; linarith))
    · have e2 := (Kriging.threadSearch_post (hE t') s3).2
      rw [hobj] at e2
      rcases Kriging.score_validation e2 with ⟨a, -⟩ | ⟨-, a⟩
      · exact a
      · rw [e1] at hle; linarith
  · exact absurd a (Kriging.fails_not_succeeds hf)

/-- `train` does not report it: a model whose factorization failed predicts its trend, that is zero
without one, at every point. -/
theorem C57_failed_model [FloorRing K] {F : Fns K} {k k' : Kriging K} {E : Nat → EAEnv K}
    {schedule : List Nat} {file file' : Option Str} (hw : k.readWarm = false)
    (h : k.train F E schedule file = ((k', file'), .ok ())) (hf : k'.chol.done = false)
    {x : List K} {v : K} (hv : k'.interpolate F x = .ok v) : k'.linearPart x = .ok v := by
  obtain ⟨hd, ht, best, c, f1, k1, -, -, -, -, -, -, g7, -⟩ := Kriging.train_inv hw h
  obtain ⟨c', L, r, -, -, -, u4, u5⟩ := Kriging.update_post g7
  have u4 : k'.chol.done = decide (r ≠ -1) := u4
  rw [hf] at u4
  have hr : r = -1 := by simpa using u4.symm
  obtain ⟨b0, w0⟩ := u5 hr
  have b0 : k'.beta0 = 0 := b0
  have w0 : k'.RinvYsMinBeta = Vec.resize [] k1.numberOfSamples := w0
  unfold Kriging.interpolate at hv
  obtain ⟨l, e1, hv⟩ := bind_ok_inv hv
  obtain ⟨rr, -, hv⟩ := bind_ok_inv hv
  obtain ⟨s, e3, hv⟩ := bind_ok_inv hv
  cases hv
  have hs : s = 0 := by
    rw [w0] at e3
    unfold Vec.dot at e3
    split at e3; · cases e3
    rename_i hl
    push Not at hl
    rw [sumLoop_ok (g := fun _ => 0)] at e3
    · rw [sum_const_zero] at e3
      exact (Except.ok.inj e3).symm
    · intro i hi
      have h2 : i < (Vec.resize ([] : List K) k1.numberOfSamples).length := by omega
      refine bind_eq (rawAt_ok_of_lt hi) (bind_eq (rawAt_ok_of_lt h2) ?_)
      simp [Vec.resize]
  rw [e1, b0, hs]
  simp

/-- With the likelihood as objective (no validation samples), for all threads, schedules and random
numbers: a failed factorization has the largest possible value, and if `train` returns, the
factorization succeeded for the hyperparameters that are kept.  Missing: the validation error as
objective (`C57_always_violated`). -/
theorem C57_partial [FloorRing K] {F : Fns K} {k : Kriging K} (hw : k.readWarm = false)
    (hv : k.hasValidation = false) (hobj : k.objective = .maximumLikelihood) :
    (∀ (h : List K) (v : K), FactorizationFails F k h →
      (Kriging.score F k.objective k h).2 = .ok v → v = dblMax) ∧
    (∀ {E : Nat → EAEnv K} {schedule : List Nat} {file file' : Option Str} {k' : Kriging K},
      (∀ t, Draws (E t)) → k.train F E schedule file = ((k', file'), .ok ()) →
      k'.chol.done = true ∧ FactorizationSucceeds F k (k'.corr.theta ++ k'.corr.gamma)) := by
  constructor
  · intro h v hf e
    rw [hobj] at e
    rcases Kriging.score_likelihood e with ⟨-, e⟩ | a
    · exact e
    · exact absurd a (Kriging.fails_not_succeeds hf)
  · intro E schedule file file' k' hE h
    obtain ⟨res, t0, ht0, r1, r2, r3⟩ := C57_best hw hE h
    obtain ⟨-, -, e1, -⟩ := r1 t0 ht0
    have ho : k.searchState.objective = .maximumLikelihood := by
      show (if k.hasValidation then _ else _) = _
      rw [if_neg (by simp [hv])]; exact hobj
    rw [ho] at e1
    have hs : FactorizationSucceeds F k (k'.corr.theta ++ k'.corr.gamma) := by
      rw [r3]
      rcases Kriging.score_likelihood e1 with ⟨-, e⟩ | a
      · exact absurd e r2.ne
      · exact a
    refine ⟨?_, hs⟩
    obtain ⟨hd, ht, best, c, f1, k1, g1, g2, g3, g4, -, g6, g7, -⟩ := Kriging.train_inv hw h
    rw [if_neg (by simp [hv, hobj])] at g6
    obtain ⟨c', L, r, u1, u2, u3, u4, -⟩ := Kriging.update_post g7
    have u3 : k'.corr = c' := u3
    have u4 : k'.chol.done = decide (r ≠ -1) := u4
    rw [u4]
    obtain ⟨M, L', r', m1, m2, m3⟩ := hs
    have hM : matrixAt F k best.1 = .ok c'.base.matrix := by
      rw [g6] at u1
      exact bind_eq g2 (bind_eq u1 rfl)
    have hb : k'.corr.theta ++ k'.corr.gamma = best.1 := by
      obtain ⟨q1, q2⟩ := Kriging.setHyperParameters_inv g2
      obtain ⟨R, hR⟩ := Kriging.computeCorrelationMatrix_inv u1
      rw [u3, hR, g6]
      show c.theta ++ c.gamma = _
      rw [q2]
      exact List.take_append_drop _ _
    rw [hb, hM] at m1
    cases m1
    rw [u2] at m2
    cases m2
    exact decide_eq_true m3

end generic

namespace TrainDemo

/-- Rounding to multiples of `1/n`. -/
def rnd (n : Nat) (x : ℚ) : ℚ := (⌊x * n + 1 / 2⌋ : ℚ) / n

/-- Rounded functions: `exp` to three decimals, the square root to six. -/
def fns : Fns ℚ where
  exp x := rnd 1000 ((1 + x / 1024) ^ 1024)
  pow x g := .ok (x ^ ⌊g⌋.toNat)
  sqrt x := (Nat.sqrt ⌊x * 10 ^ 12⌋.toNat : ℚ) / 10 ^ 6
  log x := x - 1

/-- A model with three training samples and one validation sample. -/
def model : Kriging ℚ :=
  { (Kriging.new : Kriging ℚ) with
    dimension := 1, numberOfSamples := 3, numberOfHyperParameters := 2
    hasValidation := true, objective := .validationError
    data := { (SMData.new : SMData ℚ) with
      dimension := 1, numberOfSamples := 3, X := ⟨3, 1, [0, 1 / 2, 1]⟩, y := [0, 0, 1]
      numberOfValidationSamples := 1, XValidation := ⟨1, 1, [1 / 4]⟩, yValidation := [0] }
    corr := ⟨⟨⟨3, 1, [0, 1 / 2, 1]⟩, 3, 1, Mat.const 3 3 0, 0, true⟩, [1], [2]⟩
    corrInitialized := true
    isRead := true, isNormalized := true, isInitialized := true }

theorem fails : FactorizationFails fns model [31 / 6250, 2] := by
  obtain ⟨M, e1, t⟩ := EADemo.of_test (r := matrixAt fns model [31 / 6250, 2])
    (P := fun M => EADemo.test (cholesky fns.sqrt M) fun p => decide (p.2 = -1))
    (by decide +kernel)
  obtain ⟨p, e2, t⟩ := EADemo.of_test t
  have t : p.2 = -1 := of_decide_eq_true t
  exact ⟨M, p.1, e1, by rw [e2, ← t]⟩

theorem succeeds : FactorizationSucceeds fns model [20, 1] := by
  obtain ⟨M, e1, t⟩ := EADemo.of_test (r := matrixAt fns model [20, 1])
    (P := fun M => EADemo.test (cholesky fns.sqrt M) fun p => decide (p.2 ≠ -1))
    (by decide +kernel)
  obtain ⟨p, e2, t⟩ := EADemo.of_test t
  have t : p.2 ≠ -1 := of_decide_eq_true t
  exact ⟨M, p.1, p.2, e1, e2, t⟩

/-- Both objectives have a value in both cases. -/
theorem scored : ∃ v1 v2 w1 w2,
    (Kriging.score fns .validationError model [31 / 6250, 2]).2 = .ok v1 ∧
    (Kriging.score fns .validationError model [20, 1]).2 = .ok v2 ∧
    (Kriging.score fns .maximumLikelihood model [31 / 6250, 2]).2 = .ok w1 ∧
    (Kriging.score fns .maximumLikelihood model [20, 1]).2 = .ok w2 := by
  obtain ⟨v1, e1, -⟩ := EADemo.of_test (r := (Kriging.score fns .validationError model [31 / 6250, 2]).2)
    (P := fun _ => true) (by decide +kernel)
  obtain ⟨v2, e2, -⟩ := EADemo.of_test (r := (Kriging.score fns .validationError model [20, 1]).2)
    (P := fun _ => true) (by decide +kernel)
  obtain ⟨w1, e3, -⟩ := EADemo.of_test (r := (Kriging.score fns .maximumLikelihood model [31 / 6250, 2]).2)
    (P := fun _ => true) (by decide +kernel)
  obtain ⟨w2, e4, -⟩ := EADemo.of_test (r := (Kriging.score fns .maximumLikelihood model [20, 1]).2)
    (P := fun _ => true) (by decide +kernel)
  exact ⟨v1, v2, w1, w2, e1, e2, e3, e4⟩

end TrainDemo

/-- C57 is false in full.  With rounded functions and a small `theta` inside the box of the search
the correlation matrix is indefinite and its factorization fails, which is the best possible value of
the validation error. -/
theorem C57_false : ¬ C57_full ℚ := by
  intro h
  obtain ⟨v1, v2, -, -, e1, e2, -, -⟩ := TrainDemo.scored
  exact absurd (h _ _ _ _ _ _ _ TrainDemo.fails TrainDemo.succeeds e1 e2)
    (not_le.2 (C57_always_violated TrainDemo.fails TrainDemo.succeeds e1 e2))

/-- The hypotheses of `C57_always_violated` can be met. -/
example : ∃ v1 v2, FactorizationFails TrainDemo.fns TrainDemo.model [31 / 6250, 2] ∧
    FactorizationSucceeds TrainDemo.fns TrainDemo.model [20, 1] ∧
    (Kriging.score TrainDemo.fns .validationError TrainDemo.model [31 / 6250, 2]).2 = .ok v1 ∧
    (Kriging.score TrainDemo.fns .validationError TrainDemo.model [20, 1]).2 = .ok v2 := by
  obtain ⟨v1, v2, -, -, e1, e2, -, -⟩ := TrainDemo.scored
  exact ⟨v1, v2, TrainDemo.fails, TrainDemo.succeeds, e1, e2⟩

/-- The hypotheses of the first part of `C57_partial` can be met. -/
example : ∃ v, FactorizationFails TrainDemo.fns
      { TrainDemo.model with hasValidation := false, objective := .maximumLikelihood } [31 / 6250, 2] ∧
    (Kriging.score TrainDemo.fns .maximumLikelihood TrainDemo.model [31 / 6250, 2]).2 = .ok v := by
  obtain ⟨-, -, v, -, -, -, e, -⟩ := TrainDemo.scored
  exact ⟨v, TrainDemo.fails, e⟩

end Rodeo
