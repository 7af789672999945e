import Verif.Lemmas.KrigingLive
import Verif.Props.KrigingHistory

/-! # C101: does the training of a Kriging model complete? -/

set_option linter.unusedSectionVars false

namespace Rodeo
open Spec Mat Finset Text

/-- The values of the rows without the trend. -/
noncomputable def Spec.residuals (b : Bounds ℝ) (dim : Nat) (F : Nat → Nat → ℝ) (T : List ℝ → ℝ) (i : Nat) : ℝ :=
  F i dim - T ((List.range dim).map (normalized b dim F i))

/-- A model of the rows `F` of a file that is ready to be trained by maximum likelihood: there is a
nugget, a thread, and at least one iteration for each thread. -/
structure Spec.ReadyToTrain (k : Kriging ℝ) (file : Option Str) (n dim : Nat) (F : Nat → Nat → ℝ)
    (b : Bounds ℝ) (T : List ℝ → ℝ) : Prop where
  current : CurrentModel k file n dim F b T
  likelihood : Likelihood k
  average : k.averageBeta0 = false
  threads : k.threads ≠ 0
  iterations : k.threads ≤ k.iterations

/-- The random generators of all threads are fair. -/
def Spec.FairThreads (k : Kriging ℝ) (dim : Nat) (E : Nat → EAEnv ℝ) : Prop :=
  ∀ t, FairDraws (E t) (trainingShare dim (Kriging.generations k.iterations dim))

/-- C101, full statement: with fair random generators training returns. -/
def C101_full : Prop :=
  ∀ (k : Kriging ℝ) (file : Option Str) (n dim : Nat) (F : Nat → Nat → ℝ) (b : Bounds ℝ) (T : List ℝ → ℝ)
    (E : Nat → EAEnv ℝ) (schedule : List Nat) (hyperFile : Option Str),
    ReadyToTrain k file n dim F b T → (∀ t, Draws (E t)) → FairThreads k dim E → schedule ≠ [] →
    ∃ k' f', k.train realFns E schedule hyperFile = ((k', f'), .ok ())

theorem generations_pos (N dim : Nat) : 0 < Kriging.generations N dim := by
  unfold Kriging.generations
  split_ifs with h
  · exact Nat.one_pos
  · exact Nat.pos_of_ne_zero h

theorem one_le_dblMax : (1 : ℝ) ≤ dblMax := by
  unfold dblMax
  have : (2 : ℝ) ^ 1024 = 2 ^ 971 * 2 ^ 53 := by rw [← pow_add]
  rw [this]
  have h1 : (1 : ℝ) ≤ 2 ^ 971 := one_le_pow₀ (by norm_num)
  generalize (2 : ℝ) ^ 971 = z at h1 ⊢
  nlinarith [h1]

/-- The training criterion: for hyperparameters `theta ++ gamma` in the box the objective of the search
is the negative log likelihood with the estimated process variance, or the largest number if this
variance is zero. -/
theorem C101_criterion {k : Kriging ℝ} {file : Option Str} {n dim : Nat} {F : Nat → Nat → ℝ} {b : Bounds ℝ}
    {T : List ℝ → ℝ} (h : ReadyToTrain k file n dim F b T) {theta gamma : List ℝ} (ht : theta.length = dim)
    (hb : InBox (Kriging.hyperLb dim) (Kriging.hyperUb dim) (theta ++ gamma)) :
    ∃ s, EstimatedVariance n (krigingMatrix dim (vecFun theta) (vecFun gamma) k.corr.base.epsilon
        (normalized b dim F)) (residuals b dim F T) s ∧
      (Kriging.score realFns .maximumLikelihood k (theta ++ gamma)).2 = .ok (if 0 < s then likelihoodLoss n
        (krigingMatrix dim (vecFun theta) (vecFun gamma) k.corr.base.epsilon (normalized b dim F)) s
        else dblMax) := by
  have := Kriging.score_value h.current.prepared h.likelihood.nugget h.average hb
  rw [← ht, List.take_left, List.drop_left, ht] at this
  exact this

/-- C101 (partial: criterion of at most `-1e-4` for all hyperparameters): training returns for all fair
random numbers and every schedule of the threads; for other random numbers the only obstacle is an
endless selection of a second parent.  Missing: other data, see `C101_constant`. -/
theorem C101_partial {k : Kriging ℝ} {file : Option Str} {n dim : Nat} {F : Nat → Nat → ℝ} {b : Bounds ℝ}
    {T : List ℝ → ℝ} (h : ReadyToTrain k file n dim F b T)
    (hlow : ∀ theta gamma : List ℝ, theta.length = dim →
      InBox (Kriging.hyperLb dim) (Kriging.hyperUb dim) (theta ++ gamma) → ∀ s,
      EstimatedVariance n (krigingMatrix dim (vecFun theta) (vecFun gamma) k.corr.base.epsilon
        (normalized b dim F)) (residuals b dim F T) s →
      0 < s ∧ likelihoodLoss n (krigingMatrix dim (vecFun theta) (vecFun gamma) k.corr.base.epsilon
        (normalized b dim F)) s ≤ -(1 / 10 ^ 4))
    {E : Nat → EAEnv ℝ} (hE : ∀ t, Draws (E t)) {schedule : List Nat} (hne : schedule ≠ [])
    (hyperFile : Option Str) :
    (FairThreads k dim E → ∃ k' f', k.train realFns E schedule hyperFile = ((k', f'), .ok ())) ∧
    ((∃ k' f', k.train realFns E schedule hyperFile = ((k', f'), .ok ())) ∨
      (k.train realFns E schedule hyperFile).2 = .error .outOfFuel) := by
  have hp := h.current.prepared
  set k1 : Kriging ℝ := { k with iterations := k.iterations / k.threads } with hk1
  have hs : Kriging.LowCriterion k1 dim := by
    intro x hx
    have hlen : dim ≤ x.length := by
      rw [hx.1]; simp [Kriging.hyperLb]
    have hp' : Prepared k1 n dim (normalized b dim F) (fun i => F i dim) T := { hp with }
    obtain ⟨s, h1, h2⟩ := Kriging.score_value hp' h.likelihood.nugget h.average hx
    obtain ⟨q1, q2⟩ := hlow (x.take dim) (x.drop dim) (by simp [hlen]) (by
      rw [List.take_append_drop]; exact hx) s h1
    have hobj : k1.objective = .maximumLikelihood := h.likelihood.objective
    refine ⟨_, ?_, q2⟩
    rw [hobj, h2, if_pos q1]
  have hrun := Kriging.searchAll_runs (k := k1) (m := dim)
    (gens := Kriging.generations k.iterations k.dimension) (maxEvals := k.iterations / k.threads)
    hp.read hp.normalized h.current.isInitialized hp.dim hp.dimPos (generations_pos _ _)
    (Nat.div_pos h.iterations (Nat.pos_of_ne_zero h.threads)).ne' hE hs hne
  rcases hrun with ⟨hq, e⟩ | ⟨best, e, hb⟩
  · have := Kriging.train_throws h.current.isInitialized h.likelihood (by rw [hp.dim]; exact hp.dimPos.ne')
      h.threads hyperFile e
    refine ⟨fun hf => absurd (fun t _ => ?_) hq, Or.inr this⟩
    rw [hp.dim]
    exact hf t
  · have := Kriging.train_returns h.current h.likelihood h.threads hyperFile e hb
    exact ⟨fun _ => this, Or.inl this⟩

/-- C101 (values that vary little): training returns for all fair random numbers if the values, without
the trend, are not all the same and their mean square deviation from some number is smaller than the
nugget. -/
theorem C101_small {k : Kriging ℝ} {file : Option Str} {n dim : Nat} {F : Nat → Nat → ℝ} {b : Bounds ℝ}
    {T : List ℝ → ℝ} (h : ReadyToTrain k file n dim F b T)
    (hvar : ∀ c, ∃ i, i < n ∧ residuals b dim F T i ≠ c) {c : ℝ}
    (hsmall : (∑ i ∈ range n, (residuals b dim F T i - c) ^ 2) * (1 + k.corr.base.epsilon) ≤
      9 / 10 * (n * k.corr.base.epsilon))
    {E : Nat → EAEnv ℝ} (hE : ∀ t, Draws (E t)) (hF : FairThreads k dim E) {schedule : List Nat}
    (hne : schedule ≠ []) (hyperFile : Option Str) :
    ∃ k' f', k.train realFns E schedule hyperFile = ((k', f'), .ok ()) := by
  refine (C101_partial h ?_ hE hne hyperFile).1 hF
  intro theta gamma hl hb s hs
  have hgood := Kriging.good_of_box hb
  rw [← hl, List.take_left, List.drop_left, hl] at hgood
  have h0 := estimatedVariance_pos h.current.prepared.countPos
    (PosDef.of_good hgood h.likelihood.nugget (normalized b dim F)) hs hvar
  refine ⟨h0, likelihoodLoss_neg (c := c) h.current.prepared.countPos h.likelihood.nugget ?_ ?_ hs h0 ?_⟩
  · intro l hl
    have hl' : l < theta.length := by rw [hgood.thLen]; exact hl
    have e : vecFun theta l = theta[l] := by simp [vecFun, List.getD, hl']
    rw [e]; exact hgood.thNonneg _ (List.getElem_mem hl')
  · intro l hl
    have hl' : l < gamma.length := by rw [hgood.gaLen]; exact hl
    have e : vecFun gamma l = gamma[l] := by simp [vecFun, List.getD, hl']
    rw [e]; exact hgood.gaRange _ (List.getElem_mem hl')
  · have : dotp n (fun i => residuals b dim F T i - c) (fun i => residuals b dim F T i - c) =
        ∑ i ∈ range n, (residuals b dim F T i - c) ^ 2 := sum_congr rfl fun i _ => by ring
    rw [this]
    exact hsmall

/-- C101 (values without variation): if the values of all rows, without the trend, are the same, every
call of `train` fails, whatever the random numbers. -/
theorem C101_constant {k : Kriging ℝ} {file : Option Str} {n dim : Nat} {F : Nat → Nat → ℝ} {b : Bounds ℝ}
    {T : List ℝ → ℝ} (h : ReadyToTrain k file n dim F b T) {c : ℝ}
    (hconst : ∀ i, i < n → residuals b dim F T i = c)
    {E : Nat → EAEnv ℝ} (hE : ∀ t, Draws (E t)) {schedule : List Nat} (hne : schedule ≠ [])
    (hyperFile : Option Str) : ∃ e, (k.train realFns E schedule hyperFile).2 = .error e := by
  have hp := h.current.prepared
  set k1 : Kriging ℝ := { k with iterations := k.iterations / k.threads } with hk1
  have hp' : Prepared k1 n dim (normalized b dim F) (fun i => F i dim) T := { hp with }
  have hthread : ∀ t, ∃ e, Kriging.threadSearch realFns k1 (Kriging.generations k.iterations k.dimension)
      (k.iterations / k.threads) (E t) = .error e := by
    intro t
    obtain ⟨o, e1, hR, hlb, hub, -⟩ := Kriging.threadOptimizer_ready (dim := dim)
      (gens := Kriging.generations k.iterations k.dimension) (maxEvals := k.iterations / k.threads) hp.dimPos
      (generations_pos _ _) (Nat.div_pos h.iterations (Nat.pos_of_ne_zero h.threads)).ne'
    have hE' : Draws { E t with f := fun x => (Kriging.score realFns k1.objective k1 x).2 } := hE t
    obtain ⟨e, he⟩ := C100_constant hE' (o := o) hR.population (c := (dblMax : ℝ)) ⟨by
        have := dblMin_small (K := ℝ)
        have h2 := one_le_dblMax
        linarith, le_rfl⟩ (by
      intro x hx
      rw [hlb, hub] at hx
      obtain ⟨s, h1, h2⟩ := Kriging.score_value hp' h.likelihood.nugget h.average hx
      have h0 := estimatedVariance_zero h1 hconst
      have hobj : k1.objective = .maximumLikelihood := h.likelihood.objective
      show (Kriging.score realFns k1.objective k1 x).2 = _
      rw [hobj, h2, if_neg (by rw [h0]; exact lt_irrefl _)])
    refine ⟨e, ?_⟩
    unfold Kriging.threadSearch
    rw [if_neg (by
      have := h.current.isInitialized
      have := hp.read
      have := hp.normalized
      simp [*])]
    have hd : k1.dimension = dim := hp.dim
    rw [hd]
    rw [hp.dim] at e1
    exact bind_eq e1 (bind_err he)
  obtain ⟨t, l, rfl⟩ := List.exists_cons_of_ne_nil hne
  obtain ⟨e, he⟩ := hthread t
  refine ⟨e, Kriging.train_throws h.current.isInitialized h.likelihood (by rw [hp.dim]; exact hp.dimPos.ne')
      h.threads hyperFile (bind_err ?_)⟩
  show mapRes _ (t :: l) = _
  unfold mapRes
  rw [he]

/-! ## Files for which the hypotheses are met -/

/-- Every table whose entries have `p` decimals is the content of some file. -/
theorem exists_dataFile (n dim p : Nat) (F : Nat → Nat → ℝ) (hn : 1 ≤ n)
    (hd : ∀ i j, i < n → j < dim + 1 → Decimals p (F i j)) : ∃ file, DataFile file n dim F := by
  obtain ⟨A, hA⟩ := exists_isMat n (dim + 1) F
  obtain ⟨text, B, G, -, h2, h3, -, h5⟩ := C50_roundtrip hA hn p [] (Or.inl rfl) (by simp)
  exact ⟨some text, B, h2, h3.congr fun i j hi hj => h5 i j hi hj (hd i j hi hj)⟩

/-- Two samples at `0` and `2` with the values `0` and `v`. -/
def Spec.pairTable (v : ℝ) (i j : Nat) : ℝ :=
  if j = 0 then (if i = 0 then 0 else 2) else if i = 0 then 0 else v

/-- The model of these two samples, without a linear part and with the default nugget, can be trained. -/
theorem exists_readyToTrain {v : ℝ} {p : Nat} (hv : Decimals p v) : ∃ k file T,
    ReadyToTrain k file 2 1 (pairTable v) ⟨[(0 : ℝ)], [2], 1, true⟩ T ∧ k.corr.base.epsilon = 1 / 10 ^ 12 ∧
      k.iterations = 10000 ∧ ∀ x, T x = 0 := by
  have hint : ∀ z : Int, Decimals p (z : ℝ) := fun z => ⟨z * 10 ^ p, by push_cast; field_simp⟩
  obtain ⟨file, hf⟩ := exists_dataFile 2 1 p (pairTable v) (by norm_num) (by
    intro i j hi hj
    unfold pairTable
    split_ifs
    · exact_mod_cast hint 0
    · exact_mod_cast hint 2
    · exact_mod_cast hint 0
    · exact hv)
  obtain ⟨k, T, -, hcur, hc, -, -⟩ := buildKriging_current (lin := false) (eps := 1 / 10 ^ 12)
    (perm := [0, 1]) (permL := [0, 1]) hf exampleBox (by norm_num) (by simp) (by norm_num)
    (by norm_num) (by norm_num) (by decide) (by decide)
  refine ⟨k, file, T, ⟨hcur, ⟨by rw [hc.epsilon]; norm_num, hc.validation, hc.objective, hc.readWarm⟩,
    hc.average, by rw [hc.threads]; norm_num, by rw [hc.threads, hc.iterations]; norm_num⟩, hc.epsilon,
    hc.iterations, ?_⟩
  have := hcur.trend
  rw [hc.usesLinear] at this
  simpa [TrendOf] using this

/-- Fair generators exist. -/
theorem exists_fairThreads {k : Kriging ℝ} (hk : k.iterations = 10000) : ∃ E : Nat → EAEnv ℝ,
    (∀ t, Draws (E t)) ∧ FairThreads k 1 E := by
  refine ⟨fun _ => roundRobin (fun _ => .ok 0) 1020000, fun _ => roundRobin_draws _ (by norm_num), fun _ =>
    roundRobin_fair _ (by norm_num) ?_⟩
  rw [hk]
  have : Kriging.generations 10000 1 = 50 := by decide
  rw [this]
  unfold trainingShare
  norm_num

/-- The hypotheses of `C101_small` are met: with the values `0` and `1e-6`, the default nugget and fair
random numbers training returns, for every schedule. -/
example : ∃ (k : Kriging ℝ) (file : Option Str) (T : List ℝ → ℝ) (E : Nat → EAEnv ℝ),
    ReadyToTrain k file 2 1 (pairTable (1 / 10 ^ 6)) ⟨[(0 : ℝ)], [2], 1, true⟩ T ∧ (∀ t, Draws (E t)) ∧
    ∀ schedule, schedule ≠ [] → ∃ k' f', k.train realFns E schedule none = ((k', f'), .ok ()) := by
  obtain ⟨k, file, T, h, he, hN, hT⟩ := exists_readyToTrain (v := 1 / 10 ^ 6) (p := 6) ⟨1, by norm_num⟩
  obtain ⟨E, hE, hF⟩ := exists_fairThreads hN
  refine ⟨k, file, T, E, h, hE, fun schedule hne => ?_⟩
  refine C101_small h ?_ (c := 1 / 2 / 10 ^ 6) ?_ hE hF hne none
  · intro c
    by_contra hc
    push Not at hc
    have h0 := hc 0 (by norm_num)
    have h1 := hc 1 (by norm_num)
    simp only [residuals, hT, pairTable] at h0 h1
    norm_num at h0 h1
    rw [← h0] at h1
    norm_num at h1
  · rw [he]
    simp only [sum_range_succ, sum_range_zero, residuals, hT, pairTable]
    norm_num

/-- C101 is false: with two samples of the same value training fails. -/
theorem C101_false : ¬ C101_full := by
  intro hfull
  obtain ⟨k, file, T, h, he, hN, hT⟩ := exists_readyToTrain (v := 0) (p := 0) ⟨0, by norm_num⟩
  obtain ⟨E, hE, hF⟩ := exists_fairThreads hN
  obtain ⟨k', f', e⟩ := hfull k file 2 1 _ _ T E [0] none h hE hF (by simp)
  obtain ⟨e', he'⟩ := C101_constant h (c := 0) (by
    intro i hi
    simp [residuals, hT, pairTable]) hE (schedule := [0]) (by simp) none
  rw [e] at he'
  cases he'

end Rodeo
