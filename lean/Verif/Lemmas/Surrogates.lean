import Verif.Spec.Campaign

set_option linter.unusedSectionVars false

/-! # Lemmas on the surrogate models of objective and constraint functions -/

namespace Rodeo
open Spec Mat Finset Text

namespace Spec

/-- The model of the function is the Kriging model of the `n` rows of the text. -/
structure Serves (s : SurrogateFn ℝ) (text : Str) (n dim : Nat) (b : Bounds ℝ) (G : Nat → Nat → ℝ) :
    Prop where
  current : ∃ T, CurrentModel s.krig (some text) n dim G b T
  likelihood : Likelihood s.krig
  initialized : s.initialized = true
  linear : s.krig.usesLinear = trendKind s.kind
  average : s.krig.averageBeta0 = false
  nugget : s.krig.corr.base.epsilon = defaultNugget

/-- Nothing but the model and the flags has changed. -/
structure SameFn (s s' : SurrogateFn ℝ) : Prop where
  name : s'.name = s.name
  fileName : s'.fileName = s.fileName
  kind : s'.kind = s.kind
  dim : s'.dim = s.dim
  box : s'.box = s.box
  boundsSet : s'.boundsSet = s.boundsSet
  definitionSet : s'.definitionSet = s.definitionSet
  iterations : s'.iterations = s.iterations

theorem SameFn.refl (s : SurrogateFn ℝ) : SameFn s s := ⟨rfl, rfl, rfl, rfl, rfl, rfl, rfl, rfl⟩

theorem FnSettings.of_same {s s' : SurrogateFn ℝ} {dim : Nat} {b : Bounds ℝ} (h : FnSettings s dim b)
    (e : SameFn s s') : FnSettings s' dim b :=
  ⟨by rw [e.name]; exact h.name, by rw [e.fileName]; exact h.fileName, by rw [e.kind]; exact h.kind,
    by rw [e.kind]; exact h.dim99, e.dim.trans h.dim, e.box.trans h.box, e.boundsSet.trans h.boundsSet,
    e.definitionSet.trans h.definitionSet⟩

/-- What must hold of the Kriging model before `initializeSurrogate`: it is new, or it has been used
before. -/
inductive Startable (s : SurrogateFn ℝ) (dim : Nat) (b : Bounds ℝ) : Prop
  | new (h : s.krig = Kriging.new)
  | used {text : Str} {n : Nat} {G : Nat → Nat → ℝ} (h : Serves s text n dim b G)

end Spec

/-- The model after `bindSurrogateModel`, `setDimension` and `setBoxConstraints`. -/
theorem startable_config {s : SurrogateFn ℝ} {dim : Nat} {b : Bounds ℝ}
    (hb : ProperBox b dim) (hdim : 0 < dim) (h : Startable s dim b) :
    ∃ k0, ((if s.kind = .universal then s.krig.setLinearRegression true else s.krig).setDimension dim).setBoxConstraints
        b = .ok k0 ∧ KrigingConfig k0 dim b ∧ k0.data.ratio = 0 ∧ k0.usesLinear = trendKind s.kind ∧
      k0.averageBeta0 = false ∧ k0.corr.base.epsilon = defaultNugget ∧ Likelihood k0 := by
  have hset := hb.set
  have hsize := hb.size
  have hbx : ∀ d : SMData ℝ, d.setBoxConstraints b = .ok { d with box := b } :=
    fun d => if_neg (by simp [hset])
  set k1 : Kriging ℝ := if s.kind = .universal then s.krig.setLinearRegression true else s.krig with hk1
  set k2 : Kriging ℝ := k1.setDimension dim with hk2
  set L : LinearModel ℝ := if k2.usesLinear then { k2.linear with data := { k2.linear.data with box := b } }
    else k2.linear with hL
  have e1 : k2.setBoxConstraints b =
      .ok { k2 with linear := L, data := { k2.data with box := b } } := by
    unfold Kriging.setBoxConstraints
    rw [if_neg (by simp [hset]), if_neg (show ¬ k2.dimension = 0 from by show ¬ dim = 0; omega),
      if_neg (show ¬ b.dim ≠ k2.dimension from by show ¬ b.dim ≠ dim; simp [hsize])]
    refine bind_eq (a := L) ?_ (bind_eq (hbx _) rfl)
    unfold Kriging.linearBox
    by_cases hu : k2.usesLinear = true
    · rw [if_pos hu, hL, if_pos hu]
      exact bind_eq (hbx _) rfl
    · rw [if_neg hu, hL, if_neg hu]
  refine ⟨_, e1, ?_⟩
  have hne : (0 : ℝ) < defaultNugget := by unfold defaultNugget; norm_num
  have hn1 : (defaultNugget : ℝ) < 1 := by unfold defaultNugget; norm_num
  cases h with
  | new h =>
    have hlin : k2.usesLinear = trendKind s.kind := by
      rw [hk2, hk1]
      show (if s.kind = .universal then s.krig.setLinearRegression true else s.krig).usesLinear = _
      unfold trendKind
      by_cases hu : s.kind = .universal
      · rw [if_pos hu, hu]; rfl
      · rw [if_neg hu, h, decide_eq_false hu]; rfl
    have hdata : k2.data = { (SMData.new : SMData ℝ) with dimension := dim } := by
      rw [hk2, hk1]
      show ({ (if s.kind = .universal then s.krig.setLinearRegression true else s.krig).data with
        dimension := dim } : SMData ℝ) = _
      rw [h]
      split_ifs <;> rfl
    have hlinear : k2.linear = (LinearModel.new : LinearModel ℝ).setDimension dim := by
      rw [hk2, hk1]
      show (if s.kind = .universal then s.krig.setLinearRegression true else s.krig).linear.setDimension
        dim = _
      rw [h]
      split_ifs <;> rfl
    have hrest : k2.corr = Corr.ExpCorr.new ∧ k2.averageBeta0 = false ∧ k2.hasValidation = false ∧
        k2.objective = .maximumLikelihood ∧ k2.readWarm = false ∧ k2.corrInitialized = false := by
      rw [hk2, hk1, h]
      split_ifs <;> exact ⟨rfl, rfl, rfl, rfl, rfl, rfl⟩
    obtain ⟨r1, r2, r3, r4, r5, r6⟩ := hrest
    have heps : k2.corr.base.epsilon = defaultNugget := by rw [r1]; rfl
    refine ⟨⟨rfl, ?_, ?_, ?_, ?_⟩, ?_, hlin, r2, heps, ⟨?_, r3, r4, r5⟩⟩
    · show DataConfig ({ k2.data with box := b } : SMData ℝ) dim b
      rw [hdata]
      exact ⟨rfl, rfl, rfl, Or.inr rfl, le_rfl, fun _ => rfl, [], hasRows_empty _⟩
    · intro hu
      have hu : k2.usesLinear = true := hu
      show LinearConfig L dim b
      rw [hL, if_pos hu, hlinear]
      exact ⟨⟨rfl, rfl, rfl, Or.inl rfl, le_rfl, fun _ => rfl, [], hasRows_empty _⟩, rfl, rfl⟩
    · show 0 ≤ k2.corr.base.epsilon ∧ k2.corr.base.epsilon < 1
      rw [heps]; exact ⟨hne.le, hn1⟩
    · intro hc
      have hc : k2.corrInitialized = true := hc
      rw [r6] at hc; cases hc
    · show k2.data.ratio = 0
      rw [hdata]; rfl
    · show 0 < k2.corr.base.epsilon
      rw [heps]; exact hne
  | used h =>
    obtain ⟨T, hcur⟩ := h.current
    have hk1' : k1 = s.krig := by
      rw [hk1]
      by_cases hu : s.kind = .universal
      · rw [if_pos hu]
        have hl : s.krig.usesLinear = true := by rw [h.linear, hu]; rfl
        unfold Kriging.setLinearRegression
        rw [← hl]
      · rw [if_neg hu]
    have hcfg := hcur.config
    have hl := h.likelihood
    have hav := h.average
    have heps := h.nugget
    have hlin := h.linear
    rw [← hk1'] at hcfg hl hav heps hlin
    have hratio : k1.data.ratio = 0 := by rw [hk1']; exact hcur.ratio
    refine ⟨⟨rfl, ?_, ?_, hcfg.epsilon, hcfg.params⟩, hratio, hlin, hav, heps, ⟨hl.nugget, hl.validation, hl.objective,
      hl.readWarm⟩⟩
    · exact ⟨rfl, hcfg.data.noGradients, hcfg.data.noDirectional, Or.inr rfl, hcfg.data.ratio,
        hcfg.data.stale, hcfg.data.rows⟩
    · intro hu
      have hu : k2.usesLinear = true := hu
      have hc := hcfg.linear hu
      show LinearConfig L dim b
      rw [hL, if_pos hu]
      exact ⟨⟨rfl, hc.data.noGradients, hc.data.noDirectional, hc.data.size, hc.data.ratio,
        hc.data.stale, hc.data.rows⟩, hc.ratio, rfl⟩

theorem fileRows_eq {file : Option Str} {n dim : Nat} {F : Nat → Nat → ℝ} (hf : DataFile file n dim F) :
    SurrogateFn.fileRows (K := ℝ) file = n := by
  obtain ⟨A, h1, h2⟩ := hf.table
  unfold SurrogateFn.fileRows
  rw [h1]
  exact h2.1

/-- `initializeSurrogate`, for the first time and later. -/
theorem initializeSurrogate_ok {s : SurrogateFn ℝ} {dim n : Nat} {b : Bounds ℝ} {text : Str}
    {F : Nat → Nat → ℝ} (hs : FnSettings s dim b) (hb : ProperBox b dim) (hdim : 0 < dim)
    (h : Startable s dim b) (hf : DataFile (some text) n dim F) {perm permL : Nat → List Nat}
    (hp : ∀ m, (perm m).Perm (List.range m)) (hpL : ∀ m, (permL m).Perm (List.range m)) :
    ∃ s', s.initializeSurrogate realFns (some text) perm permL = (s', .ok ()) ∧
      Serves s' text n dim b F ∧ SameFn s s' := by
  obtain ⟨k0, e0, hcfg, hratio, hlin, hav, heps, hl⟩ := startable_config hb hdim h
  obtain ⟨A, hread, hA⟩ := id hf.table
  obtain ⟨th, ga, hst⟩ : ∃ th ga, Kriging.startParameters k0 dim th ga := by
    unfold Kriging.startParameters
    split_ifs
    · exact ⟨_, _, rfl, rfl⟩
    · exact ⟨_, _, rfl, rfl⟩
  have h99 : k0.usesLinear = true → dim ≤ 99 := by
    intro hu
    rw [hlin] at hu
    exact hs.dim99 (of_decide_eq_true hu)
  obtain ⟨k', T, e, hcur, hsame, -, -⟩ := Kriging.load_current hcfg hb hdim h99 hratio hread hA
    (hp n) (hpL n) hst (fun h0 => absurd h0 (by rw [heps]; unfold defaultNugget; norm_num))
  refine ⟨{ s with bound := true, krig := k'.setNumberOfTrainingIterations s.iterations,
                   initialized := true }, ?_, ?_, ⟨rfl, rfl, rfl, rfl, rfl, rfl, rfl, rfl⟩⟩
  · unfold SurrogateFn.initializeSurrogate
    rw [if_neg (by simp [hs.boundsSet]), if_neg (by simp [hs.definitionSet]),
      if_neg (by rw [hs.dim]; omega)]
    set k1 : Kriging ℝ := if s.kind = .universal then s.krig.setLinearRegression true else s.krig with hk1
    refine andThen_ok (s := { s with bound := true, krig := k1 }) ?_ ?_
    · unfold SurrogateFn.bindSurrogateModel
      rw [if_neg (by simp [hs.definitionSet])]
      cases hk : s.kind with
      | ordinary => simp [hk1, hk]
      | universal => simp [hk1, hk]
      | other => exact absurd hk hs.kind
    · rw [if_neg (by simp), if_neg hs.name]
      refine andThen_ok rfl ?_
      refine andThen_ok (s := { s with bound := true, krig := k0 }) ?_ ?_
      · show (_, _) = _
        dsimp only
        rw [hs.dim, hs.box, e0]
        rfl
      · rw [if_neg hs.fileName, fileRows_eq hf]
        obtain ⟨k1, e1, e2⟩ := andThen_inv e
        obtain ⟨k2, e2, e3⟩ := andThen_inv e2
        refine andThen_ok (s := { s with bound := true, krig := k1 }) (rethrow_ok ?_) ?_
        · show (_, _) = _
          dsimp only
          rw [e1]
        refine andThen_ok (s := { s with bound := true, krig := k2 }) ?_ ?_
        · show (_, _) = _
          dsimp only
          rw [e2]
        refine andThen_ok (s := { s with bound := true, krig := k' }) ?_ rfl
        show (_, _) = _
        dsimp only
        rw [e3]
  · exact ⟨⟨T, hcur.iterations s.iterations⟩, ⟨by
      show 0 < k'.corr.base.epsilon
      rw [hsame.epsilon]; exact hl.nugget, hsame.validation.trans hl.validation,
      hsame.objective.trans hl.objective, hsame.readWarm.trans hl.readWarm⟩, rfl,
      hsame.usesLinear.trans hlin, hsame.average.trans hav, hsame.epsilon.trans heps⟩

/-- `trainSurrogate`, whether it returns or throws. -/
theorem trainSurrogate_serves {s : SurrogateFn ℝ} {text : Str} {dim n : Nat} {b : Bounds ℝ}
    {G : Nat → Nat → ℝ} (h : Serves s text n dim b G) {E : Nat → EAEnv ℝ} (hE : ∀ t, Draws (E t))
    (schedule : List Nat) :
    Serves (s.trainSurrogate realFns E schedule).1 text n dim b G ∧
      SameFn s (s.trainSurrogate realFns E schedule).1 := by
  obtain ⟨T, hcur⟩ := h.current
  obtain ⟨t1, t2⟩ := Kriging.train_current hcur h.likelihood hE schedule none
  unfold SurrogateFn.trainSurrogate
  rw [if_neg (by simp [h.initialized])]
  exact ⟨⟨⟨T, t1⟩, h.likelihood.of_same t2, h.initialized, t2.usesLinear.trans h.linear,
    t2.average.trans h.average, t2.epsilon.trans h.nugget⟩, ⟨rfl, rfl, rfl, rfl, rfl, rfl, rfl, rfl⟩⟩

namespace Spec

theorem Collected.start (dim n : Nat) (F : Nat → Nat → ℝ) : Collected dim [] n F n F :=
  ⟨le_rfl, fun _ _ _ _ => rfl, fun q h1 h2 => by omega, fun p q h1 h2 h3 => by omega, fun s hs => by
    simp at hs, le_rfl⟩

theorem Collected.ignored {dim n n' : Nat} {l : List (List ℝ)} {F G : Nat → Nat → ℝ}
    (h : Collected dim l n F n' G) {sample : List ℝ} (hl : sample.length = dim + 1)
    (hc : ∃ q, q < n' ∧ CloseTo dim G q sample) : Collected dim (l ++ [sample]) n F n' G :=
  ⟨h.le, h.kept, fun q h1 h2 => by
    obtain ⟨s, h3, h4⟩ := h.source q h1 h2
    exact ⟨s, by simp [h3], h4⟩, h.separated, fun s hs => by
    rw [List.mem_append, List.mem_singleton] at hs
    rcases hs with hs | rfl
    · exact h.complete s hs
    · exact ⟨hl, hc⟩, by have := h.few; simp; omega⟩

theorem Collected.appended {dim n n' : Nat} {l : List (List ℝ)} {F G G' : Nat → Nat → ℝ}
    (h : Collected dim l n F n' G) {sample : List ℝ}
    (hl : sample.length = dim + 1) (hG : ∀ i j, i < n' → j < dim + 1 → G' i j = G i j)
    (hnew : ∀ j, j < dim + 1 → |G' n' j - vecFun sample j| ≤ 1 / 2 / 10 ^ 12 ∧ Decimals 12 (G' n' j))
    (hfar : ∀ q, q < n' → ∃ j, j < dim + 1 ∧ 1 / 10 ^ 4 < |G q j - vecFun sample j|) :
    Collected dim (l ++ [sample]) n F (n' + 1) G' := by
  have hle := h.le
  refine ⟨by omega, ?_, ?_, ?_, ?_, by have := h.few; simp; omega⟩
  · intro i j hi hj
    rw [hG i j (by omega) hj, h.kept i j hi hj]
  · intro q h1 h2
    rcases (by omega : q < n' ∨ q = n') with h3 | rfl
    · obtain ⟨s, h4, h5, h6⟩ := h.source q h1 h3
      exact ⟨s, by simp [h4], h5, fun j hj => by rw [hG q j h3 hj]; exact h6 j hj⟩
    · exact ⟨sample, by simp, hl, hnew⟩
  · intro p q h1 h2 h3
    rcases (by omega : q < n' ∨ q = n') with h4 | rfl
    · obtain ⟨j, hj, h5⟩ := h.separated p q h1 h2 h4
      exact ⟨j, hj, by rw [hG p j (by omega) hj, hG q j h4 hj]; exact h5⟩
    · obtain ⟨j, hj, h5⟩ := hfar p h1
      refine ⟨j, hj, ?_⟩
      rw [hG p j h1 hj]
      have h6 := (hnew j hj).1
      have h7 : |G p j - vecFun sample j| ≤ |G p j - G' q j| + |G' q j - vecFun sample j| :=
        abs_sub_le _ _ _
      linarith
  · intro s hs
    rw [List.mem_append, List.mem_singleton] at hs
    rcases hs with hs | rfl
    · obtain ⟨h0, q, hq, hc⟩ := h.complete s hs
      exact ⟨h0, q, by omega, fun j hj => by rw [hG q j hq hj]; exact hc j hj⟩
    · exact ⟨hl, n', by omega, fun j hj => (hnew j hj).1.trans (by norm_num)⟩

end Spec

/-- A sample of the right size is always taken. -/
theorem addSample_ok {s : SurrogateFn ℝ} {text : Str} {dim n n' : Nat} {b : Bounds ℝ}
    {F G : Nat → Nat → ℝ} {l : List (List ℝ)} (hs : FnSettings s dim b) (hb : ProperBox b dim)
    (h : Serves s text n' dim b G) (hend : text.getLast? = some '\n') (hc : Collected dim l n F n' G)
    {sample : List ℝ} (hlen : sample.length = dim + 1) {perm permL : Nat → List Nat}
    (hp : ∀ m, (perm m).Perm (List.range m)) (hpL : ∀ m, (permL m).Perm (List.range m)) (refused : Err) :
    ∃ s' text' n2 G2, s.addSample realFns refused (some text) sample perm permL =
        ((s', some text'), .ok ()) ∧ Serves s' text' n2 dim b G2 ∧ SameFn s s' ∧
      text'.getLast? = some '\n' ∧ text <+: text' ∧ Collected dim (l ++ [sample]) n F n2 G2 := by
  obtain ⟨T, hcur⟩ := h.current
  have hrows : s.krig.data.rawData.nrows = n' := hcur.rows.1
  have h99 : s.krig.usesLinear = true → dim ≤ 99 := by
    intro hu
    rw [h.linear] at hu
    exact hs.dim99 (of_decide_eq_true hu)
  unfold SurrogateFn.addSample
  rw [if_neg (by rw [not_or]; exact ⟨hs.fileName, by simp [h.initialized]⟩),
    if_neg (by rintro rfl; simp at hlen), hrows]
  rcases Kriging.addNewSample_cases hcur h.likelihood.nugget hb h99 hend sample (hp (n' + 1)) (hpL (n' + 1))
    with ⟨a1, -⟩ | ⟨-, hq, a2⟩ | ⟨-, a2, k2, text2, G2, T2, a3, a4, a5, a6, a7, a8, a9, -⟩
  · exact absurd hlen a1
  · refine ⟨s, text, n', G, ?_, h, SameFn.refl s, hend, List.prefix_rfl, hc.ignored hlen hq⟩
    dsimp only
    rw [a2]
  · refine ⟨{ s with krig := k2 }, text2, n' + 1, G2, ?_, ⟨⟨T2, a4⟩, ⟨by
      rw [a5.epsilon]; exact h.likelihood.nugget, a5.validation.trans h.likelihood.validation,
      a5.objective.trans h.likelihood.objective, a5.readWarm.trans h.likelihood.readWarm⟩, h.initialized,
      a5.usesLinear.trans h.linear, a5.average.trans h.average, a5.epsilon.trans h.nugget⟩,
      ⟨rfl, rfl, rfl, rfl, rfl, rfl, rfl, rfl⟩, a6, a7, hc.appended hlen a8 a9 a2⟩
    dsimp only
    rw [a3]

/-- The model of the function predicts from the rows. -/
theorem Spec.Serves.predicts {s : SurrogateFn ℝ} {text : Str} {dim n : Nat} {b : Bounds ℝ}
    {G : Nat → Nat → ℝ} (h : Serves s text n dim b G) :
    DataFile (some text) n dim G ∧ PredictsFrom s.krig n dim G b (trendKind s.kind) defaultNugget := by
  obtain ⟨T, hcur⟩ := h.current
  refine ⟨⟨_, hcur.table, hcur.rows⟩, h.nugget, hcur.good, T, ?_, ?_⟩
  · rw [← h.linear]; exact hcur.trend
  · intro x hx
    obtain ⟨lam, v, b1, b2, b3⟩ := C76_blup hcur.model h.average hx
    obtain ⟨f, v', c1, -, c3⟩ := C75_variance_nonneg hcur.model hx
    rw [b2] at c1
    cases c1
    exact ⟨lam, v, b1, b2, c3, b3⟩

end Rodeo
