import Verif.Lemmas.KrigingTrain
import Verif.Props.KrigingBuild

set_option linter.unusedSectionVars false

/-! # Lemmas on histories of training and new samples -/

namespace Rodeo
open Spec Mat Finset Text

namespace Spec

/-- Training by maximum likelihood, without validation samples and warm start, with a nugget. -/
structure Likelihood (k : Kriging ℝ) : Prop where
  nugget : 0 < k.corr.base.epsilon
  validation : k.hasValidation = false
  objective : k.objective = .maximumLikelihood
  readWarm : k.readWarm = false

/-- The settings that neither training nor new samples change. -/
structure SameConfig (k k' : Kriging ℝ) : Prop where
  threads : k'.threads = k.threads
  usesLinear : k'.usesLinear = k.usesLinear
  epsilon : k'.corr.base.epsilon = k.corr.base.epsilon
  average : k'.averageBeta0 = k.averageBeta0
  objective : k'.objective = k.objective
  validation : k'.hasValidation = k.hasValidation
  writeWarm : k'.writeWarm = k.writeWarm
  readWarm : k'.readWarm = k.readWarm

theorem SameConfig.refl (k : Kriging ℝ) : SameConfig k k := ⟨rfl, rfl, rfl, rfl, rfl, rfl, rfl, rfl⟩

theorem SameConfig.trans {a b c : Kriging ℝ} (h : SameConfig a b) (h' : SameConfig b c) :
    SameConfig a c :=
  ⟨h'.1.trans h.1, h'.2.trans h.2, h'.3.trans h.3, h'.4.trans h.4, h'.5.trans h.5, h'.6.trans h.6,
    h'.7.trans h.7, h'.8.trans h.8⟩

theorem Likelihood.of_same {k k' : Kriging ℝ} (h : Likelihood k) (hs : SameConfig k k') :
    Likelihood k' :=
  ⟨by rw [hs.epsilon]; exact h.nugget, by rw [hs.validation]; exact h.validation,
    by rw [hs.objective]; exact h.objective, by rw [hs.readWarm]; exact h.readWarm⟩

theorem PosDef.of_good {n dim : Nat} {th ga : List ℝ} (h : GoodParameters th ga dim) {e : ℝ} (he : 0 < e)
    (X : Nat → Nat → ℝ) : PosDef n (krigingMatrix dim (vecFun th) (vecFun ga) e X) := by
  refine krigingMatrix_posDef (fun l hl => ?_) (fun l hl => ?_) he
  · have hl' : l < th.length := by rw [h.thLen]; exact hl
    have e : vecFun th l = th[l] := by simp [vecFun, List.getD, hl']
    rw [e]; exact h.thNonneg _ (List.getElem_mem hl')
  · have hl' : l < ga.length := by rw [h.gaLen]; exact hl
    have e : vecFun ga l = ga[l] := by simp [vecFun, List.getD, hl']
    rw [e]; exact h.gaRange _ (List.getElem_mem hl')

end Spec

namespace Kriging

theorem good_of_box {dim : Nat} {h : List ℝ} (hb : InBox (hyperLb dim) (hyperUb dim) h) :
    GoodParameters (h.take dim) (h.drop dim) dim := by
  obtain ⟨h1, -, h3⟩ := hb
  have hl : h.length = 2 * dim := by rw [h1]; simp [hyperLb]; omega
  refine ⟨by simp; omega, by simp; omega, ?_, ?_⟩
  · intro t ht
    obtain ⟨i, hi, rfl⟩ := List.mem_iff_getElem.1 ht
    have hi' : i < dim ∧ i < h.length := by simpa using hi
    have := h3 i 0 20 h[i] (by simp [hyperLb, List.getElem?_append, hi'.1])
      (by simp [hyperUb, List.getElem?_append, hi'.1]) (by simp [hi'.2])
    rw [List.getElem_take]
    exact this.1
  · intro t ht
    obtain ⟨i, hi, rfl⟩ := List.mem_iff_getElem.1 ht
    have hi' : i < h.length - dim := by simpa using hi
    have hi2 : i < dim := by omega
    have := h3 (dim + i) 1 2 (h[dim + i]'(by omega)) (by simp [hyperLb, hi2])
      (by simp [hyperUb, hi2]) (by simp [show dim + i < h.length by omega])
    rw [List.getElem_drop]
    exact ⟨by linarith [this.1], this.2⟩

theorem saveHyperParameters_ok {k : Kriging ℝ} {dim : Nat} (hd : k.corr.base.dim = dim) (h0 : 0 < dim)
    (h : GoodParameters k.corr.theta k.corr.gamma dim) : ∃ t, k.saveHyperParameters = .ok t := by
  obtain ⟨text, -, e, -⟩ := C65_roundtrip ((List.range dim).map (vecFun k.corr.theta) ++
    (List.range dim).map (vecFun k.corr.gamma))
  refine ⟨text, bind_eq ?_ e⟩
  unfold Corr.ExpCorr.getHyperParameters
  rw [if_neg (by omega), hd]
  refine bind_eq (tab_ok fun i hi => vat_vecFun (by rw [h.thLen]; exact hi)) (bind_eq (tab_ok fun i hi =>
    vat_vecFun (by rw [h.gaLen]; exact hi)) rfl)

end Kriging

/-- New hyperparameters in a prepared object. -/
theorem Spec.Prepared.withParameters {k : Kriging ℝ} {n m : Nat} {X : Nat → Nat → ℝ} {y : Nat → ℝ}
    {T : List ℝ → ℝ} (h : Prepared k n m X y T) {th ga : List ℝ} (hg : GoodParameters th ga m) :
    Prepared { k with corr := ⟨k.corr.base, th, ga⟩ } n m X y T := by
  have hr : Ready (⟨k.corr.base, th, ga⟩ : Corr.ExpCorr ℝ) n m X :=
    ⟨h.ready.set, h.ready.samples, h.ready.count, hg.thLen, hg.gaLen, hg.thNonneg, hg.gaRange⟩
  exact { h with ready := hr, trend := h.trend }

/-- What is stored besides the results of `updateAuxilliaryFields` and the numbers of the search. -/
theorem Spec.CurrentModel.transfer {k k' : Kriging ℝ} {file : Option Str} {n dim : Nat}
    {F : Nat → Nat → ℝ} {b : Bounds ℝ} {T : List ℝ → ℝ} (h : CurrentModel k file n dim F b T)
    (hd : k'.data = k.data) (hL : k'.linear = k.linear) (hu : k'.usesLinear = k.usesLinear)
    (hi : k'.isInitialized = k.isInitialized) (hdim : k'.dimension = k.dimension)
    (hg : GoodParameters k'.corr.theta k'.corr.gamma dim)
    (hm : ModelOf k' n dim (normalized b dim F) (fun i => F i dim) T)
    (hp : Prepared k' n dim (normalized b dim F) (fun i => F i dim) T) :
    CurrentModel k' file n dim F b T :=
  ⟨by rw [hd]; exact h.table, by rw [hd]; exact h.rows, hm, hp, by rw [hu]; exact h.trend,
    ⟨by rw [hdim]; exact h.config.size, by rw [hd]; exact h.config.data,
      by rw [hu, hL]; exact h.config.linear, hp.epsilon, fun _ => hg⟩,
    by rw [hi]; exact h.isInitialized, by rw [hd]; exact h.ratio⟩

theorem Spec.CurrentModel.good {k : Kriging ℝ} {file : Option Str} {n dim : Nat}
    {F : Nat → Nat → ℝ} {b : Bounds ℝ} {T : List ℝ → ℝ} (h : CurrentModel k file n dim F b T) :
    GoodParameters k.corr.theta k.corr.gamma dim :=
  h.config.params h.prepared.corrInit

theorem Spec.CurrentModel.iterations {k : Kriging ℝ} {file : Option Str} {n dim : Nat}
    {F : Nat → Nat → ℝ} {b : Bounds ℝ} {T : List ℝ → ℝ} (h : CurrentModel k file n dim F b T)
    (N : Nat) : CurrentModel { k with iterations := N } file n dim F b T :=
  h.transfer rfl rfl rfl rfl rfl h.good
    ⟨h.model.trend, h.model.epsilon, { h.model.fitted with }⟩ { h.prepared with }

namespace Kriging

theorem _root_.Rodeo.andThen_error {σ : Type} {p : σ × Res Unit} {s : σ} {e : Err} (h : p = (s, .error e))
    (f : σ → σ × Res Unit) : andThen p f = (s, .error e) := by
  rw [h]; rfl

/-- Where the search of the hyperparameters can stop. -/
theorem search_cases {k : Kriging ℝ} (hv : k.hasValidation = false) (E : Nat → EAEnv ℝ)
    (schedule : List Nat) (file : Option Str) :
    (∃ N e, searchHyperParameters realFns k E schedule file = (({ k with iterations := N }, file),
      .error e)) ∨
    ∃ best c f r, searchAll realFns { k with iterations := k.iterations / k.threads }
        (generations k.iterations k.dimension) (k.iterations / k.threads) E schedule = .ok best ∧
      k.corr.setHyperParameters best.1 = .ok c ∧ best.1 ≠ [] ∧
      searchHyperParameters realFns k E schedule file =
        (({ k with iterations := k.iterations / k.threads, corr := c }, f), r) ∧
      (r = .ok () ∨ ∃ e, saveHyperParameters
        { k with iterations := k.iterations / k.threads, corr := c } = .error e) := by
  unfold searchHyperParameters
  by_cases hd : k.dimension = 0
  · rw [if_pos hd]
    exact Or.inl ⟨k.iterations, _, rfl⟩
  rw [if_neg hd]
  have hk : (if k.hasValidation then { k with objective := .validationError } else k : Kriging ℝ) = k :=
    if_neg (by simp [hv])
  simp only [hk]
  by_cases ht : k.threads = 0
  · rw [if_pos ht]
    exact Or.inl ⟨k.iterations, _, rfl⟩
  rw [if_neg ht]
  cases h1 : (do
      let best ← searchAll realFns { k with iterations := k.iterations / k.threads }
        (generations k.iterations k.dimension) (k.iterations / k.threads) E schedule
      let _ ← Vec.head best.1 k.dimension
      let _ ← Vec.tail best.1 k.dimension
      let c ← k.corr.setHyperParameters best.1
      .ok ({ k with iterations := k.iterations / k.threads, corr := c }, file) :
        Res (Kriging ℝ × Option Str)) with
  | error e => exact Or.inl ⟨k.iterations / k.threads, e, andThen_error rfl _⟩
  | ok p =>
    right
    obtain ⟨best, f1, e1⟩ := bind_ok_inv h1
    obtain ⟨_, f2, e1⟩ := bind_ok_inv e1
    obtain ⟨_, f3, e1⟩ := bind_ok_inv e1
    obtain ⟨c, f4, e1⟩ := bind_ok_inv e1
    cases e1
    have hne : best.1 ≠ [] := by
      intro h0
      rw [h0] at f2
      have : Vec.head ([] : List ℝ) k.dimension = .error .outOfRange := if_pos (by
        show 0 < k.dimension
        omega)
      exact absurd (f2.symm.trans this) (by simp)
    by_cases hw : k.writeWarm = true
    · cases hs : saveHyperParameters { k with iterations := k.iterations / k.threads, corr := c } with
      | error e =>
        refine ⟨best, c, file, .error e, f1, f4, hne, andThen_ok rfl ?_, Or.inr ⟨e, hs⟩⟩
        show (if k.writeWarm then _ else _) = _
        rw [if_pos hw]
        show commit _ (Except.bind (saveHyperParameters
          { k with iterations := k.iterations / k.threads, corr := c }) _) = _
        rw [hs]
        rfl
      | ok t =>
        refine ⟨best, c, some t, .ok (), f1, f4, hne, andThen_ok rfl ?_, Or.inl rfl⟩
        show (if k.writeWarm then _ else _) = _
        rw [if_pos hw]
        show commit _ (Except.bind (saveHyperParameters
          { k with iterations := k.iterations / k.threads, corr := c }) _) = _
        rw [hs]
        rfl
    · refine ⟨best, c, file, .ok (), f1, f4, hne, andThen_ok rfl ?_, Or.inl rfl⟩
      show (if k.writeWarm then _ else _) = _
      rw [if_neg hw]

/-- A call of `train`, whether it returns or throws, leaves the model of the same rows. -/
theorem train_current {k : Kriging ℝ} {file : Option Str} {n dim : Nat}
    {F : Nat → Nat → ℝ} {b : Bounds ℝ} {T : List ℝ → ℝ} (h : CurrentModel k file n dim F b T)
    (hl : Likelihood k) {E : Nat → EAEnv ℝ} (hE : ∀ t, Draws (E t)) (schedule : List Nat)
    (hyperFile : Option Str) :
    CurrentModel (k.train realFns E schedule hyperFile).1.1 file n dim F b T ∧
      SameConfig k (k.train realFns E schedule hyperFile).1.1 := by
  unfold train
  rw [if_neg (by simp [h.isInitialized]), if_neg (by simp [hl.readWarm])]
  rcases search_cases hl.validation E schedule hyperFile with ⟨N, e, hs⟩ | ⟨best, c, f, r, f1, f2, f3, hs, hr⟩
  · rw [hs]
    exact ⟨h.iterations N, ⟨rfl, rfl, rfl, rfl, rfl, rfl, rfl, rfl⟩⟩
  have hbox : InBox (hyperLb k.dimension) (hyperUb k.dimension) best.1 := by
    rcases (searchAll_post f1).2 with h0 | ⟨-, t, -, h0⟩
    · exact absurd (by rw [h0]) f3
    · exact (threadSearch_post (hE t) h0).1
  have hgood := good_of_box hbox
  rw [h.prepared.dim] at hgood
  obtain ⟨-, hc⟩ := setHyperParameters_inv f2
  rw [h.prepared.corrDim] at hc
  have hp1 : Prepared { k with iterations := k.iterations / k.threads, corr := c } n dim (normalized b dim F) (fun i => F i dim) T := by
    rw [hc]
    have := h.prepared.withParameters hgood
    exact { this with }
  have hsave : ∃ t, saveHyperParameters { k with iterations := k.iterations / k.threads, corr := c } = .ok t :=
    saveHyperParameters_ok hp1.corrDim hp1.dimPos (by rw [hc]; exact hgood)
  have hr : r = .ok () := by
    rcases hr with hr | ⟨e, hr⟩
    · exact hr
    · obtain ⟨t, ht⟩ := hsave
      rw [ht] at hr
      cases hr
  subst hr
  rw [hs]
  have hobj : ({ k with iterations := k.iterations / k.threads, corr := c } : Kriging ℝ).objective ≠ .validationError := by
    show k.objective ≠ _
    rw [hl.objective]
    simp
  have hpd : PosDef n (corrOf { k with iterations := k.iterations / k.threads, corr := c } dim (normalized b dim F)) := by
    show PosDef n (krigingMatrix dim (vecFun c.theta) (vecFun c.gamma) c.base.epsilon _)
    rw [hc]
    exact PosDef.of_good hgood hl.nugget _
  obtain ⟨M, L, a, bb, beta, cc, s, e, -, hm, hp⟩ := hp1.update hpd
  set k1 : Kriging ℝ := { k with iterations := k.iterations / k.threads, corr := c } with hk1
  have hfin : andThen (if k1.objective = .validationError then withFile (k1, f) k1.revertToFullData
      else ((k1, f), .ok ())) (fun p =>
      andThen (withFile p (p.1.updateAuxilliaryFields realFns)) fun p =>
      (({ p.1 with isTrained := true }, p.2), .ok ())) =
      (({ fitState k1 M L a bb beta cc s n with isTrained := true }, f), .ok ()) := by
    rw [if_neg hobj]
    refine andThen_ok rfl (andThen_ok (s := (fitState k1 M L a bb beta cc s n, f)) ?_ rfl)
    unfold withFile
    rw [e]
  refine (congrArg (fun z : (Kriging ℝ × Option Str) × Res Unit =>
    CurrentModel z.1.1 file n dim F b T ∧ SameConfig k z.1.1) hfin).mpr ?_
  constructor
  · refine h.transfer rfl rfl rfl rfl rfl ?_ ⟨hm.trend, hm.epsilon, { hm.fitted with }⟩ { hp with }
    show GoodParameters c.theta c.gamma dim
    rw [hc]; exact hgood
  · refine ⟨rfl, rfl, ?_, rfl, rfl, rfl, rfl, rfl⟩
    show c.base.epsilon = _
    rw [hc]


theorem updateModelWithNewData_eq (k : Kriging ℝ) (file : Option Str) (perm permL : List Nat) :
    k.updateModelWithNewData realFns file perm permL = k.resetDataObjects.load file perm permL := rfl

/-- What `addNewSampleToData` does with a current model: a sample of the wrong size is refused, a
sample that is close to a row in all its entries is ignored, every other sample is appended to the
file and the model is rebuilt from it. -/
theorem addNewSample_cases {k : Kriging ℝ} {text : Str} {n dim : Nat} {F : Nat → Nat → ℝ}
    {b : Bounds ℝ} {T : List ℝ → ℝ} (h : CurrentModel k (some text) n dim F b T)
    (he : 0 < k.corr.base.epsilon) (hb : ProperBox b dim) (h99 : k.usesLinear = true → dim ≤ 99)
    (hend : text.getLast? = some '\n') (sample : List ℝ) {perm permL : List Nat}
    (hp : perm.Perm (List.range (n + 1))) (hpL : permL.Perm (List.range (n + 1))) :
    (sample.length ≠ dim + 1 ∧ k.addNewSampleToData realFns (some text) sample perm permL =
      ((k, some text), .error .runtimeError)) ∨
    (sample.length = dim + 1 ∧ (∃ q, q < n ∧ ∀ j, j < dim + 1 → |F q j - vecFun sample j| ≤ 1 / 10 ^ 4) ∧
      k.addNewSampleToData realFns (some text) sample perm permL = ((k, some text), .ok ())) ∨
    (sample.length = dim + 1 ∧
      (∀ q, q < n → ∃ j, j < dim + 1 ∧ 1 / 10 ^ 4 < |F q j - vecFun sample j|) ∧
      ∃ k' text' G T', k.addNewSampleToData realFns (some text) sample perm permL =
        ((k', some text'), .ok ()) ∧ CurrentModel k' (some text') (n + 1) dim G b T' ∧
        SameSettings k k' ∧ text'.getLast? = some '\n' ∧ text <+: text' ∧
        (∀ i j, i < n → j < dim + 1 → G i j = F i j) ∧
        (∀ j, j < dim + 1 → |G n j - vecFun sample j| ≤ 1 / 2 / 10 ^ 12 ∧ Decimals 12 (G n j)) ∧
        k'.corr.theta = k.corr.theta ∧ k'.corr.gamma = k.corr.gamma) := by
  unfold addNewSampleToData
  rw [h.prepared.dataDim]
  by_cases hl : sample.length = dim + 1
  · rw [if_neg (by simp [hl])]
    right
    have hfind := C49_findRowIndex h.rows sample (1 / 10 ^ 4)
    rw [if_neg (by simp [hl])] at hfind
    rcases hfind with ⟨q, e, hq, hc, -⟩ | ⟨e, hne⟩
    · left
      refine ⟨hl, ⟨q, hq, hc⟩, ?_⟩
      rw [e]
      show (if ((q : Nat) : Int) = -1 then _ else _) = _
      rw [if_neg (by omega)]
    · right
      refine ⟨hl, hne, ?_⟩
      obtain ⟨text', B, G, a1, a2, a3, a4, a5, a6, a7⟩ := C64_partial hend 12 h.table h.rows hl
      have hst : startParameters k.resetDataObjects dim k.corr.theta k.corr.gamma := by
        unfold startParameters
        rw [if_pos (show k.resetDataObjects.corrInitialized = true from h.prepared.corrInit)]
        exact ⟨rfl, rfl⟩
      have hcfg : KrigingConfig k.resetDataObjects dim b :=
        ⟨h.config.size, h.config.data, h.config.linear, h.config.epsilon, h.config.params⟩
      obtain ⟨k', T', e', hcur, hsame, ht, hg⟩ := load_current hcfg hb h.prepared.dimPos h99 h.ratio a2 a3
        hp hpL hst (fun h0 => absurd h0 he.ne')
      refine ⟨k', text', G, T', ?_, hcur, ⟨hsame.1, hsame.2, hsame.3, hsame.4, hsame.5, hsame.6,
        hsame.7, hsame.8, hsame.9⟩, a7, a6, a4, a5, ht, hg⟩
      rw [e]
      show (if (-1 : Int) = -1 then _ else _) = _
      rw [if_pos rfl]
      have hstep : andThen (commit (k, some text) (do
          let t ← Vec.appendToCSV sample (some text) 12
          .ok (k, some t))) (fun p => withFile p (p.1.updateModelWithNewData realFns p.2 perm permL)) =
          ((k', some text'), .ok ()) := by
        refine andThen_commit (s' := (k, some text')) (bind_eq a1 rfl) ?_
        show withFile (k, some text') (k.updateModelWithNewData realFns (some text') perm permL) = _
        rw [updateModelWithNewData_eq, e']
        rfl
      rw [hstep]
      rfl
  · rw [if_pos hl]
    exact Or.inl ⟨hl, rfl⟩

end Kriging

end Rodeo
