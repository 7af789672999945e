import Verif.Props.Restated

/-! # Lemmas on the file with the hyperparameters -/

set_option linter.unusedSectionVars false

namespace Rodeo
open Spec Mat Finset Text

section Numbers
variable {K : Type} [Field K] [LinearOrder K] [IsStrictOrderedRing K] [FloorRing K]

/-- Rounding to `p + 1` significant digits does not cross a number that has at most that many. -/
theorem sciParts_le (p : Nat) {x c : K} (hx : 0 < x) (hxc : x ≤ c) (hs : Spec.SigDigits (p + 1) c) :
    ((sciParts p x).1 : K) * (10 : K) ^ ((sciParts p x).2 - (p : Int)) ≤ c := by
  rw [(sciParts_spec p hx.ne').1, abs_of_pos hx]
  set e := Int.log 10 x with he
  have h1 : (10 : K) ^ e ≤ x := by
    have := Int.zpow_log_le_self (R := K) (b := 10) (by norm_num) hx
    exact_mod_cast this
  obtain ⟨k, j, hk, hkl⟩ := hs
  rw [abs_of_pos (hx.trans_le hxc)] at hk
  have hj : e - (p : Int) ≤ j := by
    by_contra hlt
    have hlt : j + ((p + 1 : Nat) : Int) ≤ e := by push_cast; omega
    have h2 : (10 : K) ^ (j + ((p + 1 : Nat) : Int)) ≤ (k : K) * (10 : K) ^ j := by
      rw [← hk]
      exact le_trans (zpow_le_zpow_right₀ (by norm_num) hlt) (h1.trans hxc)
    rw [zpow_add₀ (by norm_num), mul_comm, zpow_natCast] at h2
    have h3 : (10 : K) ^ (p + 1) ≤ (k : K) := le_of_mul_le_mul_right h2 (zpow_pos (by norm_num) _)
    have h4 : 10 ^ (p + 1) ≤ k := by exact_mod_cast h3
    omega
  obtain ⟨t, ht⟩ := Int.eq_ofNat_of_zero_le (sub_nonneg.2 hj)
  have hq : (0 : K) < (10 : K) ^ (e - (p : Int)) := zpow_pos (by norm_num) _
  have hc : c = ((k * 10 ^ t : Nat) : K) * (10 : K) ^ (e - (p : Int)) := by
    rw [hk]
    push_cast
    have : j = (t : Int) + (e - (p : Int)) := by omega
    rw [this, zpow_add₀ (by norm_num), zpow_natCast]
    ring
  have hr : round (x / (10 : K) ^ (e - (p : Int))) ≤ ((k * 10 ^ t : Nat) : Int) := by
    rw [round_eq]
    apply Int.lt_add_one_iff.1
    rw [Int.floor_lt]
    have : x / (10 : K) ^ (e - (p : Int)) ≤ ((k * 10 ^ t : Nat) : K) := by
      rw [div_le_iff₀ hq, ← hc]
      exact hxc
    push_cast at this ⊢
    linarith
  have hr' : (round (x / (10 : K) ^ (e - (p : Int))) : K) ≤ ((k * 10 ^ t : Nat) : K) := by exact_mod_cast hr
  calc _ ≤ ((k * 10 ^ t : Nat) : K) * (10 : K) ^ (e - (p : Int)) := mul_le_mul_of_nonneg_right hr' hq.le
    _ = c := hc.symm

/-- The number that is read back from the default format of a positive number. -/
theorem stod_generalStr_pos {x y : K} (hx : 0 < x) (h1 : stod (generalStr x) = .ok y) :
    y = ((sciParts 5 x).1 : K) * (10 : K) ^ ((sciParts 5 x).2 - ((5 : Nat) : Int)) := by
  unfold generalStr sigStr at h1
  rw [if_neg hx.ne'] at h1
  dsimp only at h1
  have hneg : decide (x < 0) = false := by simpa using hx.le
  split_ifs at h1 with hr
  · have h := stod_trim (K := K) (decide (x < 0)) (((5 : Nat) : Int) - (sciParts 5 x).2).toNat (sciParts 5 x).1
      (E := []) (by intro c hc; cases hc) (by simp)
    rw [List.append_nil, ← signStr_eq] at h
    have := h1.symm.trans h
    have e : takeExponent [] - ((((5 : Nat) : Int) - (sciParts 5 x).2).toNat : Int) =
        (sciParts 5 x).2 - ((5 : Nat) : Int) := by
      have : ((((5 : Nat) : Int) - (sciParts 5 x).2).toNat : Int) = ((5 : Nat) : Int) - (sciParts 5 x).2 :=
        Int.toNat_of_nonneg (by omega)
      rw [this]
      simp [takeExponent]
    rw [hneg, e] at this
    simpa using this
  · have h := stod_trim (K := K) (decide (x < 0)) 5 (sciParts 5 x).1
      (E := expStr (sciParts 5 x).2) (expStr_head _).1 (expStr_head _).2
    rw [← signStr_eq] at h
    have := h1.symm.trans h
    rw [hneg, takeExponent_expStr] at this
    simpa using this

/-- The default format read back. -/
theorem stod_generalStr_bounds (x : K) :
    ∃ y : K, stod (generalStr x) = .ok y ∧ |y - x| ≤ 1 / 2 / 10 ^ 5 * |x| ∧
      (Spec.SigDigits 6 x → y = x) ∧ (0 ≤ x → 0 ≤ y ∧ Spec.SigDigits 6 y) ∧
      (∀ c, 0 ≤ x → x ≤ c → Spec.SigDigits 6 c → y ≤ c) := by
  obtain ⟨y, h1, h2, h3⟩ := stod_generalStr x
  have h0 : x = 0 → y = 0 := by
    rintro rfl
    simp only [sub_zero, abs_zero, mul_zero] at h2
    exact abs_nonpos_iff.1 h2
  refine ⟨y, h1, h2, h3, ?_, ?_⟩
  · intro hx
    by_cases hz : x = 0
    · rw [h0 hz]
      exact ⟨le_rfl, 0, 0, by simp, by norm_num⟩
    have hy := stod_generalStr_pos (lt_of_le_of_ne hx (Ne.symm hz)) h1
    have hy0 : 0 ≤ y := by
      rw [hy]
      exact mul_nonneg (Nat.cast_nonneg _) (zpow_nonneg (by norm_num) _)
    exact ⟨hy0, (sciParts 5 x).1, _, by rw [abs_of_nonneg hy0]; exact hy, (sciParts_spec 5 hz).2.2⟩
  · intro c hx hxc hc
    by_cases hz : x = 0
    · rw [h0 hz, ← hz]; exact hxc
    have hpos := lt_of_le_of_ne hx (Ne.symm hz)
    rw [stod_generalStr_pos hpos h1]
    exact sciParts_le 5 hpos hxc hc

/-- A vector saved and read back, entry by entry. -/
theorem Vec.roundtrip (v : List K) {text : Str} (h : Vec.saveToCSV v = .ok text) :
    ∃ g : K → K, Vec.readFromCSV (some text) = .ok (v.map g) ∧
      ∀ x, |g x - x| ≤ 1 / 2 / 10 ^ 5 * |x| ∧ (Spec.SigDigits 6 x → g x = x) ∧ (0 ≤ x → 0 ≤ g x ∧ Spec.SigDigits 6 (g x)) ∧
        (∀ c, 0 ≤ x → x ≤ c → Spec.SigDigits 6 c → g x ≤ c) := by
  choose g hg1 hg2 using (stod_generalStr_bounds (K := K))
  have h := h.symm.trans (Vec.saveToCSV_ok v)
  cases h
  refine ⟨g, ?_, hg2⟩
  unfold Vec.readFromCSV
  dsimp only
  rw [pieces_intercalate]
  · rw [mapRes_ok (g := fun t => match (stod t : Res K) with | .ok v => v | .error _ => 0)]
    · rw [List.map_map]
      congr 1
      apply List.map_congr_left
      intro x _
      simp only [Function.comp_apply, hg1]
    · intro t ht
      obtain ⟨x, _, rfl⟩ := List.mem_map.1 ht
      simp only [hg1]
  · intro l hl
    obtain ⟨x, _, rfl⟩ := List.mem_map.1 hl
    exact ⟨fun hc => ((generalStr_chars x).1 _ hc).ne.2 rfl, (generalStr_chars x).2⟩

end Numbers

namespace Kriging

theorem map_range_vecFun {v : List ℝ} {m : Nat} (h : v.length = m) : (List.range m).map (vecFun v) = v := by
  subst h
  apply List.ext_getElem
  · simp
  · intro i h1 h2
    simp [vecFun, h2]

/-- The text that is saved. -/
theorem saveHyperParameters_eq {k : Kriging ℝ} {dim : Nat} (hd : k.corr.base.dim = dim) (h0 : 0 < dim)
    (h : GoodParameters k.corr.theta k.corr.gamma dim) :
    k.saveHyperParameters = Vec.saveToCSV (k.corr.theta ++ k.corr.gamma) := by
  have e : k.corr.getHyperParameters = .ok (k.corr.theta ++ k.corr.gamma) := by
    unfold Corr.ExpCorr.getHyperParameters
    rw [if_neg (by omega), hd]
    refine bind_eq (tab_ok fun i hi => vat_vecFun (by rw [h.thLen]; exact hi)) (bind_eq (tab_ok fun i hi =>
      vat_vecFun (by rw [h.gaLen]; exact hi)) ?_)
    rw [map_range_vecFun h.thLen, map_range_vecFun h.gaLen]
  unfold saveHyperParameters
  rw [e]
  rfl

/-- What loading a file does. -/
theorem loadHyperParameters_eq {k : Kriging ℝ} {file : Option Str} {n dim : Nat}
    {F : Nat → Nat → ℝ} {b : Bounds ℝ} {T : List ℝ → ℝ} (h : CurrentModel k file n dim F b T)
    {hf : Option Str} {w : List ℝ} (hw : Vec.readFromCSV hf = .ok w) :
    k.loadHyperParameters hf = .ok (if w.length = 2 * dim then
      { k with corr := ⟨k.corr.base, w.take dim, w.drop dim⟩ } else k) := by
  have hd0 := h.prepared.dimPos
  unfold loadHyperParameters
  rw [if_neg (by rw [h.prepared.dim]; omega)]
  refine bind_eq hw ?_
  rw [h.prepared.hyper]
  by_cases hl : w.length = 2 * dim
  · rw [if_pos hl, if_pos hl, h.prepared.dataDim]
    refine bind_eq (Vec.head_eq w (by omega)) (bind_eq (Vec.tail_eq w (by omega)) ?_)
    rw [show w.length - dim = dim by omega]
    have e1 : k.corr.setTheta (w.take dim) = .ok { k.corr with theta := w.take dim } := by
      unfold Corr.ExpCorr.setTheta
      rw [h.prepared.corrDim, if_neg (by rw [List.length_take]; omega)]
    have e2 : ({ k.corr with theta := w.take dim } : Corr.ExpCorr ℝ).setGamma (w.drop dim) =
        .ok ⟨k.corr.base, w.take dim, w.drop dim⟩ := by
      unfold Corr.ExpCorr.setGamma
      rw [if_neg (by rw [h.prepared.corrDim, List.length_drop]; omega)]
    exact bind_eq e1 (bind_eq e2 rfl)
  · rw [if_neg hl, if_neg hl]

/-- The parameters of a model after it has been offered the numbers `w` of a file. -/
def loaded (dim : Nat) (w : List ℝ) (c : Corr.ExpCorr ℝ) : Corr.ExpCorr ℝ :=
  if w.length = 2 * dim then ⟨c.base, w.take dim, w.drop dim⟩ else c

/-- Training with warm start. -/
theorem warm_train {k : Kriging ℝ} {file : Option Str} {n dim : Nat}
    {F : Nat → Nat → ℝ} {b : Bounds ℝ} {T : List ℝ → ℝ} (h : CurrentModel k file n dim F b T)
    (he : 0 < k.corr.base.epsilon) (ho : k.objective = .maximumLikelihood) (hr : k.readWarm = true)
    {hf : Option Str} {w : List ℝ} (hw : Vec.readFromCSV hf = .ok w)
    (hg : w.length = 2 * dim → GoodParameters (w.take dim) (w.drop dim) dim) (E : Nat → EAEnv ℝ)
    (schedule : List Nat) :
    ∃ k', k.train realFns E schedule hf = ((k', hf), .ok ()) ∧ CurrentModel k' file n dim F b T ∧
      SameConfig k k' ∧ k'.corr.theta = (loaded dim w k.corr).theta ∧ k'.corr.gamma = (loaded dim w k.corr).gamma := by
  set k1 : Kriging ℝ := { k with corr := loaded dim w k.corr } with hk1
  have hload : k.loadHyperParameters hf = .ok k1 := by
    rw [loadHyperParameters_eq h hw, hk1]
    unfold loaded
    split_ifs <;> rfl
  have hgood : GoodParameters (loaded dim w k.corr).theta (loaded dim w k.corr).gamma dim := by
    unfold loaded
    split_ifs with hl
    · exact hg hl
    · exact h.good
  have hbase : (loaded dim w k.corr).base = k.corr.base := by
    unfold loaded
    split_ifs <;> rfl
  have hp1 : Prepared k1 n dim (normalized b dim F) (fun i => F i dim) T := by
    have := h.prepared.withParameters hgood
    rw [← hbase] at this
    exact this
  have hpd : PosDef n (corrOf k1 dim (normalized b dim F)) := by
    show PosDef n (krigingMatrix dim (vecFun (loaded dim w k.corr).theta) (vecFun (loaded dim w k.corr).gamma)
      (loaded dim w k.corr).base.epsilon _)
    rw [hbase]
    exact PosDef.of_good hgood he _
  obtain ⟨M, L, a, bb, beta, cc, s, e, -, hm, hp⟩ := hp1.update hpd
  refine ⟨{ fitState k1 M L a bb beta cc s n with isTrained := true }, ?_, ?_, ?_, rfl, rfl⟩
  · unfold train
    rw [if_neg (by simp [h.isInitialized]), if_pos hr, hload]
    have hobj : k1.objective ≠ .validationError := by
      show k.objective ≠ _
      rw [ho]; simp
    have hfin : andThen (if k1.objective = .validationError then withFile (k1, hf) k1.revertToFullData
        else ((k1, hf), .ok ())) (fun p =>
        andThen (withFile p (p.1.updateAuxilliaryFields realFns)) fun p =>
        (({ p.1 with isTrained := true }, p.2), .ok ())) =
        (({ fitState k1 M L a bb beta cc s n with isTrained := true }, hf), .ok ()) := by
      rw [if_neg hobj]
      refine andThen_ok rfl (andThen_ok (s := (fitState k1 M L a bb beta cc s n, hf)) ?_ rfl)
      unfold withFile
      rw [e]
    exact andThen_ok (s := (k1, hf)) rfl hfin
  · exact h.transfer rfl rfl rfl rfl rfl hgood ⟨hm.trend, hm.epsilon, { hm.fitted with }⟩ { hp with }
  · exact ⟨rfl, rfl, by show (loaded dim w k.corr).base.epsilon = _; rw [hbase], rfl, rfl, rfl, rfl, rfl⟩

theorem search_file {k : Kriging ℝ} {E : Nat → EAEnv ℝ} {schedule : List Nat} {file : Option Str}
    {p : Kriging ℝ × Option Str} (h : searchHyperParameters realFns k E schedule file = (p, .ok ())) :
    (k.writeWarm = true → ∃ text, p.2 = some text ∧ p.1.saveHyperParameters = .ok text) ∧
    (k.writeWarm = false → p.2 = file) := by
  unfold searchHyperParameters at h
  split at h; · cases h
  have hk : (if k.hasValidation then { k with objective := .validationError } else k : Kriging ℝ) =
      { k with objective := if k.hasValidation then .validationError else k.objective } := by
    split_ifs <;> rfl
  simp only [hk] at h
  split at h; · cases h
  obtain ⟨q, e1, e2⟩ := andThen_inv h
  obtain ⟨best, f1, e1⟩ := bind_ok_inv (commit_inv e1)
  obtain ⟨_, f2, e1⟩ := bind_ok_inv e1
  obtain ⟨_, f3, e1⟩ := bind_ok_inv e1
  obtain ⟨c, f4, e1⟩ := bind_ok_inv e1
  cases e1
  constructor
  · intro hw
    obtain ⟨t, e3, e2⟩ := bind_ok_inv (commit_inv ((if_pos hw).symm.trans e2))
    cases e2
    exact ⟨t, rfl, e3⟩
  · intro hw
    have e2 := (if_neg (by simp [hw])).symm.trans e2
    cases e2
    rfl

theorem finish_file {F : Fns ℝ} {p q : Kriging ℝ × Option Str} (h : finish F p = (q, .ok ())) : q.2 = p.2 := by
  unfold finish at h
  obtain ⟨a, e1, h⟩ := andThen_inv h
  obtain ⟨c, e2, h⟩ := andThen_inv h
  cases h
  have h2 : c.2 = a.2 := (congrArg (fun z => z.1.2) e2).symm
  show c.2 = p.2
  rw [h2]
  split_ifs at e1
  · exact (congrArg (fun z => z.1.2) e1).symm
  · exact (congrArg (fun z => z.1.2) e1).symm

/-- Training without warm start: what is in the file afterwards. -/
theorem search_train {k k' : Kriging ℝ} {file : Option Str} {n dim : Nat}
    {F : Nat → Nat → ℝ} {b : Bounds ℝ} {T : List ℝ → ℝ} (h : CurrentModel k file n dim F b T)
    (hl : Likelihood k) {E : Nat → EAEnv ℝ} (hE : ∀ t, Draws (E t)) {schedule : List Nat}
    {hf hf' : Option Str} (ht : k.train realFns E schedule hf = ((k', hf'), .ok ())) :
    (k.writeWarm = true → ∃ text, hf' = some text ∧ k'.saveHyperParameters = .ok text) ∧
    (k.writeWarm = false → hf' = hf) ∧
    InBox (hyperLb dim) (hyperUb dim) (k'.corr.theta ++ k'.corr.gamma) := by
  have hcur := train_current h hl hE schedule hf
  rw [ht] at hcur
  obtain ⟨hcur, -⟩ := hcur
  obtain ⟨-, -, best, c, f1, k1, a1, a2, a3, a4, a5, a6, a7, -⟩ := train_inv hl.readWarm ht
  unfold train at ht
  rw [if_neg (by simp [h.isInitialized]), if_neg (by simp [hl.readWarm])] at ht
  obtain ⟨p, e1, e2⟩ := andThen_inv ht
  have hfile : hf' = p.2 := finish_file (F := realFns) (q := (k', hf')) e2
  obtain ⟨s1, s2⟩ := search_file e1
  have hp : p.1 = { searchState k with corr := c } := by
    obtain ⟨-, -, best', c', b1, b2, b3, -⟩ := searchHyperParameters_inv e1
    have := a1.symm.trans b1
    cases this
    have := a2.symm.trans b2
    cases this
    exact b3
  rw [if_neg (by rw [hl.validation, hl.objective]; simp)] at a6
  have hc := (setHyperParameters_inv a2).2
  rw [h.prepared.corrDim] at hc
  have hsame : k'.corr.theta = c.theta ∧ k'.corr.gamma = c.gamma := by
    obtain ⟨c', L, r, u1, -, u3, -⟩ := update_post a7
    have u3 : k'.corr = c' := u3
    obtain ⟨R, hR⟩ := computeCorrelationMatrix_inv u1
    rw [u3, hR, a6]
    exact ⟨rfl, rfl⟩
  have hbox : InBox (hyperLb dim) (hyperUb dim) best.1 := by
    rcases (searchAll_post a1).2 with h0 | ⟨-, t, -, h0⟩
    · exact absurd (by rw [h0]) a4
    · have := (threadSearch_post (hE t) h0).1
      rw [show (searchState k).dimension = dim from h.prepared.dim] at this
      exact this
  have hsave : p.1.saveHyperParameters = k'.saveHyperParameters := by
    rw [saveHyperParameters_eq hcur.prepared.corrDim hcur.prepared.dimPos hcur.good, hsame.1, hsame.2]
    have hg := hcur.good
    rw [hsame.1, hsame.2] at hg
    rw [hp, saveHyperParameters_eq (dim := dim) _ hcur.prepared.dimPos hg]
    show c.base.dim = dim
    rw [hc]; exact h.prepared.corrDim
  refine ⟨?_, ?_, ?_⟩
  · intro hw
    obtain ⟨t, t1, t2⟩ := s1 hw
    exact ⟨t, hfile.trans t1, hsave ▸ t2⟩
  · intro hw
    rw [hfile, s2 hw]
  · rw [hsame.1, hsame.2, hc]
    show InBox _ _ (best.1.take dim ++ best.1.drop dim)
    rw [List.take_append_drop]; exact hbox

end Kriging

end Rodeo
