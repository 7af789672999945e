import Verif.Lemmas.DblDoE
import Verif.Props.Sampling
import Verif.Props.DoE
import Mathlib.Data.Rat.Floor

/-! # C131: the initial samples in double arithmetic -/

set_option linter.unusedSectionVars false

namespace Rodeo

open Spec Dbl Mat

variable {K : Type} [Field K] [LinearOrder K] [IsStrictOrderedRing K] [FloorRing K]

/-- Columns that are written one after the other, each with values that satisfy `P`. -/
theorem Dbl.columns_post {A : Mat K} {n m : Nat} {F : Nat → Nat → K} (hA : IsMat A n m F)
    {body : Nat → Mat K → Res (Mat K)} {P : Nat → (Nat → K) → Prop}
    (hb : ∀ c B G, c < m → IsMat B n m G → Post (body c B) (fun B' => ∃ V : List K, V.length = n ∧
      P c (fun i => V.getD i 0) ∧ writeColumn V c B = .ok B')) :
    Post (forRange m body A) (fun B => ∃ G, IsMat B n m G ∧ ∀ c, c < m → P c (fun i => G i c)) := by
  refine forRange_post' (fun k B => ∃ G, IsMat B n m G ∧ ∀ c, c < k → P c (fun i => G i c))
    ⟨F, hA, fun c hc => absurd hc (Nat.not_lt_zero c)⟩ ?_
  rintro k B hk ⟨G, hB, hG⟩ B' hB'
  obtain ⟨V, hV, hP, hw⟩ := hb k B G hk hB B' hB'
  obtain ⟨B'', h1, h2⟩ := writeColumn_ok hB hV hk
  rw [hw] at h1
  cases h1
  refine ⟨_, h2, fun c hc => ?_⟩
  rcases Nat.lt_succ_iff_lt_or_eq.1 hc with h | rfl
  · have : (fun i => if c = k then V.getD i 0 else G i c) = fun i => G i c := by
      funext i; rw [if_neg (by omega)]
    rw [this]
    exact hG c h
  · simpa using hP

/-- Columns that are written one after the other are all written if their values can be computed. -/
theorem Dbl.columns_total {A : Mat K} {n m : Nat} {F : Nat → Nat → K} (hA : IsMat A n m F)
    {body : Nat → Mat K → Res (Mat K)}
    (hb : ∀ c B G, c < m → IsMat B n m G → ∃ V : List K, V.length = n ∧ body c B = writeColumn V c B) :
    ∃ B, forRange m body A = .ok B := by
  obtain ⟨B, h, -⟩ := okP_for (body := body) (fun _ B => ∃ G, IsMat B n m G) (n := m) (s := A) ⟨F, hA⟩ (by
    rintro k B hk ⟨G, hB⟩
    obtain ⟨V, hV, e⟩ := hb k B G hk hB
    rw [e]
    exact (writeColumn_ok hB hV hk).mono fun B' h => ⟨_, h⟩)
  exact ⟨B, h⟩

/-- Samples between the computed cut points, shuffled. -/
theorem Dbl.nearlyStratified {n : Nat} {l h : K} (hl : IsDouble l) (hh : IsDouble h) (hlh : l ≤ h)
    (hn : n < 2 ^ 32) {xs : List K} (hlen : xs.length = n)
    (hxs : ∀ r x, xs[r]? = some x → IsDouble x ∧ flCut n l h r ≤ x ∧ x ≤ flCut n l h (r + 1))
    {perm : List Nat} (hp : perm.Perm (List.range n)) {V : List K} (hV : V.length = n)
    (hval : ∀ i, i < n → ∃ k, perm[i]? = some k ∧ V[i]? = xs[k]?) :
    NearlyStratified n l h (fun i => V.getD i 0) := by
  have hpl : perm.length = n := by rw [hp.length_eq]; simp
  have hmem : ∀ r, r ∈ perm ↔ r < n := fun r => by rw [hp.mem_iff]; simp
  have hat : ∀ r, r < n → perm.idxOf r < n := fun r hr => by
    rw [← hpl]; exact List.idxOf_lt_length_of_mem ((hmem r).2 hr)
  have hget : ∀ i, i < n → ∃ k, perm[i]? = some k ∧ k < n ∧ flCut n l h k ≤ V.getD i 0 ∧
      V.getD i 0 ≤ flCut n l h (k + 1) := by
    intro i hi
    obtain ⟨k, h1, h2⟩ := hval i hi
    have hk : k < n := (hmem k).1 (List.mem_of_getElem? h1)
    have h3 : xs[k]? = some xs[k] := List.getElem?_eq_getElem (by omega)
    rw [h3] at h2
    have h4 := (hxs k _ h3).2
    refine ⟨k, h1, hk, ?_⟩
    rw [List.getD_eq_getElem?_getD, h2]
    exact h4
  have hat2 : ∀ r, r < n → flCut n l h r ≤ V.getD (perm.idxOf r) 0 ∧
      V.getD (perm.idxOf r) 0 ≤ flCut n l h (r + 1) := by
    intro r hr
    obtain ⟨k, h1, -, h2⟩ := hget _ (hat r hr)
    have hlt : perm.idxOf r < perm.length := by rw [hpl]; exact hat r hr
    rw [List.getElem?_eq_getElem hlt, List.getElem_idxOf hlt] at h1
    obtain rfl := Option.some.inj h1
    exact h2
  refine ⟨⟨fun r => perm.idxOf r, hat, ?_, ?_, ?_⟩, ?_⟩
  · intro r s hr _ e
    exact (List.idxOf_inj ((hmem r).2 hr)).1 e
  · intro r hr
    obtain ⟨h1, h2⟩ := hat2 r hr
    have c1 := (abs_le.1 (cut_facts hl hh hlh (by omega) hn hr.le).2.2).1
    have c2 := (abs_le.1 (cut_facts hl hh hlh (by omega) hn (Nat.succ_le_of_lt hr)).2.2).2
    rw [Nat.cast_succ] at c2
    exact ⟨by linarith, by linarith⟩
  · intro r s hrs hs
    rcases hrs.eq_or_lt with rfl | hlt
    · exact le_rfl
    · exact ((hat2 r (by omega)).2.trans (flCut_mono hlh hlt)).trans (hat2 s hs).1
  · intro i hi
    obtain ⟨k, -, hk, h1, h2⟩ := hget i hi
    refine ⟨?_, ?_⟩
    · have := flCut_mono (n := n) hlh (Nat.zero_le k)
      rw [flCut_zero hl] at this
      exact this.trans h1
    · have c2 := (abs_le.1 (cut_facts hl hh hlh (by omega) hn (le_refl n)).2.2).2
      have hnK : (n : K) ≠ 0 := by exact_mod_cast (by omega : n ≠ 0)
      rw [mul_div_cancel₀ _ hnK] at c2
      have := h2.trans (flCut_mono hlh (Nat.succ_le_of_lt hk))
      linarith

/-- The full property: in double arithmetic, too, Latin hypercube sampling puts exactly one sample in each of
the `n` equal parts of the range of every parameter, and all of them in the box. -/
def C131_full (K : Type) [Field K] [LinearOrder K] [IsStrictOrderedRing K] [FloorRing K] : Prop :=
  ∀ (A : Mat K) (n m : Nat) (F : Nat → Nat → K) (lb ub : List K) (u : Nat → Nat → K)
    (perm : Nat → List Nat) (B : Mat K), IsMat A n m F → ValidBox m lb ub → Doubles lb → Doubles ub →
    n < 2 ^ 32 → (∀ c, Draws (u c)) → (∀ c, (perm c).Perm (List.range n)) →
    Dbl.fillRandomLHS A lb ub u perm = .ok B →
    ∃ G, IsMat B n m G ∧ ∀ c l h, lb[c]? = some l → ub[c]? = some h →
      (∀ r, r < n → ∃ i, i < n ∧ InStratum n l h r (G i c) ∧
        ∀ j, j < n → InStratum n l h r (G j c) → j = i) ∧
      ∀ i, i < n → l ≤ G i c ∧ G i c ≤ h

/-- Latin hypercube sampling in double arithmetic, for all bounds, draws and shuffles: every parameter has one
sample for each of the `n` equal parts of its range, which lies in this part up to rounding; the samples are
ordered as the parts are; none is below the lower bound, and none above the upper one by more than rounding.
Missing from the full statement, because it is false: exactly. -/
theorem C131_partial {A : Mat K} {n m : Nat} {F : Nat → Nat → K} (hA : IsMat A n m F)
    {lb ub : List K} (hbox : ValidBox m lb ub) (hlb : Doubles lb) (hub : Doubles ub) (hn : n < 2 ^ 32)
    {u : Nat → Nat → K} (hu : ∀ c, Draws (u c))
    {perm : Nat → List Nat} (hp : ∀ c, (perm c).Perm (List.range n)) {B : Mat K}
    (h : Dbl.fillRandomLHS A lb ub u perm = .ok B) :
    ∃ G, IsMat B n m G ∧ ∀ c l h, lb[c]? = some l → ub[c]? = some h →
      NearlyStratified n l h (fun i => G i c) := by
  obtain ⟨-, hl, hu', hlt⟩ := hbox
  unfold Dbl.fillRandomLHS at h
  rw [if_neg (by rw [hA.2.1]; omega), hA.2.1] at h
  have key := fun hb => Dbl.columns_post hA (P := fun c x => ∀ l h, lb[c]? = some l → ub[c]? = some h →
    NearlyStratified n l h x) hb B h
  obtain ⟨G, g1, g2⟩ := key (by
      intro c B G hc hB B' hB'
      obtain ⟨l, e1, hB'⟩ := bind_ok_inv hB'
      obtain ⟨h, e2, hB'⟩ := bind_ok_inv hB'
      rw [rawAt_ok_of_lt (by omega)] at e1 e2
      split_ifs at hB' with hle
      rw [hB.1] at hB'
      obtain ⟨xs, e3, hB'⟩ := bind_ok_inv hB'
      obtain ⟨V, e4, hB'⟩ := bind_ok_inv hB'
      obtain ⟨x1, x2⟩ := strata_post (not_lt.1 hle) (hu c) xs e3
      obtain ⟨v1, v2⟩ := tab_inv e4
      refine ⟨V, v1, ?_, hB'⟩
      intro l' h' f1 f2
      obtain ⟨g1, rfl⟩ := List.getElem?_eq_some_iff.1 f1
      obtain ⟨g2, rfl⟩ := List.getElem?_eq_some_iff.1 f2
      cases e1
      cases e2
      refine Dbl.nearlyStratified (hlb _ (List.getElem_mem g1)) (hub _ (List.getElem_mem g2)) (not_lt.1 hle) hn
        x1 x2 (hp c) v1 fun i hi => ?_
      obtain ⟨a, w1, w2⟩ := v2 i hi
      obtain ⟨k, w3, w1⟩ := bind_ok_inv w1
      have hi' : i < (perm c).length := by rw [(hp c).length_eq]; simpa using hi
      rw [rawAt_ok_of_lt hi'] at w3
      cases w3
      refine ⟨_, List.getElem?_eq_getElem hi', ?_⟩
      have hk : (perm c)[i] < xs.length := by
        have := (hp c).mem_iff.1 (List.getElem_mem hi')
        rw [x1]; simpa using this
      rw [rawAt_ok_of_lt hk] at w1
      cases w1
      rw [w2, List.getElem?_eq_getElem hk])
  refine ⟨G, g1, fun c l h e1 e2 => g2 c ?_ l h e1 e2⟩
  have := (List.getElem?_eq_some_iff.1 e1).1
  omega

/-- Random sampling in double arithmetic: every sample is a double in the box, without any error. -/
theorem C131_random {A : Mat K} {n m : Nat} {F : Nat → Nat → K} (hA : IsMat A n m F)
    {lb ub : List K} (hbox : ValidBox m lb ub) (hlb : Doubles lb) (hub : Doubles ub)
    {u : Nat → Nat → K} (hu : ∀ c, Draws (u c)) {B : Mat K}
    (h : Dbl.fillRandomMat A lb ub u = .ok B) :
    ∃ G, IsMat B n m G ∧ ∀ c l h, lb[c]? = some l → ub[c]? = some h →
      ∀ i, i < n → IsDouble (G i c) ∧ l ≤ G i c ∧ G i c ≤ h := by
  obtain ⟨-, hl, hu', hlt⟩ := hbox
  unfold Dbl.fillRandomMat at h
  rw [if_neg (by rw [hA.2.1]; omega), hA.2.1] at h
  have key := fun hb => Dbl.columns_post hA (P := fun c x => ∀ l h, lb[c]? = some l → ub[c]? = some h →
    ∀ i, i < n → IsDouble (x i) ∧ l ≤ x i ∧ x i ≤ h) hb B h
  obtain ⟨G, g1, g2⟩ := key (by
      intro c B G hc hB B' hB'
      obtain ⟨l, e1, hB'⟩ := bind_ok_inv hB'
      obtain ⟨h, e2, hB'⟩ := bind_ok_inv hB'
      rw [rawAt_ok_of_lt (by omega)] at e1 e2
      split_ifs at hB' with hle
      rw [hB.1] at hB'
      obtain ⟨V, e4, hB'⟩ := bind_ok_inv hB'
      obtain ⟨v1, v2⟩ := tab_inv e4
      refine ⟨V, v1, ?_, hB'⟩
      intro l' h' f1 f2 i hi
      obtain ⟨g1, rfl⟩ := List.getElem?_eq_some_iff.1 f1
      obtain ⟨g2, rfl⟩ := List.getElem?_eq_some_iff.1 f2
      cases e1
      cases e2
      obtain ⟨a, w1, w2⟩ := v2 i hi
      beta_reduce
      rw [List.getD_eq_getElem?_getD, w2]
      exact uniformReal_post (hlb _ (List.getElem_mem g1)) (hub _ (List.getElem_mem g2)) (not_lt.1 hle)
        (hu c i).1 (hu c i).2.1 (hu c i).2.2 _ w1)
  refine ⟨G, g1, fun c l h e1 e2 => g2 c ?_ l h e1 e2⟩
  have := (List.getElem?_eq_some_iff.1 e1).1
  omega

/-- Both kinds of sampling succeed, unless a bound is larger than `2 ^ 1018` (about 2.8e306): nothing
overflows. -/
theorem C131_total {A : Mat K} {n m : Nat} {F : Nat → Nat → K} (hA : IsMat A n m F)
    {lb ub : List K} (hbox : ValidBox m lb ub) (hlb : Doubles lb) (hub : Doubles ub) (hn : n < 2 ^ 32)
    (hL : ∀ x ∈ lb, |x| ≤ 2 ^ (1018 : ℤ)) (hU : ∀ x ∈ ub, |x| ≤ 2 ^ (1018 : ℤ))
    {u : Nat → Nat → K} (hu : ∀ c, Draws (u c))
    {perm : Nat → List Nat} (hp : ∀ c, (perm c).Perm (List.range n)) :
    (∃ B, Dbl.fillRandomLHS A lb ub u perm = .ok B) ∧ ∃ B, Dbl.fillRandomMat A lb ub u = .ok B := by
  obtain ⟨-, hl, hu', hlt⟩ := hbox
  constructor
  · unfold Dbl.fillRandomLHS
    rw [if_neg (by rw [hA.2.1]; omega), hA.2.1]
    refine Dbl.columns_total hA fun c B G hc hB => ?_
    have g1 : c < lb.length := by omega
    have g2 : c < ub.length := by omega
    have hle := (hlt c _ _ (List.getElem?_eq_getElem g1) (List.getElem?_eq_getElem g2)).le
    have d1 := hlb _ (List.getElem_mem g1)
    have d2 := hub _ (List.getElem_mem g2)
    obtain ⟨xs, e3⟩ := strata_ok' (n := n) d1 d2 hle hn (hu c) (hL _ (List.getElem_mem g1))
      (hU _ (List.getElem_mem g2))
    have x1 := (strata_post hle (hu c) xs e3).1
    have hpl : (perm c).length = n := by rw [(hp c).length_eq]; simp
    refine ⟨(List.range n).map fun i => xs.getD ((perm c).getD i 0) 0, by simp, ?_⟩
    refine bind_eq (rawAt_ok_of_lt g1) (bind_eq (rawAt_ok_of_lt g2) ?_)
    rw [if_neg (not_lt.2 hle), hB.1]
    refine bind_eq e3 (bind_eq (tab_ok fun i hi => ?_) rfl)
    have hi' : i < (perm c).length := by omega
    have hk : (perm c)[i] < xs.length := by
      have := (hp c).mem_iff.1 (List.getElem_mem hi')
      rw [x1]; simpa using this
    refine bind_eq (rawAt_ok_of_lt hi') ?_
    rw [rawAt_ok_of_lt hk]
    simp [List.getD, hi', hk]
  · unfold Dbl.fillRandomMat
    rw [if_neg (by rw [hA.2.1]; omega), hA.2.1]
    refine Dbl.columns_total hA fun c B G hc hB => ?_
    have g1 : c < lb.length := by omega
    have g2 : c < ub.length := by omega
    have hle := (hlt c _ _ (List.getElem?_eq_getElem g1) (List.getElem?_eq_getElem g2)).le
    have d1 := hlb _ (List.getElem_mem g1)
    have d2 := hub _ (List.getElem_mem g2)
    have p3 : (2 : K) ^ (1018 : ℤ) ≤ 2 ^ (1022 : ℤ) := zp_mono (by norm_num)
    have hdraw : ∀ i, ∃ x, Dbl.uniformReal lb[c] ub[c] (u c i) = .ok x := fun i =>
      uniformReal_okP d1 d2 hle (hu c i).1 (hu c i).2.1 (hu c i).2.2
        ((hL _ (List.getElem_mem g1)).trans p3) ((hU _ (List.getElem_mem g2)).trans p3)
    choose x hx using hdraw
    refine ⟨(List.range n).map x, by simp, ?_⟩
    refine bind_eq (rawAt_ok_of_lt g1) (bind_eq (rawAt_ok_of_lt g2) ?_)
    rw [if_neg (not_lt.2 hle), hB.1]
    exact bind_eq (tab_ok fun i _ => hx i) rfl

/-! ## The samples of a study -/

/-- The samples that the interface generates for a study with a valid box, of at least one sample: with "lhs"
they are stratified up to rounding; with "random" they are in the box. -/
theorem C131_study {F : Type} {E : API.Env K F} {s : API.Study K F} {S : Mat K}
    (h : Dbl.generateSamples E s = .ok S) (hbox : ValidBox s.dimension s.lb s.ub) (hlb : Doubles s.lb)
    (hub : Doubles s.ub) (hn : s.samplesForDoE < 2 ^ 32) (hu : ∀ c, Draws (E.u c))
    (hp : ∀ c, (E.perm c).Perm (List.range s.samplesForDoE)) :
    ∃ G, IsMat S s.samplesForDoE s.dimension G ∧ ∀ c l h, s.lb[c]? = some l → s.ub[c]? = some h →
      (s.doe = "random".toList → ∀ i, i < s.samplesForDoE → IsDouble (G i c) ∧ l ≤ G i c ∧ G i c ≤ h) ∧
      (s.doe = "lhs".toList → NearlyStratified s.samplesForDoE l h (fun i => G i c)) ∧
      (s.doe = "random".toList ∨ s.doe = "lhs".toList) := by
  obtain ⟨A, hA1, hA2⟩ := resize_ok (isMat_empty (K := K)) s.samplesForDoE s.dimension
  unfold Dbl.generateSamples at h
  split_ifs at h with h1 h2
  · rw [bind_eq hA1 rfl] at h
    obtain ⟨G, g1, g2⟩ := C131_random hA2 hbox hlb hub hu h
    refine ⟨G, g1, fun c l h e1 e2 => ⟨fun _ => g2 c l h e1 e2, fun h3 => ?_, Or.inl h1⟩⟩
    rw [h1] at h3
    exact absurd h3 (by decide)
  · rw [bind_eq hA1 rfl] at h
    obtain ⟨G, g1, g2⟩ := C131_partial hA2 hbox hlb hub hn hu hp h
    exact ⟨G, g1, fun c l h e1 e2 => ⟨fun h3 => absurd h3 h1, fun _ => g2 c l h e1 e2, Or.inr h2⟩⟩

/-! ## Cases -/

namespace DblDoEDemo

/-- The largest number that the generator yields. -/
def top : Nat → Nat → ℚ := fun _ _ => 1 - 1 / 2 ^ 53

theorem top_ok (c : Nat) : Draws (top c) := fun _ => by
  refine ⟨⟨2 ^ 53 - 1, -53, by norm_num, by norm_num, ?_⟩, by norm_num [top], by norm_num [top]⟩
  norm_num [top]

theorem threeQuarters_ok : ∀ _ : Nat, Draws (fun _ => (3 / 4 : ℚ)) := fun _ _ =>
  ⟨⟨3, -2, by norm_num, by norm_num, by norm_num⟩, by norm_num, by norm_num⟩

theorem perm_ok (n : Nat) : ∀ _ : Nat, (List.range n).Perm (List.range n) := fun _ => List.Perm.refl _

/-- Two parameters, three samples, from -1 to 0.1 and from 10 to 40. -/
def lb : List ℚ := [-1, 10]
def ub : List ℚ := [fl (1 / 10), 40]
def start : Mat ℚ := ⟨3, 2, [0, 0, 0, 0, 0, 0]⟩

theorem start_ok : IsMat start 3 2 (fun _ _ => 0) := by
  refine ⟨rfl, rfl, rfl, ?_⟩
  intro i j hi hj
  interval_cases i <;> interval_cases j <;> rfl

theorem box : ValidBox 2 lb ub := by
  refine ⟨by norm_num, rfl, rfl, ?_⟩
  intro i l u h1 h2
  have hi : i < 2 := (List.getElem?_eq_some_iff.1 h1).1
  interval_cases i
  · obtain rfl := Option.some.inj h1
    obtain rfl := Option.some.inj h2
    decide +kernel
  · obtain rfl := Option.some.inj h1
    obtain rfl := Option.some.inj h2
    norm_num

theorem doubles : Doubles lb ∧ Doubles ub := by
  constructor
  · intro x hx
    simp only [lb, List.mem_cons, List.not_mem_nil, or_false] at hx
    rcases hx with rfl | rfl
    · exact ⟨-1, 0, by norm_num, by norm_num, by norm_num⟩
    · exact ⟨10, 0, by norm_num, by norm_num, by norm_num⟩
  · intro x hx
    simp only [ub, List.mem_cons, List.not_mem_nil, or_false] at hx
    rcases hx with rfl | rfl
    · exact fl_isDouble _
    · exact ⟨40, 0, by norm_num, by norm_num, by norm_num⟩

/-- The samples for the largest number of the generator: the last one is above the upper bound. -/
theorem run : ∃ B, Dbl.fillRandomLHS start lb ub top (fun _ => List.range 3) = .ok B ∧
    (∃ x, B.at' 2 0 = .ok x ∧ fl (1 / 10) < x) := by
  obtain ⟨B, hB⟩ := (C131_total start_ok box doubles.1 doubles.2 (by norm_num)
    (by
      intro x hx
      have h3 : (64 : ℚ) ≤ 2 ^ (1018 : ℤ) := le_trans (by norm_num) (zp_mono (K := ℚ) (show (6 : ℤ) ≤ 1018 by norm_num))
      simp only [lb, List.mem_cons, List.not_mem_nil, or_false] at hx
      rcases hx with rfl | rfl <;> exact le_trans (by norm_num) h3)
    (by
      intro x hx
      have h3 : (64 : ℚ) ≤ 2 ^ (1018 : ℤ) := le_trans (by norm_num) (zp_mono (K := ℚ) (show (6 : ℤ) ≤ 1018 by norm_num))
      simp only [ub, List.mem_cons, List.not_mem_nil, or_false] at hx
      rcases hx with rfl | rfl
      · exact le_trans (by decide +kernel : |fl (1 / 10 : ℚ)| ≤ 64) h3
      · exact le_trans (by norm_num) h3)
    top_ok (perm_ok 3)).1
  refine ⟨B, hB, ?_⟩
  have : (match Dbl.fillRandomLHS start lb ub top (fun _ => List.range 3) with
    | .ok B => (match B.at' 2 0 with | .ok x => decide (fl (1 / 10) < x) | .error _ => false)
    | .error _ => false) = true := by decide +kernel
  rw [hB] at this
  dsimp only at this
  split at this
  · exact ⟨_, by assumption, of_decide_eq_true this⟩
  · cases this

end DblDoEDemo

/-- The full statement fails: with bounds -1 and 0.1 and three samples the last sample can be 0.10000000000000003,
outside of the box. -/
theorem C131_false : ¬ C131_full ℚ := by
  intro h
  obtain ⟨B, hB, x, hx, hlt⟩ := DblDoEDemo.run
  obtain ⟨G, g1, g2⟩ := h _ _ _ _ _ _ _ _ B DblDoEDemo.start_ok DblDoEDemo.box DblDoEDemo.doubles.1
    DblDoEDemo.doubles.2 (by norm_num) DblDoEDemo.top_ok (DblDoEDemo.perm_ok 3) hB
  have h1 := ((g2 0 _ _ rfl rfl).2 2 (by norm_num)).2
  have h2 := g1.2.2.2 2 0 (by norm_num) (by norm_num)
  rw [hx] at h2
  cases h2
  exact absurd h1 (not_le.2 hlt)

/-- It also fails inside the box: between `2 ^ 52` and `2 ^ 52 + 2` with two samples and the draw 3/4 the lower
half gets no sample. -/
theorem C131_false_stratum : Dbl.strata 2 (2 ^ 52 : ℚ) (2 ^ 52 + 2) (fun _ => 3 / 4) =
    .ok [2 ^ 52 + 1, 2 ^ 52 + 2] ∧ ∀ x ∈ [(2 ^ 52 + 1 : ℚ), 2 ^ 52 + 2],
      ¬ InStratum 2 (2 ^ 52 : ℚ) (2 ^ 52 + 2) 0 x := by
  refine ⟨by decide +kernel, ?_⟩
  intro x hx
  simp only [List.mem_cons, List.not_mem_nil, or_false] at hx
  rcases hx with rfl | rfl <;> norm_num [InStratum]

-- The hypotheses of `C131_partial`, `C131_random` and `C131_total` hold in a case, with both results.
example : ∃ B G, Dbl.fillRandomLHS DblDoEDemo.start DblDoEDemo.lb DblDoEDemo.ub DblDoEDemo.top
      (fun _ => List.range 3) = .ok B ∧ IsMat B 3 2 G ∧ NearlyStratified 3 10 40 (fun i => G i 1) := by
  obtain ⟨B, hB, -⟩ := DblDoEDemo.run
  obtain ⟨G, g1, g2⟩ := C131_partial DblDoEDemo.start_ok DblDoEDemo.box DblDoEDemo.doubles.1
    DblDoEDemo.doubles.2 (by norm_num) DblDoEDemo.top_ok (DblDoEDemo.perm_ok 3) hB
  exact ⟨B, G, hB, g1, g2 1 _ _ rfl rfl⟩

example : Dbl.fillRandomMat DblDoEDemo.start [-1, 10] [1, 40] (fun _ _ => 1 / 2) =
    .ok ⟨3, 2, [0, 0, 0, 25, 25, 25]⟩ := by decide +kernel

-- Three samples between 10 and 40 with the draw 1/4, in the order 2, 0, 1.
example : Dbl.fillRandomLHS (⟨3, 1, [0, 0, 0]⟩ : Mat ℚ) [10] [40] (fun _ _ => 1 / 4) (fun _ => [2, 0, 1]) =
    .ok ⟨3, 1, [65 / 2, 25 / 2, 45 / 2]⟩ := by decide +kernel

end Rodeo
