import Verif.Lemmas.MatEdit
import Verif.Lemmas.MatRead
import Verif.Lemmas.CSV
import Verif.Lemmas.Post
import Verif.Spec.History

set_option linter.unusedSectionVars false

namespace Rodeo
open Spec

variable {K : Type} [Field K] [LinearOrder K] [IsStrictOrderedRing K]

/-! ## Writing entries -/

theorem Vec.put_eq {α : Type} {v : List α} {i : Nat} {a : α} (h : i < v.length) :
    Vec.put v i a = .ok (v.set i a) := by
  unfold Vec.put
  rw [if_neg (by omega)]

theorem Mat.put_ok {A : Mat K} {n m : Nat} {F : Nat → Nat → K} (hA : IsMat A n m F) {i j : Nat}
    (hi : i < n) (hj : j < m) (a : K) :
    OkP (Mat.put A i j a) (fun B => IsMat B n m (fun r c => if r = i ∧ c = j then a else F r c)) := by
  obtain ⟨h1, h2, h3, h4⟩ := isMat_iff.1 hA
  have hlt := colmajor_lt hi hj
  refine ⟨{ A with buf := A.buf.set (j * A.nrows + i) a }, ?_, ?_⟩
  · unfold Mat.put
    rw [if_neg (by omega), if_neg (by rw [h1, h3]; omega)]
  · refine isMat_iff.2 ⟨h1, h2, by simp [h3], ?_⟩
    intro r c hr hc
    dsimp only
    rw [h1, List.getElem?_set]
    by_cases hcond : j * n + i = c * n + r
    · obtain ⟨e1, e2⟩ := colmajor_inj hi hr hcond
      subst e1; subst e2
      rw [if_pos rfl, if_pos (by rw [h3]; exact hlt)]
      simp
    · rw [if_neg hcond, if_neg (by rintro ⟨rfl, rfl⟩; exact hcond rfl)]
      exact h4 r c hr hc

/-- A loop stops at the first failing round. -/
theorem forRange_error {σ : Type} {body : Nat → σ → Res σ} (Inv : Nat → σ → Prop) {n k : Nat} {s : σ}
    {e : Err} (hk : k < n) (h0 : Inv 0 s)
    (hs : ∀ j s, j < k → Inv j s → ∃ s', body j s = .ok s' ∧ Inv (j + 1) s')
    (he : ∀ s, Inv k s → body k s = .error e) : forRange n body s = .error e := by
  unfold forRange
  have key : ∀ (c i : Nat) (s : σ), i ≤ k → k < i + c → Inv i s → loopFrom body i c s = .error e := by
    intro c
    induction c with
    | zero => intro i s h1 h2; omega
    | succ c ih =>
      intro i s h1 h2 h
      unfold loopFrom
      by_cases hik : i = k
      · subst hik; rw [he s h]
      · obtain ⟨s', e1, e2⟩ := hs i s (by omega) h
        rw [e1]
        exact ih (i + 1) s' (by omega) (by omega) e2
  exact key n 0 s (by omega) (by omega) h0

/-- The loop `for(i=0; i<k; i++) r(start+i) = w(i);`. -/
theorem fill_eq {r w : List K} {k : Nat} (idx : Nat → Nat) (start : Nat)
    (hidx : ∀ i, i < k → idx i = start + i) (h1 : start + k ≤ r.length) (h2 : k ≤ w.length) :
    forRange k (fun i r => do
      let a ← vat w i
      Vec.put r (idx i) a) r = .ok (r.take start ++ w.take k ++ r.drop (start + k)) := by
  suffices h : OkP (forRange k (fun i r => do
      let a ← vat w i
      Vec.put r (idx i) a) r)
      (fun r' => r' = r.take start ++ w.take k ++ r.drop (start + k)) by
    obtain ⟨a, e, rfl⟩ := h; exact e
  refine forRange_inv (fun i r' => r' = r.take start ++ w.take i ++ r.drop (start + i)) (by simp) ?_
  rintro i r' hi rfl
  have hiw : i < w.length := by omega
  refine ⟨_, bind_eq (vat_ok_of_lt hiw) (Vec.put_eq ?_), ?_⟩
  · rw [hidx i hi]; simp; omega
  · rw [hidx i hi, List.drop_eq_getElem_cons (by omega : start + i < r.length),
      List.set_append_right _ _ (by simp; omega)]
    have e : start + i - (r.take start ++ w.take i).length = 0 := by simp; omega
    rw [e, List.set_cons_zero, ← List.take_concat_get' w i hiw]
    simp only [List.append_assoc, List.cons_append, List.nil_append, Nat.add_assoc]

/-- The same with the target split at the right places. -/
theorem fill_mid {a c b w : List K} {k : Nat} (idx : Nat → Nat) (hidx : ∀ i, i < k → idx i = a.length + i)
    (h1 : c.length = k) (h2 : k ≤ w.length) :
    forRange k (fun i r => do
      let a ← vat w i
      Vec.put r (idx i) a) (a ++ (c ++ b)) = .ok (a ++ (w.take k ++ b)) := by
  rw [fill_eq idx a.length hidx (by simp; omega) h2]
  subst h1
  simp [List.drop_append]

theorem Vec.put_mid {α : Type} {a b : List α} {x y : α} {i : Nat} (h : i = a.length) :
    Vec.put (a ++ x :: b) i y = .ok (a ++ y :: b) := by
  subst h
  rw [Vec.put_eq (by simp)]
  simp

/-- The loop fails when the source is too short. -/
theorem fill_error {r w : List K} {k : Nat} (idx : Nat → Nat) (start : Nat)
    (hidx : ∀ i, i < k → idx i = start + i) (h1 : start + k ≤ r.length) (h2 : w.length < k) :
    forRange k (fun i r => do
      let a ← vat w i
      Vec.put r (idx i) a) r = .error .outOfRange := by
  refine forRange_error (fun _ r' => r'.length = r.length) h2 rfl ?_ ?_
  · intro j s hj hs
    refine ⟨_, bind_eq (vat_ok_of_lt hj) (Vec.put_eq ?_), by simpa using hs⟩
    rw [hs, hidx j (by omega)]; omega
  · intro s hs
    have : vat w w.length = .error .outOfRange := by simp [vat]
    rw [this]; rfl

namespace History

/-! ## The new row -/

theorem newRow_eq (h : History K) (d : Design K) (hd : d.params.length = h.dimension)
    (hc : h.constraintNames.length ≤ d.constraintTrueValues.length) :
    h.newRow d = .ok (historyRow d h.constraintNames.length) := by
  unfold newRow
  dsimp only
  set D := h.dimension with hD
  set C := h.constraintNames.length with hC
  have hE : h.numberOfEntries = D + 1 + C + 2 := rfl
  have hrep : List.replicate (D + 1 + C + 2) (0 : K) =
      [] ++ (List.replicate D 0 ++ 0 :: (List.replicate C 0 ++ [0, 0])) := by
    simp only [List.nil_append, show ([0, 0] : List K) = List.replicate 2 0 from rfl,
      ← List.replicate_add, ← List.replicate_succ]
    congr 1; omega
  rw [hE, hrep]
  refine bind_eq (fill_mid (fun i => i) (by simp) (by simp) (by omega)) ?_
  rw [List.nil_append, List.take_of_length_le (by omega)]
  refine bind_eq (Vec.put_mid hd.symm) ?_
  have e1 : d.params ++ d.trueValue :: (List.replicate C 0 ++ [0, 0]) =
      (d.params ++ [d.trueValue]) ++ (List.replicate C 0 ++ [0, 0]) := by simp
  rw [e1]
  refine bind_eq (fill_mid (fun i => i + D + 1) (by intros; simp [hd]; omega) (by simp) hc) ?_
  rw [← List.append_assoc]
  refine bind_eq (Vec.put_mid (by simp [hd]; omega)) ?_
  have e2 : ∀ l : List K, l ++ [d.improvement, 0] = (l ++ [d.improvement]) ++ [0] := by simp
  rw [e2]
  refine (Vec.put_mid (by simp [hd]; omega)).trans ?_
  unfold historyRow
  simp

theorem newRow_error (h : History K) (d : Design K) (hd : d.params.length = h.dimension)
    (hc : d.constraintTrueValues.length < h.constraintNames.length) :
    h.newRow d = .error .outOfRange := by
  unfold newRow
  dsimp only
  set D := h.dimension with hD
  set C := h.constraintNames.length with hC
  have hE : h.numberOfEntries = D + 1 + C + 2 := rfl
  rw [hE]
  refine bind_eq (fill_eq (fun i => i) 0 (by simp) (by simp; omega) (by omega)) ?_
  refine bind_eq (Vec.put_eq (by simp [hd]; omega)) ?_
  rw [fill_error (fun i => i + D + 1) (D + 1) (by intros; omega) (by simp [hd]; omega) hc]
  rfl

theorem historyRow_length (h : History K) (d : Design K) (hd : d.params.length = h.dimension)
    (hc : h.constraintNames.length ≤ d.constraintTrueValues.length) :
    (historyRow d h.constraintNames.length).length = h.numberOfEntries := by
  simp [historyRow, numberOfEntries, hd]; omega

theorem setHeader_ok (h : History K) (hn : h.parameterNames = [] ∨ h.parameterNames.length = h.dimension) :
    ∃ hd, h.setHeader = .ok hd ∧ hd.length = h.numberOfEntries ∧ hd ≠ [] := by
  unfold setHeader
  rw [if_neg (by rintro ⟨h1, h2⟩; rcases hn with hn | hn <;> contradiction)]
  refine ⟨_, rfl, ?_, by simp⟩
  unfold numberOfEntries
  split_ifs with h0
  · rcases hn with hn | hn
    · contradiction
    · simp [hn]; omega
  · simp; omega

/-! ## Best feasible row -/

/-- Loop invariant of the two searches for the best feasible row: state after `i` rows. -/
def BestInv (F : Nat → Nat → K) (m dim i : Nat) (s : Bool × K × Nat) : Prop :=
  (s.1 = false → s.2.1 = dblMax ∧ ∀ j, j < i → FeasibleRow F m j → dblMax ≤ F j dim) ∧
  (s.1 = true → s.2.2 < i ∧ FeasibleRow F m s.2.2 ∧ s.2.1 = F s.2.2 dim ∧ s.2.1 < dblMax ∧
    (∀ j, j < i → FeasibleRow F m j → F s.2.2 dim ≤ F j dim) ∧
    ∀ j, j < s.2.2 → FeasibleRow F m j → F s.2.2 dim < F j dim)

theorem bestInv_zero (F : Nat → Nat → K) (m dim k : Nat) : BestInv F m dim 0 (false, dblMax, k) := by
  refine ⟨fun _ => ⟨rfl, by intro j hj; omega⟩, fun h => by cases h⟩

theorem bestInv_take {F : Nat → Nat → K} {m dim i : Nat} {s : Bool × K × Nat} (h : BestInv F m dim i s)
    (hf : 0 < F i (m - 1)) (ho : F i dim < s.2.1) : BestInv F m dim (i + 1) (true, F i dim, i) := by
  refine ⟨fun h => by (cases h), fun _ => ?_⟩
  rcases Bool.eq_false_or_eq_true s.1 with hs | hs
  · obtain ⟨h1, h2, h3, h4, h5, h6⟩ := h.2 hs
    refine ⟨by dsimp only; omega, hf, rfl, lt_trans ho h4, ?_, ?_⟩
    · intro j hj hj'
      dsimp only
      rcases Nat.lt_succ_iff_lt_or_eq.1 hj with h | rfl
      · exact le_trans ho.le (h3 ▸ h5 j h hj')
      · exact le_refl _
    · intro j hj hj'
      exact lt_of_lt_of_le ho (h3 ▸ h5 j hj hj')
  · obtain ⟨h1, h2⟩ := h.1 hs
    rw [h1] at ho
    refine ⟨by dsimp only; omega, hf, rfl, ho, ?_, ?_⟩
    · intro j hj hj'
      dsimp only
      rcases Nat.lt_succ_iff_lt_or_eq.1 hj with h | rfl
      · exact le_trans ho.le (h2 j h hj')
      · exact le_refl _
    · intro j hj hj'
      exact lt_of_lt_of_le ho (h2 j hj hj')

theorem bestInv_skip {F : Nat → Nat → K} {m dim i : Nat} {s : Bool × K × Nat} (h : BestInv F m dim i s)
    (hf : ¬ (0 < F i (m - 1) ∧ F i dim < s.2.1)) : BestInv F m dim (i + 1) s := by
  have hn : FeasibleRow F m i → s.2.1 ≤ F i dim := fun h1 => by
    by_contra hc; exact hf ⟨h1, not_le.1 hc⟩
  refine ⟨fun hs => ?_, fun hs => ?_⟩
  · obtain ⟨h1, h2⟩ := h.1 hs
    refine ⟨h1, fun j hj hj' => ?_⟩
    rcases Nat.lt_succ_iff_lt_or_eq.1 hj with h | rfl
    · exact h2 j h hj'
    · exact h1 ▸ hn hj'
  · obtain ⟨h1, h2, h3, h4, h5, h6⟩ := h.2 hs
    refine ⟨by omega, h2, h3, h4, fun j hj hj' => ?_, h6⟩
    rcases Nat.lt_succ_iff_lt_or_eq.1 hj with h | rfl
    · exact h5 j h hj'
    · exact h3 ▸ hn hj'

/-- The best feasible initial value. -/
theorem initialImprovement_ok {h : History K} {n m : Nat} {F : Nat → Nat → K}
    (hA : IsMat h.data n m F) (hn : n ≠ 0) (hd : h.dimension ≠ 0) (hm : h.dimension < m) :
    OkP h.calculateInitialImprovementValue (fun b =>
      (∃ k, k < n ∧ FeasibleRow F m k ∧ b = F k h.dimension ∧ b < dblMax ∧
        ∀ j, j < n → FeasibleRow F m j → b ≤ F j h.dimension) ∨
      (b = -dblMax ∧ ∀ j, j < n → FeasibleRow F m j → dblMax ≤ F j h.dimension)) := by
  obtain ⟨hr, hc, -, -⟩ := id hA
  unfold calculateInitialImprovementValue objectiveValues feasibilityValues
  rw [if_neg (by omega), if_neg hd, if_neg (by omega)]
  refine bind_okP (Mat.getCol_ok hA hm (Or.inl rfl)) ?_
  refine bind_okP (Mat.getCol_ok hA (p := m - 1) (by omega) (Or.inl (by omega))) ?_
  rw [hr]
  refine OkP.bind (P := fun s : Bool × K => ∃ k, BestInv F m h.dimension n (s.1, s.2, k)) ?_ ?_
  · refine forRange_inv (fun i (s : Bool × K) => ∃ k, BestInv F m h.dimension i (s.1, s.2, k))
      ⟨0, bestInv_zero F m h.dimension 0⟩ ?_
    rintro i s hi ⟨k, hs⟩
    have e1 : vat ((List.range n).map (fun i => F i (m - 1))) i = .ok (F i (m - 1)) := by
      rw [vat_ok_of_lt (by simpa using hi)]; simp
    have e2 : vat ((List.range n).map (fun i => F i h.dimension)) i = .ok (F i h.dimension) := by
      rw [vat_ok_of_lt (by simpa using hi)]; simp
    by_cases hcnd : F i (m - 1) > 0 ∧ F i h.dimension < s.2
    · exact ⟨_, bind_eq e1 (bind_eq e2 (if_pos hcnd)), i, bestInv_take hs hcnd.1 hcnd.2⟩
    · exact ⟨_, bind_eq e1 (bind_eq e2 (if_neg hcnd)), k, bestInv_skip hs hcnd⟩
  · rintro ⟨f, b⟩ ⟨k, hs⟩
    refine okP_ok ?_
    cases f with
    | true =>
      obtain ⟨h1, h2, h3, h4, h5, h6⟩ := hs.2 rfl
      dsimp only at h1 h2 h3 h4 h5
      left
      refine ⟨k, h1, h2, h3, h4, fun j hj hj' => ?_⟩
      simp only [if_true]
      rw [h3]; exact h5 j hj hj'
    | false =>
      right
      exact ⟨rfl, (hs.1 rfl).2⟩

end History

/-! ## Global optimum -/

namespace GlobalDesign

theorem minIndexLoop_spec (F : Nat → K) : ∀ (l : List K) (i : Nat) (m : K) (best : Nat),
    (∀ j (h : j < l.length), l[j] = F (i + j)) → best < i → m = F best →
    (∀ j, j < i → F best ≤ F j) → (∀ j, j < best → F best < F j) →
    let k := Vec.minIndexLoop l i m best
    k < i + l.length ∧ (∀ j, j < i + l.length → F k ≤ F j) ∧ ∀ j, j < k → F k < F j := by
  intro l
  induction l with
  | nil =>
    intro i m best _ h1 _ h3 h4
    exact ⟨by simpa [Vec.minIndexLoop] using h1, by simpa [Vec.minIndexLoop] using h3,
      by simpa [Vec.minIndexLoop] using h4⟩
  | cons a l ih =>
    intro i m best h0 h1 h2 h3 h4
    have ha : a = F i := h0 0 (by simp)
    have h0' : ∀ j (h : j < l.length), l[j] = F (i + 1 + j) := by
      intro j hj
      have := h0 (j + 1) (by simpa using hj)
      rw [List.getElem_cons_succ] at this
      rw [this]; congr 1; omega
    unfold Vec.minIndexLoop
    have hlen : i + (a :: l).length = i + 1 + l.length := by simp; omega
    rw [hlen]
    by_cases hlt : a < m
    · rw [if_pos hlt]
      refine ih (i + 1) a i h0' (by omega) ha ?_ ?_
      · intro j hj
        rcases Nat.lt_succ_iff_lt_or_eq.1 hj with h | rfl
        · rw [← ha]; exact le_trans hlt.le (h2 ▸ h3 j h)
        · exact le_refl _
      · intro j hj
        rw [← ha]; exact lt_of_lt_of_le hlt (h2 ▸ h3 j hj)
    · rw [if_neg hlt]
      refine ih (i + 1) m best h0' (by omega) h2 ?_ h4
      intro j hj
      rcases Nat.lt_succ_iff_lt_or_eq.1 hj with h | rfl
      · exact h3 j h
      · rw [← h2, ← ha]; exact not_lt.1 hlt

theorem findMinIndex_ok (n : Nat) (hn : n ≠ 0) (F : Nat → K) :
    OkP (Vec.findMinIndex ((List.range n).map F)) (fun k =>
      k < n ∧ (∀ j, j < n → F k ≤ F j) ∧ ∀ j, j < k → F k < F j) := by
  obtain ⟨n, rfl⟩ := Nat.exists_eq_succ_of_ne_zero hn
  rw [List.range_succ_eq_map, List.map_cons]
  unfold Vec.findMinIndex
  refine okP_ok ?_
  have := minIndexLoop_spec F (((List.range n).map Nat.succ).map F) 1 (F 0) 0
    (by intro j hj; simp; congr 1; omega) (by omega) rfl
    (by intro j hj; obtain rfl : j = 0 := by omega
        exact le_refl _) (by intro j hj; omega)
  simpa [Nat.add_comm] using this

/-- What the search returns, without any assumption on the values. -/
theorem findBest_ok {A : Mat K} {n m dim : Nat} {F : Nat → Nat → K} (hA : IsMat A n m F)
    (hn : n ≠ 0) (hm : dim < m) :
    OkP (findBestDesignIndex dim A) (fun r =>
      r.1 < n ∧
      ((r.2 = true ∧ FeasibleRow F m r.1 ∧ F r.1 dim < dblMax ∧
          (∀ j, j < n → FeasibleRow F m j → F r.1 dim ≤ F j dim) ∧
          ∀ j, j < r.1 → FeasibleRow F m j → F r.1 dim < F j dim) ∨
        (r.2 = false ∧ (∀ j, j < n → FeasibleRow F m j → dblMax ≤ F j dim) ∧
          (∀ j, j < n → F r.1 dim ≤ F j dim) ∧ ∀ j, j < r.1 → F r.1 dim < F j dim))) := by
  obtain ⟨hr, hc, -, hat⟩ := id hA
  unfold findBestDesignIndex
  dsimp only
  have hp : Mat.predU32 A.ncols = m - 1 := by
    unfold Mat.predU32; rw [if_neg (by omega), hc]
  rw [hp, hr]
  refine OkP.bind (P := fun s => History.BestInv F m dim n s) ?_ ?_
  · refine forRange_inv (fun i s => History.BestInv F m dim i s) (History.bestInv_zero F m dim 0) ?_
    intro i s hi hs
    have e1 := hat i (m - 1) hi (by omega)
    have e2 := hat i dim hi hm
    by_cases hcnd : F i (m - 1) > 0 ∧ F i dim < s.2.1
    · exact ⟨_, bind_eq e1 (bind_eq e2 (if_pos hcnd)), History.bestInv_take hs hcnd.1 hcnd.2⟩
    · exact ⟨_, bind_eq e1 (bind_eq e2 (if_neg hcnd)), History.bestInv_skip hs hcnd⟩
  · rintro ⟨f, b, k⟩ hs
    cases f with
    | true =>
      obtain ⟨h1, h2, h3, h4, h5, h6⟩ := hs.2 rfl
      dsimp only at h1 h2 h3 h4 h5 h6
      exact okP_ok ⟨h1, Or.inl ⟨rfl, h2, h3 ▸ h4, h5, h6⟩⟩
    | false =>
      refine bind_okP (Mat.getCol_ok hA hm (Or.inl rfl)) ?_
      refine OkP.bind (findMinIndex_ok n hn _) ?_
      rintro k ⟨h1, h2, h3⟩
      exact okP_ok ⟨h1, Or.inr ⟨rfl, (hs.1 rfl).2, h2, h3⟩⟩

theorem normalizeVector_ok (n : Nat) (f : Nat → K) {lb ub : List K} (hl : lb.length = n)
    (hu : ub.length = n) :
    Vec.normalizeVector ((List.range n).map f) lb ub = .ok ((List.range n).map (fun i =>
      (f i - lb.getD i 0) / (ub.getD i 0 - lb.getD i 0) / (n : K))) := by
  unfold Vec.normalizeVector
  simp only [List.length_map, List.length_range]
  apply tab_ok
  intro j hj
  have hj' : j < ((List.range n).map f).length := by simpa using hj
  rw [rawAt_ok_of_lt hj', vat_ok_of_lt (by omega : j < lb.length), vat_ok_of_lt (by omega : j < ub.length)]
  simp only [List.getElem_map, List.getElem_range, List.getD_eq_getElem?_getD,
    List.getElem?_eq_getElem (by omega : j < lb.length),
    List.getElem?_eq_getElem (by omega : j < ub.length), Option.getD_some]
  rw [Except.ok.injEq]; ring

theorem setFromHistory_ok {g : GlobalDesign K} {A : Mat K} {n m : Nat} {F : Nat → Nat → K}
    (hA : IsMat A n m F) (hn : n ≠ 0) (hd : g.design.dimension ≠ 0)
    (hm : m = g.design.dimension + 1 + g.design.numberOfConstraints + 2) (hb : g.box.isSet = true)
    (hl : g.box.lb.length = g.design.dimension) (hu : g.box.ub.length = g.design.dimension) :
    OkP (g.setFromHistory A) (fun g' => g'.box = g.box ∧
      g'.design.dimension = g.design.dimension ∧
      g'.design.numberOfConstraints = g.design.numberOfConstraints ∧
      ∃ k, k < n ∧ DescribesRow g' F m k ∧
      ((g'.design.feasible = true ∧ FeasibleRow F m k ∧ F k g.design.dimension < dblMax ∧
          (∀ j, j < n → FeasibleRow F m j → F k g.design.dimension ≤ F j g.design.dimension) ∧
          ∀ j, j < k → FeasibleRow F m j → F k g.design.dimension < F j g.design.dimension) ∨
        (g'.design.feasible = false ∧
          (∀ j, j < n → FeasibleRow F m j → dblMax ≤ F j g.design.dimension) ∧
          (∀ j, j < n → F k g.design.dimension ≤ F j g.design.dimension) ∧
          ∀ j, j < k → F k g.design.dimension < F j g.design.dimension))) := by
  obtain ⟨hr, hc, -, -⟩ := id hA
  unfold setFromHistory
  rw [if_neg (by omega), if_neg (by simp [hb]), if_neg hd]
  refine OkP.bind (findBest_ok hA hn (by omega)) ?_
  rintro ⟨k, f⟩ ⟨h1, h2⟩
  dsimp only at h1 h2
  refine bind_okP (Mat.getRow_ok hA h1 (Or.inl rfl)) ?_
  unfold extract
  dsimp only
  refine bind_okP (Vec.head_eq _ (by simp; omega)) ?_
  have hv' : (List.range g.design.dimension).map (fun j => F k j) =
      ((List.range m).map (fun j => F k j)).take g.design.dimension := by
    rw [← List.map_take, List.take_range, Nat.min_eq_left (by omega)]
  have hvat : ∀ j, j < m → vat ((List.range m).map (fun j => F k j)) j = .ok (F k j) := by
    intro j hj
    rw [vat_ok_of_lt (by simpa using hj)]; simp
  refine bind_okP (hvat _ (by omega)) ?_
  have hlen : ((List.range m).map (fun j => F k j)).length = m := by simp
  rw [hlen]
  refine bind_okP (hvat _ (by omega)) ?_
  refine bind_okP (tab_ok (g := fun i => F k (i + g.design.dimension + 1))
    (fun j hj => hvat _ (by omega))) ?_
  have hv := normalizeVector_ok g.design.dimension (fun j => F k j) hl hu
  refine bind_okP (hv' ▸ hv) ?_
  refine okP_ok ⟨rfl, rfl, rfl, k, h1, ⟨rfl, ?_, rfl, ?_, rfl, rfl⟩, ?_⟩
  · dsimp only
    rw [← List.map_take, List.take_range, Nat.min_eq_left (by omega)]
  · dsimp only
    apply List.map_congr_left
    intro i _
    congr 1; omega
  · exact h2

end GlobalDesign
end Rodeo
