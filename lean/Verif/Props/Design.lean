import Verif.Lemmas.History
import Verif.Spec.Design

set_option linter.unusedSectionVars false

/-! # Samples built from a design (C59) -/

namespace Rodeo

open Spec

variable {K : Type} [Field K] [LinearOrder K] [IsStrictOrderedRing K]

namespace Design

theorem startSample_ok {d : Design K} (h : d.params.length = d.dimension) (r : Nat) (v : K) :
    d.startSample (d.dimension + 1 + r) v = .ok (d.params ++ v :: List.replicate r 0) := by
  unfold startSample
  refine bind_eq (Vec.copyVector_eq _ _ 0 (by simp) rfl) ?_
  have : List.take 0 (List.replicate (d.dimension + 1 + r) (0 : K)) ++
      d.params.take ((List.replicate (d.dimension + 1 + r) (0 : K)).length - 0) ++
      List.drop (0 + d.params.length) (List.replicate (d.dimension + 1 + r) (0 : K)) =
        d.params ++ 0 :: List.replicate r 0 := by
    rw [List.take_of_length_le (l := d.params) (by simp; omega)]
    simp only [List.take_zero, List.nil_append, List.drop_replicate]
    rw [show d.dimension + 1 + r - (0 + d.params.length) = r + 1 by omega]
    rfl
  rw [this]
  exact Vec.put_mid h.symm

theorem fillSample_ok {d : Design K} {a w : List K} {start : Nat} (hs : start = a.length)
    (hw : w.length = d.dimension) :
    d.fillSample start w (a ++ List.replicate d.dimension 0) = .ok (a ++ w) := by
  unfold fillSample
  have := fill_mid (a := a) (c := List.replicate d.dimension 0) (b := []) (w := w) (k := d.dimension)
    (fun i => start + i) (fun i _ => by rw [hs]) (by simp) (by omega)
  rw [List.append_nil, List.append_nil, ← hw, List.take_length] at this
  rw [← hw]
  exact this

theorem gradientSample {d : Design K} (h : d.params.length = d.dimension) (v : K) {w : List K}
    (hw : w.length = d.dimension) :
    (do
      let s ← d.startSample (2 * d.dimension + 1) v
      d.fillSample (d.dimension + 1) w s) = .ok (d.params ++ [v] ++ w) := by
  rw [show 2 * d.dimension + 1 = d.dimension + 1 + d.dimension by omega]
  refine bind_eq (startSample_ok h _ v) ?_
  have := fillSample_ok (d := d) (a := d.params ++ [v]) (w := w) (start := d.dimension + 1)
    (by simp [h]) hw
  simpa using this

theorem tangentSample {d : Design K} (h : d.params.length = d.dimension) (v t : K) {w : List K}
    (hw : w.length = d.dimension) :
    (do
      let s ← d.startSample (2 * d.dimension + 2) v
      let s1 ← Vec.put s (d.dimension + 1) t
      d.fillSample (d.dimension + 2) w s1) = .ok (d.params ++ [v, t] ++ w) := by
  rw [show 2 * d.dimension + 2 = d.dimension + 1 + (d.dimension + 1) by omega]
  refine bind_eq (startSample_ok h _ v) ?_
  have e : d.params ++ v :: List.replicate (d.dimension + 1) (0 : K) =
      (d.params ++ [v]) ++ 0 :: List.replicate d.dimension 0 := by
    simp [List.replicate_succ]
  rw [e]
  refine bind_eq (Vec.put_mid (by simp [h])) ?_
  have := fillSample_ok (d := d) (a := d.params ++ [v, t]) (w := w) (start := d.dimension + 2)
    (by simp [h]) hw
  simpa using this

theorem row_ok {A : Mat K} {n m : Nat} (h : A.nrows = n ∧ A.ncols = m ∧ A.buf.length = n * m) {c : Nat}
    (hc : c < n) : Mat.getRow A (c : Int) = .ok (rowList A c) := by
  have hA : IsMat A n m (fun i j => A.buf.getD (j * A.nrows + i) 0) := by
    refine Mat.isMat_iff.2 ⟨h.1, h.2.1, h.2.2, ?_⟩
    intro i j hi hj
    have := colmajor_lt hi hj
    rw [h.1, List.getD_eq_getElem?_getD, List.getElem?_eq_getElem (by rw [h.2.2]; exact this)]
    simp
  have := Mat.getRow_ok hA hc (Or.inl rfl)
  rw [this]
  unfold rowList
  rw [h.2.1]

theorem rowList_length (A : Mat K) (c : Nat) : (rowList A c).length = A.ncols := by simp [rowList]

end Design

/-- **C59** as stated: for every well-sized design, target, fidelity and kind of data. -/
def C59_full (K : Type) [Field K] [LinearOrder K] [IsStrictOrderedRing K] : Prop :=
  ∀ (d : Design K) (t : Target) (f : Fidelity) (k : DataKind), WellSized d → TargetExists d t →
    buildSample d t f k = .ok (sampleSpec d t f k)

/-- C59 for everything but high fidelity constraint data with tangents, where the constraint must
have the number of the design.  Missing: the other constraints (`C59_wrong_direction`). -/
theorem C59_partial {d : Design K} (hd : WellSized d) (t : Target) (ht : TargetExists d t) (f : Fidelity)
    (k : DataKind)
    (hk : ∀ c, t = .constraint c → f = .high → k = .tangent → d.id = (c : Int)) :
    buildSample d t f k = .ok (sampleSpec d t f k) := by
  obtain ⟨h0, h1, h2, h3, h4, h5, h6, h7, h8, h9⟩ := hd
  have v0 : ∀ v : K, d.startSample (d.dimension + 1) v = .ok (d.params ++ [v]) := fun v => by
    simpa using Design.startSample_ok h1 0 v
  have ne : ∀ {a b : Nat}, a = b → ¬ a ≠ b := fun h => by simp [h]
  have hv : ∀ {l : List K} {c : Nat}, c < l.length → vat l c = .ok (l.getD c 0) := by
    intro l c hc
    rw [vat_ok_of_lt hc, List.getD_eq_getElem?_getD, List.getElem?_eq_getElem hc]; rfl
  have g1 := h9 d.gradientsMatrix (by simp)
  have g2 := h9 d.gradientsMatrixLowFi (by simp)
  have g3 := h9 d.directionsMatrix (by simp)
  have g4 := h9 d.directionsMatrixLowFi (by simp)
  cases t with
  | objective =>
    cases f <;> cases k
    · exact v0 _
    · exact (if_neg (ne h2)).trans (Design.gradientSample h1 _ h2)
    · exact (if_neg (ne h4)).trans (Design.tangentSample h1 _ _ h4)
    · exact v0 _
    · exact (if_neg (ne h3)).trans (Design.gradientSample h1 _ h3)
    · exact (if_neg (ne h4)).trans (Design.tangentSample h1 _ _ h4)
  | constraint c =>
    have hc : c < d.numberOfConstraints := ht
    have hc' : ¬ c ≥ d.numberOfConstraints := by omega
    cases f <;> cases k
    · exact (if_neg hc').trans ((if_neg (ne h5)).trans (bind_eq (hv (by omega)) (v0 _)))
    · refine (if_neg hc').trans ((if_neg (ne h5)).trans (bind_eq (hv (by omega)) ?_))
      rw [Design.row_ok g1 hc]
      exact Design.gradientSample h1 _ (by rw [Design.rowList_length]; exact g1.2.1)
    · refine (if_neg hc').trans ((if_neg (ne h5)).trans ((if_neg (ne g3.1)).trans
        ((if_neg (ne h7)).trans (bind_eq (hv (by omega)) ?_))))
      rw [hk c rfl rfl rfl, Design.row_ok g3 hc, hv (l := d.constraintTangent) (by omega)]
      exact Design.tangentSample h1 _ _ (by rw [Design.rowList_length]; exact g3.2.1)
    · exact (if_neg hc').trans ((if_neg (ne h6)).trans (bind_eq (hv (by omega)) (v0 _)))
    · refine (if_neg hc').trans ((if_neg (ne h6)).trans (bind_eq (hv (by omega)) ?_))
      rw [Design.row_ok g2 hc]
      exact Design.gradientSample h1 _ (by rw [Design.rowList_length]; exact g2.2.1)
    · refine (if_neg hc').trans ((if_neg (ne h6)).trans ((if_neg (ne g4.1)).trans
        ((if_neg (ne h8)).trans (bind_eq (hv (by omega)) ?_))))
      rw [Design.row_ok g4 hc, hv (l := d.constraintTangentLowFi) (by omega)]
      exact Design.tangentSample h1 _ _ (by rw [Design.rowList_length]; exact g4.2.1)

/-- The sample for tangent data of constraint `c` carries the direction that belongs to the number
of the design, for every design; if that number is no constraint, the call throws. -/
theorem C59_wrong_direction {d : Design K} (hd : WellSized d) {c : Nat} (hc : c < d.numberOfConstraints)
    {k : Nat} (hk : d.id = (k : Int)) :
    if k < d.numberOfConstraints then
      d.sampleConstraintTangent c = .ok (d.params ++
        [d.constraintTrueValues.getD c 0, d.constraintTangent.getD c 0] ++ rowList d.directionsMatrix k)
    else ∃ e, d.sampleConstraintTangent c = .error e := by
  obtain ⟨h0, h1, h2, h3, h4, h5, h6, h7, h8, h9⟩ := hd
  have g3 := h9 d.directionsMatrix (by simp)
  have ne : ∀ {a b : Nat}, a = b → ¬ a ≠ b := fun h => by simp [h]
  have hv : ∀ {l : List K} {c : Nat}, c < l.length → vat l c = .ok (l.getD c 0) := by
    intro l c hc
    rw [vat_ok_of_lt hc, List.getD_eq_getElem?_getD, List.getElem?_eq_getElem hc]; rfl
  have hc' : ¬ c ≥ d.numberOfConstraints := by omega
  split_ifs with hkn
  · refine (if_neg hc').trans ((if_neg (ne h5)).trans ((if_neg (ne g3.1)).trans
        ((if_neg (ne h7)).trans (bind_eq (hv (by omega)) ?_))))
    rw [hk, Design.row_ok g3 hkn, hv (l := d.constraintTangent) (by omega)]
    exact Design.tangentSample h1 _ _ (by rw [Design.rowList_length]; exact g3.2.1)
  · have hrow : ∃ e, Mat.getRow d.directionsMatrix d.id = .error e := by
      rw [hk]
      unfold Mat.getRow
      exact ⟨_, if_pos (by omega)⟩
    obtain ⟨e, he⟩ := hrow
    refine ⟨e, (if_neg hc').trans ((if_neg (ne h5)).trans ((if_neg (ne g3.1)).trans
        ((if_neg (ne h7)).trans (bind_eq (hv (by omega)) ?_))))⟩
    rw [hv (l := d.constraintTangent) (by omega), he]
    rw [show 2 * d.dimension + 2 = d.dimension + 1 + (d.dimension + 1) by omega]
    refine bind_eq (Design.startSample_ok h1 _ _) (bind_eq rfl ?_)
    exact bind_eq (Vec.put_eq (by simp [h1])) rfl

namespace DesignDemo

/-- One dimension, two constraints, directions 5 and 6. -/
def d : Design ℚ := { (Design.ofVec [7] : Design ℚ) with
  numberOfConstraints := 2, tangentDirection := [1], trueValue := 2, gradient := [3],
  constraintTrueValues := [1, 2], constraintTrueValuesLowFi := [3, 4], constraintTangent := [8, 9],
  constraintTangentLowFi := [10, 11], gradientsMatrix := ⟨2, 1, [1, 2]⟩,
  gradientsMatrixLowFi := ⟨2, 1, [3, 4]⟩, directionsMatrix := ⟨2, 1, [5, 6]⟩,
  directionsMatrixLowFi := ⟨2, 1, [7, 8]⟩ }

theorem wellSized : WellSized d := by
  refine ⟨by decide, rfl, rfl, rfl, rfl, rfl, rfl, rfl, rfl, ?_⟩
  intro A hA
  simp only [List.mem_cons, List.not_mem_nil, or_false] at hA
  rcases hA with rfl | rfl | rfl | rfl <;> exact ⟨rfl, rfl, rfl⟩

/-- C59 on a design with gradients, two constraints and tangents. -/
example : WellSized d ∧ TargetExists d (.constraint 1) ∧
    buildSample d .objective .high .gradient = .ok [7, 2, 3] ∧
    buildSample d (.constraint 1) .low .tangent = .ok [7, 4, 11, 8] ∧
    buildSample d (.constraint 0) .high .tangent = .ok [7, 1, 8, 5] :=
  ⟨wellSized, by simp [TargetExists, d], by decide +kernel, by decide +kernel, by decide +kernel⟩

end DesignDemo

/-- The high fidelity tangent sample of constraint 1 of design 0 has the direction of constraint 0. -/
theorem C59_false : ¬ C59_full ℚ := by
  intro h
  have := h DesignDemo.d (.constraint 1) .high .tangent DesignDemo.wellSized (by simp [TargetExists, DesignDemo.d])
  revert this
  decide +kernel

end Rodeo
