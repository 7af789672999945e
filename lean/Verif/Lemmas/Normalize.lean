import Verif.Lemmas.SurrogateData
import Verif.Lemmas.GradOpt
import Verif.Lemmas.MatEdit
import Verif.Lemmas.Corr

/-! # Lemmas on the normalization of the surrogate data -/

set_option linter.unusedSectionVars false

namespace Rodeo
open Spec Mat

variable {K : Type} [Field K] [LinearOrder K] [IsStrictOrderedRing K]

namespace SMData

/-- A normalized coordinate. -/
theorem zeroRange_ok {b : Bounds K} {n : Nat} (hl : b.lb.length = n) (hu : b.ub.length = n)
    (hlt : ∀ j, j < n → vecFun b.lb j < vecFun b.ub j) : zeroRange b = .ok false := by
  unfold zeroRange
  refine bind_eq (Vec.sub_eq (by omega)) ?_
  congr 1
  rw [List.any_eq_false]
  intro x hx
  obtain ⟨j, hj, rfl⟩ := List.getElem_of_mem hx
  rw [List.length_zipWith] at hj
  have hj1 : j < b.ub.length := by omega
  have hj2 : j < b.lb.length := by omega
  have := hlt j (by omega)
  simp only [vecFun, List.getD, List.getElem?_eq_getElem hj1, List.getElem?_eq_getElem hj2,
    Option.getD_some] at this
  simp only [List.getElem_zipWith, decide_eq_true_eq]
  intro h
  linarith [sub_eq_zero.1 h]

theorem scalingFactor_ok {d : SMData K} {n : Nat} (hD : d.dimension = n)
    (hl : d.box.lb.length = n) (hu : d.box.ub.length = n)
    (hlt : ∀ j, j < n → vecFun d.box.lb j < vecFun d.box.ub j) {j : Nat} (hj : j < n) :
    d.scalingFactor j = .ok ((vecFun d.box.ub j - vecFun d.box.lb j) * (n : K)) := by
  unfold scalingFactor
  refine bind_eq (vat_vecFun (by omega)) (bind_eq (vat_vecFun (by omega)) ?_)
  rw [hD, if_pos]
  have : (0 : K) < (n : K) := by exact_mod_cast (by omega : 0 < n)
  exact mul_pos (sub_pos.2 (hlt j hj)) this

/-- What `normalize` does to a consistent object. -/
theorem normalize_ok {d : SMData K} {n dim kv : Nat} {Fx Fv G : Nat → Nat → K} (hdim : 0 < dim)
    (hread : d.isRead = true) (hN : d.numberOfSamples = n) (hD : d.dimension = dim)
    (hX : IsMat d.X n dim Fx)
    (hV : 0 < d.numberOfValidationSamples → IsMat d.XValidation kv dim Fv)
    (hG : d.hasGradients = true → IsMat d.gradient n dim G)
    (hset : d.box.isSet = true) (hbd : d.box.dim = dim) (hl : d.box.lb.length = dim)
    (hu : d.box.ub.length = dim)
    (hlt : ∀ j, j < dim → vecFun d.box.lb j < vecFun d.box.ub j) :
    ∃ d', d.normalize = (d', .ok ()) ∧ d'.isNormalized = true ∧
      d'.numberOfSamples = n ∧ d'.dimension = dim ∧ d'.box = d.box ∧ d'.y = d.y ∧
      d'.yValidation = d.yValidation ∧
      d'.numberOfValidationSamples = d.numberOfValidationSamples ∧
      d'.rawData = d.rawData ∧ d'.isRead = true ∧
      IsMat d'.X n dim (fun i j =>
        1 / (dim : K) * ((Fx i j - vecFun d.box.lb j) / (vecFun d.box.ub j - vecFun d.box.lb j))) ∧
      (0 < d.numberOfValidationSamples → IsMat d'.XValidation kv dim (fun i j =>
        1 / (dim : K) * ((Fv i j - vecFun d.box.lb j) / (vecFun d.box.ub j - vecFun d.box.lb j)))) ∧
      (d.hasGradients = true → IsMat d'.gradient n dim (fun i j =>
        G i j * ((vecFun d.box.ub j - vecFun d.box.lb j) * (dim : K)))) ∧
      (d.hasDirectional = true → d'.directionalDerivatives = d.directionalDerivatives.map
        (fun x => x * ((vecFun d.box.ub 0 - vecFun d.box.lb 0) * (dim : K)))) ∧
      d'.differentiationDirections = d.differentiationDirections := by
  obtain ⟨hr, hc, -, -⟩ := id hX
  -- inputs
  obtain ⟨X', eX, hX'⟩ := normalizeMatrix_ok hX hl hu hdim hlt
  have e1 : ∃ d1, d.normalizeSampleInputMatrix = (d1, .ok ()) ∧ d1.isNormalized = true ∧
      d1.numberOfSamples = n ∧ d1.dimension = dim ∧ d1.box = d.box ∧ d1.y = d.y ∧
      d1.yValidation = d.yValidation ∧
      d1.numberOfValidationSamples = d.numberOfValidationSamples ∧
      d1.rawData = d.rawData ∧ d1.isRead = true ∧ d1.X = X' ∧
      (0 < d.numberOfValidationSamples → IsMat d1.XValidation kv dim (fun i j =>
        1 / (dim : K) * ((Fv i j - vecFun d.box.lb j) / (vecFun d.box.ub j - vecFun d.box.lb j)))) ∧
      d1.gradient = d.gradient ∧ d1.directionalDerivatives = d.directionalDerivatives ∧
      d1.differentiationDirections = d.differentiationDirections ∧
      d1.hasGradients = d.hasGradients ∧ d1.hasDirectional = d.hasDirectional := by
    unfold normalizeSampleInputMatrix
    rw [if_neg (by omega), if_neg (by omega), if_neg (by omega), if_neg (by simp [hset])]
    by_cases hk : 0 < d.numberOfValidationSamples
    · obtain ⟨V', eV, hV'⟩ := normalizeMatrix_ok (hV hk) hl hu hdim hlt
      refine ⟨{ d with X := X', XValidation := V', isNormalized := true }, ?_, rfl, hN, hD, rfl, rfl, rfl, rfl, rfl,
        hread, rfl, fun _ => hV', rfl, rfl, rfl, rfl, rfl⟩
      refine andThen_commit (s' := { d with X := X' })
        (bind_eq (zeroRange_ok hl hu hlt) (bind_eq eX rfl)) ?_
      refine andThen_commit (s' := { d with X := X', XValidation := V' }) ?_ rfl
      unfold normalizeValidation
      exact (if_pos hk).trans (bind_eq eV rfl)
    · refine ⟨{ d with X := X', isNormalized := true }, ?_, rfl, hN, hD, rfl, rfl, rfl, rfl, rfl,
        hread, rfl, fun h => absurd h hk, rfl, rfl, rfl, rfl, rfl⟩
      refine andThen_commit (s' := { d with X := X' })
        (bind_eq (zeroRange_ok hl hu hlt) (bind_eq eX rfl)) ?_
      refine andThen_commit (s' := { d with X := X' }) ?_ rfl
      unfold normalizeValidation
      exact if_neg hk
  obtain ⟨d1, e1, a1, a2, a3, a4, a5, a6, a7, a8, a9, a10, a11, a12, a13, a14, a15, a16⟩ := e1
  -- directional derivatives
  have e2 : ∃ d2, d1.normalizeDerivativesMatrix = .ok d2 ∧
      { d2 with directionalDerivatives := d1.directionalDerivatives } = d1 ∧
      (d.hasDirectional = true → d2.directionalDerivatives = d.directionalDerivatives.map
        (fun x => x * ((vecFun d.box.ub 0 - vecFun d.box.lb 0) * (dim : K)))) := by
    unfold normalizeDerivativesMatrix
    by_cases hd : d.hasDirectional = true
    · rw [if_pos (a16.trans hd), if_neg (by simp [a9, a4, hset])]
      have := scalingFactor_ok (d := d1) (j := 0) a3 (by rw [a4]; exact hl) (by rw [a4]; exact hu)
        (by rw [a4]; exact hlt) hdim
      rw [a4] at this
      exact ⟨_, bind_eq this rfl, rfl, fun _ => by rw [a13]⟩
    · rw [if_neg (by rw [a16]; exact hd)]
      exact ⟨d1, rfl, rfl, fun h => absurd h hd⟩
  obtain ⟨d2, e2, b1, b2⟩ := e2
  have c3 : d2.dimension = dim := by rw [← a3, ← b1]
  have c4 : d2.box = d.box := by rw [← a4, ← b1]
  have c9 : d2.isRead = true := by rw [← a9, ← b1]
  have c12 : d2.gradient = d.gradient := by rw [← a12, ← b1]
  have c15 : d2.hasGradients = d.hasGradients := by rw [← a15, ← b1]
  -- gradients
  have e3 : ∃ d3, d2.normalizeGradientsIfAny = .ok d3 ∧
      { d3 with gradient := d2.gradient, gradientRaw := d2.gradientRaw } = d2 ∧
      (d.hasGradients = true → IsMat d3.gradient n dim (fun i j =>
        G i j * ((vecFun d.box.ub j - vecFun d.box.lb j) * (dim : K)))) := by
    unfold normalizeGradientsIfAny
    by_cases hg : d.hasGradients = true
    · rw [if_pos (c15.trans hg)]
      have hG' := hG hg
      have hg2 : IsMat d2.gradient n dim G := by rw [c12]; exact hG'
      unfold normalizeGradientMatrix
      rw [if_neg (by
        have := hg2.2.1
        rw [c9, c4, c3, hset]
        simp; omega)]
      obtain ⟨G', eG, hG''⟩ : OkP (forRange d2.dimension (fun i G => do
          let f ← d2.scalingFactor i
          let c ← Mat.getCol G (i : Nat)
          Mat.setCol G (c.map fun x => x * f) i) d2.gradient) (fun B => IsMat B n dim (fun i j =>
          if j < dim then G i j * ((vecFun d.box.ub j - vecFun d.box.lb j) * (dim : K))
          else G i j)) := by
        rw [c3]
        refine okP_for (fun p B => IsMat B n dim (fun i j =>
          if j < p then G i j * ((vecFun d.box.ub j - vecFun d.box.lb j) * (dim : K))
          else G i j)) (hg2.congr (fun i j hi hj => by simp)) ?_
        intro p B hp hB
        have hs := scalingFactor_ok (d := d2) (j := p) c3 (by rw [c4]; exact hl)
          (by rw [c4]; exact hu) (by rw [c4]; exact hlt) hp
        rw [c4] at hs
        refine bind_okP hs (bind_okP (getCol_ok hB hp (Or.inl rfl)) ?_)
        refine (setCol_ok hB (by simp) hp).mono fun C hC => hC.congr fun i j hi hj => ?_
        beta_reduce
        by_cases hjp : j = p
        · subst hjp
          rw [if_pos rfl, if_pos (by omega)]
          simp [vecFun, List.getD, hi]
        · rw [if_neg hjp]
          by_cases hlt' : j < p
          · rw [if_pos hlt', if_pos (by omega)]
          · rw [if_neg hlt', if_neg (by omega)]
      exact ⟨_, bind_eq eG rfl, rfl, fun _ => hG''.congr fun i j hi hj => by
        beta_reduce; rw [if_pos hj]⟩
    · rw [if_neg (by rw [c15]; exact hg)]
      exact ⟨d2, rfl, rfl, fun h => absurd h hg⟩
  obtain ⟨d3, e3, g1, g2⟩ := e3
  refine ⟨{ d3 with isNormalized := true }, ?_, rfl, ?_, ?_, ?_, ?_, ?_, ?_, ?_, ?_, ?_, ?_, ?_,
    ?_, ?_⟩
  · unfold normalize
    rw [if_neg (by simp [hread, hset])]
    exact andThen_ok e1 (andThen_commit e2 (andThen_commit e3 rfl))
  · show d3.numberOfSamples = n
    rw [← a2, ← b1, ← g1]
  · show d3.dimension = dim
    rw [← a3, ← b1, ← g1]
  · show d3.box = _
    rw [← a4, ← b1, ← g1]
  · show d3.y = _
    rw [← a5, ← b1, ← g1]
  · show d3.yValidation = _
    rw [← a6, ← b1, ← g1]
  · show d3.numberOfValidationSamples = _
    rw [← a7, ← b1, ← g1]
  · show d3.rawData = _
    rw [← a8, ← b1, ← g1]
  · show d3.isRead = _
    rw [← a9, ← b1, ← g1]
  · show IsMat d3.X _ _ _
    have : d3.X = d1.X := by rw [← b1, ← g1]
    rw [this, a10]; exact hX'
  · intro h
    show IsMat d3.XValidation _ _ _
    have : d3.XValidation = d1.XValidation := by rw [← b1, ← g1]
    rw [this]; exact a11 h
  · exact g2
  · intro h
    show d3.directionalDerivatives = _
    have : d3.directionalDerivatives = d2.directionalDerivatives := by rw [← g1]
    rw [this]; exact b2 h
  · show d3.differentiationDirections = _
    rw [← a14, ← b1, ← g1]

end SMData
end Rodeo
