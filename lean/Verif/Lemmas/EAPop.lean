import Verif.Lemmas.Post
import Verif.Model.EAPop
import Verif.Props.Vec
import Verif.Props.Solve
import Mathlib.Algebra.Order.BigOperators.Group.List
import Mathlib.Tactic.FieldSimp

/-! # Lemmas about evolutionary populations -/

set_option linter.unusedSectionVars false

namespace Rodeo
open Spec

variable {K : Type} [Field K] [LinearOrder K] [IsStrictOrderedRing K]

namespace Pop

/-! ## Roulette -/

theorem roulette_post {prob : Indiv K → K} {u : K} :
    ∀ (l : List (Indiv K)) (acc : K), acc ≤ u →
      Post (roulette prob u acc l) (fun x => x ∈ l ∧ 0 < prob x) := by
  intro l
  induction l with
  | nil => intro acc _; exact Post.error
  | cons x l ih =>
    intro acc hacc
    simp only [roulette]
    split_ifs with h
    · exact Post.ok ⟨by simp, by linarith⟩
    · exact (ih _ (not_lt.1 h)).mono (fun y hy => ⟨by simp [hy.1], hy.2⟩)

theorem roulette_ok {prob : Indiv K → K} {u : K} :
    ∀ (l : List (Indiv K)) (acc : K), u < acc + (l.map prob).sum → acc ≤ u →
      ∃ x, roulette prob u acc l = .ok x := by
  intro l
  induction l with
  | nil => intro acc h h2; simp at h; exact absurd h (not_lt.2 h2)
  | cons x l ih =>
    intro acc h h2
    simp only [roulette]
    split_ifs with hx
    · exact ⟨x, rfl⟩
    · refine ih _ ?_ (not_lt.1 hx)
      simp only [List.map_cons, List.sum_cons] at h
      linarith

/-- Every member with positive probability is selected by some draw. -/
theorem roulette_reach {prob : Indiv K → K} {l : List (Indiv K)} (hn : ∀ x ∈ l, 0 ≤ prob x)
    {x : Indiv K} (hx : x ∈ l) (hp : 0 < prob x) (acc : K) :
    ∃ u, acc ≤ u ∧ u < acc + (l.map prob).sum ∧ roulette prob u acc l = .ok x := by
  induction l generalizing acc with
  | nil => simp at hx
  | cons y l ih =>
    have hs : 0 ≤ (l.map prob).sum := by
      apply List.sum_nonneg
      intro a ha
      obtain ⟨z, hz, rfl⟩ := List.mem_map.1 ha
      exact hn z (by simp [hz])
    rcases List.mem_cons.1 hx with rfl | hx
    · refine ⟨acc, le_rfl, ?_, ?_⟩
      · simp only [List.map_cons, List.sum_cons]; linarith
      · simp only [roulette]; rw [if_pos (by linarith)]
    · obtain ⟨u, h1, h2, h3⟩ := ih (fun z hz => hn z (by simp [hz])) hx (acc + prob y)
      have hy := hn y (by simp)
      refine ⟨u, by linarith, by simp only [List.map_cons, List.sum_cons]; linarith, ?_⟩
      simp only [roulette]
      rw [if_neg (not_lt.2 h1)]
      exact h3

/-! ## Minimum and maximum -/

theorem updateMinMaxIf_inds (p : Pop K) (J : K) (id : Nat) :
    (p.updateMinMaxIf J id).inds = p.inds ∧ (p.updateMinMaxIf J id).dim = p.dim := by
  unfold updateMinMaxIf; dsimp only; split_ifs <;> exact ⟨rfl, rfl⟩

theorem updateMinMaxIf_vals (p : Pop K) (J : K) (id : Nat) :
    (p.updateMinMaxIf J id).pmin = min p.pmin J ∧ (p.updateMinMaxIf J id).pmax = max p.pmax J ∧
    (p.updateMinMaxIf J id).idMin = (if J < p.pmin then id else p.idMin) ∧
    (p.updateMinMaxIf J id).idMax = (if J > p.pmax then id else p.idMax) := by
  unfold updateMinMaxIf; dsimp only
  by_cases h1 : J > p.pmax <;> by_cases h2 : J < p.pmin
  · simp [h1, h2, min_eq_right h2.le, max_eq_right h1.le]
  · simp [h1, h2, min_eq_left (not_lt.1 h2), max_eq_right h1.le]
  · simp [h1, h2, min_eq_right h2.le, max_eq_left (not_lt.1 h1)]
  · simp [h1, h2, min_eq_left (not_lt.1 h2), max_eq_left (not_lt.1 h1)]

/-- `pmin` and `idMin` describe a minimum of the values seen, starting from a bound `m0`. -/
structure MinMax (m0 M0 : K) (q : Pop K) (l : List (Indiv K)) : Prop where
  minLe : q.pmin ≤ m0 ∧ ∀ x ∈ l, q.pmin ≤ x.obj
  minAt : (∃ x ∈ l, x.obj < m0) → ∃ x ∈ l, x.obj = q.pmin ∧ x.id = q.idMin
  minEq : q.pmin = m0 ∨ ∃ x ∈ l, x.obj = q.pmin
  maxGe : M0 ≤ q.pmax ∧ ∀ x ∈ l, x.obj ≤ q.pmax
  maxAt : (∃ x ∈ l, M0 < x.obj) → ∃ x ∈ l, x.obj = q.pmax ∧ x.id = q.idMax
  maxEq : q.pmax = M0 ∨ ∃ x ∈ l, x.obj = q.pmax

theorem MinMax.start (q : Pop K) : MinMax q.pmin q.pmax q [] :=
  ⟨⟨le_rfl, by simp⟩, by simp, Or.inl rfl, ⟨le_rfl, by simp⟩, by simp, Or.inl rfl⟩

theorem MinMax.snoc {m0 M0 : K} {q : Pop K} {l : List (Indiv K)} (h : MinMax m0 M0 q l)
    (x : Indiv K) : MinMax m0 M0 (q.updateMinMaxIf x.obj x.id) (l ++ [x]) := by
  obtain ⟨e1, e2, e3, e4⟩ := updateMinMaxIf_vals q x.obj x.id
  refine ⟨?_, ?_, ?_, ?_, ?_, ?_⟩
  · rw [e1]
    refine ⟨(min_le_left _ _).trans h.minLe.1, ?_⟩
    intro y hy
    rcases List.mem_append.1 hy with hy | hy
    · exact (min_le_left _ _).trans (h.minLe.2 y hy)
    · rw [List.mem_singleton.1 hy]; exact min_le_right _ _
  · rintro ⟨y, hy, hlt⟩
    rw [e1, e3]
    by_cases hx : x.obj < q.pmin
    · exact ⟨x, by simp, by rw [min_eq_right hx.le], by rw [if_pos hx]⟩
    · rcases List.mem_append.1 hy with hy | hy
      · obtain ⟨z, hz, h1, h2⟩ := h.minAt ⟨y, hy, hlt⟩
        exact ⟨z, by simp [hz], by rw [h1, min_eq_left (not_lt.1 hx)], by rw [if_neg hx, h2]⟩
      · rw [List.mem_singleton.1 hy] at hlt
        have : q.pmin ≠ m0 := fun e => hx (by rw [e]; exact hlt)
        obtain ⟨w, hw, hw'⟩ := h.minEq.resolve_left this
        obtain ⟨z, hz, h1, h2⟩ := h.minAt ⟨w, hw, by
          rw [hw']; exact lt_of_le_of_ne h.minLe.1 this⟩
        exact ⟨z, by simp [hz], by rw [h1, min_eq_left (not_lt.1 hx)], by rw [if_neg hx, h2]⟩
  · rw [e1]
    rcases le_total q.pmin x.obj with hx | hx
    · rw [min_eq_left hx]
      rcases h.minEq with h' | ⟨w, hw, hw'⟩
      · exact Or.inl h'
      · exact Or.inr ⟨w, by simp [hw], hw'⟩
    · rw [min_eq_right hx]; exact Or.inr ⟨x, by simp, rfl⟩
  · rw [e2]
    refine ⟨h.maxGe.1.trans (le_max_left _ _), ?_⟩
    intro y hy
    rcases List.mem_append.1 hy with hy | hy
    · exact (h.maxGe.2 y hy).trans (le_max_left _ _)
    · rw [List.mem_singleton.1 hy]; exact le_max_right _ _
  · rintro ⟨y, hy, hlt⟩
    rw [e2, e4]
    by_cases hx : x.obj > q.pmax
    · exact ⟨x, by simp, by rw [max_eq_right hx.le], by rw [if_pos hx]⟩
    · rcases List.mem_append.1 hy with hy | hy
      · obtain ⟨z, hz, h1, h2⟩ := h.maxAt ⟨y, hy, hlt⟩
        exact ⟨z, by simp [hz], by rw [h1, max_eq_left (not_lt.1 hx)], by rw [if_neg hx, h2]⟩
      · rw [List.mem_singleton.1 hy] at hlt
        have : q.pmax ≠ M0 := fun e => hx (by rw [e]; exact hlt)
        obtain ⟨w, hw, hw'⟩ := h.maxEq.resolve_left this
        obtain ⟨z, hz, h1, h2⟩ := h.maxAt ⟨w, hw, by
          rw [hw']; exact lt_of_le_of_ne h.maxGe.1 (Ne.symm this)⟩
        exact ⟨z, by simp [hz], by rw [h1, max_eq_left (not_lt.1 hx)], by rw [if_neg hx, h2]⟩
  · rw [e2]
    rcases le_total x.obj q.pmax with hx | hx
    · rw [max_eq_left hx]
      rcases h.maxEq with h' | ⟨w, hw, hw'⟩
      · exact Or.inl h'
      · exact Or.inr ⟨w, by simp [hw], hw'⟩
    · rw [max_eq_right hx]; exact Or.inr ⟨x, by simp, rfl⟩

theorem foldl_minMax {m0 M0 : K} : ∀ (l pre : List (Indiv K)) (q : Pop K), MinMax m0 M0 q pre →
    MinMax m0 M0 (l.foldl (fun q x => q.updateMinMaxIf x.obj x.id) q) (pre ++ l) ∧
    (l.foldl (fun q x => q.updateMinMaxIf x.obj x.id) q).inds = q.inds ∧
    (l.foldl (fun q x => q.updateMinMaxIf x.obj x.id) q).dim = q.dim := by
  intro l
  induction l with
  | nil => intro pre q h; simpa using h
  | cons x l ih =>
    intro pre q h
    have := ih (pre ++ [x]) _ (h.snoc x)
    rw [List.append_assoc] at this
    obtain ⟨h1, h2, h3⟩ := this
    obtain ⟨e1, e2⟩ := updateMinMaxIf_inds q x.obj x.id
    exact ⟨h1, h2.trans e1, h3.trans e2⟩

theorem updateMinMax_spec (p : Pop K) :
    MinMax dblMax dblMin p.updateMinMax p.inds ∧ p.updateMinMax.inds = p.inds ∧
    p.updateMinMax.dim = p.dim := by
  have := foldl_minMax (m0 := dblMax) (M0 := dblMin) p.inds []
    { p with pmax := dblMin, pmin := dblMax }
    (MinMax.start { p with pmax := dblMin, pmin := dblMax })
  simpa [updateMinMax] using this

theorem addGroup_spec {p : Pop K} {xs : List (Indiv K)} :
    Post (p.addGroup xs) (fun q => q.inds = p.inds ++ xs ∧ q.dim = p.dim ∧
      MinMax p.pmin p.pmax q xs) := by
  unfold addGroup
  refine foldRes_post (fun pre q => q.inds = p.inds ++ pre ∧ q.dim = p.dim ∧
    MinMax p.pmin p.pmax q pre) ⟨by simp, rfl, MinMax.start p⟩ ?_
  rintro pre x q - ⟨h1, h2, h3⟩
  unfold addIndividual
  split_ifs with h
  · exact Post.error
  · obtain ⟨e1, e2⟩ := updateMinMaxIf_inds { q with inds := q.inds ++ [x] } x.obj x.id
    refine Post.ok ⟨?_, ?_, ?_⟩
    · rw [e1]; simp [h1]
    · rw [e2]; exact h2
    · have h4 : MinMax p.pmin p.pmax ({ q with inds := q.inds ++ [x] } : Pop K) pre :=
        ⟨h3.minLe, h3.minAt, h3.minEq, h3.maxGe, h3.maxAt, h3.maxEq⟩
      exact h4.snoc x

theorem addGroup_ok {p : Pop K} {xs : List (Indiv K)} (h : ∀ x ∈ xs, x.dim = p.dim) :
    ∃ q, p.addGroup xs = .ok q := by
  unfold addGroup
  induction xs generalizing p with
  | nil => exact ⟨p, rfl⟩
  | cons x xs ih =>
    simp only [foldRes, addIndividual]
    rw [if_neg (by simp [h x (by simp)])]
    apply ih
    intro y hy
    rw [(updateMinMaxIf_inds _ x.obj x.id).2]
    exact h y (by simp [hy])

/-! ## Look-up by ID -/

theorem orderById_some {id : Nat} {l : List (Indiv K)} {k : Nat} (h : orderById id l = some k) :
    ∃ x, l[k]? = some x ∧ x.id = id ∧ ∀ j, j < k → ∀ y, l[j]? = some y → y.id ≠ id := by
  induction l generalizing k with
  | nil => simp [orderById] at h
  | cons x l ih =>
    simp only [orderById] at h
    split_ifs at h with hx
    · cases h
      exact ⟨x, rfl, hx.symm, by intro j hj; omega⟩
    · cases hl : orderById id l with
      | none => rw [hl] at h; simp at h
      | some j =>
        rw [hl] at h
        simp only [Option.map_some, Option.some.injEq] at h
        subst h
        obtain ⟨y, h1, h2, h3⟩ := ih hl
        refine ⟨y, by simpa using h1, h2, ?_⟩
        intro i hi z hz
        cases i with
        | zero => simp at hz; subst hz; exact fun e => hx e.symm
        | succ i => exact h3 i (by omega) z (by simpa using hz)

theorem orderById_mem {id : Nat} {l : List (Indiv K)} (h : ∃ x ∈ l, x.id = id) :
    ∃ k, orderById id l = some k := by
  induction l with
  | nil => simp at h
  | cons x l ih =>
    simp only [orderById]
    split_ifs with hx
    · exact ⟨0, rfl⟩
    · obtain ⟨y, hy, hid⟩ := h
      rcases List.mem_cons.1 hy with rfl | hy
      · exact absurd hid.symm hx
      · obtain ⟨k, hk⟩ := ih ⟨y, hy, hid⟩
        exact ⟨k + 1, by rw [hk]; rfl⟩

theorem getIndividual_ok {p : Pop K} {id : Nat} (h : ∃ x ∈ p.inds, x.id = id) :
    ∃ x ∈ p.inds, p.getIndividual id = .ok x ∧ x.id = id := by
  obtain ⟨k, hk⟩ := orderById_mem h
  obtain ⟨x, h1, h2, -⟩ := orderById_some hk
  refine ⟨x, List.mem_of_getElem? h1, ?_, h2⟩
  unfold getIndividual
  rw [hk]
  simp [vat, h1]

/-- If the ID occurs once, look-up finds its owner. -/
theorem unique_of_count {l : List (Indiv K)} {id : Nat} (h : (l.map (·.id)).count id ≤ 1)
    {x y : Indiv K} (hx : x ∈ l) (hy : y ∈ l) (hxi : x.id = id) (hyi : y.id = id) : x = y := by
  induction l with
  | nil => simp at hx
  | cons z l ih =>
    rw [List.map_cons, List.count_cons] at h
    have hmem : ∀ w ∈ l, w.id = id → 1 ≤ (l.map (·.id)).count id := by
      intro w hw hwi
      exact List.count_pos_iff.2 (List.mem_map.2 ⟨w, hw, hwi⟩)
    rcases List.mem_cons.1 hx with rfl | hx' <;> rcases List.mem_cons.1 hy with rfl | hy'
    · rfl
    · have := hmem y hy' hyi; simp [hxi] at h; omega
    · have := hmem x hx' hxi; simp [hyi] at h; omega
    · exact ih (by omega) hx' hy'

/-! ## Fitness and probabilities -/

/-- The quadratic of `coefficients`: 1 at `m`, 0.01 at `M`, with vertex at `M`. -/
def quad (m M J : K) : K := 1 / 100 + 99 / 100 * ((M - J) / (M - m)) ^ 2

theorem quad_pos (m M J : K) : 0 < quad m M J := by
  unfold quad; positivity

/-- The matrix of `coefficients`. -/
def fitF (m M : K) (i j : Nat) : K :=
  ([m * m, M * M, 2 * M, m, M, 1, 1, 1, 0] : List K).getD (j * 3 + i) 0

theorem fitMat_isMat (m M : K) :
    IsMat (⟨3, 3, [m * m, M * M, 2 * M, m, M, 1, 1, 1, 0]⟩ : Mat K) 3 3 (fitF m M) := by
  refine Mat.isMat_iff.2 ⟨rfl, rfl, rfl, ?_⟩
  intro i j hi hj
  have h1 : i = 0 ∨ i = 1 ∨ i = 2 := by omega
  have h2 : j = 0 ∨ j = 1 ∨ j = 2 := by omega
  rcases h1 with rfl | rfl | rfl <;> rcases h2 with rfl | rfl | rfl <;> rfl

theorem fit_det (m M : K) : (toMatrix 3 (fitF m M)).det = -(M - m) ^ 2 := by
  rw [Matrix.det_fin_three]
  simp [toMatrix, fitF]
  ring

/-- If the coefficients are computed, they are those of `quad`. -/
theorem coefficients_post (p : Pop K) :
    Post p.coefficients (fun c => p.pmin ≠ p.pmax ∧ ∃ c0 c1 c2, c = [c0, c1, c2] ∧
      ∀ J, c0 * J * J + c1 * J + c2 = quad p.pmin p.pmax J) := by
  intro c hc
  unfold coefficients at hc
  obtain ⟨B, hB, hc⟩ := bind_ok_inv hc
  rcases C46_inverse (fitMat_isMat p.pmin p.pmax) with ⟨LU, q, B', G, hlu, hinv, hG, h1, -⟩ | ⟨-, h⟩
  · have hB' : Mat.invert ⟨3, 3, [p.pmin * p.pmin, p.pmax * p.pmax, 2 * p.pmax, p.pmin, p.pmax, 1,
        1, 1, 0]⟩ = .ok B := hB
    rw [hinv] at hB'
    cases hB'
    have hne : p.pmin ≠ p.pmax := by
      intro he
      have := C46_singular (fitMat_isMat p.pmin p.pmax) (by rw [fit_det, he]; ring)
      rw [hlu] at this
      cases this
    have hD : p.pmax - p.pmin ≠ 0 := sub_ne_zero.2 (Ne.symm hne)
    obtain ⟨y, hy1, hy2, hy3⟩ : ∃ y, B.matVecProduct [1, 1 / 100, 0] = .ok y ∧ y.length = 3 ∧
        ∀ i, i < 3 → vecFun y i = ∑ k ∈ Finset.range 3, G i k * vecFun [1, 1 / 100, 0] k := by
      have := (C45_matVecProduct (n := 3) (m := 3) hG [1, 1 / 100, 0])
      rw [if_neg (by simp)] at this
      refine ⟨_, this, by simp, ?_⟩
      intro i hi
      have h3 : i = 0 ∨ i = 1 ∨ i = 2 := by omega
      rcases h3 with rfl | rfl | rfl <;> rfl
    rw [hy1] at hc
    obtain rfl : y = c := Except.ok.inj hc
    refine ⟨hne, vecFun y 0, vecFun y 1, vecFun y 2, ?_, ?_⟩
    · match y, hy2 with
      | [a, b, d], _ => rfl
    · -- A y = rhs
      have hsys : ∀ i, i < 3 → ∑ k ∈ Finset.range 3, fitF p.pmin p.pmax i k * vecFun y k
          = vecFun [1, 1 / 100, 0] i := by
        intro i hi
        have : ∑ k ∈ Finset.range 3, fitF p.pmin p.pmax i k * vecFun y k =
            ∑ j ∈ Finset.range 3, (∑ k ∈ Finset.range 3, fitF p.pmin p.pmax i k * G k j)
              * vecFun ([1, 1 / 100, 0] : List K) j := by
          simp only [Finset.sum_mul]
          rw [Finset.sum_comm]
          apply Finset.sum_congr rfl
          intro k hk
          rw [hy3 k (Finset.mem_range.1 hk), Finset.mul_sum]
          apply Finset.sum_congr rfl
          intro j _; ring
        rw [this, Finset.sum_congr rfl (fun j hj => by
          rw [h1 i j hi (Finset.mem_range.1 hj)])]
        simp [hi]
      have e0 := hsys 0 (by omega)
      have e1 := hsys 1 (by omega)
      have e2 := hsys 2 (by omega)
      simp [Finset.sum_range_succ, fitF, vecFun] at e0 e1 e2
      intro J
      simp only [vecFun]
      simp only [List.getD_eq_getElem?_getD]
      generalize (y[0]?.getD 0) = c0 at *
      generalize (y[1]?.getD 0) = c1 at *
      generalize (y[2]?.getD 0) = c2 at *
      have hc1 : c1 = -(2 * p.pmax * c0) := by linarith
      subst hc1
      have hc2 : c2 = 1 / 100 + p.pmax ^ 2 * c0 := by
        have := e1; field_simp at this ⊢; linear_combination this
      subst hc2
      have hc0 : c0 = 99 / 100 / (p.pmax - p.pmin) ^ 2 := by
        rw [eq_div_iff (pow_ne_zero 2 hD)]
        linear_combination e0
      subst hc0
      unfold quad
      field_simp
      ring
  · have hB' : Mat.invert ⟨3, 3, [p.pmin * p.pmin, p.pmax * p.pmax, 2 * p.pmax, p.pmin, p.pmax, 1,
        1, 1, 0]⟩ = .ok B := hB
    rw [h] at hB'
    cases hB'

/-- The two ways in which the fitness update fails, and what it does otherwise. -/
theorem updateFitness_spec (p : Pop K) :
    (p.inds.all (fun x => decide (|x.obj| < 1 / 10 ^ 14)) = true ∧
      p.updateFitness = .error .runtimeError) ∨
    (∃ e, p.coefficients = .error e ∧ p.updateFitness = .error e) ∨
    (p.inds ≠ [] ∧ p.pmin ≠ p.pmax ∧ (∃ c, p.coefficients = .ok c) ∧
      p.updateFitness = .ok { p with
        inds := p.inds.map (fun x => { x with fitness := quad p.pmin p.pmax x.obj }) }) := by
  unfold updateFitness updateFitnessQuadratic
  by_cases h0 : p.inds = []
  · left; simp [h0]
  rw [if_neg (by simpa using h0)]
  by_cases hall : p.inds.all (fun x => decide (|x.obj| < 1 / 10 ^ 14)) = true
  · left; exact ⟨hall, by rw [if_pos hall]⟩
  · rw [if_neg hall]
    right
    cases hc : p.coefficients with
    | error e => left; exact ⟨e, rfl, rfl⟩
    | ok c =>
      right
      obtain ⟨hne, c0, c1, c2, rfl, hq⟩ := coefficients_post p c hc
      refine ⟨h0, hne, ⟨_, rfl⟩, ?_⟩
      refine bind_eq rfl (bind_eq (mapRes_ok
        (g := fun x => { x with fitness := quad p.pmin p.pmax x.obj }) ?_) rfl)
      intro x _
      refine bind_eq (a := c0) rfl (bind_eq (a := c1) rfl (bind_eq (a := c2) rfl ?_))
      dsimp only
      rw [hq, if_neg (not_le.2 (quad_pos _ _ _))]

theorem updateRep_ok {p : Pop K} (h2 : 2 ≤ p.inds.length) (hf : ∀ x ∈ p.inds, 0 < x.fitness) :
    p.updateRep = .ok { p with
      inds := p.inds.map (fun x => { x with rep := x.fitness / (p.inds.map (·.fitness)).sum }) } ∧
    ∀ x ∈ p.inds, 0 < x.fitness / (p.inds.map (·.fitness)).sum ∧
      x.fitness / (p.inds.map (·.fitness)).sum < 1 := by
  set S := (p.inds.map (·.fitness)).sum with hS
  have hlt : ∀ x ∈ p.inds, x.fitness < S := by
    intro x hx
    obtain ⟨s, t, hst⟩ := List.append_of_mem hx
    have hpos : ∀ (l : List (Indiv K)), (∀ y ∈ l, 0 < y.fitness) → l ≠ [] →
        0 < (l.map (·.fitness)).sum := by
      intro l hl hne
      apply List.sum_pos
      · intro a ha
        obtain ⟨y, hy, rfl⟩ := List.mem_map.1 ha
        exact hl y hy
      · simpa using hne
    have hnn : ∀ (l : List (Indiv K)), (∀ y ∈ l, 0 < y.fitness) →
        0 ≤ (l.map (·.fitness)).sum := by
      intro l hl
      apply List.sum_nonneg
      intro a ha
      obtain ⟨y, hy, rfl⟩ := List.mem_map.1 ha
      exact (hl y hy).le
    have hs : ∀ y ∈ s, 0 < y.fitness := fun y hy => hf y (by rw [hst]; simp [hy])
    have ht : ∀ y ∈ t, 0 < y.fitness := fun y hy => hf y (by rw [hst]; simp [hy])
    rw [hS, hst]
    simp only [List.map_append, List.map_cons, List.sum_append, List.sum_cons]
    rcases eq_or_ne s [] with rfl | hs0
    · have ht0 : t ≠ [] := by rintro rfl; rw [hst] at h2; simp at h2
      have := hpos t ht ht0
      simp; linarith
    · have h1 := hpos s hs hs0
      have h3 := hnn t ht
      linarith
  have hS0 : 0 < S := by
    match hl : p.inds with
    | [] => rw [hl] at h2; simp at h2
    | x :: l => exact (hf x (by simp [hl])).trans (hlt x (by simp [hl]))
  have hb : ∀ x ∈ p.inds, 0 < x.fitness / S ∧ x.fitness / S < 1 := fun x hx =>
    ⟨div_pos (hf x hx) hS0, (div_lt_one hS0).2 (hlt x hx)⟩
  refine ⟨?_, hb⟩
  unfold updateRep
  rw [foldl_add_eq, zero_add]
  refine bind_eq (mapRes_ok (g := fun x => { x with rep := x.fitness / S }) ?_) rfl
  intro x hx
  refine bind_eq (a := x.fitness / S) ?_ ?_
  · unfold fdiv; rw [if_neg hS0.ne']
  · unfold Indiv.setRep
    rw [if_neg (not_le.2 (hb x hx).1), if_neg (not_le.2 (hb x hx).2)]

/-- Weight of an individual in the death lottery. -/
def deathWeight (q v : K) : K := if v > q then 0 else 1 / v

theorem updateDeath_ok [FloorRing K] {p : Pop K} (h0 : p.inds ≠ [])
    (hf : ∀ x ∈ p.inds, 0 < x.fitness) :
    ∃ q, Vec.quantile (p.inds.map (·.fitness)) (9 / 10) = .ok q ∧
      0 < (p.inds.map (fun x => deathWeight q x.fitness)).sum ∧
      (∀ x ∈ p.inds, 0 ≤ deathWeight q x.fitness ∧
        deathWeight q x.fitness ≤ (p.inds.map (fun x => deathWeight q x.fitness)).sum) ∧
      p.updateDeath = .ok { p with inds := p.inds.map (fun x => { x with
        death := deathWeight q x.fitness
          / (p.inds.map (fun x => deathWeight q x.fitness)).sum }) } := by
  set fits := p.inds.map (·.fitness) with hfits
  have hfp : ∀ v ∈ fits, 0 < v := by
    intro v hv
    obtain ⟨x, hx, rfl⟩ := List.mem_map.1 hv
    exact hf x hx
  obtain ⟨q, a, b, hq, ha, -, -, haq, -⟩ := C07_quantile fits
    (fits.insertionSort (fun a b => a ≤ b)) (List.perm_insertionSort _ _)
    (List.pairwise_insertionSort (r := fun a b : K => a ≤ b) _) (by simpa [hfits] using h0)
    (9 / 10) (by norm_num) (by norm_num)
  have ha' : a ∈ fits := (List.perm_insertionSort _ _).mem_iff.1 (List.mem_of_getElem? ha)
  set W := (p.inds.map (fun x => deathWeight q x.fitness)).sum with hW
  have hwn : ∀ x ∈ p.inds, 0 ≤ deathWeight q x.fitness := by
    intro x hx
    unfold deathWeight
    split_ifs
    · exact le_rfl
    · exact (one_div_pos.2 (hf x hx)).le
  have hle : ∀ x ∈ p.inds, deathWeight q x.fitness ≤ W := by
    intro x hx
    apply List.single_le_sum
    · intro v hv
      obtain ⟨y, hy, rfl⟩ := List.mem_map.1 hv
      exact hwn y hy
    · exact List.mem_map.2 ⟨x, hx, rfl⟩
  have hWpos : 0 < W := by
    obtain ⟨x, hx, hxa⟩ := List.mem_map.1 ha'
    refine lt_of_lt_of_le ?_ (hle x hx)
    unfold deathWeight
    have hxa' : x.fitness = a := hxa
    rw [if_neg (by rw [hxa']; exact not_lt.2 haq)]
    exact one_div_pos.2 (hf x hx)
  refine ⟨q, hq, hWpos, fun x hx => ⟨hwn x hx, hle x hx⟩, ?_⟩
  unfold updateDeath
  refine bind_eq hq (bind_eq (a := fits.map (deathWeight q)) ?_ ?_)
  · apply mapRes_ok
    intro v hv
    unfold deathWeight fdiv
    split_ifs with h1 h2
    · rfl
    · exact absurd h2 (hfp v hv).ne'
    · rfl
  · dsimp only
    have hfold : (fits.map (deathWeight q)).foldl (· + ·) 0 = W := by
      have := foldl_add_eq (fun x : K => x) (fits.map (deathWeight q)) 0
      simp only [zero_add, List.map_id'] at this
      rw [this, hW, hfits, List.map_map]
      rfl
    have hzip : p.inds.zip (fits.map (deathWeight q))
        = p.inds.map (fun x => (x, deathWeight q x.fitness)) := by
      rw [hfits, List.map_map, List.zip_map_right]
      simp [List.zip_eq_zipWith, List.zipWith_self]
    rw [hfold, hzip]
    refine bind_eq (a := p.inds.map (fun x => { x with death := deathWeight q x.fitness / W })) ?_ rfl
    have : ∀ (l : List (Indiv K)), (∀ x ∈ l, x ∈ p.inds) →
        mapRes (fun xw : Indiv K × K => do
          let v ← fdiv xw.2 W
          xw.1.setDeath v) (l.map (fun x => (x, deathWeight q x.fitness)))
        = .ok (l.map (fun x => { x with death := deathWeight q x.fitness / W })) := by
      intro l hl
      have := mapRes_ok (f := fun xw : Indiv K × K => do
          let v ← fdiv xw.2 W
          xw.1.setDeath v) (g := fun xw => { xw.1 with death := xw.2 / W })
        (l := l.map (fun x => (x, deathWeight q x.fitness))) ?_
      · rw [this, List.map_map]; rfl
      · rintro ⟨x, w⟩ hxw
        obtain ⟨y, hy, he⟩ := List.mem_map.1 hxw
        cases he
        refine bind_eq (a := deathWeight q x.fitness / W) ?_ ?_
        · unfold fdiv; rw [if_neg hWpos.ne']
        · unfold Indiv.setDeath
          have h1 : 0 ≤ deathWeight q x.fitness / W := div_nonneg (hwn x (hl x hy)) hWpos.le
          have h2 : deathWeight q x.fitness / W ≤ 1 := (div_le_one hWpos).2 (hle x (hl x hy))
          rw [if_neg (not_lt.2 h1), if_neg (not_lt.2 h2)]
    exact this p.inds (fun x hx => hx)

/-- What `updatePopulationProperties` computes when it returns. -/
theorem updateProperties_spec [FloorRing K] (p : Pop K) (h2 : 2 ≤ p.inds.length) :
    (∃ e, p.updateFitness = .error e ∧ p.updateProperties = .error e) ∨
    (p.pmin ≠ p.pmax ∧ ∃ q S D, Vec.quantile (p.inds.map (fun x => quad p.pmin p.pmax x.obj)) (9 / 10) = .ok q ∧
      S = (p.inds.map (fun x => quad p.pmin p.pmax x.obj)).sum ∧
      D = (p.inds.map (fun x => deathWeight q (quad p.pmin p.pmax x.obj))).sum ∧ 0 < D ∧
      (∀ x ∈ p.inds, 0 < quad p.pmin p.pmax x.obj / S ∧ quad p.pmin p.pmax x.obj / S < 1 ∧
        0 ≤ deathWeight q (quad p.pmin p.pmax x.obj) ∧
        deathWeight q (quad p.pmin p.pmax x.obj) ≤ D) ∧
      p.updateProperties = .ok { p with inds := p.inds.map (fun x => { x with
        fitness := quad p.pmin p.pmax x.obj
        rep := quad p.pmin p.pmax x.obj / S
        death := deathWeight q (quad p.pmin p.pmax x.obj) / D }) }) := by
  have hne : p.inds ≠ [] := by rintro h; rw [h] at h2; simp at h2
  unfold updateProperties
  rw [if_neg (by simpa using hne)]
  have hfit := updateFitness_spec p
  have key : (∃ e, p.updateFitness = .error e) ∨ (p.pmin ≠ p.pmax ∧ p.updateFitness = .ok { p with
        inds := p.inds.map (fun x => { x with fitness := quad p.pmin p.pmax x.obj }) }) := by
    rcases hfit with ⟨-, h⟩ | ⟨e, -, h⟩ | ⟨-, h1, -, h⟩
    · exact Or.inl ⟨_, h⟩
    · exact Or.inl ⟨_, h⟩
    · exact Or.inr ⟨h1, h⟩
  rcases key with ⟨e, he⟩ | ⟨hmm, hok⟩
  · left; exact ⟨e, he, by rw [he]; rfl⟩
  · right
    set φ : Indiv K → K := fun x => quad p.pmin p.pmax x.obj with hφ
    set p1 : Pop K := { p with inds := p.inds.map (fun x => { x with fitness := φ x }) } with hp1
    have hf1 : ∀ x ∈ p1.inds, 0 < x.fitness := by
      intro x hx
      obtain ⟨y, hy, rfl⟩ := List.mem_map.1 hx
      exact quad_pos _ _ _
    have hsum : (p1.inds.map (·.fitness)).sum = (p.inds.map φ).sum := by
      rw [hp1]; simp [List.map_map, Function.comp_def]
    obtain ⟨hr, hrb⟩ := updateRep_ok (p := p1) (by simpa [hp1] using h2) hf1
    set S := (p.inds.map φ).sum with hS
    rw [hsum] at hr hrb
    set p2 : Pop K := { p1 with inds := p1.inds.map (fun x => { x with rep := x.fitness / S }) }
      with hp2
    have hf2 : ∀ x ∈ p2.inds, 0 < x.fitness := by
      intro x hx
      obtain ⟨y, hy, rfl⟩ := List.mem_map.1 hx
      exact hf1 y hy
    obtain ⟨q, hq, hD, hdb, hd⟩ := updateDeath_ok (p := p2) (by simpa [hp2, hp1] using hne) hf2
    have hmap : ∀ (g : K → K), p2.inds.map (fun x => g x.fitness) = p.inds.map (fun x => g (φ x)) := by
      intro g; rw [hp2, hp1]; simp [List.map_map, Function.comp_def]
    rw [hmap (fun v => deathWeight q v)] at hD hdb hd
    set D := (p.inds.map (fun x => deathWeight q (φ x))).sum with hDdef
    refine ⟨hmm, q, S, D, ?_, rfl, rfl, hD, ?_, ?_⟩
    · rw [← hq]; congr 1; exact (hmap (fun v => v)).symm
    · intro x hx
      have h1 : ({ x with fitness := φ x } : Indiv K) ∈ p1.inds := List.mem_map.2 ⟨x, hx, rfl⟩
      have h3 := hrb _ h1
      have h4 : ({ x with fitness := φ x, rep := φ x / S } : Indiv K) ∈ p2.inds :=
        List.mem_map.2 ⟨_, h1, rfl⟩
      have h5 := hdb _ h4
      exact ⟨h3.1, h3.2, h5.1, h5.2⟩
    · refine bind_eq hok (bind_eq hr ?_)
      rw [hd]
      simp only [hp2, hp1, List.map_map]
      rfl

end Pop
end Rodeo
