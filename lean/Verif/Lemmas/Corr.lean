import Verif.Model.Corr
import Verif.Spec.Corr
import Verif.Lemmas.MatRead
import Verif.Lemmas.Vec

set_option linter.unusedSectionVars false

namespace Rodeo.Corr
open Rodeo.Spec Rodeo.Mat

section
variable {K : Type} [Field K] [LinearOrder K] [IsStrictOrderedRing K]

theorem okP_bind_eq {α β : Type} {x : Res α} {f : α → Res β} {P : α → Prop} {r : Res β}
    (h : OkP x P) (h2 : ∀ a, P a → f a = r) : (x >>= f) = r := by
  obtain ⟨a, rfl, ha⟩ := h
  exact h2 a ha

theorem rawAt_vecFun {v : List K} {i : Nat} (h : i < v.length) : rawAt v i = .ok (vecFun v i) := by
  simp [rawAt, vecFun, h]

theorem vecFun_map {m : Nat} (f : Nat → K) {k : Nat} (hk : k < m) :
    vecFun ((List.range m).map f) k = f k := by
  simp [vecFun, List.getD, hk]

theorem gaussian_ok {exp : K → K} {v1 v2 theta : List K} {n : Nat} (h1 : n ≤ v1.length)
    (h2 : n ≤ v2.length) (h3 : n ≤ theta.length) :
    gaussian exp v1 v2 theta n = .ok (exp (-∑ k ∈ Finset.range n,
      vecFun theta k * ((vecFun v1 k - vecFun v2 k) * (vecFun v1 k - vecFun v2 k)))) := by
  unfold gaussian
  refine bind_eq (sumLoop_ok (g := fun k => vecFun theta k *
    ((vecFun v1 k - vecFun v2 k) * (vecFun v1 k - vecFun v2 k))) ?_) rfl
  intro k hk
  exact bind_eq (rawAt_vecFun (by omega)) (bind_eq (rawAt_vecFun (by omega))
    (bind_eq (rawAt_vecFun (by omega)) rfl))

theorem gaussianDot_ok {exp : K → K} {xi xj d theta : List K} {n : Nat} (h1 : n ≤ xi.length)
    (h2 : n ≤ xj.length) (h3 : n ≤ d.length) (h4 : n ≤ theta.length) :
    gaussianDot exp xi xj d theta n = .ok (-1 * (∑ k ∈ Finset.range n,
        -2 * vecFun theta k * (vecFun xi k - vecFun xj k) * vecFun d k) *
      exp (-∑ k ∈ Finset.range n,
        vecFun theta k * (vecFun xi k - vecFun xj k) * (vecFun xi k - vecFun xj k))) := by
  unfold gaussianDot
  refine okP_bind_eq (P := fun s : K × K => s.1 = ∑ k ∈ Finset.range n,
        -2 * vecFun theta k * (vecFun xi k - vecFun xj k) * vecFun d k ∧ s.2 = ∑ k ∈ Finset.range n,
        vecFun theta k * (vecFun xi k - vecFun xj k) * (vecFun xi k - vecFun xj k)) ?_ ?_
  · refine okP_for (fun m (s : K × K) => s.1 = ∑ k ∈ Finset.range m,
        -2 * vecFun theta k * (vecFun xi k - vecFun xj k) * vecFun d k ∧ s.2 = ∑ k ∈ Finset.range m,
        vecFun theta k * (vecFun xi k - vecFun xj k) * (vecFun xi k - vecFun xj k)) (by simp) ?_
    rintro k ⟨a, b⟩ hk ⟨ha, hb⟩
    refine bind_okP (rawAt_vecFun (by omega)) (bind_okP (rawAt_vecFun (by omega))
      (bind_okP (rawAt_vecFun (by omega)) (bind_okP (rawAt_vecFun (by omega)) (okP_ok ?_))))
    simp only at ha hb ⊢
    rw [Finset.sum_range_succ, Finset.sum_range_succ, ha, hb]
    exact ⟨rfl, rfl⟩
  · rintro s ⟨e1, e2⟩
    rw [← e1, ← e2]

theorem gaussianDotDot_ok {exp : K → K} {xi xj d1 d2 theta : List K} {n : Nat}
    (h1 : n ≤ xi.length) (h2 : n ≤ xj.length) (h3 : n ≤ d1.length) (h4 : n ≤ d2.length)
    (h5 : n ≤ theta.length) :
    gaussianDotDot exp xi xj d1 d2 theta n =
      .ok (exp (-∑ k ∈ Finset.range n,
          vecFun theta k * (vecFun xi k - vecFun xj k) * (vecFun xi k - vecFun xj k)) *
        ((∑ k ∈ Finset.range n, 2 * vecFun theta k * (vecFun xi k - vecFun xj k) * vecFun d1 k) *
         (∑ k ∈ Finset.range n, 2 * vecFun theta k * (vecFun xi k - vecFun xj k) * vecFun d2 k) -
         ∑ k ∈ Finset.range n, 2 * vecFun theta k * vecFun d1 k * vecFun d2 k)) := by
  unfold gaussianDotDot
  refine okP_bind_eq (P := fun s : DDSums K =>
      s.td = -∑ k ∈ Finset.range n, 2 * vecFun theta k * (vecFun xi k - vecFun xj k) * vecFun d1 k ∧
      s.t = ∑ k ∈ Finset.range n,
        vecFun theta k * (vecFun xi k - vecFun xj k) * (vecFun xi k - vecFun xj k) ∧
      s.td0 = -∑ k ∈ Finset.range n,
        2 * vecFun theta k * (vecFun xi k - vecFun xj k) * vecFun d2 k ∧
      s.tdd = ∑ k ∈ Finset.range n, 2 * vecFun theta k * vecFun d1 k * vecFun d2 k) ?_ ?_
  · refine okP_for (fun m (s : DDSums K) =>
      s.td = -∑ k ∈ Finset.range m, 2 * vecFun theta k * (vecFun xi k - vecFun xj k) * vecFun d1 k ∧
      s.t = ∑ k ∈ Finset.range m,
        vecFun theta k * (vecFun xi k - vecFun xj k) * (vecFun xi k - vecFun xj k) ∧
      s.td0 = -∑ k ∈ Finset.range m,
        2 * vecFun theta k * (vecFun xi k - vecFun xj k) * vecFun d2 k ∧
      s.tdd = ∑ k ∈ Finset.range m, 2 * vecFun theta k * vecFun d1 k * vecFun d2 k)
      (by simp) ?_
    rintro k ⟨a, b, c, d⟩ hk ⟨ha, hb, hc, hd⟩
    refine bind_okP (rawAt_vecFun (by omega)) (bind_okP (rawAt_vecFun (by omega))
      (bind_okP (rawAt_vecFun (by omega)) (bind_okP (rawAt_vecFun (by omega))
        (bind_okP (rawAt_vecFun (by omega)) (okP_ok ?_)))))
    simp only at ha hb hc hd ⊢
    rw [Finset.sum_range_succ, Finset.sum_range_succ, Finset.sum_range_succ, Finset.sum_range_succ,
      ha, hb, hc, hd]
    refine ⟨by ring, by ring, by ring, by ring⟩
  · rintro s ⟨e1, e2, e3, e4⟩
    simp only [e1, e2, e3, e4]
    congr 1
    ring

theorem exponential_ok {exp : K → K} {pow : K → K → Res K} {v1 v2 theta gamma : List K} {n : Nat}
    {p : Nat → K} (h1 : n ≤ v1.length) (h2 : n ≤ v2.length) (h3 : n ≤ theta.length)
    (h4 : n ≤ gamma.length)
    (hp : ∀ k, k < n → pow |vecFun v1 k - vecFun v2 k| (vecFun gamma k) = .ok (p k)) :
    exponential exp pow v1 v2 theta gamma n =
      .ok (exp (-∑ k ∈ Finset.range n, vecFun theta k * p k)) := by
  unfold exponential
  refine bind_eq (sumLoop_ok (g := fun k => vecFun theta k * p k) ?_) rfl
  intro k hk
  exact bind_eq (rawAt_vecFun (by omega)) (bind_eq (rawAt_vecFun (by omega))
    (bind_eq (rawAt_vecFun (by omega)) (bind_eq (hp k hk)
      (bind_eq (rawAt_vecFun (by omega)) rfl))))

theorem exponentialDot_ok {exp : K → K} {pow : K → K → Res K} {xi xj d theta gamma : List K}
    {n : Nat} {p q : Nat → K} (h1 : n ≤ xi.length) (h2 : n ≤ xj.length) (h3 : n ≤ d.length)
    (h4 : n ≤ theta.length) (h5 : n ≤ gamma.length)
    (hp : ∀ k, k < n → pow (absDiff (vecFun xi k) (vecFun xj k) (vecFun d k)).2 (vecFun gamma k)
      = .ok (p k))
    (hq : ∀ k, k < n → pow (absDiff (vecFun xi k) (vecFun xj k) (vecFun d k)).2
      (vecFun gamma k - 1) = .ok (q k)) :
    exponentialDot exp pow xi xj d theta gamma n =
      .ok (-(exp (-∑ k ∈ Finset.range n, vecFun theta k * p k) *
        ∑ k ∈ Finset.range n, vecFun theta k * (vecFun gamma k * q k *
          (absDiff (vecFun xi k) (vecFun xj k) (vecFun d k)).1))) := by
  unfold exponentialDot
  refine okP_bind_eq (P := fun s : K × K =>
      s.1 = ∑ k ∈ Finset.range n, vecFun theta k * (vecFun gamma k * q k *
          (absDiff (vecFun xi k) (vecFun xj k) (vecFun d k)).1) ∧
      s.2 = ∑ k ∈ Finset.range n, vecFun theta k * p k) ?_ ?_
  · refine okP_for (fun m (s : K × K) =>
      s.1 = ∑ k ∈ Finset.range m, vecFun theta k * (vecFun gamma k * q k *
          (absDiff (vecFun xi k) (vecFun xj k) (vecFun d k)).1) ∧
      s.2 = ∑ k ∈ Finset.range m, vecFun theta k * p k) (by simp) ?_
    rintro k ⟨a, b⟩ hk ⟨ha, hb⟩
    refine bind_okP (rawAt_vecFun (by omega)) (bind_okP (rawAt_vecFun (by omega))
      (bind_okP (rawAt_vecFun (by omega)) (bind_okP (rawAt_vecFun (by omega))
        (bind_okP (rawAt_vecFun (by omega)) (bind_okP (hp k hk) (bind_okP (hq k hk)
          (okP_ok ?_)))))))
    simp only at ha hb ⊢
    rw [Finset.sum_range_succ, Finset.sum_range_succ, ha, hb]
    exact ⟨rfl, rfl⟩
  · rintro s ⟨e1, e2⟩
    rw [← e1, ← e2]

theorem corrMatrixNaive_ok {X : Mat K} {n m : Nat} {F : Nat → Nat → K} (hX : IsMat X n m F)
    {corr : List K → List K → Res K} {C : Nat → Nat → K}
    (hc : ∀ i j, i < n → j < i →
      corr ((List.range m).map (F i)) ((List.range m).map (F j)) = .ok (C i j)) :
    OkP (corrMatrixNaive X corr) (fun R => IsMat R n n
      (fun i j => if i = j then 1 else if j < i then C i j else C j i)) := by
  obtain ⟨hr, -, -, -⟩ := id hX
  unfold corrMatrixNaive
  rw [hr]
  refine bind_okP (tab_ok (g := fun i => (List.range m).map (F i)) ?_) ?_
  · intro i hi
    exact getRow_ok hX hi (Or.inl rfl)
  refine OkP.bind (okP_for (fun k d => Rep2 d n n (fun i j =>
      if i = j ∧ i < k then some 1 else some 0)) ?_ ?_) ?_
  · exact (rep2_zeros n n).congr (fun i j _ _ => by rw [if_neg (by omega)])
  · intro i d hi hd
    refine hd.wr_next (T := fun _ _ => some 1) i i hi hi rfl rfl ?_
    intro a b _ _
    omega
  intro d hd
  refine OkP.bind (okP_for (fun k d => Rep2 d n n (fun i j =>
      if i = j ∨ (i < k ∧ j < k) then
        some (if i = j then 1 else if j < i then C i j else C j i) else some 0)) ?_ ?_) ?_
  · refine hd.congr (fun i j hi hj => ?_)
    by_cases h : i = j
    · rw [if_pos ⟨h, hi⟩, if_pos (Or.inl h), if_pos h]
    · rw [if_neg (by omega), if_neg (by omega)]
  · intro i d hi hd
    refine OkP.mono (okP_for (fun l d => Rep2 d n n (fun a b =>
      if a = b ∨ (a < i ∧ b < i) ∨ (a = i ∧ b < l) ∨ (b = i ∧ a < l) then
        some (if a = b then 1 else if b < a then C a b else C b a) else some 0)) ?_ ?_) ?_
    · exact hd.cond (by omega)
    · intro j d hj hd
      refine bind_okP (show rawAt _ i = .ok ((List.range m).map (F i)) by simp [rawAt, hi])
        (bind_okP (show rawAt _ j = .ok ((List.range m).map (F j)) by
            simp [rawAt, show j < n by omega]) (bind_okP (hc i j hi hj) ?_))
      refine OkP.bind (hd.wr_next (c' := fun a b => a = b ∨ (a < i ∧ b < i) ∨ (a = i ∧ b < j) ∨
        (b = i ∧ a < j) ∨ (a = j ∧ b = i)) j i (by omega) (by omega) (by ring) ?_ (by omega)) ?_
      · rw [if_neg (by omega), if_neg (by omega)]
      intro d hd
      refine hd.wr_next i j (by omega) (by omega) (by ring) ?_ (by omega)
      rw [if_neg (by omega), if_pos (by omega)]
    · intro d hd
      exact hd.cond (by omega)
  · intro d hd
    refine OkP.bind (okP_freeze (hd.done (by omega))) ?_
    intro l hl
    exact okP_ok hl

theorem addEpsilonToDiagonal_ok {A : Mat K} {n : Nat} {F : Nat → Nat → K} (hA : IsMat A n n F)
    (eps : K) : OkP (Mat.addEpsilonToDiagonal A eps)
      (fun B => IsMat B n n (fun i j => if i = j then F i j + eps else F i j)) := by
  obtain ⟨hr, hc, hl, hb⟩ := isMat_iff.1 hA
  unfold Mat.addEpsilonToDiagonal
  rw [hr, hc, Nat.min_self]
  refine OkP.bind (okP_for (fun k d => Rep2 d n n (fun i j =>
      if i = j ∧ i < k then some (F i j + eps) else some (F i j))) ?_ ?_) ?_
  · exact (rep2_map_some hl hb).start (by omega)
  · intro i d hi hd
    refine bind_okP (hd.rd (i := i) (j := i) (v := F i i) hi hi rfl ?_) ?_
    · rw [if_neg (by omega)]
    · exact hd.wr_next (T := fun i j => some (F i j + eps)) i i hi hi rfl rfl (by omega)
  · intro d hd
    have : Rep2 d n n (fun i j => some (if i = j then F i j + eps else F i j)) := by
      refine hd.congr (fun i j hi _ => ?_)
      by_cases h : i = j
      · rw [if_pos ⟨h, hi⟩, if_pos h]
      · rw [if_neg (by omega), if_neg h]
    refine OkP.bind (okP_freeze this) ?_
    intro l hl
    exact okP_ok hl

end
end Rodeo.Corr
