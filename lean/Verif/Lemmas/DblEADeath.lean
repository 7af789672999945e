import Verif.Lemmas.DblEA

set_option linter.unusedSectionVars false

/-! # Death probabilities in double arithmetic -/

namespace Rodeo.Dbl

open Spec

variable {K : Type} [Field K] [LinearOrder K] [IsStrictOrderedRing K] [FloorRing K]

theorem sum_rel' {α : Type} {l : List α} {f g : α → K} {δ : K}
    (h : ∀ x ∈ l, |f x - g x| ≤ δ * g x) : |(l.map f).sum - (l.map g).sum| ≤ δ * (l.map g).sum := by
  induction l with
  | nil => simp
  | cons x l ih =>
    have h1 := abs_le.1 (h x (by simp))
    have h2 := abs_le.1 (ih (fun y hy => h y (by simp [hy])))
    simp only [List.map_cons, List.sum_cons]
    rw [abs_le]
    constructor <;> linarith

/-- The rounded weight. -/
def dw (θ v : K) : K := if v > θ then 0 else fl (1 / v)

theorem recip {v : K} (h1 : 1 / 256 ≤ v) (h2 : v ≤ 4) :
    div 1 v = .ok (fl (1 / v)) ∧ 1 / 256 ≤ fl (1 / v) ∧ fl (1 / v) ≤ 256 ∧
      |fl (1 / v) - 1 / v| ≤ eps * (1 / v) := by
  have hv : 0 < v := lt_of_lt_of_le (by norm_num) h1
  have hq1 : 1 / 4 ≤ 1 / v := one_div_le_one_div_of_le hv h2
  have hq2 : 1 / v ≤ 256 := by
    rw [div_le_iff₀ hv]; linarith
  have h256 : IsDouble (256 : K) := by exact_mod_cast isDouble_nat (K := K) (n := 256) (by norm_num)
  have h4 : IsDouble (1 / 4 : K) := ⟨1, -2, by norm_num, by norm_num, by norm_num⟩
  refine ⟨?_, le_trans (by norm_num) (double_le_fl h4 hq1), fl_le_double h256 hq2, fl_rel_big ?_⟩
  · unfold div
    rw [if_neg hv.ne']
    refine dbl_of_le (n := 8) (by norm_num) (by norm_num) ?_
    rw [abs_of_nonneg (by positivity)]
    exact hq2.trans (by norm_num)
  · exact le_trans (by norm_num) hq1

theorem count_all {l : List (Indiv K)} {n : Nat} (hlen : l.length = n) {z : Indiv K} (hz : z ∈ l)
    (hz0 : 0 < z.fitness) {g : K} (hg : 0 < g)
    (h : n - 1 ≤ l.countP (fun x => decide (x.fitness ≤ (1 - g) * z.fitness))) :
    n ≤ l.countP (fun x => decide (x.fitness ≤ z.fitness)) := by
  have hgz : 0 < g * z.fitness := by positivity
  have hm : ∀ l : List (Indiv K), l.countP (fun x => decide (x.fitness ≤ (1 - g) * z.fitness)) ≤
      l.countP (fun x => decide (x.fitness ≤ z.fitness)) := by
    intro l
    refine List.countP_mono_left ?_
    intro x _ hx
    simp only [decide_eq_true_eq] at hx ⊢
    linarith
  obtain ⟨l1, l2, rfl⟩ := List.append_of_mem hz
  have h1 := hm l1
  have h2 := hm l2
  have hself : ¬ z.fitness ≤ (1 - g) * z.fitness := by
    push Not
    linarith
  simp only [List.countP_append, List.countP_cons, hself, decide_false, le_refl, decide_true, if_true,
    Bool.false_eq_true, if_false] at h ⊢
  omega

theorem protect_alg {a b w z θ e g : K} (hw0 : 0 ≤ w) (hw1 : w ≤ 1) (hz0 : 0 < z)
    (hza : a ≤ (1 - g) * z) (hb1 : b ≤ z)
    (hb2 : w ≤ 95 / 100 ∨ b ≤ (1 - g) * z)
    (hθ : θ - ((1 - w) * a + w * b) ≤ e * ((1 - w) * a + w * b)) (he : 0 < e) (hg : g = 32 * e) : θ < z := by
  have hg0 : 0 < g := by rw [hg]; positivity
  have hM : (1 - w) * a + w * b ≤ (1 - 5 / 100 * g) * z := by
    have h1 : (1 - w) * a ≤ (1 - w) * ((1 - g) * z) := mul_le_mul_of_nonneg_left hza (by linarith)
    have hgz : 0 ≤ g * z := by positivity
    rcases hb2 with h | h
    · have h3 : w * b ≤ w * z := mul_le_mul_of_nonneg_left hb1 hw0
      have h4 : 5 / 100 * (g * z) ≤ (1 - w) * (g * z) := mul_le_mul_of_nonneg_right (by linarith) hgz
      linarith
    · have h3 : w * b ≤ w * ((1 - g) * z) := mul_le_mul_of_nonneg_left h hw0
      linarith
  rw [hg] at hM
  generalize (1 - w) * a + w * b = M at *
  have h1 : θ ≤ (1 + e) * M := by linarith
  have h3 : (1 + e) * M ≤ (1 + e) * ((1 - 5 / 100 * (32 * e)) * z) :=
    mul_le_mul_of_nonneg_left hM (by linarith)
  have h4 : (1 + e) * ((1 - 5 / 100 * (32 * e)) * z) = z - (3 / 5 + 8 / 5 * e) * (e * z) := by ring
  have h5 : 0 < (3 / 5 + 8 / 5 * e) * (e * z) := by positivity
  linarith

theorem updateDeath_spec {p : Pop K} {n : Nat} (hlen : p.inds.length = n) (h2 : 2 ≤ n) (hn : n ≤ 2 ^ 30)
    (hf : ∀ x ∈ p.inds, IsDouble x.fitness ∧ 1 / 256 ≤ x.fitness ∧ x.fitness ≤ 4) {y : Indiv K} (hy : y ∈ p.inds)
    (hc : n - 9 * (n - 1) / 10 ≤ p.inds.countP (fun x => decide ((1 + 1 / 2 ^ 49) * y.fitness ≤ x.fitness))) :
    ∃ (θ : K) (d : Indiv K → K), quantile (p.inds.map (·.fitness)) (lit (9 / 10)) = .ok θ ∧
      updateDeath p = .ok { p with inds := p.inds.map (fun x => { x with death := d x }) } ∧
      (∀ x ∈ p.inds, IsDouble (d x) ∧ 0 ≤ d x ∧ d x ≤ 1 ∧ (d x = 0 ↔ θ < x.fitness) ∧
        |d x - deathWeight θ x / (p.inds.map (deathWeight θ)).sum| ≤
          n / 2 ^ 50 * (deathWeight θ x / (p.inds.map (deathWeight θ)).sum)) ∧
      0 < (p.inds.map (deathWeight θ)).sum ∧
      p.inds.countP (fun x => decide ((1 + 1 / 2 ^ 49) * θ < x.fitness)) ≤ n - 1 - 9 * (n - 1) / 10 ∧
      (∀ z ∈ p.inds, n - 1 ≤ p.inds.countP (fun x => decide (x.fitness ≤ (1 - 1 / 2 ^ 46) * z.fitness)) →
        θ < z.fitness) := by
  obtain ⟨θ, lo, hi, a, b, w, hq, ha, hb, hk, hlh, hhl, hhn, hw0, hw1, hwz, hwN, hθ⟩ :=
    quantile_spec (x := p.inds.map (·.fitness)) (n := n) (by simpa using hlen) h2 hn (by
      intro v hv
      obtain ⟨x, hx, rfl⟩ := List.mem_map.1 hv
      exact hf x hx)
  set S := (p.inds.map (·.fitness)).insertionSort (fun a b => a ≤ b) with hS
  have hSp : S.Perm (p.inds.map (·.fitness)) := List.perm_insertionSort _ _
  have hSs : S.Pairwise (· ≤ ·) := List.pairwise_insertionSort (r := fun a b : K => a ≤ b) _
  have hSl : S.length = n := by rw [hSp.length_eq, List.length_map, hlen]
  have hcnt : ∀ q : K → Bool, S.countP q = p.inds.countP (fun x => q x.fitness) := by
    intro q
    rw [hSp.countP_eq, List.countP_map]
    rfl
  have hab : a ≤ b := by
    obtain ⟨ia, rfl⟩ := List.getElem?_eq_some_iff.1 ha
    obtain ⟨ib, rfl⟩ := List.getElem?_eq_some_iff.1 hb
    rcases Nat.lt_or_eq_of_le hlh with h | h
    · exact List.pairwise_iff_getElem.1 hSs lo hi ia ib h
    · simp [h]
  have hmem : ∀ (i : Nat) (v : K), S[i]? = some v → ∃ x ∈ p.inds, x.fitness = v := by
    intro i v h
    exact List.mem_map.1 (hSp.mem_iff.1 (List.mem_of_getElem? h))
  obtain ⟨xa, hxa, hxa'⟩ := hmem lo a ha
  obtain ⟨xb, hxb, hxb'⟩ := hmem hi b hb
  have ha1 : 1 / 256 ≤ a := hxa' ▸ (hf xa hxa).2.1
  have ha0 : 0 < a := lt_of_lt_of_le (by norm_num) ha1
  have hM1 : a ≤ (1 - w) * a + w * b := by nlinarith
  have hθ' := abs_le.1 hθ
  have e51 : (0 : K) < 1 / 2 ^ 51 := by positivity
  have e51' : (1 : K) / 2 ^ 51 ≤ 1 / 1000 := by norm_num
  have e49 : (1 : K) / 2 ^ 49 = 4 * (1 / 2 ^ 51) := by norm_num
  have e46 : (1 : K) / 2 ^ 46 = 32 * (1 / 2 ^ 51) := by norm_num
  have hθa : (1 - 1 / 2 ^ 51) * a ≤ θ := by
    have : (1 - 1 / 2 ^ 51) * a ≤ (1 - 1 / 2 ^ 51) * ((1 - w) * a + w * b) :=
      mul_le_mul_of_nonneg_left hM1 (by linarith)
    linarith
  have hscale : ∀ v : K, 0 ≤ v → v ≤ (1 - 1 / 2 ^ 51) * ((1 + 1 / 2 ^ 49) * v) := by
    intro v hv
    rw [e49]
    generalize (1 : K) / 2 ^ 51 = e at *
    have : (1 - e) * ((1 + 4 * e) * v) - v = e * v * (3 - 4 * e) := by ring
    have h3 : 0 ≤ e * v * (3 - 4 * e) := mul_nonneg (by positivity) (by linarith)
    linarith
  have hyθ : y.fitness ≤ θ := by
    have h1 : (1 + 1 / 2 ^ 49) * y.fitness ≤ a := by
      refine sorted_ge hSs (k := 9 * (n - 1) / 10) ?_ hk ha
      rw [hSl, hcnt]
      exact hc
    have h3 := hscale y.fitness (le_trans (by norm_num) (hf y hy).2.1)
    have h4 : (1 - 1 / 2 ^ 51) * ((1 + 1 / 2 ^ 49) * y.fitness) ≤ (1 - 1 / 2 ^ 51) * a :=
      mul_le_mul_of_nonneg_left h1 (by linarith)
    linarith
  -- the weights
  have hwt : ∀ x ∈ p.inds, IsDouble (dw θ x.fitness) ∧
      (dw θ x.fitness = 0 ∨ 1 / 256 ≤ dw θ x.fitness ∧ dw θ x.fitness ≤ 256) := by
    intro x hx
    obtain ⟨-, r2, r3, -⟩ := recip (hf x hx).2.1 (hf x hx).2.2
    unfold dw
    split
    · exact ⟨isDouble_zero, .inl rfl⟩
    · exact ⟨fl_isDouble _, .inr ⟨r2, r3⟩⟩
  have hwr : ∀ x ∈ p.inds, |dw θ x.fitness - deathWeight θ x| ≤ eps * deathWeight θ x := by
    intro x hx
    obtain ⟨-, -, -, r4⟩ := recip (hf x hx).2.1 (hf x hx).2.2
    unfold dw deathWeight
    split
    · simp
    · exact r4
  have hdw0 : ∀ x ∈ p.inds, 0 ≤ deathWeight θ x := by
    intro x hx
    unfold deathWeight
    split
    · exact le_rfl
    · have : 0 < x.fitness := lt_of_lt_of_le (by norm_num) (hf x hx).2.1
      positivity
  have hone : oneOverFitness θ (p.inds.map (·.fitness)) = .ok (p.inds.map (fun x => dw θ x.fitness)) := by
    unfold oneOverFitness
    rw [mapRes_ok (g := dw θ), List.map_map]
    · rfl
    · intro v hv
      obtain ⟨x, hx, rfl⟩ := List.mem_map.1 hv
      unfold dw
      split
      · rfl
      · exact (recip (hf x hx).2.1 (hf x hx).2.2).1
  have hyw : 1 / 256 ≤ dw θ y.fitness := by
    unfold dw
    rw [if_neg (not_lt.2 hyθ)]
    exact (recip (hf y hy).2.1 (hf y hy).2.2).2.1
  obtain ⟨s, hs, hW0, hsW, hdiv⟩ := weights_probs (w := p.inds.map (fun x => dw θ x.fitness)) (n := n)
    (by simpa using hlen) hn (by
      intro v hv
      obtain ⟨x, hx, rfl⟩ := List.mem_map.1 hv
      exact hwt x hx) (List.mem_map_of_mem (f := fun x : Indiv K => dw θ x.fitness) hy) hyw
  have hW : |(p.inds.map (fun x => dw θ x.fitness)).sum - (p.inds.map (deathWeight θ)).sum| ≤
      eps * (p.inds.map (deathWeight θ)).sum := sum_rel' hwr
  have hWe0 : 0 < (p.inds.map (deathWeight θ)).sum := by
    have hge : 0 ≤ (p.inds.map (deathWeight θ)).sum := List.sum_nonneg (by
      intro v hv; obtain ⟨x, hx, rfl⟩ := List.mem_map.1 hv; exact hdw0 x hx)
    rcases lt_or_eq_of_le hge with h | h
    · exact h
    · rw [← h] at hW
      simp only [sub_zero, mul_zero] at hW
      rw [abs_of_pos hW0] at hW
      exact absurd hW (not_le.2 hW0)
  refine ⟨θ, fun x => fl (dw θ x.fitness / s), hq, ?_, ?_, hWe0, ?_, ?_⟩
  · unfold updateDeath
    refine bind_eq hq ?_
    refine bind_eq hone ?_
    refine bind_eq hs ?_
    have hz : p.inds.zip (p.inds.map (fun x => dw θ x.fitness)) =
        p.inds.map (fun x => (x, dw θ x.fitness)) := by
      generalize p.inds = l
      induction l with
      | nil => rfl
      | cons x l ih => simp [ih]
    rw [hz, mapRes_ok (g := fun xw : Indiv K × K => { xw.1 with death := fl (xw.2 / s) }), List.map_map]
    · rfl
    · intro xw hxw
      obtain ⟨x, hx, rfl⟩ := List.mem_map.1 hxw
      obtain ⟨d1, d2, d3, -⟩ := hdiv _ (List.mem_map_of_mem (f := fun x : Indiv K => dw θ x.fitness) hx)
      refine bind_eq d1 ?_
      unfold Indiv.setDeath
      rw [if_neg (not_lt.2 d2), if_neg (not_lt.2 d3)]
  · intro x hx
    obtain ⟨d1, d2, d3, d4, d5⟩ := hdiv _ (List.mem_map_of_mem (f := fun x : Indiv K => dw θ x.fitness) hx)
    refine ⟨fl_isDouble _, d2, d3, ⟨fun h => ?_, fun h => ?_⟩, ?_⟩
    · by_contra hle
      have : 0 < dw θ x.fitness := by
        unfold dw
        rw [if_neg hle]
        exact lt_of_lt_of_le (by norm_num) (recip (hf x hx).2.1 (hf x hx).2.2).2.1
      exact (d4 this).ne' h
    · simp only [dw, if_pos h, zero_div, fl_zero]
    · have hr := share_rel (hdw0 x hx) hWe0 (hwr x hx) hW (eps_pos (K := K)).le
        (by rw [eps_val.2]; norm_num) hW0
      have hQ0 : 0 ≤ deathWeight θ x / (p.inds.map (deathWeight θ)).sum := div_nonneg (hdw0 x hx) hWe0.le
      have hn1 : (1 : K) ≤ n := by exact_mod_cast (show 1 ≤ n by omega)
      have g1 : (n : K) / 2 ^ 51 = 4 * (n * eps) := by rw [eps_val.2]; ring
      have g2 : (n : K) / 2 ^ 50 = 8 * (n * eps) := by rw [eps_val.2]; ring
      have hne : (eps : K) ≤ n * eps := le_mul_of_one_le_left (eps_pos (K := K)).le hn1
      rw [g1] at d5
      rw [g2]
      have he1 : (eps : K) ≤ 1 / 100 := by rw [eps_val.2]; norm_num
      have he0 := (eps_pos (K := K)).le
      have hr' := abs_le.1 hr
      have d5' := abs_le.1 d5
      change |fl (dw θ x.fitness / s) - _| ≤ _
      generalize deathWeight θ x / (p.inds.map (deathWeight θ)).sum = Q at *
      generalize dw θ x.fitness / (p.inds.map (fun x => dw θ x.fitness)).sum = R at *
      generalize fl (dw θ x.fitness / s) = f at *
      generalize (n : K) * eps = E at *
      generalize (eps : K) = e at *
      have hE0 : 0 ≤ E := he0.trans hne
      have hR : R ≤ (1 + 3 * e) * Q := by linarith
      have h5 : 4 * E * R ≤ 4 * E * ((1 + 3 * e) * Q) := mul_le_mul_of_nonneg_left hR (by linarith)
      have h6 : 4 * E * ((1 + 3 * e) * Q) = 4 * (E * Q) + 12 * (e * (E * Q)) := by ring
      have h7 : e * (E * Q) ≤ 1 / 100 * (E * Q) := mul_le_mul_of_nonneg_right he1 (by positivity)
      have h8 : e * Q ≤ E * Q := mul_le_mul_of_nonneg_right hne hQ0
      have h9 : 0 ≤ E * Q := by positivity
      rw [abs_le]
      constructor <;> linarith
  · have h := sorted_above hSs ha (c := (1 + 1 / 2 ^ 49) * θ) (by
      have h3 := hscale a ha0.le
      have h4 : (1 + 1 / 2 ^ 49) * ((1 - 1 / 2 ^ 51) * a) ≤ (1 + 1 / 2 ^ 49) * θ :=
        mul_le_mul_of_nonneg_left hθa (by positivity)
      have h5 : (1 + 1 / 2 ^ 49) * ((1 - 1 / 2 ^ 51) * a) = (1 - 1 / 2 ^ 51) * ((1 + 1 / 2 ^ 49) * a) := by ring
      linarith)
    rw [hcnt, hSl] at h
    omega
  · intro z hz hzc
    have hz0 : 0 < z.fitness := lt_of_lt_of_le (by norm_num) (hf z hz).2.1
    have hN1 : (1 : K) ≤ ((n - 1 : Nat) : K) := by exact_mod_cast (show 1 ≤ n - 1 by omega)
    have e3 : (3 : K) / 2 ^ 53 ≤ 1 / 100 := by norm_num
    have hgap : (lo : K) + w ≤ 91 / 100 * ((n - 1 : Nat) : K) := by
      have : (3 : K) / 2 ^ 53 * ((n - 1 : Nat) : K) ≤ 1 / 100 * ((n - 1 : Nat) : K) :=
        mul_le_mul_of_nonneg_right e3 (by linarith)
      linarith
    have hlo : lo < n - 1 := by
      have : (lo : K) < ((n - 1 : Nat) : K) := by linarith
      exact_mod_cast this
    have hza : a ≤ (1 - 1 / 2 ^ 46) * z.fitness := by
      refine sorted_le hSs ?_ ha
      rw [hcnt]
      exact lt_of_lt_of_le hlo hzc
    -- every value is at most that of `z`
    have hbz : b ≤ z.fitness ∧ (w ≤ 95 / 100 ∨ b ≤ (1 - 1 / 2 ^ 46) * z.fitness) := by
      rcases Nat.lt_or_ge hi (n - 1) with h | h
      · have : b ≤ (1 - 1 / 2 ^ 46) * z.fitness := by
          refine sorted_le hSs ?_ hb
          rw [hcnt]
          exact lt_of_lt_of_le h hzc
        refine ⟨?_, .inr this⟩
        have : 0 ≤ 1 / 2 ^ 46 * z.fitness := by positivity
        linarith
      · constructor
        · refine sorted_le hSs ?_ hb
          rw [hcnt]
          have h1 : n ≤ p.inds.countP (fun x => decide (x.fitness ≤ z.fitness)) :=
            count_all hlen hz hz0 (by positivity) hzc
          omega
        · left
          have hhi : lo + 1 = n - 1 := by omega
          have : (lo : K) + 1 = ((n - 1 : Nat) : K) := by exact_mod_cast hhi
          linarith
    exact protect_alg hw0 hw1 hz0 hza hbz.1 hbz.2 hθ'.2 (by positivity) e46

/-- An individual with probability zero is never selected. -/
theorem roulette_pos {prob : Indiv K → K} {u : K} : ∀ (l : List (Indiv K)) (acc : K) (x : Indiv K),
    IsDouble acc → acc ≤ u → roulette prob u acc l = .ok x → x ∈ l ∧ prob x ≠ 0
  | [], _, _, _, _, h => by cases h
  | y :: l, acc, x, hd, ha, h => by
    unfold roulette at h
    obtain ⟨s, hs, h⟩ := bind_ok_inv h
    have hsd : s = fl (acc + prob y) := dbl_ok hs
    split at h
    · rename_i hu
      cases h
      refine ⟨by simp, fun h0 => ?_⟩
      rw [h0, add_zero, fl_of_double hd] at hsd
      rw [hsd] at hu
      exact absurd hu (not_lt.2 ha)
    · rename_i hu
      obtain ⟨h1, h3⟩ := roulette_pos l s x (hsd ▸ fl_isDouble _) (not_lt.1 hu) h
      exact ⟨by simp [h1], h3⟩

end Rodeo.Dbl
