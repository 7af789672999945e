import Verif.Lemmas.EAPoint

/-! # Lemmas about fitness, deaths and parents -/

set_option linter.unusedSectionVars false
set_option linter.unusedSimpArgs false

namespace Rodeo
open Spec

variable {K : Type} [Field K] [LinearOrder K] [IsStrictOrderedRing K]

namespace Pop

theorem quad_anti {m M J J' : K} (hmM : m < M) (h1 : J < J') (h2 : J' ≤ M) :
    quad m M J' < quad m M J := by
  unfold quad
  have hD : 0 < M - m := sub_pos.2 hmM
  have a : (M - J') / (M - m) < (M - J) / (M - m) := div_lt_div_of_pos_right (by linarith) hD
  have b : 0 ≤ (M - J') / (M - m) := div_nonneg (by linarith) hD.le
  have c : ((M - J') / (M - m)) ^ 2 < ((M - J) / (M - m)) ^ 2 := by nlinarith
  linarith

theorem quad_min {m M : K} (hmM : m ≠ M) : quad m M m = 1 := by
  unfold quad
  rw [div_self (sub_ne_zero.2 hmM.symm)]; norm_num

theorem quad_max (m M : K) : quad m M M = 1 / 100 := by
  unfold quad; simp

/-- Inverse of the matrix of `coefficients`. -/
def fitG (m M : K) (i j : Nat) : K :=
  ([1 / (M - m) ^ 2, -(2 * M) / (M - m) ^ 2, M ^ 2 / (M - m) ^ 2,
    -1 / (M - m) ^ 2, 2 * M / (M - m) ^ 2, 1 - M ^ 2 / (M - m) ^ 2,
    1 / (M - m), 1 - 2 * M / (M - m), M ^ 2 / (M - m) - M] : List K).getD (j * 3 + i) 0

theorem fitG_inv {m M : K} (h : m ≠ M) : ∀ i j, i < 3 → j < 3 →
    ∑ k ∈ Finset.range 3, fitG m M i k * fitF m M k j = if i = j then 1 else 0 := by
  have hD : M - m ≠ 0 := sub_ne_zero.2 h.symm
  intro i j hi hj
  have h1 : i = 0 ∨ i = 1 ∨ i = 2 := by omega
  have h2 : j = 0 ∨ j = 1 ∨ j = 2 := by omega
  rcases h1 with rfl | rfl | rfl <;> rcases h2 with rfl | rfl | rfl <;>
    simp [fitG, fitF, Finset.sum_range_succ] <;> field_simp <;> ring

/-- Sufficient condition on the extremes for the fitness computation to succeed. -/
theorem coefficients_ok {p : Pop K} (h : p.pmin ≠ p.pmax)
    (h0 : 2 / (p.pmax - p.pmin) ^ 2 + 1 / |p.pmax - p.pmin| ≤ 10 ^ 9)
    (h1 : 4 * |p.pmax| / (p.pmax - p.pmin) ^ 2 + |1 - 2 * p.pmax / (p.pmax - p.pmin)| ≤ 10 ^ 9)
    (h2 : p.pmax ^ 2 / (p.pmax - p.pmin) ^ 2 + |1 - p.pmax ^ 2 / (p.pmax - p.pmin) ^ 2|
      + |p.pmax ^ 2 / (p.pmax - p.pmin) - p.pmax| ≤ 10 ^ 9) :
    ∃ c, p.coefficients = .ok c := by
  have hM := fitMat_isMat p.pmin p.pmax
  obtain ⟨LU, q, hlu⟩ := C47_partial hM (fitG_inv h) (by
    intro i hi
    have hi' : i = 0 ∨ i = 1 ∨ i = 2 := by omega
    have hsq : |(p.pmax - p.pmin) ^ 2| = (p.pmax - p.pmin) ^ 2 := abs_of_nonneg (sq_nonneg _)
    rcases hi' with rfl | rfl | rfl
    · refine le_trans (le_of_eq ?_) h0
      simp only [fitG, Finset.sum_range_succ, Finset.sum_range_zero, zero_add, zero_mul, one_mul,
        Nat.reduceMul, List.getD_cons_zero, List.getD_cons_succ]
      rw [abs_div, abs_div, abs_div, hsq, abs_neg, abs_one]; ring
    · refine le_trans (le_of_eq ?_) h1
      simp only [fitG, Finset.sum_range_succ, Finset.sum_range_zero, zero_add, zero_mul, one_mul,
        Nat.reduceMul, List.getD_cons_zero, List.getD_cons_succ]
      rw [abs_div, abs_div, hsq, abs_neg, abs_mul, abs_two]; ring
    · refine le_trans (le_of_eq ?_) h2
      simp only [fitG, Finset.sum_range_succ, Finset.sum_range_zero, zero_add, zero_mul, one_mul,
        Nat.reduceMul, List.getD_cons_zero, List.getD_cons_succ]
      rw [abs_div (p.pmax ^ 2) ((p.pmax - p.pmin) ^ 2), hsq, abs_of_nonneg (sq_nonneg p.pmax)])
  rcases C46_inverse hM with ⟨LU', q', B, G, -, hinv, hG, -, -⟩ | ⟨hl, -⟩
  · have := C45_matVecProduct (n := 3) (m := 3) hG [1, 1 / 100, 0]
    rw [if_neg (by simp)] at this
    exact ⟨_, bind_eq hinv this⟩
  · rw [hlu] at hl; cases hl

/-! ## The fittest individual -/

/-- The 90% quantile is below a strict maximum. -/
theorem quantile_lt [FloorRing K] {l : List K} {m q : K} (hl : l ≠ []) (h : ∀ a ∈ l, a < m)
    {xs : List K} (hp : (l ++ [m]).Perm xs) (hq : Vec.quantile xs (9 / 10) = .ok q) : q < m := by
  set s := l.insertionSort (fun a b => a ≤ b) with hs
  have hsp : s.Perm l := List.perm_insertionSort _ _
  have hlen : xs.length = l.length + 1 := by rw [← hp.length_eq]; simp
  have hl0 : 0 < l.length := List.length_pos_iff.2 hl
  have hsl : s.length = l.length := hsp.length_eq
  have hpw : (s ++ [m]).Pairwise (· ≤ ·) := by
    rw [List.pairwise_append]
    refine ⟨List.pairwise_insertionSort (r := fun a b : K => a ≤ b) l, by simp, ?_⟩
    intro a ha b hb
    rw [List.mem_singleton.1 hb]
    exact (h a (hsp.mem_iff.1 ha)).le
  obtain ⟨q', a, b, hq', ha, hb, hqe, -, -⟩ := C07_quantile xs (s ++ [m])
    ((hsp.append_right _).trans hp) hpw
    (by rintro rfl; simp at hlen) (9 / 10) (by norm_num) (by norm_num)
  rw [hq] at hq'
  obtain rfl := Except.ok.inj hq'
  set idx : K := 9 / 10 * ((xs.length : K) - 1) with hidx
  have hidx' : idx = 9 / 10 * (l.length : K) := by rw [hidx, hlen]; push_cast; ring
  have hlK : (0 : K) < l.length := by exact_mod_cast hl0
  have h0 : 0 ≤ idx := by rw [hidx']; positivity
  have hfl : ⌊idx⌋₊ < l.length := by
    rw [Nat.floor_lt h0, hidx']; linarith
  have ham : a < m := by
    rw [List.getElem?_append_left (by omega)] at ha
    exact h a (hsp.mem_iff.1 (List.mem_of_getElem? ha))
  have hbm : b ≤ m := by
    have := List.mem_of_getElem? hb
    rcases List.mem_append.1 this with h' | h'
    · exact (h b (hsp.mem_iff.1 h')).le
    · rw [List.mem_singleton.1 h']
  have hw0 : 0 ≤ idx - (⌊idx⌋₊ : K) := by have := Nat.floor_le h0; linarith
  have hw1 : idx - (⌊idx⌋₊ : K) < 1 := by have := Nat.lt_floor_add_one idx; linarith
  rw [hqe]
  have : (idx - (⌊idx⌋₊ : K)) * (b - a) ≤ (idx - (⌊idx⌋₊ : K)) * (m - a) :=
    mul_le_mul_of_nonneg_left (by linarith) hw0
  have : (idx - (⌊idx⌋₊ : K)) * (m - a) < 1 * (m - a) :=
    mul_lt_mul_of_pos_right hw1 (by linarith)
  linarith

/-- The unique fittest individual cannot die. -/
theorem fittest_death [FloorRing K] {p0 p : Pop K} (h : p0.updateProperties = .ok p)
    {s t : List (Indiv K)} {x : Indiv K} (hx : p.inds = s ++ x :: t)
    (hf : ∀ y ∈ s ++ t, y.fitness < x.fitness) : x.death = 0 := by
  obtain ⟨h2, hs⟩ := Pop.updateProperties_post p0 p h
  rcases Pop.updateProperties_spec p0 h2 with ⟨e, -, he⟩ | ⟨-, q, S, D, hq, -, hD, hpos, hb, hok⟩
  · rw [h] at he; cases he
  · rw [h] at hok
    have hp := Except.ok.inj hok
    have hfit : p.inds.map (·.fitness) = p0.inds.map (fun x => quad p0.pmin p0.pmax x.obj) := by
      rw [hp]; simp [List.map_map, Function.comp_def]
    have hdeath : ∀ y ∈ p.inds, y.death = deathWeight q y.fitness / D := by
      rw [hp]
      intro y hy
      obtain ⟨z, -, rfl⟩ := List.mem_map.1 hy
      rfl
    have hlt : q < x.fitness := by
      refine quantile_lt (l := (s ++ t).map (·.fitness)) (xs := p.inds.map (·.fitness)) ?_ ?_ ?_
        (by rw [hfit]; exact hq)
      · intro he
        have : (s ++ t).length = 0 := by
          have := congrArg List.length he; simpa using this
        have h3 : p.inds.length = p0.inds.length := hs.length
        rw [hx] at h3
        simp only [List.length_append, List.length_cons] at this h3
        omega
      · intro a ha
        obtain ⟨y, hy, rfl⟩ := List.mem_map.1 ha
        exact hf y hy
      · rw [hx]
        have : (s ++ x :: t).Perm ((s ++ t) ++ [x]) := by
          refine List.perm_middle.trans ?_
          exact (List.perm_append_singleton x (s ++ t)).symm
        have := this.map (fun y : Indiv K => y.fitness)
        rw [List.map_append (l₁ := s ++ t)] at this
        exact this.symm
    rw [hdeath x (by rw [hx]; simp)]
    unfold deathWeight
    rw [if_pos hlt, zero_div]

/-- Values of the updated population. -/
theorem updateProperties_fit [FloorRing K] {p0 p : Pop K} (h : p0.updateProperties = .ok p) :
    p0.pmin ≠ p0.pmax ∧ p.pmin = p0.pmin ∧ p.pmax = p0.pmax ∧
    ∀ y ∈ p.inds, y.fitness = quad p0.pmin p0.pmax y.obj := by
  obtain ⟨h2, hs⟩ := Pop.updateProperties_post p0 p h
  rcases Pop.updateProperties_spec p0 h2 with ⟨e, -, he⟩ | ⟨hne, q, S, D, -, -, -, -, -, hok⟩
  · rw [h] at he; cases he
  · rw [h] at hok
    obtain rfl := Except.ok.inj hok
    refine ⟨hne, rfl, rfl, ?_⟩
    intro y hy
    obtain ⟨z, -, rfl⟩ := List.mem_map.1 hy
    rfl

end Pop

namespace EA

/-- One death keeps the smallest objective value, if the ID of its owner is unique. -/
theorem death_keeps_min [FloorRing K] {E : EAEnv K} (hE : Draws E) {a b : EA K} {p0 : Pop K}
    (hu : p0.updateProperties = .ok a.population)
    (hM : ∀ y ∈ a.population.inds, p0.pmin ≤ y.obj ∧ y.obj ≤ p0.pmax) {x : Indiv K}
    (hx : x ∈ a.population.inds) (hmin : ∀ y ∈ a.population.inds, x.obj ≤ y.obj)
    (hid : (a.population.inds.map (·.id)).count x.id ≤ 1) (h : removeOne E a = .ok b) :
    ∃ y ∈ b.population.inds, y.obj = x.obj := by
  unfold removeOne at h
  obtain ⟨z, hz, h⟩ := bind_ok_inv h
  obtain ⟨r, -, h⟩ := bind_ok_inv h
  obtain ⟨p, hp, h⟩ := bind_ok_inv h
  obtain ⟨p', hp', h⟩ := bind_ok_inv h
  cases h
  obtain ⟨-, hs⟩ := Pop.updateProperties_post p p' hp'
  obtain ⟨k, w, hk, hwid, hfirst, herase, -⟩ := Pop.removeById_post _ _ _ hp
  obtain ⟨hzm, hzd⟩ := Pop.roulette_post _ _ (hE.1 a.nPick).1 z hz
  have hlift : ∀ y ∈ p.inds, ∃ y' ∈ p'.inds, y'.obj = y.obj := by
    intro y hy
    have : y.core ∈ p'.inds.map Indiv.core := by rw [hs.1]; exact List.mem_map_of_mem hy
    obtain ⟨y', hy', e⟩ := List.mem_map.1 this
    exact ⟨y', hy', (Indiv.core_eq e).2.1⟩
  suffices H : ∃ y ∈ p.inds, y.obj = x.obj by
    obtain ⟨y, hy, e⟩ := H
    obtain ⟨y', hy', e'⟩ := hlift y hy
    exact ⟨y', hy', e'.trans e⟩
  rw [herase]
  have hklt : k < a.population.inds.length := (List.getElem?_eq_some_iff.1 hk).1
  have hkw : a.population.inds[k] = w := (List.getElem?_eq_some_iff.1 hk).2
  have hsplit : a.population.inds = a.population.inds.take k ++ w :: a.population.inds.drop (k + 1) := by
    rw [← hkw, List.getElem_cons_drop, List.take_append_drop]
  rw [List.eraseIdx_eq_take_drop_succ]
  by_cases hxw : x = w
  · -- the removed one is `x`, hence it was picked
    have hzx : z = x := Pop.unique_of_count hid hzm hx (by rw [← hwid, hxw]) rfl
    by_contra hno
    push Not at hno
    obtain ⟨hne, -, -, hfit⟩ := Pop.updateProperties_fit hu
    have hlt0 : p0.pmin < p0.pmax :=
      lt_of_le_of_ne ((hM x hx).1.trans (hM x hx).2) hne
    have hd0 : x.death = 0 := by
      refine Pop.fittest_death hu (x := x) (s := a.population.inds.take k)
        (t := a.population.inds.drop (k + 1)) (by rw [hxw]; exact hsplit) ?_
      intro y hy
      have hym : y ∈ a.population.inds := by
        rw [hsplit]
        rcases List.mem_append.1 hy with h | h
        · exact List.mem_append_left _ h
        · exact List.mem_append_right _ (List.mem_cons_of_mem _ h)
      rw [hfit y hym, hfit x hx]
      exact Pop.quad_anti hlt0 (lt_of_le_of_ne (hmin y hym) (hno y hy).symm) (hM y hym).2
    rw [hzx, hd0] at hzd
    exact lt_irrefl _ hzd
  · have : x ∈ a.population.inds.take k ++ w :: a.population.inds.drop (k + 1) := by
      rw [← hsplit]; exact hx
    rcases List.mem_append.1 this with h | h
    · exact ⟨x, List.mem_append_left _ h, rfl⟩
    · rcases List.mem_cons.1 h with h | h
      · exact absurd h hxw
      · exact ⟨x, List.mem_append_right _ h, rfl⟩

/-! ## Parents -/

theorem Updated.pickRep [FloorRing K] {p : Pop K} (h : Updated p) {u : K} (h0 : 0 ≤ u)
    (h1 : u < 1) : ∃ x, p.pickRep u = .ok x ∧ x ∈ p.inds := by
  obtain ⟨hs, hb⟩ := h.rep
  obtain ⟨x, hx⟩ := Pop.roulette_ok (prob := fun x : Indiv K => x.rep) (u := u) p.inds 0
    (by rw [hs]; simpa using h1) h0
  exact ⟨x, hx, (Pop.roulette_post _ _ h0 x hx).1⟩

/-- Every individual is selected for reproduction by some draw. -/
theorem Updated.reach [FloorRing K] {p : Pop K} (h : Updated p) {x : Indiv K} (hx : x ∈ p.inds) :
    ∃ u, 0 ≤ u ∧ u < 1 ∧ p.pickRep u = .ok x := by
  obtain ⟨hs, hb⟩ := h.rep
  obtain ⟨u, h1, h2, h3⟩ := Pop.roulette_reach (prob := fun x : Indiv K => x.rep)
    (fun y hy => (hb y hy).1.le) hx (hb x hx).1 0
  rw [hs, zero_add] at h2
  exact ⟨u, h1, h2, h3⟩

theorem pickFather_ends [FloorRing K] {p : Pop K} (h : Updated p) {u : Nat → K}
    (hu : ∀ i, 0 ≤ u i ∧ u i < 1) {m f : Indiv K} (hmf : m.id ≠ f.id) :
    ∀ (k i : Nat), p.pickRep (u (i + k)) = .ok f →
      ∃ r, p.pickFather u m (k + 1) i = .ok r := by
  intro k
  induction k with
  | zero =>
    intro i hf
    unfold Pop.pickFather
    exact ⟨(f, i + 1), bind_eq hf (if_neg hmf)⟩
  | succ k ih =>
    intro i hf
    unfold Pop.pickFather
    obtain ⟨x, hx, -⟩ := h.pickRep (hu i).1 (hu i).2
    by_cases hmx : m.id = x.id
    · obtain ⟨r, hr⟩ := ih (i + 1) (by rw [show i + 1 + k = i + (k + 1) by omega]; exact hf)
      refine ⟨r, bind_eq hx ?_⟩
      rw [if_pos hmx]; exact hr
    · exact ⟨(x, i + 1), bind_eq hx (if_neg hmx)⟩

theorem pickFather_never [FloorRing K] {p : Pop K} (h : Updated p) {u : Nat → K}
    (hu : ∀ i, 0 ≤ u i ∧ u i < 1) {m : Indiv K} (hm : ∀ x ∈ p.inds, m.id = x.id) :
    ∀ (k i : Nat), p.pickFather u m k i = .error .outOfFuel := by
  intro k
  induction k with
  | zero => intro i; rfl
  | succ k ih =>
    intro i
    unfold Pop.pickFather
    obtain ⟨x, hx, hxm⟩ := h.pickRep (hu i).1 (hu i).2
    refine bind_eq hx ?_
    rw [if_pos (hm x hxm)]
    exact ih (i + 1)

theorem parents_never [FloorRing K] {p : Pop K} (h : Updated p) {u : Nat → K}
    (hu : ∀ i, 0 ≤ u i ∧ u i < 1) (hid : ∀ x ∈ p.inds, ∀ y ∈ p.inds, x.id = y.id) (fuel i : Nat) :
    p.generateRandomParents u fuel i = .error .outOfFuel := by
  unfold Pop.generateRandomParents
  rw [if_neg (by have := h.death.1; omega)]
  obtain ⟨m, hm, hmm⟩ := h.pickRep (hu i).1 (hu i).2
  refine bind_eq hm ?_
  rw [pickFather_never h hu (fun x hx => hid m hmm x hx)]
  rfl

/-! ## Crossover of two members succeeds -/

theorem randomGenes_ok {E : EAEnv K} (hE : Draws E) {o : EA K} (hB : IsBox o.dim o.lb o.ub) :
    ∃ g, randomGenes E o = .ok ({ o with nVec := o.nVec + 1 }, g) ∧ InBox o.lb o.ub g := by
  have hl := hB.1
  have hu := hB.2.1
  have : ∃ g, Vec.generateRandomVectorBetween o.lb o.ub (E.vecs o.nVec) = .ok g := by
    unfold Vec.generateRandomVectorBetween
    rw [if_neg (by omega)]
    refine ⟨_, tab_ok (g := fun i => uniformReal (o.lb.getD i 0) (o.ub.getD i 0) (E.vecs o.nVec i)) ?_⟩
    intro i hi
    have e1 : o.lb[i]? = some o.lb[i] := List.getElem?_eq_getElem hi
    have e2 : o.ub[i]? = some o.ub[i] := List.getElem?_eq_getElem (by omega)
    have hle := hB.2.2 i _ _ e1 e2
    simp only [rawAt, e1, e2, List.getD_eq_getElem?_getD, Option.getD_some]
    rw [if_neg (not_lt.2 hle)]
  obtain ⟨g, hg⟩ := this
  have h1 : randomGenes E o = .ok ({ o with nVec := o.nVec + 1 }, g) := bind_eq hg rfl
  exact ⟨g, h1, (randomGenes_post hE o _ h1).2⟩

theorem crossOver_ok {E : EAEnv K} (hE : Draws E) {o : EA K} {m f : Indiv K}
    (hB : IsBox o.dim o.lb o.ub) (hbs : o.boundsSet = true) (hmp : 0 < o.mutProb ∧ o.mutProb < 1)
    (hm : m.genes.length = o.dim) (hf : f.genes.length = o.dim) (hid : m.id ≠ f.id) :
    ∃ r, crossOver E o (m, f) = .ok r := by
  unfold crossOver
  rw [if_neg hid, if_neg (by simp only; omega)]
  have h1 : tab m.genes.length (fun i => do
      let a ← vat m.genes i
      let b ← vat f.genes i
      .ok (normalDraw a b (E.nrm (o.nNrm + i))))
      = .ok ((List.range m.genes.length).map
        (fun i => normalDraw (m.genes.getD i 0) (f.genes.getD i 0) (E.nrm (o.nNrm + i)))) := by
    refine tab_ok ?_
    intro i hi
    have e1 : vat m.genes i = .ok (m.genes.getD i 0) := by
      rw [vat_ok_of_lt hi]; simp [hi]
    have e2 : vat f.genes i = .ok (f.genes.getD i 0) := by
      rw [vat_ok_of_lt (by omega)]; simp [show i < f.genes.length by omega]
    exact bind_eq e1 (bind_eq e2 rfl)
  obtain ⟨r, hr, hrin⟩ := randomGenes_ok hE (o := { o with nNrm := o.nNrm + m.genes.length }) hB
  set g : List K := (List.range m.genes.length).map
    (fun i => normalDraw (m.genes.getD i 0) (f.genes.getD i 0) (E.nrm (o.nNrm + i))) with hg
  have hgl : g.length = o.dim := by simp [hg, hm]
  have hrl : r.length = o.dim := by have := hrin.1; have := hB.1; simp only at *; omega
  have h2 : ∃ q, applyMutation E { o with nNrm := o.nNrm + m.genes.length } g = .ok q := by
    unfold applyMutation
    rw [if_neg (by dsimp only; push Not; exact hmp), if_neg (by simp [hbs])]
    refine ⟨_, bind_eq hr (bind_eq (tab_ok (g := fun i =>
      if E.muts (o.nMut + i) < o.mutProb then r.getD i 0 else g.getD i 0) ?_) rfl)⟩
    intro i hi
    refine bind_eq (a := g.getD i 0) ?_ ?_
    · simp [rawAt, hi]
    · dsimp only
      split_ifs
      · rw [vat_ok_of_lt (by omega)]; simp [show i < r.length by omega]
      · rfl
  obtain ⟨⟨o2, g2⟩, h2⟩ := h2
  obtain ⟨⟨a, b, c, d, h3⟩, h4⟩ := applyMutation_post hE _ h2
  dsimp only at h3 h4
  subst h3
  obtain ⟨g3, h5, -⟩ := clampGenes_ok hB (g := g2) (by omega)
  exact ⟨_, bind_eq h1 (bind_eq h2 (bind_eq h5 rfl))⟩

theorem initializePopulation_updated [FloorRing K] {E : EAEnv K} {o a : EA K}
    (h : initializePopulation E o = .ok a) : Updated a.population := by
  unfold initializePopulation at h
  dsimp only at h
  split_ifs at h
  obtain ⟨r, -, h⟩ := bind_ok_inv h
  obtain ⟨p, -, h⟩ := bind_ok_inv h
  obtain ⟨q, -, h⟩ := bind_ok_inv h
  obtain ⟨p', hp', h⟩ := bind_ok_inv h
  split_ifs at h
  cases h
  exact ⟨p, hp'⟩

theorem newGeneration_updated [FloorRing K] {E : EAEnv K} {o a : EA K}
    (h : newGeneration E o = .ok a) : ∃ p, Updated p ∧ a.population.inds = p.inds := by
  unfold newGeneration at h
  obtain ⟨o1, -, h⟩ := bind_ok_inv h
  obtain ⟨p1, -, h⟩ := bind_ok_inv h
  obtain ⟨o3, -, h⟩ := bind_ok_inv h
  obtain ⟨p3, h3, h⟩ := bind_ok_inv h
  cases h
  exact ⟨p3, ⟨_, h3⟩, (Pop.updateMinMax_spec p3).2.1⟩

theorem _root_.Rodeo.Pop.parents_congr {p q : Pop K} (h : p.inds = q.inds) {u : Nat → K}
    {fuel i : Nat} : p.generateRandomParents u fuel i = q.generateRandomParents u fuel i := by
  have h1 : ∀ v, p.pickRep v = q.pickRep v := by
    intro v; unfold Pop.pickRep; rw [h]
  have h2 : ∀ m k j, p.pickFather u m k j = q.pickFather u m k j := by
    intro m k
    induction k with
    | zero => intro j; rfl
    | succ k ih =>
      intro j
      unfold Pop.pickFather
      rw [h1]
      congr 1
      funext f
      rw [ih]
  unfold Pop.generateRandomParents
  rw [h, h1]
  congr 2
  funext m
  rw [h2]

end EA
end Rodeo
