import Verif.Lemmas.EARun

/-! # Invariants at the points of an evolutionary optimization -/

set_option linter.unusedSectionVars false

namespace Rodeo
open Spec

variable {K : Type} [Field K] [LinearOrder K] [IsStrictOrderedRing K] [FloorRing K]

namespace EA

/-- What holds at every point. -/
structure PInv (f : List K → Res K) (o a : EA K) : Prop where
  cfg : a.cfg = o.cfg
  init : a.initialized = true
  total : o.sizeInit ≤ a.total
  good : ∀ x ∈ a.population.inds, Good f o.dim o.lb o.ub x
  idLt : ∀ x ∈ a.population.inds, x.id ≤ o.sizeInit ∨ x.id < a.total
  count : ∀ id, (a.population.inds.map (·.id)).count id ≤
    if id = o.sizeInit ∧ o.sizeInit < a.total then 2 else 1
  removed : a.removed.dim = o.removed.dim

theorem ids_of_core {xs ys : List (Indiv K)}
    (h : (xs.map Indiv.core).Sublist (ys.map Indiv.core)) :
    (xs.map (·.id)).Sublist (ys.map (·.id)) := by
  have := h.map Prod.fst
  simpa [List.map_map, Function.comp_def, Indiv.core] using this

/-- The invariant survives removals and property updates. -/
theorem PInv.shrink {f : List K → Res K} {o a b : EA K} (h : PInv f o a) (hc : b.cfg = a.cfg)
    (hi : b.initialized = a.initialized) (ht : b.total = a.total)
    (hp : (b.population.inds.map Indiv.core).Sublist (a.population.inds.map Indiv.core))
    (hr : b.removed.dim = a.removed.dim) : PInv f o b := by
  have hid := ids_of_core hp
  refine ⟨hc.trans h.cfg, hi.trans h.init, ht ▸ h.total, ?_, ?_, ?_, hr.trans h.removed⟩
  · refine pop_lengths (xs := a.population.inds) (ys := []) (by simpa using hp) h.good (by simp)
  · intro x hx
    rw [ht]
    obtain ⟨y, hy, e⟩ := List.mem_map.1 (hid.subset (List.mem_map_of_mem hx))
    have := h.idLt y hy
    rwa [e] at this
  · intro id
    rw [ht]
    exact (hid.count_le id).trans (h.count id)

theorem PInv.births {E : EAEnv K} {o a b : EA K} {ys : List (Indiv K)} (h : PInv E.f o a)
    (hb : Births E.f a b ys) : PInv E.f o b := by
  obtain ⟨e1, e2, e3, -, -, e6, e7, -⟩ := cfg_eq h.cfg
  have ht := h.total
  refine ⟨hb.cfg.trans h.cfg, hb.init.trans h.init, ?_, ?_, ?_, ?_, ?_⟩
  · rw [hb.total]; omega
  · rw [hb.pop]
    intro x hx
    rcases List.mem_append.1 hx with hx | hx
    · exact h.good x hx
    · have := hb.good x hx
      rwa [e1, e2, e3] at this
  · rw [hb.pop, hb.total]
    intro x hx
    rcases List.mem_append.1 hx with hx | hx
    · have := h.idLt x hx; omega
    · have : x.id ∈ ys.map (·.id) := List.mem_map_of_mem hx
      rw [hb.ids, List.mem_range'_1] at this
      omega
  · intro id
    rw [hb.pop, hb.total, List.map_append, List.count_append, hb.ids]
    have hc1 : (List.range' a.total a.births).count id ≤ 1 :=
      List.nodup_iff_count_le_one.1 List.nodup_range' id
    have hc2 := h.count id
    by_cases hmem : id ∈ List.range' a.total a.births
    · rw [List.mem_range'_1] at hmem
      by_cases hN : id = o.sizeInit
      · have : a.total = o.sizeInit := by omega
        rw [if_neg (by omega)] at hc2
        rw [if_pos (by omega)]
        omega
      · have : (a.population.inds.map (·.id)).count id = 0 := by
          rw [List.count_eq_zero]
          intro hm
          obtain ⟨x, hx, e⟩ := List.mem_map.1 hm
          have := h.idLt x hx
          omega
        rw [this, if_neg (by omega)]
        omega
    · rw [List.count_eq_zero.2 hmem, Nat.add_zero]
      refine hc2.trans ?_
      split_ifs <;> omega
  · rw [hb.removed]; exact h.removed

theorem PInv.start {f : List K → Res K} {o a : EA K} {ys : List (Indiv K)}
    (h : Init f { o with total := 0 } a ys) : PInv f o a := by
  have hids := h.ids
  dsimp only at hids
  have hpi : a.population.inds.map (·.id) = List.range' 1 o.sizeInit := by
    have := congrArg (List.map Prod.fst) h.pop
    rw [List.map_map, List.map_map] at this
    exact this.trans (show ys.map (·.id) = _ by simpa using hids)
  have ht : a.total = o.sizeInit := by simpa using h.total
  refine ⟨h.cfg, h.init, ht.ge, ?_, ?_, ?_, by rw [h.removed]⟩
  · exact pop_lengths (xs := ys) (ys := []) (by rw [h.pop]; simp) h.good (by simp)
  · intro x hx
    have : x.id ∈ a.population.inds.map (·.id) := List.mem_map_of_mem hx
    rw [hpi, List.mem_range'_1] at this
    omega
  · intro id
    rw [hpi, if_neg (by omega)]
    exact List.nodup_iff_count_le_one.1 List.nodup_range' id

theorem PInv.lengths {f : List K → Res K} {o a : EA K} (hB : IsBox o.dim o.lb o.ub)
    (h : PInv f o a) :
    IsBox a.dim a.lb a.ub ∧ ∀ x ∈ a.population.inds, x.genes.length = a.dim := by
  obtain ⟨e1, e2, e3, -⟩ := cfg_eq h.cfg
  rw [e1, e2, e3]
  exact ⟨hB, fun x hx => (h.good x hx).length hB⟩

theorem PInv.of_births {E : EAEnv K} (hE : Draws E) {o a b : EA K} (hB : IsBox o.dim o.lb o.ub)
    (h : PInv E.f o a) (hb : addNewIndividuals E a = .ok b) : ∃ ys, Births E.f a b ys :=
  (addNewIndividuals_rel hE (g := E.f) (fun _ _ => rfl) (h.lengths hB).1 (h.lengths hB).2).2 b hb

theorem point_inv {E : EAEnv K} (hE : Draws E) {o a : EA K} (hB : IsBox o.dim o.lb o.ub)
    (hp : Point E o a) : PInv E.f o a := by
  induction hp with
  | start h =>
    obtain ⟨ys, h1⟩ := (initializePopulation_rel hE (g := E.f) (fun _ _ => rfl)).2 _ h
    exact PInv.start h1
  | births _ hb ih =>
    obtain ⟨ys, h1⟩ := ih.of_births hE hB hb
    exact ih.births h1
  | update _ hu ih =>
    obtain ⟨-, h1⟩ := Pop.updateProperties_post _ _ hu
    exact ih.shrink rfl rfl rfl (by rw [h1.1]) rfl
  | death _ hd ih =>
    have h1 := removeOne_post _ _ _ hd
    exact ih.shrink h1.cfg h1.init h1.total h1.pop h1.removed
  | @extremes a _ ih =>
    obtain ⟨-, h1, -⟩ := Pop.updateMinMax_spec a.population
    exact ih.shrink rfl rfl rfl (by show ((a.population.updateMinMax).inds.map _).Sublist _; rw [h1]) rfl

theorem genPoint_point {E : EAEnv K} {o a : EA K} {k : Nat} (h : GenPoint E o k a) :
    Point E o a := by
  have hdeaths : ∀ (n : Nat) (a b : EA K), Point E o a → removeIndividuals E n a = .ok b →
      Point E o b := by
    intro n
    induction n with
    | zero => intro a b ha hb; cases hb; exact ha
    | succ n ih =>
      intro a b ha hb
      obtain ⟨c, h1, h2⟩ := bind_ok_inv hb
      exact ih c b (ha.death h1) h2
  induction h with
  | start h => exact .start h
  | next _ hn ih =>
    unfold newGeneration at hn
    obtain ⟨o1, h1, hn⟩ := bind_ok_inv hn
    obtain ⟨p1, h2, hn⟩ := bind_ok_inv hn
    obtain ⟨o3, h3, hn⟩ := bind_ok_inv hn
    obtain ⟨p3, h4, hn⟩ := bind_ok_inv hn
    cases hn
    exact ((hdeaths _ _ _ ((ih.births h1).update h2) h3).update h4).extremes

theorem genPoint_size {E : EAEnv K} (hE : Draws E) {o a : EA K} (hB : IsBox o.dim o.lb o.ub)
    {k : Nat} (h : GenPoint E o k a) :
    a.population.inds.length + k * o.deaths = o.sizeInit + k * o.births ∧
    2 ≤ a.population.inds.length := by
  induction h with
  | start h =>
    obtain ⟨ys, h1⟩ := (initializePopulation_rel hE (g := E.f) (fun _ _ => rfl)).2 _ h
    have e1 := congrArg List.length h1.pop
    have e2 := congrArg List.length h1.ids
    simp only [List.length_map, List.length_range'] at e1 e2
    have := h1.size
    simp only at this
    constructor <;> omega
  | @next k a b h0 hn ih =>
    have hI := point_inv hE hB (genPoint_point h0)
    obtain ⟨hb, hl⟩ := hI.lengths hB
    obtain ⟨ys, h1⟩ := (newGeneration_rel hE (g := E.f) (fun _ _ => rfl) hb hl).2 _ hn
    obtain ⟨-, -, -, -, -, -, e7, e8, -⟩ := cfg_eq hI.cfg
    have hs := h1.size
    rw [e7, e8] at hs
    refine ⟨?_, h1.two⟩
    have c1 : (k + 1) * o.deaths = k * o.deaths + o.deaths := by ring
    have c2 : (k + 1) * o.births = k * o.births + o.births := by ring
    omega

/-! ## A death pick never fails -/

/-- The population just got its probabilities. -/
def Updated (p : Pop K) : Prop := ∃ p0 : Pop K, p0.updateProperties = .ok p

theorem Updated.death {p : Pop K} (h : Updated p) :
    2 ≤ p.inds.length ∧ (p.inds.map (·.death)).sum = 1 ∧ ∀ x ∈ p.inds, 0 ≤ x.death ∧ x.death ≤ 1 := by
  obtain ⟨p0, h⟩ := h
  obtain ⟨h2, hs⟩ := Pop.updateProperties_post p0 p h
  rcases Pop.updateProperties_spec p0 h2 with ⟨e, -, he⟩ | ⟨-, q, S, D, -, -, hD, hpos, hb, hok⟩
  · rw [h] at he; cases he
  · rw [h] at hok
    obtain rfl := Except.ok.inj hok
    refine ⟨by simpa using h2, ?_, ?_⟩
    · rw [List.map_map]
      show (p0.inds.map (fun x => Pop.deathWeight q (Pop.quad p0.pmin p0.pmax x.obj) / D)).sum = 1
      have : ∀ (l : List (Indiv K)) (g : Indiv K → K),
          (l.map (fun x => g x / D)).sum = (l.map g).sum / D := by
        intro l g
        induction l with
        | nil => simp
        | cons a l ih => simp only [List.map_cons, List.sum_cons, ih]; ring
      rw [this, ← hD]
      exact div_self hpos.ne'
    · intro x hx
      obtain ⟨y, hy, rfl⟩ := List.mem_map.1 hx
      obtain ⟨-, -, b3, b4⟩ := hb y hy
      exact ⟨div_nonneg b3 hpos.le, (div_le_one hpos).2 b4⟩

theorem Updated.rep {p : Pop K} (h : Updated p) :
    (p.inds.map (·.rep)).sum = 1 ∧ ∀ x ∈ p.inds, 0 < x.rep ∧ x.rep < 1 := by
  obtain ⟨p0, h⟩ := h
  obtain ⟨h2, hs⟩ := Pop.updateProperties_post p0 p h
  rcases Pop.updateProperties_spec p0 h2 with ⟨e, -, he⟩ | ⟨-, q, S, D, -, hS, hD, hpos, hb, hok⟩
  · rw [h] at he; cases he
  · rw [h] at hok
    obtain rfl := Except.ok.inj hok
    have hSne : S ≠ 0 := by
      rintro rfl
      obtain ⟨x, hx⟩ := List.exists_mem_of_length_pos (l := p0.inds) (by omega)
      have := (hb x hx).1
      simp at this
    refine ⟨?_, ?_⟩
    · rw [List.map_map]
      show (p0.inds.map (fun x => Pop.quad p0.pmin p0.pmax x.obj / S)).sum = 1
      have : ∀ (l : List (Indiv K)) (g : Indiv K → K),
          (l.map (fun x => g x / S)).sum = (l.map g).sum / S := by
        intro l g
        induction l with
        | nil => simp
        | cons a l ih => simp only [List.map_cons, List.sum_cons, ih]; ring
      rw [this, ← hS]
      exact div_self hSne
    · intro x hx
      obtain ⟨y, hy, rfl⟩ := List.mem_map.1 hx
      exact ⟨(hb y hy).1, (hb y hy).2.1⟩

theorem Updated.pickDeath {p : Pop K} (h : Updated p) {u : K} (h0 : 0 ≤ u) (h1 : u < 1) :
    ∃ x, p.pickDeath u = .ok x ∧ x ∈ p.inds ∧ 0 < x.death := by
  obtain ⟨-, hs, hb⟩ := h.death
  obtain ⟨x, hx⟩ := Pop.roulette_ok (prob := fun x : Indiv K => x.death) (u := u) p.inds 0
    (by rw [hs]; simpa using h1) h0
  exact ⟨x, hx, Pop.roulette_post _ _ h0 x hx⟩

theorem removeById_ok {p : Pop K} {x : Indiv K} (hx : x ∈ p.inds) :
    ∃ q, p.removeById x.id = .ok q ∧ q.inds.length + 1 = p.inds.length := by
  obtain ⟨k, hk⟩ := Pop.orderById_mem ⟨x, hx, rfl⟩
  obtain ⟨y, h1, -, -⟩ := Pop.orderById_some hk
  have hlt : k < p.inds.length := (List.getElem?_eq_some_iff.1 h1).1
  unfold Pop.removeById Pop.removeIndividual
  simp only [hk, h1]
  refine ⟨_, rfl, ?_⟩
  have e : (p.inds.eraseIdx k).length + 1 = p.inds.length := by
    rw [List.length_eraseIdx_of_lt hlt]; omega
  split_ifs
  · rw [(Pop.updateMinMax_spec _).2.1]; exact e
  · exact e

/-- With enough individuals a death can fail only in the fitness update of the survivors. -/
theorem removeOne_cases {E : EAEnv K} (hE : Draws E) {a : EA K} (hu : Updated a.population)
    (hd : ∀ x ∈ a.population.inds, x.dim = a.removed.dim) (h3 : 3 ≤ a.population.inds.length) :
    (∃ (x : Indiv K) (q : Pop K) (e : Err), a.population.pickDeath (E.pick a.nPick) = .ok x ∧
      a.population.removeById x.id = .ok q ∧ 2 ≤ q.inds.length ∧ q.updateFitness = .error e) ∨
    ∃ b, removeOne E a = .ok b ∧ Updated b.population := by
  obtain ⟨x, hx, hxm, -⟩ := hu.pickDeath (hE.1 a.nPick).1 (hE.1 a.nPick).2
  obtain ⟨q, hq, hql⟩ := removeById_ok hxm
  have hadd : a.removed.addIndividual x
      = .ok ({ a.removed with inds := a.removed.inds ++ [x] }.updateMinMaxIf x.obj x.id) := by
    unfold Pop.addIndividual
    rw [if_neg (by rw [hd x hxm]; simp)]
  have h2 : 2 ≤ q.inds.length := by omega
  rcases Pop.updateProperties_spec q h2 with ⟨e, h1, he⟩ | ⟨-, q', S, D, -, -, -, -, -, hok⟩
  · left
    exact ⟨x, q, e, hx, hq, h2, h1⟩
  · right
    refine ⟨_, bind_eq hx (bind_eq hadd (bind_eq hq (bind_eq hok rfl))), ⟨q, hok⟩⟩

theorem removeIndividuals_cases {E : EAEnv K} (hE : Draws E) {o : EA K}
    (hr : o.removed.dim = o.dim) :
    ∀ (n : Nat) (a : EA K), PInv E.f o a → Updated a.population →
      n + 2 ≤ a.population.inds.length →
      FitnessFails E n a ∨
      ∃ b, removeIndividuals E n a = .ok b ∧ Updated b.population ∧
        b.population.inds.length + n = a.population.inds.length := by
  intro n
  induction n with
  | zero => intro a _ hu _; exact Or.inr ⟨a, rfl, hu, rfl⟩
  | succ n ih =>
    intro a hI hu hlen
    have hd : ∀ x ∈ a.population.inds, x.dim = a.removed.dim := by
      intro x hx; rw [hI.removed, hr]; exact (hI.good x hx).2.1
    rcases removeOne_cases hE hu hd (by omega) with ⟨x, q, e, h0, h1, h2, h3⟩ | ⟨b, hb, hub⟩
    · left
      exact ⟨0, a, x, q, e, by omega, rfl, h0, h1, h2, h3⟩
    · have hD := removeOne_post _ _ _ hb
      have hIb := hI.shrink hD.cfg hD.init hD.total hD.pop hD.removed
      have hs := hD.size
      rcases ih b hIb hub (by omega) with ⟨j, c, x, q, e, hj, hc, h⟩ | ⟨c, hc, huc, hlc⟩
      · left; exact ⟨j + 1, c, x, q, e, by omega, bind_eq hb hc, h⟩
      · right; exact ⟨c, bind_eq hb hc, huc, by omega⟩

end EA
end Rodeo
