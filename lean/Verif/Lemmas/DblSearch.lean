import Verif.Lemmas.Dbl
import Verif.Lemmas.AcqSearch
import Verif.Lemmas.API
import Verif.Model.DblSearch

set_option linter.unusedSectionVars false

namespace Rodeo.Dbl

open Spec

variable {K : Type} [Field K] [LinearOrder K] [IsStrictOrderedRing K] [FloorRing K]

theorem add_ok {a b r : K} (h : add a b = .ok r) : r = fl (a + b) := dbl_ok h
theorem sub_ok {a b r : K} (h : sub a b = .ok r) : r = fl (a - b) := dbl_ok h
theorem mul_ok {a b r : K} (h : mul a b = .ok r) : r = fl (a * b) := dbl_ok h
theorem div_ok {a b r : K} (h : div a b = .ok r) : b ≠ 0 ∧ r = fl (a / b) := by
  unfold div at h
  split_ifs at h with h0
  exact ⟨h0, dbl_ok h⟩

/-- The entries are doubles between 0 and `T`. -/
def Good (T : K) (l : List K) : Prop := ∀ x ∈ l, IsDouble x ∧ 0 ≤ x ∧ x ≤ T

theorem uniformReal_post {a b u : K} (ha : IsDouble a) (hb : IsDouble b) (hab : a ≤ b) (hu : IsDouble u)
    (h0 : 0 ≤ u) (h1 : u < 1) : Post (uniformReal a b u) (fun r => IsDouble r ∧ a ≤ r ∧ r ≤ b) := by
  intro r hr
  unfold uniformReal at hr
  obtain ⟨d, e1, hr⟩ := bind_ok_inv hr
  obtain ⟨t, e2, hr⟩ := bind_ok_inv hr
  obtain rfl := sub_ok e1
  obtain rfl := mul_ok e2
  obtain rfl := add_ok hr
  exact ⟨fl_isDouble _, between ha hb hab hu h0 h1⟩

/-- The draws of a generator. -/
def Draws (u : Nat → K) : Prop := ∀ i, IsDouble (u i) ∧ 0 ≤ u i ∧ u i < 1

theorem fillRandom_post {n : Nat} {a b : List K} {u : Nat → K} (hu : Draws u) (ha : Doubles a)
    (hb : Doubles b) : Post (fillRandom n a b u) (fun r => InBox a b r ∧ Doubles r ∧ r.length = n) := by
  intro r hr
  unfold fillRandom at hr
  split_ifs at hr with hlen
  push Not at hlen
  obtain ⟨h1, h2⟩ := tab_inv hr
  have key : ∀ (i : Nat) (l h v : K), a[i]? = some l → b[i]? = some h → r[i]? = some v →
      IsDouble v ∧ l ≤ v ∧ v ≤ h := by
    intro i l h v hl hh hv
    have hi : i < n := by
      have := (List.getElem?_eq_some_iff.1 hv).1; omega
    obtain ⟨v', e, e'⟩ := h2 i hi
    rw [hv] at e'
    obtain rfl := Option.some.inj e'
    rw [vat_eq_ok.2 hl, vat_eq_ok.2 hh] at e
    change (if l > h then _ else _) = _ at e
    split_ifs at e with hc
    exact uniformReal_post (ha l (List.mem_of_getElem? hl)) (hb h (List.mem_of_getElem? hh))
      (not_lt.1 hc) (hu i).1 (hu i).2.1 (hu i).2.2 _ e
  refine ⟨⟨by omega, by omega, fun i l h v e1 e2 e3 => (key i l h v e1 e2 e3).2⟩, ?_, h1⟩
  intro x hx
  obtain ⟨i, hi, rfl⟩ := List.getElem_of_mem hx
  exact (key i _ _ _ (List.getElem?_eq_getElem (by omega)) (List.getElem?_eq_getElem (by omega))
    (List.getElem?_eq_getElem hi)).1

theorem good_of_inBox {T : K} {a b r : List K} (ha : Good T a) (hb : Good T b) (h : InBox a b r)
    (hd : Doubles r) : Good T r := by
  intro x hx
  refine ⟨hd x hx, ?_⟩
  obtain ⟨i, hi, rfl⟩ := List.getElem_of_mem hx
  obtain ⟨h1, h2, h3⟩ := h
  have h4 := h3 i _ _ _ (List.getElem?_eq_getElem (show i < a.length by omega))
    (List.getElem?_eq_getElem (show i < b.length by omega)) (List.getElem?_eq_getElem hi)
  exact ⟨(ha _ (List.getElem_mem _)).2.1.trans h4.1, h4.2.trans (hb _ (List.getElem_mem _)).2.2⟩

theorem Good.doubles {T : K} {l : List K} (h : Good T l) : Doubles l := fun x hx => (h x hx).1

theorem clampTo_good {T l u a : K} (hl : IsDouble l ∧ 0 ≤ l ∧ l ≤ T) (hu : IsDouble u ∧ 0 ≤ u ∧ u ≤ T)
    (ha : IsDouble a) : IsDouble (clampTo l u a) ∧ 0 ≤ clampTo l u a ∧ clampTo l u a ≤ T := by
  unfold clampTo
  split_ifs with h1 h2 h3
  · exact hu
  · exact hl
  · exact hu
  · exact ⟨ha, hl.2.1.trans (not_lt.1 h1), (not_lt.1 h3).trans hu.2.2⟩

theorem trimBody_eq {top : K} {i : Nat} {a : K} {y : List K} (ha : y[i]? = some a) :
    trimBody top i y = .ok (y.set i (clampTo 0 top a)) := by
  have hiy : i < y.length := (List.getElem?_eq_some_iff.1 ha).1
  have hset : ∀ b : K, (y.set i b)[i]? = some b := by
    intro b; rw [List.getElem?_set]; simp [hiy]
  unfold trimBody
  refine bind_eq (vat_eq_ok.2 ha) ?_
  have hself : y.set i a = y := by
    apply List.ext_getElem?
    intro j
    rw [List.getElem?_set]
    split_ifs with h1
    · subst h1; exact ha.symm
    · rfl
  by_cases h0 : a < 0
  · refine bind_eq (a := (0 : K)) (vat_eq_ok.2 (by rw [if_pos h0]; exact hset 0)) ?_
    simp only [h0, if_true, clampTo]
    split_ifs <;> simp
  · refine bind_eq (a := a) (vat_eq_ok.2 (by rw [if_neg h0]; exact ha)) ?_
    simp only [h0, if_false, clampTo]
    split_ifs <;> simp [hself]

theorem map_good {T : K} {n : Nat} {x r : List K} {g : Nat → K → K} (hx : x.length = n)
    (hr : r.length = x.length)
    (h : ∀ (i : Nat) (a : K), x[i]? = some a → r[i]? = some (if i < n then g i a else a))
    (hg : ∀ i a, i < n → x[i]? = some a → IsDouble (g i a) ∧ 0 ≤ g i a ∧ g i a ≤ T) : Good T r := by
  intro y hy
  obtain ⟨i, hi, rfl⟩ := List.getElem_of_mem hy
  have hi' : i < x.length := by omega
  have e := h i _ (List.getElem?_eq_getElem hi')
  rw [if_pos (by omega), List.getElem?_eq_getElem hi] at e
  rw [Option.some.inj e]
  exact hg i _ (by omega) (List.getElem?_eq_getElem hi')

theorem trimVector_post {dim : Nat} {x : List K} (hl : x.length = dim) (hx : Doubles x) :
    Post (trimVector dim x) (fun r => r.length = dim ∧ Good (fl (1 / (dim : K))) r) := by
  intro r hr
  unfold trimVector at hr
  split_ifs at hr with h0
  obtain ⟨top, e1, hr⟩ := bind_ok_inv hr
  obtain ⟨-, rfl⟩ := div_ok e1
  have hT : (0 : K) ≤ fl (1 / (dim : K)) := double_le_fl isDouble_zero (by positivity)
  obtain ⟨r', e2, h1, h2⟩ := forRange_map (x := x) (n := dim) (body := trimBody (fl (1 / (dim : K))))
    (fun _ a => clampTo 0 (fl (1 / (dim : K))) a) hl.ge (fun i a y _ _ ha => trimBody_eq ha)
  rw [hr] at e2
  obtain rfl := Except.ok.inj e2
  refine ⟨by omega, map_good hl h1 h2 ?_⟩
  intro i a _ ha
  exact clampTo_good ⟨isDouble_zero, le_rfl, hT⟩ ⟨fl_isDouble _, hT, le_rfl⟩
    (hx a (List.mem_of_getElem? ha))

theorem mapRes_doubles {f : K → Res K} {x r : List K} (hf : ∀ a b, f a = .ok b → IsDouble b)
    (h : mapRes f x = .ok r) : r.length = x.length ∧ Doubles r := by
  have h2 := mapRes_inv h
  refine ⟨h2.length_eq.symm, ?_⟩
  intro b hb
  clear h
  induction h2 with
  | nil => cases hb
  | cons h1 _ ih =>
    rcases List.mem_cons.1 hb with rfl | hb
    · exact hf _ _ h1
    · exact ih hb

theorem defineTrustRegion_post (dim : Nat) (incumbent : List K) (trLength : K) :
    Post (defineTrustRegion dim incumbent trLength) (fun w => w.1.length = dim ∧ w.2.length = dim ∧
      Good (fl (1 / (dim : K))) w.1 ∧ Good (fl (1 / (dim : K))) w.2) := by
  intro w hw
  unfold defineTrustRegion at hw
  split_ifs at hw with h0 h1
  obtain ⟨one, -, hw⟩ := bind_ok_inv hw
  obtain ⟨delta, -, hw⟩ := bind_ok_inv hw
  obtain ⟨l1, e1, hw⟩ := bind_ok_inv hw
  obtain ⟨u1, e2, hw⟩ := bind_ok_inv hw
  obtain ⟨l2, e3, hw⟩ := bind_ok_inv hw
  obtain ⟨u2, e4, hw⟩ := bind_ok_inv hw
  obtain rfl := Except.ok.inj hw
  have d1 := mapRes_doubles (fun a b hb => by rw [sub_ok hb]; exact fl_isDouble _) e1
  have d2 := mapRes_doubles (fun a b hb => by rw [add_ok hb]; exact fl_isDouble _) e2
  have t1 := trimVector_post (d1.1.trans (not_ne_iff.1 h1)) d1.2 _ e3
  have t2 := trimVector_post (d2.1.trans (not_ne_iff.1 h1)) d2.2 _ e4
  exact ⟨t1.1, t2.1, t1.2, t2.2⟩

/-- A normalized design. -/
def InUnit (dim : Nat) (dv : List K) : Prop := dv.length = dim ∧ Good (fl (1 / (dim : K))) dv

theorem candidate_post (E : Answers K) {dim : Nat} {lb ub : List K} {u : Nat → K} (hu : Draws u)
    (hl : Good (fl (1 / (dim : K))) lb) (hh : Good (fl (1 / (dim : K))) ub) :
    Post (candidate E dim lb ub u) (fun c => InUnit dim c.dv) := by
  unfold candidate
  refine (fillRandom_post hu hl.doubles hh.doubles).bind ?_
  rintro dv ⟨h1, h2, h3⟩
  exact Post.ok ⟨h3, good_of_inBox hl hh h1 h2⟩

theorem candidateAround_post (E : Answers K) {dim : Nat} {sample lb ub : List K} {u : Nat → K}
    (hu : Draws u) (hl : Good (fl (1 / (dim : K))) lb) (hh : Good (fl (1 / (dim : K))) ub) :
    Post (candidateAround E dim sample lb ub u) (fun c => InUnit dim c.dv) := by
  unfold candidateAround
  refine Post.bind (P := fun b => (Doubles b.1 ∧ ∀ x ∈ b.1, 0 ≤ x) ∧
    (Doubles b.2 ∧ ∀ x ∈ b.2, x ≤ fl (1 / (dim : K)))) ?_ ?_
  · intro b hb
    unfold aroundBounds at hb
    split_ifs at hb with h0
    obtain ⟨dx, -, hb⟩ := bind_ok_inv hb
    obtain ⟨l, e1, hb⟩ := bind_ok_inv hb
    obtain ⟨h, e2, hb⟩ := bind_ok_inv hb
    obtain rfl := Except.ok.inj hb
    have k1 : ∀ x ∈ l, IsDouble x ∧ 0 ≤ x := by
      intro x hx
      obtain ⟨i, hi, rfl⟩ := List.getElem_of_mem hx
      obtain ⟨q1, q2⟩ := tab_inv e1
      obtain ⟨y, e, e'⟩ := q2 i (by omega)
      rw [List.getElem?_eq_getElem hi] at e'
      rw [Option.some.inj e']
      obtain ⟨s, -, e⟩ := bind_ok_inv e
      obtain ⟨l0, g1, e⟩ := bind_ok_inv e
      obtain ⟨a, g2, e⟩ := bind_ok_inv e
      obtain rfl := Except.ok.inj e
      have g3 := hl l0 (List.mem_of_getElem? (vat_eq_ok.1 g1))
      refine ⟨?_, le_max_of_le_right g3.2.1⟩
      rcases max_choice a l0 with h | h <;> rw [h]
      · rw [sub_ok g2]; exact fl_isDouble _
      · exact g3.1
    have k2 : ∀ x ∈ h, IsDouble x ∧ x ≤ fl (1 / (dim : K)) := by
      intro x hx
      obtain ⟨i, hi, rfl⟩ := List.getElem_of_mem hx
      obtain ⟨q1, q2⟩ := tab_inv e2
      obtain ⟨y, e, e'⟩ := q2 i (by omega)
      rw [List.getElem?_eq_getElem hi] at e'
      rw [Option.some.inj e']
      obtain ⟨s, -, e⟩ := bind_ok_inv e
      obtain ⟨l0, g1, e⟩ := bind_ok_inv e
      obtain ⟨a, g2, e⟩ := bind_ok_inv e
      obtain rfl := Except.ok.inj e
      have g3 := hh l0 (List.mem_of_getElem? (vat_eq_ok.1 g1))
      refine ⟨?_, min_le_of_right_le g3.2.2⟩
      rcases min_choice a l0 with h | h <;> rw [h]
      · rw [add_ok g2]; exact fl_isDouble _
      · exact g3.1
    exact ⟨⟨fun x hx => (k1 x hx).1, fun x hx => (k1 x hx).2⟩,
      ⟨fun x hx => (k2 x hx).1, fun x hx => (k2 x hx).2⟩⟩
  · rintro b ⟨⟨a1, a2⟩, ⟨a3, a4⟩⟩
    refine (fillRandom_post hu a1 a3).bind ?_
    rintro dv ⟨⟨h1, h1', h1''⟩, h2, h3⟩
    refine Post.ok ⟨h3, ?_⟩
    intro x hx
    refine ⟨h2 x hx, ?_⟩
    obtain ⟨i, hi, rfl⟩ := List.getElem_of_mem hx
    dsimp only at hi
    have h4 := h1'' i _ _ _ (List.getElem?_eq_getElem (show i < b.1.length by omega))
      (List.getElem?_eq_getElem (show i < b.2.length by omega)) (List.getElem?_eq_getElem hi)
    exact ⟨(a2 _ (List.getElem_mem _)).trans h4.1, h4.2.trans (a4 _ (List.getElem_mem _))⟩

theorem tab_post {α : Type} {n : Nat} {f : Nat → Res α} {P : α → Prop}
    (h : ∀ j, Post (f j) P) : Post (tab n f) (fun l => ∀ a ∈ l, P a) := by
  intro l hl a ha
  obtain ⟨i, hi, rfl⟩ := List.getElem_of_mem ha
  obtain ⟨q1, q2⟩ := tab_inv hl
  obtain ⟨y, e, e'⟩ := q2 i (by omega)
  rw [List.getElem?_eq_getElem hi] at e'
  rw [Option.some.inj e']
  exact h i y e

theorem mostPromising_post (E : Answers K) {s : SearchSetup K} {incumbent : List K} {trLength : K}
    {o : SearchOracle K} (hc : ∀ i, Draws (o.complete i)) (ha : ∀ i, Draws (o.around i)) :
    Post (mostPromising E s incumbent trLength o) (fun m => InUnit s.problem.dimension m.1.dv ∧
      InUnit s.problem.dimension m.2.1 ∧ InUnit s.problem.dimension m.2.2) := by
  set d := s.problem.dimension with hd
  unfold mostPromising
  split_ifs with h0
  · exact Post.error
  refine (defineTrustRegion_post d incumbent trLength).bind ?_
  rintro w ⟨w1, w2, w3, w4⟩
  refine Post.bind (P := fun c => InUnit d c.dv) ?_ ?_
  · unfold searchComplete
    split_ifs with h1
    · exact Post.error
    refine (tab_post fun i => candidate_post E (hc i) w3 w4).bind ?_
    intro cs hcs
    refine Post.ok ?_
    rcases search_mem o.execComplete cs ⟨List.replicate d 0, -10 ^ 15⟩ with h | h
    · rw [h]
      refine ⟨by simp, ?_⟩
      intro x hx
      obtain rfl := List.eq_of_mem_replicate hx
      exact ⟨isDouble_zero, le_rfl, double_le_fl isDouble_zero (by positivity)⟩
    · exact hcs _ h
  intro d1 hd1
  refine Post.bind (P := fun c => InUnit d c.dv) ?_ ?_
  · unfold searchAround
    refine Post.trivial.bind ?_
    intro dv _
    refine Post.trivial.bind ?_
    intro b _
    split_ifs with h1
    · refine (tab_post fun i => candidateAround_post E (ha i) w3 w4).bind ?_
      intro cs hcs
      refine Post.ok ?_
      rcases search_mem o.execAround cs d1 with h | h
      · rw [h]; exact hd1
      · exact hcs _ h
    · exact Post.ok hd1
  intro d2 hd2
  exact Post.ok ⟨hd2, ⟨w1, w3⟩, ⟨w2, w4⟩⟩

theorem gradientUpdate_post {dim : Nat} {dv grad lb ub : List K} {step : K} (hdv : dv.length = dim)
    (hl : InUnit dim lb) (hu : InUnit dim ub) : Post (gradientUpdate dim dv grad lb ub step) (InUnit dim) := by
  intro r hr
  unfold gradientUpdate at hr
  obtain ⟨g, e1, hr⟩ := bind_ok_inv hr
  obtain ⟨y, e2, hr⟩ := bind_ok_inv hr
  have hy : y.length = dim ∧ Doubles y := by
    unfold addVec at e2
    split_ifs at e2 with h0
    obtain ⟨q1, q2⟩ := tab_inv e2
    refine ⟨by omega, ?_⟩
    intro x hx
    obtain ⟨i, hi, rfl⟩ := List.getElem_of_mem hx
    obtain ⟨z, e, e'⟩ := q2 i (by omega)
    rw [List.getElem?_eq_getElem hi] at e'
    rw [Option.some.inj e']
    obtain ⟨a, -, e⟩ := bind_ok_inv e
    obtain ⟨b, -, e⟩ := bind_ok_inv e
    rw [add_ok e]
    exact fl_isDouble _
  obtain ⟨r', e3, h1, h2⟩ := forRange_map (x := y) (n := dim) (body := clampBody lb ub)
    (fun i a => clampTo (lb.getD i 0) (ub.getD i 0) a) hy.1.ge (by
      intro i a z hi hz ha
      exact clampBody_eq ha (by simp [List.getD, hl.1, hi]) (by simp [List.getD, hu.1, hi]))
  rw [hr] at e3
  obtain rfl := Except.ok.inj e3
  refine ⟨by rw [h1, hy.1], map_good hy.1 h1 h2 ?_⟩
  intro i a hi ha
  have i1 : i < lb.length := by rw [hl.1]; exact hi
  have i2 : i < ub.length := by rw [hu.1]; exact hi
  have e1 : lb.getD i 0 = lb[i] := by simp [List.getD, i1]
  have e2 : ub.getD i 0 = ub[i] := by simp [List.getD, i2]
  rw [e1, e2]
  exact clampTo_good (hl.2 _ (List.getElem_mem _)) (hu.2 _ (List.getElem_mem _))
    (hy.2 a (List.mem_of_getElem? ha))

theorem acqGradient_post (E : Answers K) {dim : Nat} {d : BODesign K} {evals : Nat} :
    Post (acqGradient E dim d evals) (fun g => g.design.dv = d.dv) := by
  unfold acqGradient
  split_ifs with h0
  · exact Post.error
  refine forRange_post (fun g : AcqGrad K => g.design.dv = d.dv) rfl ?_
  intro j g hg r hr
  unfold acqGradBody at hr
  obtain ⟨save, e1, hr⟩ := bind_ok_inv hr
  obtain ⟨p, -, hr⟩ := bind_ok_inv hr
  obtain ⟨up, -, hr⟩ := bind_ok_inv hr
  obtain ⟨two, -, hr⟩ := bind_ok_inv hr
  obtain ⟨down, -, hr⟩ := bind_ok_inv hr
  obtain ⟨diff, -, hr⟩ := bind_ok_inv hr
  obtain ⟨q, -, hr⟩ := bind_ok_inv hr
  obtain rfl := Except.ok.inj hr
  show ((g.design.dv.set j up).set j down).set j save = d.dv
  rw [List.set_set, List.set_set, ← hg]
  apply List.ext_getElem?
  intro i
  rw [List.getElem?_set]
  split_ifs with h1 h2
  · subst h1; exact (vat_eq_ok.1 e1).symm
  · subst h1
    rw [List.getElem?_eq_none (by omega)]
  · rfl

theorem acqLineSearch_post (E : Answers K) {dim : Nat} {grad lb ub : List K} {save : BODesign K} {f0 : K}
    (hs : InUnit dim save.dv) (hl : InUnit dim lb) (hu : InUnit dim ub) :
    ∀ (fuel evals : Nat) (step : K),
      Post (acqLineSearch E dim grad lb ub save f0 fuel evals step) (fun r => InUnit dim r.design.dv) := by
  intro fuel
  induction fuel with
  | zero => intro _ _; exact Post.error
  | succ fuel ih =>
    intro evals step
    unfold acqLineSearch
    refine (gradientUpdate_post hs.1 hl hu).bind ?_
    intro dv hdv
    dsimp only
    split_ifs with h1
    · exact Post.ok hdv
    · refine Post.trivial.bind ?_
      intro step' _
      split_ifs with h2
      · exact Post.ok hs
      · exact ih _ _

theorem acqLoop_post (E : Answers K) {dim : Nat} {lb ub : List K} {fuel : Nat} (hl : InUnit dim lb)
    (hu : InUnit dim ub) : ∀ (rounds : Nat) (s : AcqLine K), InUnit dim s.design.dv →
      Post (acqLoop E dim lb ub fuel rounds s) (fun r => InUnit dim r.design.dv) := by
  intro rounds
  induction rounds with
  | zero => intro s hs; exact Post.ok hs
  | succ n ih =>
    intro s hs
    unfold acqLoop
    refine (acqGradient_post E).bind ?_
    intro g hg
    refine (acqLineSearch_post E (by rw [hg]; exact hs) hl hu _ _ _).bind ?_
    intro r hr
    split_ifs
    · exact Post.ok hr
    · exact ih r hr

theorem maximizeAcq_post (E : Answers K) {dim : Nat} {lb ub : List K} {iterations fuel : Nat}
    {start : List K} (hs : InUnit dim start) (hl : InUnit dim lb) (hu : InUnit dim ub) :
    Post (maximizeAcq E dim lb ub iterations fuel start) (fun r => InUnit dim r.1.dv) := by
  unfold maximizeAcq
  refine (acqLoop_post E hl hu iterations _ hs).bind ?_
  intro r hr
  exact Post.ok hr

/-- The denormalized design. -/
theorem denormalizeVector_post {dim : Nat} {x lb ub dv : List K} (hd : 0 < dim) (h32 : dim < 2 ^ 32)
    (hx : InUnit dim x) (hlb : Doubles lb) (hub : Doubles ub)
    (hle : ∀ (i : Nat) (l u : K), lb[i]? = some l → ub[i]? = some u → l ≤ u)
    (h : denormalizeVector x lb ub = .ok dv) : dv.length = dim ∧ dim ≤ lb.length ∧ dim ≤ ub.length ∧
      ∀ (i : Nat) (l u v t : K), lb[i]? = some l → ub[i]? = some u → x[i]? = some t →
        dv[i]? = some v → IsDouble v ∧ l ≤ v ∧ (fl (t * dim) < 1 → v ≤ u) ∧
          (1 ≤ fl (t * dim) → v = fl (fl (u - l) + l)) := by
  unfold denormalizeVector at h
  obtain ⟨q1, q2⟩ := tab_inv h
  have key : ∀ i, i < dim → ∃ v t l u, dv[i]? = some v ∧ x[i]? = some t ∧ lb[i]? = some l ∧ ub[i]? = some u ∧
      v = fl (fl (fl (t * dim) * fl (u - l)) + l) := by
    intro i hi
    obtain ⟨v, e, ev⟩ := q2 i (by rw [hx.1]; exact hi)
    obtain ⟨t, e1, e⟩ := bind_ok_inv e
    obtain ⟨u, e2, e⟩ := bind_ok_inv e
    obtain ⟨l, e3, e⟩ := bind_ok_inv e
    obtain ⟨a, e4, e⟩ := bind_ok_inv e
    obtain ⟨b, e5, e⟩ := bind_ok_inv e
    obtain ⟨c, e6, e⟩ := bind_ok_inv e
    rw [hx.1] at e4
    obtain rfl := mul_ok e4
    obtain rfl := sub_ok e5
    obtain rfl := mul_ok e6
    have ht : x[i]? = some t := by
      have hi' : i < x.length := by rw [hx.1]; exact hi
      rw [rawAt_ok_of_lt hi'] at e1
      rw [List.getElem?_eq_getElem hi', Except.ok.inj e1]
    exact ⟨v, t, l, u, ev, ht, vat_eq_ok.1 e3, vat_eq_ok.1 e2, add_ok e⟩
  obtain ⟨_, _, _, _, _, _, b1, b2, _⟩ := key (dim - 1) (by omega)
  have c1 := (List.getElem?_eq_some_iff.1 b1).1
  have c2 := (List.getElem?_eq_some_iff.1 b2).1
  refine ⟨q1.trans hx.1, by omega, by omega, ?_⟩
  intro i l u v t hl hu ht hv
  have hi : i < dim := by
    have := (List.getElem?_eq_some_iff.1 ht).1
    rw [hx.1] at this
    exact this
  obtain ⟨v', t', l', u', k1, k2, k3, k4, k5⟩ := key i hi
  rw [hv] at k1; rw [ht] at k2; rw [hl] at k3; rw [hu] at k4
  obtain rfl := Option.some.inj k1
  obtain rfl := Option.some.inj k2
  obtain rfl := Option.some.inj k3
  obtain rfl := Option.some.inj k4
  have hld := hlb l (List.mem_of_getElem? hl)
  have hud := hub u (List.mem_of_getElem? hu)
  have hlu := hle i l u hl hu
  obtain ⟨-, t0, t1⟩ := hx.2 t (List.mem_of_getElem? ht)
  have hn : (0 : K) ≤ (dim : K) := by positivity
  have hs0 : 0 ≤ fl (t * dim) := double_le_fl isDouble_zero (mul_nonneg t0 hn)
  have hs1 : fl (t * dim) ≤ 1 := (fl_mono (mul_le_mul_of_nonneg_right t1 hn)).trans (unit_mul_le hd h32)
  have hD : 0 ≤ fl (u - l) := double_le_fl isDouble_zero (sub_nonneg.2 hlu)
  refine ⟨by rw [k5]; exact fl_isDouble _, ?_, ?_, ?_⟩
  · rw [k5]
    have : 0 ≤ fl (fl (t * dim) * fl (u - l)) := double_le_fl isDouble_zero (mul_nonneg hs0 hD)
    exact double_le_fl hld (by linarith)
  · intro hlt
    rw [k5]
    exact (between hld hud hlu (fl_isDouble _) hs0 hlt).2
  · intro hge
    have : fl (t * dim) = 1 := le_antisymm hs1 hge
    rw [k5, this, one_mul, fl_of_double (fl_isDouble (u - l))]

/-! ## Discrete parameters -/

/-- One of the values between which a discrete parameter is rounded. -/
def GridValue (l u dx v : K) : Prop :=
  ∃ k : Nat, v = fl (l + fl ((k : K) * dx)) ∧ (k = 0 ∨ (k : K) ≤ fl (fl (u - l) / dx)) ∧ dx ≠ 0

theorem generateDiscreteValues_post {s : DiscreteSetup K} {index : Nat} {dx l u : K}
    (hl : s.lb[index]? = some l) (hu : s.ub[index]? = some u) :
    Post (generateDiscreteValues s index dx) (fun vs => ∀ v ∈ vs, GridValue l u dx v) := by
  intro vs hvs v hv
  unfold generateDiscreteValues at hvs
  obtain ⟨u', e1, hvs⟩ := bind_ok_inv hvs
  obtain ⟨l', e2, hvs⟩ := bind_ok_inv hvs
  rw [vat_eq_ok.2 hu] at e1
  rw [vat_eq_ok.2 hl] at e2
  obtain rfl := Except.ok.inj e1
  obtain rfl := Except.ok.inj e2
  split_ifs at hvs with hdx
  obtain ⟨d, e3, hvs⟩ := bind_ok_inv hvs
  obtain rfl := sub_ok e3
  obtain ⟨q, e4, hvs⟩ := bind_ok_inv hvs
  obtain ⟨-, rfl⟩ := div_ok e4
  obtain ⟨n, e5, hvs⟩ := bind_ok_inv hvs
  obtain ⟨i, hi, rfl⟩ := List.getElem_of_mem hv
  obtain ⟨q1, q2⟩ := tab_inv hvs
  obtain ⟨z, e, e'⟩ := q2 i (by omega)
  rw [List.getElem?_eq_getElem hi] at e'
  rw [Option.some.inj e']
  obtain ⟨l'', g1, e⟩ := bind_ok_inv e
  obtain ⟨p, g2, e⟩ := bind_ok_inv e
  rw [vat_eq_ok.2 hl] at g1
  obtain rfl := Except.ok.inj g1
  obtain rfl := mul_ok g2
  refine ⟨i, add_ok e, ?_, hdx⟩
  unfold toU32 at e5
  split_ifs at e5 with hc
  push Not at hc
  obtain rfl := Except.ok.inj e5
  rcases Nat.eq_zero_or_pos i with h0 | h0
  · exact Or.inl h0
  · right
    have h1 : i < (⌊fl (fl (u - l) / dx)⌋.toNat + 1) := by
      have : i < (⌊fl (fl (u - l) / dx)⌋.toNat + 1) % 2 ^ 32 := by omega
      exact this.trans_le (Nat.mod_le _ _)
    have h2 : (i : ℤ) ≤ ⌊fl (fl (u - l) / dx)⌋ := by omega
    have h3 := Int.floor_le (fl (fl (u - l) / dx))
    have h4 : ((i : ℤ) : K) ≤ (⌊fl (fl (u - l) / dx)⌋ : K) := by exact_mod_cast h2
    rw [Int.cast_natCast] at h4
    exact h4.trans h3

theorem roundOne_post {s : DiscreteSetup K} {j : Nat} {dv : List K} : Post (roundOne s j dv) (fun r => r.length = dv.length ∧
      ∀ (i : Nat) (v l u : K), r[i]? = some v → s.lb[i]? = some l → s.ub[i]? = some u →
        dv[i]? = some v ∨ ∃ dx, i ∈ s.indices ∧ dx ∈ s.increments ∧ GridValue l u dx v) := by
  intro r hr
  unfold roundOne at hr
  obtain ⟨index, e1, hr⟩ := bind_ok_inv hr
  obtain ⟨value, e2, hr⟩ := bind_ok_inv hr
  obtain ⟨dx, e3, hr⟩ := bind_ok_inv hr
  obtain ⟨vs, e4, hr⟩ := bind_ok_inv hr
  obtain ⟨k, e5, hr⟩ := bind_ok_inv hr
  obtain ⟨w, e6, hr⟩ := bind_ok_inv hr
  unfold Vec.put at hr
  split_ifs at hr with hidx
  obtain rfl := Except.ok.inj hr
  push Not at hidx
  refine ⟨by simp, ?_⟩
  intro i v l u hv hl hu
  rw [List.getElem?_set] at hv
  split_ifs at hv with h1
  · subst h1
    obtain rfl := Option.some.inj hv
    right
    have m1 : index ∈ s.indices := by
      unfold rawAt at e1
      cases hx : s.indices[j]? with
      | none => rw [hx] at e1; cases e1
      | some a => rw [hx] at e1; obtain rfl := Except.ok.inj e1; exact List.mem_of_getElem? hx
    have m2 : dx ∈ s.increments := by
      unfold rawAt at e3
      cases hx : s.increments[j]? with
      | none => rw [hx] at e3; cases e3
      | some a => rw [hx] at e3; obtain rfl := Except.ok.inj e3; exact List.mem_of_getElem? hx
    exact ⟨dx, m1, m2, generateDiscreteValues_post hl hu vs e4 w (List.mem_of_getElem? (vat_eq_ok.1 e6))⟩
  · exact Or.inl hv

theorem roundIfDiscrete_post {s : DiscreteSetup K} {dv : List K} : Post (roundIfDiscrete s dv) (fun r => r.length = dv.length ∧
      ∀ (i : Nat) (v l u : K), r[i]? = some v → s.lb[i]? = some l → s.ub[i]? = some u →
        dv[i]? = some v ∨ ∃ dx, i ∈ s.indices ∧ dx ∈ s.increments ∧ GridValue l u dx v) := by
  unfold roundIfDiscrete
  split_ifs with h0
  · refine forRange_post (fun r : List K => r.length = dv.length ∧
      ∀ (i : Nat) (v l u : K), r[i]? = some v → s.lb[i]? = some l → s.ub[i]? = some u →
        dv[i]? = some v ∨ ∃ dx, i ∈ s.indices ∧ dx ∈ s.increments ∧ GridValue l u dx v)
      ⟨rfl, fun i v l u h _ _ => Or.inl h⟩ ?_
    rintro j r ⟨h1, h2⟩
    refine roundOne_post.mono ?_
    rintro r' ⟨h3, h4⟩
    refine ⟨by omega, ?_⟩
    intro i v l u hv hl hu
    rcases h4 i v l u hv hl hu with h | h
    · exact h2 i v l u h hl hu
    · exact Or.inr h
  · exact Post.ok ⟨rfl, fun i v l u h _ _ => Or.inl h⟩

/-- Half a unit in the last place of one. -/
def eps : K := 1 / 2 ^ 53

theorem le_of_rel {x r : K} (hx : 0 ≤ x) (h : |r - x| ≤ |x| / 2 ^ 53) : r ≤ x * (1 + eps) := by
  have := (abs_le.1 h).2
  rw [abs_of_nonneg hx] at this
  have e : x * (1 + eps) = x + x / 2 ^ 53 := by unfold eps; ring
  rw [e]; linarith

/-- How far a value can be above the upper bound. -/
theorem excess {l u p v : K} (h : l ≤ u) (hp0 : 0 ≤ p)
    (hp : p ≤ (u - l) * ((1 + eps) * (1 + eps) * (1 + eps)))
    (hv : |v - (l + p)| ≤ |l + p| / 2 ^ 53) : v ≤ u + (|l| + |u|) / 2 ^ 50 := by
  have hS : u - l ≤ |l| + |u| := by
    have := le_abs_self u; have := neg_abs_le l; linarith
  set S := |l| + |u| with hSd
  have hS0 : 0 ≤ S := by positivity
  have hc : (1 + eps) * (1 + eps) * (1 + eps) ≤ (1 : K) + 4 / 2 ^ 53 := by unfold eps; norm_num
  have h1 : p ≤ (u - l) + S * (4 / 2 ^ 53) := by
    have a1 : (u - l) * ((1 + eps) * (1 + eps) * (1 + eps)) ≤ (u - l) * (1 + 4 / 2 ^ 53) :=
      mul_le_mul_of_nonneg_left hc (by linarith)
    have a2 : (u - l) * (4 / 2 ^ 53) ≤ S * (4 / 2 ^ 53) := mul_le_mul_of_nonneg_right hS (by positivity)
    linarith
  have h2 : |l + p| ≤ S + S * (4 / 2 ^ 53) := by
    rw [abs_le]
    have b1 := neg_abs_le l; have b2 := le_abs_self u; have b3 := abs_nonneg u; have b4 := abs_nonneg l
    have b5 : (0 : K) ≤ S * (4 / 2 ^ 53) := by positivity
    constructor <;> linarith
  have h3 := (abs_le.1 hv).2
  have h4 : |l + p| / 2 ^ 53 ≤ (S + S * (4 / 2 ^ 53)) / 2 ^ 53 :=
    div_le_div_of_nonneg_right h2 (by positivity)
  have h5 : S * (4 / 2 ^ 53) + (S + S * (4 / 2 ^ 53)) / 2 ^ 53 ≤ S / 2 ^ 50 := by
    have e1 : S * (4 / 2 ^ 53) + (S + S * (4 / 2 ^ 53)) / 2 ^ 53
        = S * (4 / 2 ^ 53 + (1 + 4 / 2 ^ 53) / 2 ^ 53) := by ring
    have e2 : S / 2 ^ 50 = S * (1 / 2 ^ 50) := by ring
    rw [e1, e2]
    exact mul_le_mul_of_nonneg_left (by norm_num) hS0
  linarith

theorem excess_closed {l u : K} (hl : IsDouble l) (hu : IsDouble u) (h : l ≤ u) :
    fl (fl (u - l) + l) ≤ u + (|l| + |u|) / 2 ^ 50 := by
  have h0 : 0 ≤ u - l := sub_nonneg.2 h
  have h1 := le_of_rel h0 (fl_sub_err hu hl)
  have hD : 0 ≤ fl (u - l) := double_le_fl isDouble_zero h0
  refine excess (p := fl (u - l)) h hD (h1.trans ?_) ?_
  · rw [mul_assoc, mul_comm (1 + eps)]
    refine mul_le_mul_of_nonneg_left ?_ h0
    unfold eps; norm_num
  · rw [add_comm l]
    exact fl_add_err (fl_isDouble _) hl

theorem gridValue_bounds {l u dx v : K} (hl : IsDouble l) (hu : IsDouble u) (h : l ≤ u)
    (hdx : IsDouble dx) (hv : GridValue l u dx v) : l ≤ v ∧ v ≤ u + (|l| + |u|) / 2 ^ 50 := by
  obtain ⟨k, rfl, hk, hdx0⟩ := hv
  have hD : 0 ≤ fl (u - l) := double_le_fl isDouble_zero (sub_nonneg.2 h)
  rcases Nat.eq_zero_or_pos k with rfl | hk0
  · rw [Nat.cast_zero, zero_mul, fl_zero, add_zero, fl_of_double hl]
    refine ⟨le_rfl, ?_⟩
    have : 0 ≤ (|l| + |u|) / 2 ^ 50 := by positivity
    linarith
  · have hk' : (k : K) ≤ fl (fl (u - l) / dx) := by
      rcases hk with hk | hk
      · omega
      · exact hk
    have hk1 : (1 : K) ≤ k := by exact_mod_cast hk0
    have hdxpos : 0 < dx := by
      by_contra hc
      push Not at hc
      have : fl (fl (u - l) / dx) ≤ 0 := fl_le_double isDouble_zero (div_nonpos_of_nonneg_of_nonpos hD hc)
      linarith
    set y := fl (u - l) / dx with hy
    have hy0 : 0 ≤ y := div_nonneg hD hdxpos.le
    have hyhalf : 1 / 2 ≤ y := by
      by_contra hc
      push Not at hc
      have hd2 : IsDouble (1 / 2 : K) := ⟨1, -1, by norm_num, by norm_num, by norm_num⟩
      have := fl_le_double hd2 hc.le
      linarith
    have hqe : fl y ≤ y * (1 + eps) := by
      refine le_of_rel hy0 ((fl_err y).trans (max_le le_rfl ?_))
      rw [abs_of_nonneg hy0, le_div_iff₀ (by positivity)]
      refine le_trans ?_ hyhalf
      have : (2 : K) ^ (-1075 : ℤ) * 2 ^ 53 = 2 ^ (-1022 : ℤ) := by
        rw [← zp_nat, ← zp_add]; norm_num
      rw [this]
      have : (2 : K) ^ (-1022 : ℤ) ≤ 2 ^ (-1 : ℤ) := zp_mono (by norm_num)
      rwa [zpow_neg_one, inv_eq_one_div] at this
    have hkd : (k : K) * dx ≤ fl (u - l) * (1 + eps) := by
      have : (k : K) * dx ≤ y * (1 + eps) * dx := mul_le_mul_of_nonneg_right (hk'.trans hqe) hdxpos.le
      have e : y * (1 + eps) * dx = fl (u - l) * (1 + eps) := by
        rw [hy]; field_simp
      rwa [e] at this
    have hkd0 : 0 ≤ (k : K) * dx := by positivity
    have hp := le_of_rel hkd0 (fl_nat_mul_err k hdx)
    have hp0 : 0 ≤ fl ((k : K) * dx) := double_le_fl isDouble_zero hkd0
    have hD1 := le_of_rel (sub_nonneg.2 h) (fl_sub_err hu hl)
    have heps : (0 : K) ≤ 1 + eps := by unfold eps; positivity
    refine ⟨double_le_fl hl (by linarith), excess h hp0 ?_ (fl_add_err hl (fl_isDouble _))⟩
    calc fl ((k : K) * dx) ≤ (k : K) * dx * (1 + eps) := hp
      _ ≤ fl (u - l) * (1 + eps) * (1 + eps) := mul_le_mul_of_nonneg_right hkd heps
      _ ≤ (u - l) * (1 + eps) * (1 + eps) * (1 + eps) :=
        mul_le_mul_of_nonneg_right (mul_le_mul_of_nonneg_right hD1 heps) heps
      _ = _ := by ring

end Rodeo.Dbl
