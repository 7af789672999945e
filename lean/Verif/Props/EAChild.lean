import Verif.Lemmas.EAChild
import Mathlib.Data.Rat.Floor

/-! # C137: the genes of a child of the evolutionary optimizer -/

set_option linter.unusedSectionVars false

namespace Rodeo
open Spec

variable {K : Type} [Field K] [LinearOrder K] [IsStrictOrderedRing K]

namespace EAChildDemo

/-- Two genes: the first is not mutated, the second is. -/
def env : EAEnv ℚ where
  f := fun _ => .ok 0
  pick := fun _ => 0
  vecs := fun _ _ => 1 / 4
  muts := fun i => if i = 0 then 3 / 4 else 0
  nrm := fun _ => 3
  fuel := 1

def cfg : EA ℚ :=
  { (EA.new.setDimension 2 : EA ℚ) with
    lb := [0, 0], ub := [10, 8], boundsSet := true, maxEvals := 10, sizeInit := 2, births := 1,
    deaths := 0, gens := 1, mutProb := 1 / 2 }

def mother : Indiv ℚ := { (Indiv.new 2 : Indiv ℚ) with genes := [1, 1], id := 1 }
def father : Indiv ℚ := { (Indiv.new 2 : Indiv ℚ) with genes := [7, 5], id := 2 }

end EAChildDemo

/-- Every gene of a child is, for its own draws, either mutated, namely when the mutation draw is below the
mutation probability, and then the point of its interval at the fraction given by the random vector, or the mean
of the genes of both parents plus the normal draw times a sixth of their distance, or times one if they are equal;
and then it is moved to the nearest point of its interval.  The draws are used up one for one. -/
theorem C137_gene {E : EAEnv K} {o o' : EA K} {m f c : Indiv K} (hB : IsBox o.dim o.lb o.ub)
    (hm : m.genes.length = o.dim) (h : EA.generateIndividualByReproduction E o (m, f) = .ok (o', c)) :
    c.genes.length = o.dim ∧ c.dim = o.dim ∧ c.id = o.total ∧ o'.total = o.total + 1 ∧
    o'.nVec = o.nVec + 1 ∧ o'.nMut = o.nMut + o.dim ∧ o'.nNrm = o.nNrm + o.dim ∧
    ∀ (i : Nat) (a b l u : K), m.genes[i]? = some a → f.genes[i]? = some b → o.lb[i]? = some l →
      o.ub[i]? = some u → c.genes[i]? = some (max l (min u
        (if E.muts (o.nMut + i) < o.mutProb then l + E.vecs o.nVec i * (u - l)
         else (a + b) / 2 + E.nrm (o.nNrm + i) * (if a = b then 1 else |b - a| / 6)))) := by
  unfold EA.generateIndividualByReproduction at h
  split_ifs at h with h0
  obtain ⟨⟨o1, g⟩, h1, h⟩ := bind_ok_inv h
  obtain ⟨e1, e2, e3, e4, e5, e6, e7⟩ := EA.crossOver_val hB hm _ h1
  dsimp only at e1 e2 e3 e4 e5 e6 e7 h
  have hh := Except.ok.inj h
  simp only [Prod.mk.injEq] at hh
  obtain ⟨rfl, rfl⟩ := hh
  refine ⟨e6, rfl, e2, by simp only [e2], e3, e4, e5, ?_⟩
  intro i a b l u ha hb hl hu
  have := e7 i a b l u ha hb hl hu
  show g[i]? = _
  rw [this]
  congr 3
  split_ifs with h3 h4
  · rfl
  · unfold EA.normalDraw
    simp only [h4, sub_self, abs_zero, zero_div, if_true]
    ring
  · unfold EA.normalDraw
    have hne : |b - a| / 6 ≠ 0 := by
      have : b - a ≠ 0 := fun hh => h4 (sub_eq_zero.1 hh).symm
      positivity
    simp only [if_neg hne]
    ring

set_option maxRecDepth 100000 in
/-- A case: parents `(1,1)` and `(7,5)`, normal draw 3, second gene mutated: the child is `(7,2)`. -/
example : ∃ o' c, EA.generateIndividualByReproduction EAChildDemo.env EAChildDemo.cfg
      (EAChildDemo.mother, EAChildDemo.father) = .ok (o', c) ∧ c.genes = [7, 2] := by
  have : (match EA.generateIndividualByReproduction EAChildDemo.env EAChildDemo.cfg
      (EAChildDemo.mother, EAChildDemo.father) with
      | .ok r => decide (r.2.genes = [7, 2]) | .error _ => false) = true := by decide +kernel
  revert this
  cases EA.generateIndividualByReproduction EAChildDemo.env EAChildDemo.cfg
      (EAChildDemo.mother, EAChildDemo.father) with
  | error e => intro h; cases h
  | ok r => intro h; exact ⟨r.1, r.2, rfl, of_decide_eq_true h⟩

/-- A gene that is not mutated lies between the different genes of the parents, if those lie in the box and the
normal draw is at most three standard deviations. -/
theorem C137_between {E : EAEnv K} {o o' : EA K} {m f c : Indiv K} (hB : IsBox o.dim o.lb o.ub)
    (hmb : InBox o.lb o.ub m.genes) (hfb : InBox o.lb o.ub f.genes)
    (h : EA.generateIndividualByReproduction E o (m, f) = .ok (o', c)) {i : Nat} {a b v : K}
    (ha : m.genes[i]? = some a) (hb : f.genes[i]? = some b) (hv : c.genes[i]? = some v) (hab : a ≠ b)
    (hmut : o.mutProb ≤ E.muts (o.nMut + i)) (hz : |E.nrm (o.nNrm + i)| ≤ 3) :
    min a b ≤ v ∧ v ≤ max a b := by
  have hm : m.genes.length = o.dim := hmb.1.trans hB.1
  obtain ⟨-, -, -, -, -, -, -, hg⟩ := C137_gene hB hm h
  have hi : i < o.dim := hm ▸ (List.getElem?_eq_some_iff.1 ha).1
  obtain ⟨l, hl⟩ : ∃ l, o.lb[i]? = some l := ⟨_, List.getElem?_eq_getElem (by rw [hB.1]; exact hi)⟩
  obtain ⟨u, hu⟩ : ∃ u, o.ub[i]? = some u := ⟨_, List.getElem?_eq_getElem (by rw [hB.2.1]; exact hi)⟩
  have := hg i a b _ _ ha hb hl hu
  rw [hv, if_neg (not_lt.2 hmut), if_neg hab] at this
  obtain ⟨a1, a2⟩ := hmb.2.2 i _ _ _ hl hu ha
  obtain ⟨b1, b2⟩ := hfb.2.2 i _ _ _ hl hu hb
  have e := Option.some.inj this
  have hz' := abs_le.1 hz
  generalize E.nrm (o.nNrm + i) = z at *
  have hd : 0 ≤ |b - a| / 6 := by positivity
  have k1 : z * (|b - a| / 6) ≤ |b - a| / 2 := by nlinarith
  have k2 : -(|b - a| / 2) ≤ z * (|b - a| / 6) := by nlinarith
  have k3 : min a b = (a + b) / 2 - |b - a| / 2 := by
    rcases le_total a b with hh | hh
    · rw [min_eq_left hh, abs_of_nonneg (by linarith)]; ring
    · rw [min_eq_right hh, abs_of_nonpos (by linarith)]; ring
  have k4 : max a b = (a + b) / 2 + |b - a| / 2 := by
    rcases le_total a b with hh | hh
    · rw [max_eq_right hh, abs_of_nonneg (by linarith)]; ring
    · rw [max_eq_left hh, abs_of_nonpos (by linarith)]; ring
  have k5 : l ≤ min a b := le_min a1 b1
  have k6 : max a b ≤ u := max_le a2 b2
  have k7 : min a b ≤ (a + b) / 2 + z * (|b - a| / 6) := by rw [k3]; linarith
  have k8 : (a + b) / 2 + z * (|b - a| / 6) ≤ max a b := by rw [k4]; linarith
  rw [e, min_eq_right (k8.trans k6), max_eq_right (k5.trans k7)]
  exact ⟨k7, k8⟩

/-- The hypotheses are met by the case above: the first gene. -/
example : InBox EAChildDemo.cfg.lb EAChildDemo.cfg.ub EAChildDemo.mother.genes ∧
    EAChildDemo.cfg.mutProb ≤ EAChildDemo.env.muts 0 ∧ |EAChildDemo.env.nrm 0| ≤ 3 := by
  refine ⟨⟨rfl, rfl, ?_⟩, by decide +kernel, by decide +kernel⟩
  intro i l u v hl hu hv
  match i with
  | 0 => simp [EAChildDemo.cfg, EAChildDemo.mother] at hl hu hv; subst hl hu hv; norm_num
  | 1 => simp [EAChildDemo.cfg, EAChildDemo.mother] at hl hu hv; subst hl hu hv; norm_num
  | i + 2 => simp [EAChildDemo.cfg] at hl

/-- Parents with the same gene: the child's gene is moved by the normal draw itself, whatever the size of the box,
and ends on a bound if the draw is at least as large as the side of the box. -/
theorem C137_equal {E : EAEnv K} {o o' : EA K} {m f c : Indiv K} (hB : IsBox o.dim o.lb o.ub)
    (hmb : InBox o.lb o.ub m.genes)
    (h : EA.generateIndividualByReproduction E o (m, f) = .ok (o', c)) {i : Nat} {a v l u : K}
    (ha : m.genes[i]? = some a) (hb : f.genes[i]? = some a) (hv : c.genes[i]? = some v)
    (hl : o.lb[i]? = some l) (hu : o.ub[i]? = some u)
    (hmut : o.mutProb ≤ E.muts (o.nMut + i)) (hz : u - l ≤ |E.nrm (o.nNrm + i)|) :
    v = l ∨ v = u := by
  have hm : m.genes.length = o.dim := hmb.1.trans hB.1
  obtain ⟨-, -, -, -, -, -, -, hg⟩ := C137_gene hB hm h
  have := hg i a a _ _ ha hb hl hu
  rw [hv, if_neg (not_lt.2 hmut), if_pos rfl, mul_one, add_self_div_two] at this
  obtain ⟨a1, a2⟩ := hmb.2.2 i _ _ _ hl hu ha
  have e := Option.some.inj this
  rcases le_total 0 (E.nrm (o.nNrm + i)) with h0 | h0
  · rw [abs_of_nonneg h0] at hz
    right
    rw [e, min_eq_left (by linarith), max_eq_right (a1.trans a2)]
  · rw [abs_of_nonpos h0] at hz
    left
    rw [e, max_eq_left ((min_le_right _ _).trans (by linarith))]

variable [FloorRing K]

/-- The same in double arithmetic: a gene that is not mutated is, up to rounding, the clamped exact one, for
parents' genes that are equal or at least `2^-1000` apart; a mutated gene is the double drawn between the bounds. -/
theorem C137_double {E : EAEnv K} {o o' : EA K} {m f c : Indiv K} (hB : IsBox o.dim o.lb o.ub)
    (hD : Doubles o.lb ∧ Doubles o.ub) (hm : m.genes.length = o.dim)
    (h : DblEA.generateIndividualByReproduction E o (m, f) = .ok (o', c)) {i : Nat} {a b l u v : K}
    (ha : m.genes[i]? = some a) (hb : f.genes[i]? = some b) (hl : o.lb[i]? = some l)
    (hu : o.ub[i]? = some u) (hv : c.genes[i]? = some v) :
    (E.muts (o.nMut + i) < o.mutProb → IsDouble (E.vecs o.nVec i) → 0 ≤ E.vecs o.nVec i →
      E.vecs o.nVec i < 1 → Dbl.uniformReal l u (E.vecs o.nVec i) = .ok v) ∧
    (o.mutProb ≤ E.muts (o.nMut + i) → IsDouble a → IsDouble b → IsDouble (E.nrm (o.nNrm + i)) →
      |a| ≤ 2 ^ (1000 : ℤ) → |b| ≤ 2 ^ (1000 : ℤ) → |E.nrm (o.nNrm + i)| ≤ 2 ^ (10 : ℤ) →
      b = a ∨ 2 ^ (-1000 : ℤ) ≤ |b - a| →
      |v - max l (min u ((a + b) / 2 + E.nrm (o.nNrm + i) * (if b = a then 1 else |b - a| / 6)))| ≤
        5 / 2 ^ 53 * (|E.nrm (o.nNrm + i)| * (if b = a then 1 else |b - a| / 6) + |(a + b) / 2|) +
          (2 * |E.nrm (o.nNrm + i)| + 3) * 2 ^ (-1075 : ℤ)) := by
  unfold DblEA.generateIndividualByReproduction at h
  split_ifs at h with h0
  obtain ⟨⟨o1, g⟩, h1, h⟩ := bind_ok_inv h
  obtain ⟨e6, e7⟩ := DblEA.crossOver_val hB hm _ h1
  dsimp only at e6 e7 h
  have hh := Except.ok.inj h
  simp only [Prod.mk.injEq] at hh
  obtain ⟨rfl, rfl⟩ := hh
  obtain ⟨r, w, hw, hr, hg⟩ := e7 i a b l u ha hb hl hu
  have hv' : g[i]? = some v := hv
  rw [hv'] at hg
  have hlu := hB.2.2 i l u hl hu
  constructor
  · intro hmut hd h2 h3
    rw [if_pos hmut] at hg
    obtain ⟨-, k1, k2⟩ := Dbl.uniformReal_post (hD.1 l (List.mem_of_getElem? hl))
      (hD.2 u (List.mem_of_getElem? hu)) hlu hd h2 h3 w hw
    rw [min_eq_right k2, max_eq_right k1] at hg
    rw [Option.some.inj hg]; exact hw
  · intro hmut da db dz ba bb bz hsep
    rw [if_neg (not_lt.2 hmut)] at hg
    obtain ⟨r', hr', -, herr⟩ := DblEA.normalDraw_total da db dz ba bb bz hsep
    rw [hr] at hr'
    obtain rfl := Except.ok.inj hr'
    rw [Option.some.inj hg]
    have k1 : |max l (min u r) - max l (min u ((a + b) / 2 +
        E.nrm (o.nNrm + i) * (if b = a then 1 else |b - a| / 6)))| ≤
        |r - ((a + b) / 2 + E.nrm (o.nNrm + i) * (if b = a then 1 else |b - a| / 6))| := by
      rw [max_comm l, max_comm l]
      refine (abs_max_sub_max_le_abs _ _ l).trans ?_
      have := abs_min_sub_min_le_max u r u
        ((a + b) / 2 + E.nrm (o.nNrm + i) * (if b = a then 1 else |b - a| / 6))
      rw [sub_self, abs_zero, max_eq_right (abs_nonneg _)] at this
      exact this
    refine k1.trans ?_
    rw [add_comm ((a + b) / 2), add_comm a b]
    refine herr.trans (le_of_eq ?_)
    rw [show (5 : K) / 2 ^ 53 = 5 * Dbl.eps by unfold Dbl.eps; ring]
    rfl

set_option maxRecDepth 100000 in
/-- The same case in double arithmetic; nothing is rounded, because the distance of the first genes is 6. -/
example : ∃ o' c, DblEA.generateIndividualByReproduction EAChildDemo.env EAChildDemo.cfg
      (EAChildDemo.mother, EAChildDemo.father) = .ok (o', c) ∧ c.genes = [7, 2] := by
  have : (match DblEA.generateIndividualByReproduction EAChildDemo.env EAChildDemo.cfg
      (EAChildDemo.mother, EAChildDemo.father) with
      | .ok r => decide (r.2.genes = [7, 2]) | .error _ => false) = true := by decide +kernel
  revert this
  cases DblEA.generateIndividualByReproduction EAChildDemo.env EAChildDemo.cfg
      (EAChildDemo.mother, EAChildDemo.father) with
  | error e => intro h; cases h
  | ok r => intro h; exact ⟨r.1, r.2, rfl, of_decide_eq_true h⟩

end Rodeo
