import Verif.Lemmas.DblEAGene

/-! # The genes of a child, exactly and in double arithmetic -/

set_option linter.unusedSectionVars false

namespace Rodeo
open Spec

variable {K : Type} [Field K] [LinearOrder K] [IsStrictOrderedRing K]

namespace EA

/-- The clamping loop changes every gene to the nearest number between its bounds. -/
theorem clampGenes_val {d : Nat} {lb ub g : List K} (hB : IsBox d lb ub) (hg : g.length = d) :
    Post (clampGenes d lb ub g) (fun g' => g'.length = d ∧ ∀ (i : Nat) (l u v : K), lb[i]? = some l →
      ub[i]? = some u → g[i]? = some v → g'[i]? = some (max l (min u v))) := by
  obtain ⟨hl, hu, hle⟩ := hB
  have H : ∃ g', clampGenes d lb ub g = .ok g' ∧ (g'.length = d ∧ ∀ j, (d ≤ j → g'[j]? = g[j]?) ∧
      (j < d → ∀ l u v, lb[j]? = some l → ub[j]? = some u → g[j]? = some v →
        g'[j]? = some (max l (min u v)))) := by
    unfold clampGenes
    refine forRange_inv (fun i (g' : List K) => g'.length = d ∧ ∀ j, (i ≤ j → g'[j]? = g[j]?) ∧
      (j < i → ∀ l u v, lb[j]? = some l → ub[j]? = some u → g[j]? = some v →
        g'[j]? = some (max l (min u v)))) ⟨hg, fun j => ⟨fun _ => rfl, by intro hj; omega⟩⟩ ?_
    rintro i s hi ⟨hs, hI⟩
    have e1 : vat s i = .ok s[i] := vat_ok_of_lt (by omega)
    have e2 : vat lb i = .ok lb[i] := vat_ok_of_lt (by omega)
    have e3 : vat ub i = .ok ub[i] := vat_ok_of_lt (by omega)
    refine ⟨_, bind_eq e1 (bind_eq e2 (bind_eq e3 rfl)), by simp [hs], ?_⟩
    intro j
    constructor
    · intro hj
      rw [List.getElem?_set_ne (by omega)]
      exact (hI j).1 (by omega)
    · intro hj l u v hjl hju hjv
      by_cases hji : j = i
      · subst hji
        have hl' : lb[j] = l := by
          have := List.getElem?_eq_getElem (l := lb) (i := j) (by omega)
          rw [hjl] at this; exact (Option.some.inj this).symm
        have hu' : ub[j] = u := by
          have := List.getElem?_eq_getElem (l := ub) (i := j) (by omega)
          rw [hju] at this; exact (Option.some.inj this).symm
        have hv' : s[j] = v := by
          have := List.getElem?_eq_getElem (l := s) (i := j) (by omega)
          rw [(hI j).1 le_rfl, hjv] at this; exact (Option.some.inj this).symm
        rw [List.getElem?_set_self (by omega)]
        have hlu := hle j l u hjl hju
        rw [hl', hu', hv']
        congr 1
        by_cases a : v < l
        · rw [if_pos a, if_neg (not_lt.2 hlu), min_eq_right (a.le.trans hlu), max_eq_left a.le]
        · rw [if_neg a]
          by_cases b : v > u
          · rw [if_pos b, min_eq_left b.le, max_eq_right hlu]
          · rw [if_neg b, min_eq_right (not_lt.1 b), max_eq_right (not_lt.1 a)]
      · rw [List.getElem?_set_ne (by omega)]
        exact (hI j).2 (by omega) l u v hjl hju hjv
  obtain ⟨g', h1, h2, h3⟩ := H
  intro x hx
  rw [h1] at hx
  obtain rfl := Except.ok.inj hx
  refine ⟨h2, fun i l u v a b c => (h3 i).2 ?_ l u v a b c⟩
  have := (List.getElem?_eq_some_iff.1 a).1
  omega

theorem mutateGenes_val {m : Nat → K} {prob : K} {genes random : List K} :
    Post (mutateGenes m prob genes random) (fun g' => g'.length = genes.length ∧
      ∀ (i : Nat) (v w : K), genes[i]? = some v → random[i]? = some w →
        g'[i]? = some (if m i < prob then w else v)) := by
  intro g' hg'
  obtain ⟨h1, h2⟩ := tab_inv hg'
  refine ⟨h1, ?_⟩
  intro i v w hv hw
  have hi : i < genes.length := (List.getElem?_eq_some_iff.1 hv).1
  obtain ⟨a, ha, ha'⟩ := h2 i hi
  have e : rawAt genes i = .ok v := by simp [rawAt, hv]
  rw [ha']
  obtain ⟨g, e1, ha⟩ := bind_ok_inv ha
  rw [e] at e1
  obtain rfl := Except.ok.inj e1
  split_ifs at ha ⊢ with hm
  · rw [vat_eq_ok, hw] at ha; exact ha.symm
  · exact congrArg some (Except.ok.inj ha).symm

/-- The genes of a child in exact arithmetic. -/
theorem crossOver_val {E : EAEnv K} {o : EA K} {m f : Indiv K} (hB : IsBox o.dim o.lb o.ub)
    (hm : m.genes.length = o.dim) : Post (crossOver E o (m, f)) (fun r =>
      r.1.dim = o.dim ∧ r.1.total = o.total ∧ r.1.nVec = o.nVec + 1 ∧ r.1.nMut = o.nMut + o.dim ∧
      r.1.nNrm = o.nNrm + o.dim ∧ r.2.length = o.dim ∧
      ∀ (i : Nat) (a b l u : K), m.genes[i]? = some a → f.genes[i]? = some b → o.lb[i]? = some l →
        o.ub[i]? = some u → r.2[i]? = some (max l (min u (if E.muts (o.nMut + i) < o.mutProb then
          uniformReal l u (E.vecs o.nVec i) else normalDraw a b (E.nrm (o.nNrm + i)))))) := by
  unfold crossOver
  split_ifs with h1 h2
  · exact Post.error
  · exact Post.error
  dsimp only at h1 h2 ⊢
  refine Post.bind (P := fun g : List K => g.length = o.dim ∧ ∀ (i : Nat) (a b : K), m.genes[i]? = some a →
    f.genes[i]? = some b → g[i]? = some (normalDraw a b (E.nrm (o.nNrm + i)))) ?_ ?_
  · intro g hg
    obtain ⟨h3, h4⟩ := tab_inv hg
    refine ⟨h3.trans hm, ?_⟩
    intro i a b ha hb
    obtain ⟨v, hv, hv'⟩ := h4 i (List.getElem?_eq_some_iff.1 ha).1
    rw [bind_eq (vat_eq_ok.2 ha) (bind_eq (vat_eq_ok.2 hb) rfl)] at hv
    rw [hv', ← Except.ok.inj hv]
  rintro g ⟨hg, hgv⟩
  refine Post.bind (P := fun r : EA K × List K => (r.1 =
      { o with nNrm := o.nNrm + m.genes.length, nVec := o.nVec + 1, nMut := o.nMut + g.length }) ∧ r.2.length = o.dim ∧
      ∀ (i : Nat) (v l u : K), g[i]? = some v → o.lb[i]? = some l → o.ub[i]? = some u →
        r.2[i]? = some (if E.muts (o.nMut + i) < o.mutProb then uniformReal l u (E.vecs o.nVec i) else v)) ?_ ?_
  · unfold applyMutation
    split_ifs
    · exact Post.error
    · exact Post.error
    refine Post.bind (P := fun r : EA K × List K => r.1 =
        { o with nNrm := o.nNrm + m.genes.length, nVec := o.nVec + 1 } ∧ ∀ (i : Nat) (l u : K), o.lb[i]? = some l → o.ub[i]? = some u →
          r.2[i]? = some (uniformReal l u (E.vecs o.nVec i))) ?_ ?_
    · unfold randomGenes
      refine Post.bind (P := fun r : List K => ∀ (i : Nat) (l u : K), o.lb[i]? = some l → o.ub[i]? = some u →
          r[i]? = some (uniformReal l u (E.vecs o.nVec i))) ?_ (fun r hr => Post.ok ⟨rfl, hr⟩)
      intro r hr i l u hl hu
      unfold Vec.generateRandomVectorBetween at hr
      split_ifs at hr with hlen
      obtain ⟨h3, h4⟩ := tab_inv hr
      obtain ⟨v, hv, hv'⟩ := h4 i (List.getElem?_eq_some_iff.1 hl).1
      simp only [rawAt, hl, hu] at hv
      have hv2 : (if l > u then (.error .ub : Res K) else .ok (uniformReal l u (E.vecs o.nVec i))) = .ok v := hv
      split_ifs at hv2
      rw [hv', ← Except.ok.inj hv2]
    · rintro ⟨o1, r⟩ ⟨ho1, hr⟩
      dsimp only at ho1 hr ⊢
      subst ho1
      refine mutateGenes_val.bind ?_
      rintro g' ⟨h3, h4⟩
      exact Post.ok ⟨rfl, by dsimp only; omega, fun i v l u hv hl hu => h4 i v _ hv (hr i l u hl hu)⟩
  · rintro ⟨o2, g2⟩ ⟨ho2, hg2, hv2⟩
    dsimp only at ho2 hg2 hv2 ⊢
    subst ho2
    refine (clampGenes_val hB hg2).bind ?_
    rintro g3 ⟨h3, h4⟩
    refine Post.ok ⟨rfl, rfl, rfl, by dsimp only; omega, by dsimp only; omega, h3, ?_⟩
    intro i a b l u ha hb hl hu
    exact h4 i l u _ hl hu (hv2 i _ l u (hgv i a b ha hb) hl hu)

end EA

namespace DblEA

variable [FloorRing K]

/-- The genes of a child in double arithmetic. -/
theorem crossOver_val {E : EAEnv K} {o : EA K} {m f : Indiv K} (hB : IsBox o.dim o.lb o.ub)
    (hm : m.genes.length = o.dim) : Post (crossOver E o (m, f)) (fun r => r.2.length = o.dim ∧
      ∀ (i : Nat) (a b l u : K), m.genes[i]? = some a → f.genes[i]? = some b → o.lb[i]? = some l →
        o.ub[i]? = some u → ∃ v w, Dbl.uniformReal l u (E.vecs o.nVec i) = .ok w ∧
          normalDraw a b (E.nrm (o.nNrm + i)) = .ok v ∧
          r.2[i]? = some (max l (min u (if E.muts (o.nMut + i) < o.mutProb then w else v)))) := by
  unfold crossOver
  split_ifs with h1 h2
  · exact Post.error
  · exact Post.error
  dsimp only at h1 h2 ⊢
  refine Post.bind (P := fun g : List K => g.length = o.dim ∧ ∀ (i : Nat) (a b : K), m.genes[i]? = some a →
    f.genes[i]? = some b → ∃ v, normalDraw a b (E.nrm (o.nNrm + i)) = .ok v ∧ g[i]? = some v) ?_ ?_
  · intro g hg
    obtain ⟨h3, h4⟩ := tab_inv hg
    refine ⟨h3.trans hm, ?_⟩
    intro i a b ha hb
    obtain ⟨v, hv, hv'⟩ := h4 i (List.getElem?_eq_some_iff.1 ha).1
    rw [bind_eq (vat_eq_ok.2 ha) (bind_eq (vat_eq_ok.2 hb) rfl)] at hv
    exact ⟨v, hv, hv'⟩
  rintro g ⟨hg, hgv⟩
  refine Post.bind (P := fun r : EA K × List K => (r.1 =
      { o with nNrm := o.nNrm + m.genes.length, nVec := o.nVec + 1, nMut := o.nMut + g.length }) ∧ r.2.length = o.dim ∧
      ∀ (i : Nat) (v l u : K), g[i]? = some v → o.lb[i]? = some l → o.ub[i]? = some u →
        ∃ w, Dbl.uniformReal l u (E.vecs o.nVec i) = .ok w ∧
        r.2[i]? = some (if E.muts (o.nMut + i) < o.mutProb then w else v)) ?_ ?_
  · unfold applyMutation
    split_ifs
    · exact Post.error
    · exact Post.error
    refine Post.bind (P := fun r : EA K × List K => r.1 =
        { o with nNrm := o.nNrm + m.genes.length, nVec := o.nVec + 1 } ∧ ∀ (i : Nat) (l u : K), o.lb[i]? = some l → o.ub[i]? = some u →
          ∃ w, Dbl.uniformReal l u (E.vecs o.nVec i) = .ok w ∧ r.2[i]? = some w) ?_ ?_
    · unfold randomGenes
      refine Post.bind (P := fun r : List K => ∀ (i : Nat) (l u : K), o.lb[i]? = some l → o.ub[i]? = some u →
          ∃ w, Dbl.uniformReal l u (E.vecs o.nVec i) = .ok w ∧ r[i]? = some w) ?_
        (fun r hr => Post.ok ⟨rfl, hr⟩)
      intro r hr i l u hl hu
      unfold randomVectorBetween at hr
      split_ifs at hr with hlen
      obtain ⟨h3, h4⟩ := tab_inv hr
      obtain ⟨v, hv, hv'⟩ := h4 i (List.getElem?_eq_some_iff.1 hl).1
      simp only [rawAt, hl, hu] at hv
      have hv2 : (if l > u then .error .ub else Dbl.uniformReal l u (E.vecs o.nVec i)) = Except.ok v := hv
      split_ifs at hv2
      exact ⟨v, hv2, hv'⟩
    · rintro ⟨o1, r⟩ ⟨ho1, hr⟩
      dsimp only at ho1 hr ⊢
      subst ho1
      refine EA.mutateGenes_val.bind ?_
      rintro g' ⟨h3, h4⟩
      refine Post.ok ⟨rfl, by dsimp only; omega, fun i v l u hv hl hu => ?_⟩
      obtain ⟨w, hw, hw'⟩ := hr i l u hl hu
      exact ⟨w, hw, h4 i v w hv hw'⟩
  · rintro ⟨o2, g2⟩ ⟨ho2, hg2, hv2⟩
    dsimp only at ho2 hg2 hv2 ⊢
    subst ho2
    refine (EA.clampGenes_val hB hg2).bind ?_
    rintro g3 ⟨h3, h4⟩
    refine Post.ok ⟨h3, ?_⟩
    intro i a b l u ha hb hl hu
    obtain ⟨v, hv, hv'⟩ := hgv i a b ha hb
    obtain ⟨w, hw, hw'⟩ := hv2 i v l u hv' hl hu
    exact ⟨v, w, hw, hv, h4 i l u _ hl hu hw'⟩

end DblEA
end Rodeo
