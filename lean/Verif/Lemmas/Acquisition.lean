import Verif.Lemmas.Gauss
import Verif.Lemmas.Post
import Verif.Lemmas.InitHistory
import Mathlib.Algebra.BigOperators.Group.List.Basic

set_option linter.unusedSectionVars false

/-! # Lemmas on the acquisition function -/

namespace Rodeo
open Text

section generic
variable {K : Type} [Field K] [LinearOrder K] [IsStrictOrderedRing K]

theorem foldRes_cons {α σ : Type} {f : σ → α → Res σ} {s s' : σ} {a : α} {l : List α}
    (h : f s a = .ok s') : foldRes f s (a :: l) = foldRes f s' l := by
  simp only [foldRes, h]

theorem putInt_ok {v : List K} {i : Nat} (h : i < v.length) (a : K) :
    putInt v (i : Int) a = .ok (v.set i a) := by
  unfold putInt Vec.put
  rw [if_neg (by omega), if_neg (by simpa using h)]
  simp

theorem vatInt_ok {v : List K} {i : Nat} {a : K} (h : v[i]? = some a) : vatInt v (i : Int) = .ok a := by
  unfold vatInt
  rw [if_neg (by omega)]
  exact vat_eq_ok.2 (by simpa using h)

/-- The constraints have the numbers `0, ..., n - 1`, each once. -/
def Numbered (cs : List (AcqConstraint K)) : Prop :=
  (cs.map (·.id)).Perm ((List.range cs.length).map Int.ofNat)

/-- Writing one entry for each constraint. -/
theorem fold_put {n : Nat} (p : AcqConstraint K → K) {f : List K → AcqConstraint K → Res (List K)}
    (cs : List (AcqConstraint K)) (hf : ∀ c ∈ cs, ∀ ps, f ps c = putInt ps c.id (p c))
    (hid : ∀ c ∈ cs, ∃ i : Nat, c.id = i ∧ i < n) (hnd : (cs.map (·.id)).Nodup)
    (ps : List K) (hps : ps.length = n) :
    ∃ ps', foldRes f ps cs = .ok ps' ∧ ps'.length = n ∧
      (∀ c ∈ cs, ∀ i : Nat, c.id = i → ps'[i]? = some (p c)) ∧
      (∀ i : Nat, (∀ c ∈ cs, c.id ≠ i) → ps'[i]? = ps[i]?) := by
  induction cs generalizing ps with
  | nil => exact ⟨ps, rfl, hps, by simp, fun _ _ => rfl⟩
  | cons c cs ih =>
    rw [List.map_cons, List.nodup_cons] at hnd
    obtain ⟨i, hi, hin⟩ := hid c (by simp)
    have h1 : f ps c = .ok (ps.set i (p c)) := by
      rw [hf c (by simp), hi]; exact putInt_ok (by omega) _
    obtain ⟨ps', e, hl, h2, h3⟩ := ih (fun d hd => hf d (by simp [hd])) (fun d hd => hid d (by simp [hd]))
      hnd.2 (ps.set i (p c)) (by simpa using hps)
    refine ⟨ps', by rw [foldRes_cons h1, e], hl, ?_, ?_⟩
    · intro d hd j hj
      rcases List.mem_cons.1 hd with rfl | hd
      · have hij : i = j := by omega
        subst hij
        rw [h3 i ?_]
        · simp [hps, hin]
        · intro d' hd' he
          exact hnd.1 (List.mem_map.2 ⟨d', hd', by rw [he, hi]⟩)
      · exact h2 d hd j hj
    · intro j hj
      have hc := hj c (by simp)
      rw [h3 j fun d hd => hj d (by simp [hd])]
      rw [List.getElem?_set_ne (by omega)]

theorem numbered_id {cs : List (AcqConstraint K)} (h : Numbered cs) {c : AcqConstraint K}
    (hc : c ∈ cs) : ∃ i : Nat, c.id = i ∧ i < cs.length := by
  have := h.mem_iff.1 (List.mem_map.2 ⟨c, hc, rfl⟩)
  obtain ⟨i, hi, e⟩ := List.mem_map.1 this
  exact ⟨i, e.symm, List.mem_range.1 hi⟩

theorem numbered_nodup {cs : List (AcqConstraint K)} (h : Numbered cs) : (cs.map (·.id)).Nodup := by
  rw [h.nodup_iff]
  exact List.Nodup.map (fun a b e => by simpa using e) List.nodup_range

/-- The product over the vector is the product over the constraints. -/
theorem numbered_prod {cs : List (AcqConstraint K)} (h : Numbered cs) {ps : List K}
    {p : AcqConstraint K → K} (hl : ps.length = cs.length)
    (hp : ∀ c ∈ cs, ∀ i : Nat, c.id = i → ps[i]? = some (p c)) : ps.prod = (cs.map p).prod := by
  have h1 : cs.map p = (cs.map (·.id)).map (fun z => ps.getD z.toNat 0) := by
    rw [List.map_map]
    refine List.map_congr_left fun c hc => ?_
    obtain ⟨i, hi, hin⟩ := numbered_id h hc
    have := hp c hc i hi
    simp [hi, List.getD, this]
  have h2 : ps = ((List.range cs.length).map Int.ofNat).map (fun z => ps.getD z.toNat 0) := by
    rw [List.map_map]
    apply List.ext_getElem
    · simp [hl]
    · intro i h3 h4
      simp [List.getD, h3]
  rw [h1, (h.map (fun z => ps.getD z.toNat 0)).prod_eq, ← h2]

theorem updateAcquisition_ok (d : AcqDesign K) :
    d.updateAcquisition = .ok { d with value := d.value * d.probabilities.prod } := by
  unfold AcqDesign.updateAcquisition
  have : OkP (forRange d.probabilities.length (fun i v => do
      let p ← vat d.probabilities i
      .ok (v * p)) d.value) (fun v => v = d.value * (d.probabilities.take d.probabilities.length).prod) := by
    refine forRange_inv (fun i v => v = d.value * (d.probabilities.take i).prod) (by simp) ?_
    intro j v hj hv
    refine ⟨_, bind_eq (vat_ok_of_lt hj) rfl, ?_⟩
    rw [hv, List.prod_take_succ _ _ hj, mul_assoc]
  obtain ⟨v, e, hv⟩ := this
  refine bind_eq e ?_
  rw [hv, List.take_length]

/-- The estimates of all constraints. -/
theorem estimateConstraints_ok {F : Fns K} {lb ub : List K} {cs : List (AcqConstraint K)}
    (hn : Numbered cs) {d : AcqDesign K} (m s : AcqConstraint K → K)
    (he : ∀ c ∈ cs, c.estimate F lb ub d.dv = .ok (m c, s c))
    (h1 : d.constraintValues.length = cs.length) (h2 : d.constraintSigmas.length = cs.length) :
    ∃ vs ss, estimateConstraints F lb ub cs d =
        .ok { d with constraintValues := vs, constraintSigmas := ss } ∧
      vs.length = cs.length ∧ ss.length = cs.length ∧
      ∀ c ∈ cs, ∀ i : Nat, c.id = i → vs[i]? = some (m c) ∧ ss[i]? = some (s c) := by
  unfold estimateConstraints
  rw [if_neg (by simp [h1])]
  suffices H : ∀ (l : List (AcqConstraint K)) (v t : List K), (∀ c ∈ l, c ∈ cs) → (l.map (·.id)).Nodup →
      v.length = cs.length → t.length = cs.length →
      ∃ vs ss, foldRes (fun d c => estimateStep F lb ub c d)
          { d with constraintValues := v, constraintSigmas := t } l =
          .ok { d with constraintValues := vs, constraintSigmas := ss } ∧
        vs.length = cs.length ∧ ss.length = cs.length ∧
        (∀ c ∈ l, ∀ i : Nat, c.id = i → vs[i]? = some (m c) ∧ ss[i]? = some (s c)) ∧
        (∀ i : Nat, (∀ c ∈ l, c.id ≠ i) → vs[i]? = v[i]? ∧ ss[i]? = t[i]?) by
    obtain ⟨vs, ss, e, l1, l2, h3, -⟩ := H cs d.constraintValues d.constraintSigmas (fun _ h => h)
      (numbered_nodup hn) h1 h2
    exact ⟨vs, ss, e, l1, l2, h3⟩
  intro l
  induction l with
  | nil => intro v t _ _ hv ht; exact ⟨v, t, rfl, hv, ht, by simp, fun _ _ => ⟨rfl, rfl⟩⟩
  | cons c l ih =>
    intro v t hin hnd hv ht
    rw [List.map_cons, List.nodup_cons] at hnd
    obtain ⟨i, hi, hil⟩ := numbered_id hn (hin c (by simp))
    have hstep : estimateStep F lb ub c { d with constraintValues := v, constraintSigmas := t } =
        .ok { d with constraintValues := v.set i (m c), constraintSigmas := t.set i (s c) } := by
      unfold estimateStep
      refine bind_eq (he c (hin c (by simp))) ?_
      rw [hi]
      exact bind_eq (putInt_ok (v := v) (by omega) _) (bind_eq (putInt_ok (v := t) (by omega) _) rfl)
    obtain ⟨vs, ss, e, l1, l2, h3, h4⟩ := ih (v.set i (m c)) (t.set i (s c))
      (fun x hx => hin x (by simp [hx])) hnd.2 (by simpa using hv) (by simpa using ht)
    refine ⟨vs, ss, by rw [foldRes_cons hstep, e], l1, l2, ?_, ?_⟩
    · intro x hx j hj
      rcases List.mem_cons.1 hx with rfl | hx
      · have hij : i = j := by omega
        subst hij
        have hout : ∀ y ∈ l, y.id ≠ (i : Int) := fun y hy hey =>
          hnd.1 (List.mem_map.2 ⟨y, hy, by rw [hey, hi]⟩)
        rw [(h4 i hout).1, (h4 i hout).2]
        simp [hv, ht, hil]
      · exact h3 x hx j hj
    · intro j hj
      have hc := hj c (by simp)
      obtain ⟨a1, a2⟩ := h4 j fun x hx => hj x (by simp [hx])
      rw [a1, a2, List.getElem?_set_ne (by omega), List.getElem?_set_ne (by omega)]
      exact ⟨rfl, rfl⟩

end generic

end Rodeo
