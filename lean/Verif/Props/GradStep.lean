import Verif.Model.GradStep
import Verif.Props.AcqSearch
import Verif.Props.TrustRegion
import Verif.Props.VecStat
import Verif.Lemmas.Kriging
import Verif.Lemmas.Post

/-! # C105: the gradient-based search step -/

set_option linter.unusedSectionVars false
set_option linter.unusedSimpArgs false

namespace Rodeo
open Text Spec Finset

variable {K : Type} [Field K] [LinearOrder K] [IsStrictOrderedRing K]

namespace Spec

/-- The parameters that the normalized parameters `x` stand for. -/
def actualParam (S : GradSetup K) (x : List K) (i : Nat) : K :=
  vecFun x i * (S.dim : K) * (vecFun S.ub i - vecFun S.lb i) + vecFun S.lb i

/-- To first order the objective decreases from the incumbent to `x`: the gradient and the difference of
the parameters have a negative inner product. -/
def Downhill (S : GradSetup K) (gradient incumbent x : List K) : Prop :=
  ∑ i ∈ range S.dim,
    (actualParam S x i - actualParam S incumbent i) * vecFun gradient i < 0

/-- A problem with a gradient and an incumbent of its dimension, and draws of `[0, 1)`. -/
structure GradInput (S : GradSetup K) (gradient incumbent : List K) (w : List K × List K)
    (u : Nat → Nat → K) : Prop where
  box : ValidBox S.dim S.lb S.ub
  gradientSize : gradient.length = S.dim
  incumbentSize : incumbent.length = S.dim
  window : ∃ factor trFactor : K, 0 ≤ trFactor ∧
    gradientStepWindow S.dim incumbent factor trFactor = .ok w
  draws : ∀ i j, 0 ≤ u i j ∧ u i j < 1

/-- The value of a trial: the expected improvement, with constraints times the probability that they are
satisfied. -/
def trialValue (S : GradSetup K) (ei penalty : List K → K) (x : List K) : K :=
  if S.constrained then ei x * penalty x else ei x

/-- One thread that makes `k` steps. -/
def oneThread (k : Nat) : Execution := ⟨1, fun _ => 0, List.replicate k 0⟩

/-- The trials of the step. -/
def Trials (S : GradSetup K) (w : List K × List K) (u : Nat → Nat → K) (cs : List (List K)) : Prop :=
  tab S.trials (fun i => Vec.fillRandom S.dim w.1 w.2 (u i)) = .ok cs

end Spec

/-! ## The test -/

theorem vecFun_set {v : List K} {i j : Nat} {a : K} (h : i < v.length) :
    vecFun (v.set i a) j = if j = i then a else vecFun v j := by
  unfold vecFun
  by_cases e : j = i
  · subst e; simp [List.getD, h]
  · simp [List.getD, e, Ne.symm e]

theorem scaleGradient_ok {dim : Nat} {lb ub g : List K} (hb : ValidBox dim lb ub)
    (hg : g.length = dim) : OkP (scaleGradient dim lb ub g) (fun r => r.length = dim ∧
      ∀ i, i < dim → vecFun r i = vecFun g i * ((vecFun ub i - vecFun lb i) * (dim : K))) := by
  obtain ⟨hd, hl, hu, hlt⟩ := hb
  obtain ⟨r, h1, h2, h3⟩ := forRange_inv (body := scaleGradientBody dim lb ub)
    (fun k r => r.length = dim ∧ ∀ i, i < dim → vecFun r i =
      if i < k then vecFun g i * ((vecFun ub i - vecFun lb i) * (dim : K)) else vecFun g i)
    (n := dim) (s := g) ⟨hg, fun i _ => by simp⟩ (by
      intro j r hj ⟨hr, hv⟩
      have a1 : j < lb.length := by omega
      have a2 : j < ub.length := by omega
      have hlt' : vecFun lb j < vecFun ub j := by
        have := hlt j lb[j] ub[j] (by simp) (by simp)
        simpa [vecFun, List.getD, a1, a2] using this
      have hdim : (0 : K) < dim := by exact_mod_cast hd
      have hpos : 0 < (vecFun ub j - vecFun lb j) * (dim : K) := mul_pos (by linarith) hdim
      refine ⟨r.set j (vecFun r j * ((vecFun ub j - vecFun lb j) * (dim : K))), ?_, by simpa using hr, ?_⟩
      · unfold scaleGradientBody
        refine bind_eq (Mat.vat_vecFun a2) (bind_eq (Mat.vat_vecFun a1) ?_)
        dsimp only
        rw [if_neg (not_le.2 hpos)]
        exact bind_eq (Mat.vat_vecFun (by omega)) rfl
      · intro i hi
        rw [vecFun_set (by omega)]
        by_cases e : i = j
        · subst e; rw [if_pos rfl, if_pos (by omega), hv _ hi, if_neg (by omega)]
        · rw [if_neg e, hv _ hi]
          by_cases e2 : i < j
          · rw [if_pos e2, if_pos (by omega)]
          · rw [if_neg e2, if_neg (by omega)])
  exact ⟨r, h1, h2, fun i hi => by rw [h3 i hi, if_pos hi]⟩

theorem Vec.sub_vecFun {v w : List K} {n : Nat} (hv : v.length = n) (hw : w.length = n) :
    OkP (Vec.sub v w) (fun r => r.length = n ∧ ∀ i, i < n → vecFun r i = vecFun v i - vecFun w i) := by
  unfold Vec.sub
  rw [if_neg (by omega), hv]
  refine ⟨_, tab_ok (g := fun i => vecFun v i - vecFun w i) ?_, by simp, ?_⟩
  · intro j hj
    rw [Corr.rawAt_vecFun (by omega), Corr.rawAt_vecFun (by omega)]
  · intro i hi
    simp [vecFun, List.getD, hi]

/-- The test of the program is whether the trial is downhill. -/
theorem downhill_ok {S : GradSetup K} {gradient incumbent g x : List K}
    (hi : incumbent.length = S.dim) (hx : x.length = S.dim) (hg : g.length = S.dim)
    (hv : ∀ i, i < S.dim → vecFun g i =
      vecFun gradient i * ((vecFun S.ub i - vecFun S.lb i) * (S.dim : K))) :
    ∃ b, GradSearch.downhill g incumbent x = .ok b ∧
      (b = true ↔ Downhill S gradient incumbent x) := by
  obtain ⟨d, e1, l1, v1⟩ := Vec.sub_vecFun hx hi
  refine ⟨_, bind_eq e1 (bind_eq (Vec.dot_ok l1 hg) rfl), ?_⟩
  rw [decide_eq_true_iff]
  unfold Downhill
  have : ∀ i ∈ range S.dim, vecFun d i * vecFun g i =
      (actualParam S x i - actualParam S incumbent i) * vecFun gradient i := by
    intro i h
    rw [v1 i (mem_range.1 h), hv i (mem_range.1 h)]
    unfold actualParam
    ring
  rw [sum_congr rfl this]

namespace GradSearch

variable {constrained : Bool} {E : GradAcq K} {g incumbent : List K} {cs : List (List K)}
  {P : List K → Prop}

theorem foldCons {α σ : Type} {f : σ → α → Res σ} {s s' : σ} {a : α} {l : List α}
    (h : f s a = .ok s') : foldRes f s (a :: l) = foldRes f s' l := by
  simp only [foldRes, h]

/-! ## One thread -/

/-- The number of steps a thread can still make is at most this. -/
def left (t : GradThread K) : Nat :=
  6 * t.todo.length + match t.pc with
    | .generate => 0
    | .test => 5
    | .evaluate => 4
    | .compare _ => 3
    | .record _ => 2
    | .copy => 1

/-- `best` and `top` are those of the trials in `done`. -/
def BestOf (P : List K → Prop) (value : List K → K) (b0 : BODesign K) (best : BODesign K) (top : K)
    (done : List (List K)) : Prop :=
  (∀ d ∈ done, P d → value d ≤ top) ∧
  ((best.dv ∈ done ∧ P best.dv ∧ top = value best.dv) ∨
    (top = -10 ^ 15 ∧ best = b0 ∧ ∀ d ∈ done, ¬ P d))

theorem BestOf.skip {value : List K → K} {b0 best : BODesign K} {top : K} {done : List (List K)}
    {x : List K} (h : BestOf P value b0 best top done) (hx : P x → value x ≤ top)
    (hbot : ∀ y, -10 ^ 15 < value y) : BestOf P value b0 best top (done ++ [x]) := by
  obtain ⟨h1, h2⟩ := h
  refine ⟨?_, ?_⟩
  · intro d hd hp
    rcases List.mem_append.1 hd with hd | hd
    · exact h1 d hd hp
    · rw [List.mem_singleton.1 hd] at hp ⊢; exact hx hp
  · rcases h2 with ⟨a, b, c⟩ | ⟨a, b, c⟩
    · exact Or.inl ⟨List.mem_append_left _ a, b, c⟩
    · refine Or.inr ⟨a, b, ?_⟩
      intro d hd hp
      rcases List.mem_append.1 hd with hd | hd
      · exact c d hd hp
      · rw [List.mem_singleton.1 hd] at hp
        have := hx hp
        have := hbot x
        rw [a] at *
        linarith

/-- What holds between two steps of a single thread. -/
def Single (cs : List (List K)) (P : List K → Prop) (constrained : Bool) (ei penalty : List K → K)
    (b0 : BODesign K) (s : GradSearch K) : Prop :=
  let value := fun x => if constrained then ei x * penalty x else ei x
  ∃ t, s.threads = [t] ∧ ∃ done, match t.pc with
    | .generate => cs = done ++ t.todo ∧ BestOf P value b0 s.best s.top done
    | .test => ∃ x, cs = done ++ x :: t.todo ∧ s.trial.dv = x ∧ BestOf P value b0 s.best s.top done
    | .evaluate => ∃ x, cs = done ++ x :: t.todo ∧ s.trial.dv = x ∧ P x ∧
        BestOf P value b0 s.best s.top done
    | .compare v => ∃ x, cs = done ++ x :: t.todo ∧ s.trial.dv = x ∧ P x ∧
        (if constrained then v else s.trial.value) = value x ∧ BestOf P value b0 s.best s.top done
    | .record v => ∃ x, cs = done ++ x :: t.todo ∧ s.trial.dv = x ∧ P x ∧
        (if constrained then v else s.trial.value) = value x ∧ s.top < value x ∧
        BestOf P value b0 s.best s.top done
    | .copy => ∃ x, cs = done ++ x :: t.todo ∧ s.trial.dv = x ∧ P x ∧ s.top = value x ∧
        ∀ d ∈ done, P d → value d ≤ s.top

/-- The number of steps left for a single thread. -/
def leftAll (s : GradSearch K) : Nat := (s.threads.map left).sum

theorem single_step {ei penalty : List K → K} {b0 : BODesign K} {s : GradSearch K}
    (hE : ∀ x, E.ei x = .ok (ei x)) (hp : E.penalty = penalty)
    (hT : ∀ x ∈ cs, ∃ b, downhill g incumbent x = .ok b ∧ (b = true ↔ P x))
    (hbot : ∀ x, -10 ^ 15 < (if constrained then ei x * penalty x else ei x))
    (h : Single cs P constrained ei penalty b0 s) :
    OkP (step constrained E g incumbent s 0)
      (fun s' => Single cs P constrained ei penalty b0 s' ∧ leftAll s' ≤ leftAll s - 1) := by
  obtain ⟨t, ht, done, h⟩ := h
  obtain ⟨todo, pc⟩ := t
  unfold step
  have e0 : s.threads[0]? = some ⟨todo, pc⟩ := by rw [ht]; rfl
  rw [e0]
  dsimp only
  have hl : leftAll s = left ⟨todo, pc⟩ := by simp [leftAll, ht]
  have hset : ∀ t', s.threads.set 0 t' = [t'] := by intro t'; rw [ht]; rfl
  cases pc with
  | generate =>
    obtain ⟨hcs, hb⟩ := h
    cases todo with
    | nil =>
      refine ⟨_, rfl, ⟨⟨[], .generate⟩, hset _, done, hcs, hb⟩, ?_⟩
      rw [hl]
      simp only [leftAll, hset, left, List.map_cons, List.map_nil, List.sum_cons, List.sum_nil,
        List.length_cons, List.length_nil, Bool.false_eq_true, if_false, if_true]
      omega
    | cons x xs =>
      refine ⟨_, rfl, ⟨⟨xs, .test⟩, hset _, done, x, hcs, rfl, hb⟩, ?_⟩
      rw [hl]
      simp only [leftAll, hset, left, List.map_cons, List.map_nil, List.sum_cons, List.sum_nil,
        List.length_cons, List.length_nil, Bool.false_eq_true, if_false, if_true]
      omega
  | test =>
    obtain ⟨x, hcs, hx, hb⟩ := h
    obtain ⟨b, eb, hbP⟩ := hT x (by rw [hcs]; simp)
    have e1 : threadStep constrained E g incumbent s ⟨todo, .test⟩ =
        .ok (s, ⟨todo, if b then .evaluate else .generate⟩) := by
      unfold threadStep
      rw [hx]
      exact bind_eq eb rfl
    refine ⟨_, bind_eq e1 rfl, ?_⟩
    cases b with
    | true =>
      refine ⟨⟨⟨todo, .evaluate⟩, hset _, done, x, hcs, hx, hbP.1 rfl, hb⟩, ?_⟩
      rw [hl]
      simp only [leftAll, hset, left, List.map_cons, List.map_nil, List.sum_cons, List.sum_nil,
        List.length_cons, List.length_nil, Bool.false_eq_true, if_false, if_true]
      omega
    | false =>
      refine ⟨⟨⟨todo, .generate⟩, hset _, done ++ [x], by simp [hcs], ?_⟩, ?_⟩
      · exact hb.skip (fun hp => absurd (hbP.2 hp) (by simp)) hbot
      · rw [hl]
        simp only [leftAll, hset, left, List.map_cons, List.map_nil, List.sum_cons, List.sum_nil,
          List.length_cons, List.length_nil, Bool.false_eq_true, if_false, if_true]
        omega
  | evaluate =>
    obtain ⟨x, hcs, hx, hPx, hb⟩ := h
    refine ⟨_, bind_eq (bind_eq (hE _) rfl) rfl, ⟨_, hset _, done, x, hcs, hx, hPx, ?_, hb⟩, ?_⟩
    · rw [hx, hp]
      cases constrained <;> simp
    · rw [hl]
      simp only [leftAll, hset, left, List.map_cons, List.map_nil, List.sum_cons, List.sum_nil,
        List.length_cons, List.length_nil, Bool.false_eq_true, if_false, if_true]
      omega
  | compare v =>
    obtain ⟨x, hcs, hx, hPx, hv, hb⟩ := h
    refine ⟨_, bind_eq rfl rfl, ?_⟩
    dsimp only
    by_cases hc : (if constrained then v else s.trial.value) > s.top
    · rw [if_pos hc]
      refine ⟨⟨⟨todo, .record v⟩, hset _, done, x, hcs, hx, hPx, hv, ?_, hb⟩, ?_⟩
      · rw [← hv]; exact hc
      · rw [hl]
        simp only [leftAll, hset, left, List.map_cons, List.map_nil, List.sum_cons, List.sum_nil,
          List.length_cons, List.length_nil, Bool.false_eq_true, if_false, if_true]
        omega
    · rw [if_neg hc]
      refine ⟨⟨⟨todo, .generate⟩, hset _, done ++ [x], by simp [hcs], ?_⟩, ?_⟩
      · refine hb.skip (fun _ => ?_) hbot
        exact (le_of_eq hv.symm).trans (not_lt.1 hc)
      · rw [hl]
        simp only [leftAll, hset, left, List.map_cons, List.map_nil, List.sum_cons, List.sum_nil,
          List.length_cons, List.length_nil, Bool.false_eq_true, if_false, if_true]
        omega
  | record v =>
    obtain ⟨x, hcs, hx, hPx, hv, hlt, hb⟩ := h
    refine ⟨_, bind_eq rfl rfl, ⟨⟨todo, .copy⟩, hset _, done, x, hcs, hx, hPx, hv, ?_⟩, ?_⟩
    · intro d hd hpd
      dsimp only
      rw [hv]
      exact (hb.1 d hd hpd).trans hlt.le
    · rw [hl]
      simp only [leftAll, hset, left, List.map_cons, List.map_nil, List.sum_cons, List.sum_nil,
        List.length_cons, List.length_nil, Bool.false_eq_true, if_false, if_true]
      omega
  | copy =>
    obtain ⟨x, hcs, hx, hPx, hv, hd⟩ := h
    refine ⟨_, bind_eq rfl rfl, ⟨⟨todo, .generate⟩, hset _, done ++ [x], by simp [hcs], ?_⟩, ?_⟩
    · refine ⟨?_, Or.inl ⟨?_, ?_, ?_⟩⟩
      · intro d hd' hpd
        dsimp only
        rcases List.mem_append.1 hd' with h' | h'
        · exact hd d h' hpd
        · rw [List.mem_singleton.1 h', hv]
      · simp [hx]
      · dsimp only; rw [hx]; exact hPx
      · dsimp only; rw [hx]; exact hv
    · rw [hl]
      simp only [leftAll, hset, left, List.map_cons, List.map_nil, List.sum_cons, List.sum_nil,
        List.length_cons, List.length_nil, Bool.false_eq_true, if_false, if_true]
      omega

theorem single_run {ei penalty : List K → K} {b0 : BODesign K}
    (hE : ∀ x, E.ei x = .ok (ei x)) (hp : E.penalty = penalty)
    (hT : ∀ x ∈ cs, ∃ b, downhill g incumbent x = .ok b ∧ (b = true ↔ P x))
    (hbot : ∀ x, -10 ^ 15 < (if constrained then ei x * penalty x else ei x)) :
    ∀ (k : Nat) (s : GradSearch K), Single cs P constrained ei penalty b0 s →
    OkP (foldRes (step constrained E g incumbent) s (List.replicate k 0))
      (fun s' => Single cs P constrained ei penalty b0 s' ∧ leftAll s' ≤ leftAll s - k)
  | 0, s, h => ⟨s, rfl, h, le_rfl⟩
  | k + 1, s, h => by
    obtain ⟨s1, e1, h1, l1⟩ := single_step hE hp hT hbot h
    obtain ⟨s2, e2, h2, l2⟩ := single_run hE hp hT hbot k s1 h1
    refine ⟨s2, ?_, h2, by omega⟩
    rw [List.replicate_succ, foldCons e1, e2]

theorem share_one (k : Nat) (cs : List (List K)) : share (oneThread k) cs = [cs] := by
  unfold share oneThread
  simp only [List.range_one, List.map_cons, List.map_nil]
  congr 1
  rw [List.filter_eq_self.2 (by simp)]
  exact List.zipIdx_map_fst 0 cs

theorem single_start {k dim : Nat} {ei penalty : List K → K} :
    Single cs P constrained ei penalty (start (K := K) constrained dim (oneThread k) cs).best
      (start constrained dim (oneThread k) cs) := by
  refine ⟨⟨cs, .generate⟩, ?_, [], rfl, by simp, Or.inr ⟨rfl, rfl, by simp⟩⟩
  unfold start
  rw [share_one]
  rfl

/-- What holds for a single thread as long as no downhill trial has been evaluated. -/
def Unanswered (cs : List (List K)) (P : List K → Prop) (s : GradSearch K) : Prop :=
  ∃ t, s.threads = [t] ∧ ∃ done, (∀ d ∈ done, ¬ P d) ∧ match t.pc with
    | .generate => cs = done ++ t.todo
    | .test => ∃ x, cs = done ++ x :: t.todo ∧ s.trial.dv = x
    | .evaluate => True
    | _ => False

theorem unanswered_step {s : GradSearch K} (hE : ∀ x, E.ei x = .error .logicError)
    (hT : ∀ x ∈ cs, ∃ b, downhill g incumbent x = .ok b ∧ (b = true ↔ P x))
    (h : Unanswered cs P s) :
    step constrained E g incumbent s 0 = .error .logicError ∨
    OkP (step constrained E g incumbent s 0)
      (fun s' => Unanswered cs P s' ∧ leftAll s' ≤ leftAll s - 1) := by
  obtain ⟨t, ht, done, hd, h⟩ := h
  obtain ⟨todo, pc⟩ := t
  unfold step
  have e0 : s.threads[0]? = some ⟨todo, pc⟩ := by rw [ht]; rfl
  rw [e0]
  dsimp only
  have hl : leftAll s = left ⟨todo, pc⟩ := by simp [leftAll, ht]
  have hset : ∀ t', s.threads.set 0 t' = [t'] := by intro t'; rw [ht]; rfl
  cases pc with
  | generate =>
    right
    cases todo with
    | nil =>
      refine ⟨_, rfl, ⟨⟨[], .generate⟩, hset _, done, hd, h⟩, ?_⟩
      rw [hl]
      simp only [leftAll, hset, left, List.map_cons, List.map_nil, List.sum_cons, List.sum_nil,
        List.length_cons, List.length_nil, Bool.false_eq_true, if_false, if_true]
      omega
    | cons x xs =>
      refine ⟨_, rfl, ⟨⟨xs, .test⟩, hset _, done, hd, x, h, rfl⟩, ?_⟩
      rw [hl]
      simp only [leftAll, hset, left, List.map_cons, List.map_nil, List.sum_cons, List.sum_nil,
        List.length_cons, List.length_nil, Bool.false_eq_true, if_false, if_true]
      omega
  | test =>
    right
    obtain ⟨x, hcs, hx⟩ := h
    obtain ⟨b, eb, hbP⟩ := hT x (by rw [hcs]; simp)
    have e1 : threadStep constrained E g incumbent s ⟨todo, .test⟩ =
        .ok (s, ⟨todo, if b then .evaluate else .generate⟩) := by
      unfold threadStep
      rw [hx]
      exact bind_eq eb rfl
    refine ⟨_, bind_eq e1 rfl, ?_⟩
    cases b with
    | true =>
      refine ⟨⟨⟨todo, .evaluate⟩, hset _, done, hd, trivial⟩, ?_⟩
      rw [hl]
      simp only [leftAll, hset, left, List.map_cons, List.map_nil, List.sum_cons, List.sum_nil,
        List.length_cons, List.length_nil, Bool.false_eq_true, if_false, if_true]
      omega
    | false =>
      refine ⟨⟨⟨todo, .generate⟩, hset _, done ++ [x], ?_, by simp [hcs]⟩, ?_⟩
      · intro d hd' hp
        rcases List.mem_append.1 hd' with h' | h'
        · exact hd d h' hp
        · rw [List.mem_singleton.1 h'] at hp
          exact absurd (hbP.2 hp) (by simp)
      · rw [hl]
        simp only [leftAll, hset, left, List.map_cons, List.map_nil, List.sum_cons, List.sum_nil,
          List.length_cons, List.length_nil, Bool.false_eq_true, if_false, if_true]
        omega
  | evaluate =>
    left
    exact bind_err (bind_err (hE _))
  | compare v => exact h.elim
  | record v => exact h.elim
  | copy => exact h.elim

theorem unanswered_run (hE : ∀ x, E.ei x = .error .logicError)
    (hT : ∀ x ∈ cs, ∃ b, downhill g incumbent x = .ok b ∧ (b = true ↔ P x)) :
    ∀ (k : Nat) (s : GradSearch K), Unanswered cs P s →
    foldRes (step constrained E g incumbent) s (List.replicate k 0) = .error .logicError ∨
    OkP (foldRes (step constrained E g incumbent) s (List.replicate k 0))
      (fun s' => Unanswered cs P s' ∧ leftAll s' ≤ leftAll s - k)
  | 0, s, h => Or.inr ⟨s, rfl, h, le_rfl⟩
  | k + 1, s, h => by
    rcases unanswered_step (constrained := constrained) hE hT h with e1 | ⟨s1, e1, h1, l1⟩
    · left
      rw [List.replicate_succ]
      simp only [foldRes, e1]
    · rw [List.replicate_succ, foldCons e1]
      rcases unanswered_run hE hT k s1 h1 with e2 | ⟨s2, e2, h2, l2⟩
      · exact Or.inl e2
      · exact Or.inr ⟨s2, e2, h2, by omega⟩

/-! ## Every schedule -/

/-- What holds between two steps of any schedule: `Q` are the places the threads can be at. -/
structure Any (cs : List (List K)) (b0 : BODesign K) (s : GradSearch K) : Prop where
  todo : ∀ t ∈ s.threads, ∀ x ∈ t.todo, x ∈ cs
  trial : (∃ t ∈ s.threads, t.pc ≠ .generate) → s.trial.dv ∈ cs
  best : s.best = b0 ∨ s.best.dv ∈ cs

theorem any_start {dim : Nat} {x : Execution} :
    Any cs (start (K := K) constrained dim x cs).best (start constrained dim x cs) := by
  refine ⟨?_, ?_, Or.inl rfl⟩
  · intro t ht y hy
    obtain ⟨c, hc, rfl⟩ := List.mem_map.1 ht
    obtain ⟨i, -, rfl⟩ := List.mem_map.1 hc
    obtain ⟨p, hp, rfl⟩ := List.mem_map.1 hy
    exact List.mem_of_getElem? (List.mem_zipIdx_iff_getElem?.1 (List.mem_filter.1 hp).1)
  · rintro ⟨t, ht, hpc⟩
    obtain ⟨c, hc, rfl⟩ := List.mem_map.1 ht
    exact absurd rfl hpc

/-- What a step of a thread changes, for every place of the thread. -/
theorem any_step {b0 : BODesign K} {s : GradSearch K} (h : Any cs b0 s) (i : Nat) :
    Post (step constrained E g incumbent s i) (Any cs b0) := by
  unfold step
  cases hi : s.threads[i]? with
  | none => exact Post.ok h
  | some t =>
    have hm : t ∈ s.threads := List.mem_of_getElem? hi
    have key : ∀ (s1 : GradSearch K) (t1 : GradThread K),
        (∀ x ∈ t1.todo, x ∈ cs) →
        ((∃ t' ∈ s.threads.set i t1, t'.pc ≠ .generate) → s1.trial.dv ∈ cs) →
        (s1.best = b0 ∨ s1.best.dv ∈ cs) →
        Any cs b0 { s1 with threads := s.threads.set i t1 } := by
      intro s1 t1 h1 h2 h3
      refine ⟨?_, h2, h3⟩
      intro t' ht' x hx
      rcases List.mem_or_eq_of_mem_set ht' with h' | h'
      · exact h.todo t' h' x hx
      · rw [h'] at hx; exact h1 x hx
    obtain ⟨todo, pc⟩ := t
    have hcur : pc ≠ .generate → s.trial.dv ∈ cs := fun hp => h.trial ⟨_, hm, hp⟩
    have htodo := h.todo _ hm
    dsimp only at htodo
    have hexi : ∀ t1 : GradThread K, pc ≠ .generate →
        (∃ t' ∈ s.threads.set i t1, t'.pc ≠ .generate) → s.trial.dv ∈ cs := fun _ hp _ => hcur hp
    dsimp only
    cases pc with
    | generate =>
      cases todo with
      | nil =>
        refine (Post.ok (P := fun r => r = (s, ⟨[], .generate⟩)) rfl).bind ?_
        rintro _ rfl
        refine Post.ok (key s _ htodo ?_ h.best)
        rintro ⟨t', ht', hp⟩
        rcases List.mem_or_eq_of_mem_set ht' with h' | h'
        · exact h.trial ⟨t', h', hp⟩
        · rw [h'] at hp; exact absurd rfl hp
      | cons x xs =>
        refine (Post.ok (P := fun r => r = ({ s with trial := { s.trial with dv := x } },
          ⟨xs, .test⟩)) rfl).bind ?_
        rintro _ rfl
        exact Post.ok (key { s with trial := { s.trial with dv := x } } _
          (fun y hy => htodo y (List.mem_cons_of_mem _ hy))
          (fun _ => htodo x List.mem_cons_self) h.best)
    | test =>
      refine Post.bind (P := fun r => r.1 = s ∧ r.2.todo = todo) ?_ ?_
      · unfold threadStep
        exact Post.bind (P := fun _ => True) (fun _ _ => trivial) fun b _ => Post.ok ⟨rfl, rfl⟩
      · rintro ⟨s1, t1⟩ ⟨h1, h2⟩
        dsimp only at h1 h2
        subst h1
        exact Post.ok (key s1 t1 (by rw [h2]; exact htodo) (hexi t1 (by simp)) h.best)
    | evaluate =>
      refine Post.bind (P := fun r => r.1.trial.dv = s.trial.dv ∧ r.1.best = s.best ∧
        r.2.todo = todo) ?_ ?_
      · unfold threadStep
        exact Post.bind (P := fun _ => True) (fun _ _ => trivial) fun b _ => Post.ok ⟨rfl, rfl, rfl⟩
      · rintro ⟨s1, t1⟩ ⟨h1, h2, h3⟩
        dsimp only at h1 h2 h3
        exact Post.ok (key s1 t1 (by rw [h3]; exact htodo) (by rw [h1]; exact hexi t1 (by simp))
          (by rw [h2]; exact h.best))
    | compare v =>
      refine (Post.ok (P := fun r => r.1 = s ∧ r.2.todo = todo) ⟨rfl, rfl⟩).bind ?_
      rintro ⟨s1, t1⟩ ⟨h1, h2⟩
      dsimp only at h1 h2
      subst h1
      exact Post.ok (key s1 t1 (by rw [h2]; exact htodo) (hexi t1 (by simp)) h.best)
    | record v =>
      refine (Post.ok (P := fun r => r.1.trial = s.trial ∧ r.1.best = s.best ∧ r.2.todo = todo)
        ⟨rfl, rfl, rfl⟩).bind ?_
      rintro ⟨s1, t1⟩ ⟨h1, h2, h3⟩
      dsimp only at h1 h2 h3
      exact Post.ok (key s1 t1 (by rw [h3]; exact htodo) (by rw [h1]; exact hexi t1 (by simp))
        (by rw [h2]; exact h.best))
    | copy =>
      refine (Post.ok (P := fun r => r.1.trial = s.trial ∧ r.1.best = s.trial ∧ r.2.todo = todo)
        ⟨rfl, rfl, rfl⟩).bind ?_
      rintro ⟨s1, t1⟩ ⟨h1, h2, h3⟩
      dsimp only at h1 h2 h3
      exact Post.ok (key s1 t1 (by rw [h3]; exact htodo) (by rw [h1]; exact hexi t1 (by simp))
        (Or.inr (by rw [h2]; exact hcur (by simp))))

theorem any_run {b0 : BODesign K} : ∀ (l : List Nat) (s : GradSearch K), Any cs b0 s →
    Post (foldRes (step constrained E g incumbent) s l) (Any cs b0)
  | [], s, h => Post.ok h
  | i :: l, s, h => by
    intro s' hs'
    cases e : step constrained E g incumbent s i with
    | error e' => simp only [foldRes, e] at hs'; cases hs'
    | ok s1 =>
      rw [foldCons e] at hs'
      exact any_run l s1 (any_step h i s1 e) s' hs'

/-- No thread is at a place where something is recorded, and nothing has been recorded. -/
structure Idle (ok : GradPc K → Prop) (b0 : BODesign K) (s : GradSearch K) : Prop where
  pcs : ∀ t ∈ s.threads, ok t.pc
  best : s.best = b0

/-- Without a downhill trial the threads only draw and test. -/
theorem quiet_step {b0 b1 : BODesign K} {s : GradSearch K}
    (hT : ∀ x ∈ cs, ∃ b, downhill g incumbent x = .ok b ∧ (b = true ↔ P x))
    (hP : ∀ x ∈ cs, ¬ P x) (ha : Any cs b1 s)
    (h : Idle (fun pc => pc = .generate ∨ pc = .test) b0 s) (i : Nat) :
    OkP (step constrained E g incumbent s i)
      (Idle (fun pc => pc = .generate ∨ pc = .test) b0) := by
  unfold step
  cases hi : s.threads[i]? with
  | none => exact okP_ok h
  | some t =>
    have hm : t ∈ s.threads := List.mem_of_getElem? hi
    have key : ∀ (s1 : GradSearch K) (t1 : GradThread K), (t1.pc = .generate ∨ t1.pc = .test) →
        s1.best = s.best → Idle (fun pc => pc = .generate ∨ pc = .test) b0
          { s1 with threads := s.threads.set i t1 } := by
      intro s1 t1 h1 h2
      refine ⟨?_, h2.trans h.best⟩
      intro t' ht'
      rcases List.mem_or_eq_of_mem_set ht' with h' | h'
      · exact h.pcs t' h'
      · rw [h']; exact h1
    have hpc := h.pcs t hm
    obtain ⟨todo, pc⟩ := t
    dsimp only at hpc ⊢
    rcases hpc with rfl | rfl
    · cases todo with
      | nil => exact ⟨_, rfl, key s _ (Or.inl rfl) rfl⟩
      | cons x xs => exact ⟨_, rfl, key _ _ (Or.inr rfl) rfl⟩
    · have hx := ha.trial ⟨_, hm, by simp⟩
      obtain ⟨b, eb, hb⟩ := hT _ hx
      have hbf : b = false := by
        cases b with
        | false => rfl
        | true => exact absurd (hb.1 rfl) (hP _ hx)
      subst hbf
      have e1 : threadStep constrained E g incumbent s ⟨todo, .test⟩ =
          .ok (s, ⟨todo, .generate⟩) := by
        unfold threadStep
        exact bind_eq eb rfl
      exact ⟨_, bind_eq e1 rfl, key s _ (Or.inl rfl) rfl⟩

theorem quiet_run {b0 b1 : BODesign K}
    (hT : ∀ x ∈ cs, ∃ b, downhill g incumbent x = .ok b ∧ (b = true ↔ P x))
    (hP : ∀ x ∈ cs, ¬ P x) : ∀ (l : List Nat) (s : GradSearch K), Any cs b1 s →
    Idle (fun pc => pc = .generate ∨ pc = .test) b0 s →
    OkP (foldRes (step constrained E g incumbent) s l)
      (Idle (fun pc => pc = .generate ∨ pc = .test) b0)
  | [], s, _, h => okP_ok h
  | i :: l, s, ha, h => by
    obtain ⟨s1, e1, h1⟩ := quiet_step (constrained := constrained) (E := E) hT hP ha h i
    rw [foldCons e1]
    exact quiet_run hT hP l s1 (any_step ha i s1 e1) h1

/-- A surrogate that throws for every design lets no thread reach the comparison. -/
theorem mute_step {b0 : BODesign K} {s : GradSearch K} (hE : ∀ x, E.ei x = .error .logicError)
    (h : Idle (fun pc => pc = .generate ∨ pc = .test ∨ pc = .evaluate) b0 s) (i : Nat) :
    Post (step constrained E g incumbent s i)
      (Idle (fun pc => pc = .generate ∨ pc = .test ∨ pc = .evaluate) b0) := by
  unfold step
  cases hi : s.threads[i]? with
  | none => exact Post.ok h
  | some t =>
    have hm : t ∈ s.threads := List.mem_of_getElem? hi
    have key : ∀ (s1 : GradSearch K) (t1 : GradThread K),
        (t1.pc = .generate ∨ t1.pc = .test ∨ t1.pc = .evaluate) →
        s1.best = s.best → Idle (fun pc => pc = .generate ∨ pc = .test ∨ pc = .evaluate) b0
          { s1 with threads := s.threads.set i t1 } := by
      intro s1 t1 h1 h2
      refine ⟨?_, h2.trans h.best⟩
      intro t' ht'
      rcases List.mem_or_eq_of_mem_set ht' with h' | h'
      · exact h.pcs t' h'
      · rw [h']; exact h1
    have hpc := h.pcs t hm
    obtain ⟨todo, pc⟩ := t
    dsimp only at hpc ⊢
    rcases hpc with rfl | rfl | rfl
    · cases todo with
      | nil => exact OkP.post ⟨_, rfl, key s _ (Or.inl rfl) rfl⟩
      | cons x xs => exact OkP.post ⟨_, rfl, key _ _ (Or.inr (Or.inl rfl)) rfl⟩
    · refine Post.bind (P := fun r => r.1 = s ∧ (r.2.pc = .generate ∨ r.2.pc = .test ∨
        r.2.pc = .evaluate)) ?_ ?_
      · unfold threadStep
        refine Post.bind (P := fun _ => True) (fun _ _ => trivial) fun b _ => Post.ok ⟨rfl, ?_⟩
        cases b
        · exact Or.inl rfl
        · exact Or.inr (Or.inr rfl)
      · rintro ⟨s1, t1⟩ ⟨h1, h2⟩
        dsimp only at h1 h2
        subst h1
        exact Post.ok (key s1 t1 h2 rfl)
    · have : threadStep constrained E g incumbent s ⟨todo, .evaluate⟩ = .error .logicError := by
        unfold threadStep
        exact bind_err (hE _)
      intro s' hs'
      rw [this] at hs'
      cases hs'

theorem mute_run {b0 : BODesign K} (hE : ∀ x, E.ei x = .error .logicError) :
    ∀ (l : List Nat) (s : GradSearch K),
    Idle (fun pc => pc = .generate ∨ pc = .test ∨ pc = .evaluate) b0 s →
    Post (foldRes (step constrained E g incumbent) s l)
      (Idle (fun pc => pc = .generate ∨ pc = .test ∨ pc = .evaluate) b0)
  | [], s, h => Post.ok h
  | i :: l, s, h => by
    intro s' hs'
    cases e : step constrained E g incumbent s i with
    | error e' => simp only [foldRes, e] at hs'; cases hs'
    | ok s1 =>
      rw [foldCons e] at hs'
      exact mute_run hE l s1 (mute_step hE h i s1 e) s' hs'

end GradSearch

/-! ## C105 -/

theorem window_searchBox {dim : Nat} {incumbent : List K} {factor trFactor : K}
    {w : List K × List K} (hd : 0 < dim) (hi : incumbent.length = dim) (ht : 0 ≤ trFactor)
    (h : gradientStepWindow dim incumbent factor trFactor = .ok w) : SearchBox dim w.1 w.2 := by
  have hf : 0 < factor ∧ factor ≤ 1 := by
    by_contra hc
    have : factor ≤ 0 ∨ 1 < factor := by
      by_cases h0 : factor ≤ 0
      · exact Or.inl h0
      · exact Or.inr (not_le.1 fun h1 => hc ⟨not_le.1 h0, h1⟩)
    rw [(C25_rejects dim incumbent 0 factor trFactor).2 this] at h
    cases h
  obtain ⟨w', e, h1, h2, h3⟩ := C25_gradientStep hd hi hf.1 hf.2 ht
  rw [e] at h
  cases h
  refine ⟨h1, h2, ?_⟩
  intro i l u hl hu
  have : i < incumbent.length := by
    have := (List.getElem?_eq_some_iff.1 hl).1
    omega
  exact (h3 i l u incumbent[i] hl hu (by simp)).1

theorem mem_tab {α : Type} [Inhabited α] {n : Nat} {f : Nat → Res α} {P : α → Prop}
    (h : ∀ i, i < n → OkP (f i) P) : OkP (tab n f) (fun l => l.length = n ∧ ∀ x ∈ l, P x) := by
  choose! g hg hP using h
  refine ⟨_, tab_ok hg, by simp, ?_⟩
  intro x hx
  obtain ⟨i, hi, rfl⟩ := List.mem_map.1 hx
  exact hP i (List.mem_range.1 hi)

/-- The search is the run of its threads over trials of the window. -/
theorem gradientSearch_eq {S : GradSetup K} {gradient incumbent : List K} {w : List K × List K}
    {u : Nat → Nat → K} (h : GradInput S gradient incumbent w u) :
    ∃ g cs, Trials S w u cs ∧ cs.length = S.trials ∧ (∀ x ∈ cs, InBox w.1 w.2 x) ∧
      (∀ x ∈ cs, ∃ b, GradSearch.downhill g incumbent x = .ok b ∧
        (b = true ↔ Downhill S gradient incumbent x)) ∧
      ∀ (E : GradAcq K) (x : Execution), gradientSearch S E gradient incumbent w x u = (do
        let s ← foldRes (GradSearch.step S.constrained E g incumbent)
          (GradSearch.start S.constrained S.dim x cs) x.schedule
        .ok s.best) := by
  obtain ⟨hb, hg, hi, ⟨factor, tr, htr, hw⟩, hu⟩ := h
  have hsb := window_searchBox hb.1 hi htr hw
  obtain ⟨g, e1, l1, v1⟩ := scaleGradient_ok hb hg
  obtain ⟨cs, e2, l2, hcs⟩ := mem_tab (n := S.trials)
    fun i _ => fillRandom_ok hsb (hu i)
  refine ⟨g, cs, e2, l2, hcs, ?_, ?_⟩
  · intro x hx
    exact downhill_ok hi ((hcs x hx).1.trans hsb.1) l1 v1
  · intro E x
    unfold gradientSearch
    rw [if_neg (by simpa using hg)]
    refine bind_eq e1 ?_
    rw [if_neg (by simpa using hsb.1), if_neg (by simpa using hsb.2.1)]
    exact bind_eq e2 rfl

/-- C105 in full: whenever a gradient-based search with surrogates that answer and at least one trial
completes, its design lies in the window, is downhill, and no other downhill trial is better. -/
def C105_full (K : Type) [Field K] [LinearOrder K] [IsStrictOrderedRing K] : Prop :=
  ∀ (S : GradSetup K) (E : GradAcq K) (ei : List K → K) (gradient incumbent : List K)
    (w : List K × List K) (x : Execution) (u : Nat → Nat → K) (cs : List (List K)) (r : BODesign K),
    GradInput S gradient incumbent w u → (∀ y, E.ei y = .ok (ei y)) →
    (∀ y, 0 ≤ trialValue S ei E.penalty y) → 0 < S.trials → Trials S w u cs →
    (∀ g s, scaleGradient S.dim S.lb S.ub gradient = .ok g →
      foldRes (GradSearch.step S.constrained E g incumbent)
        (GradSearch.start S.constrained S.dim x cs) x.schedule = .ok s → s.Finished) →
    gradientSearch S E gradient incumbent w x u = .ok r →
    InBox w.1 w.2 r.dv ∧ Downhill S gradient incumbent r.dv ∧
      ∀ y ∈ cs, Downhill S gradient incumbent y →
        trialValue S ei E.penalty y ≤ trialValue S ei E.penalty r.dv

/-- C105 for one thread and surrogates that answer: if a trial is downhill, the design found lies in the
window, is downhill, and is the best of the downhill trials; `6 * trials` steps suffice.  (Expected
improvements and probabilities are not negative.) -/
theorem C105_partial {S : GradSetup K} {E : GradAcq K} {ei : List K → K}
    {gradient incumbent : List K} {w : List K × List K} {u : Nat → Nat → K} {cs : List (List K)}
    (h : GradInput S gradient incumbent w u) (hE : ∀ y, E.ei y = .ok (ei y))
    (hv : ∀ y, 0 ≤ trialValue S ei E.penalty y) (hcs : Trials S w u cs)
    (hd : ∃ y ∈ cs, Downhill S gradient incumbent y) {k : Nat} (hk : 6 * S.trials ≤ k) :
    ∃ r, gradientSearch S E gradient incumbent w (oneThread k) u = .ok r ∧ r.dv ∈ cs ∧
      InBox w.1 w.2 r.dv ∧ Downhill S gradient incumbent r.dv ∧
      ∀ y ∈ cs, Downhill S gradient incumbent y →
        trialValue S ei E.penalty y ≤ trialValue S ei E.penalty r.dv := by
  obtain ⟨g, cs', t1, t2, t3, t4, t5⟩ := gradientSearch_eq h
  obtain rfl : cs' = cs := by
    have := t1.symm.trans hcs
    cases this; rfl
  obtain ⟨s, e, ⟨t, ht, done, hs⟩, hl⟩ := GradSearch.single_run (constrained := S.constrained)
    (P := Downhill S gradient incumbent) hE (penalty := E.penalty) rfl t4
    (fun y => lt_of_lt_of_le (by norm_num) (hv y)) k _
    (GradSearch.single_start (k := k) (dim := S.dim))
  have hl0 : GradSearch.leftAll (GradSearch.start S.constrained S.dim (oneThread k) cs') =
      6 * S.trials := by
    unfold GradSearch.leftAll GradSearch.start
    rw [GradSearch.share_one]
    simp [GradSearch.left, t2]
  have hz : GradSearch.left t = 0 := by
    have : GradSearch.leftAll s = GradSearch.left t := by simp [GradSearch.leftAll, ht]
    omega
  obtain ⟨todo, pc⟩ := t
  have htodo : todo = [] := by
    unfold GradSearch.left at hz
    dsimp only at hz
    exact List.length_eq_zero_iff.1 (by omega)
  subst htodo
  cases pc with
  | generate =>
    obtain ⟨hc, h1, h2⟩ := hs
    simp only [List.append_nil] at hc
    subst hc
    refine ⟨s.best, by rw [t5]; exact bind_eq e rfl, ?_⟩
    rcases h2 with ⟨a, b, c⟩ | ⟨-, -, c⟩
    · refine ⟨a, t3 _ a, b, ?_⟩
      intro y hy hp
      have := h1 y hy hp
      rw [c] at this
      exact this
    · obtain ⟨y, hy, hp⟩ := hd
      exact absurd hp (c y hy)
  | _ => simp [GradSearch.left] at hz

/-- For every schedule and whatever the surrogates answer: the design found is a trial of the window, or
the design the search starts from. -/
theorem C105_window {S : GradSetup K} {E : GradAcq K} {gradient incumbent : List K}
    {w : List K × List K} {u : Nat → Nat → K} {x : Execution} {r : BODesign K}
    (h : GradInput S gradient incumbent w u)
    (hr : gradientSearch S E gradient incumbent w x u = .ok r) :
    InBox w.1 w.2 r.dv ∨ r.dv = if S.constrained then List.replicate S.dim 0 else [] := by
  obtain ⟨g, cs, -, -, t3, -, t5⟩ := gradientSearch_eq h
  rw [t5] at hr
  obtain ⟨s, e1, e2⟩ := bind_ok_inv hr
  cases e2
  rcases (GradSearch.any_run x.schedule _ GradSearch.any_start s e1).best with hb | hb
  · right; rw [hb]; rfl
  · exact Or.inl (t3 _ hb)

/-- Without a downhill trial, for every schedule, the search completes with a design that it has not
tried: without constraints a design without parameters, with constraints the lower bounds of all
parameters. -/
theorem C105_none {S : GradSetup K} (E : GradAcq K) {gradient incumbent : List K}
    {w : List K × List K} {u : Nat → Nat → K} {cs : List (List K)}
    (h : GradInput S gradient incumbent w u) (hcs : Trials S w u cs)
    (hd : ∀ y ∈ cs, ¬ Downhill S gradient incumbent y) (x : Execution) :
    gradientSearch S E gradient incumbent w x u =
      .ok ⟨if S.constrained then List.replicate S.dim 0 else [], 0⟩ := by
  obtain ⟨g, cs', t1, -, -, t4, t5⟩ := gradientSearch_eq h
  obtain rfl : cs' = cs := by
    have := t1.symm.trans hcs
    cases this; rfl
  obtain ⟨s, e, hs⟩ := GradSearch.quiet_run (constrained := S.constrained) (E := E) t4 hd x.schedule _
    GradSearch.any_start (b0 := (GradSearch.start S.constrained S.dim x cs').best)
    ⟨by
      intro t ht
      obtain ⟨c, -, rfl⟩ := List.mem_map.1 ht
      exact Or.inl rfl, rfl⟩
  rw [t5]
  refine bind_eq e ?_
  rw [hs.best]
  rfl

/-- With the surrogate models of the library no search finds a downhill design: if one completes, its
design is the one the search starts from; and with one thread, one downhill trial makes it fail. -/
theorem C105_fails {S : GradSetup K} {gradient incumbent : List K} {w : List K × List K}
    {u : Nat → Nat → K} {cs : List (List K)} (h : GradInput S gradient incumbent w u)
    (hcs : Trials S w u cs) :
    (∀ (x : Execution) (r : BODesign K),
      gradientSearch S libraryAcq gradient incumbent w x u = .ok r →
        r = ⟨if S.constrained then List.replicate S.dim 0 else [], 0⟩) ∧
    ((∃ y ∈ cs, Downhill S gradient incumbent y) → ∀ k, 6 * S.trials ≤ k →
      gradientSearch S libraryAcq gradient incumbent w (oneThread k) u = .error .logicError) := by
  obtain ⟨g, cs', t1, t2, -, t4, t5⟩ := gradientSearch_eq h
  obtain rfl : cs' = cs := by
    have := t1.symm.trans hcs
    cases this; rfl
  refine ⟨?_, ?_⟩
  · intro x r hr
    rw [t5] at hr
    obtain ⟨s, e1, e2⟩ := bind_ok_inv hr
    cases e2
    have := GradSearch.mute_run (constrained := S.constrained) (E := libraryAcq) (fun _ => rfl)
      x.schedule _ (b0 := (GradSearch.start S.constrained S.dim x cs').best) ⟨by
        intro t ht
        obtain ⟨c, -, rfl⟩ := List.mem_map.1 ht
        exact Or.inl rfl, rfl⟩ s e1
    rw [this.best]
    rfl
  · rintro ⟨y, hy, hp⟩ k hk
    rw [t5]
    have h0 : GradSearch.Unanswered cs' (Downhill S gradient incumbent)
        (GradSearch.start S.constrained S.dim (oneThread k) cs') := by
      refine ⟨⟨cs', .generate⟩, ?_, [], by simp, rfl⟩
      unfold GradSearch.start
      rw [GradSearch.share_one]
      rfl
    have hl0 : GradSearch.leftAll (GradSearch.start S.constrained S.dim (oneThread k) cs') =
        6 * S.trials := by
      unfold GradSearch.leftAll GradSearch.start
      rw [GradSearch.share_one]
      simp [GradSearch.left, t2]
    rcases GradSearch.unanswered_run (constrained := S.constrained) (E := libraryAcq) (fun _ => rfl) t4
      k _ h0 with e | ⟨s, e, ⟨t, ht, done, hd, hs⟩, hl⟩
    · exact bind_err e
    · exfalso
      have hz : GradSearch.left t = 0 := by
        have : GradSearch.leftAll s = GradSearch.left t := by simp [GradSearch.leftAll, ht]
        omega
      obtain ⟨todo, pc⟩ := t
      have htodo : todo = [] := by
        unfold GradSearch.left at hz
        dsimp only at hz
        exact List.length_eq_zero_iff.1 (by omega)
      subst htodo
      cases pc with
      | generate =>
        have hc : cs' = done := by simpa using hs
        exact hd y (by rw [← hc]; exact hy) hp
      | _ => simp [GradSearch.left] at hz

namespace GradDemo

/-- One parameter in `[0, 2]`, window factor `1 / 100`. -/
def setup (trials : Nat) : GradSetup ℚ := ⟨1, [0], [2], false, trials, 1 / 100, 5⟩

/-- A surrogate that expects the improvement `1` everywhere. -/
def acq : GradAcq ℚ := ⟨fun _ => .ok 1, fun _ => 1⟩

/-- The draws: 1/4 for the first trial, 3/4 for the second. -/
def draws : Nat → Nat → ℚ := fun i _ => if i = 0 then 1 / 4 else 3 / 4

theorem draws_ok (i j : Nat) : 0 ≤ draws i j ∧ draws i j < 1 := by
  unfold draws; split_ifs <;> norm_num

/-- Two threads with one trial each: the second draws its trial while the first stores its own. -/
def race : Execution := ⟨2, id, [0, 0, 0, 0, 0, 1, 0, 1]⟩

theorem box (n : Nat) : ValidBox (setup n).dim (setup n).lb (setup n).ub := by
  refine ⟨Nat.one_pos, rfl, rfl, ?_⟩
  intro i l u h1 h2
  match i with
  | 0 => cases h1; cases h2; norm_num
  | i + 1 => cases h1

/-- The incumbent in the middle. -/
theorem middle : GradInput (setup 2) [1] [1 / 2] ([49 / 100], [51 / 100]) draws where
  box := box 2
  gradientSize := rfl
  incumbentSize := rfl
  window := ⟨1 / 100, 1, by norm_num, by decide +kernel⟩
  draws := draws_ok

/-- The incumbent at the lower bound. -/
theorem corner : GradInput (setup 1) [1] [0] ([0], [1 / 100]) draws where
  box := box 1
  gradientSize := rfl
  incumbentSize := rfl
  window := ⟨1 / 100, 1, by norm_num, by decide +kernel⟩
  draws := draws_ok

theorem trials_middle : Trials (setup 2) ([49 / 100], [51 / 100]) draws [[99 / 200], [101 / 200]] := by
  unfold Trials; decide +kernel

theorem trials_corner : Trials (setup 1) ([0], [1 / 100]) draws [[1 / 400]] := by
  unfold Trials; decide +kernel

theorem downhill_iff (n : Nat) (a b : ℚ) : Downhill (setup n) [1] [b] [a] ↔ a < b := by
  simp only [Downhill, setup, Finset.sum_range_one, actualParam, vecFun, List.getD_cons_zero]
  constructor <;> intro h <;> push_cast at * <;> linarith

end GradDemo

/-- At the lower bound with a positive derivative no trial is downhill, and the design found has no
parameters. -/
theorem C105_false : ¬ C105_full ℚ := by
  intro h
  have := h (GradDemo.setup 1) GradDemo.acq (fun _ => 1) [1] [0] ([0], [1 / 100]) (oneThread 2)
    GradDemo.draws [[1 / 400]] ⟨[], 0⟩ GradDemo.corner (fun _ => rfl)
    (fun _ => by simp [trialValue, GradDemo.setup]) (by decide) GradDemo.trials_corner
    (by
      intro g s hg hs
      have hg' : scaleGradient (GradDemo.setup 1).dim (GradDemo.setup 1).lb (GradDemo.setup 1).ub [1] =
          .ok [2] := by decide +kernel
      rw [hg'] at hg
      cases hg
      have ht : (foldRes (GradSearch.step (GradDemo.setup 1).constrained GradDemo.acq [2] [0])
        (GradSearch.start (GradDemo.setup 1).constrained (GradDemo.setup 1).dim (oneThread 2)
          [[1 / 400]]) (oneThread 2).schedule).map (fun s => s.threads) =
          .ok [⟨[], .generate⟩] := by decide +kernel
      rw [hs] at ht
      have ht' : s.threads = [⟨[], .generate⟩] := by simpa [Except.map] using ht
      intro t htm
      rw [ht'] at htm
      rw [List.mem_singleton.1 htm]
      exact ⟨rfl, rfl⟩)
    (C105_none GradDemo.acq GradDemo.corner GradDemo.trials_corner (by
      intro y hy
      rw [List.mem_singleton.1 hy, GradDemo.downhill_iff]
      norm_num) _)
  exact absurd this.1.1 (by decide)

/-- Two threads: a thread draws its next trial while another one stores its own, and an uphill design is
found although a trial is downhill. -/
theorem C105_false_race : ∃ r : BODesign ℚ,
    gradientSearch (GradDemo.setup 2) GradDemo.acq [1] [1 / 2] ([49 / 100], [51 / 100])
      GradDemo.race GradDemo.draws = .ok r ∧
    Downhill (GradDemo.setup 2) [1] [1 / 2] [99 / 200] ∧
    ¬ Downhill (GradDemo.setup 2) [1] [1 / 2] r.dv := by
  refine ⟨⟨[101 / 200], 1⟩, by decide +kernel, ?_, ?_⟩
  · rw [GradDemo.downhill_iff]; norm_num
  · rw [GradDemo.downhill_iff]; norm_num

-- A downhill trial is found with one thread; the surrogates of the library fail on it.
example : gradientSearch (GradDemo.setup 2) GradDemo.acq [1] [1 / 2] ([49 / 100], [51 / 100])
    (oneThread 12) GradDemo.draws = .ok ⟨[99 / 200], 1⟩ := by decide +kernel
example : ∃ r, gradientSearch (GradDemo.setup 2) GradDemo.acq [1] [1 / 2] ([49 / 100], [51 / 100])
    (oneThread 12) GradDemo.draws = .ok r ∧ InBox [49 / 100] [51 / 100] r.dv ∧
    Downhill (GradDemo.setup 2) [1] [1 / 2] r.dv := by
  obtain ⟨r, h1, -, h2, h3, -⟩ := C105_partial (E := GradDemo.acq) (ei := fun _ => 1) GradDemo.middle
    (fun _ => rfl) (fun _ => by simp [trialValue, GradDemo.setup]) GradDemo.trials_middle
    ⟨[99 / 200], by simp, by rw [GradDemo.downhill_iff]; norm_num⟩ (k := 12) (by decide)
  exact ⟨r, h1, h2, h3⟩
example : gradientSearch (GradDemo.setup 2) libraryAcq [1] [1 / 2] ([49 / 100], [51 / 100])
    (oneThread 12) GradDemo.draws = .error .logicError :=
  (C105_fails GradDemo.middle GradDemo.trials_middle).2
    ⟨[99 / 200], by simp, by rw [GradDemo.downhill_iff]; norm_num⟩ 12 (by decide)

/-! ## The sequence of steps -/

/-- From a fresh series of gradient-based steps: before the last of `maximum` steps the window has been
halved once per step and the next step is again gradient-based; after the last one the window has its
first size and the next step is not gradient-based. -/
theorem C105_series (maximum n l : Nat) (h : n < maximum) :
    (GradMode.afterSearch (K := K) maximum)^[n] ⟨true, 0, 1, l⟩ = ⟨true, n, (1 / 2) ^ n, l + n⟩ ∧
    (n + 1 = maximum →
      (GradMode.afterSearch (K := K) maximum)^[n + 1] ⟨true, 0, 1, l⟩ = ⟨false, 0, 1, l + (n + 1)⟩) := by
  induction n with
  | zero =>
    refine ⟨by simp, ?_⟩
    intro hm
    subst hm
    simp [GradMode.afterSearch, GradMode.decideNext]
  | succ n ih =>
    have key : (GradMode.afterSearch (K := K) maximum)^[n + 1] ⟨true, 0, 1, l⟩ =
        ⟨true, n + 1, (1 / 2) ^ (n + 1), l + (n + 1)⟩ := by
      rw [Function.iterate_succ_apply', (ih (by omega)).1]
      unfold GradMode.afterSearch GradMode.decideNext
      dsimp only
      rw [if_neg (by omega), pow_succ]
      simp [Nat.add_assoc]
    refine ⟨key, ?_⟩
    intro hm
    rw [Function.iterate_succ_apply', key]
    unfold GradMode.afterSearch GradMode.decideNext
    dsimp only
    rw [if_pos hm]
    simp [Nat.add_assoc]

/-- What one step does: with a gradient (an entry above `10 ^ (-8)`) and the mode switched on, the search
is made in the window of half width `factor / dim * window` and the mode advances; otherwise the design is
that of the global search and the mode is off. -/
theorem C105_step (S : GradSetup K) (E : GradAcq K) (gradient incumbent : List K) (x : Execution)
    (u : Nat → Nat → K) (ego : Res (BODesign K)) (m : GradMode K) :
    ((∃ i, i < gradient.length ∧ 1 / 10 ^ 8 < |vecFun gradient i|) → m.will = true →
      gradientStep S E gradient incumbent x u ego m = (do
        let w ← gradientStepWindow S.dim incumbent S.factor m.window
        let d ← gradientSearch S E gradient incumbent w x u
        .ok (d, m.afterSearch S.maximum))) ∧
    ((∀ i, i < gradient.length → |vecFun gradient i| ≤ 1 / 10 ^ 8) ∨ m.will = false →
      gradientStep S E gradient incumbent x u ego m =
        ego.map (fun d => (d, { m with will := false }))) := by
  have hgrad : ∃ b, hasGradient gradient = .ok b ∧
      (b = true ↔ ∃ i, i < gradient.length ∧ 1 / 10 ^ 8 < |vecFun gradient i|) := by
    unfold hasGradient
    by_cases he : gradient = []
    · rw [if_pos he]
      exact ⟨false, rfl, by simp [he]⟩
    · rw [if_neg he]
      obtain ⟨b, hb, hb'⟩ := (C104_tests gradient gradient (1 / 10 ^ 8)).2.1
      refine ⟨!b, bind_eq hb rfl, ?_⟩
      cases b with
      | true =>
        have := hb'.1 rfl
        simp only [Bool.not_true, Bool.false_eq_true, false_iff, not_exists, not_and, not_lt]
        exact this
      | false =>
        simp only [Bool.not_false, true_iff]
        by_contra hc
        push Not at hc
        exact absurd (hb'.2 hc) (by simp)
  obtain ⟨b, hb, hb'⟩ := hgrad
  refine ⟨?_, ?_⟩
  · intro hg hw
    obtain rfl := hb'.2 hg
    unfold gradientStep
    refine bind_eq hb ?_
    dsimp only
    rw [if_pos rfl, if_pos hw]
  · intro hg
    unfold gradientStep
    refine bind_eq hb ?_
    dsimp only
    cases b with
    | true =>
      have hw : m.will = false := by
        rcases hg with h | h
        · obtain ⟨i, hi, hl⟩ := hb'.1 rfl
          exact absurd (h i hi) (not_le.2 hl)
        · exact h
      rw [if_pos rfl, if_neg (by rw [hw]; simp)]
      have : ({ m with will := false } : GradMode K) = m := by
        obtain ⟨w, a, b, c⟩ := m
        simp only at hw
        subst hw
        rfl
      rw [this]
      cases ego <;> rfl
    | false =>
      rw [if_neg (by simp), if_neg (by simp)]
      cases ego <;> rfl

/-- An objective without gradients is never searched along a gradient: whatever the members of the mode say
and whatever is on the disk, the search is the global one followed by the improvement of its design, it
fails exactly when one of the two fails, and the mode stays as it is. -/
theorem C105_plain [FloorRing K] (S : GradSetup K) (E : GradAcq K) (g : GlobalDesign K)
    (incumbent : List K) (name : Text.Str) (file : Option Text.Str) (x : Execution)
    (u : Nat → Nat → K) (ego : Res (BODesign K)) (improve : BODesign K → Res (BODesign K))
    (m : GradMode K) :
    (∀ d0 d, ego = .ok d0 → improve d0 = .ok d →
      chooseSearch false S E g incumbent name file x u ego improve m = .ok (d, m)) ∧
    (∀ d0 e, ego = .ok d0 → improve d0 = .error e →
      chooseSearch false S E g incumbent name file x u ego improve m = .error e) ∧
    (∀ e, ego = .error e →
      chooseSearch false S E g incumbent name file x u ego improve m = .error e) := by
  have h : ∀ r, (do let d ← ego; let d ← improve d; .ok (d, m)) = r →
      chooseSearch false S E g incumbent name file x u ego improve m = r := by
    rintro _ rfl
    unfold chooseSearch
    rw [if_neg (by simp)]
  refine ⟨?_, ?_, ?_⟩
  · intro d0 d h1 h2
    exact h _ (bind_eq h1 (bind_eq h2 rfl))
  · rintro d0 e rfl h2
    refine h _ ?_
    show (improve d0 >>= fun d => Except.ok (d, m)) = _
    rw [h2]; rfl
  · rintro e rfl
    exact h _ rfl

/-- The optimizer never makes a gradient-based step: from a new optimizer, for every number of searches,
whatever the objective, the training data and the schedules, each search that completes is the global one
and leaves the mode off. -/
theorem C105_never [FloorRing K] (calls : List (SearchCall K))
    {found : List (BODesign K)} {m : GradMode K}
    (h : foldRes searchCall ([], GradMode.new) calls = .ok (found, m)) :
    m = GradMode.new ∧ List.Forall₂ (fun c d => ∃ d0, c.ego = .ok d0 ∧ c.improve d0 = .ok d)
      calls found := by
  refine foldRes_post (f := searchCall) (s := ([], GradMode.new)) (l := calls)
    (fun pre (s : List (BODesign K) × GradMode K) => s.2 = GradMode.new ∧ List.Forall₂ (fun c d =>
        ∃ d0, c.ego = .ok d0 ∧ c.improve d0 = .ok d) pre s.1) ⟨rfl, .nil⟩ ?_ _ h
  rintro pre c ⟨ds, m⟩ - ⟨hm, hf⟩
  dsimp only at hm hf
  subst hm
  intro s' hs'
  obtain ⟨r, e1, e2⟩ := bind_ok_inv hs'
  cases e2
  unfold chooseSearch at e1
  rw [if_neg (by simp [GradMode.new])] at e1
  obtain ⟨d0, f1, e1⟩ := bind_ok_inv e1
  obtain ⟨d1, f2, e1⟩ := bind_ok_inv e1
  cases e1
  exact ⟨rfl, List.rel_append hf (.cons ⟨d0, f1, f2⟩ .nil)⟩

-- Two searches for an objective with gradients: both are global.
example (g : GlobalDesign ℚ) : foldRes searchCall ([], GradMode.new) (List.replicate 2
      ⟨true, GradDemo.setup 2, GradDemo.acq, g, [1 / 2], [], none, GradDemo.race,
      GradDemo.draws, .ok ⟨[1 / 3], 1⟩, fun d => .ok d⟩) =
    (.ok ([⟨[1 / 3], 1⟩, ⟨[1 / 3], 1⟩], GradMode.new) : Res (List (BODesign ℚ) × GradMode ℚ)) := by
  rfl
-- A series of five steps: four halvings, then back to the start.
example : (GradMode.afterSearch (K := ℚ) 5)^[4] ⟨true, 0, 1, 0⟩ = ⟨true, 4, 1 / 16, 4⟩ := by
  rw [(C105_series (K := ℚ) 5 4 0 (by omega)).1]; norm_num
example : (GradMode.afterSearch (K := ℚ) 5)^[5] ⟨true, 0, 1, 0⟩ = ⟨false, 0, 1, 5⟩ :=
  (C105_series (K := ℚ) 5 4 0 (by omega)).2 rfl

end Rodeo
