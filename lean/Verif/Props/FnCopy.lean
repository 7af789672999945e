import Verif.Spec.FnCopy

/-! # Copies of objective and constraint functions (C117) -/

set_option linter.unusedSectionVars false

namespace Rodeo
open FnCopy Spec.FnValue

variable {M D C A : Type}

namespace FnCopy

/-- The value of an object: everything but the pointer. -/
def Fn.val (f : Fn M D) : Val M D := ⟨f.data, f.isDefined, f.isInitialized, f.model⟩

/-- Objects and values agree, and the objects in `own` point to themselves. -/
structure Inv (s : Mem M D) (v : Vals M D) (own : Nat → Prop) : Prop where
  same : ∀ x, (s x).map Fn.val = v x
  self : ∀ x f, own x → s x = some f → f.ptr = some x

variable {s : Mem M D} {v : Vals M D} {own : Nat → Prop}

theorem Inv.none_iff (h : Inv s v own) (x : Nat) : s x = none ↔ v x = none := by
  rw [← h.same x]; cases s x <;> simp

theorem Inv.of_some (h : Inv s v own) {x : Nat} {f : Fn M D} (hx : s x = some f) : v x = some f.val := by
  rw [← h.same x, hx]; rfl

theorem Inv.update {own' : Nat → Prop} (h : Inv s v own) (x : Nat) (o : Option (Fn M D))
    (hother : ∀ z, own' z → z ≠ x → own z) (hself : ∀ f, own' x → o = some f → f.ptr = some x) :
    Inv (Function.update s x o) (Function.update v x (o.map Fn.val)) own' := by
  refine ⟨fun z => ?_, fun z f hz hf => ?_⟩
  · by_cases e : z = x
    · subst e; simp
    · simp [Function.update_of_ne e, h.same z]
  · by_cases e : z = x
    · subst e; rw [Function.update_self] at hf; exact hself f hz hf
    · rw [Function.update_of_ne e] at hf; exact h.self z f (hother z hz e) hf

theorem Inv.weaken {own' : Nat → Prop} (h : Inv s v own) (ho : ∀ z, own' z → own z ∨ v z = none) : Inv s v own' :=
  ⟨h.same, fun z f hz hf => (ho z hz).elim (fun h1 => h.self z f h1 hf)
    (fun h1 => by rw [h.of_some hf] at h1; cases h1)⟩

/-- Following a pointer to the object itself. -/
theorem through_self {B : Type} {x : Nat} {f : Fn M D} (hx : s x = some f) (hp : f.ptr = some x)
    (act : M → M × Res B) :
    through s f act = (Function.update s x (some { f with model := (act f.model).1 }), (act f.model).2) := by
  simp only [through, hp, hx]

/-- What `bindSurrogateModel` does, on values. -/
theorem bound_val (B : Behaviour M D C A) (x : Nat) (f : Fn M D) :
    (bound B x f).map Fn.val = connected B f.val := by
  unfold bound connected Fn.val
  cases B.kind f.data with
  | none => rfl
  | some k => cases k <;> rfl

theorem bound_ptr (B : Behaviour M D C A) {x : Nat} {f g : Fn M D} (h : bound B x f = some g)
    (hk : f.ptr = some x ∨ ∃ k, B.kind f.data = some k ∧ k ≠ .other) : g.ptr = some x := by
  unfold bound at h
  cases e : B.kind f.data with
  | none => rw [e] at h; cases h
  | some k =>
    rw [e] at h hk
    cases k with
    | ordinary => simp only [Option.some.injEq] at h; rw [← h]
    | universal => simp only [Option.some.injEq] at h; rw [← h]
    | other =>
      simp only [Option.some.injEq] at h; rw [← h]
      rcases hk with hk | ⟨k, hk, hn⟩
      · exact hk
      · cases hk; exact absurd rfl hn

theorem passes_iff (B : Behaviour M D C A) (c : C) (f : Fn M D) :
    passes (B.guard c) f = true ↔ Allowed B c f.val := by
  unfold passes Allowed Fn.val
  cases B.guard c <;> simp

end FnCopy

/-- One statement of a program in which every function used has its own surrogate model. -/
theorem FnCopy.step_inv (B : Behaviour M D C A) {s : Mem M D} {v : Vals M D} {own : Nat → Prop}
    (h : FnCopy.Inv s v own) (op : Op D C) (ops : List (Op D C)) (hc : Connected B v own (op :: ops)) :
    ∃ own', FnCopy.Inv (FnCopy.step B s op).1 (Spec.FnValue.step B v op).1 own' ∧
      (FnCopy.step B s op).2 = (Spec.FnValue.step B v op).2 ∧
      Connected B (Spec.FnValue.step B v op).1 own' ops := by
  unfold Connected at hc
  obtain ⟨h0, h1⟩ := hc
  cases op with
  | create x =>
    refine ⟨_, ?_, ?_, h1⟩
    · simp only [FnCopy.step, Spec.FnValue.step]
      cases hx : s x with
      | some f => rw [h.of_some hx]; exact h.weaken fun z hz => .inl hz.1
      | none =>
        have hv := (h.none_iff x).1 hx
        simp only [hv]
        exact h.update x (some ⟨B.fresh, false, false, B.blank, none⟩) (fun z hz _ => hz.1)
          (fun f hz _ => absurd rfl (hz.2 rfl))
    · simp only [FnCopy.step, Spec.FnValue.step]
      cases hx : s x with
      | some f => rw [h.of_some hx]; rfl
      | none => rw [(h.none_iff x).1 hx]; rfl
  | copy x y =>
    refine ⟨_, ?_, ?_, h1⟩
    · simp only [FnCopy.step, Spec.FnValue.step]
      cases hx : s x with
      | some f => rw [h.of_some hx]; exact h.weaken fun z hz => .inl hz.1
      | none =>
        have hv := (h.none_iff x).1 hx
        simp only [hv]
        cases hy : s y with
        | none => rw [(h.none_iff y).1 hy]; exact h.weaken fun z hz => .inl hz.1
        | some g =>
          rw [h.of_some hy]
          exact h.update x (some g) (fun z hz _ => hz.1) (fun f hz _ => absurd rfl (hz.2 rfl))
    · simp only [FnCopy.step, Spec.FnValue.step]
      cases hx : s x with
      | some f => rw [h.of_some hx]; rfl
      | none =>
        rw [(h.none_iff x).1 hx]
        cases hy : s y with
        | none => rw [(h.none_iff y).1 hy]; rfl
        | some g => rw [h.of_some hy]; rfl
  | assign x y =>
    refine ⟨_, ?_, ?_, h1⟩
    · simp only [FnCopy.step, Spec.FnValue.step]
      cases hx : s x with
      | none => rw [(h.none_iff x).1 hx]; exact h.weaken fun z hz => .inl hz.1
      | some f =>
        rw [h.of_some hx]
        cases hy : s y with
        | none => rw [(h.none_iff y).1 hy]; exact h.weaken fun z hz => .inl hz.1
        | some g =>
          rw [h.of_some hy]
          exact h.update x (some g) (fun z hz _ => hz.1) (fun f hz _ => absurd rfl hz.2)
    · simp only [FnCopy.step, Spec.FnValue.step]
      cases hx : s x with
      | none => rw [(h.none_iff x).1 hx]; rfl
      | some f =>
        rw [h.of_some hx]
        cases hy : s y with
        | none => rw [(h.none_iff y).1 hy]; rfl
        | some g => rw [h.of_some hy]; rfl
  | destroy x =>
    exact ⟨_, h.update x none (fun z hz _ => hz.1) (fun f _ hf => nomatch hf), rfl, h1⟩
  | edit x e =>
    refine ⟨own, ?_, ?_, h1⟩
    · simp only [FnCopy.step, Spec.FnValue.step]
      cases hx : s x with
      | none =>
        have hv := (h.none_iff x).1 hx
        rw [hv, Option.map_none, Function.update_eq_self_iff.2 hv.symm]; exact h
      | some f =>
        rw [h.of_some hx]
        exact h.update x (some { f with data := e f.data }) (fun z hz _ => hz)
          (fun g hz hg => by cases hg; exact h.self x f hz hx)
    · simp only [FnCopy.step, Spec.FnValue.step]
      cases s x <;> rfl
  | bind x =>
    refine ⟨_, ?_, ?_, h1⟩
    · simp only [FnCopy.step, Spec.FnValue.step]
      cases hx : s x with
      | none =>
        have hv := (h.none_iff x).1 hx
        rw [hv]
        exact h.weaken fun z hz => hz.imp id (fun hz => by rw [hz.1]; exact hv)
      | some f =>
        have hv := h.of_some hx
        rw [hv]
        simp only [← bound_val B x f]
        cases hb : bound B x f with
        | none =>
          refine h.weaken fun z hz => hz.imp id (fun hz => ?_)
          obtain ⟨g, k, hg, hk, -⟩ := hz.2
          rw [hv] at hg; cases hg
          unfold bound at hb
          rw [show B.kind f.data = some k from hk] at hb
          cases k <;> cases hb
        | some g =>
          refine h.update x (some g) (fun z hz hzx => hz.elim id fun e => absurd e.1 hzx) (fun g' hz hg => ?_)
          cases hg
          refine bound_ptr B hb (hz.imp (fun e => h.self x f e hx) fun e => ?_)
          obtain ⟨g', k, hg, hk, hn⟩ := e.2
          rw [hv] at hg; cases hg
          exact ⟨k, hk, hn⟩
    · simp only [FnCopy.step, Spec.FnValue.step]
      cases hx : s x with
      | none => rw [(h.none_iff x).1 hx]
      | some f =>
        rw [h.of_some hx]
        simp only [← bound_val B x f]
        cases hb : bound B x f <;> rfl
  | init x =>
    simp only [FnCopy.step, Spec.FnValue.step] at h1 ⊢
    cases hx : s x with
    | none =>
      have hv := (h.none_iff x).1 hx
      rw [hv] at h1 ⊢
      refine ⟨_, h.weaken fun z hz => hz.imp id fun hz => ?_, rfl, h1⟩
      rw [hz.1]; exact hv
    | some f =>
      have hv := h.of_some hx
      rw [hv] at h1 ⊢
      simp only [← bound_val B x f] at h1 ⊢
      simp only [initializeSurrogate]
      cases hb : bound B x f with
      | none =>
        rw [hb] at h1
        refine ⟨_, ?_, ?_, h1⟩
        · have hkn : ∀ k, B.kind f.data ≠ some k := by
            intro k hk
            unfold bound at hb
            rw [hk] at hb
            cases k <;> cases hb
          have : Inv s v (fun z => own z ∨ z = x ∧ Kriging B v x ∧
              ∃ f_1, some f.val = some f_1 ∧ B.ready f_1.data = true) := by
            refine h.weaken fun z hz => hz.imp id (fun hz => ?_)
            obtain ⟨g, k, hg, hk, -⟩ := hz.2.1
            rw [hv] at hg; cases hg
            exact absurd hk (hkn k)
          by_cases hr : B.ready f.data = false
          · rw [if_pos hr]; exact this
          · rw [if_neg hr]; exact this
        · by_cases hr : B.ready f.data = false
          · rw [if_pos hr]; rfl
          · rw [if_neg hr]; rfl
      | some g =>
        rw [hb] at h1
        have hgd : g.data = f.data := by
          unfold bound at hb
          cases e : B.kind f.data with
          | none => rw [e] at hb; cases hb
          | some k => rw [e] at hb; cases k <;> (simp only [Option.some.injEq] at hb; rw [← hb])
        by_cases hr : B.ready f.data = false
        · rw [if_pos hr]
          have hr' : ¬ B.ready f.val.data = true := by
            simp only [Fn.val]; rw [hr]; simp
          simp only [Option.map_some, if_neg hr'] at h1 ⊢
          refine ⟨_, h.weaken fun z hz => hz.imp id (fun hz => ?_), trivial, h1⟩
          obtain ⟨g', hg', hr2⟩ := hz.2.2
          cases hg'
          exact absurd hr2 hr'
        · rw [if_neg hr]
          have hr' : B.ready f.val.data = true := by
            simp only [Fn.val]; simpa using hr
          simp only [Option.map_some, if_pos hr'] at h1 ⊢
          have hkr : ∃ k, B.kind f.data = some k ∧ k ≠ .other := by
            rcases h0 with h0 | ⟨f', hf', hk⟩ | h0
            · rw [hv] at h0; cases h0
            · rw [hv] at hf'; cases hf'
              unfold bound at hb
              rw [show B.kind f.data = none from hk] at hb
              cases hb
            · obtain ⟨g', k, hg, hk, hn⟩ := h0
              rw [hv] at hg; cases hg
              exact ⟨k, hk, hn⟩
          have hp : g.ptr = some x := bound_ptr B hb (.inr hkr)
          have ht := through_self (s := Function.update s x (some g)) (x := x) (Function.update_self ..) hp
            (B.setup g.data)
          rw [ht]
          rw [show B.setup g.val.data g.val.model = B.setup g.data g.model from rfl] at h1 ⊢
          rcases hset : B.setup g.data g.model with ⟨m, r⟩
          rw [hset] at h1
          cases r with
          | error e =>
            simp only [Function.update_idem] at h1 ⊢
            refine ⟨_, h.update x (some { g with model := m }) (fun z hz hzx => hz.elim id fun e => absurd e.1 hzx)
              (fun g' _ hg => by cases hg; exact hp), trivial, h1⟩
          | ok u =>
            simp only [Function.update_idem, markInitialized, Function.update_self] at h1 ⊢
            refine ⟨_, h.update x (some { g with model := m, isInitialized := true })
              (fun z hz hzx => hz.elim id fun e => absurd e.1 hzx) (fun g' _ hg => by cases hg; exact hp), trivial, h1⟩
  | call x c =>
    refine ⟨own, ?_, ?_, h1⟩
    all_goals
      simp only [FnCopy.step, Spec.FnValue.step]
      cases hx : s x with
      | none =>
        have hv := (h.none_iff x).1 hx
        rw [hv]
        try first | exact h | rfl
      | some f =>
        have hv := h.of_some hx
        rw [hv]
        have hown : own x := h0.elim (fun e => by rw [hv] at e; cases e) id
        have hp := h.self x f hown hx
        by_cases ha : passes (B.guard c) f = false
        · have : ¬ Allowed B c f.val := fun e => by rw [(passes_iff B c f).2 e] at ha; cases ha
          simp only [if_pos ha, if_neg this]
          try first | exact h | rfl
        · have : Allowed B c f.val := (passes_iff B c f).1 (by simpa using ha)
          simp only [if_neg ha, if_pos this]
          rw [through_self hx hp]
          rw [show B.call c f.val.data f.val.model = B.call c f.data f.model from rfl]
          rcases B.call c f.data f.model with ⟨m, r⟩
          cases r with
          | error e =>
            first
            | exact h.update x (some { f with model := m }) (fun z hz _ => hz) (fun g _ hg => by cases hg; exact hp)
            | rfl
          | ok u =>
            first
            | exact h.update x (some { f with model := m }) (fun z hz _ => hz) (fun g _ hg => by cases hg; exact hp)
            | rfl

theorem FnCopy.run_inv (B : Behaviour M D C A) : ∀ (ops : List (Op D C)) {s : Mem M D} {v : Vals M D}
    {own : Nat → Prop}, FnCopy.Inv s v own → Connected B v own ops →
    (∀ x, ((FnCopy.run B s ops).1 x).map Fn.val = (Spec.FnValue.run B v ops).1 x) ∧
    (FnCopy.run B s ops).2 = (Spec.FnValue.run B v ops).2
  | [], _, _, _, h, _ => ⟨h.same, rfl⟩
  | op :: ops, s, v, own, h, hc => by
    obtain ⟨own', h', ha, hc'⟩ := FnCopy.step_inv B h op ops hc
    obtain ⟨h1, h2⟩ := FnCopy.run_inv B ops h' hc'
    refine ⟨h1, ?_⟩
    simp only [FnCopy.run, Spec.FnValue.run, ha, h2]

/-- C117, full statement: in every program - whatever is created, copied, assigned, edited, connected and
destroyed in which order - objective functions behave like independent values, as long as every function
that is asked for something has a Kriging definition and is connected with a surrogate model, or is a copy
of such a function. -/
def C117_full : Prop :=
  ∀ (M D C A : Type) (B : Behaviour M D C A) (ops : List (Op D C)), Prepared B noFunctions ops →
    (FnCopy.run B noObjects ops).2 = (Spec.FnValue.run B noFunctions ops).2

/-- C117, the part that holds: if every function that is asked for something has been connected itself
since it was created, copied or overwritten, then every statement of the program answers as for independent
values, and at the end every object has the settings and the surrogate model of its value. -/
theorem C117_partial (B : Behaviour M D C A) (ops : List (Op D C))
    (h : Connected B noFunctions (fun _ => False) ops) :
    (FnCopy.run B noObjects ops).2 = (Spec.FnValue.run B noFunctions ops).2 ∧
    ∀ x, ((FnCopy.run B noObjects ops).1 x).map
        (fun f => (⟨f.data, f.isDefined, f.isInitialized, f.model⟩ : Val M D)) =
      (Spec.FnValue.run B noFunctions ops).1 x :=
  have h0 : FnCopy.Inv (noObjects : Mem M D) noFunctions (fun _ => False) :=
    ⟨fun _ => rfl, fun _ _ hf => hf.elim⟩
  ⟨(FnCopy.run_inv B ops h0 h).2, (FnCopy.run_inv B ops h0 h).1⟩

/-- Values never meet undefined behaviour, unless the surrogate model itself does. -/
theorem Spec.FnValue.run_no_ub (B : Behaviour M D C A) (hs : ∀ d m, (B.setup d m).2 ≠ .error .ub)
    (hc : ∀ c d m, (B.call c d m).2 ≠ .error .ub) : ∀ (ops : List (Op D C)) (v : Vals M D),
    Except.error Err.ub ∉ (Spec.FnValue.run B v ops).2
  | [], _ => by simp [Spec.FnValue.run]
  | op :: ops, v => by
    have ih := Spec.FnValue.run_no_ub B hs hc ops (Spec.FnValue.step B v op).1
    simp only [Spec.FnValue.run, List.mem_cons, not_or]
    refine ⟨fun e => ?_, ih⟩
    cases op with
    | create x => simp only [Spec.FnValue.step] at e; split at e <;> cases e
    | copy x y => simp only [Spec.FnValue.step] at e; split at e <;> cases e
    | assign x y => simp only [Spec.FnValue.step] at e; split at e <;> cases e
    | destroy x => cases e
    | edit x f => cases e
    | bind x =>
      simp only [Spec.FnValue.step] at e
      split at e
      · cases e
      · split at e <;> cases e
    | init x =>
      simp only [Spec.FnValue.step] at e
      split at e
      · cases e
      · split at e
        · cases e
        · rename_i f _ g _
          split at e
          · have := hs g.data g.model
            rcases hset : B.setup g.data g.model with ⟨m, r⟩
            rw [hset] at e this
            cases r with
            | ok u => cases e
            | error er => cases e; exact this rfl
          · cases e
    | call x c =>
      simp only [Spec.FnValue.step] at e
      split at e
      · cases e
      · rename_i f _
        split at e
        · have := hc c f.data f.model
          rcases hset : B.call c f.data f.model with ⟨m, r⟩
          rw [hset] at e this
          cases r with
          | ok u => cases e
          | error er => cases e; exact this rfl
        · cases e

/-- C117, safety: such a program follows no wild or dangling pointer. -/
theorem C117_safe (B : Behaviour M D C A) (ops : List (Op D C))
    (h : Connected B noFunctions (fun _ => False) ops) (hs : ∀ d m, (B.setup d m).2 ≠ .error .ub)
    (hc : ∀ c d m, (B.call c d m).2 ≠ .error .ub) :
    Except.error Err.ub ∉ (FnCopy.run B noObjects ops).2 := by
  rw [(C117_partial B ops h).1]
  exact Spec.FnValue.run_no_ub B hs hc ops _

/-- C117, what a copy really does: after `x` has been copied from a function `y` that is connected with its
own surrogate model, and whatever settings of `x` are edited after that, a call to `x` is answered by
the surrogate model of `y` (with the settings of `x`), changes the surrogate model of `y`, and leaves the
one of `x` as it was at the moment of the copy. -/
theorem C117_alias (B : Behaviour M D C A) (s : Mem M D) (x y : Nat) (g : Fn M D) (hx : s x = none)
    (hy : s y = some g) (hp : g.ptr = some y) (edits : List (D → D)) (c : C)
    (hg : B.guard c = .unchecked ∨ B.guard c = .defined ∧ g.isDefined = true ∨
      B.guard c = .initialized ∧ g.isInitialized = true) :
    ∃ t f f', (FnCopy.run B s (Op.copy x y :: edits.map (Op.edit x))).1 = t ∧ t x = some f ∧
      f.data = edits.foldl (fun d e => e d) g.data ∧ t y = some g ∧
      (FnCopy.step B t (.call x c)).1 x = some f ∧ f.model = g.model ∧
      (FnCopy.step B t (.call x c)).1 y = some f' ∧ f'.model = (B.call c f.data g.model).1 ∧
      (FnCopy.step B t (.call x c)).2 = (B.call c f.data g.model).2.map Answer.value := by
  have hxy : x ≠ y := fun e => by rw [e, hy] at hx; cases hx
  have hedit : ∀ (l : List (D → D)) (s : Mem M D) (f : Fn M D), s x = some f → s y = some g →
      (FnCopy.run B s (l.map (Op.edit x))).1 x = some { f with data := l.foldl (fun d e => e d) f.data } ∧
      (FnCopy.run B s (l.map (Op.edit x))).1 y = some g := by
    intro l
    induction l with
    | nil => intro s f h1 h2; exact ⟨h1, h2⟩
    | cons e l ih =>
      intro s f h1 h2
      have := ih (FnCopy.step B s (.edit x e)).1 { f with data := e f.data }
        (by simp [FnCopy.step, h1]) (by simp only [FnCopy.step, h1]; rw [Function.update_of_ne hxy.symm]; exact h2)
      exact this
  have hcopy : (FnCopy.step B s (.copy x y)).1 = Function.update s x (some g) := by
    simp only [FnCopy.step, hx, hy]
  obtain ⟨h1, h2⟩ := hedit edits (Function.update s x (some g)) g (Function.update_self ..)
    (by rw [Function.update_of_ne hxy.symm]; exact hy)
  have hrun : (FnCopy.run B s (Op.copy x y :: edits.map (Op.edit x))).1 =
      (FnCopy.run B (Function.update s x (some g)) (edits.map (Op.edit x))).1 := by
    simp only [FnCopy.run, hcopy]
  generalize (FnCopy.run B (Function.update s x (some g)) (edits.map (Op.edit x))).1 = t at h1 h2 hrun
  have hpass : passes (B.guard c) { g with data := edits.foldl (fun d e => e d) g.data } ≠ false := by
    unfold passes
    rcases hg with e | ⟨e, e'⟩ | ⟨e, e'⟩ <;> rw [e] <;> simp_all
  rcases hcall : B.call c (edits.foldl (fun d e => e d) g.data) g.model with ⟨m, r⟩
  have hstep : FnCopy.step B t (.call x c) =
      (Function.update t y (some { g with model := m }), r.map Answer.value) := by
    simp only [FnCopy.step, h1]
    rw [if_neg hpass]
    simp only [through, hp, h2, hcall]
    cases r <;> rfl
  refine ⟨t, _, { g with model := m }, hrun, h1, rfl, h2, ?_, rfl, ?_, ?_, ?_⟩
  · rw [hstep]; exact (Function.update_of_ne hxy _ _).trans h1
  · rw [hstep]; exact Function.update_self ..
  · rw [hcall]
  · rw [hstep, hcall]

/-- C117, the original is gone: after a connected function `y` has been copied to `x` and destroyed - which
is what `std::vector` does with the constraints of an optimizer when `addConstraint` makes it grow - every
call to `x` that passes its assertion is undefined behaviour. -/
theorem C117_dangling (B : Behaviour M D C A) (s : Mem M D) (x y : Nat) (g : Fn M D) (hx : s x = none)
    (hy : s y = some g) (hp : g.ptr = some y) (c : C)
    (hg : B.guard c = .unchecked ∨ B.guard c = .defined ∧ g.isDefined = true ∨
      B.guard c = .initialized ∧ g.isInitialized = true) :
    (FnCopy.run B s [.copy x y, .destroy y, .call x c]).2 = [.ok .done, .ok .done, .error .ub] := by
  have hxy : x ≠ y := fun e => by rw [e, hy] at hx; cases hx
  have hpass : passes (B.guard c) g ≠ false := by
    unfold passes
    rcases hg with e | ⟨e, e'⟩ | ⟨e, e'⟩ <;> rw [e] <;> simp_all
  have h1 : FnCopy.step B s (.copy x y) = (Function.update s x (some g), .ok .done) := by
    simp only [FnCopy.step, hx, hy]
  have h2 : FnCopy.step B (Function.update (Function.update s x (some g)) y none) (.call x c) =
      (Function.update (Function.update s x (some g)) y none, .error .ub) := by
    simp only [FnCopy.step, Function.update_of_ne hxy, Function.update_self]
    rw [if_neg hpass]
    simp only [through, hp, Function.update_self]
  simp only [FnCopy.run, h1, List.cons.injEq, true_and, and_true]
  exact ⟨rfl, congrArg Prod.snd h2⟩

/-- C117, other model types: for a function whose definition names a model that is neither ordinary nor
universal Kriging, and that has never been connected before, `initializeSurrogate` follows an uninitialized
pointer. -/
theorem C117_other_kind (B : Behaviour M D C A) (s : Mem M D) (x : Nat) (f : Fn M D) (hx : s x = some f)
    (hp : f.ptr = none) (hk : B.kind f.data = some .other) (hr : B.ready f.data = true) :
    (FnCopy.step B s (.init x)).2 = .error .ub := by
  simp [FnCopy.step, hx, initializeSurrogate, hr, bound, hk, through, hp]

/-- The statements that build an optimizer: functions are created, given their settings, copied into the
optimizer and possibly destroyed, but none is connected or asked for anything. -/
def Spec.FnValue.Building : Op D C → Prop
  | .bind _ | .init _ | .call _ _ => False
  | _ => True

theorem Spec.FnValue.connected_append (B : Behaviour M D C A) (hb : List (Op D C)) :
    ∀ (v : Vals M D) (own : Nat → Prop) (rest : List (Op D C)), (∀ op ∈ hb, Building op) →
    (∀ own' : Nat → Prop, (∀ z, own' z → own z) → Connected B (Spec.FnValue.run B v hb).1 own' rest) →
    Connected B v own (hb ++ rest) := by
  induction hb with
  | nil => intro v own rest _ h; exact h own fun _ => id
  | cons op l ih =>
    intro v own rest hl h
    have h1 := hl op (List.mem_cons_self ..)
    have h2 : ∀ op ∈ l, Building op := fun o ho => hl o (List.mem_cons_of_mem _ ho)
    rw [List.cons_append]
    unfold Connected
    refine ⟨?_, ih _ _ _ h2 fun own' ho => h own' fun z hz => ?_⟩
    · cases op <;> trivial
    · have := ho z hz
      cases op <;> first | exact this.1 | exact this | exact h1.elim

theorem Spec.FnValue.connected_calls (B : Behaviour M D C A) (calls : List (Nat × C)) : ∀ (v : Vals M D)
    (own : Nat → Prop), (∀ p ∈ calls, own p.1) →
    Connected B v own (calls.map fun p => Op.call p.1 p.2) := by
  induction calls with
  | nil => intro v own _; trivial
  | cons p l ih =>
    intro v own h
    exact ⟨.inr (h p (List.mem_cons_self ..)), ih _ _ fun q hq => h q (List.mem_cons_of_mem _ hq)⟩

theorem Spec.FnValue.step_data (B : Behaviour M D C A) (v : Vals M D) (x z : Nat) :
    ((Spec.FnValue.step B v (.init x : Op D C)).1 z).map (·.data) = (v z).map (·.data) := by
  simp only [Spec.FnValue.step]
  cases hx : v x with
  | none => rfl
  | some f =>
    simp only []
    cases hcn : connected B f with
    | none => rfl
    | some g =>
      have hgd : g.data = f.data := by
        unfold connected at hcn
        rw [Option.map_eq_some_iff] at hcn
        obtain ⟨k, -, rfl⟩ := hcn; rfl
      simp only []
      by_cases hr : B.ready f.data = true
      · rw [if_pos hr]
        rcases B.setup g.data g.model with ⟨m, r⟩
        by_cases e : z = x
        · subst e; cases r <;> simp [hx, hgd]
        · cases r <;> simp [Function.update_of_ne e]
      · rw [if_neg hr]

theorem Spec.FnValue.connected_inits (B : Behaviour M D C A) (calls : List (Nat × C)) (xs : List Nat) :
    ∀ (v : Vals M D) (own : Nat → Prop),
    (∀ x ∈ xs, ∃ f k, v x = some f ∧ B.ready f.data = true ∧ B.kind f.data = some k ∧ k ≠ .other) →
    (∀ p ∈ calls, own p.1 ∨ p.1 ∈ xs) →
    Connected B v own (xs.map Op.init ++ calls.map fun p => Op.call p.1 p.2) := by
  induction xs with
  | nil => intro v own _ h; exact Spec.FnValue.connected_calls B calls v own fun p hp => (h p hp).elim id (by simp)
  | cons x l ih =>
    intro v own hk h
    rw [List.map_cons, List.cons_append]
    unfold Connected
    obtain ⟨f, k, hf, hr, hkd, hn⟩ := hk x (List.mem_cons_self ..)
    have hkr : Kriging B v x := ⟨f, k, hf, hkd, hn⟩
    refine ⟨.inr (.inr hkr), ih _ _ (fun z hz => ?_) fun p hp => ?_⟩
    · obtain ⟨f, k, hf, hr, hkd, hn⟩ := hk z (List.mem_cons_of_mem _ hz)
      have hd := Spec.FnValue.step_data B v x z
      rw [hf, Option.map_some, Option.map_eq_some_iff] at hd
      obtain ⟨f', hf', hd⟩ := hd
      exact ⟨f', k, hf', by rw [hd]; exact hr, by rw [hd]; exact hkd, hn⟩
    · rcases h p hp with e | e
      · exact .inl (.inl e)
      · rcases List.mem_cons.1 e with e | e
        · exact .inl (.inr ⟨e, hkr, f, hf, hr⟩)
        · exact .inr e

/-- C117, the optimizer: however the objective function and the constraints are created, given their
settings and copied into the optimizer, if they are all added before the surrogate models are initialized
and have Kriging definitions, bounds and dimensions, then every later training, prediction and new sample
of the optimizer is the one of independent functions. -/
theorem C117_optimizer (B : Behaviour M D C A) (building : List (Op D C)) (xs : List Nat)
    (calls : List (Nat × C)) (hb : ∀ op ∈ building, Building op)
    (hxs : ∀ x ∈ xs, ∃ f k, (Spec.FnValue.run B noFunctions building).1 x = some f ∧ B.ready f.data = true ∧
      B.kind f.data = some k ∧ k ≠ .other)
    (hcalls : ∀ p ∈ calls, p.1 ∈ xs) :
    let program := building ++ (xs.map Op.init ++ calls.map fun p => Op.call p.1 p.2)
    (FnCopy.run B noObjects program).2 = (Spec.FnValue.run B noFunctions program).2 := by
  refine (C117_partial B _ (Spec.FnValue.connected_append B building _ _ _ hb fun own' _ => ?_)).1
  exact Spec.FnValue.connected_inits B calls xs _ _ hxs fun p hp => .inr (hcalls p hp)

/-! ### Witnesses -/

/-- A surrogate model that counts its samples: reading the data gives it 5, the call `true` adds one and
answers how many there are now, the call `false` answers how many there are. -/
def exFnB : Behaviour Nat (Option Kind) Bool Nat where
  blank := 0
  fresh := none
  kind := id
  ready := fun _ => true
  linearOn := fun m => m + 100
  setup := fun _ m => (m + 5, .ok ())
  call := fun c _ m => if c then (m + 1, .ok (m + 1)) else (m, .ok m)
  guard := fun c => if c then .initialized else .unchecked

/-- An optimizer is built (object 1 is the objective function in the optimizer, 2 the constraint), the
user's own objects are destroyed, and the surrogate models are used. -/
def exBuilding : List (Op (Option Kind) Bool) :=
  [.create 0, .edit 0 (fun _ => some .ordinary), .create 1, .assign 1 0, .copy 2 0,
    .edit 2 (fun _ => some .universal), .destroy 0]

example : (FnCopy.run exFnB noObjects (exBuilding ++ ([1, 2].map Op.init ++
      [(1, true), (2, false), (1, false)].map fun p => Op.call p.1 p.2))).2.drop 9 =
    [.ok (.value 6), .ok (.value 105), .ok (.value 6)] := by decide +kernel

/-- `C117_optimizer` applies to it. -/
example : let program := exBuilding ++ ([1, 2].map Op.init ++
      [(1, true), (2, false), (1, false)].map fun p => Op.call p.1 p.2)
    (FnCopy.run exFnB noObjects program).2 = (Spec.FnValue.run exFnB noFunctions program).2 := by
  refine C117_optimizer exFnB exBuilding [1, 2] [(1, true), (2, false), (1, false)] ?_ ?_ (by decide)
  · intro op hop
    simp only [exBuilding, List.mem_cons, List.not_mem_nil, or_false] at hop
    rcases hop with rfl | rfl | rfl | rfl | rfl | rfl | rfl <;> trivial
  · intro x hx
    simp only [List.mem_cons, List.not_mem_nil, or_false] at hx
    rcases hx with rfl | rfl
    · exact ⟨⟨some .ordinary, false, false, 0⟩, .ordinary, rfl, rfl, rfl, by decide⟩
    · exact ⟨⟨some .universal, false, false, 0⟩, .universal, rfl, rfl, rfl, by decide⟩

/-- A function is connected and initialized, copied, and the copy gets a new sample. -/
def exCopied : List (Op (Option Kind) Bool) :=
  [.create 0, .edit 0 (fun _ => some .ordinary), .init 0, .copy 1 0, .call 1 true, .call 0 false]

/-- The original has the new sample, although only the copy got it. -/
theorem exCopied_answers :
    (FnCopy.run exFnB noObjects exCopied).2.drop 4 = [.ok (.value 6), .ok (.value 6)] ∧
    (Spec.FnValue.run exFnB noFunctions exCopied).2.drop 4 = [.ok (.value 6), .ok (.value 5)] := by
  decide +kernel

theorem exCopied_prepared : Prepared exFnB noFunctions exCopied :=
  ⟨trivial, trivial, .inr ⟨_, .ordinary, rfl, rfl, by decide⟩, trivial,
    .inr ⟨⟨_, .ordinary, rfl, rfl, by decide⟩, _, rfl, rfl⟩,
    .inr ⟨⟨_, .ordinary, rfl, rfl, by decide⟩, _, rfl, rfl⟩, trivial⟩

/-- C117 does not hold in full: a new sample given to a copy goes to the surrogate model of the original. -/
theorem C117_false : ¬ C117_full := by
  intro h
  have := h _ _ _ _ exFnB exCopied exCopied_prepared
  have h1 := exCopied_answers.1
  rw [this, exCopied_answers.2] at h1
  exact absurd h1 (by decide +kernel)

/-- Both situations of `C117_alias` and `C117_dangling` are reached. -/
example : ∃ s : Mem Nat (Option Kind), ∃ g, s = (FnCopy.run exFnB noObjects (exCopied.take 3)).1 ∧ s 1 = none ∧
    s 0 = some g ∧ g.ptr = some 0 ∧ g.isInitialized = true :=
  ⟨_, _, rfl, rfl, rfl, rfl, rfl⟩

example : (FnCopy.run exFnB noObjects (exCopied.take 3 ++ [.copy 1 0, .destroy 0, .call 1 true])).2.drop 3 =
    [.ok .done, .ok .done, .error .ub] := by decide +kernel

/-- `C117_other_kind`: the configuration file says `gradient_enhanced`. -/
example : (FnCopy.run exFnB noObjects [.create 0, .edit 0 (fun _ => some .other), .init 0]).2 =
    [.ok .done, .ok .done, .error .ub] := by decide +kernel

end Rodeo
