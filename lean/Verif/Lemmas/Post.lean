import Verif.Lemmas.Basic

/-! # Partial correctness: what holds if a call returns; equality of two calls -/

set_option linter.unusedSectionVars false

namespace Rodeo

/-- If the call returns, its value satisfies `P`. -/
def Post {α : Type} (x : Res α) (P : α → Prop) : Prop := ∀ a, x = .ok a → P a

theorem Post.ok {α : Type} {a : α} {P : α → Prop} (h : P a) : Post (.ok a : Res α) P := by
  intro b hb; cases hb; exact h

theorem Post.error {α : Type} {e : Err} {P : α → Prop} : Post (.error e : Res α) P := by
  intro b hb; cases hb

theorem Post.bind {α β : Type} {x : Res α} {f : α → Res β} {P : α → Prop} {Q : β → Prop}
    (h : Post x P) (h2 : ∀ a, P a → Post (f a) Q) : Post (x >>= f) Q := by
  intro b hb
  cases hx : x with
  | error e => rw [hx] at hb; cases hb
  | ok a => rw [hx] at hb; exact h2 a (h a hx) b hb

theorem Post.mono {α : Type} {x : Res α} {P Q : α → Prop} (h : Post x P) (h2 : ∀ a, P a → Q a) :
    Post x Q := fun a ha => h2 a (h a ha)

theorem Post.trivial {α : Type} {x : Res α} : Post x (fun a => x = .ok a) := fun _ ha => ha

theorem OkP.post {α : Type} {x : Res α} {P : α → Prop} (h : OkP x P) : Post x P := by
  obtain ⟨a, rfl, h⟩ := h
  exact Post.ok h

theorem bind_ok_inv {α β : Type} {x : Res α} {f : α → Res β} {b : β} (h : (x >>= f) = .ok b) :
    ∃ a, x = .ok a ∧ f a = .ok b := by
  cases hx : x with
  | error e => rw [hx] at h; cases h
  | ok a => rw [hx] at h; exact ⟨a, rfl, h⟩

/-- The two calls have the same outcome, and if they return, the value satisfies `P`. -/
def RelP {α : Type} (x y : Res α) (P : α → Prop) : Prop := x = y ∧ Post x P

theorem RelP.bind {α β : Type} {x y : Res α} {f g : α → Res β} {P : α → Prop} {Q : β → Prop}
    (h : RelP x y P) (h2 : ∀ a, P a → RelP (f a) (g a) Q) : RelP (x >>= f) (y >>= g) Q := by
  obtain ⟨rfl, h⟩ := h
  refine ⟨?_, h.bind (fun a ha => (h2 a ha).2)⟩
  cases hx : x with
  | error e => rfl
  | ok a => exact (h2 a (h a hx)).1

theorem Post.rel {α : Type} {x : Res α} {P : α → Prop} (h : Post x P) : RelP x x P := ⟨rfl, h⟩

theorem RelP.ok {α : Type} {a : α} {P : α → Prop} (h : P a) : RelP (.ok a : Res α) (.ok a) P :=
  (Post.ok h).rel

theorem RelP.error {α : Type} {e : Err} {P : α → Prop} :
    RelP (.error e : Res α) (.error e) P := Post.error.rel

theorem RelP.mono {α : Type} {x y : Res α} {P Q : α → Prop} (h : RelP x y P)
    (h2 : ∀ a, P a → Q a) : RelP x y Q := ⟨h.1, h.2.mono h2⟩

theorem RelP.and {α : Type} {x y : Res α} {P Q : α → Prop} (h : RelP x y P) (h2 : Post x Q) :
    RelP x y (fun a => P a ∧ Q a) := ⟨h.1, fun a ha => ⟨h.2 a ha, h2 a ha⟩⟩

theorem mapRes_ok {α β : Type} {f : α → Res β} {g : α → β} {l : List α}
    (h : ∀ a ∈ l, f a = .ok (g a)) : mapRes f l = .ok (l.map g) := by
  induction l with
  | nil => rfl
  | cons a l ih =>
    simp only [mapRes, h a (by simp), ih (fun b hb => h b (by simp [hb])), List.map_cons]

theorem mapRes_inv {α β : Type} {f : α → Res β} {l : List α} {l' : List β}
    (h : mapRes f l = .ok l') : List.Forall₂ (fun a b => f a = .ok b) l l' := by
  induction l generalizing l' with
  | nil => simp only [mapRes] at h; cases h; exact .nil
  | cons a l ih =>
    simp only [mapRes] at h
    cases ha : f a with
    | error e => rw [ha] at h; cases h
    | ok b =>
      rw [ha] at h
      cases hl : mapRes f l with
      | error e => rw [hl] at h; cases h
      | ok bs => rw [hl] at h; cases h; exact .cons ha (ih hl)

theorem foldRes_post {α σ : Type} {f : σ → α → Res σ} {l : List α} (I : List α → σ → Prop)
    {s : σ} (h0 : I [] s)
    (hs : ∀ pre a s, (∃ post, l = pre ++ a :: post) → I pre s → Post (f s a) (I (pre ++ [a]))) :
    Post (foldRes f s l) (I l) := by
  suffices H : ∀ (suf pre : List α) (s : σ), l = pre ++ suf → I pre s →
      Post (foldRes f s suf) (I l) from H l [] s rfl h0
  intro suf
  induction suf with
  | nil => intro pre s hl hI; simp only [foldRes]; rw [hl, List.append_nil]; exact Post.ok hI
  | cons a suf ih =>
    intro pre s hl hI
    simp only [foldRes]
    cases ha : f s a with
    | error e => exact Post.error
    | ok s' => exact ih (pre ++ [a]) s' (by simp [hl]) (hs pre a s ⟨suf, hl⟩ hI s' ha)

theorem foldl_add_eq {α K : Type} [AddCommMonoid K] (g : α → K) :
    ∀ (l : List α) (s : K), l.foldl (fun s x => s + g x) s = s + (l.map g).sum := by
  intro l
  induction l with
  | nil => intro s; simp
  | cons a l ih => intro s; rw [List.foldl_cons, ih, List.map_cons, List.sum_cons, add_assoc]

theorem tab_rel {α : Type} {n : Nat} {f : Nat → Res α} : RelP (tab n f) (tab n f)
    (fun l => l.length = n) := by
  refine Post.rel ?_
  intro l hl
  exact (tab_inv hl).1

end Rodeo
