import Verif.Lemmas.Bounds
import Mathlib.Tactic.NormNum

/-! # C01 - C04: bounds -/

set_option linter.unusedSectionVars false

namespace Rodeo
open Spec

variable {K : Type} [Field K] [LinearOrder K] [IsStrictOrderedRing K]

/-- C01, what the user relies on: if the object says that bounds are set, then what its getters
return is a valid box of the dimension it reports. -/
def Bounds.Sound (b : Bounds K) : Prop :=
  b.isSet = true → ValidBox b.dim b.lb b.ub

/-- C01 in full: every history of calls from every constructor keeps the object sound and none of
its calls has undefined behaviour. -/
def C01_full (K : Type) [Field K] [LinearOrder K] [IsStrictOrderedRing K] : Prop :=
  ∀ (b : Bounds K), Bounds.Constructed b → ∀ ops : List (Bounds.Op K),
    (b.run ops).1.Sound ∧ .error .ub ∉ (b.run ops).2

/-- C01 is false: a rejected `setBounds` leaves an object that says it is set and holds an inverted
box. -/
theorem C01_false : ¬ C01_full ℚ := by
  intro h
  have := (h Bounds.mk0 .default [.setVec [0] [1], .setVec [1] [0]]).1
  have h2 : (Bounds.run (Bounds.mk0 : Bounds ℚ) [.setVec [0] [1], .setVec [1] [0]]).1 =
      ⟨[1], [0], 1, true⟩ := by decide +kernel
  rw [h2] at this
  have h3 := (this rfl).2.2.2 0 1 0 rfl rfl
  norm_num at h3

/-- C01 is also broken by `setDimension` on a set object. -/
theorem C01_false_setDimension :
    ¬ (Bounds.run (Bounds.mk0 : Bounds ℚ) [.setVec [0] [1], .setDimension 2]).1.Sound := by
  have h2 : (Bounds.run (Bounds.mk0 : Bounds ℚ) [.setVec [0] [1], .setDimension 2]).1 =
      ⟨[0], [1], 2, true⟩ := by decide +kernel
  rw [h2]
  intro h
  have := (h rfl).2.1
  simp at this

/-- C01 is also broken by the `std::vector` overload, which reads past the end of a shorter upper
bound vector. -/
theorem C01_false_ub :
    .error .ub ∈ (Bounds.run (Bounds.mk0 : Bounds ℚ) [.setStd [0, 0] [1]]).2 := by
  decide +kernel

/-- The calls that do not harm a sound object: no dimension change of a set object, no call of the
`std::vector` overload with too few upper bounds, and no rejected (empty or inverted) box once
bounds are set.  Size mismatches rejected by the `vec` overload and rejected scalars are harmless. -/
def Bounds.Harmless (b : Bounds K) : Bounds.Op K → Prop
  | .setDimension d => b.isSet = true → d = b.dim
  | .setScalar _ _ => True
  | .setStd l u => l.length ≤ u.length ∧ (b.isSet = true → ValidBox l.length l (u.take l.length))
  | .setVec l u => l.length ≠ 0 → u.length = l.length → b.isSet = true → ValidBox l.length l u
  | .reset => True

/-- All calls of a history are harmless in the state in which they are made. -/
def Bounds.HarmlessRun (b : Bounds K) : List (Bounds.Op K) → Prop
  | [] => True
  | op :: ops => b.Harmless op ∧ HarmlessRun (b.step op).1 ops

/-- One call keeps a sound object sound and avoids undefined behaviour exactly when it is
harmless. So the restriction in `C01_partial` cannot be weakened. -/
theorem C01_step_iff (b : Bounds K) (op : Bounds.Op K) (hb : b.Sound) :
    ((b.step op).1.Sound ∧ (b.step op).2 ≠ .error .ub) ↔ b.Harmless op := by
  cases op with
  | setDimension d =>
    simp only [Bounds.step, Bounds.setDimension, Bounds.Harmless, Bounds.Sound, ne_eq]
    constructor
    · rintro ⟨h, _⟩ hs
      have h1 := hb hs
      have h2 := h hs
      have := h1.2.1
      have := h2.2.1
      omega
    · intro h
      refine ⟨fun hs => ?_, by simp⟩
      have := hb hs
      rw [h hs]; exact this
  | setScalar l u =>
    simp only [Bounds.step, Bounds.Harmless, iff_true]
    unfold Bounds.setScalar
    split_ifs with h1 h2
    · exact ⟨hb, by simp⟩
    · exact ⟨hb, by simp⟩
    · refine ⟨fun _ => ?_, by simp⟩
      refine ⟨by simp; omega, by simp, by simp, ?_⟩
      intro i l' u' hl hu
      simp only [List.getElem?_replicate] at hl hu
      split_ifs at hl hu
      simp only [Option.some.injEq] at hl hu
      subst hl hu
      simpa using h1
  | setStd l u =>
    simp only [Bounds.step, Bounds.Harmless]
    unfold Bounds.setStd
    split_ifs with h1
    · simp; omega
    · have hlen : (u.take l.length).length = l.length := by simp; omega
      by_cases hv : ValidBox l.length l (u.take l.length)
      · rw [Bounds.finish_valid rfl hlen hv]
        constructor
        · intro _; exact ⟨by omega, fun _ => hv⟩
        · intro _; exact ⟨fun _ => hv, by simp⟩
      · have hne : (Bounds.finish ⟨l, u.take l.length, l.length, b.isSet⟩ .invalidArgument) =
            (⟨l, u.take l.length, l.length, b.isSet⟩, .error .invalidArgument) := by
          rcases Bounds.finish_invalid (b := ⟨l, u.take l.length, l.length, b.isSet⟩)
            (e := .invalidArgument) rfl hlen hv with h | h <;> exact h
        rw [hne]
        constructor
        · rintro ⟨h, _⟩
          exact ⟨by omega, fun hs => absurd (h hs) hv⟩
        · rintro ⟨_, h⟩
          exact ⟨fun hs => absurd (h hs) hv, by simp⟩
  | setVec l u =>
    simp only [Bounds.step, Bounds.Harmless]
    unfold Bounds.setVec
    split_ifs with h1 h2
    · refine ⟨fun _ => ?_, fun _ => ⟨hb, by simp⟩⟩
      intro h3 h4; omega
    · refine ⟨fun _ => ?_, fun _ => ⟨hb, by simp⟩⟩
      intro h3 h4; omega
    · have hlen : u.length = l.length := by omega
      by_cases hv : ValidBox l.length l u
      · rw [Bounds.finish_valid rfl hlen hv]
        constructor
        · intro _ _ _ _; exact hv
        · intro _; exact ⟨fun _ => hv, by simp⟩
      · have hne : (Bounds.finish ⟨l, u, l.length, b.isSet⟩ .invalidArgument) =
            (⟨l, u, l.length, b.isSet⟩, .error .invalidArgument) := by
          rcases Bounds.finish_invalid (b := ⟨l, u, l.length, b.isSet⟩)
            (e := .invalidArgument) rfl hlen hv with h | h <;> exact h
        rw [hne]
        constructor
        · rintro ⟨h, _⟩ _ _ hs
          exact h hs
        · intro h
          exact ⟨fun hs => absurd (h (by omega) hlen hs) hv, by simp⟩
  | reset =>
    simp [Bounds.step, Bounds.reset, Bounds.Harmless, Bounds.Sound]

/-- C01 is broken by a constructor too: `Bounds(vec, vec)` accepts surplus upper bounds. -/
theorem C01_false_constructor :
    ∃ b : Bounds ℚ, Bounds.mkVec [0] [1, 5] = .ok b ∧ ¬ b.Sound := by
  refine ⟨⟨[0], [1, 5], 1, true⟩, by decide +kernel, ?_⟩
  intro h
  have := (h rfl).2.2.1
  simp at this

/-- The constructors deliver sound objects, given equally many lower and upper bounds. -/
theorem C01_constructed (b : Bounds K) (h : Bounds.Constructed b)
    (hl : b.ub.length = b.lb.length) : b.Sound := by
  cases h with
  | default => simp [Bounds.Sound, Bounds.mk0]
  | dim d => simp [Bounds.Sound, Bounds.mkDim]
  | std lb ub b h =>
    unfold Bounds.mkStd at h
    split_ifs at h with h1
    have hlen : ub.length = lb.length := by omega
    by_cases hv : ValidBox lb.length lb ub
    · rw [Bounds.finish_valid rfl hlen hv] at h
      simp only [Except.ok.injEq] at h
      subst h
      exact fun _ => hv
    · rcases Bounds.finish_invalid (b := ⟨lb, ub, lb.length, false⟩)
        (e := .invalidArgument) rfl hlen hv with h' | h' <;> rw [h'] at h <;> simp at h
  | vec lb ub b h =>
    unfold Bounds.mkVec at h
    have hlen : ub.length = lb.length := by
      unfold Bounds.finish at h
      cases hc : (⟨lb, ub, lb.length, false⟩ : Bounds K).checkBounds with
      | error e => simp [hc] at h
      | ok r =>
        cases r with
        | false => simp [hc] at h
        | true =>
          simp only [hc, Except.ok.injEq] at h
          subst h
          exact hl
    by_cases hv : ValidBox lb.length lb ub
    · rw [Bounds.finish_valid rfl hlen hv] at h
      simp only [Except.ok.injEq] at h
      subst h
      exact fun _ => hv
    · rcases Bounds.finish_invalid (b := ⟨lb, ub, lb.length, false⟩)
        (e := .runtimeError) rfl hlen hv with h' | h' <;> rw [h'] at h <;> simp at h

/-- C01 for every history of harmless calls: the object stays sound and no call has undefined
behaviour.  Missing from the full property: the harmful calls of `Bounds.Harmless` and the
constructor call with surplus upper bounds, which the theorems above show to be real failures. -/
theorem C01_partial (b : Bounds K) (hb : Bounds.Constructed b)
    (hl : b.ub.length = b.lb.length) (ops : List (Bounds.Op K)) (ho : b.HarmlessRun ops) :
    (b.run ops).1.Sound ∧ .error .ub ∉ (b.run ops).2 := by
  have key : ∀ (ops : List (Bounds.Op K)) (b : Bounds K), b.Sound → b.HarmlessRun ops →
      (b.run ops).1.Sound ∧ .error .ub ∉ (b.run ops).2 := by
    intro ops
    induction ops with
    | nil => intro b h _; exact ⟨h, by simp [Bounds.run]⟩
    | cons op ops ih =>
      intro b h ho
      obtain ⟨h1, h2⟩ := (C01_step_iff b op h).2 ho.1
      obtain ⟨h3, h4⟩ := ih _ h1 ho.2
      refine ⟨h3, ?_⟩
      simp only [Bounds.run, List.mem_cons, not_or]
      exact ⟨fun h => h2 h.symm, h4⟩
  exact key ops b (C01_constructed b hb hl) ho

/-- Non-vacuity of `C01_partial`: a history with an accepted box, a rejected scalar call, a
harmless size mismatch, a reset and a new box. -/
example : (Bounds.mk0 : Bounds ℚ).HarmlessRun
    [.setVec [0, 1] [2, 3], .setScalar 1 0, .setVec [0] [], .reset, .setDimension 3,
     .setScalar 0 1] := by
  simp [Bounds.HarmlessRun, Bounds.Harmless, Bounds.step, Bounds.mk0, Bounds.reset,
    Bounds.setVec, Bounds.setScalar, Bounds.finish, Bounds.checkBounds,
    noneOf, allFrom, vat]

/-- C02: on a sound, set object the point test throws exactly for points of the wrong size and
otherwise decides membership in the box. -/
theorem C02_isPointWithinBounds (b : Bounds K) (hs : b.isSet = true) (hb : b.Sound) (x : List K) :
    (x.length ≠ b.dim → b.isPointWithinBounds x = .error .invalidArgument) ∧
    (x.length = b.dim → ∃ r, b.isPointWithinBounds x = .ok r ∧
      (r = true ↔ InBox b.lb b.ub x)) := by
  obtain ⟨h0, h1, h2, h3⟩ := hb hs
  constructor
  · intro hx; simp [Bounds.isPointWithinBounds, hx]
  · intro hx
    unfold Bounds.isPointWithinBounds
    rw [if_neg (by omega)]
    obtain ⟨r, hr, hr'⟩ := noneOf_ok (n := b.dim)
      (test := fun i =>
        match vat x i, vat b.lb i, vat b.ub i with
        | .ok v, .ok l, .ok u => .ok (decide (v < l ∨ v > u))
        | .error e, _, _ => .error e
        | _, .error e, _ => .error e
        | _, _, .error e => .error e)
      (b := fun i => if h : i < b.dim then decide (x[i] < b.lb[i] ∨ x[i] > b.ub[i]) else false)
      (by
        intro j hj
        have hl : j < b.lb.length := by omega
        have hu : j < b.ub.length := by omega
        have hx' : j < x.length := by omega
        simp [vat_ok_of_lt hl, vat_ok_of_lt hu, vat_ok_of_lt hx', hj])
    refine ⟨r, hr, ?_⟩
    rw [hr']
    constructor
    · intro h
      refine ⟨by omega, by omega, ?_⟩
      intro i l u v hl hu hv
      rw [List.getElem?_eq_some_iff] at hl hu hv
      obtain ⟨hi, rfl⟩ := hl
      obtain ⟨hi', rfl⟩ := hu
      obtain ⟨hi'', rfl⟩ := hv
      have := h i (by omega)
      have hi3 : i < b.dim := by omega
      simpa [hi3] using this
    · rintro ⟨_, _, h⟩ j hj
      have hl : j < b.lb.length := by omega
      have hu : j < b.ub.length := by omega
      have hx' : j < x.length := by omega
      have := h j b.lb[j] b.ub[j] x[j] (by simp) (by simp) (by simp)
      simpa [hj] using this

/-- Non-vacuity of C02: a set two-dimensional object, an inner point, a face point and an outer
point. -/
example : ∃ b : Bounds ℚ, Bounds.mkVec [0, -1] [1, 1] = .ok b ∧ b.isSet = true ∧
    b.isPointWithinBounds [1/2, 0] = .ok true ∧ b.isPointWithinBounds [1, -1] = .ok true ∧
    b.isPointWithinBounds [2, 0] = .ok false ∧ b.isPointWithinBounds [0] = .error .invalidArgument :=
  ⟨⟨[0, -1], [1, 1], 2, true⟩, by decide +kernel⟩

/-- C03: for every stream of draws in `[0,1)`, a sound set object generates a vector, and it lies
in the box. -/
theorem C03_random_in_bounds (b : Bounds K) (hs : b.isSet = true) (hb : b.Sound) (u : Nat → K)
    (hu : ∀ i, 0 ≤ u i ∧ u i < 1) :
    ∃ x, b.generateVectorWithinBounds u = .ok x ∧ InBox b.lb b.ub x ∧
      b.isPointWithinBounds x = .ok true := by
  obtain ⟨h0, h1, h2, h3⟩ := hb hs
  let g : Nat → K := fun i =>
    if h : i < b.dim then uniformReal b.lb[i] b.ub[i] (u i) else 0
  have hgen : b.generateVectorWithinBounds u = .ok ((List.range b.dim).map g) := by
    unfold Bounds.generateVectorWithinBounds Vec.fillRandom
    rw [if_neg (by simp [hs]), if_neg (by omega)]
    apply tab_ok
    intro j hj
    have hl : j < b.lb.length := by omega
    have hu' : j < b.ub.length := by omega
    have hlt := h3 j b.lb[j] b.ub[j] (by simp) (by simp)
    simp [vat_ok_of_lt hl, vat_ok_of_lt hu', g, hj, not_lt.2 hlt.le]
  have hbox : InBox b.lb b.ub ((List.range b.dim).map g) := by
    refine ⟨by simp [h1], by simp [h2], ?_⟩
    intro i l u' v hl hu' hv
    rw [List.getElem?_eq_some_iff] at hl hu' hv
    obtain ⟨hi, rfl⟩ := hl
    obtain ⟨hi', rfl⟩ := hu'
    obtain ⟨hi'', rfl⟩ := hv
    have hid : i < b.dim := by omega
    have hlt := h3 i b.lb[i] b.ub[i] (by simp) (by simp)
    simp only [List.getElem_map, List.getElem_range, g, hid, dite_true, uniformReal]
    obtain ⟨hu1, hu2⟩ := hu i
    constructor <;> nlinarith
  refine ⟨_, hgen, hbox, ?_⟩
  obtain ⟨r, hr, hr'⟩ := (C02_isPointWithinBounds b hs hb _).2 (by simp : ((List.range b.dim).map g).length = b.dim)
  rw [hr, hr'.2 hbox]

example : ∃ b : Bounds ℚ, Bounds.mkVec [0, -1] [1, 1] = .ok b ∧
    b.generateVectorWithinBounds (fun i => (i : ℚ) / 2 - (i / 2 : ℕ)) = .ok [0, 0] :=
  ⟨⟨[0, -1], [1, 1], 2, true⟩, by decide +kernel⟩

/-- What C04 asks of an inner optimizer after a bound setter returned. -/
def GPOptimizer.HasBox (o : GPOptimizer K) : Prop := ValidBox o.dim o.lb o.ub

/-- C04 in full: whichever overload returns normally, on an optimizer with a dimension, the
optimizer holds a valid box. -/
def C04_full (K : Type) [Field K] [LinearOrder K] [IsStrictOrderedRing K] : Prop :=
  ∀ (o o' : GPOptimizer K), 0 < o.dim →
    ((∃ l u, o.setScalar l u = .ok o') ∨ (∃ l u, o.setStd l u = .ok o') ∨
     (∃ l u, o.setVec l u = .ok o')) → o'.HasBox

/-- C04 is false: the scalar overload accepts an inverted range. -/
theorem C04_false : ¬ C04_full ℚ := by
  intro h
  have := h ⟨1, [], [], false⟩ ⟨1, [1], [0], true⟩ (by decide)
    (Or.inl ⟨1, 0, by decide +kernel⟩)
  have h3 := this.2.2.2 0 1 0 rfl rfl
  norm_num at h3

/-- C04 is false for the `std::vector` overload as well. -/
theorem C04_false_std : ∃ o' : GPOptimizer ℚ,
    (⟨1, [], [], false⟩ : GPOptimizer ℚ).setStd [1] [0] = .ok o' ∧ ¬ o'.HasBox := by
  refine ⟨⟨1, [1], [0], true⟩, by decide +kernel, ?_⟩
  intro h
  have h3 := h.2.2.2 0 1 0 rfl rfl
  norm_num at h3

/-- C04 for the `vec` overload: it returns exactly for valid boxes of the optimizer's dimension and
then stores them. Missing: the other two overloads, which are shown above to accept inverted
bounds. -/
theorem C04_partial (o : GPOptimizer K) (hd : 0 < o.dim) (lb ub : List K) :
    (ValidBox o.dim lb ub → ∃ o', o.setVec lb ub = .ok o' ∧ o'.lb = lb ∧ o'.ub = ub ∧
        o'.dim = o.dim ∧ o'.HasBox) ∧
    (¬ ValidBox o.dim lb ub → o.setVec lb ub = .error .invalidArgument) := by
  unfold GPOptimizer.setVec
  by_cases h1 : lb.length = ub.length
  swap
  · refine ⟨fun hv => absurd (hv.2.1.trans hv.2.2.1.symm) h1, fun _ => by simp [h1]⟩
  by_cases h2 : lb.length = o.dim
  swap
  · exact ⟨fun hv => absurd hv.2.1 h2, fun _ => by rw [if_neg (by omega), if_pos h2]⟩
  rw [if_neg (by omega), if_neg (by omega)]
  obtain ⟨r, hr, hr'⟩ := noneOf_ok (n := ub.length)
    (test := fun i =>
      match rawAt ub i, rawAt lb i with
      | .ok a, .ok b => .ok (decide (a ≤ b))
      | .error e, _ => .error e
      | _, .error e => .error e)
    (b := fun i => if h : i < ub.length then decide (ub[i] ≤ lb[i]) else false)
    (by
      intro j hj
      have hl : j < lb.length := by omega
      simp [rawAt_ok_of_lt hl, rawAt_ok_of_lt hj, hj])
  have hgt : Vec.gt ub lb = .ok r := by
    unfold Vec.gt; rw [if_neg (by omega)]; exact hr
  rw [hgt]
  have hiff : r = true ↔ ValidBox o.dim lb ub := by
    rw [hr', validBox_iff]
    constructor
    · intro h
      refine ⟨hd, h2, by omega, ?_⟩
      intro i hi
      have hi' : i < ub.length := by omega
      have := h i hi'
      simpa [hi'] using this
    · rintro ⟨_, _, _, h⟩ j hj
      have := h j (by omega)
      simpa [hj] using this
  cases r with
  | true =>
    exact ⟨fun hv => ⟨_, rfl, rfl, rfl, rfl, hv⟩, fun hn => absurd (hiff.1 rfl) hn⟩
  | false =>
    exact ⟨fun hv => by have := hiff.2 hv; simp at this, fun _ => rfl⟩

example : (⟨2, [], [], false⟩ : GPOptimizer ℚ).setVec [0, 0] [1, 2] =
    .ok ⟨2, [0, 0], [1, 2], true⟩ := by decide +kernel

end Rodeo
