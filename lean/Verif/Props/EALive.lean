import Verif.Lemmas.EALive

/-! # C100: does an evolutionary search complete? -/

set_option linter.unusedSectionVars false

namespace Rodeo
open Spec

section
variable {K : Type} [Field K] [LinearOrder K] [IsStrictOrderedRing K] [FloorRing K]

/-- C100, full statement: with proper settings, an objective that has a value everywhere in the box and
a random generator that does not avoid any part of the roulette wheel, `optimize` returns. -/
def C100_full : Prop :=
  ∀ (E : EAEnv ℚ) (o : EA ℚ), Draws E → ReadyToSearch o → (∀ x, InBox o.lb o.ub x → ∃ J, E.f x = .ok J) →
    FairDraws E (smallestShare o) → ∃ o', EA.optimize E o = .ok o'

/-- C100 (partial: values of at most `-1e-4`): the search completes; if the generator avoids a part of
the roulette wheel, the only possible obstacle is an endless selection of the second parent.
Missing: other objectives, see `C100_false` and `C100_constant`. -/
theorem C100_partial {E : EAEnv K} (hE : Draws E) {o : EA K} (hR : ReadyToSearch o)
    (hf : ∀ x, InBox o.lb o.ub x → ∃ J, E.f x = .ok J ∧ J ≤ -(1 / 10 ^ 4)) :
    (FairDraws E (smallestShare o) → ∃ o', EA.optimize E o = .ok o') ∧
    ((∃ o', EA.optimize E o = .ok o') ∨ EA.optimize E o = .error .outOfFuel) := by
  rcases EA.optimize_runs hE hR hf with ⟨hq, e⟩ | ⟨a, e, -⟩
  · exact ⟨fun h => absurd h hq, Or.inr e⟩
  · exact ⟨fun _ => ⟨a, e⟩, Or.inl ⟨a, e⟩⟩

/-- C100 (objectives without variation): if all designs of the box have the same value, and that is a
positive number, the search always fails: the fitness of the initial individuals cannot be computed. -/
theorem C100_constant {E : EAEnv K} (hE : Draws E) {o : EA K}
    (hp : o.population = (Pop.new : Pop K).setDimension o.dim) {c : K}
    (hc : dblMin ≤ c ∧ c ≤ dblMax) (hf : ∀ x, InBox o.lb o.ub x → E.f x = .ok c) :
    ∃ e, EA.optimize E o = .error e := by
  cases h : EA.optimize E o with
  | error e => exact ⟨e, rfl⟩
  | ok o' =>
    exfalso
    unfold EA.optimize at h
    obtain ⟨_, -, h⟩ := bind_ok_inv h
    obtain ⟨o1, h1, -⟩ := bind_ok_inv h
    unfold EA.initializePopulation at h1
    dsimp only at h1
    split_ifs at h1 with c1 c2
    obtain ⟨⟨o2, xs⟩, e1, h1⟩ := bind_ok_inv h1
    obtain ⟨p, e2, h1⟩ := bind_ok_inv h1
    obtain ⟨q, e3, h1⟩ := bind_ok_inv h1
    obtain ⟨p', e4, h1⟩ := bind_ok_inv h1
    obtain ⟨ys, h3, h4, h5, h6⟩ := (EA.generateInitial_rel (g := E.f) hE o.sizeInit _ [] (fun _ _ => rfl)).2 _ e1
    dsimp only at h3 h4 h5 h6 e2
    rw [List.nil_append] at h3
    subst h3 h6
    obtain ⟨-, -, hm⟩ := Pop.addGroup_spec p e2
    obtain ⟨hne, -⟩ := Pop.updateProperties_fit e4
    dsimp only [Pop.reset] at hm
    rw [hp] at hm
    have hobj : ∀ x ∈ xs, x.obj = c := by
      intro x hx
      obtain ⟨a, -, b⟩ := h5 x hx
      rw [hf _ a] at b
      exact (Except.ok.inj b).symm
    have hx : ∃ x, x ∈ xs := by
      have := congrArg List.length h4
      simp only [List.length_map, List.length_range'] at this
      exact List.exists_mem_of_length_pos (by omega)
    obtain ⟨x, hx⟩ := hx
    apply hne
    have m1 : p.pmin = c := by
      apply le_antisymm
      · rw [← hobj x hx]; exact hm.minLe.2 x hx
      · rcases hm.minEq with e | ⟨y, hy, e⟩
        · rw [e]; exact hc.2
        · rw [← e, hobj y hy]
    have m2 : p.pmax = c := by
      apply le_antisymm
      · rcases hm.maxEq with e | ⟨y, hy, e⟩
        · rw [e]; exact hc.1
        · rw [← e, hobj y hy]
      · rw [← hobj x hx]; exact hm.maxGe.2 x hx
    rw [m1, m2]

/-! ## A fair generator -/

/-- An environment whose selection draws go round and round through `0, 1/m, ..., (m-1)/m`. -/
def roundRobin (f : List K → Res K) (m : Nat) : EAEnv K :=
  ⟨f, fun i => ((i % m : Nat) : K) / m, fun _ _ => 1 / 2, fun _ => 1 / 2, fun _ => 0, m⟩

theorem roundRobin_draws (f : List K → Res K) {m : Nat} (hm : 0 < m) : Draws (roundRobin f m) := by
  have hmK : (0 : K) < m := by exact_mod_cast hm
  refine ⟨fun i => ⟨by unfold roundRobin; positivity, ?_⟩, fun _ _ => ⟨by unfold roundRobin; norm_num,
    by unfold roundRobin; norm_num⟩, fun _ => ⟨by unfold roundRobin; norm_num, by unfold roundRobin; norm_num⟩⟩
  show ((i % m : Nat) : K) / m < 1
  rw [div_lt_one hmK]
  exact_mod_cast Nat.mod_lt i hm

theorem roundRobin_fair (f : List K → Res K) {m : Nat} (hm : 0 < m) {eps : K} (he : 1 / (m : K) ≤ eps) :
    FairDraws (roundRobin f m) eps := by
  intro i a h0 h1
  have hmK : (0 : K) < m := by exact_mod_cast hm
  set r := ⌈a * m⌉₊ with hr
  have hr1 : a * m ≤ r := Nat.le_ceil _
  have hr2 : (r : K) < a * m + 1 := Nat.ceil_lt_add_one (by positivity)
  have hone : 1 ≤ eps * m := by
    rw [div_le_iff₀ hmK] at he
    exact he
  have hrm : r < m := by
    have h2 : a * m + eps * m ≤ m := by
      have := mul_le_mul_of_nonneg_right h1 hmK.le
      linarith
    have : (r : K) < m := by linarith
    exact_mod_cast this
  refine ⟨(r + (m - i % m)) % m, Nat.mod_lt _ hm, ?_⟩
  have him := Nat.mod_lt i hm
  have hidx : (i + (r + (m - i % m)) % m) % m = r := by
    rw [Nat.add_mod_mod]
    have : i + (r + (m - i % m)) = r + m * (i / m) + m := by
      have := Nat.div_add_mod i m
      omega
    rw [this, Nat.add_mod_right, Nat.add_mul_mod_self_left, Nat.mod_eq_of_lt hrm]
  show a ≤ (((i + (r + (m - i % m)) % m) % m : Nat) : K) / m ∧ _ / (m : K) < a + eps
  rw [hidx]
  constructor
  · rw [le_div_iff₀ hmK]; exact hr1
  · rw [div_lt_iff₀ hmK]
    nlinarith

/-- An optimizer with one parameter in `[0,1]`, five initial individuals and three generations of four
births and four deaths. -/
def exampleSearch : EA K :=
  { (EA.new.setDimension 1 : EA K) with
    lb := [0], ub := [1], boundsSet := true, maxEvals := 1000, sizeInit := 5, births := 4, deaths := 4,
    gens := 3, mutProb := 1 / 10 }

theorem exampleSearch_ready : ReadyToSearch (exampleSearch : EA K) where
  box := by
    refine ⟨rfl, rfl, ?_⟩
    intro i l u hl hu
    match i with
    | 0 => cases hl; cases hu; exact zero_le_one
    | (n + 1) => exact absurd hl (by simp [exampleSearch])
  boundsSet := rfl
  dimPos := Nat.one_pos
  births := by show 0 < 4; decide
  gens := by show 0 < 3; decide
  maxEvals := by show 0 < 1000; decide
  mutProb := ⟨by show (0 : K) < 1 / 10; norm_num, by show (1 : K) / 10 < 1; norm_num⟩
  three := by show 3 ≤ 5; decide
  threeLeft := by show 3 * 4 + 3 ≤ 5 + 3 * 4; decide
  population := rfl
  generated := rfl
  removed := rfl
  history := rfl

/-- The hypotheses of `C100_partial` are met: a search on `x^2 - 2` with the generator that goes round
completes. -/
example : ∃ o', EA.optimize (roundRobin (fun x : List K => .ok ((x.getD 0 0) ^ 2 - 2)) 1700)
    (exampleSearch : EA K) = .ok o' := by
  refine (C100_partial (roundRobin_draws _ (by norm_num)) exampleSearch_ready ?_).1
    (roundRobin_fair _ (by norm_num) ?_)
  · intro x hx
    refine ⟨_, rfl, ?_⟩
    obtain ⟨h1, h2, h3⟩ := hx
    match x, h1 with
    | [v], _ =>
      obtain ⟨a, b⟩ := h3 0 0 1 v rfl rfl rfl
      simp only [List.getD_cons_zero]
      have : (1 : K) / 10 ^ 4 ≤ 1 := by norm_num
      nlinarith
  · show 1 / ((1700 : Nat) : K) ≤ 1 / (100 * ((5 + 3 * 4 : Nat) : K))
    norm_num

end

/-- C100 is false: a search on a constant objective fails. -/
theorem C100_false : ¬ C100_full := by
  intro h
  have hd : Draws (roundRobin (fun _ : List ℚ => .ok 1) 1700) := roundRobin_draws _ (by norm_num)
  obtain ⟨o', e⟩ := h (roundRobin (fun _ => .ok 1) 1700) exampleSearch hd exampleSearch_ready
    (fun _ _ => ⟨1, rfl⟩) (roundRobin_fair _ (by norm_num) (by
      show 1 / ((1700 : Nat) : ℚ) ≤ 1 / (100 * ((5 + 3 * 4 : Nat) : ℚ))
      norm_num))
  obtain ⟨e', he⟩ := C100_constant hd (o := exampleSearch) rfl (c := 1)
    ⟨by decide +kernel, by decide +kernel⟩ (fun _ _ => rfl)
  rw [e] at he
  cases he

end Rodeo
