import Verif.Lemmas.DblEADeath
import Mathlib.Data.Rat.Floor

set_option linter.unusedSectionVars false

/-! # C129: the selections of the evolutionary algorithm in double arithmetic -/

namespace Rodeo

open Spec Dbl

variable {K : Type} [Field K] [LinearOrder K] [IsStrictOrderedRing K] [FloorRing K]

namespace DblEA

/-- A population of individuals with one gene and these objective values, as the optimizer fills it. -/
def popOf (js : List ℚ) : Res (Pop ℚ) :=
  (Pop.new.setDimension 1).addGroup (js.zipIdx.map (fun x => ⟨x.2, 0, x.1, 0, 0, 1, [0]⟩))

end DblEA

open DblEA

/-- The full property: whenever the objective values are doubles of moderate size and not all equal, the
population can be updated, and then every draw of the generator selects a parent and a victim. -/
def C129_full : Prop := ∀ (d : Nat) (xs : List (Indiv ℚ)) (p : Pop ℚ),
  (Pop.new.setDimension d).addGroup xs = .ok p → (∀ x ∈ xs, IsDouble x.obj ∧ |x.obj| ≤ 1000) →
  (∃ x ∈ xs, ∃ y ∈ xs, x.obj + 1 ≤ y.obj) →
  ∃ q, Dbl.updateProperties p = .ok q ∧ ∀ u : ℚ, IsDouble u → 0 ≤ u → u < 1 →
    (∃ x ∈ q.inds, Dbl.pickRep q u = .ok x) ∧ ∃ x ∈ q.inds, Dbl.pickDeath q u = .ok x

/-- Five individuals with objective values 0, 1, 2, 3, 4: the rounded reproduction probabilities add up to
the double below one, and the largest draw selects nobody: the optimization ends with an exception. -/
theorem C129_no_parent : ∃ p q : Pop ℚ, popOf [0, 1, 2, 3, 4] = .ok p ∧ Dbl.updateProperties p = .ok q ∧
    Dbl.pickRep q (1 - 1 / 2 ^ 53) = .error .runtimeError := by
  have h : ∃ p q : Pop ℚ, popOf [0, 1, 2, 3, 4] = .ok p ∧ Dbl.updateProperties p = .ok q := by
    have h1 : (match popOf [0, 1, 2, 3, 4] with
      | .ok p => (match Dbl.updateProperties p with | .ok _ => true | .error _ => false)
      | .error _ => false) = true := by decide +kernel
    revert h1
    cases popOf [0, 1, 2, 3, 4] with
    | error e => intro h; cases h
    | ok p =>
      intro h1
      cases hq : Dbl.updateProperties p with
      | error e => simp only [hq] at h1; cases h1
      | ok q => exact ⟨p, q, rfl, hq⟩
  obtain ⟨p, q, hp, hq⟩ := h
  refine ⟨p, q, hp, hq, ?_⟩
  have h2 : (popOf [0, 1, 2, 3, 4] >>= fun p => Dbl.updateProperties p >>= fun q =>
      Dbl.pickRep q (1 - 1 / 2 ^ 53)) = .error .runtimeError := by decide +kernel
  rwa [hp, show ((Except.ok p : Res (Pop ℚ)) >>= fun p => Dbl.updateProperties p >>= fun q =>
      Dbl.pickRep q (1 - 1 / 2 ^ 53)) = (Dbl.updateProperties p >>= fun q =>
      Dbl.pickRep q (1 - 1 / 2 ^ 53)) from rfl, hq] at h2

/-- Thirteen individuals, one with objective value -11 and twelve with 1: the rounded threshold falls below
the common fitness of the twelve, no individual gets a weight, and the death probabilities are `0/0`. -/
theorem C129_no_death : ∃ p : Pop ℚ, popOf [-11, 1, 1, 1, 1, 1, 1, 1, 1, 1, 1, 1, 1] = .ok p ∧
    Dbl.updateProperties p = .error .nonFinite := by
  have h : (popOf [-11, 1, 1, 1, 1, 1, 1, 1, 1, 1, 1, 1, 1] >>= Dbl.updateProperties) =
    .error .nonFinite := by decide +kernel
  cases hp : popOf [-11, 1, 1, 1, 1, 1, 1, 1, 1, 1, 1, 1, 1] with
  | error e =>
    have h2 : (match popOf [-11, 1, 1, 1, 1, 1, 1, 1, 1, 1, 1, 1, 1] with
      | .ok _ => true | .error _ => false) = true := by decide +kernel
    rw [hp] at h2; cases h2
  | ok p => rw [hp] at h; exact ⟨p, rfl, h⟩

/-- The full property is false of the code. -/
theorem C129_false : ¬ C129_full := by
  intro h
  obtain ⟨p, hp, he⟩ := C129_no_death
  obtain ⟨q, hq, -⟩ := h 1 _ p hp (by
    intro x hx
    have : x.obj = ((-11 : ℤ) : ℚ) ∨ x.obj = ((1 : ℤ) : ℚ) := by
      simp [List.zipIdx] at hx
      rcases hx with h | h | h | h | h | h | h | h | h | h | h | h | h <;> simp [h]
    rcases this with h | h
    · rw [h]; exact ⟨⟨-11, 0, by norm_num, by norm_num, by norm_num⟩, by norm_num⟩
    · rw [h]; exact ⟨⟨1, 0, by norm_num, by norm_num, by norm_num⟩, by norm_num⟩)
    ⟨⟨0, 0, -11, 0, 0, 1, [0]⟩, by simp [List.zipIdx], ⟨1, 0, 1, 0, 0, 1, [0]⟩, by simp [List.zipIdx], by norm_num⟩
  rw [he] at hq
  cases hq

namespace DblEA

/-- `updateFitnessValues()` changes the fitness only, and every fitness is a double. -/
theorem fitness_post {p p1 : Pop K} (h : Dbl.updateFitness p = .ok p1) :
    List.Forall₂ (fun x y => IsDouble y.fitness ∧ ∃ f, y = { x with fitness := f }) p.inds p1.inds := by
  unfold Dbl.updateFitness at h
  split at h
  · cases h
  unfold Dbl.updateFitnessQuadratic at h
  split at h
  · cases h
  obtain ⟨c, -, h⟩ := bind_ok_inv h
  obtain ⟨xs, hxs, h⟩ := bind_ok_inv h
  cases h
  refine (mapRes_inv hxs).imp ?_
  intro x y hxy
  obtain ⟨f, hf, hxy⟩ := bind_ok_inv hxy
  split at hxy
  · cases hxy
  · cases hxy
    refine ⟨?_, f, rfl⟩
    unfold Dbl.fitnessOf at hf
    obtain ⟨_, -, hf⟩ := bind_ok_inv hf
    obtain ⟨_, -, hf⟩ := bind_ok_inv hf
    obtain ⟨_, -, hf⟩ := bind_ok_inv hf
    obtain ⟨_, -, hf⟩ := bind_ok_inv hf
    obtain ⟨_, -, hf⟩ := bind_ok_inv hf
    obtain ⟨_, -, hf⟩ := bind_ok_inv hf
    obtain ⟨_, -, hf⟩ := bind_ok_inv hf
    rw [dbl_ok hf]
    exact fl_isDouble _

theorem share_sum {α : Type} (w : α → K) (l : List α) (h : 0 < (l.map w).sum) : (l.map (share w l)).sum = 1 := by
  have : ∀ (m : List α) (c : K), (m.map (fun x => w x / c)).sum = (m.map w).sum / c := by
    intro m c
    induction m with
    | nil => simp
    | cons x m ih => simp [ih, add_div]
  have h2 := this l (l.map w).sum
  unfold share
  rw [h2, div_self h.ne']

end DblEA

/-- What holds.  Let the update of the fitness succeed, with values between 1/256 and 4 (exactly they lie
between 1/100 and 1), and let at least about a tenth of the population (`n - ⌊9(n-1)/10⌋` individuals) be
fitter than some individual by a factor `1 + 2^-49`.  Then the update succeeds.  Up to a relative error
`n / 2^50`, reproduction probabilities are the shares of the fitness, and death probabilities the shares of
its reciprocal among the individuals up to a threshold that at most a tenth, rounded up, exceeds.  Both
selections are the roulette wheels with these shares, up to `n / 2^49` in the draw.  An individual that is
fitter than all others by a factor `1 - 2^-46` is never selected to die.  (Missing: draws in the last
`n / 2^49` below one, and populations where nearly all have the least fitness.) -/
theorem C129_partial {p p1 : Pop K} {n : Nat} (hlen : p.inds.length = n) (h2 : 2 ≤ n) (hn : n ≤ 2 ^ 30)
    (hp : Dbl.updateFitness p = .ok p1) (hf : ∀ x ∈ p1.inds, 1 / 256 ≤ x.fitness ∧ x.fitness ≤ 4)
    {y : Indiv K} (hy : y ∈ p1.inds)
    (hc : n - 9 * (n - 1) / 10 ≤ p1.inds.countP (fun x => decide ((1 + 1 / 2 ^ 49) * y.fitness ≤ x.fitness))) :
    ∃ (q : Pop K) (θ : K), Dbl.updateProperties p = .ok q ∧
      q.inds.map (fun x => (x.id, x.obj, x.genes)) = p.inds.map (fun x => (x.id, x.obj, x.genes)) ∧
      q.inds.map (·.fitness) = p1.inds.map (·.fitness) ∧
      (∀ x ∈ q.inds, 0 < x.rep ∧ x.rep < 1 ∧ RelNear ((n : K) / 2 ^ 50) x.rep (share (·.fitness) q.inds x)) ∧
      (∀ x ∈ q.inds, 0 ≤ x.death ∧ x.death ≤ 1 ∧
        RelNear ((n : K) / 2 ^ 50) x.death (share (fun x => if x.fitness > θ then 0 else 1 / x.fitness) q.inds x)) ∧
      Fair ((n : K) / 2 ^ 49) (·.fitness) q.inds (Dbl.pickRep q) ∧
      Fair ((n : K) / 2 ^ 49) (fun x => if x.fitness > θ then 0 else 1 / x.fitness) q.inds (Dbl.pickDeath q) ∧
      q.inds.countP (fun x => decide ((1 + 1 / 2 ^ 49) * θ < x.fitness)) ≤ n - 1 - 9 * (n - 1) / 10 ∧
      (∀ z ∈ q.inds, n - 1 ≤ q.inds.countP (fun x => decide (x.fitness ≤ (1 - 1 / 2 ^ 46) * z.fitness)) →
        z.death = 0 ∧ ∀ u, 0 ≤ u → Dbl.pickDeath q u ≠ .ok z) := by
  have hpost := fitness_post hp
  have hlen1 : p1.inds.length = n := by rw [← hpost.length_eq, hlen]
  have hf1 : ∀ x ∈ p1.inds, IsDouble x.fitness ∧ 1 / 256 ≤ x.fitness ∧ x.fitness ≤ 4 := by
    intro x hx
    obtain ⟨i, hi, rfl⟩ := List.getElem_of_mem hx
    exact ⟨(hpost.get (by omega) hi).1, hf _ hx⟩
  obtain ⟨r, hr, hrs⟩ := updateRep_spec hlen1 h2 hn hf1
  set R : Indiv K → Indiv K := fun x => { x with rep := r x } with hR
  set p2 : Pop K := { p1 with inds := p1.inds.map R } with hp2
  have hlen2 : p2.inds.length = n := by rw [hp2]; simp [hlen1]
  have hf2 : ∀ x ∈ p2.inds, IsDouble x.fitness ∧ 1 / 256 ≤ x.fitness ∧ x.fitness ≤ 4 := by
    intro x hx
    obtain ⟨x', hx', rfl⟩ := List.mem_map.1 hx
    exact hf1 x' hx'
  have hcR : ∀ f : K → Bool, p2.inds.countP (fun x => f x.fitness) = p1.inds.countP (fun x => f x.fitness) := by
    intro f
    rw [hp2, List.countP_map]
    rfl
  obtain ⟨θ, d, -, hd, hds, hW0, hcnt, hfit⟩ := updateDeath_spec hlen2 h2 hn hf2 (y := R y)
    (List.mem_map_of_mem hy) (by
      rw [hcR (fun v => decide ((1 + 1 / 2 ^ 49) * y.fitness ≤ v))]
      exact hc)
  set D : Indiv K → Indiv K := fun x => { x with death := d x } with hD
  set q : Pop K := { p2 with inds := p2.inds.map D } with hq
  have hcD : ∀ f : K → Bool, q.inds.countP (fun x => f x.fitness) = p2.inds.countP (fun x => f x.fitness) := by
    intro f
    rw [hq, List.countP_map]
    rfl
  have hlenq : q.inds.length = n := by rw [hq]; simp [hlen2]
  have hmapD : ∀ {β : Type} (f : Indiv K → β), (∀ x v, f { x with death := v } = f x) →
      q.inds.map f = p2.inds.map f := by
    intro β f hf
    rw [hq, List.map_map]
    exact List.map_congr_left (fun x _ => hf x _)
  have hmapR : ∀ {β : Type} (f : Indiv K → β), (∀ x v, f { x with rep := v } = f x) →
      p2.inds.map f = p1.inds.map f := by
    intro β f hf
    rw [hp2, List.map_map]
    exact List.map_congr_left (fun x _ => hf x _)
  have hmem : ∀ x ∈ q.inds, ∃ x1 ∈ p1.inds, R x1 ∈ p2.inds ∧ x = D (R x1) := by
    intro x hx
    obtain ⟨x2, hx2, rfl⟩ := List.mem_map.1 hx
    obtain ⟨x1, hx1, rfl⟩ := List.mem_map.1 hx2
    exact ⟨x1, hx1, hx2, rfl⟩
  have hfsum : (q.inds.map (·.fitness)).sum = (p1.inds.map (·.fitness)).sum := by
    rw [hmapD _ (fun _ _ => rfl), hmapR _ (fun _ _ => rfl)]
  have hdsum : (q.inds.map (deathWeight θ)).sum = (p2.inds.map (deathWeight θ)).sum := by
    rw [hmapD _ (fun _ _ => rfl)]
  have hfpos : ∀ x ∈ q.inds, 0 < x.fitness := by
    intro x hx
    obtain ⟨x1, hx1, -, rfl⟩ := hmem x hx
    exact lt_of_lt_of_le (by norm_num) (hf1 x1 hx1).2.1
  have hfs0 : 0 < (q.inds.map (·.fitness)).sum := by
    have hne : q.inds.map (·.fitness) ≠ [] := by
      intro h0
      have := congrArg List.length h0
      simp only [List.length_map, List.length_nil] at this
      omega
    refine List.sum_pos _ ?_ hne
    intro v hv
    obtain ⟨x, hx, rfl⟩ := List.mem_map.1 hv
    exact hfpos x hx
  have hws0 : 0 < (q.inds.map (deathWeight θ)).sum := by rw [hdsum]; exact hW0
  have hrep : ∀ x ∈ q.inds, IsDouble x.rep ∧ 0 < x.rep ∧ x.rep < 1 ∧
      |x.rep - share (·.fitness) q.inds x| ≤ n / 2 ^ 50 * share (·.fitness) q.inds x := by
    intro x hx
    obtain ⟨x1, hx1, -, rfl⟩ := hmem x hx
    unfold share
    rw [hfsum]
    exact hrs x1 hx1
  have hdth : ∀ x ∈ q.inds, IsDouble x.death ∧ 0 ≤ x.death ∧ x.death ≤ 1 ∧ (x.death = 0 ↔ θ < x.fitness) ∧
      |x.death - share (deathWeight θ) q.inds x| ≤ n / 2 ^ 50 * share (deathWeight θ) q.inds x := by
    intro x hx
    obtain ⟨x1, -, hx2, rfl⟩ := hmem x hx
    unfold share
    rw [hdsum]
    exact hds (R x1) hx2
  have hsh1 : ∀ x ∈ q.inds, 0 ≤ share (·.fitness) q.inds x := fun x hx =>
    div_nonneg (hfpos x hx).le hfs0.le
  have hsh2 : ∀ x ∈ q.inds, 0 ≤ share (deathWeight θ) q.inds x := fun x hx => by
    refine div_nonneg ?_ hws0.le
    unfold deathWeight
    split
    · exact le_rfl
    · have := hfpos x hx; positivity
  refine ⟨q, θ, ?_, ?_, ?_, ?_, ?_, ?_, ?_, ?_, ?_⟩
  · unfold Dbl.updateProperties
    rw [if_neg (by omega)]
    refine bind_eq hp ?_
    refine bind_eq hr ?_
    exact hd
  · rw [hmapD _ (fun _ _ => rfl), hmapR _ (fun _ _ => rfl)]
    refine List.ext_getElem (by simp [hlen, hlen1]) ?_
    intro i h1 h3
    obtain ⟨-, f, hf⟩ := hpost.get (i := i) (by simpa using h3) (by simpa using h1)
    simp only [List.get_eq_getElem] at hf
    simp [hf]
  · rw [hmapD _ (fun _ _ => rfl), hmapR _ (fun _ _ => rfl)]
  · intro x hx
    obtain ⟨-, r2, r3, r4⟩ := hrep x hx
    refine ⟨r2, r3, ?_⟩
    unfold RelNear
    rwa [abs_of_nonneg (hsh1 x hx)]
  · intro x hx
    obtain ⟨-, r2, r3, -, r4⟩ := hdth x hx
    refine ⟨r2, r3, ?_⟩
    unfold RelNear
    change |x.death - share (deathWeight θ) q.inds x| ≤ _ * |share (deathWeight θ) q.inds x|
    rwa [abs_of_nonneg (hsh2 x hx)]
  · intro u hu0 hu1
    exact wheel hlenq hn (prob := (·.rep)) (fun x hx => ⟨(hrep x hx).1, (hrep x hx).2.1.le⟩) hsh1
      (fun x hx => (hrep x hx).2.2.2) (share_sum _ _ hfs0) hu0 hu1
  · intro u hu0 hu1
    exact wheel hlenq hn (prob := (·.death)) (r := share (deathWeight θ) q.inds)
      (fun x hx => ⟨(hdth x hx).1, (hdth x hx).2.1⟩) hsh2
      (fun x hx => (hdth x hx).2.2.2.2) (share_sum _ _ hws0) hu0 hu1
  · rw [hcD (fun v => decide ((1 + 1 / 2 ^ 49) * θ < v))]
    exact hcnt
  · intro z hz hzc
    obtain ⟨z1, -, hz2, rfl⟩ := hmem z hz
    have hz0 : (D (R z1)).death = 0 := by
      refine ((hdth _ hz).2.2.2.1).2 ?_
      refine hfit (R z1) hz2 ?_
      rw [hcD (fun v => decide (v ≤ (1 - 1 / 2 ^ 46) * (D (R z1)).fitness))] at hzc
      exact hzc
    refine ⟨hz0, fun u hu h => ?_⟩
    exact (roulette_pos _ _ _ isDouble_zero hu h).2 hz0

/-- Five individuals with objective values 0, 1, 2, 3, 4 meet the hypotheses: one tenth of five, rounded up as
above, is two, and the fittest is the first. -/
example : ∃ p p1 : Pop ℚ, popOf [0, 1, 2, 3, 4] = .ok p ∧ p.inds.length = 5 ∧ Dbl.updateFitness p = .ok p1 ∧
    (∀ x ∈ p1.inds, 1 / 256 ≤ x.fitness ∧ x.fitness ≤ 4) ∧
    ∃ y ∈ p1.inds, 5 - 9 * (5 - 1) / 10 ≤
        p1.inds.countP (fun x => decide ((1 + 1 / 2 ^ 49) * y.fitness ≤ x.fitness)) ∧
      ∃ z ∈ p1.inds, 5 - 1 ≤ p1.inds.countP (fun x => decide (x.fitness ≤ (1 - 1 / 2 ^ 46) * z.fitness)) := by
  have h1 : (match popOf [0, 1, 2, 3, 4] with
      | .ok p => (match Dbl.updateFitness p with
        | .ok p1 => decide (p.inds.length = 5 ∧ (∀ x ∈ p1.inds, 1 / 256 ≤ x.fitness ∧ x.fitness ≤ 4) ∧
            ∃ y ∈ p1.inds, 5 - 9 * (5 - 1) / 10 ≤
              p1.inds.countP (fun x => decide ((1 + 1 / 2 ^ 49) * y.fitness ≤ x.fitness)) ∧
            ∃ z ∈ p1.inds, 5 - 1 ≤
              p1.inds.countP (fun x => decide (x.fitness ≤ (1 - 1 / 2 ^ 46) * z.fitness)))
        | .error _ => false)
      | .error _ => false) = true := by decide +kernel
  revert h1
  cases popOf [0, 1, 2, 3, 4] with
  | error e => intro h; cases h
  | ok p =>
    intro h1
    cases hq : Dbl.updateFitness p with
    | error e => simp only [hq] at h1; cases h1
    | ok p1 =>
      simp only [hq, decide_eq_true_eq] at h1
      exact ⟨p, p1, rfl, h1.1, hq, h1.2.1, h1.2.2⟩

end Rodeo
