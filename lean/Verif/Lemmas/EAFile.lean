import Verif.Lemmas.CSV
import Verif.Lemmas.EA
import Verif.Model.EAFile
import Verif.Spec.EAFile

set_option linter.unusedSectionVars false

/-! # Lemmas on the warm start file -/

namespace Rodeo

open Text Spec

variable {K : Type} [Field K] [LinearOrder K] [IsStrictOrderedRing K] [FloorRing K]

theorem intercalate_cons_flatten (c : Char) (t : Str) (ts : List Str) :
    [c].intercalate (t :: ts) = t ++ (ts.map (fun s => c :: s)).flatten := by
  induction ts generalizing t with
  | nil => simp [List.intercalate]
  | cons s ts ih =>
    rw [List.intercalate_cons_cons, ih]
    simp

theorem stoi_natStr {n : Nat} (hn : n < 2 ^ 31) : stoi (natStr n) = .ok (n : Int) := by
  obtain ⟨h1, h2, h3⟩ := natStr_spec n
  obtain ⟨c, s, hc⟩ := List.exists_cons_of_ne_nil h2
  have hd := isDigit_not_sign (h1 c (by simp [hc]))
  have e1 : skipSpace (natStr n) = natStr n := by
    rw [hc]
    simp [skipSpace, hd.2.2.1]
  have e2 : takeSign (natStr n) = (false, natStr n) := by
    rw [hc]
    simp [takeSign, hd.1, hd.2.1]
  have e3 : takeDigits (natStr n) = (natStr n, []) := by
    have := takeDigits_append (rest := []) h1 (by intro c hc; cases hc)
    simpa using this
  unfold stoi
  rw [e1, e2]
  dsimp only
  rw [e3]
  dsimp only
  rw [if_neg h2, h3]
  simp only [Bool.false_eq_true, if_false]
  rw [if_neg]
  push Not
  constructor <;> omega

namespace Text

theorem sciStr_le_one (p : Nat) {x y : K} (h0 : 0 ≤ x) (h1 : x ≤ 1) (h : stod (sciStr p x) = .ok y) :
    0 ≤ y ∧ y ≤ 1 := by
  rcases h0.eq_or_lt with rfl | hpos
  · obtain ⟨z, hz1, hz2, -⟩ := stod_sciStr p (0 : K)
    rw [h] at hz1
    cases hz1
    simp only [sub_zero, abs_zero, mul_zero] at hz2
    have : y = 0 := abs_eq_zero.1 (le_antisymm hz2 (abs_nonneg _))
    rw [this]
    exact ⟨le_refl _, zero_le_one⟩
  · have hx : x ≠ 0 := hpos.ne'
    rcases h1.eq_or_lt with rfl | hlt
    · obtain ⟨z, hz1, -, hz2⟩ := stod_sciStr p (1 : K)
      rw [h] at hz1
      cases hz1
      rw [hz2 ⟨1, 0, by simp, Nat.one_lt_pow (by omega) (by norm_num)⟩]
      exact ⟨zero_le_one, le_refl _⟩
    · unfold sciStr at h
      dsimp only at h
      rw [signStr_eq, stod_parts (K := K) (decide (x < 0)) p _ (expStr_head _).1 (expStr_head _).2,
        takeExponent_expStr] at h
      simp only [if_neg hx] at h
      rw [if_neg (by simpa using hpos.le)] at h
      have hy := Except.ok.inj h
      rw [← hy, (sciParts_spec p hx).1]
      have hab : |x| = x := abs_of_pos hpos
      rw [hab]
      set e := Int.log 10 x with he
      have he1 : (10 : K) ^ e ≤ x := by
        have := Int.zpow_log_le_self (R := K) (b := 10) (by norm_num) hpos
        exact_mod_cast this
      have he2 : x < (10 : K) ^ (e + 1) := by
        have := Int.lt_zpow_succ_log_self (R := K) (b := 10) (by norm_num) x
        exact_mod_cast this
      have he3 : e + 1 ≤ 0 := by
        by_contra hc
        have : (10 : K) ^ (0 : Int) ≤ (10 : K) ^ e := zpow_le_zpow_right₀ (by norm_num) (by omega)
        rw [zpow_zero] at this
        linarith
      have hq : (0 : K) < (10 : K) ^ (e - (p : Int)) := zpow_pos (by norm_num) _
      constructor
      · have : (0 : Int) ≤ round (x / (10 : K) ^ (e - (p : Int))) := by
          rw [round_eq]
          exact Int.floor_nonneg.2 (by positivity)
        have : (0 : K) ≤ (round (x / (10 : K) ^ (e - (p : Int))) : K) := by exact_mod_cast this
        positivity
      · have hr : round (x / (10 : K) ^ (e - (p : Int))) ≤ ((10 ^ (p + 1) : Nat) : Int) := by
          rw [round_eq]
          apply Int.lt_add_one_iff.1
          rw [Int.floor_lt]
          have : x / (10 : K) ^ (e - (p : Int)) < (10 : K) ^ (p + 1) := by
            rw [div_lt_iff₀ hq, ← zpow_natCast, ← zpow_add₀ (by norm_num)]
            refine lt_of_lt_of_eq he2 ?_
            congr 1
            push_cast
            ring
          push_cast
          linarith
        have hr' : (round (x / (10 : K) ^ (e - (p : Int))) : K) ≤ (10 : K) ^ (p + 1) := by
          exact_mod_cast hr
        calc _ ≤ (10 : K) ^ (p + 1) * (10 : K) ^ (e - (p : Int)) :=
              mul_le_mul_of_nonneg_right hr' hq.le
          _ = (10 : K) ^ (e + 1) := by
              rw [← zpow_natCast, ← zpow_add₀ (by norm_num)]
              congr 1
              push_cast
              ring
          _ ≤ (10 : K) ^ (0 : Int) := zpow_le_zpow_right₀ (by norm_num) he3
          _ = 1 := zpow_zero _

end Text

namespace Pop

/-- The tokens of a line. -/
def tokens (x : Indiv K) : List Str :=
  natStr x.id :: sciStr 9 x.obj :: sciStr 9 x.fitness :: sciStr 9 x.rep :: sciStr 9 x.death ::
    x.genes.map (sciStr 9)

theorem csvLine_eq (x : Indiv K) : csvLine x = [','].intercalate (tokens x) ++ ['\n'] := by
  unfold csvLine tokens
  rw [intercalate_cons_flatten]
  simp [List.map_map, Function.comp_def]

theorem tokens_chars (x : Indiv K) : ∀ t ∈ tokens x, ∀ c ∈ t, NumChar c := by
  intro t ht c hc
  unfold tokens at ht
  simp only [List.mem_cons, List.mem_map] at ht
  rcases ht with rfl | rfl | rfl | rfl | rfl | ⟨g, _, rfl⟩
  · exact Or.inl ((natStr_spec _).1 c hc)
  all_goals exact (sciStr_chars 9 _).1 c hc

theorem splitOn_line (x : Indiv K) : splitOn ',' ([','].intercalate (tokens x)) = tokens x := by
  apply splitOn_intercalate
  · intro l hl hc
    exact (tokens_chars x l hl _ hc).ne.1 rfl
  · simp [tokens]

theorem line_no_newline (x : Indiv K) : '\n' ∉ [','].intercalate (tokens x) := by
  intro h
  rcases intercalate_mem h with h | ⟨t, ht, hc⟩
  · exact absurd h (by decide)
  · exact (tokens_chars x t ht _ hc).ne.2 rfl

theorem header_eq (d : Nat) : ∃ h, '\n' ∉ h ∧ csvHeader d = h ++ ['\n'] := by
  refine ⟨_, ?_, rfl⟩
  intro h
  rcases List.mem_append.1 h with h | h
  · exact absurd h (by decide)
  · obtain ⟨l, hl, hc⟩ := List.mem_flatten.1 h
    obtain ⟨i, _, rfl⟩ := List.mem_map.1 hl
    rcases List.mem_append.1 hc with hc | hc
    · exact absurd hc (by decide)
    · exact (isDigit_not_sign ((natStr_spec i).1 _ hc)).2.2.2.2.2.1 rfl

theorem pieces_file {p : Pop K} {text : Str} (h : p.writeToCSV = .ok text) :
    ∃ hd, pieces '\n' text = hd :: p.inds.map (fun x => [','].intercalate (tokens x)) := by
  unfold writeToCSV at h
  split_ifs at h
  obtain ⟨hd, hn, he⟩ := header_eq p.dim
  have := Except.ok.inj h
  have e : text = ((hd :: p.inds.map (fun x => [','].intercalate (tokens x))).map (· ++ ['\n'])).flatten := by
    rw [← this, he]
    simp only [List.map_cons, List.flatten_cons, List.map_map]
    congr 3
    funext x
    exact csvLine_eq x
  refine ⟨hd, ?_⟩
  rw [e]
  apply pieces_lines
  intro l hl
  rcases List.mem_cons.1 hl with rfl | hl
  · exact hn
  · obtain ⟨x, _, rfl⟩ := List.mem_map.1 hl
    exact line_no_newline x

theorem nextNumber_sci (x : K) (ts : List Str) (cur : Str) :
    ∃ y, nextNumber (sciStr 9 x :: ts, cur) = .ok ((ts, sciStr 9 x), y) ∧
      stod (sciStr 9 x) = .ok y ∧ |y - x| ≤ 1 / 2 / 10 ^ 9 * |x| ∧ (SigDigits 10 x → y = x) := by
  obtain ⟨y, h1, h2, h3⟩ := stod_sciStr 9 x
  refine ⟨y, ?_, h1, h2, h3⟩
  unfold nextNumber nextToken
  dsimp only
  rw [if_neg (sciStr_chars 9 x).2]
  exact bind_eq h1 rfl

theorem readGenes_sci (gs : List K) (cur : Str) :
    ∃ vs, readGenes gs.length (gs.map (sciStr 9), cur) = .ok vs ∧ List.Forall₂ Near gs vs := by
  induction gs generalizing cur with
  | nil => exact ⟨[], rfl, .nil⟩
  | cons g gs ih =>
    obtain ⟨y, h1, -, h2⟩ := nextNumber_sci g (gs.map (sciStr 9)) cur
    obtain ⟨vs, h3, h4⟩ := ih (sciStr 9 g)
    refine ⟨y :: vs, ?_, .cons h2 h4⟩
    simp only [List.length_cons, readGenes, List.map_cons]
    exact bind_eq h1 (bind_eq h3 rfl)

theorem near_pos {a b : K} (h : Near a b) (ha : 0 < a) : 0 < b := by
  have h1 := (abs_le.1 h.1).1
  rw [abs_of_pos ha] at h1
  have : (1 : K) / 2 / 10 ^ 9 * a < a := by
    have : (1 : K) / 2 / 10 ^ 9 < 1 := by norm_num
    nlinarith
  linarith

theorem near_lt_one {a b : K} (h : Near a b) (ha : 0 < a) (h1 : a ≤ 1 - 1 / 10 ^ 9) : b < 1 := by
  have h2 := (abs_le.1 h.1).2
  rw [abs_of_pos ha] at h2
  have h3 : (1 : K) / 2 / 10 ^ 9 * a ≤ 1 / 2 / 10 ^ 9 * (1 - 1 / 10 ^ 9) :=
    mul_le_mul_of_nonneg_left h1 (by norm_num)
  have h4 : (1 : K) / 2 / 10 ^ 9 * (1 - 1 / 10 ^ 9) < 1 / 10 ^ 9 := by norm_num
  linarith

theorem readLine_ok {d : Nat} {x : Indiv K} (hg : x.genes.length = d) (hid : x.id < 2 ^ 31)
    (hr : 0 < x.rep) (hr1 : x.rep ≤ 1 - 1 / 10 ^ 9) (hd : 0 ≤ x.death) (hd1 : x.death ≤ 1) :
    ∃ y, readLine d ([','].intercalate (tokens x)) = .ok y ∧ Restored d x y := by
  unfold readLine
  rw [splitOn_line]
  unfold tokens
  simp only [nextToken]
  obtain ⟨o, ho, -, ho2⟩ := nextNumber_sci x.obj (sciStr 9 x.fitness :: sciStr 9 x.rep ::
    sciStr 9 x.death :: x.genes.map (sciStr 9)) (natStr x.id)
  obtain ⟨f, hf, -, hf2⟩ := nextNumber_sci x.fitness (sciStr 9 x.rep ::
    sciStr 9 x.death :: x.genes.map (sciStr 9)) (sciStr 9 x.obj)
  obtain ⟨r, hr', -, hr2⟩ := nextNumber_sci x.rep (sciStr 9 x.death :: x.genes.map (sciStr 9))
    (sciStr 9 x.fitness)
  obtain ⟨t, ht, ht', ht2⟩ := nextNumber_sci x.death (x.genes.map (sciStr 9)) (sciStr 9 x.rep)
  obtain ⟨vs, hv, hv2⟩ := readGenes_sci x.genes (sciStr 9 x.death)
  have hlen : vs.length = d := by rw [← hv2.length_eq, hg]
  have hrp := near_pos hr2 hr
  have hr1' := near_lt_one hr2 hr hr1
  have htb := sciStr_le_one 9 hd hd1 ht'
  refine ⟨⟨x.id, f, o, r, t, d, vs⟩, ?_, rfl, ho2, hf2, hr2, ht2, hv2, rfl⟩
  refine (if_neg (natStr_spec x.id).2.1).trans ?_
  refine bind_eq (stoi_natStr hid) ?_
  refine bind_eq ho ?_
  refine bind_eq hf ?_
  refine bind_eq hr' ?_
  refine bind_eq ht ?_
  refine bind_eq (a := vs) (by rw [← hg]; exact hv) ?_
  have hidm : ((x.id : Int) % 2 ^ 32).toNat = x.id := by omega
  unfold Indiv.initializeGenes Indiv.setRep Indiv.setDeath Indiv.new
  dsimp only
  rw [hidm, if_neg (by omega)]
  refine bind_eq rfl ?_
  dsimp only
  rw [if_neg (not_le.2 hrp), if_neg (not_le.2 hr1')]
  refine bind_eq rfl ?_
  dsimp only
  rw [if_neg (not_lt.2 htb.1), if_neg (not_lt.2 htb.2)]

theorem addIndividual_inds {p q : Pop K} {x : Indiv K} (h : p.addIndividual x = .ok q) :
    q.inds = p.inds ++ [x] ∧ q.dim = p.dim ∧ x.dim = p.dim := by
  unfold addIndividual at h
  split_ifs at h with hd
  have := Except.ok.inj h
  rw [← this]
  unfold updateMinMaxIf
  refine ⟨?_, ?_, not_not.1 hd⟩ <;> · dsimp only; split_ifs <;> rfl

/-- An accepted file gives individuals of the right dimension. -/
theorem readFromCSV_post (p : Pop K) (text : Str) :
    Post (p.readFromCSV text) (fun q => q.dim = p.dim ∧
      ∀ x ∈ q.inds, x.dim = p.dim ∧ x.genes.length = p.dim) := by
  unfold readFromCSV
  split
  · exact Post.error
  · refine foldRes_post (fun _ (q : Pop K) => q.dim = p.dim ∧
      ∀ x ∈ q.inds, x.dim = p.dim ∧ x.genes.length = p.dim) ⟨rfl, by intro x hx; cases hx⟩ ?_
    rintro pre line q - ⟨hq1, hq2⟩ q' hq'
    obtain ⟨x, hx, ha⟩ := bind_ok_inv hq'
    obtain ⟨h1, h2, h3⟩ := addIndividual_inds ha
    refine ⟨h2.trans hq1, ?_⟩
    intro y hy
    rw [h1] at hy
    rcases List.mem_append.1 hy with hy | hy
    · exact hq2 y hy
    · rw [List.mem_singleton] at hy
      subst hy
      refine ⟨h3.trans hq1, ?_⟩
      rw [← hq1]
      unfold readLine at hx
      dsimp only at hx
      split_ifs at hx
      obtain ⟨id, -, hx⟩ := bind_ok_inv hx
      obtain ⟨s1, -, hx⟩ := bind_ok_inv hx
      obtain ⟨s2, -, hx⟩ := bind_ok_inv hx
      obtain ⟨s3, -, hx⟩ := bind_ok_inv hx
      obtain ⟨s4, -, hx⟩ := bind_ok_inv hx
      obtain ⟨g, -, hx⟩ := bind_ok_inv hx
      obtain ⟨z, hz, hx⟩ := bind_ok_inv hx
      obtain ⟨z', hz', hx⟩ := bind_ok_inv hx
      unfold Indiv.initializeGenes at hz
      split_ifs at hz with hl
      cases hz
      unfold Indiv.setRep at hz'
      split_ifs at hz'
      cases hz'
      unfold Indiv.setDeath at hx
      split_ifs at hx
      cases hx
      exact (not_not.1 hl).symm

theorem foldRes_append_ok {d : Nat} (xs : List (Indiv K)) (q : Pop K) (hq : q.dim = d)
    (h : ∀ x ∈ xs, ∃ y, readLine d ([','].intercalate (tokens x)) = .ok y ∧ Restored d x y) :
    ∃ (q' : Pop K) (ys : List (Indiv K)), foldRes (fun q line => do
        let x ← readLine q.dim line
        q.addIndividual x) q (xs.map (fun x => [','].intercalate (tokens x))) = .ok q' ∧
      q'.inds = q.inds ++ ys ∧ List.Forall₂ (Restored d) xs ys := by
  induction xs generalizing q with
  | nil => exact ⟨q, [], rfl, by simp, .nil⟩
  | cons x xs ih =>
    obtain ⟨y, hy1, hy2⟩ := h x (by simp)
    have hadd : ∃ q1, q.addIndividual y = .ok q1 := by
      unfold addIndividual
      rw [if_neg (by rw [hy2.2.2.2.2.2.2, hq]; simp)]
      exact ⟨_, rfl⟩
    obtain ⟨q1, hq1⟩ := hadd
    obtain ⟨h1, h2, h3⟩ := addIndividual_inds hq1
    obtain ⟨q', ys, h4, h5, h6⟩ := ih q1 (h2.trans hq) (fun x' hx' => h x' (by simp [hx']))
    refine ⟨q', y :: ys, ?_, ?_, .cons hy2 h6⟩
    · simp only [List.map_cons, foldRes]
      have : (do let x ← readLine q.dim ([','].intercalate (tokens x)); q.addIndividual x) = .ok q1 := by
        rw [hq]
        exact bind_eq hy1 hq1
      rw [this]
      exact h4
    · rw [h5, h1]
      simp

end Pop
end Rodeo
