import Verif.Lemmas.Text
import Verif.Lemmas.Mat
import Verif.Lemmas.Post
import Verif.Model.CSV

set_option linter.unusedSectionVars false

/-! # Lemmas on CSV files -/

namespace Rodeo

open Text Spec

theorem intercalate_snoc (c : Char) : ∀ (l : List Str), l ≠ [] → ∀ x,
    [c].intercalate l ++ [c] ++ x = [c].intercalate (l ++ [x]) := by
  intro l
  induction l with
  | nil => intro h; exact absurd rfl h
  | cons a l ih =>
    intro _ x
    cases l with
    | nil => simp [List.intercalate]
    | cons b l =>
      have := ih (by simp) x
      rw [List.intercalate_cons_cons, List.cons_append, List.cons_append,
        List.intercalate_cons_cons]
      simp only [List.append_assoc] at this ⊢
      rw [this]
      rfl

/-- Text of pieces with a separator after all but the last one. -/
theorem flatten_sep (c : Char) (g : Nat → Str) (n : Nat) :
    ((List.range n).map (fun k => g k ++ (if k < n - 1 then [c] else []))).flatten =
      [c].intercalate ((List.range n).map g) := by
  rcases n with _ | n
  · rfl
  · have h1 : ∀ m, m ≤ n → ((List.range m).map (fun k => g k ++ (if k < n then [c] else []))).flatten ++
        g m = [c].intercalate ((List.range (m + 1)).map g) := by
      intro m
      induction m with
      | zero => intro _; simp [List.intercalate]
      | succ m ih =>
        intro hm
        rw [List.range_succ, List.map_append, List.flatten_append]
        simp only [List.map_cons, List.map_nil, List.flatten_cons, List.flatten_nil, List.append_nil]
        rw [if_pos (by omega), ← List.append_assoc, ih (by omega), List.range_succ (n := m + 1),
          List.map_append, List.map_cons, List.map_nil]
        exact intercalate_snoc c _ (by simp) _
    have h2 := h1 n le_rfl
    rw [← h2, List.range_succ, List.map_append, List.flatten_append]
    simp

/-- A loop that prints pieces with separators. -/
theorem sepLoop {α : Type} {c : Char} {n : Nat} {f : Nat → Res α} {fmt : α → Str} {g : Nat → α}
    (hf : ∀ i, i < n → f i = .ok (g i)) (s0 : Str) :
    forRange n (fun i s => do
      let v ← f i
      .ok (s ++ fmt v ++ (if i < n - 1 then [c] else []))) s0 =
      .ok (s0 ++ [c].intercalate ((List.range n).map (fun i => fmt (g i)))) := by
  suffices h : ∃ s, forRange n (fun i s => do
      let v ← f i
      .ok (s ++ fmt v ++ (if i < n - 1 then [c] else []))) s0 = .ok s ∧
      s = s0 ++ ((List.range n).map (fun k => fmt (g k) ++ (if k < n - 1 then [c] else []))).flatten by
    obtain ⟨s, h1, h2⟩ := h
    rw [h1, h2, flatten_sep c (fun k => fmt (g k))]
  refine forRange_inv (fun i s => s = s0 ++
    ((List.range i).map (fun k => fmt (g k) ++ (if k < n - 1 then [c] else []))).flatten) (by simp) ?_
  rintro i s hi rfl
  refine ⟨_, bind_eq (hf i hi) rfl, ?_⟩
  rw [List.range_succ, List.map_append, List.flatten_append]
  simp

variable {K : Type} [Field K] [LinearOrder K] [IsStrictOrderedRing K] [FloorRing K]

/-- Characters of printed numbers. -/
def NumChar (c : Char) : Prop := isDigit c = true ∨ c = '-' ∨ c = '.' ∨ c = 'e' ∨ c = '+'

theorem NumChar.ne {c : Char} (h : NumChar c) : c ≠ ',' ∧ c ≠ '\n' := by
  rcases h with h | rfl | rfl | rfl | rfl
  · have := isDigit_not_sign h
    exact ⟨this.2.2.2.2.1, this.2.2.2.2.2.1⟩
  all_goals decide

theorem signStr_chars (x : K) : ∀ c ∈ signStr x, NumChar c := by
  unfold signStr
  split_ifs
  · intro c hc
    simp only [List.mem_singleton] at hc
    exact Or.inr (Or.inl hc)
  · intro c hc; cases hc

theorem fixedStr_chars (p : Nat) (x : K) : (∀ c ∈ fixedStr p x, NumChar c) ∧ fixedStr p x ≠ [] := by
  unfold fixedStr
  dsimp only
  constructor
  · intro c hc
    rw [List.mem_append, List.mem_append] at hc
    rcases hc with (hc | hc) | hc
    · exact signStr_chars x c hc
    · exact Or.inl ((natStr_spec _).1 c hc)
    · split_ifs at hc
      · cases hc
      · rcases List.mem_cons.1 hc with rfl | hc
        · exact Or.inr (Or.inr (Or.inl rfl))
        · exact Or.inl ((padDigits_spec _ _).1 c hc)
  · intro h
    have := (List.append_eq_nil_iff.1 h).1
    exact (natStr_spec _).2.1 (List.append_eq_nil_iff.1 this).2

theorem expStr_chars (e : Int) : ∀ c ∈ expStr e, NumChar c := by
  intro c hc
  unfold expStr at hc
  rcases List.mem_cons.1 hc with rfl | hc
  · exact Or.inr (Or.inr (Or.inr (Or.inl rfl)))
  · rcases List.mem_cons.1 hc with rfl | hc
    · split_ifs
      · exact Or.inr (Or.inl rfl)
      · exact Or.inr (Or.inr (Or.inr (Or.inr rfl)))
    · split_ifs at hc
      · exact Or.inl ((padDigits_spec _ _).1 c hc)
      · exact Or.inl ((natStr_spec _).1 c hc)

theorem sciStr_chars (p : Nat) (x : K) : (∀ c ∈ sciStr p x, NumChar c) ∧ sciStr p x ≠ [] := by
  unfold sciStr
  dsimp only
  constructor
  · intro c hc
    rw [List.mem_append, List.mem_append, List.mem_append] at hc
    rcases hc with ((hc | hc) | hc) | hc
    · exact signStr_chars x c hc
    · exact Or.inl ((natStr_spec _).1 c hc)
    · split_ifs at hc
      all_goals first
        | cases hc; done
        | rcases List.mem_cons.1 hc with rfl | hc
          · exact Or.inr (Or.inr (Or.inl rfl))
          · exact Or.inl ((padDigits_spec _ _).1 c hc)
    · exact expStr_chars _ c hc
  · intro h
    have := (List.append_eq_nil_iff.1 (List.append_eq_nil_iff.1 h).1).1
    exact (natStr_spec _).2.1 (List.append_eq_nil_iff.1 this).2

theorem trimFraction_chars {ds : Str} (h : AllDigits ds) : ∀ c ∈ trimFraction ds, NumChar c := by
  intro c hc
  unfold trimFraction at hc
  dsimp only at hc
  split_ifs at hc
  · cases hc
  · rcases List.mem_cons.1 hc with rfl | hc
    · exact Or.inr (Or.inr (Or.inl rfl))
    · obtain ⟨k, hk⟩ := rdrop_zeros ds
      exact Or.inl (h c (by rw [hk]; exact List.mem_append_left _ hc))

theorem sigStr_chars (p : Nat) (x : K) : (∀ c ∈ sigStr p x, NumChar c) ∧ sigStr p x ≠ [] := by
  unfold sigStr
  dsimp only
  split_ifs
  · refine ⟨?_, by simp⟩
    intro c hc
    simp only [List.mem_singleton] at hc
    subst hc
    exact Or.inl (by decide)
  · constructor
    · intro c hc
      rw [List.mem_append, List.mem_append] at hc
      rcases hc with (hc | hc) | hc
      · exact signStr_chars x c hc
      · exact Or.inl ((natStr_spec _).1 c hc)
      · exact trimFraction_chars (padDigits_spec _ _).1 c hc
    · intro h
      have := (List.append_eq_nil_iff.1 h).1
      exact (natStr_spec _).2.1 (List.append_eq_nil_iff.1 this).2
  · constructor
    · intro c hc
      rw [List.mem_append, List.mem_append, List.mem_append] at hc
      rcases hc with ((hc | hc) | hc) | hc
      · exact signStr_chars x c hc
      · exact Or.inl ((natStr_spec _).1 c hc)
      · exact trimFraction_chars (padDigits_spec _ _).1 c hc
      · exact expStr_chars _ c hc
    · intro h
      have := (List.append_eq_nil_iff.1 (List.append_eq_nil_iff.1 h).1).1
      exact (natStr_spec _).2.1 (List.append_eq_nil_iff.1 this).2

theorem generalStr_chars (x : K) : (∀ c ∈ generalStr x, NumChar c) ∧ generalStr x ≠ [] :=
  sigStr_chars 5 x

theorem intercalate_mem {c d : Char} {l : List Str} (h : d ∈ [c].intercalate l) :
    d = c ∨ ∃ t ∈ l, d ∈ t := by
  induction l with
  | nil => cases h
  | cons a l ih =>
    cases l with
    | nil => exact Or.inr ⟨a, by simp, by simpa [List.intercalate] using h⟩
    | cons b l =>
      rw [List.intercalate_cons_cons, List.append_assoc, List.mem_append, List.mem_append] at h
      rcases h with h | h | h
      · exact Or.inr ⟨a, by simp, h⟩
      · exact Or.inl (by simpa using h)
      · rcases ih h with h | ⟨t, ht, hd⟩
        · exact Or.inl h
        · exact Or.inr ⟨t, by simp [ht], hd⟩

/-- One line of numbers. -/
def rowText (p : Nat) (m : Nat) (f : Nat → K) : Str :=
  [','].intercalate ((List.range m).map (fun j => fixedStr p (f j)))

theorem rowText_no_newline (p m : Nat) (f : Nat → K) : '\n' ∉ rowText p m f := by
  intro h
  rcases intercalate_mem h with h | ⟨t, ht, h⟩
  · exact absurd h (by decide)
  · obtain ⟨j, _, rfl⟩ := List.mem_map.1 ht
    exact ((fixedStr_chars p (f j)).1 _ h).ne.2 rfl

theorem rowText_pieces (p m : Nat) (f : Nat → K) :
    pieces ',' (rowText p m f) = (List.range m).map (fun j => fixedStr p (f j)) := by
  apply pieces_intercalate
  intro l hl
  obtain ⟨j, _, rfl⟩ := List.mem_map.1 hl
  exact ⟨fun h => ((fixedStr_chars p (f j)).1 _ h).ne.1 rfl, (fixedStr_chars p (f j)).2⟩

/-- The value `stod` reads from `fixedStr p x`. -/
noncomputable def reread (p : Nat) (x : K) : K := Classical.choose (stod_fixedStr p x)

theorem reread_spec (p : Nat) (x : K) :
    stod (fixedStr p x) = .ok (reread p x) ∧ |reread p x - x| ≤ 1 / 2 / 10 ^ p :=
  Classical.choose_spec (stod_fixedStr p x)

/-- What is read back has `p` digits after the point. -/
theorem reread_decimals (p : Nat) (x : K) : Decimals p (reread p x) := by
  have h := stod_parts (K := K) (decide (x < 0)) p (round (|x| * 10 ^ p)).toNat (E := [])
    (by intro c hc; cases hc) (by simp)
  rw [List.append_nil, ← signStr_eq] at h
  have h1 := (reread_spec p x).1
  have h2 := Except.ok.inj (h1.symm.trans h)
  have hp : (10 : K) ^ p ≠ 0 := by positivity
  have hz : (10 : K) ^ (takeExponent [] - (p : Int)) = (10 ^ p)⁻¹ := by
    simp [takeExponent, zpow_neg]
  rw [h2, hz]
  by_cases hx : x < 0
  · refine ⟨-((round (|x| * 10 ^ p)).toNat : Int), ?_⟩
    rw [if_pos (by simp [hx]), neg_mul, mul_assoc, inv_mul_cancel₀ hp]
    push_cast
    ring
  · refine ⟨((round (|x| * 10 ^ p)).toNat : Int), ?_⟩
    rw [if_neg (by simp [hx]), mul_assoc, inv_mul_cancel₀ hp]
    push_cast
    ring

theorem reread_exact {p : Nat} {x : K} (h : Decimals p x) : reread p x = x := by
  have h1 := (reread_spec p x).1
  rw [stod_fixedStr_exact p h] at h1
  exact (Except.ok.inj h1).symm

namespace Mat

theorem dataLines_ok {A : Mat K} {n m : Nat} {F : Nat → Nat → K} (hA : IsMat A n m F) (p : Nat)
    (s0 : Str) : dataLines A p s0 =
      .ok (s0 ++ (((List.range n).map (fun i => rowText p m (F i))).map (· ++ ['\n'])).flatten) := by
  obtain ⟨hr, hc, -, -⟩ := id hA
  unfold dataLines
  rw [hr, hc]
  suffices h : ∃ s, forRange n (fun row s => do
      let s1 ← forRange m (fun col s => do
        let v ← rawAt A.buf (col * n + row)
        .ok (s ++ fixedStr p v ++ (if col < m - 1 then [','] else []))) s
      .ok (s1 ++ ['\n'])) s0 = .ok s ∧
      s = s0 ++ (((List.range n).map (fun i => rowText p m (F i))).map (· ++ ['\n'])).flatten by
    obtain ⟨s, h1, h2⟩ := h
    rw [h1, h2]
  refine forRange_inv (fun i s => s =
    s0 ++ (((List.range i).map (fun i => rowText p m (F i))).map (· ++ ['\n'])).flatten) (by simp) ?_
  rintro i s hi rfl
  refine ⟨_, bind_eq (sepLoop (g := F i) (fun j hj => hA.raw hi hj rfl) _) rfl, ?_⟩
  rw [List.range_succ, List.map_append, List.map_append, List.flatten_append]
  simp [rowText]

theorem headerLine_ok (header : List Str) :
    headerLine header = .ok ([','].intercalate header ++ ['\n']) := by
  unfold headerLine
  refine bind_eq (sepLoop (f := fun i => rawAt header i) (fmt := fun h => h)
    (g := fun i => header.getD i []) ?_ []) ?_
  · intro i hi
    rw [rawAt_ok_of_lt hi]
    simp [hi]
  · congr 3
    rw [List.nil_append]
    congr 1
    refine List.ext_getElem (by simp) ?_
    intro i h1 h2
    simp at h1
    simp [h1]

/-- The text of a saved matrix. -/
def csvText (p : Nat) (header : List Str) (n m : Nat) (F : Nat → Nat → K) : Str :=
  ((if header = [] then [] else [[','].intercalate header]) ++
    (List.range n).map (fun i => rowText p m (F i))).map (· ++ ['\n']) |>.flatten

theorem saveAsCSV_ok {A : Mat K} {n m : Nat} {F : Nat → Nat → K} (hA : IsMat A n m F) (p : Nat)
    (header : List Str) (hh : header = [] ∨ header.length = m) :
    saveAsCSV A p header = (csvText p header n m F, .ok ()) := by
  unfold saveAsCSV
  rw [if_neg (by rw [hA.2.1]; tauto)]
  dsimp only
  by_cases h0 : header = []
  · subst h0
    simp only [if_true]
    have : (do let h ← (Except.ok [] : Res Str); dataLines A p h) = dataLines A p [] := rfl
    rw [this, dataLines_ok hA]
    simp [csvText]
  · rw [if_neg h0, headerLine_ok]
    have : (do let h ← (Except.ok ([','].intercalate header ++ ['\n']) : Res Str); dataLines A p h) =
      dataLines A p ([','].intercalate header ++ ['\n']) := rfl
    rw [this, dataLines_ok hA]
    simp [csvText, h0]

/-- Rows of equal length become a matrix. -/
theorem fill_ok {rows : List (List K)} {n m : Nat} {G : Nat → Nat → K}
    (h : ∀ i, i < n → rows[i]? = some ((List.range m).map (G i))) :
    OkP (do
      let d ← forRange n (fun i d => do
        let row ← rawAt rows i
        if row.length ≠ m then .error .runtimeError
        else forRange m (fun j d => do
          let v ← rawAt row j
          Mem.wr d (j * n + i) v) d) (Mem.alloc (n * m))
      let l ← Mem.freeze d
      .ok ⟨n, m, l⟩) (fun B => IsMat B n m G) := by
  refine OkP.bind (okP_for (fun r d => Rep2 d n m (fun i j =>
      if i < r then some (G i j) else none)) ?_ ?_) ?_
  · exact (rep2_alloc _ _).start (by omega)
  · intro i d hi hd
    refine bind_okP (a := (List.range m).map (G i)) (by simp [rawAt, h i hi]) ?_
    rw [if_neg (by simp)]
    refine (okP_for (fun c d => Rep2 d n m (fun a b =>
      if a < i ∨ (a = i ∧ b < c) then some (G a b) else none)) ?_ ?_).mono ?_
    · exact hd.cond (by omega)
    · intro j d hj hd
      refine bind_okP (a := G i j) (by simp [rawAt, hj]) ?_
      exact hd.wr_next i j hi hj rfl rfl (by omega)
    · intro d hd
      exact hd.cond (by omega)
  · intro d hd
    refine OkP.bind (okP_freeze (hd.done (by omega))) ?_
    intro l hl
    exact okP_ok hl

/-- Reading a file that consists of an optional header line and rows of parsable numbers. -/
theorem readFromCSV_ok {lines : List Str} {hdr : Bool} {text : Str} (ht : pieces '\n' text = lines)
    {n m : Nat} {G : Nat → Nat → K} (hn : 0 < n)
    (hr : readRows (if hdr then lines.drop 1 else lines) =
      .ok ((List.range n).map (fun i => (List.range m).map (G i)))) :
    ∃ B, readFromCSV (some text) hdr = .ok B ∧ IsMat B n m G := by
  unfold readFromCSV
  dsimp only
  rw [ht]
  suffices h : OkP (do
      let rows ← readRows (if hdr = true then lines.drop 1 else lines)
      match rows with
      | [] => .error .runtimeError
      | first :: _ => do
        let nrows := rows.length
        let ncols := first.length
        let d ← forRange nrows (fun i d => do
          let row ← rawAt rows i
          if row.length ≠ ncols then .error .runtimeError
          else forRange ncols (fun j d => do
            let v ← rawAt row j
            Mem.wr d (j * nrows + i) v) d) (Mem.alloc (nrows * ncols))
        let l ← Mem.freeze d
        .ok ⟨nrows, ncols, l⟩) (fun B => IsMat (K := K) B n m G) from h
  refine bind_okP hr ?_
  obtain ⟨k, rfl⟩ : ∃ k, n = k + 1 := ⟨n - 1, by omega⟩
  have hrows : (List.range (k + 1)).map (fun i => (List.range m).map (G i)) =
      (List.range m).map (G 0) :: (List.range k).map (fun i => (List.range m).map (G (i + 1))) := by
    rw [List.range_succ_eq_map, List.map_cons, List.map_map]
    rfl
  have := fill_ok (rows := (List.range (k + 1)).map (fun i => (List.range m).map (G i)))
    (n := k + 1) (m := m) (G := G) (by intro i hi; simp [hi])
  rw [hrows] at this ⊢
  simpa using this

theorem loopFrom_ok_inv {σ : Type} {body : Nat → σ → Res σ} :
    ∀ (k i : Nat) (s s' : σ), loopFrom body i k s = .ok s' →
      ∀ j, i ≤ j → j < i + k → ∃ a b, body j a = .ok b := by
  intro k
  induction k with
  | zero => intro i s s' _ j h1 h2; omega
  | succ k ih =>
    intro i s s' h j h1 h2
    unfold loopFrom at h
    cases hb : body i s with
    | error e => rw [hb] at h; cases h
    | ok s1 =>
      rw [hb] at h
      by_cases hj : j = i
      · subst hj
        exact ⟨s, s1, hb⟩
      · exact ih (i + 1) s1 s' h j (by omega) (by omega)

/-- What a successful read says about the file. -/
theorem readFromCSV_inv {text : Str} {A : Mat K} (h : readFromCSV (some text) false = .ok A) :
    ∃ (n m : Nat) (F : Nat → Nat → K), 0 < n ∧ IsMat A n m F ∧
      readRows (pieces '\n' text) = .ok ((List.range n).map (fun i => (List.range m).map (F i))) := by
  have h0 := h
  unfold readFromCSV at h
  dsimp only at h
  obtain ⟨rows, hr, h⟩ := bind_ok_inv h
  rw [if_neg (by simp)] at hr
  cases rows with
  | nil => cases h
  | cons first rest =>
    dsimp only at h
    obtain ⟨d, hd, -⟩ := bind_ok_inv h
    have hlen : ∀ i (hi : i < (first :: rest).length), (first :: rest)[i].length = first.length := by
      intro i hi
      obtain ⟨a, b, hab⟩ := loopFrom_ok_inv _ 0 _ _ hd i (by omega) (by omega)
      rw [rawAt_ok_of_lt hi] at hab
      obtain ⟨row, h1, h2⟩ := bind_ok_inv hab
      cases h1
      by_contra hne
      rw [if_pos hne] at h2
      cases h2
    have hrows : first :: rest = (List.range (first :: rest).length).map (fun i =>
        (List.range first.length).map (fun j => ((first :: rest).getD i []).getD j 0)) := by
      refine List.ext_getElem (by simp) ?_
      intro i h1 h2
      refine List.ext_getElem (by simp [hlen i h1]) ?_
      intro j h3 h4
      have h5 : (first :: rest).getD i [] = (first :: rest)[i] := by
        rw [List.getD_eq_getElem?_getD, List.getElem?_eq_getElem h1]
        rfl
      simp only [List.getElem_map, List.getElem_range, h5]
      simp [List.getD_eq_getElem?_getD, h3]
    rw [hrows] at hr
    obtain ⟨B, hB1, hB2⟩ := readFromCSV_ok (hdr := false) rfl
      (show 0 < (first :: rest).length by simp) (by simpa using hr)
    rw [h0] at hB1
    cases hB1
    exact ⟨_, _, _, by simp, hB2, hr⟩

end Mat

namespace Vec

theorem csvLine_ok (v : List K) (p : Nat) :
    csvLine v p = .ok (rowText p v.length (vecFun v) ++ ['\n']) := by
  unfold csvLine
  refine bind_eq (sepLoop (f := fun i => rawAt v i) (fmt := fun x => fixedStr p x) (g := vecFun v)
    ?_ []) rfl
  intro i hi
  rw [rawAt_ok_of_lt hi]
  simp [vecFun, hi]

theorem saveToCSV_ok (v : List K) :
    saveToCSV v = .ok (['\n'].intercalate (v.map generalStr)) := by
  unfold saveToCSV
  rw [sepLoop (f := fun i => rawAt v i) (fmt := fun x => generalStr x) (g := vecFun v)]
  · rw [List.nil_append]
    congr 2
    refine List.ext_getElem (by simp) ?_
    intro i h1 h2
    simp at h1
    simp [vecFun, h1]
  · intro i hi
    rw [rawAt_ok_of_lt hi]
    simp [vecFun, hi]

end Vec

namespace Text

theorem splitOn_append (c : Char) (s t : Str) :
    splitOn c (s ++ c :: t) = splitOn c s ++ splitOn c t := by
  induction s with
  | nil => simp [splitOn]
  | cons a s ih =>
    simp only [List.cons_append, splitOn]
    split_ifs with h
    · rw [ih, List.cons_append]
    · rw [ih]
      cases h2 : splitOn c s with
      | nil => exact absurd h2 (splitOn_ne_nil c s)
      | cons x xs => rfl

/-- A complete line appended to complete lines. -/
theorem pieces_append_line {c : Char} {s l : Str} (hs : s = [] ∨ s.getLast? = some c) (hl : c ∉ l) :
    pieces c (s ++ l ++ [c]) = pieces c s ++ [l] := by
  have h1 : splitOn c (l ++ [c]) = [l, []] := by
    rw [splitOn_cons hl]
    rfl
  rcases hs with rfl | hs
  · unfold pieces
    rw [List.nil_append, h1]
    simp [splitOn]
  · obtain ⟨s', rfl⟩ : ∃ s', s = s' ++ [c] := by
      rw [List.getLast?_eq_some_iff] at hs
      exact hs
    unfold pieces
    have e1 : splitOn c (s' ++ [c]) = splitOn c s' ++ [[]] := by
      rw [splitOn_append]
      rfl
    have e2 : splitOn c (s' ++ [c] ++ l ++ [c]) = splitOn c s' ++ [l, []] := by
      rw [List.append_assoc, List.append_assoc, List.singleton_append, splitOn_append, h1]
    rw [e1, e2]
    simp

end Text
end Rodeo
