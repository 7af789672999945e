import Verif.Lemmas.CSV
import Mathlib.Data.Rat.Floor

set_option linter.unusedSectionVars false

/-! # CSV files (C50, C64, C65) -/

namespace Rodeo

open Text Spec Mat

variable {K : Type} [Field K] [LinearOrder K] [IsStrictOrderedRing K] [FloorRing K]

/-- **C50.** Saving an `n x m` matrix (`n, m ≥ 1`) with `p` digits, without a header or with one of
the right size whose names contain no line break, succeeds, and reading the file back gives an
`n x m` matrix each entry of which differs from the original by at most half a unit in the `p`-th
decimal.  Entries with at most `p` decimals come back unchanged. -/
theorem C50_roundtrip {A : Mat K} {n m : Nat} {F : Nat → Nat → K} (hA : IsMat A n m F) (hn : 1 ≤ n)
    (p : Nat) (header : List Str) (hh : header = [] ∨ header.length = m)
    (hnl : ∀ h ∈ header, '\n' ∉ h) :
    ∃ (text : Str) (B : Mat K) (G : Nat → Nat → K), saveAsCSV A p header = (text, .ok ()) ∧
      readFromCSV (some text) (decide (header ≠ [])) = .ok B ∧ IsMat B n m G ∧
      (∀ i j, i < n → j < m → |G i j - F i j| ≤ 1 / 2 / 10 ^ p) ∧
      (∀ i j, i < n → j < m → Decimals p (F i j) → G i j = F i j) := by
  have hlines : pieces '\n' (csvText p header n m F) =
      (if header = [] then [] else [[','].intercalate header]) ++
        (List.range n).map (fun i => rowText p m (F i)) := by
    apply pieces_lines
    intro l hl
    rcases List.mem_append.1 hl with hl | hl
    · split_ifs at hl with h0
      · cases hl
      · simp only [List.mem_singleton] at hl
        subst hl
        intro hc
        rcases intercalate_mem hc with hc | ⟨t, ht, hc⟩
        · exact absurd hc (by decide)
        · exact hnl t ht hc
    · obtain ⟨i, _, rfl⟩ := List.mem_map.1 hl
      exact rowText_no_newline p m (F i)
  have hdata : (if decide (header ≠ []) then ((if header = [] then [] else [[','].intercalate header]) ++
        (List.range n).map (fun i => rowText p m (F i))).drop 1
      else ((if header = [] then [] else [[','].intercalate header]) ++
        (List.range n).map (fun i => rowText p m (F i)))) =
      (List.range n).map (fun i => rowText p m (F i)) := by
    by_cases h0 : header = [] <;> simp [h0]
  obtain ⟨B, hB1, hB2⟩ := readFromCSV_ok (hdr := decide (header ≠ [])) hlines
    (G := fun i j => reread p (F i j)) (n := n) (m := m) hn (by
      rw [hdata]
      unfold readRows
      rw [mapRes_ok (g := fun line => ((pieces ',' line).map
        (fun t => match (stod t : Res K) with | .ok v => v | .error _ => 0)))]
      · rw [List.map_map]
        congr 1
        apply List.map_congr_left
        intro i _
        simp only [Function.comp_apply, rowText_pieces, List.map_map]
        apply List.map_congr_left
        intro j _
        simp only [Function.comp_apply, (reread_spec p (F i j)).1]
      · intro l hl
        obtain ⟨i, _, rfl⟩ := List.mem_map.1 hl
        apply mapRes_ok
        intro t ht
        rw [rowText_pieces] at ht
        obtain ⟨j, _, rfl⟩ := List.mem_map.1 ht
        simp only [(reread_spec p (F i j)).1])
  exact ⟨_, B, _, saveAsCSV_ok hA p header hh, hB1, hB2, fun i j _ _ => (reread_spec p (F i j)).2,
    fun i j _ _ h => reread_exact h⟩

/-- **C50, wrong header.** A header of the wrong size is reported; by then the old content of the
file is gone. -/
theorem C50_header_mismatch {A : Mat K} {n m : Nat} {F : Nat → Nat → K} (hA : IsMat A n m F) (p : Nat)
    (header : List Str) (h0 : header ≠ []) (hh : header.length ≠ m) :
    saveAsCSV A p header = ([], .error .invalidArgument) := by
  unfold saveAsCSV
  rw [if_pos ⟨h0, by rw [hA.2.1]; exact hh⟩]

set_option maxRecDepth 100000 in
example : saveAsCSV (⟨2, 2, [1/3, -5/4, 1000, 0]⟩ : Mat ℚ) 2 ["x".toList, "f".toList] =
      ("x,f\n0.33,1000.00\n-1.25,0.00\n".toList, .ok ()) ∧
    readFromCSV (some "x,f\n0.33,1000.00\n-1.25,0.00\n".toList) true =
      .ok (⟨2, 2, [33/100, -5/4, 1000, 0]⟩ : Mat ℚ) := by decide +kernel

/-! ## C64 -/

/-- The property as one would like to have it: a vector whose size is the number of columns of a
readable file can be appended, and the file then reads as the old rows followed by the new one (to
the written precision). -/
def C64_full (K : Type) [Field K] [LinearOrder K] [IsStrictOrderedRing K] [FloorRing K] : Prop :=
  ∀ (text : Str) (A : Mat K) (n m : Nat) (F : Nat → Nat → K) (v : List K) (p : Nat),
    readFromCSV (some text) false = .ok A → IsMat A n m F → v.length = m →
    ∃ (text' : Str) (B : Mat K) (G : Nat → Nat → K), Vec.appendToCSV v (some text) p = .ok text' ∧
      readFromCSV (some text') false = .ok B ∧ IsMat B (n + 1) m G ∧
      (∀ i j, i < n → j < m → G i j = F i j) ∧ ∀ j, j < m → |G n j - vecFun v j| ≤ 1 / 2 / 10 ^ p

set_option maxRecDepth 100000 in
/-- A file whose last line has no line break: the new sample is glued to the last one. -/
theorem C64_false : ¬ C64_full ℚ := by
  intro h
  have e1 : readFromCSV (some "1,2".toList) false = .ok (⟨1, 2, [1, 2]⟩ : Mat ℚ) := by decide +kernel
  obtain ⟨t, B, G, h1, h2, h3, -, -⟩ := h "1,2".toList ⟨1, 2, [1, 2]⟩ 1 2
    (fun _ j => if j = 0 then 1 else 2) [3, 4] 1 e1
    (isMat_iff.2 ⟨rfl, rfl, rfl, by
      intro i j hi hj
      have : i = 0 := by omega
      subst this
      rcases (by omega : j = 0 ∨ j = 1) with rfl | rfl <;> rfl⟩) rfl
  have e2' : Vec.appendToCSV ([3, 4] : List ℚ) (some "1,2".toList) 1 =
      (.ok "1,23.0,4.0\n".toList : Res Str) := by decide +kernel
  rw [e2'] at h1
  cases h1
  have e3 : readFromCSV (some "1,23.0,4.0\n".toList) false = .ok (⟨1, 3, [1, 23, 4]⟩ : Mat ℚ) := by
    decide +kernel
  rw [e3] at h2
  cases h2
  have := h3.1
  simp at this

/-- **C64, partial.** The property holds for files whose last line is complete (missing from the full
statement: files that do not end with a line break).  The new file ends with a line break again. -/
theorem C64_partial {text : Str} (hend : text.getLast? = some '\n') {A : Mat K} {n m : Nat}
    {F : Nat → Nat → K} {v : List K} (p : Nat) (hr : readFromCSV (some text) false = .ok A)
    (hA : IsMat A n m F) (hv : v.length = m) :
    ∃ (text' : Str) (B : Mat K) (G : Nat → Nat → K), Vec.appendToCSV v (some text) p = .ok text' ∧
      readFromCSV (some text') false = .ok B ∧ IsMat B (n + 1) m G ∧
      (∀ i j, i < n → j < m → G i j = F i j) ∧
      (∀ j, j < m → |G n j - vecFun v j| ≤ 1 / 2 / 10 ^ p ∧ Decimals p (G n j)) ∧ text <+: text' ∧
      text'.getLast? = some '\n' := by
  obtain ⟨n', m', F', hn', hA', hrows⟩ := readFromCSV_inv hr
  obtain ⟨rfl, rfl, hF⟩ := isMat_unique hA' hA
  have happ : Vec.appendToCSV v (some text) p = .ok (text ++ rowText p v.length (vecFun v) ++ ['\n']) := by
    unfold Vec.appendToCSV
    simp only [Option.getD_some, Vec.csvLine_ok]
    cases hp : pieces '\n' text with
    | nil =>
      rw [hp] at hrows
      simp only [readRows, mapRes] at hrows
      have := congrArg List.length (Except.ok.inj hrows)
      simp at this
      omega
    | cons first rest =>
      have hlen : (pieces ',' first).length = v.length := by
        rw [hp] at hrows
        unfold readRows at hrows
        have h1 := mapRes_inv hrows
        obtain ⟨k, rfl⟩ : ∃ k, n' = k + 1 := ⟨n' - 1, by omega⟩
        rw [List.range_succ_eq_map, List.map_cons] at h1
        have h2 := (List.forall₂_cons.1 h1).1
        have h3 := (mapRes_inv h2).length_eq
        rw [h3, hv]
        simp
      dsimp only
      rw [if_neg (by simp [hlen])]
      rw [List.append_assoc]
      rfl
  have hlines : pieces '\n' (text ++ rowText p v.length (vecFun v) ++ ['\n']) =
      pieces '\n' text ++ [rowText p v.length (vecFun v)] :=
    pieces_append_line (Or.inr hend) (rowText_no_newline _ _ _)
  obtain ⟨B, hB1, hB2⟩ := readFromCSV_ok (hdr := false) hlines (n := n' + 1) (m := m')
    (G := fun i j => if i < n' then F' i j else reread p (vecFun v j)) (by omega) (by
      rw [if_neg (by simp)]
      have h1 : ∀ (l1 l2 : List Str) (r1 r2 : List (List K)), readRows l1 = .ok r1 →
          readRows l2 = .ok r2 → readRows (l1 ++ l2) = .ok (r1 ++ r2) := by
        intro l1
        induction l1 with
        | nil =>
          intro l2 r1 r2 h1 h2
          simp only [readRows, mapRes] at h1
          cases h1
          simpa using h2
        | cons a l1 ih =>
          intro l2 r1 r2 h1 h2
          unfold readRows at h1
          have h3 := mapRes_inv h1
          cases h3 with
          | cons ha hl =>
            rename_i b bs
            have h4 : readRows l1 = .ok bs := by
              simp only [mapRes, ha] at h1
              unfold readRows
              cases hx : mapRes (fun line => mapRes (stod : Str → Res K) (pieces ',' line)) l1 with
              | error e => rw [hx] at h1; cases h1
              | ok y => rw [hx] at h1; cases h1; rfl
            have h5 := ih l2 bs r2 h4 h2
            unfold readRows at h5 ⊢
            simp only [List.cons_append, mapRes, ha, h5]
      have h2 : readRows [rowText p v.length (vecFun v)] =
          .ok [(List.range m').map (fun j => reread p (vecFun v j))] := by
        unfold readRows
        rw [mapRes_ok (g := fun _ => (List.range m').map (fun j => reread p (vecFun v j)))]
        · rfl
        · intro l hl
          simp only [List.mem_singleton] at hl
          subst hl
          rw [rowText_pieces, mapRes_ok (g := fun t => match (stod t : Res K) with
            | .ok v => v | .error _ => 0)]
          · rw [List.map_map, hv]
            congr 1
            apply List.map_congr_left
            intro j _
            simp only [Function.comp_apply, (reread_spec p (vecFun v j)).1]
          · intro t ht
            obtain ⟨j, _, rfl⟩ := List.mem_map.1 ht
            simp only [(reread_spec p (vecFun v j)).1]
      rw [h1 _ _ _ _ hrows h2, List.range_succ, List.map_append]
      congr 2
      · apply List.map_congr_left
        intro i hi
        rw [List.mem_range] at hi
        apply List.map_congr_left
        intro j _
        simp [hi]
      · simp)
  refine ⟨_, B, _, happ, hB1, hB2, ?_, ?_, ?_, by simp⟩
  · intro i j hi hj
    simp only [hi, if_true]
    exact hF i j hi hj
  · intro j _
    simp only [lt_irrefl, if_false]
    exact ⟨(reread_spec p (vecFun v j)).2, reread_decimals p (vecFun v j)⟩
  · rw [List.append_assoc]
    exact List.prefix_append _ _

/-- **C64, wrong size.** A vector of another size than the first line is rejected (and the file is
not touched). -/
theorem C64_rejects {text : Str} {A : Mat K} {n m : Nat} {F : Nat → Nat → K} {v : List K} (p : Nat)
    (hr : readFromCSV (some text) false = .ok A) (hA : IsMat A n m F) (hv : v.length ≠ m) :
    Vec.appendToCSV v (some text) p = .error .runtimeError := by
  obtain ⟨n', m', F', hn', hA', hrows⟩ := readFromCSV_inv hr
  obtain ⟨rfl, rfl, hF⟩ := isMat_unique hA' hA
  unfold Vec.appendToCSV
  simp only [Option.getD_some]
  cases hp : pieces '\n' text with
  | nil =>
    rw [hp] at hrows
    simp only [readRows, mapRes] at hrows
    have := congrArg List.length (Except.ok.inj hrows)
    simp at this
    omega
  | cons first rest =>
    have hlen : (pieces ',' first).length = m' := by
      rw [hp] at hrows
      unfold readRows at hrows
      have h1 := mapRes_inv hrows
      obtain ⟨k, rfl⟩ : ∃ k, n' = k + 1 := ⟨n' - 1, by omega⟩
      rw [List.range_succ_eq_map, List.map_cons] at h1
      have h2 := (List.forall₂_cons.1 h1).1
      have h3 := (mapRes_inv h2).length_eq
      rw [h3]
      simp
    dsimp only
    rw [if_pos (by omega)]

set_option maxRecDepth 100000 in
example : readFromCSV (some "1,2\n".toList) false = .ok (⟨1, 2, [1, 2]⟩ : Mat ℚ) ∧
    Vec.appendToCSV ([3, 4] : List ℚ) (some "1,2\n".toList) 1 = .ok "1,2\n3.0,4.0\n".toList ∧
    readFromCSV (some "1,2\n3.0,4.0\n".toList) false = .ok (⟨2, 2, [1, 3, 2, 4]⟩ : Mat ℚ) := by
  decide +kernel

/-! ## C65 -/

/-- **C65.** Every vector (any size, including 0) saved to a file is read back with the same size and
every entry correct to a relative error of `0.5e-5`; entries with at most six significant digits come
back unchanged. -/
theorem C65_roundtrip (v : List K) :
    ∃ (text : Str) (w : List K), Vec.saveToCSV v = .ok text ∧ Vec.readFromCSV (some text) = .ok w ∧
      w.length = v.length ∧
      ∀ i, i < v.length → |vecFun w i - vecFun v i| ≤ 1 / 2 / 10 ^ 5 * |vecFun v i| ∧
        (SigDigits 6 (vecFun v i) → vecFun w i = vecFun v i) := by
  choose g hg1 hg2 hg3 using (stod_generalStr (K := K))
  refine ⟨_, v.map g, Vec.saveToCSV_ok v, ?_, by simp, ?_⟩
  · unfold Vec.readFromCSV
    dsimp only
    rw [pieces_intercalate]
    · rw [mapRes_ok (g := fun t => match (stod t : Res K) with | .ok v => v | .error _ => 0)]
      · rw [List.map_map]
        congr 1
        apply List.map_congr_left
        intro x _
        simp only [Function.comp_apply, hg1]
      · intro t ht
        obtain ⟨x, _, rfl⟩ := List.mem_map.1 ht
        simp only [hg1]
    · intro l hl
      obtain ⟨x, _, rfl⟩ := List.mem_map.1 hl
      exact ⟨fun hc => ((generalStr_chars x).1 _ hc).ne.2 rfl, (generalStr_chars x).2⟩
  · intro i hi
    have e1 : vecFun (v.map g) i = g (vecFun v i) := by simp [vecFun, hi]
    rw [e1]
    exact ⟨hg2 _, hg3 _⟩

set_option maxRecDepth 100000 in
example : Vec.saveToCSV ([1/3, -150, 12345678, 1/1000000] : List ℚ) =
      .ok "0.333333\n-150\n1.23457e+07\n1e-06".toList ∧
    Vec.readFromCSV (some "0.333333\n-150\n1.23457e+07\n1e-06".toList) =
      .ok ([333333/1000000, -150, 12345700, 1/1000000] : List ℚ) := by decide +kernel

end Rodeo
