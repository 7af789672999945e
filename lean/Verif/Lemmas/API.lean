import Verif.Spec.API
import Verif.Lemmas.History
import Verif.Lemmas.MatRows
import Verif.Props.Sampling

/-! # Lemmas on the initial sampling -/

set_option linter.unusedSectionVars false

namespace Rodeo
open Text Spec API Mat

variable {K : Type} [Field K] [LinearOrder K] [IsStrictOrderedRing K] [FloorRing K]
variable {F : Type}

/-! ## Files -/

theorem API.files_append (fs : Files) (a b : List (Event K)) :
    files fs (a ++ b) = files (files fs a) b := by
  unfold files; rw [List.foldl_append]

/-- The event changes the file. -/
def API.Touches (file : Str) : Event K → Prop
  | .truncate g => g = file
  | .put g _ => g = file
  | _ => False

theorem API.files_other {fs : Files} {file : Str} {ev : List (Event K)}
    (h : ∀ e ∈ ev, ¬ Touches file e) : files fs ev file = fs file := by
  induction ev generalizing fs with
  | nil => rfl
  | cons e ev ih =>
    have h1 : files fs (e :: ev) = files (e.apply fs) ev := rfl
    rw [h1, ih (fun d hd => h d (by simp [hd]))]
    have := h e (by simp)
    cases e with
    | evalObjective x => rfl
    | evalConstraint k x => rfl
    | truncate g =>
      have hg : file ≠ g := fun e => this e.symm
      simp [Event.apply, hg]
    | put g c =>
      have hg : file ≠ g := fun e => this e.symm
      simp [Event.apply, hg]

theorem API.files_puts (fs : Files) (file : Str) (a text : Str) (h : fs file = some a) :
    files fs (text.map (Event.put (K := K) file)) file = some (a ++ text) := by
  induction text generalizing fs a with
  | nil => simpa [files] using h
  | cons c text ih =>
    have h1 : files fs ((c :: text).map (Event.put (K := K) file)) =
        files (Event.apply fs (Event.put (K := K) file c)) (text.map (Event.put (K := K) file)) := rfl
    rw [h1, ih _ (a ++ [c]) (by simp [Event.apply, h])]
    simp

theorem API.files_save (fs : Files) (file text : Str) :
    files fs (Event.truncate (K := K) file :: text.map (Event.put file)) file = some text := by
  have h1 : files fs (Event.truncate (K := K) file :: text.map (Event.put file)) =
      files (Event.apply fs (Event.truncate (K := K) file)) (text.map (Event.put file)) := rfl
  rw [h1, files_puts _ _ [] _ (by simp [Event.apply])]
  rfl

theorem Spec.points_append (a b : List (Event K)) : points (a ++ b) = points a ++ points b := by
  unfold points; rw [List.filterMap_append]

theorem Spec.points_nil {ev : List (Event K)} (h : ∀ e ∈ ev, ∀ x, e ≠ .evalObjective x) :
    points ev = [] := by
  unfold points
  rw [List.filterMap_eq_nil_iff]
  intro e he
  cases e with
  | evalObjective x => exact absurd rfl (h _ he x)
  | _ => rfl

/-! ## Tables -/

theorem Mat.saveAsCSV_rows {A : Mat K} {m : Nat} {R : List (List K)} (hR : ∀ r ∈ R, r.length = m)
    (hA : IsMat A R.length m (fun i j => (R.getD i []).getD j 0)) :
    A.saveAsCSV 6 [] = (csv R, .ok ()) := by
  rw [saveAsCSV_ok hA 6 [] (Or.inl rfl)]
  congr 1
  unfold csvText csv
  simp only [if_true, List.nil_append, List.map_map]
  congr 1
  refine List.ext_getElem (by simp) ?_
  intro i h1 h2
  have hi : i < R.length := by simpa using h2
  simp only [List.getElem_map, Function.comp, List.getElem_range]
  congr 1
  unfold rowText
  congr 1
  have hm := hR R[i] (List.getElem_mem hi)
  refine List.ext_getElem (by simp [hm]) ?_
  intro j h3 h4
  have hj : j < R[i].length := by simpa using h4
  simp [List.getD, hi, hj]

theorem Spec.csv_append (a b : List (List K)) : csv (a ++ b) = csv a ++ csv b := by
  simp [csv]

theorem Spec.csv_cons (r : List K) (R : List (List K)) : csv (r :: R) ≠ [] := by
  simp [csv]

theorem Spec.csv_snoc (R : List (List K)) (r : List K) : csv (R ++ [r]) ≠ [] := by
  rw [csv_append]
  intro h
  exact csv_cons r [] (List.append_eq_nil_iff.1 h).2

theorem Mat.getRow_length {A : Mat K} {i : Int} {x : List K} (h : getRow A i = .ok x) :
    x.length = A.ncols := by
  unfold getRow at h
  split_ifs at h <;> exact (tab_inv h).1

/-! ## The loop over the samples -/

theorem API.save_rows {E : Env K F} {A : Mat K} {m : Nat} {R : List (List K)} {file : Str}
    (hR : ∀ r ∈ R, r.length = m)
    (hA : IsMat A R.length m (fun i j => (R.getD i []).getD j 0)) :
    save E A file = if E.canOpen file = false then ([], .error .runtimeError)
      else (.truncate file :: (csv R).map (.put file), .ok ()) := by
  unfold save
  rw [saveAsCSV_rows hR hA]

/-- The events of evaluating and saving samples: points `xs`, `R` being the rows before. -/
def API.blocks (value : List K → K) (file : Str) : List (List K) → List (List K) → List (Event K)
  | _, [] => []
  | R, x :: xs => .evalObjective x :: .truncate file ::
      ((csv (R ++ [x ++ [value x]])).map (.put file) ++ blocks value file (R ++ [x ++ [value x]]) xs)

/-- What the loop over the samples does: it evaluates and saves the samples `xs`; then it is finished,
or the evaluation of the next sample or opening the file has failed. -/
theorem API.objectiveLoop_events (E : Env K F) (fn : F) (file : Str) (S : Mat K) (value : List K → K)
    (hval : ∀ x v, E.eval fn x = .ok v → v = value x) :
    ∀ (n i : Nat) (T : Mat K) (R : List (List K)), HasRows T (S.ncols + 1) R → i + n = S.nrows →
      S.buf.length = S.nrows * S.ncols →
      ∃ xs : List (List K), (∀ x ∈ xs, ∃ v, E.eval fn x = .ok v) ∧
        (∀ j, j < xs.length → S.getRow ((i + j : Nat) : Int) = .ok (xs.getD j [])) ∧
        (((objectiveLoop E fn file S n i T) = (blocks value file R xs, .ok ()) ∧ xs.length = n) ∨
         ∃ x, xs.length < n ∧ x.length = S.ncols ∧ ((∃ e, E.eval fn x = .error e) ∨ E.canOpen file = false) ∧
            (objectiveLoop E fn file S n i T) =
            (blocks value file R xs ++ [.evalObjective x], .error .runtimeError)) := by
  intro n
  induction n with
  | zero =>
    intro i T R _ _ _
    refine ⟨[], fun x hx => (by cases hx), fun j hj => absurd hj (by simp), Or.inl ⟨rfl, rfl⟩⟩
  | succ n ih =>
    intro i T R hT hi hS
    obtain ⟨G, hM⟩ := exists_isMat hS
    have hrow := getRow_ok hM (rowIndex := (i : Int)) (p := i) (by omega) (Or.inl rfl)
    unfold objectiveLoop
    set x := (List.range S.ncols).map (fun j => G i j) with hx
    rw [hrow]
    dsimp only
    have hxl : x.length = S.ncols := by simp [hx]
    cases he : E.eval fn x with
    | error e =>
      refine ⟨[], fun x hx => (by cases hx), fun j hj => absurd hj (by simp),
        Or.inr ⟨x, by simp, hxl, Or.inl ⟨e, he⟩, ?_⟩⟩
      rfl
    | ok v =>
      have hv := hval x v he
      subst hv
      obtain ⟨T', h1, h2, h3⟩ := addRow_hasRows hT (v := x ++ [value x]) (by simp [hxl])
      dsimp only
      rw [h1]
      dsimp only
      rw [save_rows h2.1 h3]
      by_cases hc : E.canOpen file = false
      · rw [if_pos hc]
        refine ⟨[], fun x hx => (by cases hx), fun j hj => absurd hj (by simp),
          Or.inr ⟨x, by simp, hxl, Or.inr hc, ?_⟩⟩
        rfl
      · rw [if_neg hc]
        obtain ⟨xs, g1, g2, g3⟩ := ih (i + 1) T' (R ++ [x ++ [value x]]) h2 (by omega) hS
        refine ⟨x :: xs, ?_, ?_, ?_⟩
        · intro y hy
          rcases List.mem_cons.1 hy with rfl | hy
          · exact ⟨_, he⟩
          · exact g1 y hy
        · intro j hj
          rcases j with _ | j
          · simpa using hrow
          · have := g2 j (by simpa using hj)
            rw [show i + (j + 1) = i + 1 + j by omega, this]
            simp
        · rcases g3 with ⟨g3, g4⟩ | ⟨y, g3, g6, g5, g4⟩
          · left
            refine ⟨?_, by simp [g4]⟩
            dsimp only
            rw [g3]
            simp [blocks]
          · right
            refine ⟨y, by simpa using g3, g6, g5, ?_⟩
            dsimp only
            rw [g4]
            simp [blocks]

theorem API.blocks_points (value : List K → K) (file : Str) (xs R : List (List K)) :
    points (blocks value file R xs) = xs := by
  induction xs generalizing R with
  | nil => rfl
  | cons x xs ih =>
    have h : points ((csv (R ++ [x ++ [value x]])).map (Event.put (K := K) file)) = [] := by
      refine points_nil fun e he y => ?_
      obtain ⟨c, -, rfl⟩ := List.mem_map.1 he
      simp
    have : points (blocks value file R (x :: xs)) = x ::
        points ((csv (R ++ [x ++ [value x]])).map (Event.put (K := K) file) ++
          blocks value file (R ++ [x ++ [value x]]) xs) := rfl
    rw [this, points_append, h, ih]
    rfl

/-- The file after a part of the events at which no write is pending. -/
theorem API.blocks_files (value : List K → K) (file : Str) (xs : List (List K)) :
    ∀ (fs : Files) (R : List (List K)) (t rest : List (Event K)),
      blocks value file R xs = t ++ rest → (∀ c, rest.head? ≠ some (.put file c)) →
      (R ≠ [] → fs file = some (csv R)) →
      ∃ k, (k = (points t).length ∨ k + 1 = (points t).length) ∧
        files fs t file = if k = 0 then fs file
          else some (csv (R ++ (xs.take k).map fun x => x ++ [value x])) := by
  induction xs with
  | nil =>
    intro fs R t rest h _ _
    have ht : t = [] := (List.append_eq_nil_iff.1 h.symm).1
    subst ht
    exact ⟨0, Or.inl rfl, rfl⟩
  | cons x xs ih =>
    intro fs R t rest h hrest hR
    set R' := R ++ [x ++ [value x]] with hR'
    have hb : blocks value file R (x :: xs) = .evalObjective x :: .truncate file ::
      ((csv R').map (.put file) ++ blocks value file R' xs) := rfl
    rw [hb] at h
    rcases t with _ | ⟨e1, t⟩
    · exact ⟨0, Or.inl rfl, rfl⟩
    · obtain ⟨he1, h'⟩ := List.cons.inj h
      subst he1
      replace h : Event.truncate file :: ((csv R').map (.put file) ++ blocks value file R' xs) = t ++ rest := h'
      rcases t with _ | ⟨e2, t⟩
      · exact ⟨0, Or.inr rfl, rfl⟩
      · obtain ⟨he2, h''⟩ := List.cons.inj h
        subst he2
        replace h : (csv R').map (.put file) ++ blocks value file R' xs = t ++ rest := h''
        have hput : points (((csv R').map (Event.put (K := K) file))) = [] := by
          refine points_nil fun e he y => ?_
          obtain ⟨c, -, rfl⟩ := List.mem_map.1 he
          simp
        rcases List.append_eq_append_iff.1 h with ⟨a, ha1, ha2⟩ | ⟨a, ha1, ha2⟩
        · -- the save is complete
          subst ha1
          obtain ⟨k, hk1, hk2⟩ := ih (files fs (.evalObjective x :: .truncate file ::
              (csv R').map (.put file))) R' a rest ha2 hrest (by
            intro _
            have : files fs (Event.evalObjective x :: Event.truncate file ::
                (csv R').map (Event.put file)) = files fs (Event.truncate (K := K) file ::
                (csv R').map (Event.put file)) := rfl
            rw [this, files_save])
          refine ⟨k + 1, ?_, ?_⟩
          · have : points (Event.evalObjective x :: Event.truncate file ::
                ((csv R').map (Event.put file) ++ a)) = x :: points a := by
              have e : points (Event.evalObjective x :: Event.truncate file ::
                ((csv R').map (Event.put file) ++ a)) = x :: points ((csv R').map (Event.put file) ++ a) := rfl
              rw [e, points_append, hput]
              rfl
            rw [this]
            simp only [List.length_cons]
            omega
          · rw [if_neg (by omega)]
            have e : Event.evalObjective x :: Event.truncate file ::
                ((csv R').map (Event.put file) ++ a) = (Event.evalObjective x :: Event.truncate file ::
                (csv R').map (Event.put file)) ++ a := rfl
            rw [e, files_append, hk2]
            have hf : files fs (Event.evalObjective x :: Event.truncate file ::
                (csv R').map (Event.put file)) file = some (csv R') := by
              have : files fs (Event.evalObjective x :: Event.truncate file ::
                (csv R').map (Event.put file)) = files fs (Event.truncate (K := K) file ::
                (csv R').map (Event.put file)) := rfl
              rw [this, files_save]
            split_ifs with h0
            · subst h0
              rw [hf]
              simp [hR']
            · simp [hR', List.append_assoc]
        · -- a write is pending unless nothing is left
          rcases a with _ | ⟨e, a⟩
          · simp only [List.nil_append] at ha2
            rw [List.append_nil] at ha1
            refine ⟨1, ?_, ?_⟩
            · left
              have : points (Event.evalObjective x :: Event.truncate file :: t) = x :: points t := rfl
              rw [this, ← ha1, hput]
              rfl
            · rw [if_neg (by omega)]
              have : files fs (Event.evalObjective x :: Event.truncate file :: t) =
                files fs (Event.truncate (K := K) file :: t) := rfl
              rw [this, ← ha1, files_save]
              simp [hR']
          · exfalso
            have hmem : e ∈ (csv R').map (Event.put (K := K) file) := by rw [ha1]; simp
            obtain ⟨c, -, rfl⟩ := List.mem_map.1 hmem
            exact hrest c (by rw [ha2]; rfl)

/-- The file after all the samples. -/
theorem API.blocks_whole (value : List K → K) (file : Str) (xs : List (List K)) (x : List K)
    (fs : Files) (R : List (List K)) :
    files fs (blocks value file R (xs ++ [x])) file =
      some (csv (R ++ (xs ++ [x]).map fun x => x ++ [value x])) := by
  induction xs generalizing fs R with
  | nil =>
    have e : blocks value file R ([] ++ [x]) = [.evalObjective x] ++ (.truncate file ::
      (csv (R ++ [x ++ [value x]])).map (.put file)) := by simp [blocks]
    rw [e, files_append, files_save]
    rfl
  | cons y ys ih =>
    have e : blocks value file R (y :: ys ++ [x]) = (.evalObjective y :: .truncate file ::
      (csv (R ++ [y ++ [value y]])).map (.put file)) ++
      blocks value file (R ++ [y ++ [value y]]) (ys ++ [x]) := by simp [blocks]
    rw [e, files_append, ih]
    simp

/-- The file in the middle of a save: a part of the table. -/
theorem API.blocks_torn (value : List K → K) (file : Str) (xs : List (List K)) :
    ∀ (fs : Files) (R : List (List K)) (t rest : List (Event K)) (c : Char),
      blocks value file R xs = t ++ .put file c :: rest →
      ∃ p q, 0 < (points t).length ∧ files fs t file = some p ∧
        p ++ q = csv (R ++ (xs.take (points t).length).map fun x => x ++ [value x]) := by
  induction xs with
  | nil =>
    intro fs R t rest c h
    exact absurd h (by simp [blocks])
  | cons x xs ih =>
    intro fs R t rest c h
    set R' := R ++ [x ++ [value x]] with hR'
    have hb : blocks value file R (x :: xs) = .evalObjective x :: .truncate file ::
      ((csv R').map (.put file) ++ blocks value file R' xs) := rfl
    rw [hb] at h
    rcases t with _ | ⟨e1, t⟩
    · cases h
    obtain ⟨he1, h'⟩ := List.cons.inj h
    subst he1
    replace h : Event.truncate file :: ((csv R').map (.put file) ++ blocks value file R' xs) =
      t ++ .put file c :: rest := h'
    rcases t with _ | ⟨e2, t⟩
    · cases h
    obtain ⟨he2, h''⟩ := List.cons.inj h
    subst he2
    replace h : (csv R').map (.put file) ++ blocks value file R' xs = t ++ .put file c :: rest := h''
    have hput : ∀ l : Str, points (l.map (Event.put (K := K) file)) = [] := fun l => by
      refine points_nil fun e he y => ?_
      obtain ⟨c, -, rfl⟩ := List.mem_map.1 he
      simp
    rcases List.append_eq_append_iff.1 h with ⟨a, ha1, ha2⟩ | ⟨a, ha1, ha2⟩
    · subst ha1
      obtain ⟨p, q, h0, h1, h2⟩ := ih (files fs (.evalObjective x :: .truncate file ::
          (csv R').map (.put file))) R' a rest c ha2
      have hp : points (Event.evalObjective x :: Event.truncate file ::
          ((csv R').map (Event.put file) ++ a)) = x :: points a := by
        have e : points (Event.evalObjective x :: Event.truncate file ::
          ((csv R').map (Event.put file) ++ a)) = x :: points ((csv R').map (Event.put file) ++ a) := rfl
        rw [e, points_append, hput]
        rfl
      refine ⟨p, q, by rw [hp]; simp, ?_, ?_⟩
      · have e : Event.evalObjective x :: Event.truncate file ::
            ((csv R').map (Event.put file) ++ a) = (Event.evalObjective x :: Event.truncate file ::
            (csv R').map (Event.put file)) ++ a := rfl
        rw [e, files_append, h1]
      · rw [h2, hp]
        simp [hR', List.append_assoc]
    · obtain ⟨l1, l2, hl, ht, -⟩ := List.map_eq_append_iff.1 ha1
      refine ⟨l1, l2, ?_, ?_, ?_⟩
      · have : points (Event.evalObjective x :: Event.truncate file :: t) = x :: points t := rfl
        rw [this]; simp
      · have : files fs (Event.evalObjective x :: Event.truncate file :: t) =
          files fs (Event.truncate (K := K) file :: t) := rfl
        rw [this, ← ht, files_save]
      · have : points (Event.evalObjective x :: Event.truncate file :: t) = x :: points t := rfl
        rw [← hl, this, ← ht, hput]
        simp [hR']

/-! ## The samples -/

theorem loopFrom_post {σ : Type} {body : Nat → σ → Res σ} (P : σ → Prop) (k : Nat) :
    ∀ (i : Nat) (s : σ), P s → (∀ j s, P s → Post (body j s) P) → Post (loopFrom body i k s) P := by
  induction k with
  | zero => intro i s h _; exact Post.ok h
  | succ k ih =>
    intro i s h hb
    unfold loopFrom
    cases hs : body i s with
    | error e => exact Post.error
    | ok s' => exact ih (i + 1) s' (hb i s h s' hs) hb

theorem forRange_post {σ : Type} {body : Nat → σ → Res σ} (P : σ → Prop) {n : Nat} {s : σ} (h : P s)
    (hb : ∀ j s, P s → Post (body j s) P) : Post (forRange n body s) P :=
  loopFrom_post P n 0 s h hb

/-- A matrix of this size. -/
def Mat.HasSize (n m : Nat) (A : Mat K) : Prop := ∃ G, IsMat A n m G

theorem Mat.put_post {n m : Nat} {A : Mat K} (hA : HasSize n m A) (i j : Nat) (v : K) :
    Post (put A i j v) (HasSize n m) := by
  intro B hB
  obtain ⟨G, hG⟩ := hA
  by_cases h : i < n ∧ j < m
  · obtain ⟨C, h1, h2⟩ := put_ok hG h.1 h.2 v
    rw [hB] at h1
    cases h1
    exact ⟨_, h2⟩
  · unfold put at hB
    rw [if_pos (by rw [hG.1, hG.2.1]; omega)] at hB
    cases hB

theorem Mat.writeColumn_post {n m : Nat} {A : Mat K} (hA : HasSize n m A) (values : List K) (col : Nat) :
    Post (writeColumn values col A) (HasSize n m) := by
  unfold writeColumn
  refine forRange_post _ hA fun j B hB => ?_
  exact Post.bind Post.trivial fun v _ => put_post hB _ _ _

theorem API.generateSamples_size {E : Env K F} {s : Study K F} {S : Mat K}
    (h : generateSamples E s = .ok S) : HasSize s.samplesForDoE s.dimension S := by
  have hres : Post (Mat.resize (Mat.empty : Mat K) s.samplesForDoE s.dimension)
      (HasSize s.samplesForDoE s.dimension) :=
    (resize_ok (isMat_empty (K := K)) _ _).post.mono fun B hB => ⟨_, hB⟩
  unfold generateSamples at h
  split_ifs at h
  · refine Post.bind hres (fun A hA => ?_) S h
    unfold fillRandom
    split_ifs
    · exact Post.error
    · refine forRange_post _ hA fun j B hB => ?_
      refine Post.bind Post.trivial fun l _ => Post.bind Post.trivial fun u _ => ?_
      split_ifs
      · exact Post.error
      · exact Post.bind Post.trivial fun v _ => writeColumn_post hB _ _
  · refine Post.bind hres (fun A hA => ?_) S h
    unfold fillRandomLHS
    split_ifs
    · exact Post.error
    · refine forRange_post _ hA fun j B hB => ?_
      refine Post.bind Post.trivial fun l _ => Post.bind Post.trivial fun u _ => ?_
      split_ifs
      · exact Post.error
      · exact Post.bind Post.trivial fun v _ => Post.bind Post.trivial fun w _ => writeColumn_post hB _ _

/-! ## The constraints -/

/-- The events of the sampling of the constraints from number `k` on. -/
def API.OfConstraints (s : Study K F) (k : Nat) (e : Event K) : Prop :=
  (∃ j x, k ≤ j ∧ e = .evalConstraint j x) ∨
    ∃ j file, k ≤ j ∧ s.constraintFiles[j]? = some file ∧ (e = .truncate file ∨ ∃ c, e = .put file c)

theorem API.constraintRows_events (E : Env K F) (k : Nat) (fn : F) (S : Mat K) :
    ∀ (n i : Nat) (T : Mat K), ∀ e ∈ (constraintRows E k fn S n i T).1,
      ∃ x, e = .evalConstraint k x := by
  intro n
  induction n with
  | zero => intro i T e he; cases he
  | succ n ih =>
    intro i T e he
    unfold constraintRows at he
    split at he
    · cases he
    rename_i x hx
    split at he
    · simp only [List.mem_singleton] at he; exact ⟨x, he⟩
    split at he
    · simp only [List.mem_singleton] at he; exact ⟨x, he⟩
    rename_i T' hT
    dsimp only at he
    rcases List.mem_cons.1 he with he | he
    · exact ⟨x, he⟩
    · exact ih _ _ e he

theorem API.save_events (E : Env K F) (A : Mat K) (file : Str) :
    ∀ e ∈ (save E A file).1, e = .truncate file ∨ ∃ c, e = .put file c := by
  intro e he
  unfold save at he
  split_ifs at he
  · cases he
  · dsimp only at he
    rcases List.mem_cons.1 he with he | he
    · exact Or.inl he
    · obtain ⟨c, -, rfl⟩ := List.mem_map.1 he
      exact Or.inr ⟨c, rfl⟩

theorem API.constraintLoop_events (E : Env K F) (s : Study K F) (S : Mat K) :
    ∀ (n k : Nat), ∀ e ∈ (constraintLoop E s S n k).1, OfConstraints s k e := by
  intro n
  induction n with
  | zero => intro k e he; cases he
  | succ n ih =>
    intro k e he
    unfold constraintLoop at he
    split at he
    · rename_i fn file h1 h2
      have hrows := constraintRows_events E k fn S s.samplesForDoE 0 Mat.empty
      split at he
      · rename_i ev e' h3
        rw [h3] at hrows
        obtain ⟨x, rfl⟩ := hrows e he
        exact Or.inl ⟨k, x, le_refl _, rfl⟩
      · rename_i ev T h3
        rw [h3] at hrows
        have hsave := save_events E T file
        split at he
        · rename_i ev' e' h4
          rw [h4] at hsave
          rcases List.mem_append.1 he with he | he
          · obtain ⟨x, rfl⟩ := hrows e he
            exact Or.inl ⟨k, x, le_refl _, rfl⟩
          · exact Or.inr ⟨k, file, le_refl _, h2, hsave e he⟩
        · rename_i ev' h4
          rw [h4] at hsave
          dsimp only at he
          rcases List.mem_append.1 he with he | he
          · rcases List.mem_append.1 he with he | he
            · obtain ⟨x, rfl⟩ := hrows e he
              exact Or.inl ⟨k, x, le_refl _, rfl⟩
            · exact Or.inr ⟨k, file, le_refl _, h2, hsave e he⟩
          · rcases ih (k + 1) e he with ⟨j, x, hj, rfl⟩ | ⟨j, f, hj, hf, he⟩
            · exact Or.inl ⟨j, x, by omega, rfl⟩
            · exact Or.inr ⟨j, f, by omega, hf, he⟩
    · cases he

theorem API.constraintsDoE_events (E : Env K F) (s : Study K F) (S : Mat K) :
    ∀ e ∈ (constraintsDoE E s S).1, OfConstraints s 0 e := by
  intro e he
  unfold constraintsDoE at he
  split_ifs at he
  · cases he
  · exact constraintLoop_events E s S _ _ e he
  · cases he

theorem API.OfConstraints.not_touches {s : Study K F} {k : Nat} {e : Event K} {file : Str}
    (h : OfConstraints s k e) (hf : ∀ j, k ≤ j → s.constraintFiles[j]? ≠ some file) :
    ¬ Touches file e := by
  rcases h with ⟨j, x, -, rfl⟩ | ⟨j, f, hj, h1, rfl | ⟨c, rfl⟩⟩
  · exact fun h => h
  · rintro rfl; exact hf j hj h1
  · rintro rfl; exact hf j hj h1

theorem API.OfConstraints.no_point {s : Study K F} {k : Nat} {e : Event K}
    (h : OfConstraints s k e) (x : List K) : e ≠ .evalObjective x := by
  rcases h with ⟨j, y, -, rfl⟩ | ⟨j, f, -, -, rfl | ⟨c, rfl⟩⟩ <;> simp

theorem Spec.constraintPoints_append (k : Nat) (a b : List (Event K)) :
    constraintPoints k (a ++ b) = constraintPoints k a ++ constraintPoints k b := by
  unfold constraintPoints; rw [List.filterMap_append]

theorem Spec.constraintPoints_nil {k : Nat} {ev : List (Event K)}
    (h : ∀ e ∈ ev, ∀ x, e ≠ .evalConstraint k x) : constraintPoints k ev = [] := by
  unfold constraintPoints
  rw [List.filterMap_eq_nil_iff]
  intro e he
  cases e with
  | evalConstraint j x =>
    by_cases hj : j = k
    · exact absurd (by rw [hj]) (h _ he x)
    · simp [hj]
  | _ => rfl

/-- The training data of a constraint. -/
theorem API.constraintRows_ok (E : Env K F) (k : Nat) (fn : F) {S : Mat K} {N m : Nat}
    {G : Nat → Nat → K} (hS : IsMat S N m G) :
    ∀ (n i : Nat) (T : Mat K) (R : List (List K)) (ev : List (Event K)) (T' : Mat K),
      HasRows T (m + 1) R → i + n ≤ N → constraintRows E k fn S n i T = (ev, .ok T') →
      constraintPoints k ev = (List.range' i n).map (fun p => (List.range m).map (G p)) ∧
        ∃ rows, Samples (E.eval fn) ((List.range' i n).map (fun p => (List.range m).map (G p))) rows ∧
          HasRows T' (m + 1) (R ++ rows) ∧ (0 < n → IsMat T' (R ++ rows).length (m + 1)
            (fun i j => ((R ++ rows).getD i []).getD j 0)) := by
  intro n
  induction n with
  | zero =>
    intro i T R ev T' hT _ h
    simp only [constraintRows, Prod.mk.injEq, Except.ok.injEq] at h
    obtain ⟨rfl, rfl⟩ := h
    exact ⟨rfl, [], .nil, by simpa using hT, fun h => absurd h (by omega)⟩
  | succ n ih =>
    intro i T R ev T' hT hi h
    have hrow := getRow_ok hS (rowIndex := (i : Int)) (p := i) (by omega) (Or.inl rfl)
    unfold constraintRows at h
    rw [hrow] at h
    dsimp only at h
    set x := (List.range m).map (fun j => G i j) with hx
    cases he : E.eval fn x with
    | error e => rw [he] at h; simp at h
    | ok v =>
      rw [he] at h
      obtain ⟨T1, h1, h2, h3⟩ := addRow_hasRows hT (v := x ++ [v]) (by simp [hx])
      dsimp only at h
      rw [h1] at h
      dsimp only at h
      obtain ⟨hev, hT'⟩ := Prod.mk.inj h
      obtain ⟨g1, rows, g2, g3, g4⟩ := ih (i + 1) T1 (R ++ [x ++ [v]])
        (constraintRows E k fn S n (i + 1) T1).1 T' h2 (by omega) (by rw [← hT'])
      refine ⟨?_, (x ++ [v]) :: rows, ?_, ?_, ?_⟩
      · rw [← hev]
        have : constraintPoints k (Event.evalConstraint k x :: (constraintRows E k fn S n (i + 1) T1).1)
            = x :: constraintPoints k (constraintRows E k fn S n (i + 1) T1).1 := by
          simp [constraintPoints]
        rw [this, g1, List.range'_succ]
        rfl
      · rw [List.range'_succ]
        exact .cons ⟨v, he, rfl⟩ g2
      · simpa [List.append_assoc] using g3
      · intro _
        rcases Nat.eq_zero_or_pos n with rfl | hn
        · have hr : rows = [] := by
            have : Samples (E.eval fn) [] rows := g2
            cases this; rfl
          subst hr
          simp only [constraintRows] at hT'
          obtain rfl := Except.ok.inj hT'
          simpa using h3
        · simpa [List.append_assoc] using g4 hn

theorem API.constraintLoop_ok (E : Env K F) (s : Study K F) {S : Mat K} {m : Nat}
    {G : Nat → Nat → K} (hS : IsMat S s.samplesForDoE m G) (h0 : 0 < s.samplesForDoE)
    (hd : s.constraintFiles.Nodup) :
    ∀ (n k : Nat) (fs : Files) (ev : List (Event K)), constraintLoop E s S n k = (ev, .ok ()) →
      ∀ j fn file, k ≤ j → j < k + n → s.constraintFns[j]? = some fn →
        s.constraintFiles[j]? = some file →
        constraintPoints j ev = (List.range s.samplesForDoE).map (fun p => (List.range m).map (G p)) ∧
          ∃ rows, Samples (E.eval fn)
              ((List.range s.samplesForDoE).map (fun p => (List.range m).map (G p))) rows ∧
            files fs ev file = some (csv rows) := by
  intro n
  induction n with
  | zero => intro k fs ev _ j fn file h1 h2; omega
  | succ n ih =>
    intro k fs ev h j fn file hj1 hj2 hfn hfile
    unfold constraintLoop at h
    split at h
    · rename_i fn' file' hk1 hk2
      split at h
      · simp at h
      rename_i ev1 T hrows
      split at h
      · simp at h
      rename_i ev2 hsave
      dsimp only at h
      obtain ⟨hev, hres⟩ := Prod.mk.inj h
      obtain ⟨g1, rows, g2, g3, g4⟩ := constraintRows_ok E k fn' hS _ 0 Mat.empty [] ev1 T
        (hasRows_empty _) (by omega) hrows
      have hev1 := constraintRows_events E k fn' S s.samplesForDoE 0 Mat.empty
      rw [hrows] at hev1
      have hev2 := save_events E T file'
      rw [hsave] at hev2
      have hev3 := constraintLoop_events E s S n (k + 1)
      have hnot : ∀ i j : Nat, i ≠ j → ∀ f, s.constraintFiles[i]? = some f →
          s.constraintFiles[j]? ≠ some f := by
        intro i j hij f hi hj
        obtain ⟨hi', rfl⟩ := List.getElem?_eq_some_iff.1 hi
        obtain ⟨hj', hf⟩ := List.getElem?_eq_some_iff.1 hj
        exact hij ((hd.getElem_inj_iff).1 hf).symm
      rcases Nat.eq_or_lt_of_le hj1 with rfl | hlt
      · rw [hk1] at hfn
        rw [hk2] at hfile
        obtain rfl := Option.some.inj hfn
        obtain rfl := Option.some.inj hfile
        refine ⟨?_, rows, ?_, ?_⟩
        · rw [← hev, constraintPoints_append, constraintPoints_append, g1]
          have e2 : constraintPoints k ev2 = [] := constraintPoints_nil fun e he x => by
            rcases hev2 e he with rfl | ⟨c, rfl⟩ <;> simp
          have e3 : constraintPoints k (constraintLoop E s S n (k + 1)).1 = [] :=
            constraintPoints_nil fun e he x => by
              rcases hev3 e he with ⟨j, y, hj, rfl⟩ | ⟨j, f, hj, -, rfl | ⟨c, rfl⟩⟩
              · simp; omega
              · simp
              · simp
          rw [e2, e3, List.range_eq_range' (n := s.samplesForDoE)]
          simp
        · rw [List.range_eq_range' (n := s.samplesForDoE)]; exact g2
        · rw [← hev, files_append, files_append]
          rw [files_other fun e he => (hev3 e he).not_touches fun j hj =>
            hnot k j (by omega) _ hk2]
          simp only [List.nil_append] at g3 g4
          rw [save_rows (E := E) g3.1 (g4 h0)] at hsave
          split_ifs at hsave with hc
          · exact absurd (Prod.mk.inj hsave).2 (by simp)
          · obtain ⟨rfl, -⟩ := Prod.mk.inj hsave
            rw [files_save]
      · obtain ⟨i1, rows', i2, i3⟩ := ih (k + 1) (files (files fs ev1) ev2)
          (constraintLoop E s S n (k + 1)).1 (by rw [← hres]) j fn file (by omega) (by omega) hfn hfile
        refine ⟨?_, rows', i2, ?_⟩
        · rw [← hev, constraintPoints_append, constraintPoints_append, i1]
          have e1 : constraintPoints j ev1 = [] := constraintPoints_nil fun e he x => by
            obtain ⟨y, rfl⟩ := hev1 e he
            simp; omega
          have e2 : constraintPoints j ev2 = [] := constraintPoints_nil fun e he x => by
            rcases hev2 e he with rfl | ⟨c, rfl⟩ <;> simp
          rw [e1, e2]
          simp
        · rw [← hev, files_append, files_append]
          exact i3
    · simp at h

theorem API.blocks_constraintPoints (value : List K → K) (file : Str) (j : Nat)
    (xs R : List (List K)) : constraintPoints j (blocks value file R xs) = [] := by
  refine constraintPoints_nil ?_
  induction xs generalizing R with
  | nil => intro e he; cases he
  | cons x xs ih =>
    intro e he y
    unfold blocks at he
    simp only [List.mem_cons, List.mem_append, List.mem_map] at he
    rcases he with rfl | rfl | ⟨c, -, rfl⟩ | he
    · simp
    · simp
    · simp
    · exact ih _ e he y

/-- The sampling of a constraint succeeds where its function does. -/
theorem API.constraintRows_total (E : Env K F) (k : Nat) (fn : F) {S : Mat K} {N m : Nat}
    {G : Nat → Nat → K} (hS : IsMat S N m G) (hev : ∀ x : List K, x.length = m → ∃ v, E.eval fn x = .ok v) :
    ∀ (n i : Nat) (T : Mat K) (R : List (List K)), HasRows T (m + 1) R → i + n ≤ N →
      ∃ ev T', constraintRows E k fn S n i T = (ev, .ok T') := by
  intro n
  induction n with
  | zero => intro i T R _ _; exact ⟨[], T, rfl⟩
  | succ n ih =>
    intro i T R hT hi
    have hrow := getRow_ok hS (rowIndex := (i : Int)) (p := i) (by omega) (Or.inl rfl)
    obtain ⟨v, hv⟩ := hev ((List.range m).map (fun j => G i j)) (by simp)
    obtain ⟨T1, h1, h2, h3⟩ := addRow_hasRows hT
      (v := (List.range m).map (fun j => G i j) ++ [v]) (by simp)
    obtain ⟨ev, T', g⟩ := ih (i + 1) T1 _ h2 (by omega)
    refine ⟨.evalConstraint k ((List.range m).map (fun j => G i j)) :: ev, T', ?_⟩
    unfold constraintRows
    rw [hrow]
    dsimp only
    rw [hv]
    dsimp only
    rw [h1]
    dsimp only
    rw [g]

theorem API.constraintLoop_total (E : Env K F) (s : Study K F) {S : Mat K} {m : Nat}
    {G : Nat → Nat → K} (hS : IsMat S s.samplesForDoE m G) (h0 : 0 < s.samplesForDoE)
    (hev : ∀ fn ∈ s.constraintFns, ∀ x : List K, x.length = m → ∃ v, E.eval fn x = .ok v)
    (hopen : ∀ file ∈ s.constraintFiles, E.canOpen file = true)
    (hl1 : s.constraintFns.length = s.numberOfConstraints)
    (hl2 : s.constraintFiles.length = s.numberOfConstraints) :
    ∀ (n k : Nat), k + n ≤ s.numberOfConstraints → (constraintLoop E s S n k).2 = .ok () := by
  intro n
  induction n with
  | zero => intro k _; rfl
  | succ n ih =>
    intro k hk
    have hk1 : s.constraintFns[k]? = some (s.constraintFns[k]'(by omega)) := by simp
    have hk2 : s.constraintFiles[k]? = some (s.constraintFiles[k]'(by omega)) := by simp
    obtain ⟨ev, T, g⟩ := constraintRows_total E k (s.constraintFns[k]'(by omega)) hS
      (hev _ (List.getElem_mem _)) s.samplesForDoE 0 Mat.empty [] (hasRows_empty _) (by omega)
    obtain ⟨-, rows, -, g3, g4⟩ := constraintRows_ok E k _ hS _ 0 Mat.empty [] ev T
      (hasRows_empty _) (by omega) g
    simp only [List.nil_append] at g3 g4
    have hc := hopen (s.constraintFiles[k]'(by omega)) (List.getElem_mem _)
    have hsave := save_rows (E := E) (file := s.constraintFiles[k]'(by omega)) g3.1 (g4 h0)
    rw [if_neg (by rw [hc]; simp)] at hsave
    unfold constraintLoop
    rw [hk1, hk2]
    dsimp only
    rw [g]
    dsimp only
    rw [hsave]
    exact ih (k + 1) (by omega)

end Rodeo
