import Verif.Spec.SurrogateData
import Verif.Lemmas.MatRead
import Verif.Lemmas.MatRows
import Verif.Lemmas.MatDelete
import Verif.Lemmas.Post

/-! # Lemmas on the surrogate data object -/

set_option linter.unusedSectionVars false

namespace Rodeo
open Spec Mat

variable {K : Type} [Field K] [LinearOrder K] [IsStrictOrderedRing K]

theorem andThen_ok {σ : Type} {p : σ × Res Unit} {f : σ → σ × Res Unit} {s : σ} {r : σ × Res Unit}
    (h : p = (s, .ok ())) (h2 : f s = r) : andThen p f = r := by
  rw [h]; exact h2

theorem andThen_commit {σ : Type} {s s' : σ} {x : Res σ} {f : σ → σ × Res Unit} {r : σ × Res Unit}
    (h : x = .ok s') (h2 : f s' = r) : andThen (commit s x) f = r := by
  rw [h]; exact h2

theorem commit_ok {σ : Type} {s s' : σ} {x : Res σ} (h : x = .ok s') : commit s x = (s', .ok ()) := by
  rw [h]; rfl

namespace SMData

/-- The fields that the assignments leave alone. -/
structure Same (d d' : SMData K) : Prop where
  numberOfSamples : d'.numberOfSamples = d.numberOfSamples
  numberOfValidationSamples : d'.numberOfValidationSamples = d.numberOfValidationSamples
  dimension : d'.dimension = d.dimension
  rawData : d'.rawData = d.rawData
  rawDataWork : d'.rawDataWork = d.rawDataWork
  rawDataValidation : d'.rawDataValidation = d.rawDataValidation
  box : d'.box = d.box
  ratio : d'.ratio = d.ratio
  hasGradients : d'.hasGradients = d.hasGradients
  hasDirectional : d'.hasDirectional = d.hasDirectional
  isRead : d'.isRead = d.isRead

/-- The five assignments on a consistent object. -/
theorem assignAll_ok {d : SMData K} {n m dim kv : Nat} {W V : Nat → Nat → K} (hn : 0 < n)
    (hdim : 0 < dim) (hW : IsMat d.rawDataWork n m W) (hN : d.numberOfSamples = n)
    (hD : d.dimension = dim) (hm : m = dataColumns d.hasGradients d.hasDirectional dim)
    (hexcl : ¬ (d.hasDirectional = true ∧ d.hasGradients = true))
    (hV : 0 < d.numberOfValidationSamples → IsMat d.rawDataValidation kv m V ∧
      d.numberOfValidationSamples ≤ kv) :
    ∃ d', d.assignAll = (d', .ok ()) ∧ Same d d' ∧
      IsMat d'.X n dim W ∧ d'.Xraw = d'.X ∧ d'.y = (List.range n).map (fun i => W i dim) ∧
      (0 < d.numberOfValidationSamples → IsMat d'.XValidation d.numberOfValidationSamples dim V ∧
        d'.yValidation = (List.range kv).map (fun i => V i dim)) ∧
      (d.hasGradients = true → IsMat d'.gradient n dim (fun i j => W i (dim + 1 + j))) ∧
      (d.hasGradients = false → d.hasDirectional = true →
        d'.directionalDerivatives = (List.range n).map (fun i => W i (dim + 1)) ∧
        IsMat d'.differentiationDirections n dim (fun i j => W i (dim + 2 + j))) ∧
      (d.hasGradients = false → d'.gradient = d.gradient) := by
  have hm1 : dim < m := by
    rw [hm]; unfold dataColumns; split_ifs <;> omega
  have hchk : ∀ d' : SMData K, d'.numberOfSamples = n → d'.dimension = dim →
      d'.checkDimensionAndNumberOfSamples = .ok () := by
    intro d' h1 h2
    unfold checkDimensionAndNumberOfSamples
    rw [if_neg (by omega), if_neg (by omega)]
  obtain ⟨X, hX1, hX2⟩ := submat_ok hW (r0 := 0) (r1 := n - 1) (c0 := 0) (c1 := dim - 1) (by omega)
    (by omega) (by omega) (by omega)
  have hX : IsMat X n dim W := by
    have e1 : n - 1 - 0 + 1 = n := by omega
    have e2 : dim - 1 - 0 + 1 = dim := by omega
    rw [e1, e2] at hX2
    exact IsMat.congr hX2 (fun i j _ _ => by simp)
  -- inputs
  obtain ⟨d1, h1, hs1, hx1, hr1, hv1, hg1⟩ : ∃ d1, d.assignSampleInputMatrix = .ok d1 ∧ Same d d1 ∧
      d1.X = X ∧ d1.Xraw = X ∧ (0 < d.numberOfValidationSamples →
        IsMat d1.XValidation d.numberOfValidationSamples dim V) ∧ d1.gradient = d.gradient := by
    by_cases hk : 0 < d.numberOfValidationSamples
    · obtain ⟨hV1, hV2⟩ := hV hk
      obtain ⟨Y, hY1, hY2⟩ := submat_ok hV1 (r0 := 0) (r1 := d.numberOfValidationSamples - 1)
        (c0 := 0) (c1 := dim - 1) (by omega) (by omega) (by omega) (by omega)
      have e1 : d.numberOfValidationSamples - 1 - 0 + 1 = d.numberOfValidationSamples := by omega
      have e2 : dim - 1 - 0 + 1 = dim := by omega
      rw [e1, e2] at hY2
      refine ⟨{ d with X := X, XValidation := Y, XrawValidation := Y, Xraw := X }, ?_,
        ⟨rfl, rfl, rfl, rfl, rfl, rfl, rfl, rfl, rfl, rfl, rfl⟩, rfl, rfl,
        fun _ => IsMat.congr hY2 (fun i j _ _ => by simp), rfl⟩
      refine bind_eq (hchk d hN hD) (bind_eq (a := X) (by rw [hN, hD]; exact hX1) ?_)
      refine bind_eq (a := { d with X := X, XValidation := Y, XrawValidation := Y }) ?_ ?_
      · unfold assignValidationInput
        rw [if_pos (show 0 < d.numberOfValidationSamples from hk)]
        refine bind_eq (a := Y) (by simp only [hD]; exact hY1) ?_
        simp only
        rw [if_neg (by rw [hY2.1]; exact fun h => h rfl),
          if_neg (by rw [hY2.2.1, hD]; exact fun h => h rfl)]
      · simp only
        rw [if_neg (by rw [hX.1, hN]; exact fun h => h rfl),
          if_neg (by rw [hX.2.1, hD]; exact fun h => h rfl)]
    · refine ⟨{ d with X := X, Xraw := X }, ?_,
        ⟨rfl, rfl, rfl, rfl, rfl, rfl, rfl, rfl, rfl, rfl, rfl⟩, rfl, rfl,
        fun h => absurd h hk, rfl⟩
      refine bind_eq (hchk d hN hD) (bind_eq (a := X) (by rw [hN, hD]; exact hX1) ?_)
      refine bind_eq (a := { d with X := X }) ?_ ?_
      · unfold assignValidationInput
        rw [if_neg (show ¬ 0 < d.numberOfValidationSamples from hk)]
      · simp only
        rw [if_neg (by rw [hX.1, hN]; exact fun h => h rfl),
          if_neg (by rw [hX.2.1, hD]; exact fun h => h rfl)]
  -- outputs
  have hy := getCol_ok hW (colIndex := (dim : Nat)) (p := dim) hm1 (Or.inl rfl)
  obtain ⟨d2, h2, hs2, hx2, hr2, hv2, hy2, hg2⟩ : ∃ d2, d1.assignSampleOutputVector = .ok d2 ∧
      Same d d2 ∧ d2.X = X ∧ d2.Xraw = X ∧ (0 < d.numberOfValidationSamples →
        IsMat d2.XValidation d.numberOfValidationSamples dim V ∧
        d2.yValidation = (List.range kv).map (fun i => V i dim)) ∧
      d2.y = (List.range n).map (fun i => W i dim) ∧ d2.gradient = d.gradient := by
    have hc := hchk d1 (hs1.numberOfSamples.trans hN) (hs1.dimension.trans hD)
    have hD1 : d1.dimension = dim := hs1.dimension.trans hD
    by_cases hk : 0 < d.numberOfValidationSamples
    · obtain ⟨hV1, hV2⟩ := hV hk
      have hyv := getCol_ok hV1 (colIndex := (dim : Nat)) (p := dim) hm1 (Or.inl rfl)
      refine ⟨{ d1 with y := (List.range n).map (fun i => W i dim),
                        yValidation := (List.range kv).map (fun i => V i dim) }, ?_, ?_, hx1, hr1,
        fun h => ⟨hv1 h, rfl⟩, rfl, hg1⟩
      · refine bind_eq hc (bind_eq (by rw [hs1.rawDataWork, hD1]; exact hy) ?_)
        unfold assignValidationOutput
        simp only
        rw [if_pos (by rw [hs1.numberOfValidationSamples]; exact hk)]
        exact bind_eq (by rw [hs1.rawDataValidation, hD1]; exact hyv) rfl
      · exact ⟨hs1.1, hs1.2, hs1.3, hs1.4, hs1.5, hs1.6, hs1.7, hs1.8, hs1.9, hs1.10, hs1.11⟩
    · refine ⟨{ d1 with y := (List.range n).map (fun i => W i dim) }, ?_, ?_, hx1, hr1,
        fun h => absurd h hk, rfl, hg1⟩
      · refine bind_eq hc (bind_eq (by rw [hs1.rawDataWork, hD1]; exact hy) ?_)
        unfold assignValidationOutput
        simp only
        rw [if_neg (by rw [hs1.numberOfValidationSamples]; exact hk)]
      · exact ⟨hs1.1, hs1.2, hs1.3, hs1.4, hs1.5, hs1.6, hs1.7, hs1.8, hs1.9, hs1.10, hs1.11⟩
  have hc2 := hchk d2 (hs2.numberOfSamples.trans hN) (hs2.dimension.trans hD)
  have hD2 : d2.dimension = dim := hs2.dimension.trans hD
  have hN2 : d2.numberOfSamples = n := hs2.numberOfSamples.trans hN
  have e1 : n - 1 - 0 + 1 = n := by omega
  unfold assignAll
  cases hgr : d.hasGradients with
  | true =>
    have hmg : m = 2 * dim + 1 := by rw [hm, hgr]; rfl
    obtain ⟨G, hG1, hG2⟩ := submat_ok hW (r0 := 0) (r1 := n - 1) (c0 := dim + 1) (c1 := 2 * dim)
      (by omega) (by omega) (by omega) (by omega)
    have e2 : 2 * dim - (dim + 1) + 1 = dim := by omega
    rw [e1, e2] at hG2
    have h3 : d2.assignGradientMatrix = .ok { d2 with gradient := G } := by
      refine bind_eq hc2 ?_
      rw [if_pos (hs2.hasGradients.trans hgr), if_neg (by rw [hs2.rawDataWork, hW.2.1, hD2]; omega)]
      exact bind_eq (by rw [hs2.rawDataWork, hD2, hN2]; exact hG1) rfl
    have hS3 : Same d { d2 with gradient := G } :=
      ⟨hs2.1, hs2.2, hs2.3, hs2.4, hs2.5, hs2.6, hs2.7, hs2.8, hs2.9, hs2.10, hs2.11⟩
    have hdd : d.hasDirectional ≠ true := fun h => hexcl ⟨h, hgr⟩
    have h4 : ({ d2 with gradient := G } : SMData K).assignDirectionalDerivativesVector =
        .ok { d2 with gradient := G } := by
      unfold assignDirectionalDerivativesVector
      rw [if_neg (by simp only [hD2]; omega), if_neg (by simp only [hs2.hasDirectional]; exact hdd)]
    have h5 : ({ d2 with gradient := G } : SMData K).assignDifferentiationDirectionMatrix =
        .ok { d2 with gradient := G } := by
      refine bind_eq (hchk _ hN2 hD2) ?_
      rw [if_neg (by simp only [hs2.hasDirectional]; exact hdd)]
    refine ⟨_, andThen_commit h1 (andThen_commit h2 (andThen_commit h3 (andThen_commit h4
      (commit_ok h5)))), hS3, ?_, ?_, hy2, hv2, fun _ => hG2.congr ?_, fun h => by simp at h,
      fun h => by simp at h⟩
    · simp only [hx2]; exact hX
    · simp only [hx2, hr2]
    · intro i j _ _; simp
  | false =>
    have h3 : d2.assignGradientMatrix = .ok d2 := by
      refine bind_eq hc2 ?_
      rw [if_neg (by rw [hs2.hasGradients, hgr]; simp)]
    cases hdd : d.hasDirectional with
    | true =>
      have hmg : m = 2 * dim + 2 := by rw [hm, hgr, hdd]; rfl
      have hv4 := getCol_ok hW (colIndex := ((dim + 1 : Nat) : Int)) (p := dim + 1) (by omega)
        (Or.inl rfl)
      obtain ⟨G, hG1, hG2⟩ := submat_ok hW (r0 := 0) (r1 := n - 1) (c0 := dim + 2)
        (c1 := 2 * dim + 1) (by omega) (by omega) (by omega) (by omega)
      have e2 : 2 * dim + 1 - (dim + 2) + 1 = dim := by omega
      rw [e1, e2] at hG2
      have h4 : d2.assignDirectionalDerivativesVector =
          .ok { d2 with directionalDerivatives := (List.range n).map (fun i => W i (dim + 1)) } := by
        unfold assignDirectionalDerivativesVector
        rw [if_neg (by rw [hD2]; omega), if_pos (hs2.hasDirectional.trans hdd)]
        exact bind_eq (by rw [hs2.rawDataWork, hD2]; exact hv4) rfl
      have h5 : ({ d2 with directionalDerivatives := (List.range n).map (fun i => W i (dim + 1)) }
          : SMData K).assignDifferentiationDirectionMatrix =
          .ok { d2 with directionalDerivatives := (List.range n).map (fun i => W i (dim + 1)),
                        differentiationDirections := G } := by
        refine bind_eq (hchk _ hN2 hD2) ?_
        rw [if_pos (by simp only [hs2.hasDirectional]; exact hdd)]
        exact bind_eq (by simp only [hs2.rawDataWork, hD2, hN2]; exact hG1) rfl
      refine ⟨_, andThen_commit h1 (andThen_commit h2 (andThen_commit h3 (andThen_commit h4
        (commit_ok h5)))), ⟨hs2.1, hs2.2, hs2.3, hs2.4, hs2.5, hs2.6, hs2.7, hs2.8, hs2.9, hs2.10,
        hs2.11⟩, ?_, ?_, hy2, hv2, fun h => by simp at h, fun _ _ => ⟨rfl, hG2.congr ?_⟩, fun _ => hg2⟩
      · simp only [hx2]; exact hX
      · simp only [hx2, hr2]
      · intro i j _ _; simp
    | false =>
      have h4 : d2.assignDirectionalDerivativesVector = .ok d2 := by
        unfold assignDirectionalDerivativesVector
        rw [if_neg (by rw [hD2]; omega), if_neg (by rw [hs2.hasDirectional, hdd]; simp)]
      have h5 : d2.assignDifferentiationDirectionMatrix = .ok d2 := by
        refine bind_eq (hchk _ hN2 hD2) ?_
        rw [if_neg (by rw [hs2.hasDirectional, hdd]; simp)]
      refine ⟨d2, andThen_commit h1 (andThen_commit h2 (andThen_commit h3 (andThen_commit h4
        (commit_ok h5)))), hs2, ?_, ?_, hy2, hv2, fun h => by simp at h, fun _ h => by simp at h,
        fun _ => hg2⟩
      · rw [hx2]; exact hX
      · rw [hx2, hr2]

end SMData
end Rodeo

namespace Rodeo
open Spec Mat
namespace SMData

variable {K : Type} [Field K] [LinearOrder K] [IsStrictOrderedRing K] [FloorRing K]

theorem validationCount_le (N : Nat) (ratio : K) : validationCount N ratio ≤ N := by
  unfold validationCount
  dsimp only
  split_ifs <;> omega

/-- For a ratio in range the count is the integer part of ratio times size. -/
theorem validationCount_eq {N : Nat} {ratio : K} (h0 : 0 ≤ ratio) (h1 : ratio ≤ 1) :
    (validationCount N ratio : Int) = ⌊ratio * (N : K)⌋ := by
  have hN : (0 : K) ≤ (N : K) := Nat.cast_nonneg N
  have a : 0 ≤ ⌊ratio * (N : K)⌋ := Int.floor_nonneg.2 (mul_nonneg h0 hN)
  have b : ⌊ratio * (N : K)⌋ ≤ N := by
    have : ratio * (N : K) ≤ ((N : Int) : K) := by
      rw [Int.cast_natCast]; nlinarith
    exact (Int.floor_le_floor this).trans (by rw [Int.floor_intCast])
  unfold validationCount
  dsimp only
  rw [if_neg (by omega), if_neg (by omega)]
  omega

theorem perm_kept {perm : List Nat} {n : Nat} (hp : perm.Perm (List.range n)) (k : Nat) :
    (kept ((perm.take k).map Int.ofNat) n ++ perm.take k).Perm (List.range n) := by
  have hnd : perm.Nodup := hp.nodup_iff.2 List.nodup_range
  have h1 : (perm.take k).Nodup := hnd.sublist (List.take_sublist _ _)
  have hmem : ∀ i : Nat, (i : Int) ∈ (perm.take k).map Int.ofNat ↔ i ∈ perm.take k := by
    intro i
    simp only [List.mem_map]
    constructor
    · rintro ⟨a, h1, h2⟩
      have : a = i := by simpa using h2
      rwa [← this]
    · intro h; exact ⟨i, h, rfl⟩
  have h2 : (kept ((perm.take k).map Int.ofNat) n).Nodup := by
    unfold kept; exact List.nodup_range.filter _
  refine (List.perm_ext_iff_of_nodup ?_ List.nodup_range).2 ?_
  · refine List.nodup_append.2 ⟨h2, h1, ?_⟩
    intro a ha b hb hab
    subst hab
    unfold kept at ha
    rw [List.mem_filter] at ha
    have := ha.2
    simp only [decide_eq_true_eq] at this
    exact this ((hmem a).2 hb)
  · intro a
    rw [List.mem_append]
    unfold kept
    rw [List.mem_filter, decide_eq_true_eq, hmem, List.mem_range]
    constructor
    · rintro (h | h)
      · exact h.1
      · exact List.mem_range.1 (hp.mem_iff.1 (List.mem_of_mem_take h))
    · intro h
      by_cases hc : a ∈ perm.take k
      · exact Or.inr hc
      · exact Or.inl ⟨h, hc⟩

/-- Row `r` of a table. -/
def tableRow (F : Nat → Nat → K) (m r : Nat) : List K := (List.range m).map (F r)

theorem getRows_ok {A : Mat K} {n m : Nat} {F : Nat → Nat → K} (hA : IsMat A n m F) :
    ∀ (idx : List Nat) (R : List (List K)) (d : SMData K), (∀ i ∈ idx, i < n) → d.rawData = A →
      HasRows d.rawDataValidation m R →
      ∃ V, foldRes (fun (d : SMData K) (i : Nat) => do
          let row ← Mat.getRow d.rawData (i : Nat)
          let V ← Mat.addRow d.rawDataValidation row (-1)
          .ok { d with rawDataValidation := V }) d idx = .ok { d with rawDataValidation := V } ∧
        HasRows V m (R ++ idx.map (tableRow F m)) := by
  intro idx
  induction idx with
  | nil => intro R d _ _ h; exact ⟨d.rawDataValidation, rfl, by simpa using h⟩
  | cons i idx ih =>
    intro R d hlt hd hV
    have hr := getRow_ok hA (rowIndex := (i : Nat)) (p := i) (hlt i (by simp)) (Or.inl rfl)
    obtain ⟨B, hB1, hB2, -⟩ := addRow_hasRows hV (v := tableRow F m i) (by simp [tableRow])
    obtain ⟨V, h1, h2⟩ := ih (R ++ [tableRow F m i]) { d with rawDataValidation := B }
      (fun j hj => hlt j (by simp [hj])) hd hB2
    refine ⟨V, ?_, by simpa using h2⟩
    have : (do
        let row ← Mat.getRow d.rawData (i : Nat)
        let V ← Mat.addRow d.rawDataValidation row (-1)
        .ok { d with rawDataValidation := V } : Res (SMData K)) =
        .ok { d with rawDataValidation := B } := by
      rw [hd]
      exact bind_eq hr (bind_eq hB1 rfl)
    simp only [foldRes, this]
    exact h1

/-- The object after the split. -/
def afterSplit (d : SMData K) (n k : Nat) (V W : Mat K) : SMData K :=
  { d with
    numberOfSamples := n
    rawDataValidation := V
    numberOfValidationSamples := k
    rawDataWork := W }

theorem split_ok {d : SMData K} {n m : Nat} {F : Nat → Nat → K} {R : List (List K)}
    (hA : IsMat d.rawData n m F) (hw : d.rawDataWork = d.rawData) (hr : 0 < d.ratio)
    (hV : HasRows d.rawDataValidation m R) {perm : List Nat} (hp : perm.Perm (List.range n)) :
    ∃ tr va V W, d.split perm = (d.afterSplit n va.length V W, .ok ()) ∧
      IsSplit n (validationCount n d.ratio) tr va ∧ va = perm.take (validationCount n d.ratio) ∧
      HasRows V m (R ++ va.map (tableRow F m)) ∧
      (tr = [] ∧ va ≠ [] ∧ W = Mat.empty ∨ IsMat W tr.length m (fun i j => F (tr.getD i 0) j)) := by
  have hn : d.rawData.nrows = n := hA.1
  set k := validationCount n d.ratio with hk
  have hkn : k ≤ n := validationCount_le n d.ratio
  have hlen : perm.length = n := by rw [hp.length_eq]; simp
  have hlt : ∀ i ∈ perm.take k, i < n := fun i hi =>
    List.mem_range.1 (hp.mem_iff.1 (List.mem_of_mem_take hi))
  have hidx : validationIndices d.rawData.nrows d.ratio perm = perm.take k := by
    unfold validationIndices; rw [hn]
  obtain ⟨V, h1, h2⟩ := getRows_ok hA (perm.take k) R { d with numberOfSamples := n } hlt rfl hV
  have key : ∀ W, Mat.deleteRows d.rawData ((perm.take k).map Int.ofNat) = .ok W →
      d.split perm = (d.afterSplit n (perm.take k).length V W, .ok ()) := by
    intro W hW
    unfold split
    rw [if_pos hr]
    dsimp only
    rw [hidx, hn]
    refine andThen_commit h1 ?_
    refine commit_ok ?_
    dsimp only
    rw [hw]
    exact bind_eq hW rfl
  refine ⟨kept ((perm.take k).map Int.ofNat) n, perm.take k, V, ?_⟩
  have hsp : IsSplit n k (kept ((perm.take k).map Int.ofNat) n) (perm.take k) :=
    ⟨perm_kept hp k, by rw [List.length_take]; omega⟩
  by_cases he : perm.take k = []
  · refine ⟨d.rawData, key _ (by rw [he]; rfl), hsp, rfl, h2, Or.inr ?_⟩
    rw [he]
    have : kept (([] : List Nat).map Int.ofNat) n = List.range n := by
      unfold kept
      simp
    rw [this, List.length_range]
    refine hA.congr fun i j hi hj => ?_
    simp [List.getD, hi]
  · obtain ⟨W, hW1, hW2⟩ := deleteRows_ok hA (rows := (perm.take k).map Int.ofNat)
      (by simpa using he) (by
        intro a ha
        obtain ⟨b, -, rfl⟩ := List.mem_map.1 ha
        exact Int.natCast_nonneg b) (by
        intro a ha
        obtain ⟨b, hb, rfl⟩ := List.mem_map.1 ha
        have := hlt b hb
        show (b : Int) < n
        omega)
    refine ⟨W, key W hW1, hsp, rfl, h2, ?_⟩
    rcases hW2 with ⟨h3, h4⟩ | ⟨-, h4⟩
    · exact Or.inl ⟨h3, he, h4⟩
    · exact Or.inr h4

end SMData
end Rodeo

namespace Rodeo
open Spec Mat
namespace SMData

variable {K : Type} [Field K] [LinearOrder K] [IsStrictOrderedRing K] [FloorRing K]

theorem assignDimension_ok {d : SMData K} {n m dim : Nat} {W : Nat → Nat → K} (hn : 0 < n)
    (hW : IsMat d.rawDataWork n m W) (hD : d.dimension = 0 ∨ d.dimension = dim)
    (hm : m = dataColumns d.hasGradients d.hasDirectional dim) :
    d.assignDimensionFromData = .ok { d with dimension := dim } := by
  have hc : d.rawDataWork.ncols = m := hW.2.1
  have hdim : (if d.hasGradients then (m - 1) / 2
      else if d.hasDirectional then (if m < 2 then (m + 2 ^ 32 - 2) / 2 else (m - 2) / 2)
      else m - 1) = dim := by
    rw [hm]; unfold dataColumns
    split_ifs <;> omega
  have hm0 : 0 < m := by rw [hm]; unfold dataColumns; split_ifs <;> omega
  unfold assignDimensionFromData
  rw [if_neg (by
    simp only [isEmpty, decide_eq_true_eq, not_or, hW.1, hc]
    omega)]
  dsimp only
  rw [hc, hdim, if_neg (by
    rintro ⟨h1, h2⟩
    rcases hD with h | h <;> omega)]

/-- What `readData` does on a readable file with matching columns, for an object that may already
hold validation rows `R`.  Without a split the rows keep their order. -/
theorem readData_order {d : SMData K} {file : Option Text.Str} {A : Mat K} {n m dim : Nat}
    {F : Nat → Nat → K} {R : List (List K)} (hread : Mat.readFromCSV file false = .ok A)
    (hA : IsMat A n m F) (_hn : 0 < n) (hdim : 0 < dim)
    (hm : m = dataColumns d.hasGradients d.hasDirectional dim)
    (hD : d.dimension = 0 ∨ d.dimension = dim)
    (hexcl : ¬ (d.hasDirectional = true ∧ d.hasGradients = true))
    (hr0 : 0 ≤ d.ratio) (hstale : d.ratio = 0 → d.numberOfValidationSamples = 0)
    (hV : HasRows d.rawDataValidation m R) {perm : List Nat} (hp : perm.Perm (List.range n)) :
    ∃ tr va, IsSplit n (validationCount n d.ratio) tr va ∧
      va = perm.take (validationCount n d.ratio) ∧ (d.ratio = 0 → tr = List.range n) ∧
      if tr = [] then (d.readData file perm).2 = .error .runtimeError
      else ∃ d', d.readData file perm = (d', .ok ()) ∧
        d'.dimension = dim ∧ d'.numberOfSamples = tr.length ∧
        d'.numberOfValidationSamples = va.length ∧ d'.rawData = A ∧ d'.box = d.box ∧
        d'.ratio = d.ratio ∧ d'.hasGradients = d.hasGradients ∧
        d'.hasDirectional = d.hasDirectional ∧ d'.isRead = true ∧
        HasRows d'.rawDataValidation m (R ++ va.map (tableRow F m)) ∧
        IsMat d'.X tr.length dim (fun i j => F (tr.getD i 0) j) ∧ d'.Xraw = d'.X ∧
        d'.y = tr.map (fun r => F r dim) ∧
        (va ≠ [] → IsMat d'.XValidation va.length dim
            (fun i j => ((R ++ va.map (tableRow F m)).getD i []).getD j 0) ∧
          d'.yValidation = (R ++ va.map (tableRow F m)).map (fun r => r.getD dim 0)) ∧
        (d.hasGradients = true →
          IsMat d'.gradient tr.length dim (fun i j => F (tr.getD i 0) (dim + 1 + j))) ∧
        (d.hasGradients = false → d.hasDirectional = true →
          d'.directionalDerivatives = tr.map (fun r => F r (dim + 1)) ∧
          IsMat d'.differentiationDirections tr.length dim
            (fun i j => F (tr.getD i 0) (dim + 2 + j))) := by
  -- the split
  obtain ⟨tr, va, V, W, ns, h1, hsp, hva, hVr, hW, hord⟩ : ∃ tr va V W ns,
      split { d with rawData := A, rawDataWork := A } perm =
        (afterSplit { d with rawData := A } ns va.length V W, .ok ()) ∧
      IsSplit n (validationCount n d.ratio) tr va ∧ va = perm.take (validationCount n d.ratio) ∧
      HasRows V m (R ++ va.map (tableRow F m)) ∧
      (tr = [] ∧ va ≠ [] ∧ W = Mat.empty ∨ IsMat W tr.length m (fun i j => F (tr.getD i 0) j)) ∧
      (d.ratio = 0 → tr = List.range n) := by
    rcases eq_or_lt_of_le hr0 with h0 | h0
    · have hk : validationCount n d.ratio = 0 := by
        rw [← h0]
        unfold validationCount
        simp
      refine ⟨List.range n, [], d.rawDataValidation, A, d.numberOfSamples, ?_, ?_, by rw [hk]; rfl,
        by simpa using hV, Or.inr ?_, fun _ => rfl⟩
      · unfold split
        rw [if_neg (show ¬ d.ratio > 0 from by rw [← h0]; exact lt_irrefl _)]
        unfold afterSplit
        rw [List.length_nil, ← hstale h0.symm]
      · rw [hk]; exact ⟨by simp, rfl⟩
      · rw [List.length_range]
        exact hA.congr fun i j hi hj => by simp [List.getD, hi]
    · obtain ⟨tr, va, V, W, h1, h2, h3, h4, h5⟩ := split_ok
        (d := { d with rawData := A, rawDataWork := A }) hA rfl h0 hV hp
      exact ⟨tr, va, V, W, n, h1, h2, h3, h4, h5, fun h => absurd h h0.ne'⟩
  refine ⟨tr, va, hsp, hva, hord, ?_⟩
  have hstart : d.readData file perm = (andThen (commit
      { afterSplit { d with rawData := A } ns va.length V W with numberOfSamples := W.nrows }
      (assignDimensionFromData
        { afterSplit { d with rawData := A } ns va.length V W with numberOfSamples := W.nrows }))
      fun d => andThen d.assignAll fun d => ({ d with isRead := true }, .ok ())) := by
    unfold readData
    rw [if_neg hexcl, hread]
    dsimp only
    exact andThen_ok h1 rfl
  have hlenva : (va.map (tableRow F m)).length = va.length := by simp
  split_ifs with htr
  · -- nothing left for training
    have hWe : W.isEmpty = true := by
      have : W.nrows = 0 := by
        rcases hW with ⟨-, -, h⟩ | h
        · rw [h]; rfl
        · rw [h.1, htr]; rfl
      unfold Mat.isEmpty
      rw [decide_eq_true_eq]
      exact Or.inl this
    have h2 : assignDimensionFromData
        { afterSplit { d with rawData := A } ns va.length V W with numberOfSamples := W.nrows } =
        .error .runtimeError := by
      exact if_pos hWe
    rw [hstart, h2]
    rfl
  · have hWm : IsMat W tr.length m (fun i j => F (tr.getD i 0) j) := by
      rcases hW with ⟨h, -⟩ | h
      · exact absurd h htr
      · exact h
    have htl : 0 < tr.length := List.length_pos_iff.2 htr
    have hWn : W.nrows = tr.length := hWm.1
    set d1 : SMData K :=
      { afterSplit { d with rawData := A } ns va.length V W with numberOfSamples := W.nrows } with hd1
    have h2 : d1.assignDimensionFromData = .ok { d1 with dimension := dim } :=
      assignDimension_ok htl (show IsMat d1.rawDataWork _ _ _ from hWm) hD hm
    obtain ⟨d2, a1, a2, a3, a4, a5, a6, a7, a8, a9⟩ := assignAll_ok (d := { d1 with dimension := dim })
      (kv := R.length + va.length)
      (V := fun i j => ((R ++ va.map (tableRow F m)).getD i []).getD j 0) htl hdim
      (show IsMat d1.rawDataWork _ _ _ from hWm) hWn rfl hm hexcl (by
        intro hk
        have hne : R ++ va.map (tableRow F m) ≠ [] := by
          intro h
          have h9 : va = [] := by simpa using (List.append_eq_nil_iff.1 h).2
          have hk' : 0 < va.length := hk
          rw [h9] at hk'
          simp at hk'
        have := hVr.isMat hne
        rw [List.length_append, hlenva] at this
        exact ⟨this, by show va.length ≤ _; omega⟩)
    refine ⟨{ d2 with isRead := true }, ?_, a2.dimension, a2.numberOfSamples.trans hWn,
      a2.numberOfValidationSamples, a2.rawData, a2.box, a2.ratio, a2.hasGradients, a2.hasDirectional,
      rfl, ?_, a3, a4, ?_, ?_, a7, ?_⟩
    · rw [hstart]
      exact andThen_commit h2 (andThen_ok a1 rfl)
    · show HasRows d2.rawDataValidation _ _
      rw [a2.rawDataValidation]; exact hVr
    · refine a5.trans ?_
      refine List.ext_getElem (by simp) fun i h3 h4 => ?_
      have : i < tr.length := by simpa using h4
      simp [List.getD, this]
    · intro hva0
      have hk : 0 < va.length := List.length_pos_iff.2 hva0
      refine ⟨(a6 hk).1, (a6 hk).2.trans ?_⟩
      refine List.ext_getElem (by simp) fun i h3 h4 => ?_
      have : i < (R ++ va.map (tableRow F m)).length := by simpa using h4
      simp only [List.getElem_map, List.getElem_range]
      have e : (R ++ va.map (tableRow F m)).getD i [] = (R ++ va.map (tableRow F m))[i] := by
        rw [List.getD_eq_getElem?_getD, List.getElem?_eq_getElem this]
        rfl
      rw [e]
    · intro hg hd
      refine ⟨(a8 hg hd).1.trans ?_, (a8 hg hd).2⟩
      refine List.ext_getElem (by simp) fun i h3 h4 => ?_
      have : i < tr.length := by simpa using h4
      simp [List.getD, this]

/-- What `readData` does on a readable file with matching columns, for an object that may already
hold validation rows `R`. -/
theorem readData_ok {d : SMData K} {file : Option Text.Str} {A : Mat K} {n m dim : Nat}
    {F : Nat → Nat → K} {R : List (List K)} (hread : Mat.readFromCSV file false = .ok A)
    (hA : IsMat A n m F) (_hn : 0 < n) (hdim : 0 < dim)
    (hm : m = dataColumns d.hasGradients d.hasDirectional dim)
    (hD : d.dimension = 0 ∨ d.dimension = dim)
    (hexcl : ¬ (d.hasDirectional = true ∧ d.hasGradients = true))
    (hr0 : 0 ≤ d.ratio) (hstale : d.ratio = 0 → d.numberOfValidationSamples = 0)
    (hV : HasRows d.rawDataValidation m R) {perm : List Nat} (hp : perm.Perm (List.range n)) :
    ∃ tr va, IsSplit n (validationCount n d.ratio) tr va ∧
      va = perm.take (validationCount n d.ratio) ∧
      if tr = [] then (d.readData file perm).2 = .error .runtimeError
      else ∃ d', d.readData file perm = (d', .ok ()) ∧
        d'.dimension = dim ∧ d'.numberOfSamples = tr.length ∧
        d'.numberOfValidationSamples = va.length ∧ d'.rawData = A ∧ d'.box = d.box ∧
        d'.ratio = d.ratio ∧ d'.hasGradients = d.hasGradients ∧
        d'.hasDirectional = d.hasDirectional ∧ d'.isRead = true ∧
        HasRows d'.rawDataValidation m (R ++ va.map (tableRow F m)) ∧
        IsMat d'.X tr.length dim (fun i j => F (tr.getD i 0) j) ∧ d'.Xraw = d'.X ∧
        d'.y = tr.map (fun r => F r dim) ∧
        (va ≠ [] → IsMat d'.XValidation va.length dim
            (fun i j => ((R ++ va.map (tableRow F m)).getD i []).getD j 0) ∧
          d'.yValidation = (R ++ va.map (tableRow F m)).map (fun r => r.getD dim 0)) ∧
        (d.hasGradients = true →
          IsMat d'.gradient tr.length dim (fun i j => F (tr.getD i 0) (dim + 1 + j))) ∧
        (d.hasGradients = false → d.hasDirectional = true →
          d'.directionalDerivatives = tr.map (fun r => F r (dim + 1)) ∧
          IsMat d'.differentiationDirections tr.length dim
            (fun i j => F (tr.getD i 0) (dim + 2 + j))) := by
  obtain ⟨tr, va, h1, h2, -, h3⟩ := readData_order hread hA _hn hdim hm hD hexcl hr0 hstale hV hp
  exact ⟨tr, va, h1, h2, h3⟩

end SMData
end Rodeo
