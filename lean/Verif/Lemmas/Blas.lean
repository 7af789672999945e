import Verif.Spec.Blas
import Verif.Lemmas.Kriging
import Verif.Lemmas.Matrix
import Verif.Props.Solve
import Verif.Lemmas.Corr

set_option linter.unusedSectionVars false

namespace Rodeo
open Spec Mat

variable {K : Type} [Field K] [LinearOrder K] [IsStrictOrderedRing K]

/-! ### Lists, blocks and matrices -/

theorem list_ext_vecFun {a b : List K} (hl : a.length = b.length)
    (h : ∀ i, i < b.length → vecFun a i = vecFun b i) : a = b := by
  refine List.ext_getElem hl (fun i h1 h2 => ?_)
  have := h i h2
  simpa [vecFun, List.getD, h1, h2] using this

theorem entry_isMat {A : Mat K} {n m : Nat} {F : Nat → Nat → K} (hA : IsMat A n m F) {i j : Nat}
    (hi : i < n) (hj : j < m) : entry A.buf n i j = F i j := by
  have := (isMat_iff.1 hA).2.2.2 i j hi hj
  simp [entry, List.getD, this]

theorem isMat_entry {n m : Nat} {l : List K} (hl : l.length = n * m) :
    IsMat (⟨n, m, l⟩ : Mat K) n m (entry l n) := by
  refine isMat_iff.2 ⟨rfl, rfl, hl, fun i j hi hj => ?_⟩
  have := colmajor_lt hi hj
  simp [entry, List.getD, show j * n + i < l.length by omega]

theorem mat_ext {A C : Mat K} {n m : Nat} {F G : Nat → Nat → K} (hA : IsMat A n m F)
    (hC : IsMat C n m G) (h : ∀ i j, i < n → j < m → F i j = G i j) : A = C := by
  obtain ⟨a1, a2, a3, a4⟩ := isMat_iff.1 hA
  obtain ⟨c1, c2, c3, c4⟩ := isMat_iff.1 hC
  rcases A with ⟨_, _, ab⟩
  rcases C with ⟨_, _, cb⟩
  simp only at a1 a2 a3 a4 c1 c2 c3 c4
  subst a1 a2 c1 c2
  congr 1
  refine List.ext_getElem? (fun k => ?_)
  by_cases hk : k < ab.length
  · obtain ⟨i, j, hi, hj, rfl⟩ := colmajor_split (k := k) (a3 ▸ hk)
    rw [a4 i j hi hj, c4 i j hi hj, h i j hi hj]
  · rw [List.getElem?_eq_none (by omega), List.getElem?_eq_none (by omega)]

/-! ### Determinants and solutions -/

theorem toMatrix_congr {n : Nat} {F G : Nat → Nat → K} (h : ∀ i j, i < n → j < n → F i j = G i j) :
    toMatrix n F = toMatrix n G := by
  ext i j
  exact h i j i.2 j.2

theorem solves_congr {n : Nat} {F G : Nat → Nat → K} {x b : Nat → K}
    (h : ∀ i j, i < n → j < n → F i j = G i j) (hs : Solves n F x b) : Solves n G x b := by
  intro i hi
  rw [← hs i hi]
  exact Finset.sum_congr rfl (fun j hj => by rw [h i j hi (Finset.mem_range.1 hj)])

theorem exists_solves {n : Nat} {F : Nat → Nat → K} (h : (toMatrix n F).det ≠ 0) (b : Nat → K) :
    ∃ x, Solves n F x b := by
  have hu : IsUnit (toMatrix n F).det := isUnit_iff_ne_zero.2 h
  let z := (toMatrix n F)⁻¹.mulVec (fun i : Fin n => b i)
  refine ⟨fun j => if hj : j < n then z ⟨j, hj⟩ else 0, fun i hi => ?_⟩
  have : (toMatrix n F).mulVec z = fun i : Fin n => b i := by
    simp only [z, Matrix.mulVec_mulVec, Matrix.mul_nonsing_inv _ hu, Matrix.one_mulVec]
  have := congrFun this ⟨i, hi⟩
  rw [Finset.sum_range]
  simp only [Fin.is_lt, dif_pos, Fin.eta]
  exact this

theorem solves_unique_det {n : Nat} {F : Nat → Nat → K} (h : (toMatrix n F).det ≠ 0) {x z b : Nat → K}
    (hx : Solves n F x b) (hz : Solves n F z b) : ∀ i, i < n → x i = z i := by
  have hu : IsUnit (toMatrix n F).det := isUnit_iff_ne_zero.2 h
  have hmul : ∀ w, Solves n F w b → (toMatrix n F).mulVec (fun j : Fin n => w j) =
      fun i : Fin n => b i := by
    intro w hw
    funext i
    have := hw i i.2
    rw [Finset.sum_range] at this
    exact this
  have e : (toMatrix n F)⁻¹.mulVec ((toMatrix n F).mulVec (fun j : Fin n => x j)) =
      (toMatrix n F)⁻¹.mulVec ((toMatrix n F).mulVec (fun j : Fin n => z j)) := by
    rw [hmul x hx, hmul z hz]
  simp only [Matrix.mulVec_mulVec, Matrix.nonsing_inv_mul _ hu, Matrix.one_mulVec] at e
  exact fun i hi => congrFun e ⟨i, hi⟩

theorem right_inverse_unique {n : Nat} {F G H : Nat → Nat → K}
    (hG : ∀ i j, i < n → j < n → ∑ k ∈ Finset.range n, F i k * G k j = if i = j then 1 else 0)
    (hH : ∀ i j, i < n → j < n → ∑ k ∈ Finset.range n, F i k * H k j = if i = j then 1 else 0) :
    ∀ i j, i < n → j < n → G i j = H i j := by
  intro i j hi hj
  have hdet : (toMatrix n F).det ≠ 0 := by
    have h1 : toMatrix n F * toMatrix n G = 1 := by
      ext i j
      have := hG i j i.2 j.2
      rw [Finset.sum_range] at this
      rw [Matrix.mul_apply, Matrix.one_apply]
      simpa [toMatrix, Fin.ext_iff] using this
    intro h0
    have := congrArg Matrix.det h1
    rw [Matrix.det_mul, h0, zero_mul, Matrix.det_one] at this
    exact zero_ne_one this
  exact solves_unique_det hdet (x := fun k => G k j) (z := fun k => H k j)
    (b := fun i => if i = j then 1 else 0) (fun a ha => hG a j ha hj) (fun a ha => hH a j ha hj) i hi

theorem posDef_congr {n : Nat} {F G : Nat → Nat → K} (h : ∀ i j, i < n → j < n → F i j = G i j) :
    PosDef n F ↔ PosDef n G := by
  have : ∀ x, quadForm n F x = quadForm n G x := by
    intro x
    unfold quadForm
    exact Finset.sum_congr rfl (fun i hi => Finset.sum_congr rfl (fun j hj => by
      rw [h i j (Finset.mem_range.1 hi) (Finset.mem_range.1 hj)]))
  unfold PosDef
  simp only [this]

/-- A Cholesky factor with a positive diagonal is unique. -/
theorem factor_unique {n : Nat} {G H : Nat → Nat → K}
    (hG : ∀ i j, i < n → j < n → i < j → G i j = 0) (hH : ∀ i j, i < n → j < n → i < j → H i j = 0)
    (hGd : ∀ i, i < n → 0 < G i i) (hHd : ∀ i, i < n → 0 < H i i)
    (h : ∀ i j, i < n → j < n → ∑ k ∈ Finset.range n, G i k * G j k =
      ∑ k ∈ Finset.range n, H i k * H j k) :
    ∀ j, j < n → ∀ i, i < n → G i j = H i j := by
  have cut : ∀ (L : Nat → Nat → K), (∀ i j, i < n → j < n → i < j → L i j = 0) → ∀ i j, i < n → j < n →
      ∑ k ∈ Finset.range n, L i k * L j k = ∑ k ∈ Finset.range j, L i k * L j k + L i j * L j j := by
    intro L hL i j hi hj
    rw [← Finset.sum_range_succ]
    refine (Finset.sum_subset (Finset.range_subset_range.2 (by omega)) ?_).symm
    intro k hk hk'
    rw [Finset.mem_range] at hk hk'
    rw [hL j k hj hk (by omega), mul_zero]
  intro j
  induction j using Nat.strong_induction_on with
  | _ j ih =>
    intro hj
    have hrow : ∀ i, i < n → G i j * G j j = H i j * H j j := by
      intro i hi
      have := h i j hi hj
      rw [cut G hG i j hi hj, cut H hH i j hi hj] at this
      rw [Finset.sum_congr rfl (g := fun k => H i k * H j k) (fun k hk => by
        have hk := Finset.mem_range.1 hk
        rw [ih k hk (by omega) i hi, ih k hk (by omega) j hj])] at this
      exact add_left_cancel this
    have hd : G j j = H j j := by
      have e := hrow j hj
      have h1 := hGd j hj
      have h2 := hHd j hj
      have : (G j j - H j j) * (G j j + H j j) = 0 := by linear_combination e
      rcases mul_eq_zero.1 this with h0 | h0
      · linarith
      · linarith
    intro i hi
    have := hrow i hi
    rw [hd] at this
    exact mul_right_cancel₀ (hHd j hj).ne' this

/-! ### Sums and products -/

theorem Lib.ddot_eq {B : Blas K} (hB : Documented B) {n : Nat} {x y : List K} (hx : n ≤ x.length)
    (hy : n ≤ y.length) :
    Lib.ddot B n x y = .ok (∑ i ∈ Finset.range n, vecFun x i * vecFun y i) := by
  unfold Lib.ddot Lib.guarded
  rw [if_pos (by simp [hx, hy]), hB.dot n x y hx hy]

theorem Lib.dot_eq {B : Blas K} (hB : Documented B) (v w : List K) :
    Lib.dot B v w = Vec.dot v w := by
  unfold Lib.dot
  by_cases h : v.length = w.length
  · rw [if_neg (by simpa using h), Lib.ddot_eq hB le_rfl (by omega), Vec.dot_ok rfl h.symm]
  · unfold Vec.dot
    rw [if_pos h, if_pos h]

theorem Lib.scaleAndAdd_eq {B : Blas K} (hB : Documented B) (x : List K) (a : K) (b : List K) :
    Lib.scaleAndAdd B x a b = Vec.scaleAndAddVec x a b := by
  unfold Lib.scaleAndAdd Vec.scaleAndAddVec
  by_cases h : x.length = b.length
  · rw [if_neg (by simpa using h), if_neg (by simpa using h)]
    have h1 := hB.copy b.length b (List.replicate x.length 0) le_rfl (by simp [h])
    have h2 := hB.axpy x.length a x (B.copy b.length b (List.replicate x.length 0)) le_rfl
      (by rw [h1.1]; simp)
    have e1 : Vec.timesNum x a = .ok ((List.range x.length).map fun i => vecFun x i * a) := by
      unfold Vec.timesNum
      exact tab_ok (fun i hi => bind_eq (Corr.rawAt_vecFun hi) rfl)
    rw [bind_eq e1 rfl, if_neg (by simpa using h)]
    have e2 : tab ((List.range x.length).map fun i => vecFun x i * a).length (fun i => do
        let p ← rawAt ((List.range x.length).map fun i => vecFun x i * a) i
        let q ← rawAt b i
        (.ok (p + q) : Res K)) = .ok ((List.range x.length).map fun i => vecFun x i * a + vecFun b i) := by
      rw [List.length_map, List.length_range]
      refine tab_ok (fun i hi => ?_)
      refine bind_eq (Corr.rawAt_vecFun (by simpa using hi)) ?_
      refine bind_eq (Corr.rawAt_vecFun (by omega)) ?_
      rw [Corr.vecFun_map _ hi]
    rw [e2]
    refine bind_eq (a := B.copy b.length b (List.replicate x.length 0)) ?_ ?_
    · unfold Lib.guarded; rw [if_pos (by simp [h])]
    · unfold Lib.guarded
      rw [if_pos (by rw [h1.1]; simp)]
      congr 1
      refine list_ext_vecFun (by rw [h2.1, h1.1]; simp) (fun i hi => ?_)
      simp only [List.length_map, List.length_range] at hi
      rw [h2.2 i hi, h1.2 i (by omega), Corr.vecFun_map _ hi, mul_comm]
  · rw [if_pos h, if_pos h]

theorem Lib.fits_true {l : List K} {n ld : Nat} (h : ld * n ≤ l.length) : Lib.fits l n ld = true := by
  simp [Lib.fits, h]

theorem Lib.matVecProduct_eq {B : Blas K} (hB : Documented B) {A : Mat K} {n m : Nat}
    {F : Nat → Nat → K} (hA : IsMat A n m F) (hn : 0 < n) (hm : 0 < m) (v : List K) :
    Lib.matVecProduct B A v = Mat.matVecProduct A v := by
  obtain ⟨hr, hc, hl, -⟩ := id hA
  by_cases hv : v.length = m
  · rw [matVecProduct_ok hA hv]
    unfold Lib.matVecProduct Lib.guarded
    rw [if_neg (by omega), hr, hc, Lib.fits_true (by omega), if_pos (by simp; omega)]
    have h := hB.gemv n m 1 A.buf n v 0 (List.replicate n 0) hn hm le_rfl (by omega) (by omega)
      (by simp)
    congr 1
    refine list_ext_vecFun (by rw [h.1]; simp) (fun i hi => ?_)
    simp only [List.length_map, List.length_range] at hi
    rw [h.2 i hi, Corr.vecFun_map _ hi, one_mul, zero_mul, add_zero]
    exact Finset.sum_congr rfl (fun j hj => by rw [entry_isMat hA hi (Finset.mem_range.1 hj)])
  · unfold Lib.matVecProduct Mat.matVecProduct
    rw [if_pos (by omega), if_pos (by omega)]

theorem Lib.matMatProduct_eq {B : Blas K} (hB : Documented B) {A C : Mat K} {n m m' q : Nat}
    {F G : Nat → Nat → K} (hA : IsMat A n m F) (hC : IsMat C m' q G) (hn : 0 < n) (hm : 0 < m)
    (hq : 0 < q) :
    Lib.matMatProduct B A C = Mat.matMatProduct A C := by
  obtain ⟨hr, hc, hl, -⟩ := id hA
  obtain ⟨hr', hc', hl', -⟩ := id hC
  by_cases hmm : m = m'
  · subst hmm
    obtain ⟨P, e, hP⟩ := matMatProduct_ok hA hC
    rw [e]
    unfold Lib.matMatProduct
    rw [if_neg (by omega), hr, hc, hr', hc']
    have h := hB.gemm n q m 1 A.buf n C.buf m 0 (List.replicate (n * q) 0) n hn hq hm le_rfl le_rfl
      le_rfl (by omega) (by omega) (by simp)
    refine bind_eq (a := B.gemm n q m 1 A.buf n C.buf m 0 (List.replicate (n * q) 0) n) ?_ ?_
    · unfold Lib.guarded
      rw [Lib.fits_true (by omega), Lib.fits_true (by omega)]
      rfl
    · congr 1
      refine mat_ext (isMat_entry (by rw [h.1]; simp)) hP (fun i j hi hj => ?_)
      rw [h.2 i j hi hj, one_mul, zero_mul, add_zero]
      exact Finset.sum_congr rfl (fun k hk => by
        rw [entry_isMat hA hi (Finset.mem_range.1 hk), entry_isMat hC (Finset.mem_range.1 hk) hj])
  · unfold Lib.matMatProduct Mat.matMatProduct
    rw [if_pos (by omega), if_pos (by omega)]

/-! ### Correlations -/

theorem Lib.gaussian_eq {B : Blas K} (hB : Documented B) {exp : K → K} {v1 v2 theta : List K}
    {n : Nat} (h1 : n ≤ v1.length) (h2 : n ≤ v2.length) (h3 : n ≤ theta.length) :
    Lib.gaussian B exp v1 v2 theta n = Corr.gaussian exp v1 v2 theta n := by
  rw [Corr.gaussian_ok h1 h2 h3]
  unfold Lib.gaussian
  refine bind_eq (tab_ok (g := fun i => vecFun v1 i - vecFun v2 i) (fun i hi =>
    bind_eq (Corr.rawAt_vecFun (by omega)) (bind_eq (Corr.rawAt_vecFun (by omega)) rfl))) ?_
  refine bind_eq (tab_ok (g := fun i => (vecFun v1 i - vecFun v2 i) * (vecFun v1 i - vecFun v2 i))
    (fun i hi => bind_eq (Corr.rawAt_vecFun (by simpa using hi)) (by rw [Corr.vecFun_map _ hi]))) ?_
  refine bind_eq (Lib.ddot_eq hB (by simp) h3) ?_
  congr 3
  refine Finset.sum_congr rfl (fun i hi => ?_)
  rw [Corr.vecFun_map _ (Finset.mem_range.1 hi), mul_comm]

theorem sumLoop_err {n : Nat} {f : Nat → Res K} {g : Nat → K} {k : Nat} (hk : k < n) {e : Err}
    (h : ∀ i, i < k → f i = .ok (g i)) (he : f k = .error e) : sumLoop n f = .error e := by
  have key : ∀ (m a : Nat) (s : K), a ≤ k → k < a + m →
      loopFrom (fun k s => do
        let v ← f k
        (.ok (s + v) : Res K)) a m s = .error e := by
    intro m
    induction m with
    | zero => intro a s h1 h2; omega
    | succ m ih =>
      intro a s h1 h2
      unfold loopFrom
      by_cases hak : a = k
      · subst hak
        rw [he]; rfl
      · rw [h a (by omega)]
        exact ih (a + 1) _ (by omega) (by omega)
  exact key n 0 0 (by omega) (by omega)

theorem tab_err {α : Type} {n : Nat} {f : Nat → Res α} {g : Nat → α} {k : Nat} (hk : k < n) {e : Err}
    (h : ∀ i, i < k → f i = .ok (g i)) (he : f k = .error e) : tab n f = .error e := by
  have key : ∀ (m a : Nat), a ≤ k → k < a + m → tabFrom f a m = .error e := by
    intro m
    induction m with
    | zero => intro a h1 h2; omega
    | succ m ih =>
      intro a h1 h2
      unfold tabFrom
      by_cases hak : a = k
      · subst hak; rw [he]
      · rw [h a (by omega)]
        simp only
        rw [ih (a + 1) (by omega) (by omega)]
  exact key n 0 (by omega) (by omega)

theorem Lib.exponential_eq {B : Blas K} (hB : Documented B) {exp : K → K} {pow : K → K → Res K}
    {v1 v2 theta gamma : List K} {n : Nat} (h1 : n ≤ v1.length) (h2 : n ≤ v2.length)
    (h3 : n ≤ theta.length) (h4 : n ≤ gamma.length) :
    Lib.exponential B exp pow v1 v2 theta gamma n =
      Corr.exponential exp pow v1 v2 theta gamma n := by
  by_cases hall : ∀ k, k < n → ∃ p, pow |vecFun v1 k - vecFun v2 k| (vecFun gamma k) = .ok p
  · have : ∀ k, ∃ p, k < n → pow |vecFun v1 k - vecFun v2 k| (vecFun gamma k) = .ok p := by
      intro k
      by_cases hk : k < n
      · obtain ⟨p, hp⟩ := hall k hk
        exact ⟨p, fun _ => hp⟩
      · exact ⟨0, fun h => absurd h hk⟩
    choose p hp using this
    rw [Corr.exponential_ok h1 h2 h3 h4 (p := p) hp]
    unfold Lib.exponential
    refine bind_eq (tab_ok (g := p) (fun i hi =>
      bind_eq (Corr.rawAt_vecFun (by omega)) (bind_eq (Corr.rawAt_vecFun (by omega))
        (bind_eq (Corr.rawAt_vecFun (by omega)) (hp i hi))))) ?_
    refine bind_eq (Lib.ddot_eq hB h3 (by simp)) ?_
    congr 3
    refine Finset.sum_congr rfl (fun i hi => ?_)
    rw [Corr.vecFun_map _ (Finset.mem_range.1 hi)]
  · push Not at hall
    classical
    obtain ⟨hk, hbad⟩ := Nat.find_spec hall
    have hmin := fun i (hi : i < Nat.find hall) => Nat.find_min hall hi
    generalize Nat.find hall = k at hk hbad hmin
    have hgood : ∀ i, ∃ p, i < k → pow |vecFun v1 i - vecFun v2 i| (vecFun gamma i) = .ok p := by
      intro i
      by_cases hi : i < k
      · have := hmin i hi
        push Not at this
        obtain ⟨p, hp⟩ := this (by omega)
        exact ⟨p, fun _ => hp⟩
      · exact ⟨0, fun h => absurd h hi⟩
    choose p hp using hgood
    obtain ⟨e, he⟩ : ∃ e, pow |vecFun v1 k - vecFun v2 k| (vecFun gamma k) = .error e := by
      rcases hx : pow |vecFun v1 k - vecFun v2 k| (vecFun gamma k) with e | q
      · exact ⟨e, rfl⟩
      · exact absurd hx (hbad q)
    unfold Lib.exponential Corr.exponential
    rw [tab_err (g := p) hk (e := e), sumLoop_err (g := fun i => vecFun theta i * p i) hk (e := e)]
    · rfl
    · intro i hi
      exact bind_eq (Corr.rawAt_vecFun (by omega)) (bind_eq (Corr.rawAt_vecFun (by omega))
        (bind_eq (Corr.rawAt_vecFun (by omega)) (bind_eq (hp i hi)
          (bind_eq (Corr.rawAt_vecFun (by omega)) rfl))))
    · refine bind_eq (Corr.rawAt_vecFun (by omega)) (bind_eq (Corr.rawAt_vecFun (by omega))
        (bind_eq (Corr.rawAt_vecFun (by omega)) ?_))
      rw [he]; rfl
    · intro i hi
      exact bind_eq (Corr.rawAt_vecFun (by omega)) (bind_eq (Corr.rawAt_vecFun (by omega))
        (bind_eq (Corr.rawAt_vecFun (by omega)) (hp i hi)))
    · exact bind_eq (Corr.rawAt_vecFun (by omega)) (bind_eq (Corr.rawAt_vecFun (by omega))
        (bind_eq (Corr.rawAt_vecFun (by omega)) he))

theorem loopFrom_congr {σ : Type} {f g : Nat → σ → Res σ} :
    ∀ (m a : Nat) (s : σ), (∀ i s, a ≤ i → i < a + m → f i s = g i s) →
      loopFrom f a m s = loopFrom g a m s := by
  intro m
  induction m with
  | zero => intro a s _; rfl
  | succ m ih =>
    intro a s h
    unfold loopFrom
    rw [h a s le_rfl (by omega)]
    rcases g a s with e | s'
    · rfl
    · exact ih (a + 1) s' (fun i s h1 h2 => h i s (by omega) (by omega))

theorem Lib.okBind {α β : Type} {a : α} {f : α → Res β} : ((Except.ok a : Res α) >>= f) = f a := rfl

/-- The correlation matrix depends on the pairwise function only through pairs of rows. -/
theorem corrMatrixNaive_congr {X : Mat K} {f g : List K → List K → Res K}
    (h : ∀ a b : List K, a.length = X.ncols → b.length = X.ncols → f a b = g a b) :
    Corr.corrMatrixNaive X f = Corr.corrMatrixNaive X g := by
  unfold Corr.corrMatrixNaive
  simp only
  rcases hrows : tab X.nrows (fun i => Mat.getRow X (i : Nat)) with e | rows
  · rfl
  obtain ⟨hlen, hrow⟩ := tab_inv hrows
  have hlens : ∀ i, i < X.nrows → ∃ a, rawAt rows i = .ok a ∧ a.length = X.ncols := by
    intro i hi
    obtain ⟨a, h1, h2⟩ := hrow i hi
    refine ⟨a, by simp [rawAt, h2], ?_⟩
    unfold Mat.getRow at h1
    split_ifs at h1 <;> exact (tab_inv h1).1
  have hin : ∀ d : List (Option K), forRange X.nrows (fun i d => forRange i (fun j d => do
      let xi ← rawAt rows i
      let xj ← rawAt rows j
      let c ← f xi xj
      let d ← Mem.wr d (i * X.nrows + j) c
      Mem.wr d (j * X.nrows + i) c) d) d = forRange X.nrows (fun i d => forRange i (fun j d => do
      let xi ← rawAt rows i
      let xj ← rawAt rows j
      let c ← g xi xj
      let d ← Mem.wr d (i * X.nrows + j) c
      Mem.wr d (j * X.nrows + i) c) d) d := by
    intro d
    refine loopFrom_congr _ _ _ (fun i d _ hi => loopFrom_congr _ _ _ (fun j d _ hj => ?_))
    obtain ⟨a, ea, ha⟩ := hlens i (by omega)
    obtain ⟨b, eb, hb⟩ := hlens j (by omega)
    rw [ea, eb, Lib.okBind, Lib.okBind, Lib.okBind, Lib.okBind, h a b ha hb]
  simp only [Lib.okBind, hin]

/-! ### Cholesky -/

theorem symTri_isMat {A : Mat K} {n : Nat} {F : Nat → Nat → K} (hA : IsMat A n n F)
    (hF : Symm n F) : ∀ i j, i < n → j < n → symTri A.buf n i j = F i j := by
  intro i j hi hj
  unfold symTri
  split_ifs
  · exact entry_isMat hA hi hj
  · rw [entry_isMat hA hj hi, hF j i hj hi]

theorem Lib.zeroUpper_ok {n : Nat} {l : List K} (hl : l.length = n * n) :
    OkP (do
      let d ← forRange n (fun i d =>
        forFromTo (i + 1) n (fun j d => Mem.wr d (j * n + i) 0) d) (l.map some)
      let l ← Mem.freeze d
      (.ok (⟨n, n, l⟩, 1) : Res (Mat K × Int)))
    (fun r => r.2 = 1 ∧ IsMat r.1 n n (lowerTri l n)) := by
  have h0 : Rep2 (l.map some) n n (fun a b => some (entry l n a b)) := by
    refine ⟨by simp [hl], fun i j hi hj => ?_⟩
    have := colmajor_lt hi hj
    simp [entry, List.getD, show j * n + i < l.length by omega]
  refine OkP.bind (okP_for (fun i d => Rep2 d n n (fun a b =>
    if a < i ∧ a < b then some 0 else some (entry l n a b))) ?_ ?_) ?_
  · exact h0.start (by omega)
  · intro i d hi hd
    refine (loopFrom_inv' (fun j d => Rep2 d n n (fun a b =>
      if (a < i ∧ a < b) ∨ (a = i ∧ a < b ∧ b < j) then some 0 else some (entry l n a b)))
      (a := i + 1) (b := n) (by omega) ?_ ?_).mono ?_
    · exact hd.cond (by omega)
    · intro j d hj1 hj2 hd
      exact hd.wr_next i j hi hj2 rfl rfl (by omega)
    · intro d hd
      exact hd.cond (by omega)
  · intro d hd
    refine OkP.bind (okP_freeze (G := lowerTri l n) (hd.congr ?_)) ?_
    · intro a b ha hb
      unfold lowerTri
      by_cases hba : b ≤ a
      · rw [if_neg (by omega), if_pos hba]
      · rw [if_pos (by omega), if_neg hba]
    · intro l' hl'
      exact okP_ok ⟨rfl, hl'⟩

/-- Cholesky with the library. -/
theorem Lib.cholesky_ok {B : Blas K} (hB : Documented B) {A : Mat K} {n : Nat}
    {F : Nat → Nat → K} (hA : IsMat A n n F) (hF : Symm n F) (hn : 0 < n) :
    (PosDef n F → ∃ L G, Lib.cholesky B A = .ok (L, 1) ∧ IsMat L n n G ∧
      (∀ i j, i < n → j < n → i < j → G i j = 0) ∧ (∀ i, i < n → 0 < G i i) ∧
      ∀ i j, i < n → j < n → ∑ k ∈ Finset.range n, G i k * G j k = F i j) ∧
    (¬ PosDef n F → ∃ L, Lib.cholesky B A = .ok (L, -1)) := by
  obtain ⟨hr, hc, hl, -⟩ := id hA
  have hS := symTri_isMat hA hF
  obtain ⟨h1, h2⟩ := hB.potrf n A.buf n hn le_rfl (by omega)
  rw [posDef_congr hS] at h1 h2
  have hg : Lib.guarded (Lib.fits A.buf n n) (B.potrf n A.buf n) = .ok (B.potrf n A.buf n) := by
    unfold Lib.guarded; rw [Lib.fits_true (by omega), if_pos rfl]
  constructor
  · intro hP
    obtain ⟨e1, e2, e3, e4⟩ := h1 hP
    obtain ⟨⟨L, ret⟩, e5, e6, e7⟩ := Lib.zeroUpper_ok (n := n) (l := (B.potrf n A.buf n).1)
      (by omega)
    simp only at e6 e7
    subst e6
    refine ⟨L, lowerTri (B.potrf n A.buf n).1 n, ?_, e7, ?_, ?_, ?_⟩
    · unfold Lib.cholesky
      rw [if_neg (by omega), hr, hc]
      refine bind_eq hg ?_
      rw [if_neg (by omega)]
      exact e5
    · intro i j hi hj hij
      unfold lowerTri; rw [if_neg (by omega)]
    · intro i hi
      unfold lowerTri; rw [if_pos le_rfl]; exact e3 i hi
    · intro i j hi hj
      rw [e4 i j hi hj, hS i j hi hj]
  · intro hP
    refine ⟨⟨n, n, (B.potrf n A.buf n).1⟩, ?_⟩
    unfold Lib.cholesky
    rw [if_neg (by omega), hr, hc]
    refine bind_eq hg ?_
    rw [if_pos (h2 hP).1]

/-- The solve with the library, for a lower triangular factor with a nonzero diagonal. -/
theorem Lib.solveCholesky_ok {B : Blas K} (hB : Documented B) {L : Mat K} {n : Nat}
    {F G : Nat → Nat → K} (hL : IsMat L n n G) (hlow : ∀ i j, i < n → j < n → i < j → G i j = 0)
    (hd : ∀ i, i < n → G i i ≠ 0)
    (hF : ∀ i j, i < n → j < n → ∑ k ∈ Finset.range n, G i k * G j k = F i j) (hn : 0 < n)
    {b : List K} (hb : b.length = n) :
    ∃ x, Lib.solveCholesky B L b = .ok x ∧ x.length = n ∧ Solves n F (vecFun x) (vecFun b) := by
  obtain ⟨hr, hc, hl, -⟩ := id hL
  have hT : ∀ i j, i < n → j < n → lowerTri L.buf n i j = G i j := by
    intro i j hi hj
    unfold lowerTri
    split_ifs with h
    · exact entry_isMat hL hi hj
    · rw [hlow i j hi hj (by omega)]
  have hdiag : ∀ i, i < n → entry L.buf n i i ≠ 0 := by
    intro i hi; rw [entry_isMat hL hi hi]; exact hd i hi
  obtain ⟨y1, y2⟩ := hB.trsv n L.buf n b hn le_rfl (by omega) (by omega) hdiag
  obtain ⟨x1, x2⟩ := hB.trsvT n L.buf n (B.trsv false n L.buf n b) hn le_rfl (by omega) (by omega)
    hdiag
  refine ⟨_, ?_, by rw [x1, y1]; exact hb, ?_⟩
  · unfold Lib.solveCholesky
    rw [if_neg (by omega), hr]
    refine bind_eq (a := B.trsv false n L.buf n b) ?_ ?_
    · unfold Lib.guarded; rw [Lib.fits_true (by omega), if_pos (by simp; omega)]
    · unfold Lib.guarded; rw [Lib.fits_true (by omega), if_pos (by simp; omega)]
  · intro i hi
    have e1 : ∀ j, j ∈ Finset.range n → F i j * vecFun
        (B.trsv true n L.buf n (B.trsv false n L.buf n b)) j = ∑ k ∈ Finset.range n, G i k * (G j k *
          vecFun (B.trsv true n L.buf n (B.trsv false n L.buf n b)) j) := by
      intro j hj
      rw [← hF i j hi (Finset.mem_range.1 hj), Finset.sum_mul]
      exact Finset.sum_congr rfl (fun k _ => by ring)
    rw [Finset.sum_congr rfl e1, Finset.sum_comm, ← y2 i hi]
    refine Finset.sum_congr rfl (fun k hk => ?_)
    have hk := Finset.mem_range.1 hk
    rw [← Finset.mul_sum, hT i k hi hk, ← x2 k hk]
    congr 1
    exact Finset.sum_congr rfl (fun j hj => by simp only [hT j k (Finset.mem_range.1 hj) hk])

theorem det_ne_zero_of_gram {n : Nat} {F G : Nat → Nat → K}
    (hlow : ∀ i j, i < n → j < n → i < j → G i j = 0) (hd : ∀ i, i < n → G i i ≠ 0)
    (hF : ∀ i j, i < n → j < n → ∑ k ∈ Finset.range n, G i k * G j k = F i j) :
    (toMatrix n F).det ≠ 0 := by
  rw [det_gram hlow hF]
  refine pow_ne_zero _ (Finset.prod_ne_zero_iff.2 (fun i hi => hd i (Finset.mem_range.1 hi)))

end Rodeo
