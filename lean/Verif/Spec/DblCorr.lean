import Verif.Spec.Dbl
import Verif.Spec.Corr
import Verif.Model.DblCorr

/-! # What is assumed of the C library, and of the data of a Kriging model in doubles -/

namespace Rodeo.Spec

/-- `exp` and `pow` return doubles with an error below one unit in the last place (relative error at most
`2 ^ (-52)`, or the smallest positive double): `exp` for arguments that are not positive, `pow` for bases in
`[0, 2 ^ 102]` and exponents in `[0, 2]`. -/
structure Accurate (L : Dbl.Libm ℝ) : Prop where
  exp : ∀ s, IsDouble s → 0 ≤ s → IsDouble (L.exp (-s)) ∧ 0 ≤ L.exp (-s) ∧
    |L.exp (-s) - Real.exp (-s)| ≤ Real.exp (-s) / 2 ^ 52 + 2 ^ (-1074 : ℤ)
  pow : ∀ a g, IsDouble a → IsDouble g → 0 ≤ a → a ≤ 2 ^ (102 : ℤ) → 0 ≤ g → g ≤ 2 →
    ∃ r, L.pow a g = .ok r ∧ IsDouble r ∧ 0 ≤ r ∧ |r - a ^ g| ≤ a ^ g / 2 ^ 52 + 2 ^ (-1074 : ℤ)

/-- A correlation function object in doubles: `n` samples of dimension `m`, the rows of `F`, with
coordinates up to `2 ^ 100`, weights in `[0, 2 ^ 100]`, exponents in `[0, 2]` and `epsilon` in `[0, 1)`. -/
structure ReadyDbl (s : Corr.ExpCorr ℝ) (n m : Nat) (F : Nat → Nat → ℝ) : Prop where
  set : s.base.isSet = true
  samples : IsMat s.base.X n m F
  count : s.base.N = n
  sample_doubles : ∀ i k, i < n → k < m → IsDouble (F i k) ∧ |F i k| ≤ 2 ^ (100 : ℤ)
  theta_len : s.theta.length = m
  theta_range : ∀ t ∈ s.theta, IsDouble t ∧ 0 ≤ t ∧ t ≤ 2 ^ (100 : ℤ)
  gamma_len : s.gamma.length = m
  gamma_range : ∀ g ∈ s.gamma, IsDouble g ∧ 0 ≤ g ∧ g ≤ 2
  epsilon_range : IsDouble s.base.epsilon ∧ 0 ≤ s.base.epsilon ∧ s.base.epsilon < 1

end Rodeo.Spec
