import Verif.Model.Lagrange
import Mathlib.RingTheory.RootsOfUnity.PrimitiveRoots
import Mathlib.Algebra.BigOperators.Group.Finset.Basic
/-
The FFT domain contract and the inverse discrete Fourier transform.
-/
namespace ZkSetup

open Finset

/-- Contract of `fft.NewDomain` for size `2^k`: a primitive root of unity of that order, the inverse of
the cardinality, and the table of inverse twiddles `TwiddlesInv[s][i] = gen^(-(i·2^s))` for the stages and
indices the table has. -/
structure Lagrange.Domain.Lawful {F : Type} [Field F] (d : Lagrange.Domain F) (k : Nat) : Prop where
  card : d.cardinality = 2 ^ k
  root : IsPrimitiveRoot d.gen (2 ^ k)
  inv : d.cardInv * (2 ^ k : F) = 1
  tw : ∀ s i, s < k → i < 2 ^ (k - s - 1) → d.twiddlesInv s i = (d.gen ^ (i * 2 ^ s))⁻¹

/-- inverse DFT of size `n` with root `ω`: entry `i` is `1/n · Σ_j ω^(-ij) x_j` -/
def idft {F G : Type} [Field F] [AddCommGroup G] [Module F G] (n : Nat) (ω : F) (x : Nat → G)
    (i : Nat) : G :=
  (n : F)⁻¹ • ∑ j ∈ range n, (ω ^ (i * j))⁻¹ • x j

end ZkSetup
