import Verif.Spec.AnyTransform
/-
What the initialisation of phase 2 reads in any bytes: no reader and no error occurs here, only bytes and positions.
-/
namespace ZkSetup

section
variable {F G1 G2 GT : Type}

/-- Where the initialisation looks for the sections of a phase 1 file of power `p`: 3 bytes of header, `2^(p+1)-1` points of 32 bytes, twice
`2^p` of 32, `2^p` of 64. -/
def initStarts (p : Nat) : SectionStarts where
  tauG1 := 3
  alphaG1 := 3 + 32 * (2 * 2 ^ p - 1)
  betaG1 := 3 + 32 * (2 * 2 ^ p - 1) + 32 * 2 ^ p
  tauG2 := 3 + 32 * (2 * 2 ^ p - 1) + 32 * 2 ^ p + 32 * 2 ^ p
  betaG2 := 3 + 32 * (2 * 2 ^ p - 1) + 32 * 2 ^ p + 32 * 2 ^ p + 64 * 2 ^ p

/-- The bytes supply the parameters `f` to a circuit with `m` constraints: three bytes of header, of which only the first matters, a power
that allows `m` constraints, and the sections of `f` at the positions for that power. -/
def P1File.Supplies (C : Curve F G1 G2 GT) (f : P1File G1 G2) (m : Nat) (input : Bytes) : Prop :=
  ∃ (p x y : UInt8) (body : Bytes), input = p :: x :: y :: body ∧ p.toNat ≤ 62 ∧ m ≤ 2 ^ p.toNat ∧ f.StandsIn C (initStarts p.toNat) input

end
end ZkSetup
