import Verif.Spec.AnyContribute
import Verif.Spec.Transform
/-
What the conversion of a Powers-of-Tau response reads in any bytes: no reader and no error occurs here, only bytes and positions.
-/
namespace ZkSetup

section
variable {F G1 G2 GT : Type}

/-- the bytes begin with accepted encodings of the points -/
def Listed {G : Type} (c : Codec G) : List G → Bytes → Prop
  | [], _ => True
  | p :: ps, bs => ∃ e t, bs = e ++ t ∧ c.Decodes p e ∧ Listed c ps t

/-- where the sections of a response begin -/
structure SectionStarts where
  tauG1 : Nat
  tauG2 : Nat
  alphaG1 : Nat
  betaG1 : Nat
  betaG2 : Nat

/-- The positions for original power `a`. Up to 54 they are those of a response: 64 bytes of hash, `2^(a+1)-1` points of 64 bytes, `2^a` of
128, twice `2^a` of 64. For 55 to 57 one of them is negative after overflow. From 58 on all but the first are 0. -/
def sectionStarts (a : Nat) : Option SectionStarts :=
  if a ≤ 54 then
    some ⟨64, 64 + (2 * 2 ^ a - 1) * 64, 64 + (2 * 2 ^ a - 1) * 64 + 2 ^ a * 128,
      64 + (2 * 2 ^ a - 1) * 64 + 2 ^ a * 128 + 2 ^ a * 64, 64 + (2 * 2 ^ a - 1) * 64 + 2 ^ a * 128 + 2 ^ a * 64 + 2 ^ a * 64⟩
  else if a ≤ 57 then none
  else some ⟨64, 0, 0, 0, 0⟩

/-- how many powers are converted for reduced power `b`: none from 63 on, where `2^b` is no 64-bit integer -/
def powersFor (b : Nat) : Nat := if b ≤ 62 then 2 ^ b else 0

/-- `f` has power `b`, no contributions, and as many points as are converted for `b` -/
structure P1File.ForPower (f : P1File G1 G2) (b : UInt8) : Prop where
  power : f.power = b
  tauG1 : f.tauG1.length = 2 * powersFor b.toNat - 1
  alphaG1 : f.alphaG1.length = powersFor b.toNat
  betaG1 : f.betaG1.length = powersFor b.toNat
  tauG2 : f.tauG2.length = powersFor b.toNat
  records : f.records = []

/-- the sections of `f` stand in the bytes at the given positions -/
structure P1File.StandsIn (C : Curve F G1 G2 GT) (f : P1File G1 G2) (s : SectionStarts) (input : Bytes) : Prop where
  tauG1 : Listed C.c1 f.tauG1 (input.drop s.tauG1)
  alphaG1 : Listed C.c1 f.alphaG1 (input.drop s.alphaG1)
  betaG1 : Listed C.c1 f.betaG1 (input.drop s.betaG1)
  tauG2 : Listed C.c2 f.tauG2 (input.drop s.tauG2)
  betaG2 : Listed C.c2 [f.betaG2] (input.drop s.betaG2)

end
end ZkSetup
