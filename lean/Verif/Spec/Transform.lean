import Verif.Spec.Phase1
/-
The response file of the Perpetual Powers of Tau ceremony, which `p1t` converts.
-/
namespace ZkSetup

open Phase1

/-- Contents of a response file: hash of the challenge, then the powers (order of the sections as in
`/repo/docs/Format.md`). -/
structure Response (G1 G2 : Type) where
  hash : Bytes
  tauG1 : List G1
  tauG2 : List G2
  alphaG1 : List G1
  betaG1 : List G1
  betaG2 : G2

section
variable {F G1 G2 GT : Type} [Field F] [AddCommGroup G1] [Module F G1] [AddCommGroup G2]
  [Module F G2] [AddCommGroup GT] [Module F GT]

/-- the section lengths for power `a` -/
structure Response.WF (r : Response G1 G2) (a : Nat) : Prop where
  hash : r.hash.length = 64
  tauG1 : r.tauG1.length = 2 * 2 ^ a - 1
  tauG2 : r.tauG2.length = 2 ^ a
  alphaG1 : r.alphaG1.length = 2 ^ a
  betaG1 : r.betaG1.length = 2 ^ a

/-- uncompressed points -/
def Response.encode (C : Curve F G1 G2 GT) (r : Response G1 G2) : Bytes :=
  r.hash ++ r.tauG1.flatMap C.c1.rawBytes ++ r.tauG2.flatMap C.c2.rawBytes ++ r.alphaG1.flatMap C.c1.rawBytes
    ++ r.betaG1.flatMap C.c1.rawBytes ++ C.c2.rawBytes r.betaG2

/-- the phase 1 file of power `b` with the first points of each section -/
def Response.prefix (r : Response G1 G2) (b : UInt8) : P1File G1 G2 where
  power := b
  tauG1 := r.tauG1.take (2 * 2 ^ b.toNat - 1)
  alphaG1 := r.alphaG1.take (2 ^ b.toNat)
  betaG1 := r.betaG1.take (2 ^ b.toNat)
  tauG2 := r.tauG2.take (2 ^ b.toNat)
  betaG2 := r.betaG2
  records := []

end
end ZkSetup
