import Verif.Spec.AnyTransform
import Verif.Spec.AnyVerify1
/-
What a verification with a transformed file reads in that file: no reader and no error occurs here, only bytes and positions.
-/
namespace ZkSetup

open Phase1

section
variable {F G1 G2 GT : Type} [Zero G1] [Zero G2]

/-- The transformed file gives the points of `t`: three bytes of header, of which only the first, the power `p`, matters, and five points: the
second of `[τ]1`, the first of `[ατ]1`, the first of `[βτ]1`, the second of `[τ]2`, and `[β]2`, at the places where they are in a file of power `p`
all of whose points are compressed. The record `t` holds no proofs and no hash. -/
structure GivesOrigin (C : Curve F G1 G2 GT) (file : Bytes) (t : Contribution G1 G2) : Prop where
  points : ∃ (p x y : UInt8) (body : Bytes), file = p :: x :: y :: body ∧ p.toNat ≤ 62 ∧
    Listed C.c1 [t.g1Tau] (file.drop 35) ∧
    Listed C.c1 [t.g1Alpha] (file.drop (64 * 2 ^ p.toNat - 29)) ∧
    Listed C.c1 [t.g1Beta] (file.drop (96 * 2 ^ p.toNat - 29)) ∧
    Listed C.c2 [t.g2Tau] (file.drop (128 * 2 ^ p.toNat + 35)) ∧
    Listed C.c2 [t.g2Beta] (file.drop (192 * 2 ^ p.toNat - 29))
  noProofs : t.pkTau = ⟨0, 0, 0⟩ ∧ t.pkAlpha = ⟨0, 0, 0⟩ ∧ t.pkBeta = ⟨0, 0, 0⟩
  noHash : t.hash = []

end
end ZkSetup
