import Verif.Spec.Phase2
/-
Phase 2 ceremonies as a user runs them: every contributor calls `Contribute` on the file produced by the one before.
-/
namespace ZkSetup

open Phase2

section
variable {F G1 G2 GT : Type} [Field F] [AddCommGroup G1] [Module F G1] [AddCommGroup G2]
  [Module F G2] [AddCommGroup GT] [Module F GT]

/-- Every step is one contributor: their machine and what they draw. The result is the last output file. -/
def p2Ceremony (C : Curve F G1 G2 GT) (H : HeaderCodec) (b : Nat) : List (Par × Rand F) → Bytes → Except Fail Bytes
  | [], file => .ok file
  | (par, rnd) :: rest, file =>
    match contribute C H par b rnd file with
    | (.ok _, out) => p2Ceremony C H b rest out
    | (.error e, _) => .error e

/-- the product of the contributed `δ` -/
def deltaProduct (rnds : List (Rand F)) : F := (rnds.map (·.delta)).prod

end
end ZkSetup
