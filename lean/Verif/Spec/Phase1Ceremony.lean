import Verif.Spec.Phase1Verify
/-
Ceremonies as a user runs them: every contributor calls `Contribute` on the file produced by the one before.
-/
namespace ZkSetup

open Phase1

section
variable {F G1 G2 GT : Type} [Field F] [AddCommGroup G1] [Module F G1] [AddCommGroup G2]
  [Module F G2] [AddCommGroup GT] [Module F GT] [DecidableEq G1] [DecidableEq G2]

/-- Every step is one contributor: their machine and what they draw. The result is the last output file. -/
def p1Ceremony (C : Curve F G1 G2 GT) (b : Nat) : List (Par × Rand F) → Bytes → Except Fail Bytes
  | [], file => .ok file
  | (par, rnd) :: rest, file =>
    match contribute C par b rnd file with
    | (.ok _, out) => p1Ceremony C b rest out
    | (.error e, _) => .error e

end
end ZkSetup
