import Verif.Model.Cli
/-
Ceremonies as they are run from the command line, see `/repo/README.md`.
-/
namespace ZkSetup

open Cli

section
variable {F G1 G2 GT : Type} [Field F] [AddCommGroup G1] [Module F G1] [AddCommGroup G2]
  [Module F G2] [AddCommGroup GT] [Module F GT] [DecidableEq G1] [DecidableEq G2] [DecidableEq GT]

/-- Commands in sequence, up to the first that fails. -/
def session (C : Curve F G1 G2 GT) (E : Env F G1) : List (Command F) → FS → Except Fail FS
  | [], fs => .ok fs
  | c :: cs, fs =>
    match exec C E c.draws c.name c.args fs with
    | (.ok _, fs') => session C E cs fs'
    | (.error e, _) => .error e

/-- Every contributor runs `command` on the file of the one before. -/
def relay (command : String) : String → List (Draws F × String) → List (Command F)
  | _, [] => []
  | inp, (d, out) :: rest => ⟨d, command, [inp, out]⟩ :: relay command out rest

/-- the file of the last contributor -/
def lastFile (first : String) (steps : List (Draws F × String)) : String := ((steps.map Prod.snd).getLast?).getD first

/-- Nobody overwrites the file that they read. -/
def NoOverwrite : String → List String → Prop
  | _, [] => True
  | inp, out :: rest => inp ≠ out ∧ NoOverwrite out rest

/-- The files of the split keys of a session: the names under which gnark's prover looks for them (`/repo/test/parted_test.go`),
with their contents. -/
def splitFiles (session : String) (pk : Keys.SplitPK) (vk commitmentKey : Bytes) : List (String × Bytes) :=
  [(session ++ ".pk.E.save", pk.e), (session ++ ".pk.A.save", pk.a), (session ++ ".pk.B1.save", pk.b1),
    (session ++ ".pk.B2.save", pk.b2), (session ++ ".pk.K.save", pk.k), (session ++ ".pk.Z.save", pk.z),
    (session ++ ".pk.CommitmentKey.save", commitmentKey), (session ++ ".vk.save", vk)]

/-- their names -/
def splitNames (session : String) : List String :=
  (["pk.E", "pk.A", "pk.B1", "pk.B2", "pk.K", "pk.Z", "pk.CommitmentKey", "vk"] : List String).map fun part =>
    session ++ ("." ++ part ++ ".save")

/-- A parted constraint system with the same counts, coefficients, commitment and constraints as `r`. -/
structure SameSystem (cs : Phase2.PartedR1CS F) (r : Phase2.R1CS F) : Prop where
  nbPublic : cs.base.nbPublic = r.nbPublic
  nbSecret : cs.base.nbSecret = r.nbSecret
  nbInternal : cs.base.nbInternal = r.nbInternal
  coefficients : cs.base.coefficients = r.coefficients
  commitment : cs.base.commitment = r.commitment
  constraints : ∀ i (h : i < r.constraints.length), cs.get i = .ok r.constraints[i]

end
end ZkSetup
