import Verif.Spec.Keys
import Verif.Spec.Phase1
/-
Provers that make the three points of a proof as linear combinations of the published points, with coefficients that do not depend
on the secrets of the honest contributors (the provers of Groth's linear interactive proofs). Published are the phase 1 file and the
two keys. The points in the evaluation file are those of the keys, the points of Z and PKK in the phase 2 file too. Not used by these
provers: the points in the records of the contributions.
-/
namespace ZkSetup

open Phase2

section
variable {F G1 G2 GT : Type} [Field F] [AddCommGroup G1] [Module F G1] [AddCommGroup G2]
  [Module F G2] [AddCommGroup GT] [Module F GT]

/-- `Σ x_i·P_i` -/
def comb {G : Type} [AddCommGroup G] [Module F G] (ps : List G) (x : Nat → F) : G := msmOf ps ((List.range ps.length).map x)

/-- The coefficients of a linear combination of the published points of the first group: three sections of the phase 1 file, `A`, `B`,
`[δ]1`, `Z`, `K` of the proving key, `K` of the verifying key. (`[α]1`, `[β]1` are in the phase 1 file.) -/
structure Combination1 (F : Type) [Zero F] where
  tau : Nat → F := fun _ => 0
  alpha : Nat → F := fun _ => 0
  beta : Nat → F := fun _ => 0
  a : Nat → F := fun _ => 0
  b1 : Nat → F := fun _ => 0
  delta : F := 0
  z : Nat → F := fun _ => 0
  k : Nat → F := fun _ => 0
  vk : Nat → F := fun _ => 0

/-- The same for the second group: the powers of `τ` and `[β]2` of the phase 1 file, `B`, `[δ]2` of the proving key. -/
structure Combination2 (F : Type) [Zero F] where
  tau : Nat → F := fun _ => 0
  beta : F := 0
  b2 : Nat → F := fun _ => 0
  delta : F := 0

/-- the point -/
def Combination1.point (c : Combination1 F) (f : P1File G1 G2) (pk : ProvingKey G1 G2) (vk : VerifyKey G1 G2) : G1 :=
  comb f.tauG1 c.tau + comb f.alphaG1 c.alpha + comb f.betaG1 c.beta
    + msmOf pk.a (unmarked pk.infinityA ((List.range pk.wires).map c.a))
    + msmOf pk.b1 (unmarked pk.infinityB ((List.range pk.wires).map c.b1))
    + c.delta • pk.delta1 + comb pk.z c.z + comb pk.k c.k + comb vk.k c.vk

/-- the point -/
def Combination2.point (c : Combination2 F) (f : P1File G1 G2) (pk : ProvingKey G1 G2) : G2 :=
  comb f.tauG2 c.tau + c.beta • f.betaG2 + msmOf pk.b2 (unmarked pk.infinityB ((List.range pk.wires).map c.b2)) + c.delta • pk.delta2

/-- A prover: the coefficients of the three points of the proof. -/
structure Prover (F : Type) [Zero F] where
  ar : Combination1 F
  bs : Combination2 F
  krs : Combination1 F

/-- the proof -/
def Prover.proof (c : Prover F) (f : P1File G1 G2) (pk : ProvingKey G1 G2) (vk : VerifyKey G1 G2) : Proof G1 G2 :=
  ⟨c.ar.point f pk vk, c.bs.point f pk, c.krs.point f pk vk⟩

/-- The assignment that the coefficients contain: the public values `x`, and for the other wires the coefficients of `K` of the proving
key in the last point of the proof. -/
def Prover.assignment (c : Prover F) (r : R1CS F) (x : Nat → F) (i : Nat) : F := if i < r.shared then x i else c.krs.k (i - r.shared)

end
end ZkSetup
