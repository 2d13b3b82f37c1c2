import Verif.Spec.Phase1
import Mathlib.Algebra.BigOperators.Group.Finset.Basic
/-
What the phase 1 verifier establishes, stated on structured files and scalars (no pairings).
-/
namespace ZkSetup

open Phase1 Finset

section
variable {F G1 G2 GT : Type} [Field F] [AddCommGroup G1] [Module F G1] [AddCommGroup G2]
  [Module F G2] [AddCommGroup GT] [Module F GT]

/-- `x` is the scalar of a proof of knowledge: `SX = x·S` and `SPX = x·H(S ‖ SX ‖ challenge, dst)`. -/
def ProvesScalar (C : Curve F G1 G2 GT) (k : PublicKey G1 G2) (challenge : Bytes) (dst : UInt8) (x : F) :
    Prop :=
  k.sx = x • k.s ∧
    k.spx = x • C.hashG2 (C.c1.rawBytes k.s ++ C.c1.rawBytes k.sx ++ challenge) dst

/-- `cur` is an update of `prev` by the scalars `τ, α, β`, proven for the hash of `prev`. The G2 part is only
tied to the G1 part if the blinding point `S` is not the identity. -/
structure StepBy (C : Curve F G1 G2 GT) (prev cur : Contribution G1 G2) (τ α β : F) : Prop where
  knowTau : ProvesScalar C cur.pkTau prev.hash 1 τ
  knowAlpha : ProvesScalar C cur.pkAlpha prev.hash 2 α
  knowBeta : ProvesScalar C cur.pkBeta prev.hash 3 β
  g1Tau : cur.g1Tau = τ • prev.g1Tau
  g1Alpha : cur.g1Alpha = α • prev.g1Alpha
  g1Beta : cur.g1Beta = β • prev.g1Beta
  g2Tau : cur.pkTau.s ≠ 0 → cur.g2Tau = τ • prev.g2Tau
  g2Beta : cur.pkBeta.s ≠ 0 → cur.g2Beta = β • prev.g2Beta
  hash : cur.hash = C.sha (recordBody C cur)

/-- every record is an update of the one before it -/
def ChainOk (C : Curve F G1 G2 GT) : Contribution G1 G2 → List (Contribution G1 G2) → Prop
  | _, [] => True
  | prev, r :: rs => (∃ τ α β, StepBy C prev r τ α β) ∧ ChainOk C r rs

/-- The verifier's random combination of a section: `Σ r_j · p_(j+s)` over the neighbours `j, j+1` that lie in
the same batch of size `b`; `r_j` is drawn for batch `j / b`, position `j % b`. -/
def neighbourSum {G : Type} [AddCommGroup G] [Module F G] (b : Nat) (rnd : Nat → Nat → F) (s : Nat)
    (ps : List G) : G :=
  ∑ j ∈ range (ps.length - 1), if (j + 1) % b = 0 then 0 else rnd (j / b) (j % b) • ps.getD (j + s) 0

/-- The two random combinations `(L1, L2)` the verifier computes for a section. With mismatched lengths
rejected by `MultiExp` (`strict`) both stay the identity. -/
def combos {G : Type} [AddCommGroup G] [Module F G] (pol : MsmPolicy) (b : Nat) (rnd : Nat → Nat → F)
    (ps : List G) : G × G :=
  match pol with
  | .strict => (0, 0)
  | .truncate => (neighbourSum b rnd 0 ps, neighbourSum b rnd 1 ps)

/-- the record the ceremony starts from when no transformed file is given: all generators -/
def genesis (C : Curve F G1 G2 GT) : Contribution G1 G2 :=
  { g1Tau := C.g1, g1Alpha := C.g1, g1Beta := C.g1, g2Tau := C.g2, g2Beta := C.g2
    pkTau := ⟨0, 0, 0⟩, pkAlpha := ⟨0, 0, 0⟩, pkBeta := ⟨0, 0, 0⟩, hash := [] }

/-- Consistency of the sections with the last record: the combinations have the ratio of the record's `τ`. -/
structure SectionsOk (C : Curve F G1 G2 GT) (pol : MsmPolicy) (b : Nat) (vr : VerifyRand F)
    (f : P1File G1 G2) (last : Contribution G1 G2) : Prop where
  tauG1 : ∀ t : F, last.g2Tau = t • C.g2 →
    (combos pol b vr.tau1 f.tauG1).2 = t • (combos pol b vr.tau1 f.tauG1).1
  alphaG1 : ∀ t : F, last.g2Tau = t • C.g2 →
    (combos pol b vr.alpha1 f.alphaG1).2 = t • (combos pol b vr.alpha1 f.alphaG1).1
  betaG1 : ∀ t : F, last.g2Tau = t • C.g2 →
    (combos pol b vr.beta1 f.betaG1).2 = t • (combos pol b vr.beta1 f.betaG1).1
  tauG2 : ∀ t : F, last.g1Tau = t • C.g1 →
    t • (combos pol b vr.tau2 f.tauG2).2 = (combos pol b vr.tau2 f.tauG2).1
  betaG2 : f.betaG2 = last.g2Beta

end
end ZkSetup
