import Verif.Spec.Phase1
import Verif.Spec.Phase2
import Verif.Spec.Init
/-!
The sizes of the files as `/repo/docs/Format.md` gives them, and what the three files of phase 2 initialisation should be.
-/
namespace ZkSetup

/-- `*.ph1`, Format.md:1-28: header, parameters, contributions -/
def p1Size (power contributions : Nat) : Nat := 3 + (192 * 2 ^ power + 32) + 640 * contributions

/-- `*.ph2`, Format.md:31-58, without the header: `[δ]1`, `[δ]2`, Z, PKK, contributions -/
def p2Size (domain witness contributions : Nat) : Nat :=
  32 + 64 + 32 * (domain - 1) + 32 * witness + (32 + 32 + 32 + 64 + 32) * contributions

/-- `srs.lag`, Format.md:65-72, for sections of `n` points -/
def lagSize (n : Nat) : Nat := (32 * n + 4) + (32 * n + 4) + (32 * n + 4) + (64 * n + 4)

/-- `evals`, Format.md:74-87, with the commitment information of `cmt` bytes -/
def evalsSize (wires pub privateCommitted cmt : Nat) : Nat :=
  32 + 32 + 64 + (32 * wires + 4) + (32 * wires + 4) + (64 * wires + 4) + (32 * pub + 4) + (32 * privateCommitted + 4) + cmt

section
variable {F G1 G2 GT : Type} [Field F] [AddCommGroup G1] [Module F G1] [AddCommGroup G2]
  [Module F G2] [AddCommGroup GT] [Module F GT]

/-- The three files of phase 2 initialisation for the circuit `r` with `nb` constraints: `ph2` is the encoding of the
well-formed file `f`, which has no records and `δ = 1` and the counts of the circuit; `lag` and `evals` have the documented
sizes, `lag` for the domain. -/
structure InitFiles (C : Curve F G1 G2 GT) (H : Phase2.HeaderCodec) (r : Phase2.R1CS F) (nb cmt : Nat) (ph2 lag evals : Bytes)
    (f : P2File G1 G2) : Prop where
  wf : f.WF
  records : f.records = []
  delta1 : f.delta1 = C.g1
  delta2 : f.delta2 = C.g2
  wires : f.wires = r.nbPublic + r.nbSecret + r.nbInternal
  pub : f.pub = r.nbPublic + if r.commitment.committed = [] then 0 else 1
  privateCommitted : f.privateCommitted = r.commitment.nbPrivateCommitted
  partition : f.pub + f.witness + f.privateCommitted = f.wires
  constraints : f.constraints = nb
  domain : ∃ k, 1 ≤ k ∧ k ≤ 27 ∧ f.domain = 2 ^ k
  enough : nb ≤ f.domain
  least : ∀ j, 1 ≤ j → nb ≤ 2 ^ j → f.domain ≤ 2 ^ j
  ph2 : ph2 = f.encode C H
  lag : lag.length = lagSize f.domain
  evals : evals.length = evalsSize f.wires f.pub f.privateCommitted cmt

end
end ZkSetup
