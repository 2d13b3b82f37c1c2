import Verif.Spec.Init
/-
Which descriptions of a commitment `p2n` can handle, and which wires go where. Only numbers of wires occur here.
-/
namespace ZkSetup

section
variable {F : Type}

/-- number of private wires declared as committed -/
def Phase2.R1CS.priv (r : R1CS F) : Nat := r.commitment.nbPrivateCommitted

/-- The wire goes to the verifying key: it is not one of the first `priv` wires, and it is among the first `shared` ones or is the
commitment wire. -/
def Phase2.R1CS.toVerifier (r : R1CS F) (i : Nat) : Bool :=
  decide (i < r.shared) || (decide (r.commitment.committed ≠ []) && decide (i = r.commitment.commitmentIndex))

/-- The wires after the first `priv` ones that go to the verifying key. -/
def Phase2.R1CS.verifierWires (r : R1CS F) : List Nat := (List.range' r.priv (r.wires - r.priv)).filter r.toVerifier

/-- The wires after the first `priv` ones that do not. -/
def Phase2.R1CS.proverWires (r : R1CS F) : List Nat := (List.range' r.priv (r.wires - r.priv)).filter fun i => !r.toVerifier i

/-- The commitment description fits: there are enough wires; and either no private wire is declared as committed and the commitment wire is
not a private wire other than the first, or the private wires declared as committed are the wires `0, 1, …` in this order and the commitment
wire is a private one behind them, where only one wire is declared or there are no public wires. -/
structure Phase2.R1CS.CommitmentFits (r : R1CS F) : Prop where
  room : r.shared + r.priv ≤ r.wires
  shape : r.priv = 0 ∧ (r.commitment.committed ≠ [] → r.commitment.commitmentIndex ≤ r.nbPublic ∨ r.wires ≤ r.commitment.commitmentIndex) ∨
    0 < r.priv ∧ (∃ pubc, r.commitment.committed = pubc ++ List.range r.priv) ∧ (r.priv = 1 ∨ r.nbPublic = 0) ∧
      r.priv ≤ r.commitment.commitmentIndex ∧ r.nbPublic < r.commitment.commitmentIndex ∧ r.commitment.commitmentIndex < r.wires

end
end ZkSetup
