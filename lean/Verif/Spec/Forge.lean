import Verif.Spec.Keys
import Verif.Spec.Phase1
/-
What someone can compute who knows `τ` and `α` of the phase 1 parameters, but neither `β` nor `δ`.
-/
namespace ZkSetup

open Phase2

section
variable {F G1 G2 GT : Type} [Field F] [AddCommGroup G1] [Module F G1] [AddCommGroup G2]
  [Module F G2] [AddCommGroup GT] [Module F GT]

/-- The published file `f` with the parameters exchanged for those of `τ`, `α` of one's own choice; `β` remains the one of the
contributors, which need not be known: only the published `[β]1` is used. The records and `[β]2` are those of `f`. -/
def takeOver (C : Curve F G1 G2 GT) (τ α : F) (f : P1File G1 G2) : P1File G1 G2 :=
  { f with
    tauG1 := (List.range (2 * 2 ^ f.power.toNat - 1)).map fun i => τ ^ i • C.g1
    alphaG1 := (List.range (2 ^ f.power.toNat)).map fun i => (α * τ ^ i) • C.g1
    betaG1 := (List.range (2 ^ f.power.toNat)).map fun i => τ ^ i • f.betaG1.headD 0
    tauG2 := (List.range (2 ^ f.power.toNat)).map fun i => τ ^ i • C.g2 }

open Classical in
/-- A proof for the public values `x` of the circuit `r`, from `τ`, `α` and the published verifying key alone: no values of
the other wires, no `β`, no `δ`. `c` is arbitrary. -/
noncomputable def forge (C : Curve F G1 G2 GT) (r : R1CS F) (k : Nat) (ω τ α : F) (vk : VerifyKey G1 G2) (x : Nat → F) (c : F) :
    Proof G1 G2 :=
  let u := α + ∑ i ∈ Finset.range r.shared, x i * (qap r (2 ^ k) ω R1C.l i).eval τ
  let v := ∑ i ∈ Finset.range r.shared, x i * (α * (qap r (2 ^ k) ω R1C.r i).eval τ + (qap r (2 ^ k) ω R1C.o i).eval τ)
  if u = 0 then ⟨v • C.g1 + c • vk.delta1, C.g2, c • C.g1⟩
  else ⟨u • C.g1, vk.beta2 + (v / u) • C.g2 + (c / u) • vk.delta2, c • C.g1⟩

end
end ZkSetup
