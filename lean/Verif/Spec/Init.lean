import Verif.Model.Phase2Init
import Verif.Spec.BitRev
import Verif.Spec.Dft
import Verif.Spec.Phase2
import Mathlib.LinearAlgebra.Lagrange
/-
What phase 2 initialisation should compute: the QAP of a constraint system, and the evaluation file.
-/
namespace ZkSetup

open Phase2 Finset

section
variable {F : Type} [Field F]

/-- The value of a coefficient identifier: gnark reserves 0, 1, 2, 3 for the values 0, 1, 2, −1; the others index the table. -/
def coeffValue (coefficients : List F) : Nat → F
  | 0 => 0
  | 1 => 1
  | 2 => 2
  | 3 => -1
  | i => coefficients.getD i 0

/-- the coefficient of wire `w` in a linear expression: the sum over its occurrences -/
def lcCoeff (coefficients : List F) (ts : List Term) (w : Nat) : F :=
  ((ts.filter fun t => t.wire = w).map fun t => coeffValue coefficients t.coeff).sum

/-- number of wires -/
def Phase2.R1CS.wires (r : R1CS F) : Nat := r.nbPublic + r.nbSecret + r.nbInternal

/-- A constraint system without out-of-range identifiers (as gnark builds them), with fewer than `2^32` wires. -/
structure Phase2.R1CS.Valid (r : R1CS F) : Prop where
  count : r.nbConstraints = r.constraints.length
  wire : ∀ c ∈ r.constraints, ∀ ts ∈ [c.l, c.r, c.o], ∀ t ∈ ts, t.wire < r.wires
  coeff : ∀ c ∈ r.constraints, ∀ ts ∈ [c.l, c.r, c.o], ∀ t ∈ ts, t.coeff < 4 ∨ t.coeff < r.coefficients.length
  size : r.wires < 2 ^ 32

/-- no committed wires -/
def Phase2.R1CS.NoCommitment (r : R1CS F) : Prop := r.commitment.committed = [] ∧ r.commitment.nbPrivateCommitted = 0

/-- The commitment info as gnark builds it: public committed wires, then the private ones in ascending order (wire 0 is the
public constant); the commitment wire is not public. -/
structure Phase2.R1CS.ValidCommitment (r : R1CS F) : Prop where
  committed : ∃ pubc priv, r.commitment.committed = pubc ++ priv ∧ r.commitment.nbPrivateCommitted = priv.length ∧
    priv.Pairwise (· < ·) ∧ ∀ x ∈ priv, 1 ≤ x ∧ x < r.wires
  index : r.commitment.committed ≠ [] → r.nbPublic ≤ r.commitment.commitmentIndex ∧ r.commitment.commitmentIndex < r.wires

/-- Only public wires are committed to, and the commitment wire follows the public ones. -/
structure Phase2.R1CS.PublicCommitment (r : R1CS F) : Prop where
  priv : r.commitment.nbPrivateCommitted = 0
  index : r.commitment.committed ≠ [] → r.commitment.commitmentIndex = r.nbPublic ∧ r.nbPublic < r.wires

/-- the number of wires whose values the verifier knows: the public ones, and the commitment wire -/
def Phase2.R1CS.shared (r : R1CS F) : Nat := r.nbPublic + if r.commitment.committed = [] then 0 else 1

/-- constraint `i` -/
def Phase2.R1CS.constraint (r : R1CS F) (i : Nat) : R1C := r.constraints.getD i ⟨[], [], []⟩

/-- `Σ_i (coefficient of wire w in constraint i) · x_i` for the left, right or output expressions -/
def wireSum {G : Type} [AddCommGroup G] [Module F G] (r : R1CS F) (side : R1C → List Term) (x : Nat → G) (w : Nat) : G :=
  ∑ i ∈ range r.constraints.length, lcCoeff r.coefficients (side (r.constraint i)) w • x i

open Polynomial in
/-- The QAP polynomial of wire `w` over the domain `{1, ω, …, ω^(n-1)}`: its value at `ω^i` is the coefficient of `w` in
constraint `i`, and 0 beyond the last constraint. -/
noncomputable def qap (r : R1CS F) (n : Nat) (ω : F) (side : R1C → List Term) (w : Nat) : F[X] :=
  ∑ i ∈ range r.constraints.length,
    C (lcCoeff r.coefficients (side (r.constraint i)) w) * _root_.Lagrange.basis (range n) (fun i => ω ^ i) i

end

/-- The contents of the evaluation file. -/
structure Evals (G1 G2 : Type) where
  alpha1 : G1
  beta1 : G1
  beta2 : G2
  a : List G1
  b1 : List G1
  b2 : List G2
  vkk : List G1
  ckk : List G1
  commitment : Bytes

section
variable {F G1 G2 GT : Type} [Field F] [AddCommGroup G1] [Module F G1] [AddCommGroup G2]
  [Module F G2] [AddCommGroup GT] [Module F GT]

/-- The evaluation file: three points, five slices with their lengths, the commitment info. -/
def Evals.encode (C : Curve F G1 G2 GT) (v : Evals G1 G2) : Bytes :=
  C.c1.bytes v.alpha1 ++ C.c1.bytes v.beta1 ++ C.c2.bytes v.beta2 ++ C.c1.encodeSlice v.a ++ C.c1.encodeSlice v.b1
    ++ C.c2.encodeSlice v.b2 ++ C.c1.encodeSlice v.vkk ++ C.c1.encodeSlice v.ckk ++ v.commitment

/-- a section in Lagrange basis: the inverse DFT of its first `n` points -/
def lagSection {G : Type} [AddCommGroup G] [Module F G] (n : Nat) (ω : F) (xs : List G) (i : Nat) : G :=
  idft n ω (fun j => xs.getD j 0) i

/-- The points of all wires for the public input, in wire order: `o_w(τ) + α·r_w(τ) + β·l_w(τ)` in terms of the sections -/
def combined (r : R1CS F) (n : Nat) (ω : F) (f : P1File G1 G2) (w : Nat) : G1 :=
  wireSum r R1C.o (lagSection n ω f.tauG1) w + wireSum r R1C.r (lagSection n ω f.alphaG1) w
    + wireSum r R1C.l (lagSection n ω f.betaG1) w

/-- Z for a domain of size `n = 2^k`: the points `tauG1[i+n] - tauG1[i]`, `i < n-1`, with point `i` at the bit-reversed
position -/
def zSection {G : Type} [AddCommGroup G] (k : Nat) (tauG1 : List G) : List G :=
  (List.range (2 ^ k - 1)).map fun j => tauG1.getD (bitRev k j + 2 ^ k) 0 - tauG1.getD (bitRev k j) 0

/-- The phase 2 file for circuit `r` over the domain of size `2^k`. -/
def initFile (C : Curve F G1 G2 GT) (r : R1CS F) (k : Nat) (f : P1File G1 G2) (pub priv : Nat) (pkk : List G1) :
    P2File G1 G2 where
  wires := r.wires
  witness := pkk.length
  pub := pub
  privateCommitted := priv
  constraints := r.constraints.length
  domain := 2 ^ k
  delta1 := C.g1
  delta2 := C.g2
  z := zSection k f.tauG1
  pkk := pkk
  records := []

/-- The evaluation file for circuit `r`, from the sections of the phase 1 file. -/
def initEvals (r : R1CS F) (n : Nat) (ω : F) (f : P1File G1 G2) (vkk ckk : List G1) (commitment : Bytes) : Evals G1 G2 where
  alpha1 := f.alphaG1.getD 0 0
  beta1 := f.betaG1.getD 0 0
  beta2 := f.betaG2
  a := (List.range r.wires).map (wireSum r R1C.l (lagSection n ω f.tauG1))
  b1 := (List.range r.wires).map (wireSum r R1C.r (lagSection n ω f.tauG1))
  b2 := (List.range r.wires).map (wireSum r R1C.r (lagSection n ω f.tauG2))
  vkk := vkk
  ckk := ckk
  commitment := commitment

end
end ZkSetup
