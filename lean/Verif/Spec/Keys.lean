import Verif.Model.Keys
import Verif.Spec.Init
/-
The Groth16 keys: what they consist of, their file formats, and the prover and verifier that use them.
-/
namespace ZkSetup

open Phase2

/-- A Groth16 proving key, as gnark stores it: the `A` and `B` points without the identities, and maps of where those were. -/
structure ProvingKey (G1 G2 : Type) where
  domain : Nat
  alpha1 : G1
  beta1 : G1
  delta1 : G1
  a : List G1
  b1 : List G1
  z : List G1
  k : List G1
  beta2 : G2
  delta2 : G2
  b2 : List G2
  wires : Nat
  infinityA : List Bool
  infinityB : List Bool

/-- A Groth16 verifying key. -/
structure VerifyKey (G1 G2 : Type) where
  alpha1 : G1
  beta1 : G1
  beta2 : G2
  gamma2 : G2
  delta1 : G1
  delta2 : G2
  k : List G1

/-- a map of positions as bytes -/
def mapBytes (bs : List Bool) : Bytes := bs.map fun b => cond b 1 0

/-- a list of points in a key: the number of points in four bytes, then the points -/
def sliceOf {G : Type} (bytes : G → Bytes) (ps : List G) : Bytes := beBytes 4 ps.length ++ ps.flatMap bytes

section
variable {F G1 G2 GT : Type} [Field F] [AddCommGroup G1] [Module F G1] [AddCommGroup G2]
  [Module F G2] [AddCommGroup GT] [Module F GT]

/-- The layout of gnark's `groth16.ProvingKey`, compressed; `domain` are the bytes of the FFT domain. -/
def ProvingKey.encode (C : Curve F G1 G2 GT) (domain : Bytes) (k : ProvingKey G1 G2) : Bytes :=
  domain ++ C.c1.bytes k.alpha1 ++ C.c1.bytes k.beta1 ++ C.c1.bytes k.delta1
    ++ sliceOf C.c1.bytes k.a ++ sliceOf C.c1.bytes k.b1 ++ sliceOf C.c1.bytes k.z ++ sliceOf C.c1.bytes k.k
    ++ C.c2.bytes k.beta2 ++ C.c2.bytes k.delta2 ++ sliceOf C.c2.bytes k.b2
    ++ beBytes 8 k.wires ++ beBytes 8 (k.infinityA.count true) ++ beBytes 8 (k.infinityB.count true)
    ++ mapBytes k.infinityA ++ mapBytes k.infinityB

/-- The layout of the split key, uncompressed. -/
def ProvingKey.encodeSplit (C : Curve F G1 G2 GT) (k : ProvingKey G1 G2) : Keys.SplitPK where
  e := beBytes 8 k.domain ++ C.c1.rawBytes k.alpha1 ++ C.c1.rawBytes k.beta1 ++ C.c1.rawBytes k.delta1
    ++ C.c2.rawBytes k.beta2 ++ C.c2.rawBytes k.delta2
    ++ beBytes 8 k.wires ++ beBytes 8 (k.infinityA.count true) ++ beBytes 8 (k.infinityB.count true)
    ++ mapBytes k.infinityA ++ mapBytes k.infinityB
  a := sliceOf C.c1.rawBytes k.a
  b1 := sliceOf C.c1.rawBytes k.b1
  z := sliceOf C.c1.rawBytes k.z
  k := sliceOf C.c1.rawBytes k.k
  b2 := sliceOf C.c2.rawBytes k.b2

/-- The layout of the verifying key: the commitment key, the points uncompressed, the commitment info. -/
def VerifyKey.encode (C : Curve F G1 G2 GT) (commitmentKey info : Bytes) (k : VerifyKey G1 G2) : Bytes :=
  commitmentKey ++ C.c1.rawBytes k.alpha1 ++ C.c1.rawBytes k.beta1 ++ C.c2.rawBytes k.beta2 ++ C.c2.rawBytes k.gamma2
    ++ C.c1.rawBytes k.delta1 ++ C.c2.rawBytes k.delta2 ++ sliceOf C.c1.rawBytes k.k ++ info

variable [DecidableEq G1] [DecidableEq G2]

/-- The proving key that a phase 2 file and an evaluation file determine. -/
def provingKeyOf (f : P2File G1 G2) (v : Evals G1 G2) : ProvingKey G1 G2 where
  domain := f.domain
  alpha1 := v.alpha1
  beta1 := v.beta1
  delta1 := f.delta1
  a := v.a.filter (· ≠ 0)
  b1 := v.b1.filter (· ≠ 0)
  z := f.z
  k := f.pkk
  beta2 := v.beta2
  delta2 := f.delta2
  b2 := v.b2.filter (· ≠ 0)
  wires := f.wires
  infinityA := v.a.map (· = 0)
  infinityB := v.b1.map (· = 0)

/-- The verifying key that a phase 2 file and an evaluation file determine; `γ = 1`. -/
def verifyKeyOf (C : Curve F G1 G2 GT) (f : P2File G1 G2) (v : Evals G1 G2) : VerifyKey G1 G2 where
  alpha1 := v.alpha1
  beta1 := v.beta1
  beta2 := v.beta2
  gamma2 := C.g2
  delta1 := f.delta1
  delta2 := f.delta2
  k := v.vkk

/-- put the identities back -/
def rebuild {G : Type} [Zero G] : List Bool → List G → List G
  | [], _ => []
  | true :: m, ps => 0 :: rebuild m ps
  | false :: m, p :: ps => p :: rebuild m ps
  | false :: m, [] => 0 :: rebuild m []

/-! ### Groth16 -/

/-- the value of a linear expression under an assignment -/
def lcValue (coefficients : List F) (w : Nat → F) (ts : List Term) : F :=
  (ts.map fun t => coeffValue coefficients t.coeff * w t.wire).sum

/-- The assignment `w` of values to wires satisfies every constraint `l · r = o`. -/
def Phase2.R1CS.Satisfies (r : R1CS F) (w : Nat → F) : Prop :=
  ∀ c ∈ r.constraints, lcValue r.coefficients w c.l * lcValue r.coefficients w c.r = lcValue r.coefficients w c.o

open Polynomial in
/-- `Σ_w w·p_w` over all wires -/
noncomputable def qapSum (r : R1CS F) (n : Nat) (ω : F) (side : R1C → List Term) (w : Nat → F) : F[X] :=
  ∑ i ∈ Finset.range r.wires, C (w i) * qap r n ω side i

/-- multi-exponentiation -/
def msmOf {G : Type} [AddCommGroup G] [Module F G] (ps : List G) (xs : List F) : G := (List.zipWith (fun x p => x • p) xs ps).sum

/-- the values of the wires that are not marked -/
def unmarked (m : List Bool) (xs : List F) : List F := ((m.zip xs).filter fun p => !p.1).map (·.2)

/-- A Groth16 proof. -/
structure Proof (G1 G2 : Type) where
  ar : G1
  bs : G2
  krs : G1

/-- The Groth16 prover (as in gnark): `xs` the values of all wires, `h` the quotient's coefficients in the order of `Z`, `s` and `t`
the prover's randomness, `pub` the number of public wires. -/
def prove (k : ProvingKey G1 G2) (pub : Nat) (xs h : List F) (s t : F) : Proof G1 G2 :=
  let ar := msmOf k.a (unmarked k.infinityA xs) + k.alpha1 + s • k.delta1
  let bs1 := msmOf k.b1 (unmarked k.infinityB xs) + k.beta1 + t • k.delta1
  { ar := ar
    bs := msmOf k.b2 (unmarked k.infinityB xs) + k.beta2 + t • k.delta2
    krs := msmOf k.k (xs.drop pub) + msmOf k.z h - (s * t) • k.delta1 + t • ar + s • bs1 }

/-- The Groth16 verification equation for the public values `xs`. -/
def Verifies (C : Curve F G1 G2 GT) (k : VerifyKey G1 G2) (xs : List F) (p : Proof G1 G2) : Prop :=
  C.e p.ar p.bs = C.e k.alpha1 k.beta2 + C.e (msmOf k.k xs) k.gamma2 + C.e p.krs k.delta2

end
end ZkSetup

namespace ZkSetup

open Phase2

section
variable {F G1 G2 GT : Type} [Field F] [AddCommGroup G1] [Module F G1] [AddCommGroup G2]
  [Module F G2] [AddCommGroup GT] [Module F GT]

/-- the polynomial `β·l_w + α·r_w + o_w` of wire `w` at `τ` -/
noncomputable def wireValue (r : R1CS F) (n : Nat) (ω τ α β : F) (w : Nat) : F :=
  β * (qap r n ω R1C.l w).eval τ + α * (qap r n ω R1C.r w).eval τ + (qap r n ω R1C.o w).eval τ

open Classical in
/-- **The** Groth16 proving key of circuit `r` over the domain of size `n = 2^k` for the trapdoor `τ, α, β, δ` (and `γ = 1`): the
`A` and `B` points of the wires whose polynomial does not vanish at `τ`, and a map of the others. -/
noncomputable def trapdoorPK (C : Curve F G1 G2 GT) (r : R1CS F) (k : Nat) (ω τ α β δ : F) : ProvingKey G1 G2 where
  domain := 2 ^ k
  alpha1 := α • C.g1
  beta1 := β • C.g1
  delta1 := δ • C.g1
  a := ((List.range r.wires).filter fun w => (qap r (2 ^ k) ω R1C.l w).eval τ ≠ 0).map fun w =>
    (qap r (2 ^ k) ω R1C.l w).eval τ • C.g1
  b1 := ((List.range r.wires).filter fun w => (qap r (2 ^ k) ω R1C.r w).eval τ ≠ 0).map fun w =>
    (qap r (2 ^ k) ω R1C.r w).eval τ • C.g1
  z := (List.range (2 ^ k - 1)).map fun j => (τ ^ bitRev k j * (τ ^ 2 ^ k - 1) / δ) • C.g1
  k := (List.range (r.wires - r.shared)).map fun j => (wireValue r (2 ^ k) ω τ α β (r.shared + j) / δ) • C.g1
  beta2 := β • C.g2
  delta2 := δ • C.g2
  b2 := ((List.range r.wires).filter fun w => (qap r (2 ^ k) ω R1C.r w).eval τ ≠ 0).map fun w =>
    (qap r (2 ^ k) ω R1C.r w).eval τ • C.g2
  wires := r.wires
  infinityA := (List.range r.wires).map fun w => (qap r (2 ^ k) ω R1C.l w).eval τ = 0
  infinityB := (List.range r.wires).map fun w => (qap r (2 ^ k) ω R1C.r w).eval τ = 0

/-- **The** Groth16 verifying key of circuit `r` for the trapdoor `τ, α, β, δ` and `γ = 1`: one point per
wire whose value the verifier knows (the public ones, and the commitment wire). -/
noncomputable def trapdoorVK (C : Curve F G1 G2 GT) (r : R1CS F) (k : Nat) (ω τ α β δ : F) : VerifyKey G1 G2 where
  alpha1 := α • C.g1
  beta1 := β • C.g1
  beta2 := β • C.g2
  gamma2 := C.g2
  delta1 := δ • C.g1
  delta2 := δ • C.g2
  k := (List.range r.shared).map fun w => wireValue r (2 ^ k) ω τ α β w • C.g1

end
end ZkSetup

namespace ZkSetup

open Phase2

section
variable {F : Type} [Field F]

open Polynomial in
/-- `A·B - C` of an assignment -/
noncomputable def qapProduct (r : R1CS F) (n : Nat) (ω : F) (w : Nat → F) : F[X] :=
  qapSum r n ω R1C.l w * qapSum r n ω R1C.r w - qapSum r n ω R1C.o w

open Polynomial in
/-- the quotient of `A·B - C` by `X^n - 1` -/
noncomputable def quotient (r : R1CS F) (n : Nat) (ω : F) (w : Nat → F) : F[X] := qapProduct r n ω w /ₘ (X ^ n - 1)

open Polynomial in
/-- the remainder of `A·B - C` by `X^n - 1` -/
noncomputable def remainder (r : R1CS F) (n : Nat) (ω : F) (w : Nat → F) : F[X] := qapProduct r n ω w %ₘ (X ^ n - 1)

/-- the coefficients of the quotient that the prover uses, in the order of `Z` -/
noncomputable def quotientCoeffs (r : R1CS F) (k : Nat) (ω : F) (w : Nat → F) : List F :=
  (List.range (2 ^ k - 1)).map fun j => (quotient r (2 ^ k) ω w).coeff (bitRev k j)

end
end ZkSetup
