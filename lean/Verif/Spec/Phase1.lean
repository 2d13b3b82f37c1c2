import Verif.Model.Phase1
/-
The phase 1 file format, and what a contribution and a ceremony should do to it. Stated on structured
files, without readers, writers, batches or goroutines.
-/
namespace ZkSetup

open Phase1

/-- The contents of a phase 1 file. -/
structure P1File (G1 G2 : Type) where
  power : UInt8
  tauG1 : List G1
  alphaG1 : List G1
  betaG1 : List G1
  tauG2 : List G2
  betaG2 : G2
  records : List (Contribution G1 G2)

section
variable {F G1 G2 GT : Type} [Field F] [AddCommGroup G1] [Module F G1] [AddCommGroup G2]
  [Module F G2] [AddCommGroup GT] [Module F GT]

/-- A well-formed file: section lengths `2N-1, N, N, N` for `N = 2^power`, at most 65535 records, 32-byte
hashes. Nothing is said about the values: the points are arbitrary. -/
structure P1File.WF (f : P1File G1 G2) : Prop where
  power : f.power.toNat ≤ 62
  tauG1 : f.tauG1.length = 2 * 2 ^ f.power.toNat - 1
  alphaG1 : f.alphaG1.length = 2 ^ f.power.toNat
  betaG1 : f.betaG1.length = 2 ^ f.power.toNat
  tauG2 : f.tauG2.length = 2 ^ f.power.toNat
  count : f.records.length < 65536
  hash : ∀ r ∈ f.records, r.hash.length = 32

/-- bytes of a public key: `S`, `SX` in G1, `SPX` in G2 -/
def keyBytes (C : Curve F G1 G2 GT) (k : PublicKey G1 G2) : Bytes :=
  C.c1.bytes k.s ++ C.c1.bytes k.sx ++ C.c2.bytes k.spx

/-- the bytes of a record that are hashed: the updated points, then the three public keys -/
def recordBody (C : Curve F G1 G2 GT) (r : Contribution G1 G2) : Bytes :=
  [r.g1Tau, r.g1Alpha, r.g1Beta].flatMap C.c1.bytes ++ [r.g2Tau, r.g2Beta].flatMap C.c2.bytes
    ++ [r.pkTau, r.pkAlpha, r.pkBeta].flatMap (keyBytes C)

/-- bytes of a record: the body and its hash -/
def recordBytes (C : Curve F G1 G2 GT) (r : Contribution G1 G2) : Bytes := recordBody C r ++ r.hash

/-- the parameter sections -/
def P1File.params (C : Curve F G1 G2 GT) (f : P1File G1 G2) : Bytes :=
  f.tauG1.flatMap C.c1.bytes ++ f.alphaG1.flatMap C.c1.bytes ++ f.betaG1.flatMap C.c1.bytes
    ++ f.tauG2.flatMap C.c2.bytes ++ C.c2.bytes f.betaG2

/-- The file: power, big-endian number of records, parameters, records. -/
def P1File.encode (C : Curve F G1 G2 GT) (f : P1File G1 G2) : Bytes :=
  [f.power, UInt8.ofNat (f.records.length / 256), UInt8.ofNat (f.records.length % 256)]
    ++ f.params C ++ f.records.flatMap (recordBytes C)

/-- The freshly initialised file of power `p`. -/
def P1File.init (C : Curve F G1 G2 GT) (p : UInt8) : P1File G1 G2 where
  power := p
  tauG1 := List.replicate (2 * 2 ^ p.toNat - 1) C.g1
  alphaG1 := List.replicate (2 ^ p.toNat) C.g1
  betaG1 := List.replicate (2 ^ p.toNat) C.g1
  tauG2 := List.replicate (2 ^ p.toNat) C.g2
  betaG2 := C.g2
  records := []

/-- the challenge for the next contribution: the last hash, or nothing -/
def lastHash (rs : List (Contribution G1 G2)) : Bytes :=
  match rs.getLast? with
  | none => []
  | some r => r.hash

/-- Proof of knowledge of `x` with blinding `s` for a challenge: `S = [s]1`, `SX = [x s]1`,
`SPX = x · H(S ‖ SX ‖ challenge, dst)`. -/
def proofOf (C : Curve F G1 G2 GT) (x s : F) (challenge : Bytes) (dst : UInt8) : PublicKey G1 G2 where
  s := s • C.g1
  sx := (x * s) • C.g1
  spx := x • C.hashG2 (C.c1.rawBytes (s • C.g1) ++ C.c1.rawBytes ((x * s) • C.g1) ++ challenge) dst

/-- The record for new points `t1, a1, b1, t2, b2` and the drawn values. -/
def newRecord (C : Curve F G1 G2 GT) (rnd : Rand F) (challenge : Bytes) (t1 a1 b1 : G1) (t2 b2 : G2) :
    Contribution G1 G2 :=
  let r : Contribution G1 G2 :=
    { g1Tau := t1, g1Alpha := a1, g1Beta := b1, g2Tau := t2, g2Beta := b2
      pkTau := proofOf C rnd.tau rnd.sTau challenge 1
      pkAlpha := proofOf C rnd.alpha rnd.sAlpha challenge 2
      pkBeta := proofOf C rnd.beta rnd.sBeta challenge 3
      hash := [] }
  { r with hash := C.sha (recordBody C r) }

/-- multiply element `i` by `m · τ^i` -/
def scaled {G : Type} [AddCommGroup G] [Module F G] (m τ : F) (ps : List G) : List G :=
  ps.mapIdx fun i p => (m * τ ^ i) • p

/-- the parameters after a contribution, with the new record appended -/
def P1File.update (f : P1File G1 G2) (rnd : Rand F) (r : Contribution G1 G2) : P1File G1 G2 where
  power := f.power
  tauG1 := scaled 1 rnd.tau f.tauG1
  alphaG1 := scaled rnd.alpha rnd.tau f.alphaG1
  betaG1 := scaled rnd.beta rnd.tau f.betaG1
  tauG2 := scaled 1 rnd.tau f.tauG2
  betaG2 := rnd.beta • f.betaG2
  records := f.records ++ [r]

/-- What a contribution should do: scale the parameters and append the record of the new `[τ]1`, `[α]1`, `[β]1`,
`[τ]2`, `[β]2`. -/
def P1File.contribute (C : Curve F G1 G2 GT) (f : P1File G1 G2) (rnd : Rand F) : P1File G1 G2 :=
  f.update rnd (newRecord C rnd (lastHash f.records)
    ((scaled 1 rnd.tau f.tauG1).getD 1 0) ((scaled rnd.alpha rnd.tau f.alphaG1).getD 0 0)
    ((scaled rnd.beta rnd.tau f.betaG1).getD 0 0) ((scaled 1 rnd.tau f.tauG2).getD 1 0)
    (rnd.beta • f.betaG2))

/-- a ceremony: contributions one after the other -/
def P1File.ceremony (C : Curve F G1 G2 GT) (f : P1File G1 G2) (rnds : List (Rand F)) : P1File G1 G2 :=
  rnds.foldl (fun f rnd => f.contribute C rnd) f

/-- The parameters are the powers of `τ, α, β`. -/
structure P1File.Powers (C : Curve F G1 G2 GT) (f : P1File G1 G2) (τ α β : F) : Prop where
  tauG1 : f.tauG1 = (List.range (2 * 2 ^ f.power.toNat - 1)).map fun i => τ ^ i • C.g1
  alphaG1 : f.alphaG1 = (List.range (2 ^ f.power.toNat)).map fun i => (α * τ ^ i) • C.g1
  betaG1 : f.betaG1 = (List.range (2 ^ f.power.toNat)).map fun i => (β * τ ^ i) • C.g1
  tauG2 : f.tauG2 = (List.range (2 ^ f.power.toNat)).map fun i => τ ^ i • C.g2
  betaG2 : f.betaG2 = β • C.g2

end
end ZkSetup
