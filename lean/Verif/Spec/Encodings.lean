import Verif.Spec.Phase2
/-
The bytes of a file when each point may be written compressed or uncompressed. A decoder of gnark-crypto accepts both: the first byte
says which it is.
-/
namespace ZkSetup

/-- what follows the header of a file: points and hashes -/
inductive Item (G1 G2 : Type) where
  | g1 (p : G1)
  | g2 (p : G2)
  | hash (h : Bytes)

section
variable {F G1 G2 GT : Type}

/-- `e` is one of the two encodings of `p` -/
def Codec.Writes {G : Type} (c : Codec G) (p : G) (e : Bytes) : Prop := e = c.bytes p ∨ e = c.rawBytes p

/-- `bs`, standing at position `pos` of a file, begins with the items: each point in one of its two encodings, each hash as it is and
at a position which `fits`. -/
def Encodes (C : Curve F G1 G2 GT) (fits : Nat → Prop) : Nat → List (Item G1 G2) → Bytes → Prop
  | _, [], _ => True
  | pos, .g1 p :: ts, bs => ∃ e t, bs = e ++ t ∧ C.c1.Writes p e ∧ Encodes C fits (pos + e.length) ts t
  | pos, .g2 p :: ts, bs => ∃ e t, bs = e ++ t ∧ C.c2.Writes p e ∧ Encodes C fits (pos + e.length) ts t
  | pos, .hash h :: ts, bs => ∃ t, bs = h ++ t ∧ h.length = 32 ∧ fits pos ∧ Encodes C fits (pos + 32) ts t

/-- a public key -/
def keyItems (k : PublicKey G1 G2) : List (Item G1 G2) := [.g1 k.s, .g1 k.sx, .g2 k.spx]

/-- a phase 1 record -/
def recordItems (r : Phase1.Contribution G1 G2) : List (Item G1 G2) :=
  [.g1 r.g1Tau, .g1 r.g1Alpha, .g1 r.g1Beta, .g2 r.g2Tau, .g2 r.g2Beta]
    ++ keyItems r.pkTau ++ keyItems r.pkAlpha ++ keyItems r.pkBeta ++ [.hash r.hash]

/-- a phase 2 record -/
def record2Items (r : Phase2.Contribution G1 G2) : List (Item G1 G2) :=
  [.g1 r.delta] ++ keyItems r.pk ++ [.hash r.hash]

/-- the contents of a phase 1 file after the header -/
def P1File.items (f : P1File G1 G2) : List (Item G1 G2) :=
  f.tauG1.map .g1 ++ f.alphaG1.map .g1 ++ f.betaG1.map .g1 ++ f.tauG2.map .g2 ++ [.g2 f.betaG2] ++ f.records.flatMap recordItems

/-- the parameters of a phase 2 file -/
def P2File.paramItems (f : P2File G1 G2) : List (Item G1 G2) :=
  [.g1 f.delta1, .g2 f.delta2] ++ f.z.map .g1 ++ f.pkk.map .g1

/-- the contents of a phase 2 file after the header -/
def P2File.items (f : P2File G1 G2) : List (Item G1 G2) := f.paramItems ++ f.records.flatMap record2Items

/-- `bs` begins with the phase 1 file `f`, each point compressed or not. -/
def P1File.Written (C : Curve F G1 G2 GT) (f : P1File G1 G2) (bs : Bytes) : Prop :=
  ∃ body, bs = [f.power, UInt8.ofNat (f.records.length / 256), UInt8.ofNat (f.records.length % 256)] ++ body ∧
    Encodes C (fun _ => True) 3 f.items body

/-- `bs` begins with the phase 2 file `f`, each point compressed or not, and no hash across a boundary of the 4096-byte buffer. -/
def P2File.Written (C : Curve F G1 G2 GT) (H : Phase2.HeaderCodec) (f : P2File G1 G2) (bs : Bytes) : Prop :=
  ∃ body, bs = H.enc f.header ++ body ∧
    Encodes C (fun pos => pos % 4096 + 32 ≤ 4096) (H.enc f.header).length f.items body

/-- `bs` begins with the header and the parameters of `f`, each point compressed or not. -/
def P2File.ParamsWritten (C : Curve F G1 G2 GT) (H : Phase2.HeaderCodec) (f : P2File G1 G2) (bs : Bytes) : Prop :=
  ∃ body, bs = H.enc f.header ++ body ∧ Encodes C (fun _ => True) (H.enc f.header).length f.paramItems body

end
end ZkSetup
