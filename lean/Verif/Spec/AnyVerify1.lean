import Verif.Spec.Phase1Verify
/-
Which bytes a phase 1 verification accepts, whatever the bytes are.
-/
namespace ZkSetup

open Phase1

section
variable {F G1 G2 GT : Type} [Field F] [AddCommGroup G1] [Module F G1] [AddCommGroup G2]
  [Module F G2] [AddCommGroup GT] [Module F GT]

/-- a point of a record, as a place to take it from and to put it -/
inductive Slot (G1 G2 : Type)
  | g1 (get : Contribution G1 G2 → G1) (put : G1 → Contribution G1 G2 → Contribution G1 G2)
  | g2 (get : Contribution G1 G2 → G2) (put : G2 → Contribution G1 G2 → Contribution G1 G2)

/-- the points of a record in the order in which they are stored -/
def slots : List (Slot G1 G2) :=
  [.g1 (·.g1Tau) fun p c => { c with g1Tau := p }, .g1 (·.g1Alpha) fun p c => { c with g1Alpha := p },
   .g1 (·.g1Beta) fun p c => { c with g1Beta := p }, .g2 (·.g2Tau) fun p c => { c with g2Tau := p },
   .g2 (·.g2Beta) fun p c => { c with g2Beta := p }, .g1 (·.pkTau.s) fun p c => { c with pkTau := { c.pkTau with s := p } },
   .g1 (·.pkTau.sx) fun p c => { c with pkTau := { c.pkTau with sx := p } },
   .g2 (·.pkTau.spx) fun p c => { c with pkTau := { c.pkTau with spx := p } },
   .g1 (·.pkAlpha.s) fun p c => { c with pkAlpha := { c.pkAlpha with s := p } },
   .g1 (·.pkAlpha.sx) fun p c => { c with pkAlpha := { c.pkAlpha with sx := p } },
   .g2 (·.pkAlpha.spx) fun p c => { c with pkAlpha := { c.pkAlpha with spx := p } },
   .g1 (·.pkBeta.s) fun p c => { c with pkBeta := { c.pkBeta with s := p } },
   .g1 (·.pkBeta.sx) fun p c => { c with pkBeta := { c.pkBeta with sx := p } },
   .g2 (·.pkBeta.spx) fun p c => { c with pkBeta := { c.pkBeta with spx := p } }]

/-- The bytes `rest` begin with a complete encoding, compressed or not, and the failing attempt to decode it leaves something else in the
place of `p`. -/
def Spoils {G : Type} (c : Codec G) (rest : Bytes) (p : G) : Prop :=
  ∃ b more, rest = b ++ more ∧ b.length = (if c.compressed (b.headD 0) then c.size else 2 * c.size) ∧ c.spoils b p = true

/-- how reading the points of a record ends: all were read; one could not be read and is as it was before; one could not be read and is now
no point of the group -/
inductive Ending
  | all
  | kept
  | spoilt
deriving DecidableEq

/-- Points are read at the reader `r` into the record `c` until all are read or one cannot be read; the record and the reader are then
`c'` and `r'`. -/
inductive Filled (C : Curve F G1 G2 GT) :
    List (Slot G1 G2) → Contribution G1 G2 → Rd → Contribution G1 G2 → Rd → Ending → Prop
  | done (c : Contribution G1 G2) (r : Rd) : Filled C [] c r c r .all
  | g1 {get : Contribution G1 G2 → G1} {put : G1 → Contribution G1 G2 → Contribution G1 G2} {fs : List (Slot G1 G2)}
      {c c' : Contribution G1 G2} {r r1 r' : Rd} {e : Ending} (p : G1) :
      C.c1.decode.run r = (.ok p, r1) → Filled C fs (put p c) r1 c' r' e → Filled C (.g1 get put :: fs) c r c' r' e
  | g2 {get : Contribution G1 G2 → G2} {put : G2 → Contribution G1 G2 → Contribution G1 G2} {fs : List (Slot G1 G2)}
      {c c' : Contribution G1 G2} {r r1 r' : Rd} {e : Ending} (p : G2) :
      C.c2.decode.run r = (.ok p, r1) → Filled C fs (put p c) r1 c' r' e → Filled C (.g2 get put :: fs) c r c' r' e
  | kept1 {get : Contribution G1 G2 → G1} {put : G1 → Contribution G1 G2 → Contribution G1 G2} {fs : List (Slot G1 G2)}
      {c : Contribution G1 G2} {r r' : Rd} (e : Fail) :
      C.c1.decode.run r = (.error e, r') → ¬ Spoils C.c1 r.rest (get c) → Filled C (.g1 get put :: fs) c r c r' .kept
  | kept2 {get : Contribution G1 G2 → G2} {put : G2 → Contribution G1 G2 → Contribution G1 G2} {fs : List (Slot G1 G2)}
      {c : Contribution G1 G2} {r r' : Rd} (e : Fail) :
      C.c2.decode.run r = (.error e, r') → ¬ Spoils C.c2 r.rest (get c) → Filled C (.g2 get put :: fs) c r c r' .kept
  | spoilt1 {get : Contribution G1 G2 → G1} {put : G1 → Contribution G1 G2 → Contribution G1 G2} {fs : List (Slot G1 G2)}
      {c : Contribution G1 G2} {r r' : Rd} (e : Fail) :
      C.c1.decode.run r = (.error e, r') → Spoils C.c1 r.rest (get c) → Filled C (.g1 get put :: fs) c r c r' .spoilt
  | spoilt2 {get : Contribution G1 G2 → G2} {put : G2 → Contribution G1 G2 → Contribution G1 G2} {fs : List (Slot G1 G2)}
      {c : Contribution G1 G2} {r r' : Rd} (e : Fail) :
      C.c2.decode.run r = (.error e, r') → Spoils C.c2 r.rest (get c) → Filled C (.g2 get put :: fs) c r c r' .spoilt

/-- The record at the reader `r`, read over the record `old`. If a point cannot be read, everything after it stays as it is in `old`, also
the hash; the point itself too, unless it is spoilt (last argument `true`; what it is then is left open). The hash is what the read buffer
holds of its 32 bytes, filled up with zeros. -/
inductive RecordOver (C : Curve F G1 G2 GT) (old : Contribution G1 G2) (r : Rd) : Contribution G1 G2 → Rd → Bool → Prop
  | stale (c : Contribution G1 G2) (r' : Rd) : Filled C slots old r c r' .kept → RecordOver C old r c r' false
  | spoilt (c : Contribution G1 G2) (r' : Rd) : Filled C slots old r c r' .spoilt → RecordOver C old r c r' true
  | noHash (c : Contribution G1 G2) (r' : Rd) : Filled C slots old r c r' .all → r'.rest = [] →
      RecordOver C old r { c with hash := List.replicate 32 0 } r' false
  | full (c : Contribution G1 G2) (r' : Rd) (n : Nat) : Filled C slots old r c r' .all → r'.rest ≠ [] →
      n = min 32 (if r'.cap = 0 then 32 else r'.cap - r'.pos % r'.cap) →
      RecordOver C old r { c with hash := r'.rest.take n ++ List.replicate (32 - min n r'.rest.length) 0 }
        ⟨r'.cap, r'.pos + n, r'.rest.drop n⟩ false

/-- the `n` records at the reader, each read over the one before it, and which of them are spoilt -/
def RecordsOver (C : Curve F G1 G2 GT) : Nat → Contribution G1 G2 → Rd → List (Contribution G1 G2) → List Bool → Prop
  | 0, _, _, rs, bs => rs = [] ∧ bs = []
  | n + 1, old, r, rs, bs => ∃ c r' b cs ds, RecordOver C old r c r' b ∧ RecordsOver C n c r' cs ds ∧ rs = c :: cs ∧ bs = b :: ds

/-- The bytes hold the sections of `f` and say that there are `n` contributions; the reader `rd` stands behind the sections. -/
def HoldsSections (C : Curve F G1 G2 GT) (input : Bytes) (f : P1File G1 G2) (n : Nat) (rd : Rd) : Prop :=
  ∃ x y rest r1 r2 r3 r4, input = f.power :: x :: y :: rest ∧ n = 256 * x.toNat + y.toNat ∧ f.power.toNat ≤ 62 ∧
    (C.c1.decodeN (2 * 2 ^ f.power.toNat - 1)).run (Rd.buffered (2 ^ 20) rest) = (.ok f.tauG1, r1) ∧
    (C.c1.decodeN (2 ^ f.power.toNat)).run r1 = (.ok f.alphaG1, r2) ∧
    (C.c1.decodeN (2 ^ f.power.toNat)).run r2 = (.ok f.betaG1, r3) ∧
    (C.c2.decodeN (2 ^ f.power.toNat)).run r3 = (.ok f.tauG2, r4) ∧ C.c2.decode.run r4 = (.ok f.betaG2, rd)

/-- What `phase1.Verify` reads in any bytes: the sections, and as many records as the header says; `bs` says which of them are spoilt. -/
def ReadsFile (C : Curve F G1 G2 GT) (input : Bytes) (f : P1File G1 G2) (bs : List Bool) : Prop :=
  ∃ n rd, HoldsSections C input f n rd ∧ RecordsOver C n Contribution.zero rd f.records bs

/-- The bytes hold the file `f`: it is read in them, and none of the records is spoilt. -/
def HoldsFile (C : Curve F G1 G2 GT) (input : Bytes) (f : P1File G1 G2) : Prop :=
  ReadsFile C input f (List.replicate f.records.length false)

end
end ZkSetup
