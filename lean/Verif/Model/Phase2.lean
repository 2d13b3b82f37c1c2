import Verif.Model.Phase1
/-
Model of `/repo/phase2`: header, contribution records, `Contribute`, `Verify`. (`Initialize` is in `Phase2Init.lean`.)
-/
namespace ZkSetup.Phase2

open ZkSetup Phase1

/-! ### header.go -/

/-- `Header`, `/repo/phase2/header.go:8-16`; the fields are Go `int`s. -/
structure Header where
  wires : Int
  witness : Int
  pub : Int
  privateCommitted : Int
  constraints : Int
  domain : Int
  contributions : Int
  deriving DecidableEq, Repr

/-- the gob encoding of headers -/
structure HeaderCodec where
  /-- `gob.NewEncoder(writer).Encode(*h)` -/
  enc : Header → Bytes
  /-- `gob.NewDecoder(reader).Decode(h)` -/
  dec : Go Rd Header

/-- `(*Header).Read`, `/repo/phase2/header.go:18-24`. The readers passed to it are `bufio.Reader`s, from which gob reads
exactly the bytes of the messages. -/
def Header.read (H : HeaderCodec) : Go Rd Header := H.dec

/-- `(*Header).write`, `/repo/phase2/header.go:26-32` -/
def Header.write (H : HeaderCodec) (h : Header) : Bytes := H.enc h

/-- `(*Header).Equal`, `/repo/phase2/header.go:34-44` -/
def Header.equal (h h2 : Header) : Bool :=
  decide (h.wires = h2.wires ∧ h.witness = h2.witness ∧ h.pub = h2.pub ∧
    h.privateCommitted = h2.privateCommitted ∧ h.constraints = h2.constraints ∧ h.domain = h2.domain)

section
variable {F G1 G2 GT : Type} [Field F] [AddCommGroup G1] [Module F G1] [AddCommGroup G2]
  [Module F G2] [AddCommGroup GT] [Module F GT] [DecidableEq G1] [DecidableEq G2] [DecidableEq GT]

/-! ### contribution.go -/

/-- `Contribution`, `/repo/phase2/contribution.go:11-15` -/
structure Contribution (G1 G2 : Type) where
  delta : G1
  pk : PublicKey G1 G2
  hash : Bytes
  deriving DecidableEq

/-- `var c Contribution` -/
def Contribution.zero : Contribution G1 G2 := ⟨0, ⟨0, 0, 0⟩, []⟩

/-- `(*Contribution).writeTo`, `/repo/phase2/contribution.go:17-33` -/
def Contribution.writeTo (C : Curve F G1 G2 GT) (c : Contribution G1 G2) : Bytes :=
  C.c1.bytes c.delta ++ C.c1.bytes c.pk.s ++ C.c1.bytes c.pk.sx ++ C.c2.bytes c.pk.spx ++ c.hash

/-- `c.Hash = make([]byte, 32); reader.Read(c.Hash)`, `/repo/phase2/contribution.go:49-50`: one `Read` call; the bytes it does
not deliver stay zero, and a short read is not an error. -/
def readHash : Go Rd Bytes := do
  let b ← Rd.read 32
  pure (b ++ List.replicate (32 - b.length) 0)

/-- `(*Contribution).readFrom`, `/repo/phase2/contribution.go:35-52`. All callers stop at an error, so the partially
assigned record after an error is not modelled. -/
def Contribution.readFrom (C : Curve F G1 G2 GT) : Go Rd (Contribution G1 G2) := do
  let delta ← C.c1.decode
  let s ← C.c1.decode
  let sx ← C.c1.decode
  let spx ← C.c2.decode
  let hash ← readHash
  pure ⟨delta, ⟨s, sx, spx⟩, hash⟩

/-- `computeHash`, `/repo/phase2/contribution.go:54-69` -/
def computeHash (C : Curve F G1 G2 GT) (c : Contribution G1 G2) : Bytes :=
  C.sha (C.c1.bytes c.delta ++ C.c1.bytes c.pk.s ++ C.c1.bytes c.pk.sx ++ C.c2.bytes c.pk.spx)

/-! ### utils.go: contribution and verification -/

/-- The loop of `scale`, `/repo/phase2/utils.go:421-447`. Of the batch buffer only the part just read is used. -/
def scaleLoop (C : Curve F G1 G2 GT) (par : Par) (b : Nat) (delta : F) (remaining : Nat) : Go IOSt Unit :=
  if _h : 0 < remaining ∧ 0 < b then do
    let readCount := min remaining b
    -- Read batch
    let buff ← IOSt.onRd (C.c1.decodeN readCount)
    -- Process the batch
    let buff := par.mapIdx readCount (fun _ p => delta • p) buff
    -- Write batch
    IOSt.emit (C.c1.encodeN buff)
    scaleLoop C par b delta (remaining - readCount)
  else pure ()
termination_by remaining
decreasing_by omega

/-- `scale`, `/repo/phase2/utils.go:415-450`; batch size `b` (code: 1048576). -/
def scale (C : Curve F G1 G2 GT) (par : Par) (b : Nat) (N : Int) (delta : F) : Go IOSt Unit := do
  let _ ← Go.lift (makeLen (min N b))
  scaleLoop C par b delta N.toNat

/-- `verifyContribution`, `/repo/phase2/utils.go:452-472` -/
def verifyContribution (C : Curve F G1 G2 GT) (c : Contribution G1 G2) (prevDelta : G1) (prevHash : Bytes) :
    Except Fail Unit := do
  let deltaSP := C.genSP c.pk.s c.pk.sx prevHash 1
  check (C.sameRatio c.pk.s c.pk.sx c.pk.spx deltaSP) "couldn't verify knowledge of Delta"
  check (C.sameRatio c.delta prevDelta deltaSP c.pk.spx)
    "couldn't verify that [δ]₁ is based on previous contribution"
  check (decide (c.hash = computeHash C c)) "contribution hash is invalid"

/-- an action on the reader of the submitted file -/
def onInput {α : Type} (x : Go Rd α) : Go (Rd × Rd) α := ⟨fun s =>
  match x.run s.1 with
  | (r, rd) => (r, (rd, s.2))⟩

/-- an action on the reader of the origin file -/
def onOrigin {α : Type} (x : Go Rd α) : Go (Rd × Rd) α := ⟨fun s =>
  match x.run s.2 with
  | (r, rd) => (r, (s.1, rd))⟩

/-- `tmp.MultiExp(points, scalars, ecc.MultiExpConfig{})` with the error returned -/
def msm {σ : Type} (points : List G1) (scalars : List F) : Go σ G1 :=
  match multiExp .strict points scalars with
  | some p => pure p
  | none => Go.fail (.err "invalid input length")

/-- The loop of `aggregate`, `/repo/phase2/utils.go:494-533`; `rnd t i` is the value drawn for `r[i]` in batch `t`. -/
def aggregateLoop (C : Curve F G1 G2 GT) (par : Par) (b : Nat) (rnd : Nat → Nat → F) (remaining t : Nat)
    (r : List F) (inG orG : G1) : Go (Rd × Rd) (G1 × G1) :=
  if _h : 0 < remaining ∧ 0 < b then do
    -- generate randomness
    let r := par.mapIdx r.length (fun i _ => rnd t i) r
    -- Read from input
    let readCount := min remaining b
    let buff ← onInput (C.c1.decodeN readCount)
    -- Aggregate input
    let tmp ← msm buff (r.take readCount)
    -- Read from origin
    let buff' ← onOrigin (C.c1.decodeN readCount)
    -- Aggregate origin
    let tmp' ← msm buff' (r.take readCount)
    aggregateLoop C par b rnd (remaining - readCount) (t + 1) r (inG + tmp) (orG + tmp')
  else pure (inG, orG)
termination_by remaining
decreasing_by omega

/-- `aggregate`, `/repo/phase2/utils.go:486-536` -/
def aggregate (C : Curve F G1 G2 GT) (par : Par) (b : Nat) (rnd : Nat → Nat → F) (size : Int) :
    Go (Rd × Rd) (G1 × G1) := do
  let _ ← Go.lift (makeLen (min size b))
  let n ← Go.lift (makeLen size)
  aggregateLoop C par b rnd size.toNat 0 (List.replicate n 0) 0 0

/-- `verifyParameter`, `/repo/phase2/utils.go:474-484`: `if in, or, err := aggregate(…); err != nil { return nil }`. -/
def verifyParameter (C : Curve F G1 G2 GT) (par : Par) (b : Nat) (rnd : Nat → Nat → F) (delta g : G2) (size : Int)
    (field : String) : Go (Rd × Rd) Unit := ⟨fun s =>
  match (aggregate C par b rnd size).run s with
  | (.ok (i, o), s') => (check (C.sameRatio i o delta g) ("inconsistent update to " ++ field), s')
  | (.error (.err _), s') => (.ok (), s')
  | (.error (.panic m), s') => (.error (.panic m), s')⟩

/-! ### phase2.go -/

/-- The values drawn by `SetRandom` in one run of `Contribute`: `δ` and the blinding scalar of the public key. -/
structure Rand (F : Type) where
  delta : F
  s : F

/-- The loop copying old contributions, `/repo/phase2/phase2.go:128-136`; returns the last record read. -/
def copyContributions (C : Curve F G1 G2 GT) : Nat → Contribution G1 G2 → Go IOSt (Contribution G1 G2)
  | 0, c => pure c
  | n + 1, _ => do
    let c ← IOSt.onRd (Contribution.readFrom C)
    IOSt.emit (c.writeTo C)
    copyContributions C n c

/-- the hash of the previous contribution, `/repo/phase2/phase2.go:143-149` -/
def previousHash (nExistingContributions : Int) (c : Contribution G1 G2) : Bytes :=
  if nExistingContributions = 0 then [] else c.hash

/-- the new record, `/repo/phase2/phase2.go:151-154` -/
def newContribution (C : Curve F G1 G2 GT) (rnd : Rand F) (delta1 : G1) (prevHash : Bytes) : Contribution G1 G2 :=
  let contribution : Contribution G1 G2 :=
    { delta := delta1, pk := C.genPublicKey rnd.delta rnd.s prevHash 1, hash := [] }
  { contribution with hash := computeHash C contribution }

/-- read a point, multiply it by `x`, write it: `/repo/phase2/phase2.go:102-109` for `δ₁`, `111-119` for `δ₂` -/
def scalePoint {G : Type} [AddCommGroup G] [Module F G] (c : Codec G) (x : F) : Go IOSt G := do
  let p ← IOSt.onRd c.decode
  IOSt.emit (c.bytes (x • p))
  pure (x • p)

/-- `Contribute` after the header has been read and its counter incremented, `/repo/phase2/phase2.go:85-162`. Returns the
contribution hash it prints. -/
def contributeWith (C : Curve F G1 G2 GT) (H : HeaderCodec) (par : Par) (b : Nat) (rnd : Rand F) (header : Header) :
    Go IOSt Bytes := do
  IOSt.emit (header.write H)
  -- Process δ₁ and δ₂
  let delta1 ← scalePoint C.c1 rnd.delta
  let _delta2 ← scalePoint C.c2 rnd.delta
  -- Process Z and PKK using δ⁻¹
  scale C par b (wrap64 (header.domain - 1)) rnd.delta⁻¹
  scale C par b header.witness rnd.delta⁻¹
  -- Copy old contributions
  let c ← copyContributions C (wrap64 (header.contributions - 1)).toNat Contribution.zero
  -- Write the contribution
  IOSt.emit ((newContribution C rnd delta1 (previousHash (wrap64 (header.contributions - 1)) c)).writeTo C)
  pure (newContribution C rnd delta1 (previousHash (wrap64 (header.contributions - 1)) c)).hash

/-- `header.Contributions++`, `/repo/phase2/phase2.go:84` -/
def Header.increment (h : Header) : Header := { h with contributions := wrap64 (h.contributions + 1) }

/-- `Contribute` on the reader and writer, `/repo/phase2/phase2.go:78-162` -/
def contributeBody (C : Curve F G1 G2 GT) (H : HeaderCodec) (par : Par) (b : Nat) (rnd : Rand F) : Go IOSt Bytes := do
  let header ← IOSt.onRd (Header.read H)
  contributeWith C H par b rnd header.increment

/-- `Contribute`, `/repo/phase2/phase2.go:58-163`: everything is read through one `bufio.Reader` of 4096 bytes. Result (printed
hash) and contents of the output file. -/
def contribute (C : Curve F G1 G2 GT) (H : HeaderCodec) (par : Par) (b : Nat) (rnd : Rand F) (input : Bytes) :
    Except Fail Bytes × Bytes :=
  let res := (contributeBody C H par b rnd).run ⟨Rd.buffered 4096 input, []⟩
  (res.1, res.2.out)

/-- The values drawn by the verifier for Z and PKK: batch number and index. -/
structure VerifyRand (F : Type) where
  z : Nat → Nat → F
  pkk : Nat → Nat → F

/-- The loop over the contributions, `/repo/phase2/phase2.go:238-250`; returns the final `c`. -/
def verifyLoop (C : Curve F G1 G2 GT) : Nat → Contribution G1 G2 → G1 → Bytes → Go Rd (Contribution G1 G2)
  | 0, c, _, _ => pure c
  | n + 1, _, prevDelta, prevHash => do
    let c ← Contribution.readFrom C
    Go.lift (verifyContribution C c prevDelta prevHash)
    verifyLoop C n c c.delta c.hash

/-- `Verify` on the two readers, `/repo/phase2/phase2.go:185-258` -/
def verifyBody (C : Curve F G1 G2 GT) (H : HeaderCodec) (par : Par) (b : Nat) (vr : VerifyRand F) :
    Go (Rd × Rd) Unit := do
  let curHeader ← onInput (Header.read H)
  let orgHeader ← onOrigin (Header.read H)
  Go.lift (check (decide (curHeader.contributions ≠ 0)) "there are no contributions to verify")
  Go.lift (check (curHeader.equal orgHeader)
    "there is a mismatch between origin and curren headers for phase 2")
  -- Read [δ]₁ and [δ]₂
  let g1 ← onOrigin C.c1.decode
  let g2 ← onOrigin C.c2.decode
  let d1 ← onInput C.c1.decode
  let d2 ← onInput C.c2.decode
  -- Check δ₁ and δ₂ are consistent
  Go.lift (check (C.sameRatio g1 d1 d2 g2) "deltaG1 and deltaG2 aren't consistent")
  -- Check Z and PKK are updated correctly from origin to the latest state
  verifyParameter C par b vr.z d2 g2 (wrap64 (curHeader.domain - 1)) "Z"
  verifyParameter C par b vr.pkk d2 g2 curHeader.witness "PKK"
  -- Verify contributions
  let c ← onInput (verifyLoop C curHeader.contributions.toNat Contribution.zero g1 [])
  -- Verify last contribution has the same delta in parameters
  Go.lift (check (decide (c.delta = d1))
    "delta of last contribution delta isn't the same as in parameters")

/-- `Verify`, `/repo/phase2/phase2.go:165-259`: both files are read through `bufio.Reader`s of 4096 bytes. -/
def verify (C : Curve F G1 G2 GT) (H : HeaderCodec) (par : Par) (b : Nat) (vr : VerifyRand F)
    (input origin : Bytes) : Except Fail Unit :=
  ((verifyBody C H par b vr).run (Rd.buffered 4096 input, Rd.buffered 4096 origin)).1

end
end ZkSetup.Phase2
