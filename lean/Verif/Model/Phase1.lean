import Verif.Model.Common
/-
Model of `/repo/phase1`.
-/
namespace ZkSetup.Phase1

open ZkSetup

/-! ### header.go -/

/-- `Header`, `/repo/phase1/header.go:8-11` -/
structure Header where
  power : UInt8
  contributions : UInt16
  deriving DecidableEq, Repr

/-- `(*Header).ReadFrom`, `/repo/phase1/header.go:13-28`. `reader.Read` may return fewer bytes than asked
for; the rest of the freshly made buffer is zero. -/
def Header.readFrom : Go Rd Header := do
  let b ← Rd.read 1
  let c ← Rd.read 2
  pure { power := b.headD 0, contributions := getUint16 (c ++ List.replicate (2 - c.length) 0) }

/-- `(*Header).writeTo`, `/repo/phase1/header.go:30-44` -/
def Header.writeTo (h : Header) : Bytes := [h.power] ++ putUint16 h.contributions

/-- `int(math.Pow(2, float64(power)))` on a 64-bit platform, e.g. `/repo/phase1/phase1.go:96`.
From 2^63 on the float does not fit an int64; on amd64 the conversion yields MinInt64. -/
def goPow2 (power : UInt8) : Int := if power.toNat ≤ 62 then 2 ^ power.toNat else -(2 ^ 63)

/-- two's-complement wrap-around of 64-bit `int` arithmetic -/
def wrap64 (x : Int) : Int := (x + 2 ^ 63) % 2 ^ 64 - 2 ^ 63

section
variable {F G1 G2 GT : Type} [Field F] [AddCommGroup G1] [Module F G1] [AddCommGroup G2]
  [Module F G2] [AddCommGroup GT] [Module F GT] [DecidableEq G1] [DecidableEq G2] [DecidableEq GT]

/-! ### contribution.go -/

/-- `Contribution`, `/repo/phase1/contribution.go:15-26` -/
structure Contribution (G1 G2 : Type) where
  g1Tau : G1
  g1Alpha : G1
  g1Beta : G1
  g2Tau : G2
  g2Beta : G2
  pkTau : PublicKey G1 G2
  pkAlpha : PublicKey G1 G2
  pkBeta : PublicKey G1 G2
  hash : Bytes
  deriving DecidableEq

/-- the zero value `var c Contribution`: all points are the identity, `Hash` is nil -/
def Contribution.zero : Contribution G1 G2 :=
  { g1Tau := 0, g1Alpha := 0, g1Beta := 0, g2Tau := 0, g2Beta := 0,
    pkTau := ⟨0, 0, 0⟩, pkAlpha := ⟨0, 0, 0⟩, pkBeta := ⟨0, 0, 0⟩, hash := [] }

/-- `(*Contribution).writeTo`, `/repo/phase1/contribution.go:28-54` -/
def Contribution.writeTo (C : Curve F G1 G2 GT) (c : Contribution G1 G2) : Bytes :=
  C.c1.bytes c.g1Tau ++ C.c1.bytes c.g1Alpha ++ C.c1.bytes c.g1Beta
    ++ C.c2.bytes c.g2Tau ++ C.c2.bytes c.g2Beta
    ++ C.c1.bytes c.pkTau.s ++ C.c1.bytes c.pkTau.sx ++ C.c2.bytes c.pkTau.spx
    ++ C.c1.bytes c.pkAlpha.s ++ C.c1.bytes c.pkAlpha.sx ++ C.c2.bytes c.pkAlpha.spx
    ++ C.c1.bytes c.pkBeta.s ++ C.c1.bytes c.pkBeta.sx ++ C.c2.bytes c.pkBeta.spx
    ++ c.hash

/-- the error of a decode that failed and changed the point it was to assign -/
def spoiled : Fail := .err "invalid point"

/-- Decode one point of the record in place: `dec.Decode(v)`, `/repo/phase1/contribution.go:75-79`. At the end of the file and for
coordinates out of range the point is as it was. A failure that changes the point (`Codec.spoils`) is marked by its error; what then
stands in the record is no group element and is not represented (see `verifyLoop`). -/
def readPoint {G κ : Type} (c : Codec G) (get : κ → G) (upd : G → κ → κ) : Go (κ × Rd) Unit :=
  ⟨fun s => match c.decode.run s.2 with
    | (.ok a, r) => (.ok (), (upd a s.1, r))
    | (.error e, r) => (.error (if c.decodeSpoils s.2.rest (get s.1) then spoiled else e), (s.1, r))⟩

/-- Read one field of the record in place; a failed read leaves it as it was. -/
def readField {α κ : Type} (dec : Go Rd α) (upd : α → κ → κ) : Go (κ × Rd) Unit :=
  ⟨fun s => match dec.run s.2 with
    | (.ok a, r) => (.ok (), (upd a s.1, r))
    | (.error e, r) => (.error e, (s.1, r))⟩

/-- The hash: `c.Hash = make([]byte, 32); reader.Read(c.Hash)`, `/repo/phase1/contribution.go:80-82`:
one `Read` call, bytes it does not deliver stay zero, and a short read is not an error. -/
def readHash : Go Rd Bytes := do
  let b ← Rd.read 32
  pure (b ++ List.replicate (32 - b.length) 0)

/-- `(*Contribution).ReadFrom`, `/repo/phase1/contribution.go:56-83`, acting on the record in place. -/
def Contribution.readFrom (C : Curve F G1 G2 GT) : Go (Contribution G1 G2 × Rd) Unit := do
  readPoint C.c1 (·.g1Tau) fun p c => { c with g1Tau := p }
  readPoint C.c1 (·.g1Alpha) fun p c => { c with g1Alpha := p }
  readPoint C.c1 (·.g1Beta) fun p c => { c with g1Beta := p }
  readPoint C.c2 (·.g2Tau) fun p c => { c with g2Tau := p }
  readPoint C.c2 (·.g2Beta) fun p c => { c with g2Beta := p }
  readPoint C.c1 (·.pkTau.s) fun p c => { c with pkTau := { c.pkTau with s := p } }
  readPoint C.c1 (·.pkTau.sx) fun p c => { c with pkTau := { c.pkTau with sx := p } }
  readPoint C.c2 (·.pkTau.spx) fun p c => { c with pkTau := { c.pkTau with spx := p } }
  readPoint C.c1 (·.pkAlpha.s) fun p c => { c with pkAlpha := { c.pkAlpha with s := p } }
  readPoint C.c1 (·.pkAlpha.sx) fun p c => { c with pkAlpha := { c.pkAlpha with sx := p } }
  readPoint C.c2 (·.pkAlpha.spx) fun p c => { c with pkAlpha := { c.pkAlpha with spx := p } }
  readPoint C.c1 (·.pkBeta.s) fun p c => { c with pkBeta := { c.pkBeta with s := p } }
  readPoint C.c1 (·.pkBeta.sx) fun p c => { c with pkBeta := { c.pkBeta with sx := p } }
  readPoint C.c2 (·.pkBeta.spx) fun p c => { c with pkBeta := { c.pkBeta with spx := p } }
  -- c.Hash = make([]byte, 32)
  ⟨fun s => (.ok (), ({ s.1 with hash := List.replicate 32 0 }, s.2))⟩
  readField readHash fun h c => { c with hash := h }

/-- `computeHash`, `/repo/phase1/contribution.go:85-110` -/
def computeHash (C : Curve F G1 G2 GT) (c : Contribution G1 G2) : Bytes :=
  C.sha (C.c1.bytes c.g1Tau ++ C.c1.bytes c.g1Alpha ++ C.c1.bytes c.g1Beta
    ++ C.c2.bytes c.g2Tau ++ C.c2.bytes c.g2Beta
    ++ C.c1.bytes c.pkTau.s ++ C.c1.bytes c.pkTau.sx ++ C.c2.bytes c.pkTau.spx
    ++ C.c1.bytes c.pkAlpha.s ++ C.c1.bytes c.pkAlpha.sx ++ C.c2.bytes c.pkAlpha.spx
    ++ C.c1.bytes c.pkBeta.s ++ C.c1.bytes c.pkBeta.sx ++ C.c2.bytes c.pkBeta.spx)

/-- `inputFile.Seek(pos, io.SeekStart)` followed by a decode from the bare file; a negative position is an
error. -/
def seekDecode {G : Type} (c : Codec G) (file : Bytes) (pos : Int) : Except Fail G :=
  if pos < 0 then .error (.err "seek: invalid argument")
  else (c.decode.run (Rd.file file pos.toNat)).1

/-- `defaultContribution`, `/repo/phase1/contribution.go:112-191`; `none` is the empty path. Positions are unbounded integers
(simplification: in `int64` they overflow from power 56 on, where a position becomes negative and the seek fails, after `posAlphaG1` at the
latest because no file is that long; here the read fails for the same reason, see `C85_positions` and `C85_long`). -/
def defaultContribution (C : Curve F G1 G2 GT) (transformed : Option Bytes) :
    Except Fail (Contribution G1 G2) :=
  match transformed with
  | none => .ok { Contribution.zero with
      g1Tau := C.g1, g1Alpha := C.g1, g1Beta := C.g1, g2Tau := C.g2, g2Beta := C.g2 }
  | some file => do
    let header ← (Header.readFrom.run (Rd.file file 0)).1
    let N := goPow2 header.power
    let posTauG1 : Int := 3 + 32
    let posAlphaG1 := posTauG1 + (2 * N - 2) * 32
    let posBetaG1 := posAlphaG1 + N * 32
    let posTauG2 := posBetaG1 + N * 32 + 64
    let posBetaG2 := posTauG2 + (N - 1) * 64
    let tau1 ← seekDecode C.c1 file posTauG1
    let alpha1 ← seekDecode C.c1 file posAlphaG1
    let beta1 ← seekDecode C.c1 file posBetaG1
    let tau2 ← seekDecode C.c2 file posTauG2
    let beta2 ← seekDecode C.c2 file posBetaG2
    .ok { Contribution.zero with
      g1Tau := tau1, g1Alpha := alpha1, g1Beta := beta1, g2Tau := tau2, g2Beta := beta2 }

/-! ### utils.go -/

/-- `const batchSize = 1048576`, `/repo/phase1/utils.go:18`. The model takes the batch size as a
parameter `b`; the commands use this value. -/
def batchSize : Nat := 1048576

/-- `powers`, `/repo/phase1/utils.go:21-28`: `result[0] = a`, `result[i] = result[i-1] * b`. -/
def powers (a b : F) : Nat → List F
  | 0 => []
  | n + 1 => a :: powers (a * b) b n

/-- `batchMul`, `/repo/phase1/utils.go:31-37` -/
def batchMul (par : Par) (a : List F) (b : F) : List F := par.mapIdx a.length (fun _ x => x * b) a

section scale
variable {G : Type} [AddCommGroup G] [Module F G] [DecidableEq G]

/-- `if multiplicand != nil { batchMul(scalars, multiplicand) }`, `/repo/phase1/utils.go:64-67` -/
def applyMultiplicand (par : Par) (multiplicand : Option F) (scalars : List F) : List F :=
  match multiplicand with
  | none => scalars
  | some m => batchMul par scalars m

/-- `if firstPoint.X.IsZero() { firstPoint.Set(&buff[..]) }`, `/repo/phase1/utils.go:85-94`, `143-148`; `cand`
is the indexed element, `none` an index out of range. -/
def keepFirst (firstPoint : G) (cand : Option G) : Go IOSt G :=
  if firstPoint = 0 then
    match cand with
    | some p => pure p
    | none => Go.fail (.panic "index out of range")
  else pure firstPoint

/-- The loop of `scaleG1` / `scaleG2`, `/repo/phase1/utils.go:49-98` and `112-152`. `buff` is the batch
buffer with its stale contents, `first` picks `buff[1]` or `buff[0]` (index out of range panics).
`firstPoint.X.IsZero()` is modelled as "`firstPoint` is the identity": BN254's G1 and G2 have no other
point with X = 0 (such points have order 3). -/
def scaleLoop (c : Codec G) (par : Par) (b : Nat) (tau : F) (multiplicand : Option F)
    (first : List G → Option G) (remaining : Nat) (buff : List G) (startPower : F) (firstPoint : G) :
    Go IOSt G :=
  if _h : 0 < remaining ∧ 0 < b then do
    let readCount := min remaining b
    -- Read batch
    let pts ← IOSt.onRd (c.decodeN readCount)
    let buff := pts ++ buff.drop readCount
    -- Compute powers for the current batch
    let scalars := powers startPower tau readCount
    -- Update startPower for next batch
    let startPower' := scalars.getLastD 0 * tau
    -- If there is α or β, then mul it with powers of τ
    let scalars := applyMultiplicand par multiplicand scalars
    -- Process the batch
    let buff := par.mapIdx readCount (fun i p => scalars.getD i 0 • p) buff
    -- Write the batch
    IOSt.emit (c.encodeN (buff.take readCount))
    -- Should be initialized in first batch only
    let firstPoint ← keepFirst firstPoint (first buff)
    scaleLoop c par b tau multiplicand first (remaining - readCount) buff startPower' firstPoint
  else pure firstPoint
termination_by remaining
decreasing_by omega

end scale

/-- `make([]T, n)` panics for a negative length. -/
def makeLen (n : Int) : Except Fail Nat :=
  if n < 0 then .error (.panic "makeslice: len out of range") else .ok n.toNat

/-- `scaleG1`, `/repo/phase1/utils.go:39-100` -/
def scaleG1 (C : Curve F G1 G2 GT) (par : Par) (b : Nat) (N : Int) (tau : F)
    (multiplicand : Option F) : Go IOSt G1 := do
  let initialSize ← Go.lift (makeLen (min N b))
  scaleLoop C.c1 par b tau multiplicand
    (fun buff => match multiplicand with
      | none => buff[1]?
      | some _ => buff[0]?)
    N.toNat (List.replicate initialSize 0) 1 0

/-- `scaleG2`, `/repo/phase1/utils.go:102-154` -/
def scaleG2 (C : Curve F G1 G2 GT) (par : Par) (b : Nat) (N : Int) (tau : F) : Go IOSt G2 := do
  let initialSize ← Go.lift (makeLen (min N b))
  scaleLoop C.c2 par b tau none (fun buff => buff[1]?) N.toNat (List.replicate initialSize 0) 1 0

/-- What `MultiExp` does when the number of points and of scalars differ. gnark-crypto documents an error
(`strict`); the receiver is then left unassigned. `truncate` (use the common prefix) is kept as the
charitable alternative. -/
inductive MsmPolicy where
  | strict
  | truncate
  deriving DecidableEq

/-- `MultiExp(points, scalars, ecc.MultiExpConfig{})`; `none` is the returned error. -/
def multiExp {G : Type} [AddCommGroup G] [Module F G] (pol : MsmPolicy) (points : List G)
    (scalars : List F) : Option G :=
  if points.length ≠ scalars.length ∧ pol = .strict then none
  else some (List.zipWith (fun r p => r • p) scalars points).sum

/-- `randomize`, `/repo/phase1/utils.go:156-162`: `rnd i` is the value drawn for `r[i]`. -/
def randomize (par : Par) (rnd : Nat → F) (r : List F) : List F :=
  par.mapIdx r.length (fun i _ => rnd i) r

/-- The loop of `linearCombinationG1` / `linearCombinationG2`, `/repo/phase1/utils.go:171-192`, `203-224`.
`rnd t i` is the value drawn for `r[i]` in batch `t`. The errors of `MultiExp` are ignored, as in the code. -/
def linCombLoop {G : Type} [AddCommGroup G] [Module F G] (c : Codec G) (par : Par) (pol : MsmPolicy)
    (b : Nat) (rnd : Nat → Nat → F) (remaining t : Nat) (buff : List G) (r : List F)
    (L1 L2 tmpL1 tmpL2 : G) : Go Rd (G × G) :=
  if _h : 0 < remaining ∧ 0 < b then do
    let readCount := min remaining b
    let pts ← c.decodeN readCount
    let buff := pts ++ buff.drop readCount
    let r := randomize par (rnd t) r
    let tmpL1 := (multiExp pol (buff.take (readCount - 1)) r).getD tmpL1
    let tmpL2 := (multiExp pol ((buff.take readCount).drop 1) r).getD tmpL2
    linCombLoop c par pol b rnd (remaining - readCount) (t + 1) buff r
      (L1 + tmpL1) (L2 + tmpL2) tmpL1 tmpL2
  else pure (L1, L2)
termination_by remaining
decreasing_by omega

/-- `linearCombinationG1`, `linearCombinationG2`, `/repo/phase1/utils.go:164-226` (identical up to the type) -/
def linearCombination {G : Type} [AddCommGroup G] [Module F G] (c : Codec G) (par : Par)
    (pol : MsmPolicy) (b : Nat) (rnd : Nat → Nat → F) (N : Int) : Go Rd (G × G) := do
  let initialSize ← Go.lift (makeLen (min N b))
  linCombLoop c par pol b rnd N.toNat 0 (List.replicate initialSize 0) (List.replicate initialSize 0)
    0 0 0 0

/-- `if !cond { return errors.New(msg) }` -/
def check (cond : Bool) (msg : String) : Except Fail Unit :=
  if cond then .ok () else .error (.err msg)

/-- `verifyContribution`, `/repo/phase1/utils.go:228-269` -/
def verifyContribution (C : Curve F G1 G2 GT) (current prev : Contribution G1 G2) :
    Except Fail Unit := do
  let tauSP := C.genSP current.pkTau.s current.pkTau.sx prev.hash 1
  let alphaSP := C.genSP current.pkAlpha.s current.pkAlpha.sx prev.hash 2
  let betaSP := C.genSP current.pkBeta.s current.pkBeta.sx prev.hash 3
  check (C.sameRatio current.pkTau.s current.pkTau.sx current.pkTau.spx tauSP)
    "couldn't verify knowledge of Tau"
  check (C.sameRatio current.pkAlpha.s current.pkAlpha.sx current.pkAlpha.spx alphaSP)
    "couldn't verify knowledge of Alpha"
  check (C.sameRatio current.pkBeta.s current.pkBeta.sx current.pkBeta.spx betaSP)
    "couldn't verify knowledge of Beta"
  check (C.sameRatio current.g1Tau prev.g1Tau tauSP current.pkTau.spx)
    "couldn't verify that TauG1 is based on previous contribution"
  check (C.sameRatio current.g1Alpha prev.g1Alpha alphaSP current.pkAlpha.spx)
    "couldn't verify that AlphaTauG1 is based on previous contribution"
  check (C.sameRatio current.g1Beta prev.g1Beta betaSP current.pkBeta.spx)
    "couldn't verify that BetaTauG1 is based on previous contribution"
  check (C.sameRatio current.pkTau.s current.pkTau.sx current.g2Tau prev.g2Tau)
    "couldn't verify that TauG2 is based on previous contribution"
  check (C.sameRatio current.pkBeta.s current.pkBeta.sx current.g2Beta prev.g2Beta)
    "couldn't verify that BetaG2 is based on previous contribution"
  check (decide (current.hash = computeHash C current))
    "couldn't verify hash of contribution"

/-- `transformG1` / `transformG2`, `/repo/phase1/utils.go:271-315`: seek, decode `size` points and write them
compressed. Returns what was appended to the output file. -/
def transformPoints {G : Type} (c : Codec G) (input : Bytes) (position : Int) (size : Nat) :
    Except Fail Bytes × Bytes :=
  if position < 0 then (.error (.err "seek: invalid argument"), [])
  else loop size (Rd.buffered 4096 (input.drop position.toNat)) []
where
  loop : Nat → Rd → Bytes → Except Fail Bytes × Bytes
    | 0, _, out => (.ok out, out)
    | n + 1, rd, out =>
      match c.decode.run rd with
      | (.ok p, rd') => loop n rd' (out ++ c.bytes p)
      | (.error e, _) => (.error e, out)

/-! ### phase1.go -/

/-- `Transform`, `/repo/phase1/phase1.go:17-83`: result and contents of the output file. -/
def transform (C : Curve F G1 G2 GT) (inPower outPower : UInt8) (input : Bytes) :
    Except Fail Unit × Bytes :=
  let header := Header.writeTo { power := outPower, contributions := 0 }
  let inN := goPow2 inPower
  let outN := goPow2 outPower
  let posTauG1 : Int := 64
  let posTauG2 := wrap64 (posTauG1 + wrap64 (2 * inN - 1) * 64)
  let posAlphaG1 := wrap64 (posTauG2 + inN * 128)
  let posBetaG1 := wrap64 (posAlphaG1 + inN * 64)
  let posBetaG2 := wrap64 (posBetaG1 + inN * 64)
  match transformPoints C.c1 input posTauG1 (wrap64 (2 * outN - 1)).toNat with
  | (.error e, o1) => (.error e, header ++ o1)
  | (.ok _, o1) =>
  match transformPoints C.c1 input posAlphaG1 outN.toNat with
  | (.error e, o2) => (.error e, header ++ o1 ++ o2)
  | (.ok _, o2) =>
  match transformPoints C.c1 input posBetaG1 outN.toNat with
  | (.error e, o3) => (.error e, header ++ o1 ++ o2 ++ o3)
  | (.ok _, o3) =>
  match transformPoints C.c2 input posTauG2 outN.toNat with
  | (.error e, o4) => (.error e, header ++ o1 ++ o2 ++ o3 ++ o4)
  | (.ok _, o4) =>
  match transformPoints C.c2 input posBetaG2 1 with
  | (.error e, o5) => (.error e, header ++ o1 ++ o2 ++ o3 ++ o4 ++ o5)
  | (.ok _, o5) => (.ok (), header ++ o1 ++ o2 ++ o3 ++ o4 ++ o5)

/-- `Initialize`, `/repo/phase1/phase1.go:85-149`: contents of the output file. (Write errors are not modelled.)
The loop `for i := 0; i < n; i++` runs `n.toNat` times. -/
def initializeFile (C : Curve F G1 G2 GT) (power : UInt8) : Bytes :=
  let N := goPow2 power
  Header.writeTo { power := power, contributions := 0 }
    ++ C.c1.encodeN (List.replicate (wrap64 (2 * N - 1)).toNat C.g1)
    ++ C.c1.encodeN (List.replicate N.toNat C.g1)
    ++ C.c1.encodeN (List.replicate N.toNat C.g1)
    ++ C.c2.encodeN (List.replicate N.toNat C.g2)
    ++ C.c2.bytes C.g2

/-- The values drawn by `SetRandom` in one run of `Contribute`: the secrets and the blinding scalars of
the three public keys. -/
structure Rand (F : Type) where
  tau : F
  alpha : F
  beta : F
  sTau : F
  sAlpha : F
  sBeta : F

/-- The loop copying old contributions, `/repo/phase1/phase1.go:242-250`; returns the last record read. -/
def copyContributions (C : Curve F G1 G2 GT) : Nat → Contribution G1 G2 → Go IOSt (Contribution G1 G2)
  | 0, c => pure c
  | n + 1, c => do
    let c' ← ⟨fun s => match (Contribution.readFrom C).run (c, s.rd) with
      | (.ok (), (c', rd)) => (.ok c', { s with rd := rd })
      | (.error e, (_, rd)) => (.error e, { s with rd := rd })⟩
    IOSt.emit (c'.writeTo C)
    copyContributions C n c'

/-- Body of `Contribute` after the header has been read, `/repo/phase1/phase1.go:172-272`. Returns the
contribution hash it prints. -/
def contributeBody (C : Curve F G1 G2 GT) (par : Par) (b : Nat) (rnd : Rand F) (header : Header) :
    Go IOSt Bytes := do
  let N := goPow2 header.power
  let header := { header with contributions := header.contributions + 1 }
  IOSt.emit header.writeTo
  let tau1 ← scaleG1 C par b (wrap64 (2 * N - 1)) rnd.tau none
  let alpha1 ← scaleG1 C par b N rnd.tau (some rnd.alpha)
  let beta1 ← scaleG1 C par b N rnd.tau (some rnd.beta)
  let tau2 ← scaleG2 C par b N rnd.tau
  let betaG2 ← IOSt.onRd C.c2.decode
  let betaG2 := rnd.beta • betaG2
  IOSt.emit (C.c2.bytes betaG2)
  -- Copy old contributions
  let nExistingContributions := (header.contributions - 1).toNat
  let c ← copyContributions C nExistingContributions Contribution.zero
  -- Get hash of previous contribution
  let prevHash := if nExistingContributions = 0 then [] else c.hash
  -- Generate public keys
  let contribution : Contribution G1 G2 :=
    { g1Tau := tau1, g1Alpha := alpha1, g1Beta := beta1, g2Tau := tau2, g2Beta := betaG2,
      pkTau := C.genPublicKey rnd.tau rnd.sTau prevHash 1,
      pkAlpha := C.genPublicKey rnd.alpha rnd.sAlpha prevHash 2,
      pkBeta := C.genPublicKey rnd.beta rnd.sBeta prevHash 3,
      hash := [] }
  let contribution := { contribution with hash := computeHash C contribution }
  IOSt.emit (contribution.writeTo C)
  pure contribution.hash

/-- `Contribute`, `/repo/phase1/phase1.go:151-273`: the header is read from the bare file, the rest through a
`bufio.Reader` of 4096 bytes. Result (printed hash) and contents of the output file. -/
def contribute (C : Curve F G1 G2 GT) (par : Par) (b : Nat) (rnd : Rand F) (input : Bytes) :
    Except Fail Bytes × Bytes :=
  match Header.readFrom.run (Rd.file input 0) with
  | (.error e, _) => (.error e, [])
  | (.ok header, rd) =>
    let res := (contributeBody C par b rnd header).run ⟨Rd.buffered 4096 rd.rest, []⟩
    (res.1, res.2.out)

/-- The values drawn by the verifier: for each of the four sections, batch number and index. -/
structure VerifyRand (F : Type) where
  tau1 : Nat → Nat → F
  alpha1 : Nat → Nat → F
  beta1 : Nat → Nat → F
  tau2 : Nat → Nat → F

/-- Did `ReadFrom` leave a point behind that is no group element? -/
def isSpoiled : Except Fail Unit → Bool
  | .ok _ => false
  | .error e => decide (e = spoiled)

/-- The loop over the contributions, `/repo/phase1/phase1.go:332-339`: the error of `ReadFrom` is ignored. Returns
the final `current`. A record in which a failed decode has left something that is no group element is refused here by the check of the
hash: `current.Hash` is the hash of the record before, or nil, and the encoding has changed (simplifications: a collision of
SHA-256, and an earlier check may refuse it with its own message). -/
def verifyLoop (C : Curve F G1 G2 GT) : Nat → Contribution G1 G2 → Contribution G1 G2 → Rd →
    Except Fail (Contribution G1 G2)
  | 0, current, _, _ => .ok current
  | n + 1, current, prev, rd => do
    let read := (Contribution.readFrom C).run (current, rd)
    verifyContribution C read.2.1 prev
    check (!isSpoiled read.1) "couldn't verify hash of contribution"
    verifyLoop C n read.2.1 read.2.1 read.2.2

/-- The first half of `Verify`, `/repo/phase1/phase1.go:296-324`: the random combinations of the four sections
and `[β]₂`. -/
def readSections (C : Curve F G1 G2 GT) (par : Par) (pol : MsmPolicy) (b : Nat) (vr : VerifyRand F)
    (N : Int) : Go Rd ((G1 × G1) × (G1 × G1) × (G1 × G1) × (G2 × G2) × G2) := do
  let tau1 ← linearCombination C.c1 par pol b vr.tau1 (wrap64 (2 * N - 1))
  let alpha1 ← linearCombination C.c1 par pol b vr.alpha1 N
  let beta1 ← linearCombination C.c1 par pol b vr.beta1 N
  let tau2 ← linearCombination C.c2 par pol b vr.tau2 N
  let betaG2 ← C.c2.decode
  pure (tau1, alpha1, beta1, tau2, betaG2)

/-- The second half of `Verify`, `/repo/phase1/phase1.go:326-374`: the contributions, then the consistency
checks. -/
def verifyRest (C : Curve F G1 G2 GT) (transformed : Option Bytes) (count : Nat) (rd : Rd)
    (tau1 alpha1 beta1 : G1 × G1) (tau2 : G2 × G2) (betaG2 : G2) : Except Fail Unit := do
  let prev ← defaultContribution C transformed
  let current ← verifyLoop C count Contribution.zero prev rd
  check (C.sameRatio tau1.1 tau1.2 current.g2Tau C.g2) "failed pairing check"
  check (C.sameRatio alpha1.1 alpha1.2 current.g2Tau C.g2) "failed pairing check"
  check (C.sameRatio beta1.1 beta1.2 current.g2Tau C.g2) "failed pairing check"
  check (C.sameRatio C.g1 current.g1Tau tau2.1 tau2.2) "failed pairing check"
  check (decide (betaG2 = current.g2Beta)) "failed verifying update of Beta"

/-- `Verify`, `/repo/phase1/phase1.go:275-375`: the header is read from the bare file, the rest through a
`bufio.Reader` of 2^20 bytes. `transformed` is the content of the transformed file if a path is given. -/
def verify (C : Curve F G1 G2 GT) (par : Par) (pol : MsmPolicy) (b : Nat) (vr : VerifyRand F)
    (input : Bytes) (transformed : Option Bytes) : Except Fail Unit :=
  match Header.readFrom.run (Rd.file input 0) with
  | (.error e, _) => .error e
  | (.ok header, rd) =>
    match (readSections C par pol b vr (goPow2 header.power)).run (Rd.buffered (2 ^ 20) rd.rest) with
    | (.error e, _) => .error e
    | (.ok (tau1, alpha1, beta1, tau2, betaG2), rd) =>
      verifyRest C transformed header.contributions.toNat rd tau1 alpha1 beta1 tau2 betaG2

end
end ZkSetup.Phase1
