import Verif.Model.Phase2
import Verif.Model.Lagrange
/-
Model of `/repo/phase2`: `Initialize` and `InitializeFromPartedR1CS`.
-/
namespace ZkSetup.Phase2

open ZkSetup Phase1

/-! ### gnark's constraint systems -/

/-- `constraint.Term`: `CoeffID()` and `WireID()` -/
structure Term where
  coeff : Nat
  wire : Nat
  deriving DecidableEq, Repr

/-- `constraint.R1C` -/
structure R1C where
  l : List Term
  r : List Term
  o : List Term
  deriving DecidableEq, Repr

/-- `constraint.Commitment`: the fields the code uses. `Committed` lists the committed wires, the public ones first. -/
structure Commitment where
  committed : List Nat
  nbPrivateCommitted : Nat
  commitmentIndex : Nat
  deriving DecidableEq, Repr

/-- `Commitment.Is()` -/
def Commitment.is (c : Commitment) : Bool := decide (c.committed ≠ [])

/-- `cs_bn254.R1CS`: what `Initialize` uses. `nbConstraints` is `GetNbConstraints()`, which for gnark's R1CS is the length of
`constraints`; it is a separate field because the code uses both. `Coefficients` holds field elements. -/
structure R1CS (F : Type) where
  nbPublic : Nat
  nbSecret : Nat
  nbInternal : Nat
  nbConstraints : Nat
  constraints : List R1C
  coefficients : List F
  commitment : Commitment

section
variable {F G1 G2 GT : Type} [Field F] [AddCommGroup G1] [Module F G1] [AddCommGroup G2]
  [Module F G2] [AddCommGroup GT] [Module F GT]

/-- `xs[i]` -/
def index {α : Type} (xs : List α) (i : Nat) : Except Fail α :=
  match xs[i]? with
  | some x => .ok x
  | none => .error (.panic "index out of range")

/-- `xs[i] = x` -/
def setIndex {α : Type} (xs : List α) (i : Nat) (x : α) : Except Fail (List α) :=
  if i < xs.length then .ok (xs.set i x) else .error (.panic "index out of range")

/-! ### utils.go -/

/-- The loop of `nextPowerofTwo`, `/repo/phase2/utils.go:26-32`, with `fuel` iterations left. -/
def nextPowerofTwoLoop (number : Int) : (fuel : Nat) → (res : Int) → Except Fail Int
  | 0, _ => .error (.panic "the power is beyond 28")
  | fuel + 1, res => if res ≥ number then .ok res else nextPowerofTwoLoop number fuel (res * 2)

/-- `nextPowerofTwo`, `/repo/phase2/utils.go:24-35` -/
def nextPowerofTwo (number : Int) : Except Fail Int := nextPowerofTwoLoop number 27 2

/-- The counts of `processHeader`, `/repo/phase2/utils.go:65-73` (and `parted.go:86-94`); `constraints` and `domain` as
computed before. -/
def circuitHeader (r : R1CS F) (constraints domain : Int) : Header :=
  let h : Header :=
    { wires := r.nbInternal + r.nbPublic + r.nbSecret
      witness := r.nbSecret + r.nbInternal - r.commitment.nbPrivateCommitted
      pub := r.nbPublic
      privateCommitted := r.commitment.nbPrivateCommitted
      constraints := constraints
      domain := domain
      contributions := 0 }
  if r.commitment.is then { h with pub := h.pub + 1, witness := h.witness - 1 } else h

/-- The files written by `Initialize`: the phase 2 file, `srs.lag` and `evals`. -/
structure InitSt where
  ph2 : Bytes
  lag : Bytes
  evals : Bytes

/-- append to the phase 2 file (its writers are flushed by deferred calls, also after an error) -/
def emitPh2 (bs : Bytes) : Go InitSt Unit := ⟨fun s => (.ok (), { s with ph2 := s.ph2 ++ bs })⟩

/-- append to `srs.lag` -/
def emitLag (bs : Bytes) : Go InitSt Unit := ⟨fun s => (.ok (), { s with lag := s.lag ++ bs })⟩

/-- append to `evals` -/
def emitEvals (bs : Bytes) : Go InitSt Unit := ⟨fun s => (.ok (), { s with evals := s.evals ++ bs })⟩

/-- `os.Create("srs.lag")` -/
def createLag : Go InitSt Unit := ⟨fun s => (.ok (), { s with lag := [] })⟩

/-- `os.Create("evals")` -/
def createEvals : Go InitSt Unit := ⟨fun s => (.ok (), { s with evals := [] })⟩

/-- `os.Open("srs.lag")` and its contents -/
def openLag : Go InitSt Bytes := ⟨fun s => (.ok s.lag, s)⟩

/-- `if N < header2.Constraints { return err }`, `/repo/phase2/utils.go:61-63` -/
def checkPower (power : UInt8) (constraints : Int) : Except Fail Unit :=
  check (decide (¬ goPow2 power < constraints)) "phase 1 parameters can support up to fewer constraints"

/-- `processHeader`, `/repo/phase2/utils.go:37-82`. `r1cs` is the parsed file, `none` a parse error. -/
def processHeader (H : HeaderCodec) (r1cs : Option (R1CS F)) (phase1File : Bytes) :
    Go InitSt (R1CS F × Phase1.Header × Header) :=
  match r1cs with
  | none => Go.fail (.err "r1cs")
  | some r => do
    let domain ← Go.lift (nextPowerofTwo r.nbConstraints)
    let header1 ← Go.lift (Phase1.Header.readFrom.run (Rd.file phase1File 0)).1
    Go.lift (checkPower header1.power r.nbConstraints)
    let header2 := circuitHeader r r.nbConstraints domain
    emitPh2 (header2.write H)
    pure (r, header1, header2)

/-- `lagrangeG1`, `lagrangeG2`, `/repo/phase2/lagrange.go:13-66` (identical up to the group): the slice appended to `srs.lag`. -/
def lagrangeSection {G : Type} [AddCommGroup G] [Module F G] (c : Codec G) (par : Par) (phase1File : Bytes)
    (position : Int) (domain : Lagrange.Domain F) : Except Fail Bytes := do
  check (decide (0 ≤ position)) "seek: invalid argument"
  let buff ← ((c.decodeN domain.cardinality).run (Rd.buffered 4096 (phase1File.drop position.toNat))).1
  match Lagrange.convert par domain buff with
  | some buff => .ok (c.encodeSlice buff)
  | none => .error (.panic "integer divide by zero")

/-- `processLagrange`, `/repo/phase2/utils.go:84-123`; `dom n` is `fft.NewDomain(n)`. Positions are unbounded integers
(simplification: in `int64` they overflow from power 56 on; a seek then fails, as does reading beyond the end here; see
`C84_positions`, `C84_long`). -/
def processLagrange (C : Curve F G1 G2 GT) (par : Par) (dom : Nat → Lagrange.Domain F) (header1 : Phase1.Header)
    (header2 : Header) (phase1File : Bytes) : Go InitSt Unit := do
  let domain := dom header2.domain.toNat
  let N := goPow2 header1.power
  createLag
  -- TauG1
  let pos : Int := 3
  let s1 ← Go.lift (lagrangeSection C.c1 par phase1File pos domain)
  emitLag s1
  -- AlphaTauG1
  let pos := pos + 32 * (2 * N - 1)
  let s2 ← Go.lift (lagrangeSection C.c1 par phase1File pos domain)
  emitLag s2
  -- BetaTauG1
  let pos := pos + 32 * N
  let s3 ← Go.lift (lagrangeSection C.c1 par phase1File pos domain)
  emitLag s3
  -- TauG2
  let pos := pos + 32 * N
  let s4 ← Go.lift (lagrangeSection C.c2 par phase1File pos domain)
  emitLag s4

/-- `accumulateG1`, `accumulateG2`, `/repo/phase2/utils.go:375-413` (identical up to the group). The special
coefficient ids of gnark are 0 (zero), 1 (one), 2 (two), 3 (minus one). -/
def accumulate {G : Type} [AddCommGroup G] [Module F G] (coefficients : List F) (res : G) (t : Term) (value : G) :
    Except Fail G :=
  if t.coeff = 0 then .ok res
  else if t.coeff = 1 then .ok (res + value)
  else if t.coeff = 3 then .ok (res - value)
  else if t.coeff = 2 then .ok (res + value + value)
  else do
    let c ← index coefficients t.coeff
    .ok (res + c • value)

/-- `for _, t := range c.L { accumulateG1(r1cs, &buff[t.WireID()], t, &srs[i]) }` -/
def accumulateTerms {G : Type} [AddCommGroup G] [Module F G] (coefficients : List F) (srs : List G) (i : Nat) :
    List Term → List G → Except Fail (List G)
  | [], buff => .ok buff
  | t :: ts, buff => do
    let res ← index buff t.wire
    let value ← index srs i
    let res ← accumulate coefficients res t value
    accumulateTerms coefficients srs i ts (buff.set t.wire res)

/-- `for i, c := range r1cs.Constraints { … }`, `/repo/phase2/utils.go:179-183` and the like; `side` selects `c.L`, `c.R` or
`c.O`, and `i` is the index of the first constraint. -/
def accumulateAll {G : Type} [AddCommGroup G] [Module F G] (coefficients : List F) (srs : List G)
    (side : R1C → List Term) : (i : Nat) → List R1C → List G → Except Fail (List G)
  | _, [], buff => .ok buff
  | i, c :: cs, buff => do
    let buff ← accumulateTerms coefficients srs i (side c) buff
    accumulateAll coefficients srs side (i + 1) cs buff

/-- `readPhase1`, `/repo/phase2/utils.go:561-597` -/
def readPhase1 (C : Curve F G1 G2 GT) (phase1File : Bytes) (power : UInt8) : Except Fail (G1 × G1 × G2) := do
  let N := goPow2 power
  let posAlpha := 3 + 32 * (2 * N - 1)
  let posBeta1 := posAlpha + 32 * N
  let posBeta2 := posBeta1 + 96 * N
  let alpha ← seekDecode C.c1 phase1File posAlpha
  let beta1 ← seekDecode C.c1 phase1File posBeta1
  let beta2 ← seekDecode C.c2 phase1File posBeta2
  .ok (alpha, beta1, beta2)

/-- The parameters read from `srs.lag` by `processEvaluations`, `/repo/phase2/utils.go:171-175` and `205-214`: TauG1, then
`Seek(2*32*Domain + 2*4, io.SeekCurrent)`, then TauG2. -/
def readTauLag (C : Curve F G1 G2 GT) (lag : Bytes) (domain : Int) : Except Fail (List G1) × Except Fail (List G2) :=
  match (C.c1.decodeSlice).run (Rd.file lag 0) with
  | (.error e, _) => (.error e, .error e)
  | (.ok tauG1, rd) =>
    let rd := rd.adv (2 * 32 * domain + 2 * 4).toNat
    (.ok tauG1, (C.c2.decodeSlice.run rd).1)

/-- `processEvaluations`, `/repo/phase2/utils.go:125-227` -/
def processEvaluations (C : Curve F G1 G2 GT) (r1cs : R1CS F) (header1 : Phase1.Header) (header2 : Header)
    (phase1File : Bytes) : Go InitSt Unit := do
  let lagFile ← openLag
  createEvals
  -- Read and write [α]₁, [β]₁, [β]₂
  let (alpha, beta1, beta2) ← Go.lift (readPhase1 C phase1File header1.power)
  emitEvals (C.c1.bytes alpha)
  emitEvals (C.c1.bytes beta1)
  emitEvals (C.c2.bytes beta2)
  let lag := readTauLag C lagFile header2.domain
  -- Deserialize Lagrange SRS TauG1
  let tauG1 ← Go.lift lag.1
  -- Accumulate {[A]₁}
  let wires ← Go.lift (makeLen header2.wires)
  let buff ← Go.lift (accumulateAll r1cs.coefficients tauG1 R1C.l 0 r1cs.constraints (List.replicate wires 0))
  emitEvals (C.c1.encodeSlice buff)
  -- Accumulate {[B]₁}
  let buff ← Go.lift (accumulateAll r1cs.coefficients tauG1 R1C.r 0 r1cs.constraints (List.replicate wires 0))
  emitEvals (C.c1.encodeSlice buff)
  -- Deserialize Lagrange SRS TauG2
  let tauG2 ← Go.lift lag.2
  -- Accumulate {[B]₂}
  let buff2 ← Go.lift (accumulateAll r1cs.coefficients tauG2 R1C.r 0 r1cs.constraints (List.replicate wires 0))
  emitEvals (C.c2.encodeSlice buff2)

/-- `Z[i].Sub(&tauG1[i+n], &tauG1[i])` for `i < n-1`, `BitReverseG1(Z)`, `Z = Z[:n-1]`,
`/repo/phase2/utils.go:260-266`; `Z[n-1]` stays the identity. -/
def computeZ {G : Type} [AddCommGroup G] (n : Nat) (tauG1 : List G) : List G :=
  let Z := (List.range n).map fun i => if i < n - 1 then tauG1.getD (i + n) 0 - tauG1.getD i 0 else 0
  (bitReverse Z).take (n - 1)

/-- `processDeltaAndZ`, `/repo/phase2/utils.go:229-275` -/
def processDeltaAndZ (C : Curve F G1 G2 GT) (header2 : Header) (phase1File : Bytes) : Go InitSt Unit := do
  -- Write [δ]₁ and [δ]₂
  emitPh2 (C.c1.bytes C.g1)
  emitPh2 (C.c2.bytes C.g2)
  -- Read TauG1
  let n := header2.domain
  let len ← Go.lift (makeLen (2 * n - 1))
  let tauG1 ← Go.lift ((C.c1.decodeN len).run (Rd.buffered 4096 (phase1File.drop 3))).1
  -- Calculate and write Z
  emitPh2 (C.c1.encodeN (computeZ n.toNat tauG1))

/-- `cI < cmtInfo.NbPrivateCommitted && i == cmtInfo.PrivateCommitted()[i]`, `/repo/phase2/utils.go:544`, with gnark's
`PrivateCommitted() = Committed[NbPublicCommitted():]` and `NbPublicCommitted() = len(Committed) - NbPrivateCommitted`. -/
def isCommittedPrivate (cmt : Commitment) (cI i : Nat) : Except Fail Bool :=
  if cI < cmt.nbPrivateCommitted then
    if cmt.committed.length < cmt.nbPrivateCommitted then .error (.panic "slice bounds out of range")
    else do
      let x ← index (cmt.committed.drop (cmt.committed.length - cmt.nbPrivateCommitted)) i
      .ok (decide (i = x))
  else .ok false

/-- The loop of `filterL`, `/repo/phase2/utils.go:543-556` -/
def filterLoop (pub : Int) (cmt : Commitment) : (i : Nat) → List G1 → (pkk vkk ckk : List G1) → (vI cI : Nat) →
    Except Fail (List G1 × List G1 × List G1)
  | _, [], pkk, vkk, ckk, _, _ => .ok (pkk, vkk, ckk)
  | i, x :: xs, pkk, vkk, ckk, vI, cI => do
    let committedPrivate ← isCommittedPrivate cmt cI i
    if committedPrivate then do
      let ckk ← setIndex ckk cI x
      filterLoop pub cmt (i + 1) xs pkk vkk ckk vI (cI + 1)
    else if (cmt.is && decide (i = cmt.commitmentIndex)) || decide ((i : Int) < pub) then do
      let vkk ← setIndex vkk vI x
      filterLoop pub cmt (i + 1) xs pkk vkk ckk (vI + 1) cI
    else do
      let pkk ← setIndex pkk (i - cI - vI) x
      filterLoop pub cmt (i + 1) xs pkk vkk ckk vI cI

/-- `filterL`, `/repo/phase2/utils.go:538-559`: PKK, VKK, CKK -/
def filterL (L : List G1) (header2 : Header) (cmt : Commitment) : Except Fail (List G1 × List G1 × List G1) := do
  let w ← makeLen header2.witness
  let p ← makeLen header2.pub
  let c ← makeLen header2.privateCommitted
  filterLoop header2.pub cmt 0 L (List.replicate w 0) (List.replicate p 0) (List.replicate c 0) 0 0

/-- The three slices TauG1, AlphaTauG1, BetaTauG1 of `srs.lag`, read one after the other,
`/repo/phase2/utils.go:307-308`, `320-321`, `332-333`. -/
def readLag3 (C : Curve F G1 G2 GT) : Go Rd (List G1 × List G1 × List G1) := do
  let tau ← C.c1.decodeSlice
  let alpha ← C.c1.decodeSlice
  let beta ← C.c1.decodeSlice
  pure (tau, alpha, beta)

/-- `processPVCKK`, `/repo/phase2/utils.go:277-373`. `cmtBytes` is the gob encoding of the commitment info. (The three slices
are read up front here; the code reads each before the loop that uses it. A failure aborts either way.) -/
def processPVCKK (C : Curve F G1 G2 GT) (cmtBytes : Commitment → Bytes) (r1cs : R1CS F) (header2 : Header) :
    Go InitSt Unit := do
  let lagFile ← openLag
  let L ← Go.lift (makeLen header2.wires)
  let (tau, alpha, beta) ← Go.lift ((readLag3 C).run (Rd.buffered 4096 lagFile)).1
  -- L = O(TauG1) + R(AlphaTauG1) + L(BetaTauG1)
  let L ← Go.lift (accumulateAll r1cs.coefficients tau R1C.o 0 r1cs.constraints (List.replicate L 0))
  let L ← Go.lift (accumulateAll r1cs.coefficients alpha R1C.r 0 r1cs.constraints L)
  let L ← Go.lift (accumulateAll r1cs.coefficients beta R1C.l 0 r1cs.constraints L)
  let (pkk, vkk, ckk) ← Go.lift (filterL L header2 r1cs.commitment)
  -- Write PKK
  emitPh2 (C.c1.encodeN pkk)
  -- VKK, CKK, CommitmentInfo
  emitEvals (C.c1.encodeSlice vkk)
  emitEvals (C.c1.encodeSlice ckk)
  emitEvals (cmtBytes r1cs.commitment)

/-! ### phase2.go -/

/-- What `Initialize` depends on besides its inputs. -/
structure InitEnv (F : Type) where
  header : HeaderCodec
  /-- `fft.NewDomain(n)` -/
  dom : Nat → Lagrange.Domain F
  /-- gob encoding of the commitment info -/
  cmtBytes : Commitment → Bytes

/-- `Initialize` after the files have been opened, `/repo/phase2/phase2.go:28-54` -/
def initBody (C : Curve F G1 G2 GT) (E : InitEnv F) (par : Par) (r1cs : Option (R1CS F)) (phase1File : Bytes) :
    Go InitSt Unit := do
  let (r, header1, header2) ← processHeader E.header r1cs phase1File
  processLagrange C par E.dom header1 header2 phase1File
  processEvaluations C r header1 header2 phase1File
  processDeltaAndZ C header2 phase1File
  processPVCKK C E.cmtBytes r header2

/-- `Initialize`, `/repo/phase2/phase2.go:15-56`: result and the files, given the old contents of `srs.lag` and `evals`. -/
def initializeFiles (C : Curve F G1 G2 GT) (E : InitEnv F) (par : Par) (r1cs : Option (R1CS F)) (phase1File : Bytes)
    (oldLag oldEvals : Bytes) : Except Fail Unit × InitSt :=
  (initBody C E par r1cs phase1File).run ⟨[], oldLag, oldEvals⟩

/-! ### parted.go -/

/-- A parted constraint system: the part without constraints (`LoadFromSplitBinaryConcurrent`), and
`GetConstraintToSolve(i)`. Loading errors are not modelled. -/
structure PartedR1CS (F : Type) where
  base : R1CS F
  get : Nat → Except Fail R1C

/-- `for i := 0; i < nbCons; i++ { c := r1cs.GetConstraintToSolve(i); for _, t := range c.L { … } }`,
`/repo/phase2/parted.go:149-154` and the like; `n` iterations left. -/
def accumulateParted {G : Type} [AddCommGroup G] [Module F G] (coefficients : List F) (srs : List G)
    (side : R1C → List Term) (get : Nat → Except Fail R1C) : (n i : Nat) → List G → Except Fail (List G)
  | 0, _, buff => .ok buff
  | n + 1, i, buff => do
    let c ← get i
    let buff ← accumulateTerms coefficients srs i (side c) buff
    accumulateParted coefficients srs side get n (i + 1) buff

/-- `processHeaderParted`, `/repo/phase2/parted.go:67-104` -/
def processHeaderParted (H : HeaderCodec) (cs : PartedR1CS F) (nbCons : Int) (phase1File : Bytes) :
    Go InitSt (Phase1.Header × Header) := do
  let domain ← Go.lift (nextPowerofTwo nbCons)
  let header1 ← Go.lift (Phase1.Header.readFrom.run (Rd.file phase1File 0)).1
  Go.lift (checkPower header1.power nbCons)
  let header2 := circuitHeader cs.base nbCons domain
  emitPh2 (header2.write H)
  pure (header1, header2)

/-- `processEvaluationsParted`, `/repo/phase2/parted.go:106-200` -/
def processEvaluationsParted (C : Curve F G1 G2 GT) (cs : PartedR1CS F) (nbCons : Int) (header1 : Phase1.Header)
    (header2 : Header) (phase1File : Bytes) : Go InitSt Unit := do
  let lagFile ← openLag
  createEvals
  let (alpha, beta1, beta2) ← Go.lift (readPhase1 C phase1File header1.power)
  emitEvals (C.c1.bytes alpha)
  emitEvals (C.c1.bytes beta1)
  emitEvals (C.c2.bytes beta2)
  let lag := readTauLag C lagFile header2.domain
  let tauG1 ← Go.lift lag.1
  let wires ← Go.lift (makeLen header2.wires)
  let buff ← Go.lift (accumulateParted cs.base.coefficients tauG1 R1C.l cs.get nbCons.toNat 0 (List.replicate wires 0))
  emitEvals (C.c1.encodeSlice buff)
  let buff ← Go.lift (accumulateParted cs.base.coefficients tauG1 R1C.r cs.get nbCons.toNat 0 (List.replicate wires 0))
  emitEvals (C.c1.encodeSlice buff)
  let tauG2 ← Go.lift lag.2
  let buff2 ← Go.lift (accumulateParted cs.base.coefficients tauG2 R1C.r cs.get nbCons.toNat 0 (List.replicate wires 0))
  emitEvals (C.c2.encodeSlice buff2)

/-- `processPVCKKParted`, `/repo/phase2/parted.go:202-290` -/
def processPVCKKParted (C : Curve F G1 G2 GT) (cmtBytes : Commitment → Bytes) (cs : PartedR1CS F) (nbCons : Int)
    (header2 : Header) : Go InitSt Unit := do
  let lagFile ← openLag
  let L ← Go.lift (makeLen header2.wires)
  let (tau, alpha, beta) ← Go.lift ((readLag3 C).run (Rd.buffered 4096 lagFile)).1
  let L ← Go.lift (accumulateParted cs.base.coefficients tau R1C.o cs.get nbCons.toNat 0 (List.replicate L 0))
  let L ← Go.lift (accumulateParted cs.base.coefficients alpha R1C.r cs.get nbCons.toNat 0 L)
  let L ← Go.lift (accumulateParted cs.base.coefficients beta R1C.l cs.get nbCons.toNat 0 L)
  let (pkk, vkk, ckk) ← Go.lift (filterL L header2 cs.base.commitment)
  emitPh2 (C.c1.encodeN pkk)
  emitEvals (C.c1.encodeSlice vkk)
  emitEvals (C.c1.encodeSlice ckk)
  emitEvals (cmtBytes cs.base.commitment)

/-- `InitializeFromPartedR1CS`, `/repo/phase2/parted.go:17-64` -/
def initializeParted (C : Curve F G1 G2 GT) (E : InitEnv F) (par : Par) (cs : PartedR1CS F) (nbCons : Int)
    (phase1File : Bytes) (oldLag oldEvals : Bytes) : Except Fail Unit × InitSt :=
  let body : Go InitSt Unit := do
    let (header1, header2) ← processHeaderParted E.header cs nbCons phase1File
    processLagrange C par E.dom header1 header2 phase1File
    processEvaluationsParted C cs nbCons header1 header2 phase1File
    processDeltaAndZ C header2 phase1File
    processPVCKKParted C E.cmtBytes cs nbCons header2
  body.run ⟨[], oldLag, oldEvals⟩

end
end ZkSetup.Phase2
