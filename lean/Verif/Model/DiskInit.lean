import Verif.Model.DiskKeys
import Verif.Model.Phase2Init
/-
Phase 2 initialisation on a disk that can fill up: `Initialize` and `InitializeFromPartedR1CS` with their write calls. Each of the
three files has its own room (a disk shared by all files is one choice of the rooms). `srs.lag` is read back while the command
runs, so what is missing from it matters to the command itself.
-/
namespace ZkSetup.Phase2

open Phase1 Disk
open ZkSetup.Keys (checkedCall sliceCalls)

/-- The files written by `Initialize`, as `InitSt`, on the disk. -/
structure DiskSt where
  ph2 : File
  lag : File
  evals : File

/-- the result of write calls that ended early or not -/
def written (done : Bool) : Except Fail Unit := if done then .ok () else .error (.err "no space left on device")

/-- write calls on the phase 2 file, with the deferred `Flush` of their writer -/
def putPh2 (p : Part) : Go DiskSt Unit :=
  ⟨fun s => (written (runPart s.ph2 p).1, { s with ph2 := (runPart s.ph2 p).2 })⟩

/-- write calls on `srs.lag` -/
def putLag (p : Part) : Go DiskSt Unit :=
  ⟨fun s => (written (runPart s.lag p).1, { s with lag := (runPart s.lag p).2 })⟩

/-- write calls on `evals` -/
def putEvals (p : Part) : Go DiskSt Unit :=
  ⟨fun s => (written (runPart s.evals p).1, { s with evals := (runPart s.evals p).2 })⟩

/-- `os.Create("srs.lag")` -/
def createLagOnDisk : Go DiskSt Unit := ⟨fun s => (.ok (), { s with lag := { s.lag with data := [] } })⟩

/-- `os.Create("evals")` -/
def createEvalsOnDisk : Go DiskSt Unit := ⟨fun s => (.ok (), { s with evals := { s.evals with data := [] } })⟩

/-- `os.Open("srs.lag")` and its contents -/
def openLagOnDisk : Go DiskSt Bytes := ⟨fun s => (.ok s.lag.data, s)⟩

section
variable {F G1 G2 GT : Type} [Field F] [AddCommGroup G1] [Module F G1] [AddCommGroup G2]
  [Module F G2] [AddCommGroup GT] [Module F GT]

/-- `header2.write(phase2File)`, `/repo/phase2/header.go:26-32` (utils.go:76, parted.go:97): two gob messages, the first of 120
bytes, directly to the file; the error is returned. -/
def headerPart (H : HeaderCodec) (h : Header) : Part := ⟨0, pieces true [120, (H.enc h).length - 120] (h.write H)⟩

/-- `processHeader`, `/repo/phase2/utils.go:37-82` -/
def processHeaderOnDisk (H : HeaderCodec) (r1cs : Option (R1CS F)) (phase1File : Bytes) :
    Go DiskSt (R1CS F × Phase1.Header × Header) :=
  match r1cs with
  | none => Go.fail (.err "r1cs")
  | some r => do
    let domain ← Go.lift (nextPowerofTwo r.nbConstraints)
    let header1 ← Go.lift (Phase1.Header.readFrom.run (Rd.file phase1File 0)).1
    Go.lift (checkPower header1.power r.nbConstraints)
    let header2 := circuitHeader r r.nbConstraints domain
    putPh2 (headerPart H header2)
    pure (r, header1, header2)

/-- The write calls of `lagrangeG1`, `lagrangeG2`, `/repo/phase2/lagrange.go:31-38` and `57-65`: a `bufio.Writer` of size 4096,
flushed by a deferred call; the length of the slice and its `n` points of `size` bytes, all checked. -/
def lagPart (size n : Nat) (bs : Bytes) : Part := ⟨4096, pieces true (4 :: List.replicate n size) bs⟩

/-- `processLagrange`, `/repo/phase2/utils.go:84-123` -/
def processLagrangeOnDisk (C : Curve F G1 G2 GT) (par : Par) (dom : Nat → Lagrange.Domain F) (header1 : Phase1.Header)
    (header2 : Header) (phase1File : Bytes) : Go DiskSt Unit := do
  let domain := dom header2.domain.toNat
  let N := goPow2 header1.power
  createLagOnDisk
  -- TauG1
  let pos : Int := 3
  let s1 ← Go.lift (lagrangeSection C.c1 par phase1File pos domain)
  putLag (lagPart 32 domain.cardinality s1)
  -- AlphaTauG1
  let pos := pos + 32 * (2 * N - 1)
  let s2 ← Go.lift (lagrangeSection C.c1 par phase1File pos domain)
  putLag (lagPart 32 domain.cardinality s2)
  -- BetaTauG1
  let pos := pos + 32 * N
  let s3 ← Go.lift (lagrangeSection C.c1 par phase1File pos domain)
  putLag (lagPart 32 domain.cardinality s3)
  -- TauG2
  let pos := pos + 32 * N
  let s4 ← Go.lift (lagrangeSection C.c2 par phase1File pos domain)
  putLag (lagPart 64 domain.cardinality s4)

/-- `enc.Encode(x)` directly on `evals`, error checked: one point -/
def pointPart (bs : Bytes) : Part := ⟨0, [checkedCall bs]⟩

/-- `enc.Encode(buff)` directly on `evals`, error checked: a slice -/
def slicePart (bs : List Bytes) : Part := ⟨0, sliceCalls bs⟩

/-- `processEvaluations`, `/repo/phase2/utils.go:125-227`; the encoder writes directly to `evals` (151), all errors checked. -/
def processEvaluationsOnDisk (C : Curve F G1 G2 GT) (r1cs : R1CS F) (header1 : Phase1.Header) (header2 : Header)
    (phase1File : Bytes) : Go DiskSt Unit := do
  let lagFile ← openLagOnDisk
  createEvalsOnDisk
  let (alpha, beta1, beta2) ← Go.lift (readPhase1 C phase1File header1.power)
  putEvals (pointPart (C.c1.bytes alpha))
  putEvals (pointPart (C.c1.bytes beta1))
  putEvals (pointPart (C.c2.bytes beta2))
  let lag := readTauLag C lagFile header2.domain
  let tauG1 ← Go.lift lag.1
  let wires ← Go.lift (makeLen header2.wires)
  let buff ← Go.lift (accumulateAll r1cs.coefficients tauG1 R1C.l 0 r1cs.constraints (List.replicate wires 0))
  putEvals (slicePart (buff.map C.c1.bytes))
  let buff ← Go.lift (accumulateAll r1cs.coefficients tauG1 R1C.r 0 r1cs.constraints (List.replicate wires 0))
  putEvals (slicePart (buff.map C.c1.bytes))
  let tauG2 ← Go.lift lag.2
  let buff2 ← Go.lift (accumulateAll r1cs.coefficients tauG2 R1C.r 0 r1cs.constraints (List.replicate wires 0))
  putEvals (slicePart (buff2.map C.c2.bytes))

/-- The first write calls of `processDeltaAndZ`, `/repo/phase2/utils.go:238-247`: δ goes to the buffer. -/
def deltaCalls (C : Curve F G1 G2 GT) : List Call := [checkedCall (C.c1.bytes C.g1), checkedCall (C.c2.bytes C.g2)]

/-- `processDeltaAndZ`, `/repo/phase2/utils.go:229-275`, after TauG1 has been read or not; one `bufio.Writer` of size 4096 with a
deferred `Flush` (232-233), all calls checked. After an error the deferred `Flush` still writes δ. -/
def putDeltaAndZ (C : Curve F G1 G2 GT) (n : Int) (tauG1 : Except Fail (List G1)) : Go DiskSt Unit :=
  match tauG1 with
  | .error e => do
    putPh2 ⟨4096, deltaCalls C⟩
    Go.fail e
  | .ok tauG1 => putPh2 ⟨4096, deltaCalls C ++ (computeZ n.toNat tauG1).map fun z => checkedCall (C.c1.bytes z)⟩

/-- `processDeltaAndZ`, `/repo/phase2/utils.go:229-275` -/
def processDeltaAndZOnDisk (C : Curve F G1 G2 GT) (header2 : Header) (phase1File : Bytes) : Go DiskSt Unit :=
  putDeltaAndZ C header2.domain do
    let len ← makeLen (2 * header2.domain - 1)
    ((C.c1.decodeN len).run (Rd.buffered 4096 (phase1File.drop 3))).1

/-- The write calls on `evals` of `processPVCKK`, `/repo/phase2/utils.go:352-370`: a `bufio.Writer` of size 4096 with a deferred
`Flush`, all calls checked. `cuts` are the lengths of the gob messages of the commitment info except the last. -/
def tailPart (vkk ckk : List Bytes) (cuts : List Nat) (info : Bytes) : Part :=
  ⟨4096, sliceCalls vkk ++ sliceCalls ckk ++ pieces true (cuts ++ [0]) info⟩

/-- `processPVCKK`, `/repo/phase2/utils.go:277-373`. The writer of the phase 2 file (299-300) and that of `evals` both have deferred
`Flush`es; as the files are different their order does not matter. -/
def processPVCKKOnDisk (C : Curve F G1 G2 GT) (cmtBytes : Commitment → Bytes) (cuts : List Nat) (r1cs : R1CS F)
    (header2 : Header) : Go DiskSt Unit := do
  let lagFile ← openLagOnDisk
  let L ← Go.lift (makeLen header2.wires)
  let (tau, alpha, beta) ← Go.lift ((readLag3 C).run (Rd.buffered 4096 lagFile)).1
  let L ← Go.lift (accumulateAll r1cs.coefficients tau R1C.o 0 r1cs.constraints (List.replicate L 0))
  let L ← Go.lift (accumulateAll r1cs.coefficients alpha R1C.r 0 r1cs.constraints L)
  let L ← Go.lift (accumulateAll r1cs.coefficients beta R1C.l 0 r1cs.constraints L)
  let (pkk, vkk, ckk) ← Go.lift (filterL L header2 r1cs.commitment)
  putPh2 ⟨4096, pkk.map fun x => checkedCall (C.c1.bytes x)⟩
  putEvals (tailPart (vkk.map C.c1.bytes) (ckk.map C.c1.bytes) cuts (cmtBytes r1cs.commitment))

/-- `Initialize`, `/repo/phase2/phase2.go:15-56`, on a disk with room for `c2`, `cl` and `ce` bytes of the phase 2 file, `srs.lag` and
`evals`. -/
def initOnDisk (C : Curve F G1 G2 GT) (E : InitEnv F) (cuts : List Nat) (par : Par) (c2 cl ce : Nat)
    (r1cs : Option (R1CS F)) (phase1File : Bytes) (oldLag oldEvals : Bytes) : Except Fail Unit × DiskSt :=
  let body : Go DiskSt Unit := do
    let (r, header1, header2) ← processHeaderOnDisk E.header r1cs phase1File
    processLagrangeOnDisk C par E.dom header1 header2 phase1File
    processEvaluationsOnDisk C r header1 header2 phase1File
    processDeltaAndZOnDisk C header2 phase1File
    processPVCKKOnDisk C E.cmtBytes cuts r header2
  body.run ⟨⟨c2, []⟩, ⟨cl, oldLag⟩, ⟨ce, oldEvals⟩⟩

/-! ### parted.go -/

/-- `processHeaderParted`, `/repo/phase2/parted.go:67-104` -/
def processHeaderPartedOnDisk (H : HeaderCodec) (cs : PartedR1CS F) (nbCons : Int) (phase1File : Bytes) :
    Go DiskSt (Phase1.Header × Header) := do
  let domain ← Go.lift (nextPowerofTwo nbCons)
  let header1 ← Go.lift (Phase1.Header.readFrom.run (Rd.file phase1File 0)).1
  Go.lift (checkPower header1.power nbCons)
  let header2 := circuitHeader cs.base nbCons domain
  putPh2 (headerPart H header2)
  pure (header1, header2)

/-- `processEvaluationsParted`, `/repo/phase2/parted.go:106-200`; the encoder writes directly to `evals` (128), all errors checked. -/
def processEvaluationsPartedOnDisk (C : Curve F G1 G2 GT) (cs : PartedR1CS F) (nbCons : Int) (header1 : Phase1.Header)
    (header2 : Header) (phase1File : Bytes) : Go DiskSt Unit := do
  let lagFile ← openLagOnDisk
  createEvalsOnDisk
  let (alpha, beta1, beta2) ← Go.lift (readPhase1 C phase1File header1.power)
  putEvals (pointPart (C.c1.bytes alpha))
  putEvals (pointPart (C.c1.bytes beta1))
  putEvals (pointPart (C.c2.bytes beta2))
  let lag := readTauLag C lagFile header2.domain
  let tauG1 ← Go.lift lag.1
  let wires ← Go.lift (makeLen header2.wires)
  let buff ← Go.lift (accumulateParted cs.base.coefficients tauG1 R1C.l cs.get nbCons.toNat 0 (List.replicate wires 0))
  putEvals (slicePart (buff.map C.c1.bytes))
  let buff ← Go.lift (accumulateParted cs.base.coefficients tauG1 R1C.r cs.get nbCons.toNat 0 (List.replicate wires 0))
  putEvals (slicePart (buff.map C.c1.bytes))
  let tauG2 ← Go.lift lag.2
  let buff2 ← Go.lift (accumulateParted cs.base.coefficients tauG2 R1C.r cs.get nbCons.toNat 0 (List.replicate wires 0))
  putEvals (slicePart (buff2.map C.c2.bytes))

/-- `processPVCKKParted`, `/repo/phase2/parted.go:202-290`; the writers as in `processPVCKK` (212-213, 271-272). -/
def processPVCKKPartedOnDisk (C : Curve F G1 G2 GT) (cmtBytes : Commitment → Bytes) (cuts : List Nat) (cs : PartedR1CS F)
    (nbCons : Int) (header2 : Header) : Go DiskSt Unit := do
  let lagFile ← openLagOnDisk
  let L ← Go.lift (makeLen header2.wires)
  let (tau, alpha, beta) ← Go.lift ((readLag3 C).run (Rd.buffered 4096 lagFile)).1
  let L ← Go.lift (accumulateParted cs.base.coefficients tau R1C.o cs.get nbCons.toNat 0 (List.replicate L 0))
  let L ← Go.lift (accumulateParted cs.base.coefficients alpha R1C.r cs.get nbCons.toNat 0 L)
  let L ← Go.lift (accumulateParted cs.base.coefficients beta R1C.l cs.get nbCons.toNat 0 L)
  let (pkk, vkk, ckk) ← Go.lift (filterL L header2 cs.base.commitment)
  putPh2 ⟨4096, pkk.map fun x => checkedCall (C.c1.bytes x)⟩
  putEvals (tailPart (vkk.map C.c1.bytes) (ckk.map C.c1.bytes) cuts (cmtBytes cs.base.commitment))

/-- `InitializeFromPartedR1CS`, `/repo/phase2/parted.go:17-64`, on such a disk -/
def initPartedOnDisk (C : Curve F G1 G2 GT) (E : InitEnv F) (cuts : List Nat) (par : Par) (c2 cl ce : Nat)
    (cs : PartedR1CS F) (nbCons : Int) (phase1File : Bytes) (oldLag oldEvals : Bytes) : Except Fail Unit × DiskSt :=
  let body : Go DiskSt Unit := do
    let (header1, header2) ← processHeaderPartedOnDisk E.header cs nbCons phase1File
    processLagrangeOnDisk C par E.dom header1 header2 phase1File
    processEvaluationsPartedOnDisk C cs nbCons header1 header2 phase1File
    processDeltaAndZOnDisk C header2 phase1File
    processPVCKKPartedOnDisk C E.cmtBytes cuts cs nbCons header2
  body.run ⟨⟨c2, []⟩, ⟨cl, oldLag⟩, ⟨ce, oldEvals⟩⟩

end
end ZkSetup.Phase2
