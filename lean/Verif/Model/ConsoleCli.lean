import Verif.Model.Console

/-!
What the commands print on standard output: the functions that `Model/Console` leaves out (`Transform`, the initialisation of
phase 2, the extraction of keys), and the commands of `Model/Cli` with the lines they print. Simplifications as there; the
library's own messages (usage, unknown command) are not modelled, nor is what gnark prints while it loads a parted constraint system.
-/
namespace ZkSetup.Console
open Phase1 (goPow2 wrap64)
open Phase2 (InitSt InitEnv R1CS PartedR1CS)
open Cli (FS Env Draws arg atoi toByte openFile contentsAfterCreate old)

variable {σ α : Type}

/-- `fmt.Printf` with several lines -/
def printlns (lines : List String) : Go (St σ) Unit := ⟨fun s => (.ok (), { s with out := s.out ++ lines })⟩

section
variable {F G1 G2 GT : Type} [Field F] [AddCommGroup G1] [Module F G1] [AddCommGroup G2] [Module F G2] [AddCommGroup GT] [Module F GT]
variable [DecidableEq G1] [DecidableEq G2] [DecidableEq GT]

/-! ### phase1.go -/

/-- `transformG1`, `transformG2` on the output file, `/repo/phase1/utils.go:271-315` -/
def transformSection {G : Type} (c : Codec G) (input : Bytes) (position : Int) (size : Nat) : Go Bytes Unit :=
  ⟨fun out => ((Phase1.transformPoints c input position size).1.map fun _ => (),
    out ++ (Phase1.transformPoints c input position size).2)⟩

/-- `Transform` after the header has been written, `/repo/phase1/phase1.go:44-82`; see `Phase1.transform` -/
def transformBody (C : Curve F G1 G2 GT) (inPower outPower : UInt8) (input : Bytes) : Go (St Bytes) Unit := do
  let inN := goPow2 inPower
  let outN := goPow2 outPower
  let posTauG1 : Int := 64
  let posTauG2 := wrap64 (posTauG1 + wrap64 (2 * inN - 1) * 64)
  let posAlphaG1 := wrap64 (posTauG2 + inN * 128)
  let posBetaG1 := wrap64 (posAlphaG1 + inN * 64)
  let posBetaG2 := wrap64 (posBetaG1 + inN * 64)
  println "Transforming TauG1"
  quiet (transformSection C.c1 input posTauG1 (wrap64 (2 * outN - 1)).toNat)
  println "Transforming AlphaG1"
  quiet (transformSection C.c1 input posAlphaG1 outN.toNat)
  println "Transforming BetaG1"
  quiet (transformSection C.c1 input posBetaG1 outN.toNat)
  println "Transforming TauG2"
  quiet (transformSection C.c2 input posTauG2 outN.toNat)
  println "Transforming BetaG2"
  quiet (transformSection C.c2 input posBetaG2 1)

/-- `Transform`, `/repo/phase1/phase1.go:17-83`: result, contents of the output file, lines printed -/
def transform (C : Curve F G1 G2 GT) (inPower outPower : UInt8) (input : Bytes) : Except Fail Unit × Bytes × List String :=
  let res := (transformBody C inPower outPower input).run ⟨Phase1.Header.writeTo { power := outPower, contributions := 0 }, []⟩
  (res.1, res.2.st, res.2.out)

/-! ### phase2/utils.go, phase2/phase2.go, phase2/parted.go -/

/-- `/repo/phase2/utils.go:79-80`, `/repo/phase2/parted.go:101-102` -/
def circuitInfo (h : Phase2.Header) : List String :=
  ["Circuit Info: #Constraints:=" ++ toString h.constraints, "#Wires:=" ++ toString h.wires, "#Public:=" ++ toString h.pub,
    "#Witness:=" ++ toString h.witness, "#PrivateCommitted:=" ++ toString h.privateCommitted]

/-- `processHeader`, `/repo/phase2/utils.go:37-82`; see `Phase2.processHeader` -/
def processHeader (H : Phase2.HeaderCodec) (r1cs : Option (R1CS F)) (phase1File : Bytes) :
    Go (St InitSt) (R1CS F × Phase1.Header × Phase2.Header) := do
  println "Processing the headers ..."
  let x ← quiet (Phase2.processHeader H r1cs phase1File)
  printlns (circuitInfo x.2.2)
  pure x

/-- `processLagrange`, `/repo/phase2/utils.go:84-123`; see `Phase2.processLagrange` -/
def processLagrange (C : Curve F G1 G2 GT) (par : Par) (dom : Nat → Lagrange.Domain F) (header1 : Phase1.Header)
    (header2 : Phase2.Header) (phase1File : Bytes) : Go (St InitSt) Unit := do
  println "Converting to Lagrange basis ..."
  let domain := dom header2.domain.toNat
  let N := goPow2 header1.power
  quiet Phase2.createLag
  println "Converting TauG1"
  let pos : Int := 3
  let s1 ← quiet (Go.lift (Phase2.lagrangeSection C.c1 par phase1File pos domain))
  quiet (Phase2.emitLag s1)
  println "Converting AlphaTauG1"
  let pos := pos + 32 * (2 * N - 1)
  let s2 ← quiet (Go.lift (Phase2.lagrangeSection C.c1 par phase1File pos domain))
  quiet (Phase2.emitLag s2)
  println "Converting BetaTauG1"
  let pos := pos + 32 * N
  let s3 ← quiet (Go.lift (Phase2.lagrangeSection C.c1 par phase1File pos domain))
  quiet (Phase2.emitLag s3)
  println "Converting TauG2"
  let pos := pos + 32 * N
  let s4 ← quiet (Go.lift (Phase2.lagrangeSection C.c2 par phase1File pos domain))
  quiet (Phase2.emitLag s4)

/-- `Initialize` after the files have been opened, `/repo/phase2/phase2.go:28-55`; see `Phase2.initBody` -/
def initBody (C : Curve F G1 G2 GT) (E : InitEnv F) (par : Par) (r1cs : Option (R1CS F)) (phase1File : Bytes) :
    Go (St InitSt) Unit := do
  let (r, header1, header2) ← processHeader E.header r1cs phase1File
  processLagrange C par E.dom header1 header2 phase1File
  println "Processing evaluation of [A]₁, [B]₁, [B]₂"
  quiet (Phase2.processEvaluations C r header1 header2 phase1File)
  println "Processing Delta and Z"
  quiet (Phase2.processDeltaAndZ C header2 phase1File)
  println "Processing PKK, VKK, and CKK"
  quiet (Phase2.processPVCKK C E.cmtBytes r header2)
  println "Phase 2 has been initialized successfully"

/-- `processHeaderParted`, `/repo/phase2/parted.go:67-104`; see `Phase2.processHeaderParted` -/
def processHeaderParted (H : Phase2.HeaderCodec) (cs : PartedR1CS F) (nbCons : Int) (phase1File : Bytes) :
    Go (St InitSt) (Phase1.Header × Phase2.Header) := do
  println "Processing the headers ..."
  let x ← quiet (Phase2.processHeaderParted H cs nbCons phase1File)
  printlns (circuitInfo x.2)
  pure x

/-- `InitializeFromPartedR1CS` after the files have been opened, `/repo/phase2/parted.go:30-63`; see `Phase2.initializeParted` -/
def initPartedBody (C : Curve F G1 G2 GT) (E : InitEnv F) (par : Par) (cs : PartedR1CS F) (nbCons : Int) (phase1File : Bytes) :
    Go (St InitSt) Unit := do
  println "Reading R1CS..."
  let (header1, header2) ← processHeaderParted E.header cs nbCons phase1File
  processLagrange C par E.dom header1 header2 phase1File
  println "Processing evaluation of [A]₁, [B]₁, [B]₂"
  quiet (Phase2.processEvaluationsParted C cs nbCons header1 header2 phase1File)
  println "Processing Delta and Z"
  quiet (Phase2.processDeltaAndZ C header2 phase1File)
  println "Processing PKK, VKK, and CKK"
  quiet (Phase2.processPVCKKParted C E.cmtBytes cs nbCons header2)
  println "Phase 2 has been initialized successfully"

/-! ### actions.go -/

/-- a command that ends before it prints anything -/
def silent (r : Except Fail Unit) (fs : FS) : Except Fail Unit × FS × List String := (r, fs, [])

/-- see `Cli.badArgs` -/
def badArgs (fs : FS) : Except Fail Unit × FS × List String := silent (.error (.err "please provide the correct arguments")) fs

/-- see `Cli.p1tRun` -/
def p1tRun (C : Curve F G1 G2 GT) (inp out : String) (inPower outPower : Int) (fs : FS) : Except Fail Unit × FS × List String :=
  if inPower < outPower then silent (.error (.err "cannot transform to a higher power")) fs
  else match openFile fs inp with
    | .error e => silent (.error e) fs
    | .ok bs =>
      let header := Phase1.Header.writeTo { power := toByte outPower, contributions := 0 }
      let r := transform C (toByte inPower) (toByte outPower) (if inp = out then header else bs)
      (r.1, fs.set out r.2.1, r.2.2)

/-- `p1t`, `/repo/actions.go:12-34`; see `Cli.p1t` -/
def p1t (C : Curve F G1 G2 GT) (args : List String) (fs : FS) : Except Fail Unit × FS × List String :=
  if args.length ≠ 4 then badArgs fs
  else match atoi (arg args 2) with
    | .error e => silent (.error e) fs
    | .ok inPower => match atoi (arg args 3) with
      | .error e => silent (.error e) fs
      | .ok outPower => p1tRun C (arg args 0) (arg args 1) inPower outPower fs

/-- `p1n`, `/repo/actions.go:36-52`; see `Cli.p1n` -/
def p1n (C : Curve F G1 G2 GT) (args : List String) (fs : FS) : Except Fail Unit × FS × List String :=
  if args.length ≠ 2 then badArgs fs
  else match atoi (arg args 0) with
    | .error e => silent (.error e) fs
    | .ok power =>
      if power > 26 then silent (.error (.err "can't support powers larger than 26")) fs
      else (.ok (), fs.set (arg args 1) (Phase1.initializeFile C (toByte power)), initializeOut (toByte power))

/-- `p1c`, `/repo/actions.go:54-63`; see `Cli.p1c` -/
def p1c (C : Curve F G1 G2 GT) (b : Nat) (par : Par) (rnd : Phase1.Rand F) (args : List String) (fs : FS) :
    Except Fail Unit × FS × List String :=
  if args.length ≠ 2 then badArgs fs
  else match openFile fs (arg args 0) with
    | .error e => silent (.error e) fs
    | .ok bs =>
      let r := p1Contribute C par b rnd (contentsAfterCreate (arg args 0) (arg args 1) bs)
      (r.1, fs.set (arg args 1) r.2.1, r.2.2)

/-- The transformed file of `phase1.Verify`, which is opened after the sections have been read,
`/repo/phase1/phase1.go:327` and `/repo/phase1/contribution.go:128`. A missing file is replaced by an empty one (simplification: the
error is another one, at the same place). -/
def transformedContents (fs : FS) (path : String) : Option Bytes := if path = "" then none else some (old fs path)

/-- `phase1.Verify(inputPath, transformedPath)`; see `Cli.p1Verify` -/
def p1VerifyFiles (C : Curve F G1 G2 GT) (b : Nat) (pol : Phase1.MsmPolicy) (par : Par) (vr : Phase1.VerifyRand F)
    (inp transformed : String) (fs : FS) : Except Fail Unit × FS × List String :=
  match openFile fs inp with
  | .error e => silent (.error e) fs
  | .ok bs =>
    let r := p1Verify C par pol b vr bs (transformedContents fs transformed)
    (r.1, fs, r.2)

/-- `p1v`, `/repo/actions.go:65-73` -/
def p1v (C : Curve F G1 G2 GT) (b : Nat) (pol : Phase1.MsmPolicy) (par : Par) (vr : Phase1.VerifyRand F) (args : List String) (fs : FS) :
    Except Fail Unit × FS × List String :=
  if args.length ≠ 1 then badArgs fs else p1VerifyFiles C b pol par vr (arg args 0) "" fs

/-- `p1vt`, `/repo/actions.go:75-84` -/
def p1vt (C : Curve F G1 G2 GT) (b : Nat) (pol : Phase1.MsmPolicy) (par : Par) (vr : Phase1.VerifyRand F) (args : List String) (fs : FS) :
    Except Fail Unit × FS × List String :=
  if args.length ≠ 2 then badArgs fs else p1VerifyFiles C b pol par vr (arg args 0) (arg args 1) fs

/-- `p2n`, `/repo/actions.go:86-97`; see `Cli.p2n`. The constraint system is opened after the first line has been printed. -/
def p2n (C : Curve F G1 G2 GT) (E : Env F G1) (par : Par) (args : List String) (fs : FS) : Except Fail Unit × FS × List String :=
  if args.length ≠ 3 then badArgs fs
  else match openFile fs (arg args 0) with
    | .error e => silent (.error e) fs
    | .ok phase1 =>
      let created := fs.set (arg args 2) []
      match openFile created (arg args 1) with
      | .error e => (.error e, created, ["Processing the headers ..."])
      | .ok r1cs =>
        let r := (initBody C E.init par (E.r1cs r1cs) (contentsAfterCreate (arg args 0) (arg args 2) phase1)).run
          ⟨⟨[], old fs "srs.lag", old fs "evals"⟩, []⟩
        (r.1, Cli.saveInit fs (arg args 2) r.2.st, r.2.out)

/-- see `Cli.p2npRun` -/
def p2npRun (C : Curve F G1 G2 GT) (E : Env F G1) (par : Par) (inp session out : String) (nbCons nbR1C batchSize : Int) (fs : FS) :
    Except Fail Unit × FS × List String :=
  match openFile fs inp with
  | .error e => silent (.error e) fs
  | .ok phase1 =>
    let cs := E.parted (fs.set out []) session nbR1C batchSize
    let r := (initPartedBody C E.init par cs nbCons (contentsAfterCreate inp out phase1)).run
      ⟨⟨[], old fs "srs.lag", old fs "evals"⟩, []⟩
    (r.1, Cli.saveInit fs out r.2.st, r.2.out)

/-- `p2np`, `/repo/actions.go:99-125`; see `Cli.p2np` -/
def p2np (C : Curve F G1 G2 GT) (E : Env F G1) (par : Par) (args : List String) (fs : FS) : Except Fail Unit × FS × List String :=
  if args.length ≠ 6 then badArgs fs
  else match atoi (arg args 3) with
    | .error e => silent (.error e) fs
    | .ok nbCons => match atoi (arg args 4) with
      | .error e => silent (.error e) fs
      | .ok nbR1C => match atoi (arg args 5) with
        | .error e => silent (.error e) fs
        | .ok batchSize => p2npRun C E par (arg args 0) (arg args 1) (arg args 2) nbCons nbR1C batchSize fs

/-- `p2c`, `/repo/actions.go:127-136`; see `Cli.p2c` -/
def p2c (C : Curve F G1 G2 GT) (E : Env F G1) (par : Par) (rnd : Phase2.Rand F) (args : List String) (fs : FS) :
    Except Fail Unit × FS × List String :=
  if args.length ≠ 2 then badArgs fs
  else match openFile fs (arg args 0) with
    | .error e => silent (.error e) fs
    | .ok bs =>
      let r := p2Contribute C E.init.header par E.batch rnd (contentsAfterCreate (arg args 0) (arg args 1) bs)
      (r.1, fs.set (arg args 1) r.2.1, r.2.2)

/-- `p2v`, `/repo/actions.go:138-147`, with the opening of files in `phase2.Verify`, `/repo/phase2/phase2.go:166-181` -/
def p2v (C : Curve F G1 G2 GT) (E : Env F G1) (par : Par) (vr : Phase2.VerifyRand F) (args : List String) (fs : FS) :
    Except Fail Unit × FS × List String :=
  if args.length ≠ 2 then badArgs fs
  else match openFile fs (arg args 0) with
    | .error e => silent (.error e) fs
    | .ok bs => match openFile fs (arg args 1) with
      | .error e => silent (.error e) fs
      | .ok org =>
        let r := p2Verify C E.init.header par E.batch vr bs org
        (r.1, fs, r.2)

/-- `ExtractKeys`, `ExtractSplitKeys`, `/repo/keys/keys.go:658-682`; `first` and `second` extract the two keys -/
def extractBoth (first second : FS → Except Fail Unit × FS) (fs : FS) : Except Fail Unit × FS × List String :=
  match first fs with
  | (.error e, fs) => (.error e, fs, ["Extracting proving key"])
  | (.ok _, fs) => match second fs with
    | (.error e, fs) => (.error e, fs, ["Extracting proving key", "Extracting verifying key"])
    | (.ok _, fs) =>
      (.ok (), fs, ["Extracting proving key", "Extracting verifying key", "Keys have been extracted successfully"])

/-- `extract`, `/repo/actions.go:149-157`; see `Cli.key` -/
def key (C : Curve F G1 G2 GT) (E : Env F G1) (args : List String) (fs : FS) : Except Fail Unit × FS × List String :=
  if args.length ≠ 1 then badArgs fs
  else extractBoth (Cli.withFiles (arg args 0) (Keys.extractPK C E.keys) fun fs o => fs.set "pk" o)
    (Cli.withFiles (arg args 0) (Keys.extractVK C E.keys) fun fs o => fs.set "vk" o) fs

/-- `extracts`, `/repo/actions.go:159-168`; see `Cli.keys` -/
def keys (C : Curve F G1 G2 GT) (E : Env F G1) (args : List String) (fs : FS) : Except Fail Unit × FS × List String :=
  if args.length ≠ 2 then badArgs fs
  else extractBoth (Cli.withFiles (arg args 0) (Keys.extractSplitPK C E.keys) (Cli.saveSplitPK (arg args 1)))
    (Cli.withFiles (arg args 0) (Keys.extractSplitVK C E.keys) (Cli.saveSplitVK (arg args 1))) fs

/-- `exportSol`, `/repo/actions.go:170-178`, with `ExportSol`, `/repo/keys/keys.go:684-704`; see `Cli.sol` -/
def sol (E : Env F G1) (args : List String) (fs : FS) : Except Fail Unit × FS × List String :=
  if args.length ≠ 1 then badArgs fs
  else
    let filename := arg args 0 ++ ".sol"
    match (fs (arg args 0 ++ ".vk.save")).bind E.solidity with
    | none => (.error (.panic "read file error"), fs, ["Exporting " ++ filename])
    | some text => (.ok (), fs.set filename text, ["Exporting " ++ filename, filename ++ " has been extracted successfully"])

/-- One process, `/repo/main.go:10-110`: result, files, lines printed; see `Cli.exec` -/
def exec (C : Curve F G1 G2 GT) (E : Env F G1) (d : Draws F) (command : String) (args : List String) (fs : FS) :
    Except Fail Unit × FS × List String :=
  match command with
  | "p1n" => p1n C args fs
  | "p1c" => p1c C E.batch d.par d.contribute1 args fs
  | "p1v" => p1v C E.batch E.pol d.par d.verify1 args fs
  | "p1t" => p1t C args fs
  | "p1vt" => p1vt C E.batch E.pol d.par d.verify1 args fs
  | "p2n" => p2n C E d.par args fs
  | "p2np" => p2np C E d.par args fs
  | "p2c" => p2c C E d.par d.contribute2 args fs
  | "p2v" => p2v C E d.par d.verify2 args fs
  | "key" => key C E args fs
  | "keys" => keys C E args fs
  | "sol" => sol E args fs
  | _ => silent (.error (.err "no help topic")) fs

end
end ZkSetup.Console
