import Verif.Model.Phase1
import Verif.Model.Phase2Init
import Verif.Model.Keys
/-
Model of the command line: `/repo/main.go`, `/repo/actions.go` and the file handling of the functions they call.

Simplifications. A file system is a map from paths to contents: a file has one path (no links, no `./` in front of it), paths are
files, `os.Create` succeeds. A command opens its input before it creates its output. If both are the same path, then what it reads
is the file it has just emptied. Beyond this, a path that a command both reads and writes is not modelled here: `p2n` and `p2np`
assume that no argument is `srs.lag` or `evals` and that the constraint system is not the phase 2 file (for this see
`Model/AliasInit.lean`), `key` and `keys` that the phase 2 file is not one of their outputs (for this see `Model/Alias.lean`). `p2n` and
`p2np` leave `srs.lag` and `evals` behind even if they fail before they create them.
Arguments are those that remain after the flags: the library takes an argument that begins with `-` for a flag unless it comes
after `--`. The library's own `help` command and `--help` flag, which print the usage and touch no file, are not modelled: `exec`
treats `help` as an unknown command.
-/
namespace ZkSetup.Cli

open Phase2 (InitEnv R1CS PartedR1CS)
open Keys (KeyEnv)
open Phase1 (MsmPolicy)

/-- contents of the files -/
abbrev FS := String → Option Bytes

/-- a file written from scratch -/
def FS.set (fs : FS) (path : String) (contents : Bytes) : FS := fun q => if q = path then some contents else fs q

/-- `os.Open` and the contents -/
def openFile (fs : FS) (path : String) : Except Fail Bytes :=
  match fs path with
  | some bs => .ok bs
  | none => .error (.err "no such file or directory")

/-- the value of a digit -/
def digit (c : Char) : Option Nat := if '0' ≤ c ∧ c ≤ '9' then some (c.toNat - '0'.toNat) else none

/-- the loop over the digits of `strconv.Atoi` -/
def atoiDigits (acc : Nat) : List Char → Option Nat
  | [] => some acc
  | c :: cs => match digit c with
    | some d => atoiDigits (acc * 10 + d) cs
    | none => none

/-- `strconv.Atoi` without its sign: at least one digit -/
def atoiNat : List Char → Option Nat
  | [] => none
  | cs => atoiDigits 0 cs

/-- `strconv.Atoi` without the range check -/
def atoiSigned : List Char → Option Int
  | '-' :: cs => (atoiNat cs).map fun n : Nat => -(n : Int)
  | '+' :: cs => (atoiNat cs).map fun n : Nat => (n : Int)
  | cs => (atoiNat cs).map fun n : Nat => (n : Int)

/-- `strconv.Atoi` for 64-bit `int` -/
def atoi (s : String) : Except Fail Int :=
  match atoiSigned s.toList with
  | some i => if -(2 ^ 63) ≤ i ∧ i < 2 ^ 63 then .ok i else .error (.err "value out of range")
  | none => .error (.err "invalid syntax")

/-- `byte(i)` -/
def toByte (i : Int) : UInt8 := UInt8.ofNat (i % 256).toNat

/-- `cCtx.Args().Get(i)` -/
def arg (args : List String) (i : Nat) : String := args.getD i ""

/-- What the commands depend on besides files and arguments. -/
structure Env (F G1 : Type) where
  init : InitEnv F
  keys : KeyEnv G1
  /-- `cs_bn254.R1CS.ReadFrom` -/
  r1cs : Bytes → Option (R1CS F)
  /-- `LoadFromSplitBinaryConcurrent(session, nbR1C, batchSize, …)` -/
  parted : FS → String → Int → Int → PartedR1CS F
  /-- `VerifyingKey.ReadFrom` followed by `ExportSolidity`, from gnark -/
  solidity : Bytes → Option Bytes
  /-- `batchSize` -/
  batch : Nat
  pol : MsmPolicy

/-- The random draws and the scheduling of one process. -/
structure Draws (F : Type) where
  par : Par
  contribute1 : Phase1.Rand F
  verify1 : Phase1.VerifyRand F
  contribute2 : Phase2.Rand F
  verify2 : Phase2.VerifyRand F

section
variable {F G1 G2 GT : Type} [Field F] [AddCommGroup G1] [Module F G1] [AddCommGroup G2]
  [Module F G2] [AddCommGroup GT] [Module F GT] [DecidableEq G1] [DecidableEq G2] [DecidableEq GT]

/-- `errors.New("please provide the correct arguments")` -/
def badArgs (fs : FS) : Except Fail Unit × FS := (.error (.err "please provide the correct arguments"), fs)

/-- `p1t` after the powers have been parsed, with `phase1.Transform`, `/repo/actions.go:29-34`, `/repo/phase1/phase1.go:17-41`.
If input and output are the same path, then the input is the file that has just been created and holds the header. -/
def p1tRun (C : Curve F G1 G2 GT) (inp out : String) (inPower outPower : Int) (fs : FS) : Except Fail Unit × FS :=
  if inPower < outPower then (.error (.err "cannot transform to a higher power"), fs)
  else match openFile fs inp with
    | .error e => (.error e, fs)
    | .ok bs =>
      let header := Phase1.Header.writeTo { power := toByte outPower, contributions := 0 }
      let r := Phase1.transform C (toByte inPower) (toByte outPower) (if inp = out then header else bs)
      (r.1, fs.set out r.2)

/-- `p1t`, `/repo/actions.go:12-34` -/
def p1t (C : Curve F G1 G2 GT) (args : List String) (fs : FS) : Except Fail Unit × FS :=
  if args.length ≠ 4 then badArgs fs
  else match atoi (arg args 2) with
    | .error e => (.error e, fs)
    | .ok inPower => match atoi (arg args 3) with
      | .error e => (.error e, fs)
      | .ok outPower => p1tRun C (arg args 0) (arg args 1) inPower outPower fs

/-- `p1n`, `/repo/actions.go:36-52`, with `phase1.Initialize` -/
def p1n (C : Curve F G1 G2 GT) (args : List String) (fs : FS) : Except Fail Unit × FS :=
  if args.length ≠ 2 then badArgs fs
  else match atoi (arg args 0) with
    | .error e => (.error e, fs)
    | .ok power =>
      if power > 26 then (.error (.err "can't support powers larger than 26"), fs)
      else (.ok (), fs.set (arg args 1) (Phase1.initializeFile C (toByte power)))

/-- What a command reads from `inp` if it creates `out` after opening `inp`: `os.Create` truncates, so that nothing is left if
the paths are the same. -/
def contentsAfterCreate (inp out : String) (bs : Bytes) : Bytes := if inp = out then [] else bs

/-- `p1c`, `/repo/actions.go:54-63`, with the opening of files in `phase1.Contribute`, `/repo/phase1/phase1.go:144-157` -/
def p1c (C : Curve F G1 G2 GT) (b : Nat) (par : Par) (rnd : Phase1.Rand F) (args : List String) (fs : FS) :
    Except Fail Unit × FS :=
  if args.length ≠ 2 then badArgs fs
  else match openFile fs (arg args 0) with
    | .error e => (.error e, fs)
    | .ok bs =>
      let r := Phase1.contribute C par b rnd (contentsAfterCreate (arg args 0) (arg args 1) bs)
      (r.1.map fun _ => (), fs.set (arg args 1) r.2)

/-- the transformed file of `phase1.Verify`: `transformedPath == ""` means that there is none -/
def openTransformed (fs : FS) (path : String) : Except Fail (Option Bytes) :=
  if path = "" then .ok none else (openFile fs path).map some

/-- `phase1.Verify(inputPath, transformedPath)`. The transformed file is opened up front here; the code opens it after reading the
sections. -/
def p1Verify (C : Curve F G1 G2 GT) (b : Nat) (pol : MsmPolicy) (par : Par) (vr : Phase1.VerifyRand F) (inp transformed : String)
    (fs : FS) : Except Fail Unit := do
  let bs ← openFile fs inp
  let tr ← openTransformed fs transformed
  Phase1.verify C par pol b vr bs tr

/-- `p1v`, `/repo/actions.go:65-73` -/
def p1v (C : Curve F G1 G2 GT) (b : Nat) (pol : MsmPolicy) (par : Par) (vr : Phase1.VerifyRand F) (args : List String) (fs : FS) :
    Except Fail Unit × FS :=
  if args.length ≠ 1 then badArgs fs else (p1Verify C b pol par vr (arg args 0) "" fs, fs)

/-- `p1vt`, `/repo/actions.go:75-84` -/
def p1vt (C : Curve F G1 G2 GT) (b : Nat) (pol : MsmPolicy) (par : Par) (vr : Phase1.VerifyRand F) (args : List String) (fs : FS) :
    Except Fail Unit × FS :=
  if args.length ≠ 2 then badArgs fs else (p1Verify C b pol par vr (arg args 0) (arg args 1) fs, fs)

/-- the files after `Initialize` and `InitializeFromPartedR1CS` -/
def saveInit (fs : FS) (out : String) (st : Phase2.InitSt) : FS := ((fs.set out st.ph2).set "srs.lag" st.lag).set "evals" st.evals

/-- contents of a file that may not exist -/
def old (fs : FS) (path : String) : Bytes := (fs path).getD []

/-- `p2n`, `/repo/actions.go:86-97`, with the opening of files in `phase2.Initialize`, `/repo/phase2/phase2.go:16-27` and
`/repo/phase2/utils.go:44-52`. -/
def p2n (C : Curve F G1 G2 GT) (E : Env F G1) (par : Par) (args : List String) (fs : FS) : Except Fail Unit × FS :=
  if args.length ≠ 3 then badArgs fs
  else match openFile fs (arg args 0) with
    | .error e => (.error e, fs)
    | .ok phase1 =>
      let created := fs.set (arg args 2) []
      match openFile created (arg args 1) with
      | .error e => (.error e, created)
      | .ok r1cs =>
        let r := Phase2.initializeFiles C E.init par (E.r1cs r1cs) (contentsAfterCreate (arg args 0) (arg args 2) phase1)
          (old fs "srs.lag") (old fs "evals")
        (r.1, saveInit fs (arg args 2) r.2)

/-- `p2np` after the numbers have been parsed, with the opening of files in `phase2.InitializeFromPartedR1CS`,
`/repo/phase2/parted.go:17-34`. -/
def p2npRun (C : Curve F G1 G2 GT) (E : Env F G1) (par : Par) (inp session out : String) (nbCons nbR1C batchSize : Int) (fs : FS) :
    Except Fail Unit × FS :=
  match openFile fs inp with
  | .error e => (.error e, fs)
  | .ok phase1 =>
    let cs := E.parted (fs.set out []) session nbR1C batchSize
    let r := Phase2.initializeParted C E.init par cs nbCons (contentsAfterCreate inp out phase1) (old fs "srs.lag") (old fs "evals")
    (r.1, saveInit fs out r.2)

/-- `p2np`, `/repo/actions.go:99-125` -/
def p2np (C : Curve F G1 G2 GT) (E : Env F G1) (par : Par) (args : List String) (fs : FS) : Except Fail Unit × FS :=
  if args.length ≠ 6 then badArgs fs
  else match atoi (arg args 3) with
    | .error e => (.error e, fs)
    | .ok nbCons => match atoi (arg args 4) with
      | .error e => (.error e, fs)
      | .ok nbR1C => match atoi (arg args 5) with
        | .error e => (.error e, fs)
        | .ok batchSize => p2npRun C E par (arg args 0) (arg args 1) (arg args 2) nbCons nbR1C batchSize fs

/-- `p2c`, `/repo/actions.go:127-136`, with the opening of files in `phase2.Contribute`, `/repo/phase2/phase2.go:58-77` -/
def p2c (C : Curve F G1 G2 GT) (E : Env F G1) (par : Par) (rnd : Phase2.Rand F) (args : List String) (fs : FS) :
    Except Fail Unit × FS :=
  if args.length ≠ 2 then badArgs fs
  else match openFile fs (arg args 0) with
    | .error e => (.error e, fs)
    | .ok bs =>
      let r := Phase2.contribute C E.init.header par E.batch rnd (contentsAfterCreate (arg args 0) (arg args 1) bs)
      (r.1.map fun _ => (), fs.set (arg args 1) r.2)

/-- `phase2.Verify(inputPath, originPath)` -/
def p2Verify (C : Curve F G1 G2 GT) (E : Env F G1) (par : Par) (vr : Phase2.VerifyRand F) (inp origin : String) (fs : FS) :
    Except Fail Unit := do
  let bs ← openFile fs inp
  let org ← openFile fs origin
  Phase2.verify C E.init.header par E.batch vr bs org

/-- `p2v`, `/repo/actions.go:138-147` -/
def p2v (C : Curve F G1 G2 GT) (E : Env F G1) (par : Par) (vr : Phase2.VerifyRand F) (args : List String) (fs : FS) :
    Except Fail Unit × FS :=
  if args.length ≠ 2 then badArgs fs else (p2Verify C E par vr (arg args 0) (arg args 1) fs, fs)

/-- The start of the extraction functions, `/repo/keys/keys.go:74-86` and the like: the phase 2 file and `evals` are opened, then
`body` runs and its output, if created, is `save`d. -/
def withFiles {O : Type} (ph2 : String) (body : Bytes → Bytes → Except Fail Unit × Option O) (save : FS → O → FS) (fs : FS) :
    Except Fail Unit × FS :=
  match openFile fs ph2 with
  | .error e => (.error e, fs)
  | .ok a => match openFile fs "evals" with
    | .error e => (.error e, fs)
    | .ok b =>
      let r := body a b
      (r.1, match r.2 with
        | some o => save fs o
        | none => fs)

/-- `if err := first; err != nil { return err }; if err := second; …` -/
def inOrder (first second : FS → Except Fail Unit × FS) (fs : FS) : Except Fail Unit × FS :=
  match first fs with
  | (.error e, fs) => (.error e, fs)
  | (.ok _, fs) => second fs

/-- `extract`, `/repo/actions.go:149-157`, with `ExtractKeys`, `/repo/keys/keys.go:658-669` -/
def key (C : Curve F G1 G2 GT) (E : Env F G1) (args : List String) (fs : FS) : Except Fail Unit × FS :=
  if args.length ≠ 1 then badArgs fs
  else inOrder (withFiles (arg args 0) (Keys.extractPK C E.keys) fun fs o => fs.set "pk" o)
    (withFiles (arg args 0) (Keys.extractVK C E.keys) fun fs o => fs.set "vk" o) fs

/-- the files of `extractSplitPK` -/
def saveSplitPK (session : String) (fs : FS) (o : Keys.SplitPK) : FS :=
  ((((((fs.set (session ++ ".pk.E.save") o.e).set (session ++ ".pk.A.save") o.a).set (session ++ ".pk.B1.save") o.b1).set
    (session ++ ".pk.Z.save") o.z).set (session ++ ".pk.K.save") o.k).set (session ++ ".pk.B2.save") o.b2)

/-- the files of `extractSplitVK` -/
def saveSplitVK (session : String) (fs : FS) (o : Keys.SplitVK) : FS :=
  let fs := fs.set (session ++ ".vk.save") o.vk
  match o.commitmentKey with
  | some bs => fs.set (session ++ ".pk.CommitmentKey.save") bs
  | none => fs

/-- `extracts`, `/repo/actions.go:159-168`, with `ExtractSplitKeys`, `/repo/keys/keys.go:671-682` -/
def keys (C : Curve F G1 G2 GT) (E : Env F G1) (args : List String) (fs : FS) : Except Fail Unit × FS :=
  if args.length ≠ 2 then badArgs fs
  else inOrder (withFiles (arg args 0) (Keys.extractSplitPK C E.keys) (saveSplitPK (arg args 1)))
    (withFiles (arg args 0) (Keys.extractSplitVK C E.keys) (saveSplitVK (arg args 1))) fs

/-- `exportSol`, `/repo/actions.go:170-178`, with `ExportSol`, `/repo/keys/keys.go:684-704`. A missing file is noticed by
`ReadFrom`. -/
def sol (E : Env F G1) (args : List String) (fs : FS) : Except Fail Unit × FS :=
  if args.length ≠ 1 then badArgs fs
  else match (fs (arg args 0 ++ ".vk.save")).bind E.solidity with
    | none => (.error (.panic "read file error"), fs)
    | some text => (.ok (), fs.set (arg args 0 ++ ".sol") text)

/-- One process, `/repo/main.go:10-110`. -/
def exec (C : Curve F G1 G2 GT) (E : Env F G1) (d : Draws F) (command : String) (args : List String) (fs : FS) :
    Except Fail Unit × FS :=
  match command with
  | "p1n" => p1n C args fs
  | "p1c" => p1c C E.batch d.par d.contribute1 args fs
  | "p1v" => p1v C E.batch E.pol d.par d.verify1 args fs
  | "p1t" => p1t C args fs
  | "p1vt" => p1vt C E.batch E.pol d.par d.verify1 args fs
  | "p2n" => p2n C E d.par args fs
  | "p2np" => p2np C E d.par args fs
  | "p2c" => p2c C E d.par d.contribute2 args fs
  | "p2v" => p2v C E d.par d.verify2 args fs
  | "key" => key C E args fs
  | "keys" => keys C E args fs
  | "sol" => sol E args fs
  | _ => (.error (.err "no help topic"), fs)

/-- A command line with the draws of its process. -/
structure Command (F : Type) where
  draws : Draws F
  name : String
  args : List String

/-- The file system after a sequence of processes; their results do not matter to the next ones. -/
def execAll (C : Curve F G1 G2 GT) (E : Env F G1) : List (Command F) → FS → FS
  | [], fs => fs
  | c :: cs, fs => execAll C E cs (exec C E c.draws c.name c.args fs).2

end
end ZkSetup.Cli
