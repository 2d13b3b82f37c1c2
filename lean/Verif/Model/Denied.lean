import Verif.Model.AliasInit
/-
The commands when some files cannot be created: no permission, a directory of that name, a missing directory. `may path` says whether
`os.Create(path)` succeeds. Each command stops where the code returns the error of `os.Create`. Files that cannot be read count as missing.
-/
namespace ZkSetup.Cli

open Phase2 (InitEnv InitOps Loaded initOn)

/-- the error of `os.Create` -/
def denied : Fail := .err "permission denied"

/-- `f, err := os.Create(path); if err != nil { return err }`, then the rest -/
def creating (may : String → Bool) (path : String) (fs : FS) (rest : Except Fail Unit × FS) : Except Fail Unit × FS :=
  if may path then rest else (.error denied, fs)

section
variable {F G1 G2 GT : Type} [Field F] [AddCommGroup G1] [Module F G1] [AddCommGroup G2]
  [Module F G2] [AddCommGroup GT] [Module F GT]

/-- `p1t`, `/repo/actions.go:12-34`, `/repo/phase1/phase1.go:17-34`: the comparison of the powers, `os.Open`, `os.Create` -/
def p1tMay (C : Curve F G1 G2 GT) (may : String → Bool) (args : List String) (fs : FS) : Except Fail Unit × FS :=
  if args.length ≠ 4 then badArgs fs
  else match atoi (arg args 2) with
    | .error e => (.error e, fs)
    | .ok inPower => match atoi (arg args 3) with
      | .error e => (.error e, fs)
      | .ok outPower =>
        if inPower < outPower then (.error (.err "cannot transform to a higher power"), fs)
        else match openFile fs (arg args 0) with
          | .error e => (.error e, fs)
          | .ok _ => creating may (arg args 1) fs (p1tRun C (arg args 0) (arg args 1) inPower outPower fs)

/-- `p1n`, `/repo/actions.go:36-52`, `/repo/phase1/phase1.go:85-91` -/
def p1nMay (C : Curve F G1 G2 GT) (may : String → Bool) (args : List String) (fs : FS) : Except Fail Unit × FS :=
  if args.length ≠ 2 then badArgs fs
  else match atoi (arg args 0) with
    | .error e => (.error e, fs)
    | .ok power =>
      if power > 26 then (.error (.err "can't support powers larger than 26"), fs)
      else creating may (arg args 1) fs (p1n C args fs)

variable [DecidableEq G1] [DecidableEq G2]

/-- `p1c`, `/repo/actions.go:54-63`, `/repo/phase1/phase1.go:151-164` -/
def p1cMay (C : Curve F G1 G2 GT) (may : String → Bool) (b : Nat) (par : Par) (rnd : Phase1.Rand F) (args : List String) (fs : FS) :
    Except Fail Unit × FS :=
  if args.length ≠ 2 then badArgs fs
  else match openFile fs (arg args 0) with
    | .error e => (.error e, fs)
    | .ok _ => creating may (arg args 1) fs (p1c C b par rnd args fs)

/-- `p2c`, `/repo/actions.go:127-136`, `/repo/phase2/phase2.go:58-72` -/
def p2cMay (C : Curve F G1 G2 GT) (may : String → Bool) (E : Env F G1) (par : Par) (rnd : Phase2.Rand F) (args : List String) (fs : FS) :
    Except Fail Unit × FS :=
  if args.length ≠ 2 then badArgs fs
  else match openFile fs (arg args 0) with
    | .error e => (.error e, fs)
    | .ok _ => creating may (arg args 1) fs (p2c C E par rnd args fs)

/-- `os.Create(path)` -/
def NamedSt.createMay (may : String → Bool) (path : String) : Go NamedSt Unit := ⟨fun s =>
  if may path then (NamedSt.create path).run s else (.error denied, s)⟩

/-- the file operations of `namedInit`; `srs.lag`, `/repo/phase2/utils.go:89-92`, and `evals`, `/repo/phase2/utils.go:134-137`,
`/repo/phase2/parted.go:115-118`, may be refused. (`evals` is opened again to append, but then it has just been created.) -/
def mayInit (may : String → Bool) (inp out : String) (load : FS → Except Fail (Loaded F G1 G2)) : InitOps F G1 G2 NamedSt where
  ph1 := NamedSt.contents inp
  load := ⟨fun s => (load s.fs, s)⟩
  emitPh2 := NamedSt.emitPh2 out
  createLag := NamedSt.createMay may "srs.lag"
  emitLag := NamedSt.append "srs.lag"
  openLag := NamedSt.contents "srs.lag"
  createEvals := NamedSt.createMay may "evals"
  emitEvals := NamedSt.append "evals"
  finish := NamedSt.finish out

/-- The opening of files in `phase2.Initialize`, `/repo/phase2/phase2.go:16-27`, and in `phase2.InitializeFromPartedR1CS`,
`/repo/phase2/parted.go:18-29`, and what follows -/
def initMay (C : Curve F G1 G2 GT) (may : String → Bool) (E : Env F G1) (par : Par) (inp out : String)
    (load : FS → Except Fail (Loaded F G1 G2)) (fs : FS) : Except Fail Unit × FS :=
  match openFile fs inp with
  | .error e => (.error e, fs)
  | .ok _ =>
    let r := (initOn (mayInit may inp out load) C E.init par).run ⟨fs.set out [], 0⟩
    creating may out fs (r.1, r.2.fs)

/-- `p2n`, `/repo/actions.go:86-97` -/
def p2nMay (C : Curve F G1 G2 GT) (may : String → Bool) (E : Env F G1) (par : Par) (args : List String) (fs : FS) : Except Fail Unit × FS :=
  if args.length ≠ 3 then badArgs fs
  else initMay C may E par (arg args 0) (arg args 2) (loadR1CS E (arg args 1)) fs

/-- `p2np`, `/repo/actions.go:99-125` -/
def p2npMay (C : Curve F G1 G2 GT) (may : String → Bool) (E : Env F G1) (par : Par) (args : List String) (fs : FS) : Except Fail Unit × FS :=
  if args.length ≠ 6 then badArgs fs
  else match atoi (arg args 3) with
    | .error e => (.error e, fs)
    | .ok nbCons => match atoi (arg args 4) with
      | .error e => (.error e, fs)
      | .ok nbR1C => match atoi (arg args 5) with
        | .error e => (.error e, fs)
        | .ok batchSize => initMay C may E par (arg args 0) (arg args 2)
            (fun _ => .ok (.ofParted (E.parted (fs.set (arg args 2) []) (arg args 1) nbR1C batchSize) nbCons)) fs

/-- `withFiles`: the output is created after both files have been opened and the header has been read; `create` is what becomes of the
files then. -/
def withFilesMay {O : Type} (ph2 : String) (body : Bytes → Bytes → Except Fail Unit × Option O)
    (create : FS → Except Fail Unit → O → Except Fail Unit × FS) (fs : FS) : Except Fail Unit × FS :=
  match openFile fs ph2 with
  | .error e => (.error e, fs)
  | .ok a => match openFile fs "evals" with
    | .error e => (.error e, fs)
    | .ok b =>
      let r := body a b
      match r.2 with
      | some o => create fs r.1 o
      | none => (r.1, fs)

/-- the six files of `extractSplitPK` in the order of their creation, `/repo/keys/keys.go:267-324` -/
def splitNames (session : String) : List String :=
  [".pk.E.save", ".pk.A.save", ".pk.B1.save", ".pk.Z.save", ".pk.K.save", ".pk.B2.save"].map (session ++ ·)

/-- the creation of several files one after the other: those before the first one that is refused have been emptied -/
def creatingAll (may : String → Bool) : List String → FS → Except Fail Unit × FS → Except Fail Unit × FS
  | [], _, rest => rest
  | p :: ps, fs, rest => creating may p fs (creatingAll may ps (fs.set p []) rest)

/-- the files of `extractSplitVK`: `.vk.save` is created first, `/repo/keys/keys.go:582-586`. `.pk.CommitmentKey.save` is created last,
`/repo/keys/keys.go:643-647`; if it is refused, `.vk.save` is complete. -/
def creatingSplitVK (may : String → Bool) (session : String) (fs : FS) (r : Except Fail Unit) (o : Keys.SplitVK) : Except Fail Unit × FS :=
  creating may (session ++ ".vk.save") fs
    (match o.commitmentKey with
    | none => (r, saveSplitVK session fs o)
    | some _ => creating may (session ++ ".pk.CommitmentKey.save") (fs.set (session ++ ".vk.save") o.vk) (r, saveSplitVK session fs o))

variable [DecidableEq GT]

/-- `key`, `/repo/actions.go:149-157`, with `extractPK`, `/repo/keys/keys.go:73-103`, and `extractVK`, `/repo/keys/keys.go:464-495` -/
def keyMay (C : Curve F G1 G2 GT) (may : String → Bool) (E : Env F G1) (args : List String) (fs : FS) : Except Fail Unit × FS :=
  if args.length ≠ 1 then badArgs fs
  else inOrder (withFilesMay (arg args 0) (Keys.extractPK C E.keys) fun fs r o => creating may "pk" fs (r, fs.set "pk" o))
    (withFilesMay (arg args 0) (Keys.extractVK C E.keys) fun fs r o => creating may "vk" fs (r, fs.set "vk" o)) fs

/-- `keys`, `/repo/actions.go:159-168` -/
def keysMay (C : Curve F G1 G2 GT) (may : String → Bool) (E : Env F G1) (args : List String) (fs : FS) : Except Fail Unit × FS :=
  if args.length ≠ 2 then badArgs fs
  else inOrder (withFilesMay (arg args 0) (Keys.extractSplitPK C E.keys) fun fs r o =>
      creatingAll may (splitNames (arg args 1)) fs (r, saveSplitPK (arg args 1) fs o))
    (withFilesMay (arg args 0) (Keys.extractSplitVK C E.keys) (creatingSplitVK may (arg args 1))) fs

/-- `sol`, `/repo/actions.go:170-178`, `/repo/keys/keys.go:684-704`. Here the error of `os.Create` is a panic. -/
def solMay (may : String → Bool) (E : Env F G1) (args : List String) (fs : FS) : Except Fail Unit × FS :=
  if args.length ≠ 1 then badArgs fs
  else match (fs (arg args 0 ++ ".vk.save")).bind E.solidity with
    | none => (.error (.panic "read file error"), fs)
    | some _ => if may (arg args 0 ++ ".sol") then sol E args fs else (.error (.panic "permission denied"), fs)

/-- One process, `/repo/main.go:10-110`. -/
def execMay (C : Curve F G1 G2 GT) (may : String → Bool) (E : Env F G1) (d : Draws F) (command : String) (args : List String) (fs : FS) :
    Except Fail Unit × FS :=
  match command with
  | "p1n" => p1nMay C may args fs
  | "p1c" => p1cMay C may E.batch d.par d.contribute1 args fs
  | "p1t" => p1tMay C may args fs
  | "p2n" => p2nMay C may E d.par args fs
  | "p2np" => p2npMay C may E d.par args fs
  | "p2c" => p2cMay C may E d.par d.contribute2 args fs
  | "key" => keyMay C may E args fs
  | "keys" => keysMay C may E args fs
  | "sol" => solMay may E args fs
  | command => exec C E d command args fs

end
end ZkSetup.Cli
