import Verif.Model.Killed
import Verif.Model.Denied
/-
Every command of the tool when its process ends before it is done. `p2n` and `p2np` are those of `Model/Killed.lean`. The others write each
output from its beginning to its end, so that after a kill some of the outputs, in the order of their creation, hold the first bytes of what
they would have held, and the others are as they were.

Simplification: how far the bytes of one output have come is not tied to how far those of another one have come. The code's
`bufio.Writer`s allow fewer combinations than the model has, so what is proved for all kills of the model holds for those of the code.
-/
namespace ZkSetup.Cli

/-- Where a process ends. -/
structure Stop where
  /-- the number of outputs it has created (in the extraction it is in), or more than there are if it gets past them -/
  files : Nat
  /-- how many bytes have reached a file -/
  len : String → Nat
  /-- whether `key` and `keys` have come to the verifying key -/
  second : Bool
  /-- for `p2n` and `p2np`: the number of file operations, and of bytes of the last one -/
  ops : Nat
  part : Nat

/-- The creation and writing of outputs, given with their final contents, and what follows (no lines of the code: see the callers) -/
def Stop.during (s : Stop) (outs : List (String × Bytes)) (fs : FS) (rest : Except Fail Unit × FS) : Except Fail Unit × FS :=
  if outs.length < s.files then rest
  else (.error killed, (outs.take s.files).foldl (fun fs o => fs.set o.1 (o.2.take (s.len o.1))) fs)

section
variable {F G1 G2 GT : Type} [Field F] [AddCommGroup G1] [Module F G1] [AddCommGroup G2]
  [Module F G2] [AddCommGroup GT] [Module F GT]

/-- `p1t`, `/repo/actions.go:12-34`, `/repo/phase1/phase1.go:17-83`: nothing is written before `os.Create` -/
def p1tKilled (C : Curve F G1 G2 GT) (s : Stop) (args : List String) (fs : FS) : Except Fail Unit × FS :=
  if args.length ≠ 4 then badArgs fs
  else match atoi (arg args 2) with
    | .error e => (.error e, fs)
    | .ok inPower => match atoi (arg args 3) with
      | .error e => (.error e, fs)
      | .ok outPower =>
        if inPower < outPower then (.error (.err "cannot transform to a higher power"), fs)
        else match openFile fs (arg args 0) with
          | .error e => (.error e, fs)
          | .ok _ =>
            let r := p1tRun C (arg args 0) (arg args 1) inPower outPower fs
            s.during [(arg args 1, old r.2 (arg args 1))] fs r

/-- `p1n`, `/repo/actions.go:36-52`, `/repo/phase1/phase1.go:85-149` -/
def p1nKilled (C : Curve F G1 G2 GT) (s : Stop) (args : List String) (fs : FS) : Except Fail Unit × FS :=
  if args.length ≠ 2 then badArgs fs
  else match atoi (arg args 0) with
    | .error e => (.error e, fs)
    | .ok power =>
      if power > 26 then (.error (.err "can't support powers larger than 26"), fs)
      else s.during [(arg args 1, Phase1.initializeFile C (toByte power))] fs (p1n C args fs)

variable [DecidableEq G1] [DecidableEq G2]

/-- `p1c`, `/repo/actions.go:54-63`, `/repo/phase1/phase1.go:151-273` -/
def p1cKilled (C : Curve F G1 G2 GT) (s : Stop) (b : Nat) (par : Par) (rnd : Phase1.Rand F) (args : List String) (fs : FS) :
    Except Fail Unit × FS :=
  if args.length ≠ 2 then badArgs fs
  else match openFile fs (arg args 0) with
    | .error e => (.error e, fs)
    | .ok _ =>
      let r := p1c C b par rnd args fs
      s.during [(arg args 1, old r.2 (arg args 1))] fs r

/-- `p2c`, `/repo/actions.go:127-136`, `/repo/phase2/phase2.go:58-163` -/
def p2cKilled (C : Curve F G1 G2 GT) (s : Stop) (E : Env F G1) (par : Par) (rnd : Phase2.Rand F) (args : List String) (fs : FS) :
    Except Fail Unit × FS :=
  if args.length ≠ 2 then badArgs fs
  else match openFile fs (arg args 0) with
    | .error e => (.error e, fs)
    | .ok _ =>
      let r := p2c C E par rnd args fs
      s.during [(arg args 1, old r.2 (arg args 1))] fs r

/-- the files of `extractSplitPK` with their contents, `/repo/keys/keys.go:267-324` -/
def splitPKFiles (session : String) (o : Keys.SplitPK) : List (String × Bytes) :=
  (splitNames session).zip [o.e, o.a, o.b1, o.z, o.k, o.b2]

/-- the files of `extractSplitVK` with their contents, `/repo/keys/keys.go:582-586`, `/repo/keys/keys.go:643-647` -/
def splitVKFiles (session : String) (o : Keys.SplitVK) : List (String × Bytes) :=
  (session ++ ".vk.save", o.vk) :: (match o.commitmentKey with
    | some bs => [(session ++ ".pk.CommitmentKey.save", bs)]
    | none => [])

variable [DecidableEq GT]

/-- `key`, `/repo/actions.go:149-157`, with `extractPK`, `/repo/keys/keys.go:73-103`, and `extractVK`, `/repo/keys/keys.go:464-495` -/
def keyKilled (C : Curve F G1 G2 GT) (s : Stop) (E : Env F G1) (args : List String) (fs : FS) : Except Fail Unit × FS :=
  if args.length ≠ 1 then badArgs fs
  else inOrder
    (withFilesMay (arg args 0) (Keys.extractPK C E.keys) fun fs r o =>
      if s.second then (r, fs.set "pk" o) else s.during [("pk", o)] fs (r, fs.set "pk" o))
    (withFilesMay (arg args 0) (Keys.extractVK C E.keys) fun fs r o =>
      if s.second then s.during [("vk", o)] fs (r, fs.set "vk" o) else (r, fs.set "vk" o)) fs

/-- `keys`, `/repo/actions.go:159-168` -/
def keysKilled (C : Curve F G1 G2 GT) (s : Stop) (E : Env F G1) (args : List String) (fs : FS) : Except Fail Unit × FS :=
  if args.length ≠ 2 then badArgs fs
  else inOrder
    (withFilesMay (arg args 0) (Keys.extractSplitPK C E.keys) fun fs r o =>
      if s.second then (r, saveSplitPK (arg args 1) fs o)
      else s.during (splitPKFiles (arg args 1) o) fs (r, saveSplitPK (arg args 1) fs o))
    (withFilesMay (arg args 0) (Keys.extractSplitVK C E.keys) fun fs r o =>
      if s.second then s.during (splitVKFiles (arg args 1) o) fs (r, saveSplitVK (arg args 1) fs o)
      else (r, saveSplitVK (arg args 1) fs o)) fs

/-- `sol`, `/repo/actions.go:170-178`, `/repo/keys/keys.go:684-704` -/
def solKilled (s : Stop) (E : Env F G1) (args : List String) (fs : FS) : Except Fail Unit × FS :=
  if args.length ≠ 1 then badArgs fs
  else match (fs (arg args 0 ++ ".vk.save")).bind E.solidity with
    | none => (.error (.panic "read file error"), fs)
    | some text => s.during [(arg args 0 ++ ".sol", text)] fs (sol E args fs)

/-- One process, `/repo/main.go:10-110`. The verifications write nothing, and what they print before a kill is not modelled. -/
def execKilled (C : Curve F G1 G2 GT) (s : Stop) (E : Env F G1) (d : Draws F) (command : String) (args : List String) (fs : FS) :
    Except Fail Unit × FS :=
  match command with
  | "p1n" => p1nKilled C s args fs
  | "p1c" => p1cKilled C s E.batch d.par d.contribute1 args fs
  | "p1t" => p1tKilled C s args fs
  | "p2n" => p2nKilled C E d.par s.ops s.part args fs
  | "p2np" => p2npKilled C E d.par s.ops s.part args fs
  | "p2c" => p2cKilled C s E d.par d.contribute2 args fs
  | "key" => keyKilled C s E args fs
  | "keys" => keysKilled C s E args fs
  | "sol" => solKilled s E args fs
  | command => exec C E d command args fs

end
end ZkSetup.Cli
