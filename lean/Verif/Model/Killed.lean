import Verif.Model.AliasInit
/-
`p2n` and `p2np` when the process ends before it is done: an interrupt, a kill, a lost machine. The run is the one of `initOn`, with the
number of file operations that are still carried out. Of the write after those, the first `part` bytes reach the file.

The code's `bufio.Writer`s pass bytes on later than the model's writes, but within one step only one file is written (the end of
`processPVCKK` is modelled in its true order), so what is found in the files after a kill is what the model has after some kill.
-/
namespace ZkSetup.Cli

open Phase2 (InitEnv InitOps Loaded initOn)

/-- The files, and what is left to the process. -/
structure KilledSt where
  st : NamedSt
  left : Nat
  part : Nat

/-- the end of a process that has been killed (no line of the code: nothing is run after it, not even deferred calls) -/
def killed : Fail := .err "killed"

/-- A file operation; `torn k` is a write of which `k` bytes reach the file. -/
def KilledSt.act (op : Go NamedSt Unit) (torn : Nat → Go NamedSt Unit) : Go KilledSt Unit := ⟨fun s =>
  match s.left with
  | 0 => (.error killed, { s with st := ((torn s.part).run s.st).2 })
  | n + 1 => ((op.run s.st).1, ⟨(op.run s.st).2, n, s.part⟩)⟩

/-- a read -/
def KilledSt.look {α : Type} (op : Go NamedSt α) : Go KilledSt α := ⟨fun s => ((op.run s.st).1, { s with st := (op.run s.st).2 })⟩

/-- a write to the phase 2 file -/
def KilledSt.emitPh2 (out : String) (bs : Bytes) : Go KilledSt Unit :=
  KilledSt.act (NamedSt.emitPh2 out bs) fun k => NamedSt.emitPh2 out (bs.take k)

/-- a write at the end of a file -/
def KilledSt.append (path : String) (bs : Bytes) : Go KilledSt Unit :=
  KilledSt.act (NamedSt.append path bs) fun k => NamedSt.append path (bs.take k)

/-- `os.Create` -/
def KilledSt.create (path : String) : Go KilledSt Unit := KilledSt.act (NamedSt.create path) fun _ => pure ()

/-- The end of `processPVCKK`, `/repo/phase2/utils.go:345-373`, see `NamedSt.finish` -/
def KilledSt.finish (out : String) (pkk vkk ckk cmt : Bytes) : Go KilledSt Unit := do
  KilledSt.emitPh2 out (Keys.passedOn pkk)
  KilledSt.append "evals" vkk
  KilledSt.append "evals" ckk
  KilledSt.append "evals" cmt
  KilledSt.emitPh2 out (pkk.drop (Keys.passedOn pkk).length)

section
variable {F G1 G2 GT : Type} [Field F] [AddCommGroup G1] [Module F G1] [AddCommGroup G2]
  [Module F G2] [AddCommGroup GT] [Module F GT]

/-- the file operations of `namedInit` -/
def killedInit (inp out : String) (load : FS → Except Fail (Loaded F G1 G2)) : InitOps F G1 G2 KilledSt where
  ph1 := KilledSt.look (NamedSt.contents inp)
  load := KilledSt.look ⟨fun s => (load s.fs, s)⟩
  emitPh2 := KilledSt.emitPh2 out
  createLag := KilledSt.create "srs.lag"
  emitLag := KilledSt.append "srs.lag"
  openLag := KilledSt.look (NamedSt.contents "srs.lag")
  createEvals := KilledSt.create "evals"
  emitEvals := KilledSt.append "evals"
  finish := KilledSt.finish out

/-- The opening of files in `phase2.Initialize`, `/repo/phase2/phase2.go:16-27`, and in `phase2.InitializeFromPartedR1CS`,
`/repo/phase2/parted.go:18-29`, and what follows, with `n` file operations carried out -/
def initKilled (C : Curve F G1 G2 GT) (E : Env F G1) (par : Par) (n part : Nat) (inp out : String)
    (load : FS → Except Fail (Loaded F G1 G2)) (fs : FS) : Except Fail Unit × FS :=
  match openFile fs inp with
  | .error e => (.error e, fs)
  | .ok _ =>
    match n with
    | 0 => (.error killed, fs)
    | n + 1 =>
      let r := (initOn (killedInit inp out load) C E.init par).run ⟨⟨fs.set out [], 0⟩, n, part⟩
      (r.1, r.2.st.fs)

/-- `p2n`, `/repo/actions.go:86-97` -/
def p2nKilled (C : Curve F G1 G2 GT) (E : Env F G1) (par : Par) (n part : Nat) (args : List String) (fs : FS) : Except Fail Unit × FS :=
  if args.length ≠ 3 then badArgs fs
  else initKilled C E par n part (arg args 0) (arg args 2) (loadR1CS E (arg args 1)) fs

/-- `p2np`, `/repo/actions.go:99-125` -/
def p2npKilled (C : Curve F G1 G2 GT) (E : Env F G1) (par : Par) (n part : Nat) (args : List String) (fs : FS) : Except Fail Unit × FS :=
  if args.length ≠ 6 then badArgs fs
  else match atoi (arg args 3) with
    | .error e => (.error e, fs)
    | .ok nbCons => match atoi (arg args 4) with
      | .error e => (.error e, fs)
      | .ok nbR1C => match atoi (arg args 5) with
        | .error e => (.error e, fs)
        | .ok batchSize => initKilled C E par n part (arg args 0) (arg args 2)
            (fun _ => .ok (.ofParted (E.parted (fs.set (arg args 2) []) (arg args 1) nbR1C batchSize) nbCons)) fs

end
end ZkSetup.Cli
