import Verif.Model.AliasInit
/-
`p2n`, `p2np`, `key` and `keys` while other programs change files. `p2n` and `p2np` use the files `srs.lag` and `evals` of the working directory, so that another
command in the same directory can come in between.

The others act before each file operation of `p2n`: `g n` is what they do to the files before the `n`-th one. A file is read at once,
and a handle of `srs.lag` or `evals` writes at the end of the file; so the model is exact only as long as the others leave alone a file
that `p2n` is in the middle of reading or writing. The first two operations, `os.Open` of the phase 1 file and `os.Create` of the
phase 2 file, follow each other directly.
-/
namespace ZkSetup.Cli

open Phase2 (InitEnv R1CS PartedR1CS InitOps Loaded initOn)

/-- the files with the handle of the phase 2 file, and the number of file operations so far -/
structure BusySt where
  st : NamedSt
  time : Nat

/-- a file operation of `p2n`, after what the others have done before it -/
def disturb {α : Type} (g : Nat → FS → FS) (x : Go NamedSt α) : Go BusySt α := ⟨fun s =>
  let r := x.run { s.st with fs := g s.time s.st.fs }
  (r.1, ⟨r.2, s.time + 1⟩)⟩

section
variable {F G1 G2 GT : Type} [Field F] [AddCommGroup G1] [Module F G1] [AddCommGroup G2]
  [Module F G2] [AddCommGroup GT] [Module F GT]

/-- the file operations of `namedInit`, each disturbed; the writes at the end of `processPVCKK` (`NamedSt.finish`) are five operations -/
def busyInit (g : Nat → FS → FS) (inp out : String) (load : FS → Except Fail (Loaded F G1 G2)) : InitOps F G1 G2 BusySt where
  ph1 := disturb g (NamedSt.contents inp)
  load := disturb g ⟨fun s => (load s.fs, s)⟩
  emitPh2 b := disturb g (NamedSt.emitPh2 out b)
  createLag := disturb g (NamedSt.create "srs.lag")
  emitLag b := disturb g (NamedSt.append "srs.lag" b)
  openLag := disturb g (NamedSt.contents "srs.lag")
  createEvals := disturb g (NamedSt.create "evals")
  emitEvals b := disturb g (NamedSt.append "evals" b)
  finish pkk vkk ckk cmt := do
    disturb g (NamedSt.emitPh2 out (Keys.passedOn pkk))
    disturb g (NamedSt.append "evals" vkk)
    disturb g (NamedSt.append "evals" ckk)
    disturb g (NamedSt.append "evals" cmt)
    disturb g (NamedSt.emitPh2 out (pkk.drop (Keys.passedOn pkk).length))

/-- `phase2.Initialize` and `phase2.InitializeFromPartedR1CS`, `/repo/phase2/phase2.go:15-55`, `/repo/phase2/parted.go:20-62`, with others
at work. The last component is the number of file operations. -/
def initBusy (C : Curve F G1 G2 GT) (E : Env F G1) (par : Par) (g : Nat → FS → FS) (inp out : String)
    (load : FS → Except Fail (Loaded F G1 G2)) (fs : FS) : Except Fail Unit × FS × Nat :=
  match openFile fs inp with
  | .error e => (.error e, fs, 0)
  | .ok _ =>
    let r := (initOn (busyInit g inp out load) C E.init par).run ⟨⟨fs.set out [], 0⟩, 0⟩
    (r.1, r.2.st.fs, r.2.time)

/-- `p2n`, `/repo/actions.go:86-97`, with others at work -/
def p2nBusy (C : Curve F G1 G2 GT) (E : Env F G1) (par : Par) (g : Nat → FS → FS) (args : List String) (fs : FS) :
    Except Fail Unit × FS × Nat :=
  if args.length ≠ 3 then ((badArgs fs).1, (badArgs fs).2, 0)
  else initBusy C E par g (arg args 0) (arg args 2) (loadR1CS E (arg args 1)) fs

/-- `p2np`, `/repo/actions.go:99-125`, with others at work. As in `p2npAny` the session is read once, at the start: the others leave the
files of the session alone. -/
def p2npBusy (C : Curve F G1 G2 GT) (E : Env F G1) (par : Par) (g : Nat → FS → FS) (args : List String) (fs : FS) :
    Except Fail Unit × FS × Nat :=
  if args.length ≠ 6 then ((badArgs fs).1, (badArgs fs).2, 0)
  else match atoi (arg args 3) with
    | .error e => (.error e, fs, 0)
    | .ok nbCons => match atoi (arg args 4) with
      | .error e => (.error e, fs, 0)
      | .ok nbR1C => match atoi (arg args 5) with
        | .error e => (.error e, fs, 0)
        | .ok batchSize => initBusy C E par g (arg args 0) (arg args 2)
            (fun _ => .ok (.ofParted (E.parted (fs.set (arg args 2) []) (arg args 1) nbR1C batchSize) nbCons)) fs

/-- `withFiles` with others at work before the phase 2 file is opened, before `evals` is opened and before the output is created. The
output is written at once. -/
def withFilesBusy {O : Type} (g : Nat → FS → FS) (n : Nat) (ph2 : String) (body : Bytes → Bytes → Except Fail Unit × Option O)
    (save : FS → O → FS) (fs : FS) : Except Fail Unit × FS :=
  let fs := g n fs
  match openFile fs ph2 with
  | .error e => (.error e, fs)
  | .ok a =>
    let fs := g (n + 1) fs
    match openFile fs "evals" with
    | .error e => (.error e, fs)
    | .ok b =>
      let r := body a b
      (r.1, match r.2 with
        | some o => save (g (n + 2) fs) o
        | none => fs)

variable [DecidableEq G1] [DecidableEq G2]

/-- `extract`, `/repo/actions.go:149-157`, with `ExtractKeys`, `/repo/keys/keys.go:658-669`, with others at work. The phase 2 file and
`evals` are opened by `extractPK`, `/repo/keys/keys.go:73-86`, and again by `extractVK`, `/repo/keys/keys.go:464-478`. -/
def keyBusy (C : Curve F G1 G2 GT) (E : Env F G1) (g : Nat → FS → FS) (args : List String) (fs : FS) : Except Fail Unit × FS :=
  if args.length ≠ 1 then badArgs fs
  else inOrder (withFilesBusy g 0 (arg args 0) (Keys.extractPK C E.keys) fun fs o => fs.set "pk" o)
    (withFilesBusy g 3 (arg args 0) (Keys.extractVK C E.keys) fun fs o => fs.set "vk" o) fs

/-- `extracts`, `/repo/actions.go:159-168`, with `ExtractSplitKeys`, `/repo/keys/keys.go:671-682`, with others at work -/
def keysBusy (C : Curve F G1 G2 GT) (E : Env F G1) (g : Nat → FS → FS) (args : List String) (fs : FS) : Except Fail Unit × FS :=
  if args.length ≠ 2 then badArgs fs
  else inOrder (withFilesBusy g 0 (arg args 0) (Keys.extractSplitPK C E.keys) (saveSplitPK (arg args 1)))
    (withFilesBusy g 3 (arg args 0) (Keys.extractSplitVK C E.keys) (saveSplitVK (arg args 1))) fs

end
end ZkSetup.Cli
