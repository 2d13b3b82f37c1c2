import Verif.Model.Alias
/-
`p2n` and `p2np` with any file names, also `srs.lag` and `evals`, which these commands write and read themselves, and also a constraint
system or a phase 1 file that is the phase 2 file to be written.

A file has one path, as in `Model/Cli.lean`. All handles of a path see the same contents. The handle of the phase 2 file has its own
position, so that after the file has been emptied by a second `os.Create` the next write goes to that position; a gap in front of it
reads as zeros. Within a step the code writes to its `bufio.Writer` only after its last read of a file that it could be writing to (but for
[δ]₁ and [δ]₂, 96 bytes, which stay in the buffer while TauG1 is read), so files are read here as they are at the start of a read.
The bodies are those of `Model/Phase2Init.lean` with the file operations as a parameter; with the operations used there they are the same
functions (`initOn_plain`, `initOn_parted`).

Not modelled: a session of `p2np` one of whose files is `srs.lag`, `evals` or the phase 2 file.
-/
namespace ZkSetup.Phase2

open Phase1 (makeLen goPow2)

/-- A constraint system that has been read: its description, the number of constraints, and the loops over the constraints
for G1 and for G2. -/
structure Loaded (F G1 G2 : Type) where
  base : R1CS F
  nb : Int
  acc1 : List G1 → (R1C → List Term) → List G1 → Except Fail (List G1)
  acc2 : List G2 → (R1C → List Term) → List G2 → Except Fail (List G2)

section
variable {F G1 G2 GT : Type} [Field F] [AddCommGroup G1] [Module F G1] [AddCommGroup G2]
  [Module F G2] [AddCommGroup GT] [Module F GT]

/-- the constraint system of `Initialize`, `/repo/phase2/utils.go:44-55` -/
def Loaded.ofR1CS (r : R1CS F) : Loaded F G1 G2 :=
  ⟨r, r.nbConstraints, fun srs side => accumulateAll r.coefficients srs side 0 r.constraints,
    fun srs side => accumulateAll r.coefficients srs side 0 r.constraints⟩

/-- the constraint system of `InitializeFromPartedR1CS`, `/repo/phase2/parted.go:30-34` -/
def Loaded.ofParted (cs : PartedR1CS F) (nbCons : Int) : Loaded F G1 G2 :=
  ⟨cs.base, nbCons, fun srs side => accumulateParted cs.base.coefficients srs side cs.get nbCons.toNat 0,
    fun srs side => accumulateParted cs.base.coefficients srs side cs.get nbCons.toNat 0⟩

/-- The file operations of an initialisation. -/
structure InitOps (F G1 G2 σ : Type) where
  /-- the contents of the phase 1 file -/
  ph1 : Go σ Bytes
  /-- reading the constraint system -/
  load : Go σ (Loaded F G1 G2)
  emitPh2 : Bytes → Go σ Unit
  createLag : Go σ Unit
  emitLag : Bytes → Go σ Unit
  openLag : Go σ Bytes
  createEvals : Go σ Unit
  emitEvals : Bytes → Go σ Unit
  /-- the writes at the end of `processPVCKK`, with their deferred flushes: PKK to the phase 2 file, three pieces to `evals` -/
  finish : Bytes → Bytes → Bytes → Bytes → Go σ Unit

variable {σ : Type}

/-- `processHeader`, `/repo/phase2/utils.go:37-82`, and `processHeaderParted`, `/repo/phase2/parted.go:67-104` -/
def processHeaderOn (o : InitOps F G1 G2 σ) (H : HeaderCodec) : Go σ (Phase1.Header × Header) := do
  let r ← o.load
  let domain ← Go.lift (nextPowerofTwo r.nb)
  let phase1File ← o.ph1
  let header1 ← Go.lift (Phase1.Header.readFrom.run (Rd.file phase1File 0)).1
  Go.lift (checkPower header1.power r.nb)
  let header2 := circuitHeader r.base r.nb domain
  o.emitPh2 (header2.write H)
  pure (header1, header2)

/-- `processLagrange`, `/repo/phase2/utils.go:84-123`; the phase 1 file is read anew by each call of `lagrangeG1`, `lagrangeG2` -/
def processLagrangeOn (o : InitOps F G1 G2 σ) (C : Curve F G1 G2 GT) (par : Par) (dom : Nat → Lagrange.Domain F)
    (header1 : Phase1.Header) (header2 : Header) : Go σ Unit := do
  let domain := dom header2.domain.toNat
  let N := goPow2 header1.power
  o.createLag
  -- TauG1
  let pos : Int := 3
  let phase1File ← o.ph1
  let s1 ← Go.lift (lagrangeSection C.c1 par phase1File pos domain)
  o.emitLag s1
  -- AlphaTauG1
  let pos := pos + 32 * (2 * N - 1)
  let phase1File ← o.ph1
  let s2 ← Go.lift (lagrangeSection C.c1 par phase1File pos domain)
  o.emitLag s2
  -- BetaTauG1
  let pos := pos + 32 * N
  let phase1File ← o.ph1
  let s3 ← Go.lift (lagrangeSection C.c1 par phase1File pos domain)
  o.emitLag s3
  -- TauG2
  let pos := pos + 32 * N
  let phase1File ← o.ph1
  let s4 ← Go.lift (lagrangeSection C.c2 par phase1File pos domain)
  o.emitLag s4

/-- `processEvaluations`, `/repo/phase2/utils.go:125-227`, and `processEvaluationsParted`, `/repo/phase2/parted.go:106-200` -/
def processEvaluationsOn (o : InitOps F G1 G2 σ) (C : Curve F G1 G2 GT) (header1 : Phase1.Header) (header2 : Header) : Go σ Unit := do
  let lagFile ← o.openLag
  o.createEvals
  -- Read and write [α]₁, [β]₁, [β]₂
  let phase1File ← o.ph1
  let (alpha, beta1, beta2) ← Go.lift (readPhase1 C phase1File header1.power)
  o.emitEvals (C.c1.bytes alpha)
  o.emitEvals (C.c1.bytes beta1)
  o.emitEvals (C.c2.bytes beta2)
  -- Read R1CS File
  let r ← o.load
  let lag := readTauLag C lagFile header2.domain
  -- Deserialize Lagrange SRS TauG1
  let tauG1 ← Go.lift lag.1
  -- Accumulate {[A]₁}
  let wires ← Go.lift (makeLen header2.wires)
  let buff ← Go.lift (r.acc1 tauG1 R1C.l (List.replicate wires 0))
  o.emitEvals (C.c1.encodeSlice buff)
  -- Accumulate {[B]₁}
  let buff ← Go.lift (r.acc1 tauG1 R1C.r (List.replicate wires 0))
  o.emitEvals (C.c1.encodeSlice buff)
  -- Deserialize Lagrange SRS TauG2
  let tauG2 ← Go.lift lag.2
  -- Accumulate {[B]₂}
  let buff2 ← Go.lift (r.acc2 tauG2 R1C.r (List.replicate wires 0))
  o.emitEvals (C.c2.encodeSlice buff2)

/-- `processDeltaAndZ`, `/repo/phase2/utils.go:229-275` -/
def processDeltaAndZOn (o : InitOps F G1 G2 σ) (C : Curve F G1 G2 GT) (header2 : Header) : Go σ Unit := do
  let phase1File ← o.ph1
  -- Write [δ]₁ and [δ]₂
  o.emitPh2 (C.c1.bytes C.g1)
  o.emitPh2 (C.c2.bytes C.g2)
  -- Read TauG1
  let n := header2.domain
  let len ← Go.lift (makeLen (2 * n - 1))
  let tauG1 ← Go.lift ((C.c1.decodeN len).run (Rd.buffered 4096 (phase1File.drop 3))).1
  -- Calculate and write Z
  o.emitPh2 (C.c1.encodeN (computeZ n.toNat tauG1))

/-- `processPVCKK`, `/repo/phase2/utils.go:277-373`, and `processPVCKKParted`, `/repo/phase2/parted.go:202-290` -/
def processPVCKKOn (o : InitOps F G1 G2 σ) (C : Curve F G1 G2 GT) (cmtBytes : Commitment → Bytes) (header2 : Header) : Go σ Unit := do
  let r ← o.load
  let lagFile ← o.openLag
  let L ← Go.lift (makeLen header2.wires)
  let (tau, alpha, beta) ← Go.lift ((readLag3 C).run (Rd.buffered 4096 lagFile)).1
  -- L = O(TauG1) + R(AlphaTauG1) + L(BetaTauG1)
  let L ← Go.lift (r.acc1 tau R1C.o (List.replicate L 0))
  let L ← Go.lift (r.acc1 alpha R1C.r L)
  let L ← Go.lift (r.acc1 beta R1C.l L)
  let (pkk, vkk, ckk) ← Go.lift (filterL L header2 r.base.commitment)
  -- Write PKK, then VKK, CKK, CommitmentInfo
  o.finish (C.c1.encodeN pkk) (C.c1.encodeSlice vkk) (C.c1.encodeSlice ckk) (cmtBytes r.base.commitment)

/-- `Initialize` and `InitializeFromPartedR1CS` after the files have been opened, `/repo/phase2/phase2.go:28-54`,
`/repo/phase2/parted.go:36-61` -/
def initOn (o : InitOps F G1 G2 σ) (C : Curve F G1 G2 GT) (E : InitEnv F) (par : Par) : Go σ Unit := do
  let (header1, header2) ← processHeaderOn o E.header
  processLagrangeOn o C par E.dom header1 header2
  processEvaluationsOn o C header1 header2
  processDeltaAndZOn o C header2
  processPVCKKOn o C E.cmtBytes header2

/-- the operations of `Model/Phase2Init.lean`: all files are different -/
def plainInit (phase1File : Bytes) (r : Except Fail (Loaded F G1 G2)) : InitOps F G1 G2 InitSt where
  ph1 := pure phase1File
  load := Go.lift r
  emitPh2 := Phase2.emitPh2
  createLag := Phase2.createLag
  emitLag := Phase2.emitLag
  openLag := Phase2.openLag
  createEvals := Phase2.createEvals
  emitEvals := Phase2.emitEvals
  finish pkk vkk ckk cmt := do
    Phase2.emitPh2 pkk
    Phase2.emitEvals vkk
    Phase2.emitEvals ckk
    Phase2.emitEvals cmt

/-- What `R1CS.ReadFrom` made of a file, `none` a parse error -/
def Loaded.parsed : Option (R1CS F) → Except Fail (Loaded F G1 G2)
  | some r => .ok (.ofR1CS r)
  | none => .error (.err "r1cs")

theorem initOn_plain (C : Curve F G1 G2 GT) (E : InitEnv F) (par : Par) (r : Option (R1CS F)) (phase1File : Bytes) :
    initOn (plainInit phase1File (Loaded.parsed r)) C E par = initBody C E par r phase1File := by
  cases r with
  | none => rfl
  | some r =>
    have hh : processHeader E.header (some r) phase1File =
        processHeaderOn (plainInit phase1File (.ok (Loaded.ofR1CS (G1 := G1) (G2 := G2) r))) E.header >>= fun h => pure (r, h.1, h.2) := by
      unfold processHeader processHeaderOn
      simp only [Bind.bind, Go.andThen, plainInit, Go.lift, Pure.pure, Go.ret, Loaded.ofR1CS]
      congr 1
      funext s
      cases nextPowerofTwo r.nbConstraints with
      | error e => rfl
      | ok d =>
        cases (Phase1.Header.readFrom.run (Rd.file phase1File 0)).1 with
        | error e => rfl
        | ok h1 =>
          dsimp only
          cases checkPower h1.power r.nbConstraints <;> rfl
    unfold initBody
    rw [hh, show Loaded.parsed (some r) = .ok (Loaded.ofR1CS (G1 := G1) (G2 := G2) r) from rfl]
    unfold initOn
    simp only [Bind.bind, Go.andThen]
    congr 1
    funext s
    cases hx : (processHeaderOn (plainInit phase1File (.ok (Loaded.ofR1CS (G1 := G1) (G2 := G2) r))) E.header).run s with
    | mk x s' => cases x <;> rfl

theorem initOn_parted (C : Curve F G1 G2 GT) (E : InitEnv F) (par : Par) (cs : PartedR1CS F) (nbCons : Int)
    (phase1File oldLag oldEvals : Bytes) :
    (initOn (plainInit phase1File (.ok (Loaded.ofParted cs nbCons))) C E par).run ⟨[], oldLag, oldEvals⟩ =
      initializeParted C E par cs nbCons phase1File oldLag oldEvals := rfl

end
end ZkSetup.Phase2

namespace ZkSetup.Cli

open Phase2 (InitEnv R1CS PartedR1CS InitOps Loaded initOn)

/-- The files, and the position of the phase 2 file's handle. -/
structure NamedSt where
  fs : FS
  off : Nat

/-- a write of `new` at position `off`: what is there is overwritten, a gap is filled with zeros -/
def writeAt (old : Bytes) (off : Nat) (new : Bytes) : Bytes :=
  if new = [] then old
  else (old ++ List.replicate (off - old.length) 0).take off ++ new ++ old.drop (off + new.length)

namespace NamedSt

/-- `phase2File.Write` -/
def emitPh2 (out : String) (bs : Bytes) : Go NamedSt Unit := ⟨fun s =>
  (.ok (), ⟨s.fs.set out (writeAt (old s.fs out) s.off bs), s.off + bs.length⟩)⟩

/-- `os.Create(path)` -/
def create (path : String) : Go NamedSt Unit := ⟨fun s => (.ok (), { s with fs := s.fs.set path [] })⟩

/-- A write at the end of a file: by the handle that has created it and has written all of it, or by one opened with `O_APPEND` -/
def append (path : String) (bs : Bytes) : Go NamedSt Unit := ⟨fun s => (.ok (), { s with fs := s.fs.set path (old s.fs path ++ bs) })⟩

/-- the contents a handle of the file sees -/
def contents (path : String) : Go NamedSt Bytes := ⟨fun s => (.ok (old s.fs path), s)⟩

/-- The end of `processPVCKK`, `/repo/phase2/utils.go:345-373`: of the bytes of PKK, those passed on by the `bufio.Writer` (see
`Keys.passedOn`; a point has 32 bytes) come first. The deferred calls run in reverse order: `evalWriter.Flush`, then `writer.Flush`. -/
def finish (out : String) (pkk vkk ckk cmt : Bytes) : Go NamedSt Unit := do
  emitPh2 out (Keys.passedOn pkk)
  append "evals" vkk
  append "evals" ckk
  append "evals" cmt
  emitPh2 out (pkk.drop (Keys.passedOn pkk).length)

end NamedSt

section
variable {F G1 G2 GT : Type} [Field F] [AddCommGroup G1] [Module F G1] [AddCommGroup G2]
  [Module F G2] [AddCommGroup GT] [Module F GT]

/-- the file operations with the given names -/
def namedInit (inp out : String) (load : FS → Except Fail (Loaded F G1 G2)) : InitOps F G1 G2 NamedSt where
  ph1 := NamedSt.contents inp
  load := ⟨fun s => (load s.fs, s)⟩
  emitPh2 := NamedSt.emitPh2 out
  createLag := NamedSt.create "srs.lag"
  emitLag := NamedSt.append "srs.lag"
  openLag := NamedSt.contents "srs.lag"
  createEvals := NamedSt.create "evals"
  emitEvals := NamedSt.append "evals"
  finish := NamedSt.finish out

/-- `os.Open(r1csPath)` and `r1cs.ReadFrom`, `/repo/phase2/utils.go:44-52`, `152-160`, `286-294` -/
def loadR1CS (E : Env F G1) (path : String) (fs : FS) : Except Fail (Loaded F G1 G2) := do
  let bs ← openFile fs path
  Loaded.parsed (E.r1cs bs)

/-- The opening of files in `phase2.Initialize`, `/repo/phase2/phase2.go:16-27`, and what follows -/
def initNamed (C : Curve F G1 G2 GT) (E : Env F G1) (par : Par) (inp out : String) (load : FS → Except Fail (Loaded F G1 G2)) (fs : FS) :
    Except Fail Unit × FS :=
  match openFile fs inp with
  | .error e => (.error e, fs)
  | .ok _ =>
    let r := (initOn (namedInit inp out load) C E.init par).run ⟨fs.set out [], 0⟩
    (r.1, r.2.fs)

/-- `p2n`, see `Cli.p2n`, for any paths -/
def p2nAny (C : Curve F G1 G2 GT) (E : Env F G1) (par : Par) (args : List String) (fs : FS) : Except Fail Unit × FS :=
  if args.length ≠ 3 then badArgs fs
  else initNamed C E par (arg args 0) (arg args 2) (loadR1CS E (arg args 1)) fs

/-- `p2np`, see `Cli.p2np`, for any paths of the phase 1 and the phase 2 file. The session is read once, at the start. -/
def p2npAny (C : Curve F G1 G2 GT) (E : Env F G1) (par : Par) (args : List String) (fs : FS) : Except Fail Unit × FS :=
  if args.length ≠ 6 then badArgs fs
  else match atoi (arg args 3) with
    | .error e => (.error e, fs)
    | .ok nbCons => match atoi (arg args 4) with
      | .error e => (.error e, fs)
      | .ok nbR1C => match atoi (arg args 5) with
        | .error e => (.error e, fs)
        | .ok batchSize => initNamed C E par (arg args 0) (arg args 2)
            (fun _ => .ok (.ofParted (E.parted (fs.set (arg args 2) []) (arg args 1) nbR1C batchSize) nbCons)) fs

end
end ZkSetup.Cli
