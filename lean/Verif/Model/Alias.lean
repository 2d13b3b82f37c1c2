import Verif.Model.Cli
/-
Key extraction when the phase 2 file is one of the files to be written: `key pk`, `key vk`, `keys <session>.pk.A.save <session>` and so
on. The function opens the phase 2 file and reads its header, then `os.Create` empties the same file. What the `bufio.Reader` has
loaded by then can still be read; after that, reading goes on in what has been written to the file meanwhile.

As in `Model/Cli.lean` a file has one path. The writer of `pk`, `vk` and so on gets everything before the last read of the phase 2 file
in pieces of at most 128 bytes, and the reader's own buffer has 4096 bytes.

The bodies are those of `Model/Keys.lean` with the operations on readers and files as a parameter; with the operations used there they
are the same functions (`pkBodyOn_plain` and so on, by `rfl`).
-/
namespace ZkSetup.Keys

open Phase2 KeySt
open Phase1 (makeLen wrap64)

/-- The operations of an extraction: reading the phase 2 file, reading and positioning in `evals`, writing. -/
structure Ops (σ O : Type) where
  onPh2 : {α : Type} → Go Rd α → Go σ α
  onEvals : {α : Type} → Go Rd α → Go σ α
  seekEvals : Int → Go σ Unit
  write : (O → O) → Go σ Unit

/-- the operations of `Model/Keys.lean`: the files are different -/
def plainOps {O : Type} (evals : Bytes) : Ops (KeySt O) O :=
  ⟨KeySt.onPh2, KeySt.onEvals, Keys.seekEvals evals, KeySt.write⟩

/-- An extraction whose phase 2 file is one of its outputs. `buf` is what the `bufio.Reader` of the phase 2 file has loaded and not yet
delivered, `off` the position of the file it reads from, `evals` the reader of `evals`, `out` what has been written so far. -/
structure AliasSt (O : Type) where
  buf : Bytes
  off : Nat
  evals : Rd
  out : O

/-- What a `bufio.Writer` of the default size 4096 has passed on to the file, of the bytes written to it. Everything written before a
read of the phase 2 file comes in pieces shorter than 4096 bytes, so the buffer is passed on full each time, when the next byte comes. -/
def passedOn (bs : Bytes) : Bytes := bs.take (4096 * ((bs.length - 1) / 4096))

/-- how many bytes the reads of 4096 bytes that are needed for `k` bytes deliver, of `n` -/
def loaded (k n : Nat) : Nat := min n (4096 * ((k + 4095) / 4096))

/-- An action on the reader of the phase 2 file, with `written` the bytes written to that file. -/
def AliasSt.onPh2 {O α : Type} (written : O → Bytes) (x : Go Rd α) : Go (AliasSt O) α := ⟨fun s =>
  let rest := (passedOn (written s.out)).drop s.off
  match x.run (Rd.buffered 4096 (s.buf ++ rest)) with
  | (r, rd) =>
    let n := loaded (rd.pos - s.buf.length) rest.length
    (r, { s with buf := (s.buf ++ rest.take n).drop rd.pos, off := s.off + n })⟩

/-- an action on the reader of `evals` -/
def AliasSt.onEvals {O α : Type} (x : Go Rd α) : Go (AliasSt O) α := ⟨fun s =>
  match x.run s.evals with
  | (r, rd) => (r, { s with evals := rd })⟩

/-- see `Keys.seekEvals` -/
def AliasSt.seekEvals {O : Type} (evals : Bytes) (pos : Int) : Go (AliasSt O) Unit := ⟨fun s =>
  if 0 ≤ pos then (.ok (), { s with evals := Rd.buffered 4096 (evals.drop pos.toNat) })
  else (.error (.err "seek: invalid argument"), s)⟩

/-- a change of the written files -/
def AliasSt.write {O : Type} (f : O → O) : Go (AliasSt O) Unit := ⟨fun s => (.ok (), { s with out := f s.out })⟩

/-- the operations when the phase 2 file is the output `written` -/
def aliasOps {O : Type} (written : O → Bytes) (evals : Bytes) : Ops (AliasSt O) O :=
  ⟨AliasSt.onPh2 written, AliasSt.onEvals, AliasSt.seekEvals evals, AliasSt.write⟩

section
variable {F G1 G2 GT : Type} [Field F] [AddCommGroup G1] [Module F G1] [AddCommGroup G2]
  [Module F G2] [AddCommGroup GT] [Module F GT] [DecidableEq G1] [DecidableEq G2] {σ : Type}

/-- `extractPK` after `pk` has been created, `/repo/keys/keys.go:107-237`; see `pkBody` -/
def pkBodyOn (o : Ops σ Bytes) (C : Curve F G1 G2 GT) (E : KeyEnv G1) (header : Header) : Go σ Unit := do
  -- 0. Write domain
  let d ← Go.lift (domainBytes E (toUint64 header.domain))
  o.write (· ++ d)
  -- 1. Read/Write [α]₁
  let alphaG1 ← o.onEvals C.c1.decode
  o.write (· ++ C.c1.bytes alphaG1)
  -- 2. Read/Write [β]₁
  let betaG1 ← o.onEvals C.c1.decode
  o.write (· ++ C.c1.bytes betaG1)
  -- 3. Read/Write [δ]₁
  let deltaG1 ← o.onPh2 C.c1.decode
  o.write (· ++ C.c1.bytes deltaG1)
  -- Read [β]₂
  let betaG2 ← o.onEvals C.c2.decode
  -- Read [δ]₂
  let deltaG2 ← o.onPh2 C.c2.decode
  -- 4. Read, Filter, Write A
  let buffG1 ← o.onEvals C.c1.decodeSlice
  let (buffA, infinityA, nbInfinityA) := filterInfinity buffG1
  o.write (· ++ C.c1.encodeSlice buffA)
  -- 5. Read, Filter, Write B
  let buffG1 ← o.onEvals C.c1.decodeSlice
  let (buffB, infinityB, nbInfinityB) := filterInfinity buffG1
  o.write (· ++ C.c1.encodeSlice buffB)
  -- 6. Read/Write Z
  let n ← Go.lift (makeLen (header.domain - 1))
  let z ← o.onPh2 (C.c1.decodeN n)
  o.write (· ++ C.c1.encodeSlice z)
  -- 7. Read/Write PKK
  let n ← Go.lift (makeLen header.witness)
  let pkk ← o.onPh2 (C.c1.decodeN n)
  o.write (· ++ C.c1.encodeSlice pkk)
  -- 8. Write [β]₂
  o.write (· ++ C.c2.bytes betaG2)
  -- 9. Write [δ]₂
  o.write (· ++ C.c2.bytes deltaG2)
  -- 10. Read, Filter, Write B₂
  let buffG2 ← o.onEvals C.c2.decodeSlice
  let (buffB2, _, _) := filterInfinity buffG2
  o.write (· ++ C.c2.encodeSlice buffB2)
  -- 11. Write nbWires
  o.write (· ++ uint64Bytes (toUint64 header.wires))
  -- 12. Write nbInfinityA
  o.write (· ++ uint64Bytes nbInfinityA)
  -- 13. Write nbInfinityB
  o.write (· ++ uint64Bytes nbInfinityB)
  -- 14. Write infinityA
  o.write (· ++ boolBytes infinityA)
  -- 15. Write infinityB
  o.write (· ++ boolBytes infinityB)

/-- `extractSplitPK` after the files have been created, `/repo/keys/keys.go:327-461`; see `splitPkBody` -/
def splitPkBodyOn (o : Ops σ SplitPK) (C : Curve F G1 G2 GT) (header : Header) : Go σ Unit := do
  -- 0. Write Card
  o.write (.toE (uint64Bytes (toUint64 header.domain)))
  -- 1. Read/Write [α]₁
  let alphaG1 ← o.onEvals C.c1.decode
  o.write (.toE (C.c1.rawBytes alphaG1))
  -- 2. Read/Write [β]₁
  let betaG1 ← o.onEvals C.c1.decode
  o.write (.toE (C.c1.rawBytes betaG1))
  -- 3. Read/Write [δ]₁
  let deltaG1 ← o.onPh2 C.c1.decode
  o.write (.toE (C.c1.rawBytes deltaG1))
  -- Read [β]₂
  let betaG2 ← o.onEvals C.c2.decode
  -- Read [δ]₂
  let deltaG2 ← o.onPh2 C.c2.decode
  -- 4. Read, Filter, Write A
  let buffG1 ← o.onEvals C.c1.decodeSlice
  let (buffA, infinityA, nbInfinityA) := filterInfinity buffG1
  o.write (.toA (C.c1.encodeSliceRaw buffA))
  -- 5. Read, Filter, Write B
  let buffG1 ← o.onEvals C.c1.decodeSlice
  let (buffB, infinityB, nbInfinityB) := filterInfinity buffG1
  o.write (.toB1 (C.c1.encodeSliceRaw buffB))
  -- 6. Read/Write Z
  let n ← Go.lift (makeLen (header.domain - 1))
  let z ← o.onPh2 (C.c1.decodeN n)
  o.write (.toZ (C.c1.encodeSliceRaw z))
  -- 7. Read/Write PKK
  let n ← Go.lift (makeLen header.witness)
  let pkk ← o.onPh2 (C.c1.decodeN n)
  o.write (.toK (C.c1.encodeSliceRaw pkk))
  -- 8. Write [β]₂
  o.write (.toE (C.c2.rawBytes betaG2))
  -- 9. Write [δ]₂
  o.write (.toE (C.c2.rawBytes deltaG2))
  -- 10. Read, Filter, Write B₂
  let buffG2 ← o.onEvals C.c2.decodeSlice
  let (buffB2, _, _) := filterInfinity buffG2
  o.write (.toB2 (C.c2.encodeSliceRaw buffB2))
  -- 11. Write nbWires
  o.write (.toE (uint64Bytes (toUint64 header.wires)))
  -- 12. Write nbInfinityA
  o.write (.toE (uint64Bytes nbInfinityA))
  -- 13. Write nbInfinityB
  o.write (.toE (uint64Bytes nbInfinityB))
  -- 14. Write infinityA
  o.write (.toE (boolBytes infinityA))
  -- 15. Write infinityB
  o.write (.toE (boolBytes infinityB))

/-- Steps 1 to 8 of `extractVK` and `extractSplitVK`, `/repo/keys/keys.go:500-546` and `591-637`; see `readVK` -/
def readVKOn {O : Type} (o : Ops σ O) (C : Curve F G1 G2 GT) (E : KeyEnv G1) (header : Header) :
    Go σ (VerifyingKey G1 G2) := do
  -- 1. Read [α]₁
  let alpha1 ← o.onEvals C.c1.decode
  -- 2. Read [β]₁
  let beta1 ← o.onEvals C.c1.decode
  -- 3. Read [β]₂
  let beta2 ← o.onEvals C.c2.decode
  -- 4. Set [γ]₂
  let gamma2 := C.g2
  -- 5. Read [δ]₁
  let delta1 ← o.onPh2 C.c1.decode
  -- 6. Read [δ]₂
  let delta2 ← o.onPh2 C.c2.decode
  -- 7. Read VKK
  let pos := wrap64 (128 * (header.wires + 1) + 12)
  o.seekEvals pos
  let k ← o.onEvals C.c1.decodeSlice
  -- 8. Setup commitment key
  let ckk ← o.onEvals C.c1.decodeSlice
  let commitmentKey ← Go.lift (E.commitmentKey ckk)
  pure { alpha1, beta1, delta1, k, beta2, delta2, gamma2, commitmentKey }

/-- `extractVK` after `vk` has been created, `/repo/keys/keys.go:500-551`; see `vkBody` -/
def vkBodyOn (o : Ops σ Bytes) (C : Curve F G1 G2 GT) (E : KeyEnv G1) (header : Header) : Go σ Unit := do
  let vk ← readVKOn o C E header
  o.write (· ++ vk.writeTo C E)

/-- `extractSplitVK` after `.vk.save` has been created, `/repo/keys/keys.go:591-655`; see `splitVkBody`. `.pk.CommitmentKey.save` is created
after everything has been read. -/
def splitVkBodyOn (o : Ops σ SplitVK) (C : Curve F G1 G2 GT) (E : KeyEnv G1) (header : Header) : Go σ Unit := do
  let vk ← readVKOn o C E header
  o.write fun f => { f with vk := f.vk ++ vk.writeTo C E }
  -- Write the commitment key so that it can be read in pk separately
  o.write fun f => { f with commitmentKey := some (vk.commitmentKey ++ vk.commitmentKey) }

theorem pkBodyOn_plain (C : Curve F G1 G2 GT) (E : KeyEnv G1) (evals : Bytes) (h : Header) :
    pkBodyOn (plainOps evals) C E h = pkBody C E h := rfl

theorem splitPkBodyOn_plain (C : Curve F G1 G2 GT) (evals : Bytes) (h : Header) :
    splitPkBodyOn (plainOps evals) C h = splitPkBody C h := rfl

theorem vkBodyOn_plain (C : Curve F G1 G2 GT) (E : KeyEnv G1) (evals : Bytes) (h : Header) :
    vkBodyOn (plainOps evals) C E h = vkBody C E evals h := rfl

theorem splitVkBodyOn_plain (C : Curve F G1 G2 GT) (E : KeyEnv G1) (evals : Bytes) (h : Header) :
    splitVkBodyOn (plainOps evals) C E h = splitVkBody C E evals h := rfl

/-- The start of the extraction functions, see `extract`, when the phase 2 file is an output: the header is read, then the file is emptied
by `os.Create`. -/
def extractAlias {O : Type} (H : HeaderCodec) (ph2 evals : Bytes) (empty : O) (body : Header → Go (AliasSt O) Unit) :
    Except Fail Unit × Option O :=
  match (Header.read H).run (Rd.buffered 4096 ph2) with
  | (.error e, _) => (.error e, none)
  | (.ok header, rd) =>
    let k := ph2.length - rd.rest.length
    let n := loaded k ph2.length
    match (body header).run ⟨(ph2.take n).drop k, n, Rd.buffered 4096 evals, empty⟩ with
    | (r, s) => (r, some s.out)

/-- `extractPK` called with `pk`, `/repo/keys/keys.go:73-238` -/
def extractPKAlias (C : Curve F G1 G2 GT) (E : KeyEnv G1) (ph2 evals : Bytes) : Except Fail Unit × Option Bytes :=
  extractAlias E.header ph2 evals [] (pkBodyOn (aliasOps id evals) C E)

/-- `extractVK` called with `vk`, `/repo/keys/keys.go:464-552` -/
def extractVKAlias (C : Curve F G1 G2 GT) (E : KeyEnv G1) (ph2 evals : Bytes) : Except Fail Unit × Option Bytes :=
  extractAlias E.header ph2 evals [] (vkBodyOn (aliasOps id evals) C E)

/-- `extractSplitPK` called with its output `file`, `/repo/keys/keys.go:240-462` -/
def extractSplitPKAlias (C : Curve F G1 G2 GT) (E : KeyEnv G1) (file : SplitPK → Bytes) (ph2 evals : Bytes) :
    Except Fail Unit × Option SplitPK :=
  extractAlias E.header ph2 evals ⟨[], [], [], [], [], []⟩ (splitPkBodyOn (aliasOps file evals) C)

/-- `extractSplitVK` called with `.vk.save`, `/repo/keys/keys.go:554-656` -/
def extractSplitVKAlias (C : Curve F G1 G2 GT) (E : KeyEnv G1) (ph2 evals : Bytes) : Except Fail Unit × Option SplitVK :=
  extractAlias E.header ph2 evals ⟨[], none⟩ (splitVkBodyOn (aliasOps SplitVK.vk evals) C E)

end
end ZkSetup.Keys

namespace ZkSetup.Cli

open Keys (KeyEnv SplitPK)

section
variable {F G1 G2 GT : Type} [Field F] [AddCommGroup G1] [Module F G1] [AddCommGroup G2]
  [Module F G2] [AddCommGroup GT] [Module F GT] [DecidableEq G1] [DecidableEq G2]

/-- `extractPK(phase2Path)`, for any path -/
def extractPKAt (C : Curve F G1 G2 GT) (E : KeyEnv G1) (path : String) : Bytes → Bytes → Except Fail Unit × Option Bytes :=
  if path = "pk" then Keys.extractPKAlias C E else Keys.extractPK C E

/-- `extractVK(phase2Path)`, for any path -/
def extractVKAt (C : Curve F G1 G2 GT) (E : KeyEnv G1) (path : String) : Bytes → Bytes → Except Fail Unit × Option Bytes :=
  if path = "vk" then Keys.extractVKAlias C E else Keys.extractVK C E

/-- `key`, see `Cli.key`, for any path: `/repo/actions.go:149-157`, `/repo/keys/keys.go:658-669` -/
def keyAny (C : Curve F G1 G2 GT) (E : Env F G1) (args : List String) (fs : FS) : Except Fail Unit × FS :=
  if args.length ≠ 1 then badArgs fs
  else inOrder (withFiles (arg args 0) (extractPKAt C E.keys (arg args 0)) fun fs o => fs.set "pk" o)
    (withFiles (arg args 0) (extractVKAt C E.keys (arg args 0)) fun fs o => fs.set "vk" o) fs

/-- the output of `extractSplitPK` that a path names, if any, `/repo/keys/keys.go:266-321` -/
def splitOutput (session path : String) : Option (SplitPK → Bytes) :=
  if path = session ++ ".pk.E.save" then some SplitPK.e
  else if path = session ++ ".pk.A.save" then some SplitPK.a
  else if path = session ++ ".pk.B1.save" then some SplitPK.b1
  else if path = session ++ ".pk.Z.save" then some SplitPK.z
  else if path = session ++ ".pk.K.save" then some SplitPK.k
  else if path = session ++ ".pk.B2.save" then some SplitPK.b2
  else none

/-- `extractSplitPK(phase2Path, session)`, for any path -/
def extractSplitPKAt (C : Curve F G1 G2 GT) (E : KeyEnv G1) (session path : String) :
    Bytes → Bytes → Except Fail Unit × Option SplitPK :=
  match splitOutput session path with
  | some file => Keys.extractSplitPKAlias C E file
  | none => Keys.extractSplitPK C E

/-- `extractSplitVK(phase2Path, session)`, for any path. `.pk.CommitmentKey.save` is created after everything has been read. -/
def extractSplitVKAt (C : Curve F G1 G2 GT) (E : KeyEnv G1) (session path : String) :
    Bytes → Bytes → Except Fail Unit × Option Keys.SplitVK :=
  if path = session ++ ".vk.save" then Keys.extractSplitVKAlias C E else Keys.extractSplitVK C E

/-- `keys`, see `Cli.keys`, for any path: `/repo/actions.go:159-168`, `/repo/keys/keys.go:671-682` -/
def keysAny (C : Curve F G1 G2 GT) (E : Env F G1) (args : List String) (fs : FS) : Except Fail Unit × FS :=
  if args.length ≠ 2 then badArgs fs
  else inOrder (withFiles (arg args 0) (extractSplitPKAt C E.keys (arg args 1) (arg args 0)) (saveSplitPK (arg args 1)))
    (withFiles (arg args 0) (extractSplitVKAt C E.keys (arg args 1) (arg args 0)) (saveSplitVK (arg args 1))) fs

variable [DecidableEq GT]

/-- One run of the program, see `exec`; the phase 2 file may be an output of `key` or `keys`. -/
def execAny (C : Curve F G1 G2 GT) (E : Env F G1) (d : Draws F) (command : String) (args : List String) (fs : FS) :
    Except Fail Unit × FS :=
  if command = "key" then keyAny C E args fs else if command = "keys" then keysAny C E args fs else exec C E d command args fs

end
end ZkSetup.Cli
