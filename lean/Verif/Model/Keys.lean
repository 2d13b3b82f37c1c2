import Verif.Model.Phase2
/-
Model of `/repo/keys/keys.go`: extraction of the Groth16 keys from the final phase 2 file and the evaluation file.
`ExportSol` (684-704) only converts a file with gnark's own reader and template, and is not modelled.
Opening files and the file names are in `Verif/Model/Cli.lean`.
-/
namespace ZkSetup.Keys

open Phase2
open Phase1 (makeLen wrap64)

/-- What the extraction depends on besides its inputs. -/
structure KeyEnv (G1 : Type) where
  header : HeaderCodec
  /-- the bytes `fft.NewDomain(n).WriteTo` writes -/
  domain : Nat → Bytes
  /-- `pedersen.Setup(basis)` followed by `CommitmentKey.WriteTo`: the bytes of the key, or the error of `Setup`. `Setup` draws
  a random key; the function stands for the draws of one run. -/
  commitmentKey : List G1 → Except Fail Bytes
  /-- gob encoding of the zero `constraint.Commitment` (the code never sets `vk.CommitmentInfo`) -/
  noCommitment : Bytes

/-- Readers of the phase 2 file and of the evaluation file, and what has been written so far. -/
structure KeySt (O : Type) where
  ph2 : Rd
  evals : Rd
  out : O

namespace KeySt
variable {O α : Type}

/-- an action on the phase 2 reader -/
def onPh2 (x : Go Rd α) : Go (KeySt O) α := ⟨fun s =>
  match x.run s.ph2 with
  | (r, rd) => (r, { s with ph2 := rd })⟩

/-- an action on the reader of the evaluation file -/
def onEvals (x : Go Rd α) : Go (KeySt O) α := ⟨fun s =>
  match x.run s.evals with
  | (r, rd) => (r, { s with evals := rd })⟩

/-- a change of the written files -/
def write (f : O → O) : Go (KeySt O) Unit := ⟨fun s => (.ok (), { s with out := f s.out })⟩

end KeySt

open KeySt

/-- `uint64(i)` -/
def toUint64 (i : Int) : Nat := (i % 2 ^ 64).toNat

/-- `enc.Encode(&n)` for a `uint64`: eight bytes, big-endian -/
def uint64Bytes (n : Nat) : Bytes := beBytes 8 n

/-- `enc.Encode(&bs)` for a `[]bool`: one byte each, no length -/
def boolBytes (bs : List Bool) : Bytes := bs.map fun b => if b then 1 else 0

/-- One iteration of the loop of `filterInfinityG1`, `/repo/keys/keys.go:710-717`; `filtered` and `infinityAt` grow here instead
of being filled in place. -/
def filterStep {G : Type} [Zero G] [DecidableEq G] (acc : List G × List Bool) (e : G) : List G × List Bool :=
  if e = 0 then (acc.1, acc.2 ++ [true]) else (acc.1 ++ [e], acc.2 ++ [false])

/-- `filterInfinityG1`, `filterInfinityG2`, `/repo/keys/keys.go:706-735` (identical up to the group): the other points, where the
identities were, how many. -/
def filterInfinity {G : Type} [Zero G] [DecidableEq G] (buff : List G) : List G × List Bool × Nat :=
  let r := buff.foldl filterStep ([], [])
  (r.1, r.2, buff.length - r.1.length)

section
variable {F G1 G2 GT : Type} [Field F] [AddCommGroup G1] [Module F G1] [AddCommGroup G2]
  [Module F G2] [AddCommGroup GT] [Module F GT] [DecidableEq G1] [DecidableEq G2]

/-- `fft.NewDomain(n)` and the bytes of the domain: bn254 has roots of unity of order up to `2^28`, beyond it panics. -/
def domainBytes (E : KeyEnv G1) (n : Nat) : Except Fail Bytes :=
  if 2 ^ 28 < n then .error (.panic "the required root of unity does not exist") else .ok (E.domain n)

/-- `extractPK` after the header has been read and `pk` created, `/repo/keys/keys.go:107-237`. -/
def pkBody (C : Curve F G1 G2 GT) (E : KeyEnv G1) (header : Header) : Go (KeySt Bytes) Unit := do
  -- 0. Write domain
  let d ← Go.lift (domainBytes E (toUint64 header.domain))
  write (· ++ d)
  -- 1. Read/Write [α]₁
  let alphaG1 ← onEvals C.c1.decode
  write (· ++ C.c1.bytes alphaG1)
  -- 2. Read/Write [β]₁
  let betaG1 ← onEvals C.c1.decode
  write (· ++ C.c1.bytes betaG1)
  -- 3. Read/Write [δ]₁
  let deltaG1 ← onPh2 C.c1.decode
  write (· ++ C.c1.bytes deltaG1)
  -- Read [β]₂
  let betaG2 ← onEvals C.c2.decode
  -- Read [δ]₂
  let deltaG2 ← onPh2 C.c2.decode
  -- 4. Read, Filter, Write A
  let buffG1 ← onEvals C.c1.decodeSlice
  let (buffA, infinityA, nbInfinityA) := filterInfinity buffG1
  write (· ++ C.c1.encodeSlice buffA)
  -- 5. Read, Filter, Write B
  let buffG1 ← onEvals C.c1.decodeSlice
  let (buffB, infinityB, nbInfinityB) := filterInfinity buffG1
  write (· ++ C.c1.encodeSlice buffB)
  -- 6. Read/Write Z
  let n ← Go.lift (makeLen (header.domain - 1))
  let z ← onPh2 (C.c1.decodeN n)
  write (· ++ C.c1.encodeSlice z)
  -- 7. Read/Write PKK
  let n ← Go.lift (makeLen header.witness)
  let pkk ← onPh2 (C.c1.decodeN n)
  write (· ++ C.c1.encodeSlice pkk)
  -- 8. Write [β]₂
  write (· ++ C.c2.bytes betaG2)
  -- 9. Write [δ]₂
  write (· ++ C.c2.bytes deltaG2)
  -- 10. Read, Filter, Write B₂
  let buffG2 ← onEvals C.c2.decodeSlice
  let (buffB2, _, _) := filterInfinity buffG2
  write (· ++ C.c2.encodeSlice buffB2)
  -- 11. Write nbWires
  write (· ++ uint64Bytes (toUint64 header.wires))
  -- 12. Write nbInfinityA
  write (· ++ uint64Bytes nbInfinityA)
  -- 13. Write nbInfinityB
  write (· ++ uint64Bytes nbInfinityB)
  -- 14. Write infinityA
  write (· ++ boolBytes infinityA)
  -- 15. Write infinityB
  write (· ++ boolBytes infinityB)

/-- The start of the extraction functions, `/repo/keys/keys.go:88-96` and the like: buffered readers, `header.Read`, then the
output is created (with contents `empty`) and `body` runs. `none`: the output was not created. The writers are flushed by
deferred calls, also after an error. -/
def extract {O : Type} (H : HeaderCodec) (ph2 evals : Bytes) (empty : O) (body : Header → Go (KeySt O) Unit) :
    Except Fail Unit × Option O :=
  match (Header.read H).run (Rd.buffered 4096 ph2) with
  | (.error e, _) => (.error e, none)
  | (.ok header, rd) =>
    match (body header).run ⟨rd, Rd.buffered 4096 evals, empty⟩ with
    | (r, s) => (r, some s.out)

/-- `extractPK`, `/repo/keys/keys.go:73-238`: result and contents of `pk`. -/
def extractPK (C : Curve F G1 G2 GT) (E : KeyEnv G1) (ph2 evals : Bytes) : Except Fail Unit × Option Bytes :=
  extract E.header ph2 evals [] (pkBody C E)

/-- The files of `extractSplitPK`: `.pk.E.save`, `.pk.A.save`, `.pk.B1.save`, `.pk.Z.save`, `.pk.K.save`, `.pk.B2.save`. -/
structure SplitPK where
  e : Bytes
  a : Bytes
  b1 : Bytes
  z : Bytes
  k : Bytes
  b2 : Bytes
  deriving DecidableEq, Repr

/-- `encPkE.Encode` -/
def SplitPK.toE (bs : Bytes) (o : SplitPK) : SplitPK := { o with e := o.e ++ bs }
/-- `encPkA.Encode` -/
def SplitPK.toA (bs : Bytes) (o : SplitPK) : SplitPK := { o with a := o.a ++ bs }
/-- `encPkB1.Encode` -/
def SplitPK.toB1 (bs : Bytes) (o : SplitPK) : SplitPK := { o with b1 := o.b1 ++ bs }
/-- `encPkZ.Encode` -/
def SplitPK.toZ (bs : Bytes) (o : SplitPK) : SplitPK := { o with z := o.z ++ bs }
/-- `encPkK.Encode` -/
def SplitPK.toK (bs : Bytes) (o : SplitPK) : SplitPK := { o with k := o.k ++ bs }
/-- `encPkB2.Encode` -/
def SplitPK.toB2 (bs : Bytes) (o : SplitPK) : SplitPK := { o with b2 := o.b2 ++ bs }

/-- `extractSplitPK` after the files have been created, `/repo/keys/keys.go:327-461`; raw encoding. -/
def splitPkBody (C : Curve F G1 G2 GT) (header : Header) : Go (KeySt SplitPK) Unit := do
  -- 0. Write Card
  write (.toE (uint64Bytes (toUint64 header.domain)))
  -- 1. Read/Write [α]₁
  let alphaG1 ← onEvals C.c1.decode
  write (.toE (C.c1.rawBytes alphaG1))
  -- 2. Read/Write [β]₁
  let betaG1 ← onEvals C.c1.decode
  write (.toE (C.c1.rawBytes betaG1))
  -- 3. Read/Write [δ]₁
  let deltaG1 ← onPh2 C.c1.decode
  write (.toE (C.c1.rawBytes deltaG1))
  -- Read [β]₂
  let betaG2 ← onEvals C.c2.decode
  -- Read [δ]₂
  let deltaG2 ← onPh2 C.c2.decode
  -- 4. Read, Filter, Write A
  let buffG1 ← onEvals C.c1.decodeSlice
  let (buffA, infinityA, nbInfinityA) := filterInfinity buffG1
  write (.toA (C.c1.encodeSliceRaw buffA))
  -- 5. Read, Filter, Write B
  let buffG1 ← onEvals C.c1.decodeSlice
  let (buffB, infinityB, nbInfinityB) := filterInfinity buffG1
  write (.toB1 (C.c1.encodeSliceRaw buffB))
  -- 6. Read/Write Z
  let n ← Go.lift (makeLen (header.domain - 1))
  let z ← onPh2 (C.c1.decodeN n)
  write (.toZ (C.c1.encodeSliceRaw z))
  -- 7. Read/Write PKK
  let n ← Go.lift (makeLen header.witness)
  let pkk ← onPh2 (C.c1.decodeN n)
  write (.toK (C.c1.encodeSliceRaw pkk))
  -- 8. Write [β]₂
  write (.toE (C.c2.rawBytes betaG2))
  -- 9. Write [δ]₂
  write (.toE (C.c2.rawBytes deltaG2))
  -- 10. Read, Filter, Write B₂
  let buffG2 ← onEvals C.c2.decodeSlice
  let (buffB2, _, _) := filterInfinity buffG2
  write (.toB2 (C.c2.encodeSliceRaw buffB2))
  -- 11. Write nbWires
  write (.toE (uint64Bytes (toUint64 header.wires)))
  -- 12. Write nbInfinityA
  write (.toE (uint64Bytes nbInfinityA))
  -- 13. Write nbInfinityB
  write (.toE (uint64Bytes nbInfinityB))
  -- 14. Write infinityA
  write (.toE (boolBytes infinityA))
  -- 15. Write infinityB
  write (.toE (boolBytes infinityB))

/-- `extractSplitPK`, `/repo/keys/keys.go:240-462`: result and contents of the six files. -/
def extractSplitPK (C : Curve F G1 G2 GT) (E : KeyEnv G1) (ph2 evals : Bytes) : Except Fail Unit × Option SplitPK :=
  extract E.header ph2 evals ⟨[], [], [], [], [], []⟩ (splitPkBody C)

/-- `VerifyingKey`, `/repo/keys/keys.go:19-32`; the commitment key as its bytes, and without the commitment info, which stays zero. -/
structure VerifyingKey (G1 G2 : Type) where
  alpha1 : G1
  beta1 : G1
  delta1 : G1
  k : List G1
  beta2 : G2
  delta2 : G2
  gamma2 : G2
  commitmentKey : Bytes

/-- `(*VerifyingKey).writeTo`, `/repo/keys/keys.go:34-71` -/
def VerifyingKey.writeTo (C : Curve F G1 G2 GT) (E : KeyEnv G1) (vk : VerifyingKey G1 G2) : Bytes :=
  vk.commitmentKey
    -- [α]1,[β]1,[β]2,[γ]2,[δ]1,[δ]2
    ++ C.c1.rawBytes vk.alpha1 ++ C.c1.rawBytes vk.beta1 ++ C.c2.rawBytes vk.beta2 ++ C.c2.rawBytes vk.gamma2
    ++ C.c1.rawBytes vk.delta1 ++ C.c2.rawBytes vk.delta2
    -- uint32(len(Kvk)),[Kvk]1
    ++ C.c1.encodeSliceRaw vk.k
    ++ E.noCommitment

/-- `evalsFile.Seek(pos, io.SeekStart)`, `evalsReader.Reset(evalsFile)` -/
def seekEvals {O : Type} (evals : Bytes) (pos : Int) : Go (KeySt O) Unit := ⟨fun s =>
  if 0 ≤ pos then (.ok (), { s with evals := Rd.buffered 4096 (evals.drop pos.toNat) })
  else (.error (.err "seek: invalid argument"), s)⟩

/-- Steps 1 to 8 of `extractVK` and `extractSplitVK`, `/repo/keys/keys.go:500-546` and `591-637` (identical). -/
def readVK {O : Type} (C : Curve F G1 G2 GT) (E : KeyEnv G1) (evals : Bytes) (header : Header) :
    Go (KeySt O) (VerifyingKey G1 G2) := do
  -- 1. Read [α]₁
  let alpha1 ← onEvals C.c1.decode
  -- 2. Read [β]₁
  let beta1 ← onEvals C.c1.decode
  -- 3. Read [β]₂
  let beta2 ← onEvals C.c2.decode
  -- 4. Set [γ]₂
  let gamma2 := C.g2
  -- 5. Read [δ]₁
  let delta1 ← onPh2 C.c1.decode
  -- 6. Read [δ]₂
  let delta2 ← onPh2 C.c2.decode
  -- 7. Read VKK
  let pos := wrap64 (128 * (header.wires + 1) + 12)
  seekEvals evals pos
  let k ← onEvals C.c1.decodeSlice
  -- 8. Setup commitment key
  let ckk ← onEvals C.c1.decodeSlice
  let commitmentKey ← Go.lift (E.commitmentKey ckk)
  pure { alpha1, beta1, delta1, k, beta2, delta2, gamma2, commitmentKey }

/-- `extractVK` after the header has been read and `vk` created, `/repo/keys/keys.go:500-551` -/
def vkBody (C : Curve F G1 G2 GT) (E : KeyEnv G1) (evals : Bytes) (header : Header) : Go (KeySt Bytes) Unit := do
  let vk ← readVK C E evals header
  write (· ++ vk.writeTo C E)

/-- `extractVK`, `/repo/keys/keys.go:464-552`: result and contents of `vk`. -/
def extractVK (C : Curve F G1 G2 GT) (E : KeyEnv G1) (ph2 evals : Bytes) : Except Fail Unit × Option Bytes :=
  extract E.header ph2 evals [] (vkBody C E evals)

/-- The files of `extractSplitVK`: `.vk.save` and `.pk.CommitmentKey.save`. -/
structure SplitVK where
  vk : Bytes
  /-- `none`: not created -/
  commitmentKey : Option Bytes
  deriving DecidableEq, Repr

/-- `extractSplitVK` after the header has been read and `.vk.save` created, `/repo/keys/keys.go:591-655`. The commitment key is
written twice (650, 651). -/
def splitVkBody (C : Curve F G1 G2 GT) (E : KeyEnv G1) (evals : Bytes) (header : Header) : Go (KeySt SplitVK) Unit := do
  let vk ← readVK C E evals header
  write fun o => { o with vk := o.vk ++ vk.writeTo C E }
  -- Write the commitment key so that it can be read in pk separately
  write fun o => { o with commitmentKey := some (vk.commitmentKey ++ vk.commitmentKey) }

/-- `extractSplitVK`, `/repo/keys/keys.go:554-656` -/
def extractSplitVK (C : Curve F G1 G2 GT) (E : KeyEnv G1) (ph2 evals : Bytes) : Except Fail Unit × Option SplitVK :=
  extract E.header ph2 evals ⟨[], none⟩ (splitVkBody C E evals)

/-- The two files written by an extraction; `none`: not created. -/
structure KeyFiles (P V : Type) where
  pk : Option P
  vk : Option V

/-- `if err := extractPK(...); err != nil { return err }; if err := extractVK(...); …` -/
def bothKeys {P V : Type} (pk : Except Fail Unit × Option P) (vk : Except Fail Unit × Option V) :
    Except Fail Unit × KeyFiles P V :=
  match pk with
  | (.error e, o) => (.error e, ⟨o, none⟩)
  | (.ok _, o) => (vk.1, ⟨o, vk.2⟩)

/-- `ExtractKeys`, `/repo/keys/keys.go:658-669` -/
def extractKeys (C : Curve F G1 G2 GT) (E : KeyEnv G1) (ph2 evals : Bytes) : Except Fail Unit × KeyFiles Bytes Bytes :=
  bothKeys (extractPK C E ph2 evals) (extractVK C E ph2 evals)

/-- `ExtractSplitKeys`, `/repo/keys/keys.go:671-682` -/
def extractSplitKeys (C : Curve F G1 G2 GT) (E : KeyEnv G1) (ph2 evals : Bytes) :
    Except Fail Unit × KeyFiles SplitPK SplitVK :=
  bothKeys (extractSplitPK C E ph2 evals) (extractSplitVK C E ph2 evals)

end
end ZkSetup.Keys
