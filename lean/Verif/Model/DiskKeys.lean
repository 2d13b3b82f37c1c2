import Verif.Model.Disk
import Verif.Model.Keys
/-
Key extraction on a disk that can fill up: the write calls of `/repo/keys/keys.go`, with a note for each whether the code looks
at its error. Each output file has its own room (a disk shared by all files is one choice of the rooms).
-/
namespace ZkSetup.Keys

open Phase2 Disk KeySt
open Phase1 (makeLen wrap64)

/-- a write whose error is returned -/
def checkedCall (bs : Bytes) : Call := ⟨bs, true⟩

/-- `enc.Encode(slice)` of gnark-crypto: the length, then point by point; `bs` are the encoded points -/
def sliceCalls (bs : List Bytes) : List Call := checkedCall (beBytes 4 bs.length) :: bs.map checkedCall

section
variable {F G1 G2 GT : Type} [Field F] [AddCommGroup G1] [Module F G1] [AddCommGroup G2]
  [Module F G2] [AddCommGroup GT] [Module F GT] [DecidableEq G1] [DecidableEq G2]

/-- The write calls of `extractPK`, `/repo/keys/keys.go:107-237`: as `pkBody`, with the calls on `pkWriter` instead of the bytes.
`domain.WriteTo` (114) is one unchecked call here. -/
def pkCalls (C : Curve F G1 G2 GT) (E : KeyEnv G1) (header : Header) : Go (KeySt (List Call)) Unit := do
  -- 0. Write domain
  let d ← Go.lift (domainBytes E (toUint64 header.domain))
  write (· ++ [⟨d, false⟩])
  -- 1. Read/Write [α]₁
  let alphaG1 ← onEvals C.c1.decode
  write (· ++ [checkedCall (C.c1.bytes alphaG1)])
  -- 2. Read/Write [β]₁
  let betaG1 ← onEvals C.c1.decode
  write (· ++ [checkedCall (C.c1.bytes betaG1)])
  -- 3. Read/Write [δ]₁
  let deltaG1 ← onPh2 C.c1.decode
  write (· ++ [checkedCall (C.c1.bytes deltaG1)])
  -- Read [β]₂
  let betaG2 ← onEvals C.c2.decode
  -- Read [δ]₂
  let deltaG2 ← onPh2 C.c2.decode
  -- 4. Read, Filter, Write A
  let buffG1 ← onEvals C.c1.decodeSlice
  let (buffA, infinityA, nbInfinityA) := filterInfinity buffG1
  write (· ++ sliceCalls (buffA.map C.c1.bytes))
  -- 5. Read, Filter, Write B
  let buffG1 ← onEvals C.c1.decodeSlice
  let (buffB, infinityB, nbInfinityB) := filterInfinity buffG1
  write (· ++ sliceCalls (buffB.map C.c1.bytes))
  -- 6. Read/Write Z
  let n ← Go.lift (makeLen (header.domain - 1))
  let z ← onPh2 (C.c1.decodeN n)
  write (· ++ sliceCalls (z.map C.c1.bytes))
  -- 7. Read/Write PKK
  let n ← Go.lift (makeLen header.witness)
  let pkk ← onPh2 (C.c1.decodeN n)
  write (· ++ sliceCalls (pkk.map C.c1.bytes))
  -- 8. Write [β]₂
  write (· ++ [checkedCall (C.c2.bytes betaG2)])
  -- 9. Write [δ]₂
  write (· ++ [checkedCall (C.c2.bytes deltaG2)])
  -- 10. Read, Filter, Write B₂
  let buffG2 ← onEvals C.c2.decodeSlice
  let (buffB2, _, _) := filterInfinity buffG2
  write (· ++ sliceCalls (buffB2.map C.c2.bytes))
  -- 11. Write nbWires
  write (· ++ [checkedCall (uint64Bytes (toUint64 header.wires))])
  -- 12. Write nbInfinityA
  write (· ++ [checkedCall (uint64Bytes nbInfinityA)])
  -- 13. Write nbInfinityB
  write (· ++ [checkedCall (uint64Bytes nbInfinityB)])
  -- 14. Write infinityA
  write (· ++ [checkedCall (boolBytes infinityA)])
  -- 15. Write infinityB
  write (· ++ [checkedCall (boolBytes infinityB)])

/-- what is reported: the first error counts; if a checked write has failed, it came before anything else that ended the calls -/
def outcome (r : Except Fail Unit) (written : Bool) : Except Fail Unit :=
  if written then r else .error (.err "no space left on device")

/-- The calls on a new file with room for `cap` bytes, through a `bufio.Writer` of the default size 4096, flushed at the end by a
deferred `Flush`: whether the function got past its checked calls, and the contents. -/
def flushed (cap : Nat) (calls : List Call) : Bool × Bytes :=
  ((runPart ⟨cap, []⟩ ⟨4096, calls⟩).1, (runPart ⟨cap, []⟩ ⟨4096, calls⟩).2.data)

/-- one file written by an extraction with result `r` -/
def finish (cap : Nat) : Except Fail Unit × Option (List Call) → Except Fail Unit × Option Bytes
  | (r, none) => (r, none)
  | (r, some calls) => (outcome r (flushed cap calls).1, some (flushed cap calls).2)

/-- `extractPK`, `/repo/keys/keys.go:73-238`, on a disk with room for `cap` bytes of `pk` -/
def extractPKOnDisk (C : Curve F G1 G2 GT) (E : KeyEnv G1) (cap : Nat) (ph2 evals : Bytes) : Except Fail Unit × Option Bytes :=
  finish cap (extract E.header ph2 evals [] (pkCalls C E))

/-- The write calls of `(*VerifyingKey).writeTo`, `/repo/keys/keys.go:34-71`, all checked; `CommitmentKey.WriteTo` and the gob
encoder are one call each here. -/
def VerifyingKey.calls (C : Curve F G1 G2 GT) (E : KeyEnv G1) (vk : VerifyingKey G1 G2) : List Call :=
  [checkedCall vk.commitmentKey,
    checkedCall (C.c1.rawBytes vk.alpha1), checkedCall (C.c1.rawBytes vk.beta1), checkedCall (C.c2.rawBytes vk.beta2),
    checkedCall (C.c2.rawBytes vk.gamma2), checkedCall (C.c1.rawBytes vk.delta1), checkedCall (C.c2.rawBytes vk.delta2)]
    ++ sliceCalls (vk.k.map C.c1.rawBytes) ++ [checkedCall E.noCommitment]

/-- the write calls of `extractVK`, `/repo/keys/keys.go:500-551` -/
def vkCalls (C : Curve F G1 G2 GT) (E : KeyEnv G1) (evals : Bytes) (header : Header) : Go (KeySt (List Call)) Unit := do
  let vk ← readVK C E evals header
  write (· ++ vk.calls C E)

/-- `extractVK`, `/repo/keys/keys.go:464-552`, on a disk with room for `cap` bytes of `vk` -/
def extractVKOnDisk (C : Curve F G1 G2 GT) (E : KeyEnv G1) (cap : Nat) (ph2 evals : Bytes) : Except Fail Unit × Option Bytes :=
  finish cap (extract E.header ph2 evals [] (vkCalls C E evals))

/-- `ExtractKeys`, `/repo/keys/keys.go:658-669`, with room for `capP` bytes of `pk` and `capV` bytes of `vk` -/
def extractKeysOnDisk (C : Curve F G1 G2 GT) (E : KeyEnv G1) (capP capV : Nat) (ph2 evals : Bytes) :
    Except Fail Unit × KeyFiles Bytes Bytes :=
  bothKeys (extractPKOnDisk C E capP ph2 evals) (extractVKOnDisk C E capV ph2 evals)

/-- The write calls on the six files of `extractSplitPK`. -/
structure SplitCalls where
  e : List Call
  a : List Call
  b1 : List Call
  z : List Call
  k : List Call
  b2 : List Call

/-- `encPkE.Encode` -/
def SplitCalls.toE (cs : List Call) (o : SplitCalls) : SplitCalls := { o with e := o.e ++ cs }
/-- `encPkA.Encode` -/
def SplitCalls.toA (cs : List Call) (o : SplitCalls) : SplitCalls := { o with a := o.a ++ cs }
/-- `encPkB1.Encode` -/
def SplitCalls.toB1 (cs : List Call) (o : SplitCalls) : SplitCalls := { o with b1 := o.b1 ++ cs }
/-- `encPkZ.Encode` -/
def SplitCalls.toZ (cs : List Call) (o : SplitCalls) : SplitCalls := { o with z := o.z ++ cs }
/-- `encPkK.Encode` -/
def SplitCalls.toK (cs : List Call) (o : SplitCalls) : SplitCalls := { o with k := o.k ++ cs }
/-- `encPkB2.Encode` -/
def SplitCalls.toB2 (cs : List Call) (o : SplitCalls) : SplitCalls := { o with b2 := o.b2 ++ cs }

/-- The write calls of `extractSplitPK`, `/repo/keys/keys.go:327-461`: as `splitPkBody`, all checked. -/
def splitPkCalls (C : Curve F G1 G2 GT) (header : Header) : Go (KeySt SplitCalls) Unit := do
  -- 0. Write Card
  write (.toE [checkedCall (uint64Bytes (toUint64 header.domain))])
  -- 1. Read/Write [α]₁
  let alphaG1 ← onEvals C.c1.decode
  write (.toE [checkedCall (C.c1.rawBytes alphaG1)])
  -- 2. Read/Write [β]₁
  let betaG1 ← onEvals C.c1.decode
  write (.toE [checkedCall (C.c1.rawBytes betaG1)])
  -- 3. Read/Write [δ]₁
  let deltaG1 ← onPh2 C.c1.decode
  write (.toE [checkedCall (C.c1.rawBytes deltaG1)])
  -- Read [β]₂
  let betaG2 ← onEvals C.c2.decode
  -- Read [δ]₂
  let deltaG2 ← onPh2 C.c2.decode
  -- 4. Read, Filter, Write A
  let buffG1 ← onEvals C.c1.decodeSlice
  let (buffA, infinityA, nbInfinityA) := filterInfinity buffG1
  write (.toA (sliceCalls (buffA.map C.c1.rawBytes)))
  -- 5. Read, Filter, Write B
  let buffG1 ← onEvals C.c1.decodeSlice
  let (buffB, infinityB, nbInfinityB) := filterInfinity buffG1
  write (.toB1 (sliceCalls (buffB.map C.c1.rawBytes)))
  -- 6. Read/Write Z
  let n ← Go.lift (makeLen (header.domain - 1))
  let z ← onPh2 (C.c1.decodeN n)
  write (.toZ (sliceCalls (z.map C.c1.rawBytes)))
  -- 7. Read/Write PKK
  let n ← Go.lift (makeLen header.witness)
  let pkk ← onPh2 (C.c1.decodeN n)
  write (.toK (sliceCalls (pkk.map C.c1.rawBytes)))
  -- 8. Write [β]₂
  write (.toE [checkedCall (C.c2.rawBytes betaG2)])
  -- 9. Write [δ]₂
  write (.toE [checkedCall (C.c2.rawBytes deltaG2)])
  -- 10. Read, Filter, Write B₂
  let buffG2 ← onEvals C.c2.decodeSlice
  let (buffB2, _, _) := filterInfinity buffG2
  write (.toB2 (sliceCalls (buffB2.map C.c2.rawBytes)))
  -- 11. Write nbWires
  write (.toE [checkedCall (uint64Bytes (toUint64 header.wires))])
  -- 12. Write nbInfinityA
  write (.toE [checkedCall (uint64Bytes nbInfinityA)])
  -- 13. Write nbInfinityB
  write (.toE [checkedCall (uint64Bytes nbInfinityB)])
  -- 14. Write infinityA
  write (.toE [checkedCall (boolBytes infinityA)])
  -- 15. Write infinityB
  write (.toE [checkedCall (boolBytes infinityB)])

/-- room for the six files -/
structure SplitRoom where
  e : Nat
  a : Nat
  b1 : Nat
  z : Nat
  k : Nat
  b2 : Nat

/-- Each file through its own `bufio.Writer`. (If a checked call on one file fails, later calls on the others are not made: in
this case, in which an error is reported, the contents of the others may be shorter than here.) -/
def finishSplit (room : SplitRoom) : Except Fail Unit × Option SplitCalls → Except Fail Unit × Option SplitPK
  | (r, none) => (r, none)
  | (r, some o) =>
    (outcome r ((flushed room.e o.e).1 && (flushed room.a o.a).1 && (flushed room.b1 o.b1).1 && (flushed room.z o.z).1
        && (flushed room.k o.k).1 && (flushed room.b2 o.b2).1),
      some ⟨(flushed room.e o.e).2, (flushed room.a o.a).2, (flushed room.b1 o.b1).2, (flushed room.z o.z).2,
        (flushed room.k o.k).2, (flushed room.b2 o.b2).2⟩)

/-- `extractSplitPK`, `/repo/keys/keys.go:240-462`, on a full disk -/
def extractSplitPKOnDisk (C : Curve F G1 G2 GT) (E : KeyEnv G1) (room : SplitRoom) (ph2 evals : Bytes) :
    Except Fail Unit × Option SplitPK :=
  finishSplit room (extract E.header ph2 evals ⟨[], [], [], [], [], []⟩ (splitPkCalls C))

/-- The write calls of `extractSplitVK`: on `.vk.save`, and on `.pk.CommitmentKey.save` once it is created. -/
structure SplitVKCalls where
  vk : List Call
  commitmentKey : Option (List Call)

/-- The write calls of `extractSplitVK`, `/repo/keys/keys.go:591-655`. The commitment key is written without a buffer, first
unchecked (650), then checked (651). -/
def splitVkCalls (C : Curve F G1 G2 GT) (E : KeyEnv G1) (evals : Bytes) (header : Header) : Go (KeySt SplitVKCalls) Unit := do
  let vk ← readVK C E evals header
  write fun o => { o with vk := o.vk ++ vk.calls C E }
  write fun o => { o with commitmentKey := some [⟨vk.commitmentKey, false⟩, ⟨vk.commitmentKey, true⟩] }

/-- calls on a new file without a buffer -/
def unbuffered (cap : Nat) (calls : List Call) : Bool × Bytes :=
  ((runPart ⟨cap, []⟩ ⟨0, calls⟩).1, (runPart ⟨cap, []⟩ ⟨0, calls⟩).2.data)

/-- the two files of `extractSplitVK`, with room for `capV` and `capC` bytes -/
def finishSplitVK (capV capC : Nat) : Except Fail Unit × Option SplitVKCalls → Except Fail Unit × Option SplitVK
  | (r, none) => (r, none)
  | (r, some ⟨vk, none⟩) => (outcome r (flushed capV vk).1, some ⟨(flushed capV vk).2, none⟩)
  | (r, some ⟨vk, some ck⟩) =>
    (outcome r ((flushed capV vk).1 && (unbuffered capC ck).1), some ⟨(flushed capV vk).2, some (unbuffered capC ck).2⟩)

/-- `extractSplitVK`, `/repo/keys/keys.go:554-656`, on a full disk -/
def extractSplitVKOnDisk (C : Curve F G1 G2 GT) (E : KeyEnv G1) (capV capC : Nat) (ph2 evals : Bytes) :
    Except Fail Unit × Option SplitVK :=
  finishSplitVK capV capC (extract E.header ph2 evals ⟨[], none⟩ (splitVkCalls C E evals))

/-- `ExtractSplitKeys`, `/repo/keys/keys.go:671-682`, on a full disk -/
def extractSplitKeysOnDisk (C : Curve F G1 G2 GT) (E : KeyEnv G1) (room : SplitRoom) (capV capC : Nat) (ph2 evals : Bytes) :
    Except Fail Unit × KeyFiles SplitPK SplitVK :=
  bothKeys (extractSplitPKOnDisk C E room ph2 evals) (extractSplitVKOnDisk C E capV capC ph2 evals)

end
end ZkSetup.Keys
