import Verif.Model.Phase1
import Verif.Model.Phase2
/-
Output to a disk that can fill up: `os.File`, `bufio.Writer`, and the write calls of the commands.

The other model files describe what the commands write if every write succeeds. Here the same bytes go through the write
calls of the code, in pieces as the encoders write them, with a note for each call whether the code looks at its error.
-/
namespace ZkSetup.Disk

open ZkSetup

/-- An output file on a disk with room for `cap` bytes of it. -/
structure File where
  cap : Nat
  data : Bytes
  deriving DecidableEq, Repr

/-- `(*os.File).Write`: writes what fits; an error (ENOSPC) unless this is everything. Returns whether there was no error. -/
def File.write (f : File) (p : Bytes) : Bool × File :=
  (decide (f.data.length + p.length ≤ f.cap), { f with data := f.data ++ p.take (f.cap - f.data.length) })

/-- `bufio.Writer` (standard library): `size` is the length of its buffer, `buf` the bytes in it, `failed` whether `b.err`
is set. `size = 0` stands for writing to the file without a buffer. -/
structure Writer where
  file : File
  size : Nat
  buf : Bytes
  failed : Bool
  deriving DecidableEq, Repr

/-- `(*bufio.Writer).Flush`. After an error the buffer is not used any more, so what is left in it is not recorded. -/
def Writer.flush (w : Writer) : Writer :=
  if w.failed then w
  else if (w.file.write w.buf).1 then { w with file := (w.file.write w.buf).2, buf := [] }
  else { w with file := (w.file.write w.buf).2, buf := [], failed := true }

/-- the branch of `Write` for an empty buffer: `b.wr.Write(p)` -/
def Writer.direct (w : Writer) (p : Bytes) : Writer :=
  { w with file := (w.file.write p).2, failed := !(w.file.write p).1 }

/-- `(*bufio.Writer).Write` with an empty buffer and no error so far: `p` is stored if it fits, else written directly. -/
def Writer.put (w : Writer) (p : Bytes) : Writer :=
  if p.length ≤ w.size then { w with buf := p } else w.direct p

/-- `(*bufio.Writer).Write`. The loop of the code runs at most twice: once to fill and flush the buffer, once to write a
large rest directly. The error it returns is `b.err`. -/
def Writer.write (w : Writer) (p : Bytes) : Writer :=
  if w.failed then w
  else if p.length ≤ w.size - w.buf.length then { w with buf := w.buf ++ p }
  else if w.buf.isEmpty then w.direct p
  else
    let w' := ({ w with buf := w.buf ++ p.take (w.size - w.buf.length) }).flush
    if w'.failed then w' else w'.put (p.drop (w.size - w.buf.length))

/-- a write call; `checked` if the code returns the error of the call -/
structure Call where
  bytes : Bytes
  checked : Bool
  deriving DecidableEq, Repr

/-- Write calls on one writer; stops at an error that is checked. Returns whether the function carried on to its end. -/
def runCalls : Writer → List Call → Bool × Writer
  | w, [] => (true, w)
  | w, c :: cs =>
    if c.checked && (w.write c.bytes).failed then (false, w.write c.bytes) else runCalls (w.write c.bytes) cs

/-- Write calls on a new writer of the given buffer size, and the deferred `Flush`, whose error is ignored. -/
structure Part where
  size : Nat
  calls : List Call

/-- one part; the file afterwards -/
def runPart (f : File) (p : Part) : Bool × File :=
  let res := runCalls ⟨f, p.size, [], false⟩ p.calls
  (res.1, res.2.flush.file)

/-- the parts of a function one after the other, up to the first error -/
def runParts : File → List Part → Bool × File
  | f, [] => (true, f)
  | f, p :: ps => if (runPart f p).1 then runParts (runPart f p).2 ps else (false, (runPart f p).2)

/-- The pieces in which output is written: length of each piece, and whether its error is checked. Whatever is left over
goes with the last piece. -/
def pieces (checked : Bool) : List Nat → Bytes → List Call
  | [], _ => []
  | [_], out => [⟨out, checked⟩]
  | k :: ks, out => ⟨out.take k, checked⟩ :: pieces checked ks (out.drop k)

/-- result of a function that wrote these parts: its error is "no space left on device" -/
def report {α : Type} (cap : Nat) (a : α) (parts : List Part) : Except Fail α × Bytes :=
  if (runParts ⟨cap, []⟩ parts).1 then (.ok a, (runParts ⟨cap, []⟩ parts).2.data)
  else (.error (.err "no space left on device"), (runParts ⟨cap, []⟩ parts).2.data)

end Disk

namespace Phase1
variable {F G1 G2 GT : Type} [Field F] [AddCommGroup G1] [Module F G1] [AddCommGroup G2]
  [Module F G2] [AddCommGroup GT] [Module F GT] [DecidableEq G1] [DecidableEq G2] [DecidableEq GT]

open Disk

/-- lengths of the writes of `(*Contribution).writeTo`, `/repo/phase1/contribution.go:28-54` -/
def recordSizes : List Nat := [32, 32, 32, 64, 64, 32, 32, 64, 32, 32, 64, 32, 32, 64, 32]

/-- The write calls of `Contribute`, `/repo/phase1/phase1.go:174-267`, for the complete output `out` with `n` = 2^power and
`c` old records: the header goes directly to the file (174, two writes, checked); then a `bufio.Writer` of the default
size 4096 (180): the points and old records (checked), the new record (267, unchecked). -/
def contributeParts (n c : Nat) (out : Bytes) : List Part :=
  [⟨0, pieces true [1, 2] (out.take 3)⟩,
   ⟨4096, pieces true (List.replicate (4 * n - 1) 32 ++ List.replicate (n + 1) 64 ++ (List.replicate c recordSizes).flatten)
      ((out.take (out.length - 640)).drop 3)
    ++ pieces false recordSizes (out.drop (out.length - 640))⟩]

/-- `Contribute`, `/repo/phase1/phase1.go:151-273`, on a disk with room for `cap` bytes of the output. If it fails for another
reason, it reports an error in any case. -/
def contributeOnDisk (C : Curve F G1 G2 GT) (par : Par) (b : Nat) (rnd : Rand F) (cap : Nat) (input : Bytes) :
    Except Fail Bytes × Bytes :=
  match contribute C par b rnd input with
  | (.ok hash, out) =>
    report cap hash (contributeParts (2 ^ (out.headD 0).toNat) (beValue ((out.drop 1).take 2) - 1) out)
  | (.error e, out) => (.error e, out.take cap)

/-- The write calls of `Initialize`, `/repo/phase1/phase1.go:99-145`: the header directly to the file (100, unchecked), then a
`bufio.Writer` of size 2^20 (104): all points but the last (checked), the last (145, unchecked). -/
def initializeParts (n : Nat) (out : Bytes) : List Part :=
  [⟨0, pieces false [1, 2] (out.take 3)⟩,
   ⟨2 ^ 20, pieces true (List.replicate (4 * n - 1) 32 ++ List.replicate n 64) ((out.take (out.length - 64)).drop 3)
    ++ pieces false [64] (out.drop (out.length - 64))⟩]

/-- `Initialize`, `/repo/phase1/phase1.go:85-149`, on a disk with room for `cap` bytes of the output -/
def initializeOnDisk (C : Curve F G1 G2 GT) (power : UInt8) (cap : Nat) : Except Fail Unit × Bytes :=
  report cap () (initializeParts (2 ^ power.toNat) (initializeFile C power))

/-- The write calls of `Transform`, `/repo/phase1/phase1.go:37-80`: the header directly to the file (39, checked); then each of
the five sections with its own `bufio.Writer` of size 4096 (`transformG1`, `transformG2`, `/repo/phase1/utils.go:271-315`),
every point checked, the `Flush` deferred. -/
def transformParts (n : Nat) (out : Bytes) : List Part :=
  [⟨0, pieces true [1, 2] (out.take 3)⟩,
   ⟨4096, pieces true (List.replicate (2 * n - 1) 32) ((out.drop 3).take (32 * (2 * n - 1)))⟩,
   ⟨4096, pieces true (List.replicate n 32) ((out.drop (3 + 32 * (2 * n - 1))).take (32 * n))⟩,
   ⟨4096, pieces true (List.replicate n 32) ((out.drop (3 + 32 * (2 * n - 1) + 32 * n)).take (32 * n))⟩,
   ⟨4096, pieces true (List.replicate n 64) ((out.drop (3 + 32 * (2 * n - 1) + 32 * n + 32 * n)).take (64 * n))⟩,
   ⟨4096, pieces true [64] (out.drop (3 + 32 * (2 * n - 1) + 32 * n + 32 * n + 64 * n))⟩]

/-- `Transform`, `/repo/phase1/phase1.go:17-83`, on a disk with room for `cap` bytes of the output -/
def transformOnDisk (C : Curve F G1 G2 GT) (inPower outPower : UInt8) (cap : Nat) (input : Bytes) :
    Except Fail Unit × Bytes :=
  match transform C inPower outPower input with
  | (.ok (), out) => report cap () (transformParts (2 ^ outPower.toNat) out)
  | (.error e, out) => (.error e, out.take cap)

end Phase1

namespace Phase2
variable {F G1 G2 GT : Type} [Field F] [AddCommGroup G1] [Module F G1] [AddCommGroup G2]
  [Module F G2] [AddCommGroup GT] [Module F GT] [DecidableEq G1] [DecidableEq G2] [DecidableEq GT]

open Disk

/-- lengths of the writes of `(*Contribution).writeTo`, `/repo/phase2/contribution.go:17-33` -/
def recordSizes : List Nat := [32, 32, 32, 64, 32]

/-- The write calls of `Contribute`, `/repo/phase2/phase2.go:74-157`, for the complete output: one `bufio.Writer` of size 4096
(74): the header (two gob messages, the first of 120 bytes; `hl` bytes together), `[δ]`, `n` points of Z and PKK and
`c` old records (all checked), the new record (157, unchecked). -/
def contributeParts (hl n c : Nat) (out : Bytes) : List Part :=
  [⟨4096, pieces true ([120, hl - 120, 32, 64] ++ List.replicate n 32 ++ (List.replicate c recordSizes).flatten)
      (out.take (out.length - 192))
    ++ pieces false recordSizes (out.drop (out.length - 192))⟩]

/-- `Contribute`, `/repo/phase2/phase2.go:58-163`, on a disk with room for `cap` bytes of the output. If it fails for another
reason, it reports an error in any case. -/
def contributeOnDisk (C : Curve F G1 G2 GT) (H : HeaderCodec) (par : Par) (b : Nat) (rnd : Rand F) (cap : Nat)
    (input : Bytes) : Except Fail Bytes × Bytes :=
  match contribute C H par b rnd input with
  | (.ok hash, out) =>
    match (Header.read H).run (Rd.buffered 4096 out) with
    | (.ok h, _) => report cap hash (contributeParts (H.enc h).length (h.domain - 1 + h.witness).toNat
        (h.contributions - 1).toNat out)
    | (.error e, _) => (.error e, out.take cap)
  | (.error e, out) => (.error e, out.take cap)

end Phase2
end ZkSetup
