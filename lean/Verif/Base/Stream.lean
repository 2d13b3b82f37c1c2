import Verif.Base.Go
/-
Byte streams. `Rd` is a reader positioned inside a file: either a bare `*os.File` (`cap = 0`) or a
`bufio.Reader` of buffer size `cap` created at the point where `pos = 0`.

bufio semantics (Go standard library): `Read(p)` first refills an empty buffer with one `Read` of the
underlying file and then returns at most the bytes left in the buffer. With reads smaller than the
buffer and a file whose `Read` fills the buffer whenever enough bytes remain, the buffer blocks start
at the multiples of `cap`, so a `Read` at position `pos` returns at most `cap - pos % cap` bytes.
`io.ReadFull` repeats `Read` until it has all bytes.
-/
namespace ZkSetup

structure Rd where
  cap : Nat
  pos : Nat
  rest : Bytes
  deriving DecidableEq, Repr

namespace Rd

/-- consume `k` bytes -/
def adv (r : Rd) (k : Nat) : Rd := { r with pos := r.pos + k, rest := r.rest.drop k }

/-- most bytes one `Read` call can return at the current position -/
def block (r : Rd) (k : Nat) : Nat := if r.cap = 0 then k else r.cap - r.pos % r.cap

/-- One call of `reader.Read(p)` with `len(p) = k > 0`; returns the bytes actually read.
Standard library `bufio.Reader.Read` / `os.File.Read`. -/
def read (k : Nat) : Go Rd Bytes := ⟨fun r =>
  let n := min k (r.block k)
  if r.rest.isEmpty then (.error (.err "EOF"), r)
  else (.ok (r.rest.take n), r.adv n)⟩

/-- `io.ReadFull(reader, p)` with `len(p) = k`: all `k` bytes or an error with the input exhausted. -/
def readFull (k : Nat) : Go Rd Bytes := ⟨fun r =>
  if k ≤ r.rest.length then (.ok (r.rest.take k), r.adv k)
  else (.error (.err "EOF"), r.adv r.rest.length)⟩

/-- a bare file read from byte offset `p` (`Seek(p, io.SeekStart)` with `p ≥ 0`) -/
def file (b : Bytes) (p : Nat) : Rd := { cap := 0, pos := 0, rest := b.drop p }

/-- `bufio.NewReaderSize(file, cap)` over the remaining bytes -/
def buffered (cap : Nat) (b : Bytes) : Rd := { cap := cap, pos := 0, rest := b }

@[simp] theorem adv_cap (r : Rd) (k : Nat) : (r.adv k).cap = r.cap := rfl
@[simp] theorem adv_pos (r : Rd) (k : Nat) : (r.adv k).pos = r.pos + k := rfl
@[simp] theorem adv_rest (r : Rd) (k : Nat) : (r.adv k).rest = r.rest.drop k := rfl

theorem readFull_append (cap pos : Nat) (xs ys : Bytes) (k : Nat) (h : xs.length = k) :
    (readFull k).run ⟨cap, pos, xs ++ ys⟩ = (.ok xs, ⟨cap, pos + k, ys⟩) := by
  subst h
  simp [readFull, adv]

end Rd

/-- State of a command that reads one stream and appends to one output file. -/
structure IOSt where
  rd : Rd
  out : Bytes

namespace IOSt
variable {α : Type}

/-- run a reader action on the input side -/
def onRd (x : Go Rd α) : Go IOSt α := ⟨fun s =>
  match x.run s.rd with
  | (r, rd') => (r, { s with rd := rd' })⟩

/-- `writer.Write(bs)` -/
def emit (bs : Bytes) : Go IOSt Unit := ⟨fun s => (.ok (), { s with out := s.out ++ bs })⟩

@[simp] theorem emit_run (bs : Bytes) (s : IOSt) :
    (emit bs).run s = (.ok (), { s with out := s.out ++ bs }) := rfl

theorem onRd_ok {x : Go Rd α} {rd rd' : Rd} {a : α} {out : Bytes} (h : x.run rd = (.ok a, rd')) :
    (onRd x).run ⟨rd, out⟩ = (.ok a, ⟨rd', out⟩) := by simp [onRd, h]

end IOSt

/-- big-endian encoding of the low `k` bytes of `n` (`binary.Write(w, binary.BigEndian, ...)`) -/
def beBytes : Nat → Nat → Bytes
  | 0, _ => []
  | k + 1, n => beBytes k (n / 256) ++ [UInt8.ofNat (n % 256)]

/-- value of a big-endian byte string -/
def beValue (b : Bytes) : Nat := b.foldl (fun acc x => acc * 256 + x.toNat) 0

@[simp] theorem beBytes_length (k n : Nat) : (beBytes k n).length = k := by
  induction k generalizing n with
  | zero => rfl
  | succ k ih => simp [beBytes, ih]

theorem beValue_beBytes (k n : Nat) (h : n < 256 ^ k) : beValue (beBytes k n) = n := by
  induction k generalizing n with
  | zero => simp [beBytes, beValue] at *; omega
  | succ k ih =>
    have h' : n / 256 < 256 ^ k := by
      rw [Nat.pow_succ] at h
      exact Nat.div_lt_of_lt_mul (by omega)
    have := ih _ h'
    simp only [beBytes, beValue, List.foldl_append, List.foldl_cons, List.foldl_nil] at *
    rw [this]
    have : (UInt8.ofNat (n % 256)).toNat = n % 256 := by
      simp
    omega

/-- `binary.BigEndian.PutUint16` into a two-byte buffer -/
def putUint16 (n : UInt16) : Bytes := beBytes 2 n.toNat

/-- `binary.BigEndian.Uint16` of a two-byte buffer -/
def getUint16 (b : Bytes) : UInt16 := UInt16.ofNat (beValue b)

theorem getUint16_put (n : UInt16) : getUint16 (putUint16 n) = n := by
  unfold getUint16 putUint16
  rw [beValue_beBytes _ _ (by have := n.toNat_lt; omega)]
  simp

@[simp] theorem putUint16_length (n : UInt16) : (putUint16 n).length = 2 := by simp [putUint16]

end ZkSetup
