import Verif.Spec.Phase2
/-
Which bytes a phase 2 verification accepts, whatever the bytes are.
-/
namespace ZkSetup

open Phase2

/-- Asked for `n` points, the reader `r` yields `i < n` of them; the next one is not the encoding of a point, or the input ends. The
reader is then `r'`. -/
def StopsAt {G : Type} (c : Codec G) (n : Nat) (r : Rd) (i : Nat) (r' : Rd) : Prop :=
  i < n ∧ ∃ ps rm e, (c.decodeN i).run r = (.ok ps, rm) ∧ c.decode.run rm = (.error e, r')

section
variable {F G1 G2 GT : Type} [Field F] [AddCommGroup G1] [Module F G1] [AddCommGroup G2]
  [Module F G2] [AddCommGroup GT] [Module F GT]

/-- The comparison of `n` points at the reader `r` of the input with the points `qs` at the reader of the origin: the reader of the input
afterwards, and the number of points of the origin that were read. Either all points of the input are read and compared; or one of them
cannot be read: then nothing is compared, and only the whole batches before it are read in the origin. -/
inductive Compared (C : Curve F G1 G2 GT) (b : Nat) (rnd : Nat → Nat → F) (d g : G2) (n : Nat) (r : Rd) (qs : List G1) : Rd → Nat → Prop
  | all (ps : List G1) (r' : Rd) : (C.c1.decodeN n).run r = (.ok ps, r') →
      C.e (batchSum b rnd ps) d = C.e (batchSum b rnd (qs.take n)) g → Compared C b rnd d g n r qs r' n
  | stop (i : Nat) (r' : Rd) : StopsAt C.c1 n r i r' → Compared C b rnd d g n r qs r' (b * (i / b))

/-- The record at the reader: three points, a point of G2, and as hash the bytes up to the end of the read buffer, at most 32, filled up
with zeros. -/
def RecordFrom (C : Curve F G1 G2 GT) (r : Rd) (c : Contribution G1 G2) (r' : Rd) : Prop :=
  ∃ r1 r2 r3 r4, C.c1.decode.run r = (.ok c.delta, r1) ∧ C.c1.decode.run r1 = (.ok c.pk.s, r2) ∧
    C.c1.decode.run r2 = (.ok c.pk.sx, r3) ∧ C.c2.decode.run r3 = (.ok c.pk.spx, r4) ∧ r4.rest ≠ [] ∧
    ∃ n, n = min 32 (if r4.cap = 0 then 32 else r4.cap - r4.pos % r4.cap) ∧
      c.hash = r4.rest.take n ++ List.replicate (32 - min n r4.rest.length) 0 ∧ r' = ⟨r4.cap, r4.pos + n, r4.rest.drop n⟩

/-- the records at the reader, one after the other -/
def RecordsFrom (C : Curve F G1 G2 GT) : Rd → List (Contribution G1 G2) → Prop
  | _, [] => True
  | r, c :: cs => ∃ r', RecordFrom C r c r' ∧ RecordsFrom C r' cs

/-- the records that can be read at the reader, at most `n` -/
def ReadableRecords (C : Curve F G1 G2 GT) : Nat → Rd → List (Contribution G1 G2) → Prop
  | 0, _, rs => rs = []
  | _ + 1, r, [] => ¬ ∃ c r', RecordFrom C r c r'
  | n + 1, r, c :: cs => ∃ r', RecordFrom C r c r' ∧ ReadableRecords C n r' cs

/-- The place where `phase2.Verify` looks for the records: after the header `h`, `[δ]1`, `[δ]2`, and after the points of Z and PKK, or
for each of the two after the first of them that cannot be read. -/
def RecordsPlace (C : Curve F G1 G2 GT) (H : HeaderCodec) (input : Bytes) (h : Header) (d1 : G1) (d2 : G2) (rd : Rd) : Prop :=
  ∃ r1 r2 r3, H.dec.run (Rd.buffered 4096 input) = (.ok h, r1) ∧ C.c1.decode.run r1 = (.ok d1, r2) ∧ C.c2.decode.run r2 = (.ok d2, r3) ∧
    rd = ((C.c1.decodeN h.witness.toNat).run ((C.c1.decodeN (h.domain - 1).toNat).run r3).2).2

/-- The records in any bytes: those at the place where `phase2.Verify` looks for them, as many as the header says. -/
def HasRecords (C : Curve F G1 G2 GT) (H : HeaderCodec) (input : Bytes) (rs : List (Contribution G1 G2)) : Prop :=
  ∃ h d1 d2 rd, RecordsPlace C H input h d1 d2 rd ∧ RecordsFrom C rd rs ∧ rs.length = h.contributions.toNat

/-- What `phase2.Verify` demands of bytes submitted against the initial file `o`; `d1` is the `[δ]1` in the bytes, `rs` the records read. -/
def AcceptedWith (C : Curve F G1 G2 GT) (H : HeaderCodec) (b : Nat) (vr : VerifyRand F) (input : Bytes) (o : P2File G1 G2)
    (h : Header) (d1 : G1) (d2 : G2) (rs : List (Contribution G1 G2)) : Prop :=
  ∃ r1 r2 r3 r4 r5 k k', H.dec.run (Rd.buffered 4096 input) = (.ok h, r1) ∧ C.c1.decode.run r1 = (.ok d1, r2) ∧
    C.c2.decode.run r2 = (.ok d2, r3) ∧
    -- the header fits and there are contributions
    h.contributions ≠ 0 ∧ h = { o.header with contributions := h.contributions } ∧
    -- `[δ]1`, `[δ]2`, Z and PKK, as far as they are compared
    C.e o.delta1 d2 = C.e d1 o.delta2 ∧
    Compared C b vr.z d2 o.delta2 (o.domain - 1) r3 (o.z ++ o.pkk) r4 k ∧
    Compared C b vr.pkk d2 o.delta2 o.witness r4 ((o.z ++ o.pkk).drop k) r5 k' ∧
    -- the records
    RecordsFrom C r5 rs ∧ rs.length = h.contributions.toNat ∧ (∃ xs, Chain2By C o.delta1 [] rs xs) ∧
    (rs.getLast?.map (·.delta)).getD 0 = d1

end
end ZkSetup
