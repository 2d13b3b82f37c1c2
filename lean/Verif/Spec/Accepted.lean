import Verif.Spec.Phase2
/-
The parameters at the start of any bytes.
-/
namespace ZkSetup

open Phase2

section
variable {F G1 G2 GT : Type}

/-- Whatever the bytes are: read as a phase 2 file they begin with the header `h`, `[δ]1`, `[δ]2`, the `domain - 1` points of Z and
the `witness` points of PKK. Nothing is said about what follows. -/
def HoldsParams (C : Curve F G1 G2 GT) (H : HeaderCodec) (file : Bytes) (h : Header) (d1 : G1) (d2 : G2) (z pkk : List G1) : Prop :=
  ∃ r1 r2 r3 r4 r5, H.dec.run (Rd.buffered 4096 file) = (.ok h, r1) ∧ C.c1.decode.run r1 = (.ok d1, r2) ∧
    C.c2.decode.run r2 = (.ok d2, r3) ∧ (C.c1.decodeN (h.domain - 1).toNat).run r3 = (.ok z, r4) ∧
    (C.c1.decodeN h.witness.toNat).run r4 = (.ok pkk, r5)

end
end ZkSetup
