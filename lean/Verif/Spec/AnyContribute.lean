import Verif.Spec.Encodings
/-
What a contribution reads in any bytes: no reader, buffer or error occurs here, only bytes.
-/
namespace ZkSetup

section
variable {F G1 G2 GT : Type}

/-- `e` is accepted as an encoding of `p`: as long as its first byte says, and decoded to `p`. (Besides `bytes p` and `rawBytes p` there
may be others.) -/
def Codec.Decodes {G : Type} (c : Codec G) (p : G) (e : Bytes) : Prop :=
  e.length = (if c.compressed (e.headD 0) then c.size else 2 * c.size) ∧ c.setBytes e = some p

/-- `bs`, standing at position `pos`, begins with the items: each point in an accepted encoding. A hash takes the next `room pos` bytes, or
what is left of the file if that is less but not nothing, and is filled up with zeros. -/
def Begins (C : Curve F G1 G2 GT) (room : Nat → Nat) : Nat → List (Item G1 G2) → Bytes → Prop
  | _, [], _ => True
  | pos, .g1 p :: ts, bs => ∃ e t, bs = e ++ t ∧ C.c1.Decodes p e ∧ Begins C room (pos + e.length) ts t
  | pos, .g2 p :: ts, bs => ∃ e t, bs = e ++ t ∧ C.c2.Decodes p e ∧ Begins C room (pos + e.length) ts t
  | pos, .hash h :: ts, bs => bs ≠ [] ∧ h = bs.take (room pos) ++ List.replicate (32 - min (room pos) bs.length) 0 ∧
      Begins C room (pos + room pos) ts (bs.drop (room pos))

/-- The phase 1 file `f` can be read in the bytes: power, number of records, parameters, records; anything may follow. -/
def P1File.ReadIn (C : Curve F G1 G2 GT) (f : P1File G1 G2) (input : Bytes) : Prop :=
  ∃ x y body, input = f.power :: x :: y :: body ∧ f.records.length = 256 * x.toNat + y.toNat ∧
    Begins C (fun _ => 32) 3 f.items body

/-- how many bytes of a hash at position `pos` the 4096-byte read buffer holds -/
def inBuffer (pos : Nat) : Nat := min 32 (4096 - pos % 4096)

/-- The parameters and records of `f` can be read in the bytes, after a header `h` that announces as many. -/
def P2File.ReadIn (C : Curve F G1 G2 GT) (H : Phase2.HeaderCodec) (f : P2File G1 G2) (h : Phase2.Header) (input : Bytes) : Prop :=
  ∃ r, H.dec.run (Rd.buffered 4096 input) = (.ok h, r) ∧ h.domain = f.z.length + 1 ∧ h.witness = f.pkk.length ∧
    f.records.length = h.contributions.toNat ∧ Begins C inBuffer r.pos f.items r.rest

end
end ZkSetup
