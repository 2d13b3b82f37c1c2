import Verif.Proofs.Common
import Verif.Spec.Phase1
/-
Byte level of phase 1: reading and writing headers, records and sections.
-/
set_option linter.unusedSectionVars false

namespace ZkSetup

open Phase1

section
variable {F G1 G2 GT : Type} [Field F] [AddCommGroup G1] [Module F G1] [AddCommGroup G2]
  [Module F G2] [AddCommGroup GT] [Module F GT]

theorem readField_ok {α κ : Type} {dec : Go Rd α} {upd : α → κ → κ} {c : κ} {r r' : Rd} {a : α}
    (h : dec.run r = (.ok a, r')) : (readField dec upd).run (c, r) = (.ok (), (upd a c, r')) := by
  simp [readField, h]

theorem readPoint_ok {G κ : Type} {c : Codec G} {get : κ → G} {upd : G → κ → κ} {k : κ} {r r' : Rd} {p : G}
    (h : c.decode.run r = (.ok p, r')) : (readPoint c get upd).run (k, r) = (.ok (), (upd p k, r')) := by
  simp [readPoint, h]

theorem readPoint_err {G κ : Type} {c : Codec G} {get : κ → G} {upd : G → κ → κ} {k : κ} {r r' : Rd} {e : Fail}
    (h : c.decode.run r = (.error e, r')) :
    (readPoint c get upd).run (k, r) = (.error (if c.decodeSpoils r.rest (get k) then spoiled else e), (k, r')) := by
  simp [readPoint, h]

/-- an aligned 32-byte read is never short -/
theorem readHash_aligned (cap pos : Nat) (h ys : Bytes) (hl : h.length = 32)
    (hal : cap = 0 ∨ (32 ∣ cap ∧ 32 ∣ pos)) :
    readHash.run ⟨cap, pos, h ++ ys⟩ = (.ok h, ⟨cap, pos + 32, ys⟩) := by
  have hblock : min 32 (Rd.block ⟨cap, pos, h ++ ys⟩ 32) = 32 := by
    unfold Rd.block
    split
    · rfl
    · rename_i hc
      simp only at hc
      rcases hal with h0 | ⟨⟨c, rfl⟩, ⟨p, rfl⟩⟩
      · exact absurd h0 hc
      · simp only
        rw [Nat.mul_mod_mul_left]
        have : p % c < c := Nat.mod_lt _ (by
          rcases Nat.eq_zero_or_pos c with h | h
          · subst h; simp at hc
          · exact h)
        omega
  have hread : (Rd.read 32).run ⟨cap, pos, h ++ ys⟩ = (.ok h, ⟨cap, pos + 32, ys⟩) := by
    unfold Rd.read
    have hne : (h ++ ys).isEmpty = false := by
      cases h with
      | nil => simp at hl
      | cons _ _ => rfl
    simp only [hblock, hne, Bool.false_eq_true, if_false, Rd.adv]
    rw [List.take_left' hl, List.drop_left' hl]
  unfold readHash
  rw [Go.bind_ok hread]
  simp [hl]

theorem header_encode (p : UInt8) (n : Nat) (h : n < 65536) :
    Header.writeTo { power := p, contributions := UInt16.ofNat n }
      = [p, UInt8.ofNat (n / 256), UInt8.ofNat (n % 256)] := by
  unfold Header.writeTo putUint16
  have : (UInt16.ofNat n).toNat = n := by simp; omega
  rw [this]
  have h2 : n / 256 % 256 = n / 256 := Nat.mod_eq_of_lt (by omega)
  simp [beBytes, h2]

theorem header_read (h : Header) (ys : Bytes) :
    Header.readFrom.run (Rd.file (h.writeTo ++ ys) 0) = (.ok h, ⟨0, 3, ys⟩) := by
  have hp := putUint16_length h.contributions
  have hget := getUint16_put h.contributions
  unfold Header.writeTo
  generalize putUint16 h.contributions = b at *
  obtain ⟨b0, b1, rfl⟩ : ∃ b0 b1, b = [b0, b1] := by
    match b, hp with
    | [b0, b1], _ => exact ⟨b0, b1, rfl⟩
  unfold Header.readFrom Rd.file
  simp only [List.cons_append, List.nil_append, List.drop_zero]
  rw [Go.bind_ok (a := [h.power]) (s' := ⟨0, 1, b0 :: b1 :: ys⟩) (by simp [Rd.read, Rd.block, Rd.adv])]
  rw [Go.bind_ok (a := [b0, b1]) (s' := ⟨0, 3, ys⟩) (by simp [Rd.read, Rd.block, Rd.adv])]
  simp [hget]

theorem contribution_writeTo (C : Curve F G1 G2 GT) (c : Contribution G1 G2) :
    c.writeTo C = recordBytes C c := by
  simp [Contribution.writeTo, recordBytes, recordBody, keyBytes]

theorem computeHash_eq (C : Curve F G1 G2 GT) (c : Contribution G1 G2) :
    computeHash C c = C.sha (recordBody C c) := by
  simp [computeHash, recordBody, keyBytes]

variable {C : Curve F G1 G2 GT} (hC : C.Lawful)
include hC

theorem recordBody_length (c : Contribution G1 G2) : (recordBody C c).length = 608 := by
  have h1 := hC.codec1.bytes_length
  have h2 := hC.codec2.bytes_length
  simp [recordBody, keyBytes, h1, h2, hC.size1, hC.size2]

theorem recordBytes_length (c : Contribution G1 G2) (h : c.hash.length = 32) :
    (recordBytes C c).length = 640 := by
  simp [recordBytes, recordBody_length hC, h]

theorem record_read (c c0 : Contribution G1 G2) (cap pos : Nat) (ys : Bytes) (hl : c.hash.length = 32)
    (hal : cap = 0 ∨ (32 ∣ cap ∧ 32 ∣ pos)) :
    (Contribution.readFrom C).run (c0, ⟨cap, pos, recordBytes C c ++ ys⟩)
      = (.ok (), (c, ⟨cap, pos + 640, ys⟩)) := by
  have hs1 := hC.size1
  have hs2 := hC.size2
  have d1 := fun pos p ys => Codec.decode_bytes hC.codec1 cap pos p ys
  have d2 := fun pos p ys => Codec.decode_bytes hC.codec2 cap pos p ys
  simp only [hs1] at d1
  simp only [hs2] at d2
  unfold Contribution.readFrom recordBytes recordBody keyBytes
  simp only [List.flatMap_cons, List.flatMap_nil, List.append_nil, List.append_assoc]
  rw [Go.bind_ok (readPoint_ok (d1 _ _ _)), Go.bind_ok (readPoint_ok (d1 _ _ _)),
    Go.bind_ok (readPoint_ok (d1 _ _ _)), Go.bind_ok (readPoint_ok (d2 _ _ _)),
    Go.bind_ok (readPoint_ok (d2 _ _ _)), Go.bind_ok (readPoint_ok (d1 _ _ _)),
    Go.bind_ok (readPoint_ok (d1 _ _ _)), Go.bind_ok (readPoint_ok (d2 _ _ _)),
    Go.bind_ok (readPoint_ok (d1 _ _ _)), Go.bind_ok (readPoint_ok (d1 _ _ _)),
    Go.bind_ok (readPoint_ok (d2 _ _ _)), Go.bind_ok (readPoint_ok (d1 _ _ _)),
    Go.bind_ok (readPoint_ok (d1 _ _ _)), Go.bind_ok (readPoint_ok (d2 _ _ _)),
    Go.bind_ok (a := ()) rfl,
    readField_ok (readHash_aligned _ _ _ _ hl ?_)]
  · rcases hal with h | ⟨h1, h2⟩
    · exact .inl h
    · refine .inr ⟨h1, ?_⟩
      omega

end
end ZkSetup
