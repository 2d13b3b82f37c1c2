import Verif.Proofs.Phase1IO
import Verif.Proofs.Phase1Scale
import Verif.Proofs.Phase1Contribute
import Verif.Spec.Phase2
/-
Byte level of phase 2: records, scaling, `Contribute`.
-/
set_option linter.unusedSectionVars false

namespace ZkSetup

open Phase1 (wrap64 makeLen)
open Phase2

/-- the buffer holds the whole 32-byte hash -/
def Fits (cap pos : Nat) : Prop := cap = 0 ∨ pos % cap + 32 ≤ cap

theorem read32_fits (cap pos : Nat) (h ys : Bytes) (hl : h.length = 32) (hf : Fits cap pos) :
    (Rd.read 32).run ⟨cap, pos, h ++ ys⟩ = (.ok h, ⟨cap, pos + 32, ys⟩) := by
  have hblock : min 32 (Rd.block ⟨cap, pos, h ++ ys⟩ 32) = 32 := by
    unfold Rd.block
    split
    · rfl
    · rename_i hc
      simp only at hc ⊢
      rcases hf with h0 | h0
      · exact absurd h0 hc
      · omega
  unfold Rd.read
  have hne : (h ++ ys).isEmpty = false := by
    cases h with
    | nil => simp at hl
    | cons _ _ => rfl
  simp only [hblock, hne, Bool.false_eq_true, if_false, Rd.adv]
  rw [List.take_left' hl, List.drop_left' hl]

theorem readHash2_fits (cap pos : Nat) (h ys : Bytes) (hl : h.length = 32) (hf : Fits cap pos) :
    Phase2.readHash.run ⟨cap, pos, h ++ ys⟩ = (.ok h, ⟨cap, pos + 32, ys⟩) := by
  unfold Phase2.readHash
  rw [Go.bind_ok (read32_fits cap pos h ys hl hf)]
  simp [hl]

section
variable {F G1 G2 GT : Type} [Field F] [AddCommGroup G1] [Module F G1] [AddCommGroup G2]
  [Module F G2] [AddCommGroup GT] [Module F GT] [DecidableEq G1] [DecidableEq G2] [DecidableEq GT]

theorem contribution2_writeTo (C : Curve F G1 G2 GT) (c : Contribution G1 G2) :
    c.writeTo C = record2Bytes C c := by
  simp [Contribution.writeTo, record2Bytes, record2Body, keyBytes]

theorem computeHash2_eq (C : Curve F G1 G2 GT) (c : Contribution G1 G2) :
    computeHash C c = C.sha (record2Body C c) := by
  simp [computeHash, record2Body, keyBytes]

theorem previousHash_eq (rs : List (Contribution G1 G2)) (c0 : Contribution G1 G2) :
    previousHash (rs.length : Int) (rs.getLast?.getD c0) = lastHash2 rs := by
  unfold lastHash2 previousHash
  cases rs with
  | nil => simp
  | cons r rs =>
    rw [if_neg (by rw [List.length_cons]; omega), List.getLast?_cons]
    rfl

theorem scalePoint_spec {G : Type} [AddCommGroup G] [Module F G] {c : Codec G} (hc : c.Lawful) (x : F) (p : G)
    (cap pos : Nat) (ys out : Bytes) :
    (scalePoint c x).run ⟨⟨cap, pos, c.bytes p ++ ys⟩, out⟩
      = (.ok (x • p), ⟨⟨cap, pos + c.size, ys⟩, out ++ c.bytes (x • p)⟩) := by
  unfold scalePoint
  rw [Go.bind_ok (IOSt.onRd_ok (Codec.decode_bytes hc _ _ _ _)), Go.bind_ok (IOSt.emit_run _ _)]
  rfl

variable {C : Curve F G1 G2 GT} (hC : C.Lawful)
include hC

theorem record2Body_length (c : Contribution G1 G2) : (record2Body C c).length = 160 := by
  have h1 := hC.codec1.bytes_length
  have h2 := hC.codec2.bytes_length
  simp [record2Body, keyBytes, h1, h2, hC.size1, hC.size2]

theorem record2Bytes_length (c : Contribution G1 G2) (h : c.hash.length = 32) :
    (record2Bytes C c).length = 192 := by
  simp [record2Bytes, record2Body_length hC, h]

/-- reading the points of a record -/
theorem record2_read_body (c : Contribution G1 G2) (cap pos : Nat) (ys : Bytes) :
    (Contribution.readFrom C).run ⟨cap, pos, record2Body C c ++ ys⟩
      = (readHash >>= fun h => pure { c with hash := h }).run ⟨cap, pos + 160, ys⟩ := by
  have hs1 := hC.size1
  have hs2 := hC.size2
  have d1 := fun pos p ys => Codec.decode_bytes hC.codec1 cap pos p ys
  have d2 := fun pos p ys => Codec.decode_bytes hC.codec2 cap pos p ys
  simp only [hs1] at d1
  simp only [hs2] at d2
  unfold Contribution.readFrom record2Body keyBytes
  simp only [List.append_assoc]
  rw [Go.bind_ok (d1 _ _ _), Go.bind_ok (d1 _ _ _), Go.bind_ok (d1 _ _ _), Go.bind_ok (d2 _ _ _)]

theorem record2_read (c : Contribution G1 G2) (cap pos : Nat) (ys : Bytes) (hl : c.hash.length = 32)
    (hf : Fits cap (pos + 160)) :
    (Contribution.readFrom C).run ⟨cap, pos, record2Bytes C c ++ ys⟩ = (.ok c, ⟨cap, pos + 192, ys⟩) := by
  unfold record2Bytes
  rw [List.append_assoc, record2_read_body hC, Go.bind_ok (readHash2_fits _ _ _ _ hl hf)]
  simp

/-- scaling a section -/
theorem scale2Loop_spec (par : Par) (b : Nat) (hb : 0 < b) (x : F) (n : Nat) : ∀ (pts : List G1), pts.length = n →
    ∀ (cap pos : Nat) (ys out : Bytes),
    (Phase2.scaleLoop C par b x n).run ⟨⟨cap, pos, pts.flatMap C.c1.bytes ++ ys⟩, out⟩
      = (.ok (), ⟨⟨cap, pos + 32 * n, ys⟩, out ++ (pts.map (x • ·)).flatMap C.c1.bytes⟩) := by
  induction n using Nat.strong_induction_on with
  | _ n ih =>
    intro pts hn cap pos ys out
    by_cases h0 : 0 < n ∧ 0 < b
    swap
    · have hn0 : n = 0 := by omega
      subst hn0
      have : pts = [] := List.length_eq_zero_iff.mp hn
      subst this
      rw [Phase2.scaleLoop, dif_neg h0]; simp
    · rw [Phase2.scaleLoop, dif_pos h0]
      generalize hrc : min n b = rc at *
      have htl : (pts.take rc).length = rc := by simp; omega
      have hdl : (pts.drop rc).length = n - rc := by simp; omega
      have hsplit : pts.flatMap C.c1.bytes ++ ys
          = C.c1.encodeN (pts.take rc) ++ ((pts.drop rc).flatMap C.c1.bytes ++ ys) := by
        rw [Codec.encodeN, ← List.append_assoc, ← List.flatMap_append, List.take_append_drop]
      have hdec := Codec.decodeN_encodeN hC.codec1 cap pos (pts.take rc) ((pts.drop rc).flatMap C.c1.bytes ++ ys)
      rw [htl, hC.size1] at hdec
      have hmap : par.mapIdx rc (fun _ p => x • p) (pts.take rc) = (pts.take rc).map (x • ·) := by
        rw [Par.mapIdx_eq']
        apply List.ext_getElem?
        intro i
        simp only [List.getElem?_mapIdx, List.getElem?_map]
        by_cases hi : i < rc
        · simp [hi]
        · rw [List.getElem?_eq_none (by omega)]; rfl
      rw [hsplit]
      simp only []
      rw [Go.bind_ok (IOSt.onRd_ok hdec), hmap]
      rw [Go.bind_ok (IOSt.emit_run _ _)]
      rw [ih (n - rc) (by omega) (pts.drop rc) hdl]
      simp only [Codec.encodeN, Prod.mk.injEq, true_and, List.append_assoc]
      rw [← List.flatMap_append, ← List.map_append, List.take_append_drop]
      congr 2
      omega

theorem scale2_spec (par : Par) (b : Nat) (hb : 0 < b) (x : F) (pts : List G1) (cap pos : Nat) (ys out : Bytes) :
    (Phase2.scale C par b pts.length x).run ⟨⟨cap, pos, pts.flatMap C.c1.bytes ++ ys⟩, out⟩
      = (.ok (), ⟨⟨cap, pos + 32 * pts.length, ys⟩, out ++ (pts.map (x • ·)).flatMap C.c1.bytes⟩) := by
  unfold Phase2.scale
  have := makeLen_min pts.length b
  rw [Go.bind_ok (by rw [this]; rfl)]
  simpa using scale2Loop_spec hC par b hb x pts.length pts rfl cap pos ys out

/-- copying records -/
theorem copyContributions_spec (rs : List (Contribution G1 G2)) : ∀ (c0 : Contribution G1 G2) (cap pos : Nat) (ys out : Bytes),
    (∀ r ∈ rs, r.hash.length = 32) → (∀ j < rs.length, Fits cap (pos + 192 * j + 160)) →
    (Phase2.copyContributions C rs.length c0).run ⟨⟨cap, pos, rs.flatMap (record2Bytes C) ++ ys⟩, out⟩
      = (.ok (rs.getLast?.getD c0), ⟨⟨cap, pos + 192 * rs.length, ys⟩, out ++ rs.flatMap (record2Bytes C)⟩) := by
  induction rs with
  | nil => intro c0 cap pos ys out _ _; simp [Phase2.copyContributions]
  | cons r rs ih =>
    intro c0 cap pos ys out hl hf
    simp only [List.length_cons, Phase2.copyContributions, List.flatMap_cons, List.append_assoc]
    rw [Go.bind_ok (IOSt.onRd_ok (record2_read hC r cap pos _ (hl r (by simp)) (by simpa using hf 0 (by simp))))]
    rw [Go.bind_ok (IOSt.emit_run _ _), contribution2_writeTo]
    rw [ih r cap (pos + 192) ys _ (fun r' h => hl r' (by simp [h])) (fun j hj => by
      have := hf (j + 1) (by simpa using hj)
      rwa [show pos + 192 + 192 * j + 160 = pos + 192 * (j + 1) + 160 by ring])]
    simp only [Prod.mk.injEq, List.append_assoc]
    refine ⟨?_, ?_⟩
    · cases rs with
      | nil => simp
      | cons r' rs => simp [List.getLast?_cons]
    · congr 2
      ring

variable {H : HeaderCodec} (hH : H.Lawful)
include hH

theorem P2File.header_inRange {f : P2File G1 G2} (hf : f.WF) : f.header.InRange := by
  have h1 := hf.wires
  have h2 := hf.witness
  have h3 := hf.pub
  have h4 := hf.privateCommitted
  have h5 := hf.constraints
  have h6 := hf.domain
  have h7 := hf.count
  constructor <;> simp only [P2File.header] <;> omega

/-- the header of a file read from its start -/
theorem P2File.header_read {f : P2File G1 G2} (hf : f.WF) (cap : Nat) (ys : Bytes) :
    H.dec.run (Rd.buffered cap (f.encode C H ++ ys))
      = (.ok f.header, ⟨cap, (H.enc f.header).length, f.params C ++ f.records.flatMap (record2Bytes C) ++ ys⟩) := by
  have := hH.dec_enc f.header (P2File.header_inRange hC hH hf) cap 0
    (f.params C ++ f.records.flatMap (record2Bytes C) ++ ys)
  simpa [Rd.buffered, P2File.encode] using this

theorem contribute2_spec (par : Par) (b : Nat) (hb : 0 < b) (rnd : Rand F) (f : P2File G1 G2) (hf : f.WF)
    (hs : f.NoStraddle H) (ys : Bytes) :
    Phase2.contribute C H par b rnd (f.encode C H ++ ys)
      = (.ok (lastHash2 (f.contribute C rnd).records), (f.contribute C rnd).encode C H) := by
  have hz := hf.z
  have hp := hf.pkk
  have hdp := hf.domain_pos
  have hcnt := hf.count
  have hdom := hf.domain
  have hfit : ∀ j < f.records.length, Fits 4096
      ((H.enc f.header).length + 32 + 64 + 32 * f.z.length + 32 * f.pkk.length + 192 * j + 160) :=
    fun j hj => .inr (hs j hj)
  have hw1 : wrap64 (f.header.contributions + 1) = ((f.records.length + 1 : Nat) : Int) := by
    rw [wrap64_eq] <;> simp only [P2File.header] <;> push_cast <;> omega
  have hw2 : wrap64 (((f.records.length + 1 : Nat) : Int) - 1) = (f.records.length : Int) := by
    rw [wrap64_eq] <;> push_cast <;> omega
  have hw3 : wrap64 (f.header.domain - 1) = (f.z.length : Int) := by
    rw [wrap64_eq] <;> simp only [P2File.header] <;> omega
  have hw4 : f.header.witness = (f.pkk.length : Int) := by simp [P2File.header, hp]
  have hrec : f.header.increment = (f.contribute C rnd).header := by
    unfold Header.increment
    rw [hw1]
    simp [P2File.header, P2File.contribute]
  have hd : f.header.increment.domain = f.header.domain := rfl
  have hw : f.header.increment.witness = f.header.witness := rfl
  have hc : f.header.increment.contributions = ((f.records.length + 1 : Nat) : Int) := by
    unfold Header.increment; exact hw1
  unfold Phase2.contribute contributeBody Header.read
  rw [Go.bind_ok (IOSt.onRd_ok (P2File.header_read hC hH hf 4096 ys))]
  unfold contributeWith Header.write
  rw [Go.bind_ok (IOSt.emit_run _ _)]
  rw [hd, hw, hc, hw2, hw3, hw4, hrec]
  unfold P2File.params
  simp only [List.append_assoc]
  rw [Go.bind_ok (scalePoint_spec hC.codec1 _ _ _ _ _ _)]
  rw [Go.bind_ok (scalePoint_spec hC.codec2 _ _ _ _ _ _)]
  rw [Go.bind_ok (scale2_spec hC par b hb _ _ _ _ _ _)]
  rw [Go.bind_ok (scale2_spec hC par b hb _ _ _ _ _ _)]
  rw [hC.size1, hC.size2]
  simp only [Int.toNat_natCast]
  rw [Go.bind_ok (copyContributions_spec hC f.records _ _ _ _ _ hf.hash hfit)]
  have hnew : newContribution C rnd (rnd.delta • f.delta1) (lastHash2 f.records)
      = newRecord2 C rnd (lastHash2 f.records) (rnd.delta • f.delta1) := by
    unfold newContribution newRecord2
    simp only [genPublicKey_eq, computeHash2_eq]
  rw [previousHash_eq, hnew]
  rw [Go.bind_ok (IOSt.emit_run _ _), contribution2_writeTo]
  simp only [Go.pure_run]
  rw [Prod.mk.injEq]
  constructor
  · simp [P2File.contribute, lastHash2, newRecord2]
  · unfold P2File.encode P2File.params
    simp [P2File.contribute]

end
end ZkSetup
