import Verif.Proofs.Phase1Ceremony
/-
Where the points of a phase 1 file lie, and the record `Verify` starts from.
-/
set_option linter.unusedSectionVars false

namespace ZkSetup

open Phase1 Finset

theorem seekDecode_at {G : Type} {c : Codec G} (hc : c.Lawful) (pre ys : Bytes) (p : G) (pos : Int)
    (hpos : pos = pre.length) : seekDecode c (pre ++ (c.bytes p ++ ys)) pos = .ok p := by
  subst hpos
  unfold seekDecode
  rw [if_neg (by omega)]
  simp only [Rd.file, Int.toNat_natCast, List.drop_left]
  rw [Codec.decode_bytes hc]

/-- a section element as a split of the section bytes -/
theorem flatMap_split {G : Type} [AddCommGroup G] {c : Codec G} (hc : c.Lawful) (l : List G) (i : Nat)
    (hi : i < l.length) : ∃ pre post, l.flatMap c.bytes = pre ++ (c.bytes (l.getD i 0) ++ post) ∧
      pre.length = c.size * i := by
  refine ⟨(l.take i).flatMap c.bytes, (l.drop (i + 1)).flatMap c.bytes, ?_, ?_⟩
  · have : l = l.take i ++ l.getD i 0 :: l.drop (i + 1) := by
      rw [List.getD_eq_getElem _ _ hi, ← List.drop_eq_getElem_cons hi, List.take_append_drop]
    conv => lhs; rw [this]
    simp
  · have := Codec.encodeN_length hc (l.take i)
    rw [Codec.encodeN] at this
    rw [this]
    simp; omega

theorem flatMap_bytes_inj {G : Type} {c : Codec G} (hc : c.Lawful) {l l' : List G} (hl : l.length = l'.length)
    (h : l.flatMap c.bytes = l'.flatMap c.bytes) : l = l' := by
  have h1 := Codec.decodeN_encodeN hc 0 0 l []
  have h2 := Codec.decodeN_encodeN hc 0 0 l' []
  rw [Codec.encodeN, h, ← Codec.encodeN, hl, h2] at h1
  simpa using h1.symm

section
variable {F G1 G2 GT : Type} [Field F] [AddCommGroup G1] [Module F G1] [AddCommGroup G2]
  [Module F G2] [AddCommGroup GT] [Module F GT] [DecidableEq G1] [DecidableEq G2]
variable {C : Curve F G1 G2 GT} (hC : C.Lawful)

omit [DecidableEq G1] [DecidableEq G2] in
theorem defaultContribution_none : defaultContribution C none = .ok (genesis C) := rfl

/-- the record a ceremony on top of the file `t` starts from -/
def originOf (t : P1File G1 G2) : Contribution G1 G2 :=
  { g1Tau := t.tauG1.getD 1 0, g1Alpha := t.alphaG1.getD 0 0, g1Beta := t.betaG1.getD 0 0
    g2Tau := t.tauG2.getD 1 0, g2Beta := t.betaG2
    pkTau := ⟨0, 0, 0⟩, pkAlpha := ⟨0, 0, 0⟩, pkBeta := ⟨0, 0, 0⟩, hash := [] }

include hC

theorem section1_length (l : List G1) : (l.flatMap C.c1.bytes).length = 32 * l.length := by
  have := Codec.encodeN_length hC.codec1 l
  rw [Codec.encodeN, hC.size1] at this
  exact this

theorem section2_length (l : List G2) : (l.flatMap C.c2.bytes).length = 64 * l.length := by
  have := Codec.encodeN_length hC.codec2 l
  rw [Codec.encodeN, hC.size2] at this
  exact this

theorem defaultContribution_some (t : P1File G1 G2) (ht : t.WF) (hp : 1 ≤ t.power.toNat) (junk : Bytes) :
    defaultContribution C (some (t.encode C ++ junk)) = .ok (originOf t) := by
  have hN2 : 2 ≤ 2 ^ t.power.toNat := by
    calc 2 = 2 ^ 1 := rfl
      _ ≤ 2 ^ t.power.toNat := Nat.pow_le_pow_right (by omega) hp
  have hlt := ht.tauG1
  have hla := ht.alphaG1
  have hlb := ht.betaG1
  have hl2 := ht.tauG2
  have l1 := section1_length hC t.tauG1
  have l2 := section1_length hC t.alphaG1
  have l3 := section1_length hC t.betaG1
  have l4 := section2_length hC t.tauG2
  have hh : (Header.writeTo ⟨t.power, UInt16.ofNat t.records.length⟩).length = 3 := by simp [Header.writeTo]
  have henc : t.encode C ++ junk = Header.writeTo ⟨t.power, UInt16.ofNat t.records.length⟩
      ++ (t.tauG1.flatMap C.c1.bytes ++ (t.alphaG1.flatMap C.c1.bytes ++ (t.betaG1.flatMap C.c1.bytes
      ++ (t.tauG2.flatMap C.c2.bytes ++ (C.c2.bytes t.betaG2
      ++ (t.records.flatMap (recordBytes C) ++ junk)))))) := by
    rw [header_encode _ _ ht.count]
    simp [P1File.encode, P1File.params]
  rw [henc]
  have hN : goPow2 t.power = ((2 ^ t.power.toNat : ℕ) : Int) := goPow2_eq ht.power
  unfold defaultContribution
  simp only [header_read]
  rw [except_bind_ok]
  refine ⟨_, rfl, ?_⟩
  simp only [hN]
  generalize 2 ^ t.power.toNat = N at *
  rw [except_bind_ok]
  refine ⟨t.tauG1.getD 1 0, ?_, ?_⟩
  · obtain ⟨pre, post, h1, h2⟩ := flatMap_split hC.codec1 t.tauG1 1 (by omega)
    rw [h1]
    simp only [← List.append_assoc]
    simp only [List.append_assoc _ (C.c1.bytes _)]
    simp only [List.append_assoc (_ ++ pre)]
    simp only [List.append_assoc (C.c1.bytes _)]
    apply seekDecode_at hC.codec1
    rw [List.length_append, hh, h2, hC.size1]
    omega
  rw [except_bind_ok]
  refine ⟨t.alphaG1.getD 0 0, ?_, ?_⟩
  · obtain ⟨pre, post, h1, h2⟩ := flatMap_split hC.codec1 t.alphaG1 0 (by omega)
    have hpre : pre = [] := by simpa using h2
    subst hpre
    rw [h1, List.nil_append, List.append_assoc (C.c1.bytes _), ← List.append_assoc (Header.writeTo _)]
    apply seekDecode_at hC.codec1
    rw [List.length_append, hh, l1]
    omega
  rw [except_bind_ok]
  refine ⟨t.betaG1.getD 0 0, ?_, ?_⟩
  · obtain ⟨pre, post, h1, h2⟩ := flatMap_split hC.codec1 t.betaG1 0 (by omega)
    have hpre : pre = [] := by simpa using h2
    subst hpre
    rw [h1, List.nil_append, List.append_assoc (C.c1.bytes _), ← List.append_assoc (Header.writeTo _),
      ← List.append_assoc]
    apply seekDecode_at hC.codec1
    rw [List.length_append, List.length_append, hh, l1, l2]
    omega
  rw [except_bind_ok]
  refine ⟨t.tauG2.getD 1 0, ?_, ?_⟩
  · obtain ⟨pre, post, h1, h2⟩ := flatMap_split hC.codec2 t.tauG2 1 (by omega)
    rw [h1, List.append_assoc pre, List.append_assoc (C.c2.bytes _), ← List.append_assoc (Header.writeTo _),
      ← List.append_assoc, ← List.append_assoc, ← List.append_assoc]
    apply seekDecode_at hC.codec2
    simp only [List.length_append]
    rw [hh, l1, l2, l3, h2, hC.size2]
    omega
  rw [except_bind_ok]
  refine ⟨t.betaG2, ?_, rfl⟩
  · rw [← List.append_assoc (Header.writeTo _),
      ← List.append_assoc, ← List.append_assoc, ← List.append_assoc]
    apply seekDecode_at hC.codec2
    simp only [List.length_append]
    rw [hh, l1, l2, l3, l4]
    omega

omit [DecidableEq G1] [DecidableEq G2] hC in
theorem tracks_origin (t : P1File G1 G2) (h : t.records = []) : t.Tracks C (originOf t) := by
  constructor <;> simp [h, ChainOk, originOf, lastHash]

omit [DecidableEq G1] [DecidableEq G2] hC in
theorem tracks_genesis (p : UInt8) (hp : 1 ≤ p.toNat) : (P1File.init C p).Tracks C (genesis C) := by
  have hN2 : 2 ≤ 2 ^ p.toNat := by
    calc 2 = 2 ^ 1 := rfl
      _ ≤ 2 ^ p.toNat := Nat.pow_le_pow_right (by omega) hp
  have h1 : 1 < 2 * 2 ^ p.toNat - 1 := by omega
  have h2 : 1 < 2 ^ p.toNat := by omega
  constructor <;> simp [P1File.init, ChainOk, genesis, lastHash, h1, h2]

omit [DecidableEq G1] [DecidableEq G2] hC in
theorem sectionsOk_strict {b : Nat} {vr : VerifyRand F} {f : P1File G1 G2} {last : Contribution G1 G2} :
    SectionsOk C .strict b vr f last ↔ f.betaG2 = last.g2Beta := by
  constructor
  · exact fun h => h.betaG2
  · intro h
    constructor <;> simp [combos, h]

/-! ### the encoding is injective -/

theorem recordBytes_inj {r r' : Contribution G1 G2} (h1 : r.hash.length = 32) (h2 : r'.hash.length = 32)
    (h : recordBytes C r = recordBytes C r') : r = r' := by
  have e1 := record_read hC r Contribution.zero 0 0 [] h1 (.inl rfl)
  have e2 := record_read hC r' Contribution.zero 0 0 [] h2 (.inl rfl)
  rw [h, e2] at e1
  simpa using e1.symm

theorem records_inj {rs rs' : List (Contribution G1 G2)} (h1 : ∀ r ∈ rs, r.hash.length = 32)
    (h2 : ∀ r ∈ rs', r.hash.length = 32) (hl : rs.length = rs'.length)
    (h : rs.flatMap (recordBytes C) = rs'.flatMap (recordBytes C)) : rs = rs' := by
  induction rs generalizing rs' with
  | nil =>
    cases rs' with
    | nil => rfl
    | cons _ _ => simp at hl
  | cons r rs ih =>
    cases rs' with
    | nil => simp at hl
    | cons r' rs' =>
      simp only [List.flatMap_cons] at h
      have l1 := recordBytes_length hC r (h1 r (by simp))
      have l2 := recordBytes_length hC r' (h2 r' (by simp))
      obtain ⟨e1, e2⟩ := List.append_inj h (by rw [l1, l2])
      rw [recordBytes_inj hC (h1 r (by simp)) (h2 r' (by simp)) e1,
        ih (fun x hx => h1 x (by simp [hx])) (fun x hx => h2 x (by simp [hx])) (by simpa using hl) e2]

/-- Different well-formed files have different encodings. -/
theorem encode_inj {f g : P1File G1 G2} (hf : f.WF) (hg : g.WF) (h : f.encode C = g.encode C) : f = g := by
  have cf := hf.count
  have cg := hg.count
  have e1 : f.encode C = Header.writeTo ⟨f.power, UInt16.ofNat f.records.length⟩
      ++ (f.params C ++ f.records.flatMap (recordBytes C)) := by
    rw [header_encode _ _ hf.count]; simp [P1File.encode]
  have e2 : g.encode C = Header.writeTo ⟨g.power, UInt16.ofNat g.records.length⟩
      ++ (g.params C ++ g.records.flatMap (recordBytes C)) := by
    rw [header_encode _ _ hg.count]; simp [P1File.encode]
  have r1 := header_read ⟨f.power, UInt16.ofNat f.records.length⟩ (f.params C ++ f.records.flatMap (recordBytes C))
  have r2 := header_read ⟨g.power, UInt16.ofNat g.records.length⟩ (g.params C ++ g.records.flatMap (recordBytes C))
  rw [← e1, h, e2, r2] at r1
  simp only [Prod.mk.injEq, Except.ok.injEq, Header.mk.injEq, Rd.mk.injEq, true_and] at r1
  obtain ⟨⟨hpow, hcnt⟩, hrest⟩ := r1
  have hlen : f.records.length = g.records.length := by
    have := congrArg UInt16.toNat hcnt
    simp at this
    omega
  have t1 : f.tauG1.length = g.tauG1.length := by rw [hf.tauG1, hg.tauG1, hpow]
  have t2 : f.alphaG1.length = g.alphaG1.length := by rw [hf.alphaG1, hg.alphaG1, hpow]
  have t3 : f.betaG1.length = g.betaG1.length := by rw [hf.betaG1, hg.betaG1, hpow]
  have t4 : f.tauG2.length = g.tauG2.length := by rw [hf.tauG2, hg.tauG2, hpow]
  simp only [P1File.params, List.append_assoc] at hrest
  obtain ⟨a1, hrest⟩ := List.append_inj hrest (by rw [section1_length hC, section1_length hC, t1])
  obtain ⟨a2, hrest⟩ := List.append_inj hrest (by rw [section1_length hC, section1_length hC, t2])
  obtain ⟨a3, hrest⟩ := List.append_inj hrest (by rw [section1_length hC, section1_length hC, t3])
  obtain ⟨a4, hrest⟩ := List.append_inj hrest (by rw [section2_length hC, section2_length hC, t4])
  obtain ⟨a5, a6⟩ := List.append_inj hrest (by rw [hC.codec2.bytes_length, hC.codec2.bytes_length])
  have b1 := flatMap_bytes_inj hC.codec1 t1 a1.symm
  have b2 := flatMap_bytes_inj hC.codec1 t2 a2.symm
  have b3 := flatMap_bytes_inj hC.codec1 t3 a3.symm
  have b4 := flatMap_bytes_inj hC.codec2 t4 a4.symm
  have b5 : f.betaG2 = g.betaG2 := by
    have := congrArg C.c2.setBytes a5
    rw [hC.codec2.set_bytes, hC.codec2.set_bytes] at this
    exact (Option.some.inj this).symm
  have b6 := records_inj hC hf.hash hg.hash hlen a6.symm
  obtain ⟨_, _, _, _, _, _, _⟩ := f
  obtain ⟨_, _, _, _, _, _, _⟩ := g
  simp only at b1 b2 b3 b4 b5 b6 hpow
  subst b1 b2 b3 b4 b5 b6 hpow
  rfl

end
end ZkSetup
