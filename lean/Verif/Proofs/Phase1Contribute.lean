import Verif.Proofs.Phase1Scale
/-
`phase1.Contribute` refines the structured contribution.
-/
set_option linter.unusedSectionVars false

namespace ZkSetup

open Phase1

theorem goPow2_eq {p : UInt8} (h : p.toNat ≤ 62) : goPow2 p = ((2 ^ p.toNat : ℕ) : Int) := by
  unfold goPow2
  rw [if_pos h]; push_cast; rfl

theorem two_pow_le_62 {p : Nat} (h : p ≤ 62) : 2 ^ p ≤ 2 ^ 62 := Nat.pow_le_pow_right (by omega) h

theorem wrap64_eq {x : Int} (h1 : -(2 ^ 63) ≤ x) (h2 : x < 2 ^ 63) : wrap64 x = x := by
  unfold wrap64
  rw [Int.emod_eq_of_lt (by omega) (by omega)]
  omega

theorem wrap_tau {p : UInt8} (h : p.toNat ≤ 62) :
    wrap64 (2 * goPow2 p - 1) = ((2 * 2 ^ p.toNat - 1 : ℕ) : Int) := by
  rw [goPow2_eq h]
  have h1 : 0 < 2 ^ p.toNat := Nat.pow_pos (by omega)
  have h2 := two_pow_le_62 h
  generalize 2 ^ p.toNat = N at *
  rw [wrap64_eq (by omega) (by omega)]
  omega

theorem makeLen_nat (n : Nat) : makeLen (n : Int) = .ok n := by
  unfold makeLen
  rw [if_neg (by omega)]
  rfl

theorem makeLen_min (n b : Nat) : makeLen (min (n : Int) (b : Int)) = .ok (min n b) := by
  have : min (n : Int) (b : Int) = ((min n b : ℕ) : Int) := by omega
  rw [this, makeLen_nat]

section
variable {F G1 G2 GT : Type} [Field F] [AddCommGroup G1] [Module F G1] [AddCommGroup G2]
  [Module F G2] [AddCommGroup GT] [Module F GT] [DecidableEq G1] [DecidableEq G2]

/-- the recorded point is the intended one: it is not the identity, or the rest of the section is -/
def GoodAt {G : Type} [AddCommGroup G] (o : Nat) (l : List G) : Prop :=
  l.getD o 0 ≠ 0 ∨ ∀ i, o ≤ i → l.getD i 0 = 0

theorem replicate_getD {G : Type} [AddCommGroup G] (n i : Nat) : (List.replicate n (0 : G)).getD i 0 = 0 := by
  rw [List.getD_eq_getElem?_getD, List.getElem?_replicate]
  split <;> rfl

theorem scale_section {G : Type} [AddCommGroup G] [Module F G] [DecidableEq G] {c : Codec G}
    (hc : c.Lawful) (par : Par) (b : Nat) (tau : F) (mult : Option F) (o : Nat) (ho1 : o ≤ 1)
    (pts : List G) (ho : o < min pts.length b) :
    ∃ p, (∀ (cap pos : Nat) (ys out : Bytes), (scaleLoop c par b tau mult (fun l => l[o]?) pts.length
        (List.replicate (min pts.length b) 0) 1 0).run ⟨⟨cap, pos, c.encodeN pts ++ ys⟩, out⟩
      = (.ok p, ⟨⟨cap, pos + c.size * pts.length, ys⟩,
          out ++ c.encodeN (scaled (mult.getD 1) tau pts)⟩)) ∧
      (GoodAt o (scaled (mult.getD 1) tau pts) → p = (scaled (mult.getD 1) tau pts).getD o 0) := by
  obtain ⟨p, h1, _, h3, h4⟩ := scaleLoop_spec hc par b (by omega) tau mult o pts.length pts rfl
    (List.replicate (min pts.length b) 0) (by simp) (by simpa using ho) 1 0
  simp only [scaledFrom_one] at h1 h3 h4
  refine ⟨p, h1, ?_⟩
  rintro (h | h)
  · exact h3 trivial (by omega) (by omega) h
  · rw [h4 trivial ho1 (fun i _ => replicate_getD _ i) h, h o le_rfl]

variable {C : Curve F G1 G2 GT} (hC : C.Lawful)
include hC

theorem scaleG1_spec (par : Par) (b : Nat) (N : Int) (tau : F) (mult : Option F) (pts : List G1)
    (hN : N = pts.length) (ho : (if mult.isNone then 1 else 0) < min pts.length b) :
    ∃ p, (∀ (cap pos : Nat) (ys out : Bytes), (scaleG1 C par b N tau mult).run ⟨⟨cap, pos, pts.flatMap C.c1.bytes ++ ys⟩, out⟩
      = (.ok p, ⟨⟨cap, pos + 32 * pts.length, ys⟩,
          out ++ (scaled (mult.getD 1) tau pts).flatMap C.c1.bytes⟩)) ∧
      (GoodAt (if mult.isNone then 1 else 0) (scaled (mult.getD 1) tau pts) →
        p = (scaled (mult.getD 1) tau pts).getD (if mult.isNone then 1 else 0) 0) := by
  subst hN
  unfold scaleG1
  simp only [makeLen_min, Go.bind_ok (Go.lift_run _ _)]
  cases mult with
  | none =>
    have := scale_section hC.codec1 par b tau none 1 le_rfl pts (by simpa using ho)
    rw [hC.size1] at this
    simpa [Codec.encodeN] using this
  | some m =>
    have := scale_section hC.codec1 par b tau (some m) 0 (by omega) pts (by simpa using ho)
    rw [hC.size1] at this
    simpa [Codec.encodeN] using this

theorem scaleG2_spec (par : Par) (b : Nat) (N : Int) (tau : F) (pts : List G2)
    (hN : N = pts.length) (ho : 1 < min pts.length b) :
    ∃ p, (∀ (cap pos : Nat) (ys out : Bytes), (scaleG2 C par b N tau).run ⟨⟨cap, pos, pts.flatMap C.c2.bytes ++ ys⟩, out⟩
      = (.ok p, ⟨⟨cap, pos + 64 * pts.length, ys⟩,
          out ++ (scaled 1 tau pts).flatMap C.c2.bytes⟩)) ∧
      (GoodAt 1 (scaled 1 tau pts) → p = (scaled 1 tau pts).getD 1 0) := by
  subst hN
  unfold scaleG2
  simp only [makeLen_min, Go.bind_ok (Go.lift_run _ _)]
  have := scale_section hC.codec2 par b tau none 1 le_rfl pts (by simpa using ho)
  rw [hC.size2] at this
  simpa [Codec.encodeN] using this

theorem copy_spec (rs : List (Contribution G1 G2)) (hr : ∀ r ∈ rs, r.hash.length = 32)
    (c0 : Contribution G1 G2) (cap pos : Nat) (hal : cap = 0 ∨ (32 ∣ cap ∧ 32 ∣ pos)) (ys out : Bytes) :
    (copyContributions C rs.length c0).run ⟨⟨cap, pos, rs.flatMap (recordBytes C) ++ ys⟩, out⟩
      = (.ok (rs.getLast?.getD c0), ⟨⟨cap, pos + 640 * rs.length, ys⟩,
          out ++ rs.flatMap (recordBytes C)⟩) := by
  induction rs generalizing c0 pos out with
  | nil => simp [copyContributions]
  | cons r rs ih =>
    simp only [List.length_cons, copyContributions, List.flatMap_cons, List.append_assoc]
    have hread := record_read hC r c0 cap pos (rs.flatMap (recordBytes C) ++ ys) (hr r (by simp)) hal
    rw [Go.bind_ok (a := r) (s' := ⟨⟨cap, pos + 640, rs.flatMap (recordBytes C) ++ ys⟩, out⟩)
      (by simp only [hread])]
    rw [Go.bind_ok (IOSt.emit_run _ _), contribution_writeTo]
    simp only
    rw [ih (fun r' h => hr r' (by simp [h])) r (pos + 640) (by
      rcases hal with h | ⟨h1, h2⟩
      · exact .inl h
      · exact .inr ⟨h1, by omega⟩)]
    congr 1
    · congr 1
      cases rs with
      | nil => rfl
      | cons r' rs => simp [List.getLast?_eq_getLast_of_ne_nil]
    · simp only [List.append_assoc]
      congr 2
      omega

omit hC in
theorem genPublicKey_eq (x s : F) (ch : Bytes) (dst : UInt8) :
    C.genPublicKey x s ch dst = proofOf C x s ch dst := by
  simp [Curve.genPublicKey, proofOf, Curve.genSP, smul_smul]

omit hC in
theorem lastHash_eq (rs : List (Contribution G1 G2)) (c0 : Contribution G1 G2) :
    (if rs.length = 0 then [] else (rs.getLast?.getD c0).hash) = lastHash rs := by
  cases rs with
  | nil => rfl
  | cons r rs =>
    simp only [List.length_cons, Nat.succ_ne_zero, if_false, lastHash]
    rw [List.getLast?_eq_some_getLast (by simp)]
    rfl

/-- `Contribute` on a well-formed file followed by arbitrary bytes. -/
theorem contribute_bytes (par : Par) (b : Nat) (hb : 2 ≤ b) (rnd : Rand F) (f : P1File G1 G2) (hf : f.WF)
    (hp : 1 ≤ f.power.toNat) :
    ∃ t1 a1 b1 t2,
      (∀ junk, contribute C par b rnd (f.encode C ++ junk)
        = (.ok (newRecord C rnd (lastHash f.records) t1 a1 b1 t2 (rnd.beta • f.betaG2)).hash,
          Header.writeTo ⟨f.power, UInt16.ofNat (f.records.length + 1)⟩
            ++ (f.update rnd (newRecord C rnd (lastHash f.records) t1 a1 b1 t2 (rnd.beta • f.betaG2))).params C
            ++ f.records.flatMap (recordBytes C)
            ++ recordBytes C (newRecord C rnd (lastHash f.records) t1 a1 b1 t2 (rnd.beta • f.betaG2)))) ∧
      (GoodAt 1 (scaled 1 rnd.tau f.tauG1) → t1 = (scaled 1 rnd.tau f.tauG1).getD 1 0) ∧
      (GoodAt 0 (scaled rnd.alpha rnd.tau f.alphaG1) →
        a1 = (scaled rnd.alpha rnd.tau f.alphaG1).getD 0 0) ∧
      (GoodAt 0 (scaled rnd.beta rnd.tau f.betaG1) → b1 = (scaled rnd.beta rnd.tau f.betaG1).getD 0 0) ∧
      (GoodAt 1 (scaled 1 rnd.tau f.tauG2) → t2 = (scaled 1 rnd.tau f.tauG2).getD 1 0) := by
  have hN2 : 2 ≤ 2 ^ f.power.toNat := by
    calc 2 = 2 ^ 1 := rfl
      _ ≤ 2 ^ f.power.toNat := Nat.pow_le_pow_right (by omega) hp
  have hlt := hf.tauG1
  have hla := hf.alphaG1
  have hlb := hf.betaG1
  have hl2 := hf.tauG2
  have hcnt := hf.count
  obtain ⟨t1, ht1, gt1⟩ := scaleG1_spec hC par b (wrap64 (2 * goPow2 f.power - 1)) rnd.tau none f.tauG1
    (by rw [wrap_tau hf.power, hlt]) (by simp; omega)
  obtain ⟨a1, ha1, ga1⟩ := scaleG1_spec hC par b (goPow2 f.power) rnd.tau (some rnd.alpha) f.alphaG1
    (by rw [goPow2_eq hf.power, hla]) (by simp; omega)
  obtain ⟨b1, hb1, gb1⟩ := scaleG1_spec hC par b (goPow2 f.power) rnd.tau (some rnd.beta) f.betaG1
    (by rw [goPow2_eq hf.power, hlb]) (by simp; omega)
  obtain ⟨t2, ht2, gt2⟩ := scaleG2_spec hC par b (goPow2 f.power) rnd.tau f.tauG2
    (by rw [goPow2_eq hf.power, hl2]) (by omega)
  refine ⟨t1, a1, b1, t2, ?_, gt1, ga1, gb1, gt2⟩
  intro junk
  -- header
  have henc : f.encode C ++ junk = Header.writeTo ⟨f.power, UInt16.ofNat f.records.length⟩
      ++ (f.tauG1.flatMap C.c1.bytes ++ (f.alphaG1.flatMap C.c1.bytes ++ (f.betaG1.flatMap C.c1.bytes
      ++ (f.tauG2.flatMap C.c2.bytes ++ (C.c2.bytes f.betaG2
      ++ (f.records.flatMap (recordBytes C) ++ junk)))))) := by
    rw [header_encode _ _ hcnt]
    simp [P1File.encode, P1File.params]
  unfold contribute
  rw [henc, header_read]
  simp only
  unfold contributeBody Rd.buffered
  rw [Go.bind_ok (IOSt.emit_run _ _)]
  simp only []
  rw [Go.bind_ok (ht1 ..), Go.bind_ok (ha1 ..), Go.bind_ok (hb1 ..), Go.bind_ok (ht2 ..)]
  rw [Go.bind_ok (IOSt.onRd_ok (Codec.decode_bytes hC.codec2 _ _ _ _))]
  rw [Go.bind_ok (IOSt.emit_run _ _)]
  have hn : (UInt16.ofNat f.records.length + 1 - 1).toNat = f.records.length := by
    rw [UInt16.add_sub_cancel]
    simp; omega
  simp only [hn]
  rw [Go.bind_ok (copy_spec hC f.records hf.hash Contribution.zero 4096 _ (.inr ⟨by omega, by
    rw [hC.size2]; omega⟩) junk _)]
  simp only [lastHash_eq]
  rw [Go.bind_ok (IOSt.emit_run _ _)]
  simp only [Go.pure_run, genPublicKey_eq, contribution_writeTo, computeHash_eq]
  congr 1
  have hadd : UInt16.ofNat f.records.length + 1 = UInt16.ofNat (f.records.length + 1) := by
    rw [UInt16.ofNat_add]; rfl
  simp only [List.nil_append, List.append_assoc, P1File.params, P1File.update, Option.getD_none,
    Option.getD_some, hadd]
  rfl

end
end ZkSetup
