import Verif.Props.Phase2Sound
import Verif.Props.Phase1Truncate
/-
C43: hashes across a boundary of the read buffer, and what they do to C29 and C31.
-/
set_option linter.unusedSectionVars false

namespace ZkSetup

open Phase1 (wrap64 makeLen batchSize)
open Phase2

/-- The hash as it is read if the buffer ends after `k` of its bytes. -/
def cutHash (k : Nat) (h : Bytes) : Bytes := h.take k ++ List.replicate (32 - k) 0

theorem cutHash_length (k : Nat) (hk : k ≤ 32) (h : Bytes) (hl : h.length = 32) : (cutHash k h).length = 32 := by
  simp [cutHash]; omega

/-- cutting changes the hash unless the lost bytes are zero -/
theorem cutHash_ne (k : Nat) (hk : k ≤ 32) (h : Bytes) (hl : h.length = 32)
    (hz : h.drop k ≠ List.replicate (32 - k) 0) : cutHash k h ≠ h := by
  intro he
  apply hz
  have := congrArg (List.drop k) he
  rw [cutHash, List.drop_left' (by simp; omega)] at this
  exact this.symm

/-- one `Read` at the end of the buffer delivers only what is left in it -/
theorem readHash2_cut (cap pos k : Nat) (hc : 0 < cap) (hk : k = cap - pos % cap) (hk32 : k ≤ 32) (h ys : Bytes)
    (hl : h.length = 32) :
    Phase2.readHash.run ⟨cap, pos, h ++ ys⟩ = (.ok (cutHash k h), ⟨cap, pos + k, h.drop k ++ ys⟩) := by
  have hblock : min 32 (Rd.block ⟨cap, pos, h ++ ys⟩ 32) = k := by
    unfold Rd.block
    rw [if_neg (by simp only; omega)]
    simp only
    omega
  have hread : (Rd.read 32).run ⟨cap, pos, h ++ ys⟩ = (.ok (h.take k), ⟨cap, pos + k, h.drop k ++ ys⟩) := by
    unfold Rd.read
    have hne : (h ++ ys).isEmpty = false := by
      cases h with
      | nil => simp at hl
      | cons _ _ => rfl
    simp only [hblock, hne, Bool.false_eq_true, if_false, Rd.adv]
    rw [List.take_append_of_le_length (by omega), List.drop_append_of_le_length (by omega)]
  unfold Phase2.readHash
  rw [Go.bind_ok hread]
  have : (h.take k).length = k := by simp; omega
  simp [cutHash, this]

section
variable {F G1 G2 GT : Type} [Field F] [AddCommGroup G1] [Module F G1] [AddCommGroup G2]
  [Module F G2] [AddCommGroup GT] [Module F GT] [DecidableEq G1] [DecidableEq G2] [DecidableEq GT]
variable {C : Curve F G1 G2 GT} (hC : C.Lawful)
include hC

theorem record2_read_cut (c : Contribution G1 G2) (cap pos k : Nat) (hc : 0 < cap) (hk : k = cap - (pos + 160) % cap)
    (hk32 : k ≤ 32) (ys : Bytes) (hl : c.hash.length = 32) :
    (Contribution.readFrom C).run ⟨cap, pos, record2Bytes C c ++ ys⟩
      = (.ok { c with hash := cutHash k c.hash }, ⟨cap, pos + 160 + k, c.hash.drop k ++ ys⟩) := by
  unfold record2Bytes
  rw [List.append_assoc, record2_read_body hC, Go.bind_ok (readHash2_cut cap (pos + 160) k hc hk hk32 _ _ hl)]
  simp

/-- **C43**, phase 1: every record of every well-formed file is read back, at its position in the file, through the
buffers that `Contribute` (4096 bytes) and `Verify` (1 MiB) use. -/
theorem C43_phase1 (f : P1File G1 G2) (hf : f.WF) (j : Nat) (hj : j < f.records.length) (cap : Nat)
    (hcap : cap = 4096 ∨ cap = 2 ^ 20) (c0 : Phase1.Contribution G1 G2) (junk : Bytes) :
    ∃ rd', (Phase1.Contribution.readFrom C).run (c0, ⟨cap, 192 * 2 ^ f.power.toNat + 32 + 640 * j,
      (f.encode C ++ junk).drop (3 + 192 * 2 ^ f.power.toNat + 32 + 640 * j)⟩) = (.ok (), (f.records[j], rd')) := by
  have hlen := params_length hC f hf
  have hsplit : f.records = f.records.take j ++ f.records[j] :: f.records.drop (j + 1) := by
    rw [List.cons_getElem_drop_succ, List.take_append_drop]
  have hpre : ((f.records.take j).flatMap (recordBytes C)).length = 640 * j := by
    rw [records_length hC _ (fun r hr => hf.hash r (List.mem_of_mem_take hr))]
    simp; omega
  have hdrop : (f.encode C ++ junk).drop (3 + 192 * 2 ^ f.power.toNat + 32 + 640 * j)
      = recordBytes C f.records[j] ++ ((f.records.drop (j + 1)).flatMap (recordBytes C) ++ junk) := by
    have : f.encode C ++ junk = ([f.power, UInt8.ofNat (f.records.length / 256), UInt8.ofNat (f.records.length % 256)]
        ++ f.params C ++ (f.records.take j).flatMap (recordBytes C))
        ++ (recordBytes C f.records[j] ++ ((f.records.drop (j + 1)).flatMap (recordBytes C) ++ junk)) := by
      conv_lhs => rw [P1File.encode]
      have : f.records.flatMap (recordBytes C) = (f.records.take j).flatMap (recordBytes C)
          ++ (recordBytes C f.records[j] ++ (f.records.drop (j + 1)).flatMap (recordBytes C)) := by
        conv_lhs => rw [hsplit]
        rw [List.flatMap_append, List.flatMap_cons]
      rw [this]
      simp only [List.append_assoc]
    rw [this, List.drop_left']
    rw [List.length_append, hlen, hpre]
  rw [hdrop]
  have h2 : 32 ∣ cap := by rcases hcap with rfl | rfl <;> decide
  exact ⟨_, record_read hC f.records[j] c0 cap _ _ (hf.hash _ (List.getElem_mem hj)) (.inr ⟨h2, by omega⟩)⟩

/-- **C43, negation** for phase 2: a stored record whose hash lies across the end of the read buffer is read without an error
but with a different hash, unless the bytes of the hash after the boundary are all zero; the reader is then left inside
the hash. -/
theorem C43_straddle_misread (c : Contribution G1 G2) (hl : c.hash.length = 32) (cap pos : Nat) (hc : 0 < cap)
    (hstr : cap < (pos + 160) % cap + 32)
    (hz : c.hash.drop (cap - (pos + 160) % cap) ≠ List.replicate (32 - (cap - (pos + 160) % cap)) 0) (ys : Bytes) :
    ∃ c' rd', (Contribution.readFrom C).run ⟨cap, pos, record2Bytes C c ++ ys⟩ = (.ok c', rd') ∧ c' ≠ c ∧
      rd'.pos < pos + 192 := by
  refine ⟨_, _, record2_read_cut hC c cap pos _ hc rfl (by omega) ys hl, ?_, ?_⟩
  · intro h
    exact cutHash_ne _ (by omega) _ hl hz (congrArg Contribution.hash h)
  · simp only; omega

/-- the record loop stops at the first hash that lies across a boundary -/
theorem verifyLoop2_straddle (j : Nat) : ∀ (rs : List (Contribution G1 G2)) (hj : j < rs.length) (c0 : Contribution G1 G2)
    (d : G1) (h : Bytes) (cap pos : Nat) (ys : Bytes), 0 < cap → (∀ r ∈ rs, r.hash.length = 32) →
    (∀ i < j, Fits cap (pos + 192 * i + 160)) →
    cap < (pos + 192 * j + 160) % cap + 32 →
    rs[j].hash = C.sha (record2Body C rs[j]) →
    rs[j].hash.drop (cap - (pos + 192 * j + 160) % cap) ≠ List.replicate (32 - (cap - (pos + 192 * j + 160) % cap)) 0 →
    ∀ fin r', (Phase2.verifyLoop C rs.length c0 d h).run ⟨cap, pos, rs.flatMap (record2Bytes C) ++ ys⟩ ≠ (.ok fin, r') := by
  induction j with
  | zero =>
    intro rs hj c0 d h cap pos ys hc hl _ hstr hsha hz fin r' hrun
    cases rs with
    | nil => simp at hj
    | cons r rs =>
      simp only [List.length_cons, Phase2.verifyLoop, List.flatMap_cons, List.append_assoc, Nat.mul_zero,
        Nat.add_zero, List.getElem_cons_zero] at hrun hstr hsha hz
      have hlr := hl r (by simp)
      have hread := record2_read_cut hC r cap pos _ hc rfl (by omega) (rs.flatMap (record2Bytes C) ++ ys) hlr
      rw [Go.bind_ok hread] at hrun
      obtain ⟨_, r2, h2, -⟩ := Go.bind_eq_ok hrun
      simp only [Go.lift_run, Prod.mk.injEq] at h2
      obtain ⟨x, hx⟩ := (verifyContribution2_iff hC _ d h).mp h2.1
      have h3 := hx.hash
      simp only [record2Body] at h3 hsha
      rw [← hsha] at h3
      exact cutHash_ne _ (by omega) _ hlr hz h3
  | succ j ih =>
    intro rs hj c0 d h cap pos ys hc hl hf hstr hsha hz fin r' hrun
    cases rs with
    | nil => simp at hj
    | cons r rs =>
      simp only [List.length_cons, Phase2.verifyLoop, List.flatMap_cons, List.append_assoc,
        List.getElem_cons_succ] at hrun hsha hz
      rw [Go.bind_ok (record2_read hC r cap pos _ (hl r (by simp)) (by simpa using hf 0 (by omega)))] at hrun
      obtain ⟨_, r2, h2, hrun⟩ := Go.bind_eq_ok hrun
      simp only [Go.lift_run, Prod.mk.injEq] at h2
      rw [← h2.2] at hrun
      have e : ∀ i, pos + 192 * (i + 1) + 160 = pos + 192 + 192 * i + 160 := fun i => by ring
      rw [e] at hstr hz
      exact ih rs (by simpa using hj) r r.delta r.hash cap (pos + 192) ys hc (fun r' h => hl r' (by simp [h]))
        (fun i hi => by rw [← e]; exact hf (i + 1) (by omega)) hstr hsha hz fin r' hrun

variable {H : HeaderCodec} (hH : H.Lawful)
include hH

/-- acceptance of a structured file, up to the record loop -/
theorem verify2_loop (par : Par) (b : Nat) (hb : 0 < b) (vr : VerifyRand F) (f o : P2File G1 G2) (hf : f.WF) (ho : o.WF)
    (ys ys' : Bytes) (h : Phase2.verify C H par b vr (f.encode C H ++ ys) (o.encode C H ++ ys') = .ok ()) :
    ∃ c r', (Phase2.verifyLoop C f.records.length Contribution.zero o.delta1 []).run
      ⟨4096, (H.enc f.header).length + 32 + 64 + 32 * f.z.length + 32 * f.pkk.length,
        f.records.flatMap (record2Bytes C) ++ ys⟩ = (.ok c, r') ∧ c.delta = f.delta1 := by
  obtain ⟨r1, r2, r3, r4, h1, h2, h3, h4, h5⟩ := P2File.readers hC hH hf 4096 ys
  obtain ⟨q1, q2, q3, q4, k1, k2, k3, k4, k5⟩ := P2File.readers hC hH ho 4096 ys'
  have hsh : P2File.SameShape f o := by
    have h' := h
    unfold Phase2.verify verifyBody Header.read at h'
    rw [Go.bind_ok (onInput_ok h1), Go.bind_ok (onOrigin_ok k1), lift_check_bind, lift_check_bind] at h'
    exact (header_equal_iff f o).mp h'.2.1
  have hzl : o.z.length = f.z.length := by rw [hf.z, ho.z, hsh.2.2.2.2.2]
  have hkl : o.pkk.length = f.pkk.length := by rw [hf.pkk, ho.pkk, hsh.2.1]
  rw [hzl] at k4
  rw [hkl] at k5
  have hw3 : wrap64 (f.header.domain - 1) = (f.z.length : Int) := by
    have := hf.z
    have := hf.domain
    have := hf.domain_pos
    rw [wrap64_eq] <;> simp only [P2File.header] <;> omega
  have hw4 : f.header.witness = (f.pkk.length : Int) := by
    simp [P2File.header, hf.pkk]
  have hn : f.header.contributions.toNat = f.records.length := by simp [P2File.header]
  unfold Phase2.verify at h
  rw [verifyBody_iff H par b hb vr h1 k1 k2 k3 h2 h3 hw3 hw4 h4 k4 h5 k5, hn] at h
  exact h.2.2.2.2.2

/-- **C31, negation**: whatever the curve, the circuit and the verifier's draws, a file is rejected if the hash of one of its
records lies across a 4096-byte boundary of the file and its bytes after the boundary are not all zero (and no earlier
hash lies across one). Nothing is assumed about how the file was made, so an honest ceremony is rejected as well;
`Toy.straddle_rejected` is one. -/
theorem C31_straddle_rejected (par : Par) (b : Nat) (hb : 0 < b) (vr : VerifyRand F) (f o : P2File G1 G2) (hf : f.WF)
    (ho : o.WF) (junk junk' : Bytes) (j : Nat) (hj : j < f.records.length)
    (hfirst : ∀ i < j, f.hashPos H i % 4096 + 32 ≤ 4096) (hstr : 4096 < f.hashPos H j % 4096 + 32)
    (hsha : f.records[j].hash = C.sha (record2Body C f.records[j]))
    (hz : f.records[j].hash.drop (4096 - f.hashPos H j % 4096) ≠ List.replicate (32 - (4096 - f.hashPos H j % 4096)) 0) :
    Phase2.verify C H par b vr (f.encode C H ++ junk) (o.encode C H ++ junk') ≠ .ok () := by
  intro h
  obtain ⟨c, r', hrun, -⟩ := verify2_loop hC hH par b hb vr f o hf ho junk junk' h
  exact verifyLoop2_straddle hC j f.records hj _ _ _ 4096 _ junk (by decide) hf.hash
    (fun i hi => .inr (hfirst i hi)) hstr hsha hz _ _ hrun

/-- `Contribute` on a structured file, given what copying the records does -/
theorem contribute2_of_copy (par : Par) (b : Nat) (hb : 0 < b) (rnd : Rand F) (f : P2File G1 G2) (hf : f.WF) (ys : Bytes)
    (c : Contribution G1 G2) (copied : Bytes) (rd' : Rd)
    (hcopy : ∀ out, (Phase2.copyContributions C f.records.length Contribution.zero).run
      ⟨⟨4096, (H.enc f.header).length + 32 + 64 + 32 * f.z.length + 32 * f.pkk.length,
        f.records.flatMap (record2Bytes C) ++ ys⟩, out⟩ = (.ok c, ⟨rd', out ++ copied⟩)) (r : Contribution G1 G2)
    (hr : r = newRecord2 C rnd (previousHash (f.records.length : Int) c) (rnd.delta • f.delta1)) :
    Phase2.contribute C H par b rnd (f.encode C H ++ ys)
      = (.ok r.hash, H.enc (f.contribute C rnd).header ++ (f.contribute C rnd).params C ++ copied ++ record2Bytes C r) := by
  have hz := hf.z
  have hp := hf.pkk
  have hdp := hf.domain_pos
  have hcnt := hf.count
  have hdom := hf.domain
  have hw1 : wrap64 (f.header.contributions + 1) = ((f.records.length + 1 : Nat) : Int) := by
    rw [wrap64_eq] <;> simp only [P2File.header] <;> push_cast <;> omega
  have hw2 : wrap64 (((f.records.length + 1 : Nat) : Int) - 1) = (f.records.length : Int) := by
    rw [wrap64_eq] <;> push_cast <;> omega
  have hw3 : wrap64 (f.header.domain - 1) = (f.z.length : Int) := by
    rw [wrap64_eq] <;> simp only [P2File.header] <;> omega
  have hw4 : f.header.witness = (f.pkk.length : Int) := by simp [P2File.header, hp]
  have hrec : f.header.increment = (f.contribute C rnd).header := by
    unfold Header.increment
    rw [hw1]
    simp [P2File.header, P2File.contribute]
  have hd : f.header.increment.domain = f.header.domain := rfl
  have hw : f.header.increment.witness = f.header.witness := rfl
  have hc : f.header.increment.contributions = ((f.records.length + 1 : Nat) : Int) := by
    unfold Header.increment; exact hw1
  unfold Phase2.contribute contributeBody Header.read
  rw [Go.bind_ok (IOSt.onRd_ok (P2File.header_read hC hH hf 4096 ys))]
  unfold contributeWith Header.write
  rw [Go.bind_ok (IOSt.emit_run _ _)]
  rw [hd, hw, hc, hw2, hw3, hw4, hrec]
  unfold P2File.params
  simp only [List.append_assoc]
  rw [Go.bind_ok (scalePoint_spec hC.codec1 _ _ _ _ _ _)]
  rw [Go.bind_ok (scalePoint_spec hC.codec2 _ _ _ _ _ _)]
  rw [Go.bind_ok (scale2_spec hC par b hb _ _ _ _ _ _)]
  rw [Go.bind_ok (scale2_spec hC par b hb _ _ _ _ _ _)]
  rw [hC.size1, hC.size2]
  simp only [Int.toNat_natCast]
  rw [Go.bind_ok (hcopy _)]
  have hnew : newContribution C rnd (rnd.delta • f.delta1) (previousHash (f.records.length : Int) c) = r := by
    rw [hr]
    unfold newContribution newRecord2
    simp only [genPublicKey_eq, computeHash2_eq]
  rw [hnew]
  rw [Go.bind_ok (IOSt.emit_run _ _), contribution2_writeTo]
  simp only [Go.pure_run]
  rw [Prod.mk.injEq]
  refine ⟨rfl, ?_⟩
  simp [P2File.contribute]

omit hH hC in
theorem copyContributions_add (m n : Nat) : ∀ (c0 : Contribution G1 G2) (s s' : IOSt) (c : Contribution G1 G2),
    (Phase2.copyContributions C m c0).run s = (.ok c, s') →
    (Phase2.copyContributions C (m + n) c0).run s = (Phase2.copyContributions C n c).run s' := by
  induction m with
  | zero =>
    intro c0 s s' c h
    simp only [Phase2.copyContributions, Go.pure_run, Prod.mk.injEq, Except.ok.injEq] at h
    rw [Nat.zero_add, h.1, h.2]
  | succ m ih =>
    intro c0 s s' c h
    rw [Nat.succ_add]
    rw [show Phase2.copyContributions C (m + n).succ c0 = (do
      let c ← IOSt.onRd (Contribution.readFrom C)
      IOSt.emit (c.writeTo C)
      Phase2.copyContributions C (m + n) c) from rfl]
    unfold Phase2.copyContributions at h
    obtain ⟨a, s1, h1, h⟩ := Go.bind_eq_ok h
    obtain ⟨_, s2, h2, h⟩ := Go.bind_eq_ok h
    rw [Go.bind_ok h1, Go.bind_ok h2]
    exact ih _ _ _ _ h

/-- **C29, negation**: if the hash of the last record lies across a boundary of the read buffer, `Contribute` reports success
but writes the record with the bytes of its hash after the boundary replaced by zeros, and proves its own update for that
changed hash: it acts as on the file with the hash cut. -/
theorem C29_straddle_corrupts (par : Par) (b : Nat) (hb : 0 < b) (rnd : Rand F) (f : P2File G1 G2) (hf : f.WF) (junk : Bytes)
    (rs : List (Contribution G1 G2)) (r : Contribution G1 G2) (hrs : f.records = rs ++ [r])
    (hfirst : ∀ i < rs.length, f.hashPos H i % 4096 + 32 ≤ 4096) (hstr : 4096 < f.hashPos H rs.length % 4096 + 32) :
    Phase2.contribute C H par b rnd (f.encode C H ++ junk)
      = (.ok (lastHash2 (({ f with records := rs ++ [{ r with hash := cutHash (4096 - f.hashPos H rs.length % 4096) r.hash }] }
            : P2File G1 G2).contribute C rnd).records),
          (({ f with records := rs ++ [{ r with hash := cutHash (4096 - f.hashPos H rs.length % 4096) r.hash }] }
            : P2File G1 G2).contribute C rnd).encode C H) := by
  generalize hk : 4096 - f.hashPos H rs.length % 4096 = k
  have hlr : r.hash.length = 32 := hf.hash r (by simp [hrs])
  have hcopy : ∀ out, (Phase2.copyContributions C f.records.length Contribution.zero).run
      ⟨⟨4096, (H.enc f.header).length + 32 + 64 + 32 * f.z.length + 32 * f.pkk.length,
        f.records.flatMap (record2Bytes C) ++ junk⟩, out⟩
      = (.ok { r with hash := cutHash k r.hash },
          ⟨⟨4096, (H.enc f.header).length + 32 + 64 + 32 * f.z.length + 32 * f.pkk.length + 192 * rs.length + 160 + k,
            r.hash.drop k ++ junk⟩,
          out ++ (rs ++ [{ r with hash := cutHash k r.hash }]).flatMap (record2Bytes C)⟩) := by
    intro out
    have hsp := copyContributions_spec hC rs Contribution.zero 4096
      ((H.enc f.header).length + 32 + 64 + 32 * f.z.length + 32 * f.pkk.length) (record2Bytes C r ++ junk) out
      (fun q hq => hf.hash q (by simp [hrs, hq])) (fun j hj => .inr (hfirst j hj))
    have e : f.records.flatMap (record2Bytes C) ++ junk = rs.flatMap (record2Bytes C) ++ (record2Bytes C r ++ junk) := by
      simp [hrs]
    rw [e, hrs, List.length_append, copyContributions_add rs.length [r].length _ _ _ _ hsp]
    simp only [List.length_singleton, Phase2.copyContributions]
    rw [Go.bind_ok (IOSt.onRd_ok (record2_read_cut hC r 4096 _ k (by decide) hk.symm (by omega) junk hlr))]
    rw [Go.bind_ok (IOSt.emit_run _ _), contribution2_writeTo]
    simp
  have hprev : previousHash (f.records.length : Int) { r with hash := cutHash k r.hash } = cutHash k r.hash := by
    rw [previousHash, if_neg (by rw [hrs]; simp; omega)]
  rw [contribute2_of_copy hC hH par b hb rnd f hf junk _ _ _ hcopy _ rfl, hprev]
  rw [Prod.mk.injEq]
  refine ⟨?_, ?_⟩
  · simp [P2File.contribute, lastHash2]
  · unfold P2File.encode P2File.params
    simp [P2File.contribute, P2File.header, hrs, lastHash2]

end

namespace Toy

/-- an initial file for which the hash of the first contribution lies across byte 4096 -/
def wide : P2File K K where
  wires := 60
  witness := 52
  pub := 8
  privateCommitted := 0
  constraints := 60
  domain := 64
  delta1 := 1
  delta2 := 1
  z := (List.range 63).map fun i => (i + 1 : ℕ)
  pkk := (List.range 52).map fun i => (i + 2 : ℕ)
  records := []

theorem wide_wf : wide.WF := ⟨by decide, by decide, by decide, by decide, by decide, by decide, by decide, rfl, rfl, by decide,
  by simp [wide]⟩

/-- the file after one honest contribution -/
def wide1 : P2File K K := wide.contribute curve p2rnd

theorem wide1_wf : wide1.WF := contribute2_wf lawful _ wide_wf _ (by decide)

/-- **C31, negation, concrete**: an honest ceremony with one contributor and nonzero `δ` succeeds, and its result is rejected
whatever the verifier draws. -/
theorem straddle_rejected :
    p2Ceremony curve Gob.headerCodec batchSize [(par, p2rnd)] (wide.encode curve Gob.headerCodec)
      = .ok (wide1.encode curve Gob.headerCodec) ∧ p2rnd.delta ≠ 0 ∧
    ∀ (q : Par) (b : Nat) (_ : 0 < b) (vr : Phase2.VerifyRand K),
      Phase2.verify curve Gob.headerCodec q b vr (wide1.encode curve Gob.headerCodec)
        (wide.encode curve Gob.headerCodec) ≠ .ok () := by
  refine ⟨?_, by decide, ?_⟩
  · have := C29_first_contribution lawful Gob.lawful par batchSize (by decide) p2rnd wide wide_wf rfl []
    rw [List.append_nil] at this
    unfold p2Ceremony
    rw [this]
    rfl
  · intro q b hb vr
    have := C31_straddle_rejected lawful Gob.lawful q b hb vr wide1 wide wide1_wf wide_wf [] [] 0 (by decide +kernel)
      (fun i hi => by omega) (by decide +kernel) (by decide +kernel) (by decide +kernel)
    rwa [List.append_nil, List.append_nil] at this

end Toy

example := C43_phase1 Toy.lawful Toy.honest Toy.honest_wf 1 (by decide) 4096 (.inl rfl) Phase1.Contribution.zero [1]

example := C43_straddle_misread Toy.lawful ⟨3, ⟨4, 5, 6⟩, List.replicate 32 9⟩ rfl 4096 3910 (by decide) (by decide) (by decide) [1]

-- a second contributor on the file of `Toy.straddle_rejected`
example := C29_straddle_corrupts Toy.lawful Gob.lawful Toy.par batchSize (by decide) Toy.p2rnd' Toy.wide1 Toy.wide1_wf [] [] _
  rfl (fun i hi => by simp at hi) (by decide +kernel)

end ZkSetup
