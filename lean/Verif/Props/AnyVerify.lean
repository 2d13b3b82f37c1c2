import Verif.Proofs.AnyVerify
import Verif.Props.Attest
import Verif.Props.Origin
import Verif.Props.Portable
import Verif.Props.Accepted
import Verif.Props.WellFormed
/-
C77: what `p2v` accepts, whatever the bytes are. With it C35, C58, C59, C66 and C67 for any bytes.
-/
set_option linter.unusedSectionVars false

namespace ZkSetup

open Phase2 Console

section
variable {F G1 G2 GT : Type} [Field F] [AddCommGroup G1] [Module F G1] [AddCommGroup G2]
  [Module F G2] [AddCommGroup GT] [Module F GT] [DecidableEq G1] [DecidableEq G2] [DecidableEq GT]
variable {C : Curve F G1 G2 GT} (hC : C.Lawful) {H : HeaderCodec} (hH : H.Lawful)
include hC hH

/-- **C77**: `phase2.Verify` accepts the bytes `input` against the initial file `o`, on any machine, if and only if they meet
`AcceptedWith`. -/
theorem C77_exact (par : Par) (b : Nat) (hb : 0 < b) (vr : VerifyRand F) (input : Bytes) (o : P2File G1 G2) (ho : o.WF) (junk : Bytes) :
    Phase2.verify C H par b vr input (o.encode C H ++ junk) = .ok () ↔ ∃ h d1 d2 rs, AcceptedWith C H b vr input o h d1 d2 rs :=
  verify2_exact hC hH par b hb vr input o ho junk

omit hH in
/-- **C77**: what is read in accepted bytes depends on the bytes alone. -/
theorem C77_unique {b b' : Nat} {vr vr' : VerifyRand F} {input : Bytes} {o o' : P2File G1 G2} {h h' : Header} {d1 d1' : G1}
    {d2 d2' : G2} {rs rs' : List (Contribution G1 G2)} (ha : AcceptedWith C H b vr input o h d1 d2 rs)
    (ha' : AcceptedWith C H b' vr' input o' h' d1' d2' rs') : h = h' ∧ d1 = d1' ∧ d2 = d2' ∧ rs = rs' :=
  ha.unique hC ha'

/-! ### undecodable points -/

/-- the file `f` with `zs` and an undecodable point instead of Z, and with `ks` instead of PKK -/
def zUndecodable (C : Curve F G1 G2 GT) (H : HeaderCodec) (f : P2File G1 G2) (zs ks : List G1) (bad : Bytes) : Bytes :=
  H.enc f.header ++ (C.c1.bytes f.delta1 ++ (C.c2.bytes f.delta2 ++ (zs.flatMap C.c1.bytes ++ (bad ++ (ks.flatMap C.c1.bytes
    ++ f.records.flatMap (record2Bytes C))))))

/-- **C77**, a consequence: if Z is not longer than a batch and its last point cannot be decoded, then PKK is not compared with the PKK of
the initial file but with as many points from the beginning of its Z on. -/
theorem C77_shifted {bad : Bytes} (hbad : BadPoint C.c1 bad) (par par' : Par) (b b' : Nat) (hb : 0 < b) (hb' : 0 < b')
    (vr vr' : VerifyRand F) (f o : P2File G1 G2) (hf : f.WF) (ho : o.WF) (junk junk' : Bytes) (zs ks : List G1)
    (hzs : zs.length + 1 = f.z.length) (hzb : f.z.length ≤ b') (hks : ks.length = f.pkk.length)
    (h : Phase2.verify C H par b vr (f.encode C H ++ junk) (o.encode C H ++ junk') = .ok ()) :
    Phase2.verify C H par' b' vr' (zUndecodable C H f zs ks bad ++ junk) (o.encode C H ++ junk') = .ok () ↔
      C.e (batchSum b' vr'.pkk ks) f.delta2 = C.e (batchSum b' vr'.pkk ((o.z ++ o.pkk).take f.pkk.length)) o.delta2 := by
  obtain ⟨hd, d1, d2, rs, ha⟩ := (C77_exact hC hH par b hb vr _ o ho junk').mp h
  obtain ⟨r1, r2, r3, r4, r5, k, k', a1, a2, a3, a4, a5, a6, a7, a8, a9⟩ := ha
  obtain ⟨q1, q2, q3, q4, k1, k2, k3, k4, k5⟩ := P2File.readers hC hH hf 4096 junk
  rw [k1, Prod.mk.injEq, Except.ok.injEq] at a1
  obtain ⟨rfl, rfl⟩ := a1
  rw [k2, Prod.mk.injEq, Except.ok.injEq] at a2
  obtain ⟨rfl, rfl⟩ := a2
  rw [k3, Prod.mk.injEq, Except.ok.injEq] at a3
  obtain ⟨rfl, rfl⟩ := a3
  have hsh : f.SameShape o := by
    have e := a5
    simp only [P2File.header, Header.mk.injEq, Int.natCast_inj, and_true] at e
    exact e
  have hzl : o.domain - 1 = f.z.length := by rw [hf.z, hsh.2.2.2.2.2]
  have hkl : o.witness = f.pkk.length := by rw [hf.pkk, hsh.2.1]
  have e4 := a7.reader
  rw [hzl, k4] at e4
  simp only at e4
  subst e4
  have e5 := a8.reader
  rw [hkl, k5] at e5
  simp only at e5
  subst e5
  -- the readers of the other data
  have l1 := hH.dec_enc f.header (P2File.header_inRange hC hH hf) 4096 0 (C.c1.bytes f.delta1 ++ (C.c2.bytes f.delta2 ++
    (zs.flatMap C.c1.bytes ++ (bad ++ (ks.flatMap C.c1.bytes ++ (f.records.flatMap (record2Bytes C) ++ junk))))))
  have l2 := Codec.decode_bytes hC.codec1 4096 (0 + (H.enc f.header).length) f.delta1 (C.c2.bytes f.delta2 ++
    (zs.flatMap C.c1.bytes ++ (bad ++ (ks.flatMap C.c1.bytes ++ (f.records.flatMap (record2Bytes C) ++ junk)))))
  have l3 := Codec.decode_bytes hC.codec2 4096 (0 + (H.enc f.header).length + C.c1.size) f.delta2
    (zs.flatMap C.c1.bytes ++ (bad ++ (ks.flatMap C.c1.bytes ++ (f.records.flatMap (record2Bytes C) ++ junk))))
  have l4 := Codec.decodeN_encodeN hC.codec1 4096 (0 + (H.enc f.header).length + C.c1.size + C.c2.size) zs
    (bad ++ (ks.flatMap C.c1.bytes ++ (f.records.flatMap (record2Bytes C) ++ junk)))
  obtain ⟨m, l5⟩ := decode_bad hC hbad 4096 (0 + (H.enc f.header).length + C.c1.size + C.c2.size + C.c1.size * zs.length)
    (ks.flatMap C.c1.bytes ++ (f.records.flatMap (record2Bytes C) ++ junk))
  have l6 := Codec.decodeN_encodeN hC.codec1 4096 (0 + (H.enc f.header).length + C.c1.size + C.c2.size + C.c1.size * zs.length + 32) ks
    (f.records.flatMap (record2Bytes C) ++ junk)
  have hpos : 0 + (H.enc f.header).length + C.c1.size + C.c2.size + C.c1.size * zs.length + 32 + C.c1.size * ks.length
      = (H.enc f.header).length + 32 + 64 + 32 * f.z.length + 32 * f.pkk.length := by
    rw [hC.size1, hC.size2, ← hzs, hks]; ring
  rw [hpos] at l6
  unfold Codec.encodeN at l4 l6
  have hst : StopsAt C.c1 (o.domain - 1) _ zs.length _ := ⟨by omega, zs, _, _, l4, l5⟩
  have hk0 : b' * (zs.length / b') = 0 := by rw [Nat.div_eq_of_lt (by omega), Nat.mul_zero]
  have heq : zUndecodable C H f zs ks bad ++ junk = H.enc f.header ++ (C.c1.bytes f.delta1 ++ (C.c2.bytes f.delta2 ++
    (zs.flatMap C.c1.bytes ++ (bad ++ (ks.flatMap C.c1.bytes ++ (f.records.flatMap (record2Bytes C) ++ junk)))))) := by
    simp only [zUndecodable, List.append_assoc]
  rw [C77_exact hC hH par' b' hb' vr' _ o ho junk', heq]
  constructor
  · rintro ⟨hd, d1, d2, rs', r1, r2, r3, r4, r5, k, k', b1, b2, b3, -, -, -, b7, b8, -⟩
    unfold Rd.buffered at b1
    rw [l1, Prod.mk.injEq, Except.ok.injEq] at b1
    obtain ⟨rfl, rfl⟩ := b1
    rw [l2, Prod.mk.injEq, Except.ok.injEq] at b2
    obtain ⟨rfl, rfl⟩ := b2
    rw [l3, Prod.mk.injEq, Except.ok.injEq] at b3
    obtain ⟨rfl, rfl⟩ := b3
    obtain ⟨m', hm'⟩ := StopsAt.run _ hst
    have e4 := b7.reader
    rw [hm'] at e4
    simp only at e4
    subst e4
    have hk : k = 0 := by
      cases b7 with
      | all ps r' g _ => rw [hm'] at g; cases g
      | stop i r' g =>
        have := g.1
        rw [Nat.div_eq_of_lt (by omega), Nat.mul_zero]
    subst hk
    cases b8 with
    | all ps r' g g' =>
      rw [hkl, ← hks] at g
      rw [l6, Prod.mk.injEq, Except.ok.injEq] at g
      rw [← g.1] at g'
      simpa [hkl] using g'
    | stop i r' g =>
      obtain ⟨m'', hm''⟩ := StopsAt.run _ g
      rw [hkl, ← hks] at hm''
      rw [l6] at hm''
      cases hm''
  · intro hp
    refine ⟨f.header, f.delta1, f.delta2, rs, _, _, _, _, _, _, f.pkk.length, l1, l2, l3, a4, a5, a6, .stop _ _ hst, ?_, a9⟩
    rw [hk0, List.drop_zero, hkl]
    exact .all ks _ (by rw [hks] at l6; exact l6) hp

/-- **C77**, the same as an attack: from every accepted file whose `[δ]2` is `x` times that of the initial file one can make accepted data
with a PKK that decodes but consists of points of Z: the verification says the same as about a correct file, whatever is drawn. -/
theorem C77_wrong_pkk {bad : Bytes} (hbad : BadPoint C.c1 bad) (par par' : Par) (b b' : Nat) (hb : 0 < b) (hb' : 0 < b')
    (vr vr' : VerifyRand F) (f o : P2File G1 G2) (hf : f.WF) (ho : o.WF) (junk junk' : Bytes) (zs : List G1)
    (hzs : zs.length + 1 = f.z.length) (hzb : f.z.length ≤ b') (x : F) (hx : f.delta2 = x • o.delta2) (hx0 : x ≠ 0)
    (h : Phase2.verify C H par b vr (f.encode C H ++ junk) (o.encode C H ++ junk') = .ok ()) :
    Phase2.verify C H par' b' vr'
      (zUndecodable C H f zs (((o.z ++ o.pkk).take f.pkk.length).map (x⁻¹ • ·)) bad ++ junk) (o.encode C H ++ junk') = .ok () := by
  obtain ⟨hd, d1, d2, rs, ha⟩ := (C77_exact hC hH par b hb vr _ o ho junk').mp h
  obtain ⟨q1, q2, q3, q4, k1, -⟩ := P2File.readers hC hH hf 4096 junk
  obtain ⟨r1, -, -, -, -, -, -, a1, -, -, -, a5, -⟩ := ha
  rw [k1, Prod.mk.injEq, Except.ok.injEq] at a1
  obtain ⟨rfl, -⟩ := a1
  simp only [P2File.header, Header.mk.injEq, Int.natCast_inj, and_true] at a5
  have hkl : f.pkk.length = o.pkk.length := by rw [hf.pkk, ho.pkk, a5.2.1]
  rw [C77_shifted hC hH hbad par par' b b' hb hb' vr vr' f o hf ho junk junk' zs _ hzs hzb (by simp; omega) h, batchSum_map, hx,
    hC.smul_left, hC.smul_right, smul_smul, inv_mul_cancel₀ hx0, one_smul]

/-! ### printed hashes -/

omit hH in
theorem p2VerifyLoop_readable (n : Nat) : ∀ (rs : List (Contribution G1 G2)) (i : Nat) (c0 : Contribution G1 G2) (d : G1) (h : Bytes)
    (r ro : Rd) (out : List String), ReadableRecords C n r rs →
    Upto (hashLines i (rs.map (·.hash))) (p2VerifyLoop C n i c0 d h) ⟨(r, ro), out⟩ := by
  induction n with
  | zero =>
    rintro rs i c0 d h r ro out rfl
    exact ⟨0, by simp [p2VerifyLoop], fun _ _ => by simp [hashLines]⟩
  | succ n ih =>
    intro rs i c0 d h r ro out hr
    unfold p2VerifyLoop
    cases rs with
    | nil =>
      refine .quiet fun c st' e => ?_
      exact (hr ⟨c, st'.1, (recordFrom_iff _ _ _).mp (onInput_eq_ok e).1⟩).elim
    | cons c cs =>
      obtain ⟨r', h1, h2⟩ := hr
      rw [← recordFrom_iff] at h1
      simp only [List.map_cons, hashLines]
      refine .ok (onInput_ok h1) (.hash (.quiet fun _ st' e => ?_))
      simp only [Go.lift_run, Prod.mk.injEq] at e
      obtain ⟨-, rfl⟩ := e
      exact ih _ _ _ _ _ _ _ _ h2

/-- **C58**, phase 2 verification of any bytes against an initial file: the hashes printed are those of the records in the bytes, from the
first on and as far as records can be read there, all of them if the bytes are accepted. If no header, `[δ]1` and `[δ]2` can be read, no
hash is printed. -/
theorem C58_p2_verify_bytes (par : Par) (b : Nat) (hb : 0 < b) (vr : VerifyRand F) (input : Bytes) (o : P2File G1 G2) (ho : o.WF)
    (junk : Bytes) (r : Except Fail Unit) (lines : List String)
    (h : p2Verify C H par b vr input (o.encode C H ++ junk) = (r, lines)) :
    (∀ hd d1 d2 rd rs, RecordsPlace C H input hd d1 d2 rd → ReadableRecords C hd.contributions.toNat rd rs →
      trackedHashes lines <+: rs.map (fun r => some r.hash) ∧ (r = .ok () → trackedHashes lines = rs.map (fun r => some r.hash))) ∧
    ((¬ ∃ hd d1 d2 rd, RecordsPlace C H input hd d1 d2 rd) → trackedHashes lines = []) := by
  obtain ⟨q1, q2, q3, q4, k1, k2, k3, k4, k5⟩ := P2File.readers hC hH ho 4096 junk
  have hall := decodeN_join _ _ _ _ _ _ _ _ k4 k5
  rw [← List.length_append] at hall
  have hdp := ho.domain_pos
  have hd64 := ho.domain
  have hz := ho.z
  have hpk := ho.pkk
  have hwz : Phase1.wrap64 ((o.domain : Int) - 1) = ((o.domain - 1 : Nat) : Int) := by
    rw [wrap64_eq] <;> omega
  have key : ∀ L : List String, (∀ hd d1 d2 rd, RecordsPlace C H input hd d1 d2 rd → ∀ c0 ro out,
      Upto L (p2VerifyLoop C hd.contributions.toNat 0 c0 o.delta1 []) ⟨(rd, ro), out⟩) →
      Upto L (p2VerifyBody C H par b vr) ⟨(Rd.buffered 4096 input, Rd.buffered 4096 (o.encode C H ++ junk)), []⟩ := by
    intro L hL
    unfold p2VerifyBody Header.read
    refine .quiet fun hi st e1 => ?_
    obtain ⟨st1, st2⟩ := st
    obtain ⟨f1, g1⟩ := onInput_eq_ok e1
    simp only at f1 g1
    subst g1
    refine .ok (onOrigin_ok k1) (.quiet fun _ st e => .quiet fun _ st' e' => ?_)
    simp only [Go.lift_run, Prod.mk.injEq] at e e'
    obtain ⟨-, rfl⟩ := e
    obtain ⟨hsh, rfl⟩ := e'
    rw [check_ok] at hsh
    simp only [Header.equal, decide_eq_true_eq] at hsh
    obtain ⟨-, w2, -, -, -, w6⟩ := hsh
    have hw6 : hi.domain = (o.domain : Int) := w6
    have hw2 : hi.witness = (o.witness : Int) := w2
    refine .ok (onOrigin_ok k2) (.ok (onOrigin_ok k3) (.quiet fun d1 st e7 => ?_))
    obtain ⟨s7, t7⟩ := st
    obtain ⟨f7, g7⟩ := onInput_eq_ok e7
    simp only at f7 g7
    subst g7
    refine .quiet fun d2 st e8 => ?_
    obtain ⟨s8, t8⟩ := st
    obtain ⟨f8, g8⟩ := onInput_eq_ok e8
    simp only at f8 g8
    subst g8
    refine .quiet fun _ st e => ?_
    simp only [Go.lift_run, Prod.mk.injEq] at e
    obtain ⟨-, rfl⟩ := e
    rw [hw6, hwz, hw2]
    refine .println (by decide) (.quiet fun _ st e => ?_)
    rw [verifyParameter_iff hC par b hb vr.z _ _ _ _ _ _ (o.z ++ o.pkk) _ (by simp; omega) hall] at e
    obtain ⟨k, hk, hcz, hoz⟩ := e
    obtain ⟨r', hr'⟩ : ∃ r', (C.c1.decodeN ((o.z ++ o.pkk).drop k).length).run st.2 = (.ok ((o.z ++ o.pkk).drop k), r') := by
      have h := hall
      rw [show (o.z ++ o.pkk).length = k + ((o.z ++ o.pkk).drop k).length by simp; omega] at h
      obtain ⟨r1, h1, h2⟩ := decodeN_split _ _ _ _ _ _ h
      rw [hoz, Prod.mk.injEq] at h1
      exact ⟨_, by rw [h1.2]; exact h2⟩
    refine .println (by decide) (.quiet fun _ st' e => ?_)
    rw [verifyParameter_iff hC par b hb vr.pkk _ _ _ _ _ _ _ _ (by simp; omega) hr'] at e
    obtain ⟨k', hk', hck, -⟩ := e
    refine .println (by simp only [String.toList_append]; rfl) (.then ?_ fun _ => ?_)
    · obtain ⟨s1, s2⟩ := st'
      refine hL hi d1 d2 s1 ⟨_, _, _, f1, f7, f8, ?_⟩ _ _ _
      simp only at hck
      rw [hck.reader, hcz.reader, hw2, hw6, Int.toNat_natCast, show ((o.domain : Int) - 1).toNat = o.domain - 1 by omega]
    · mute
  unfold p2Verify at h
  simp only [Prod.mk.injEq] at h
  obtain ⟨rfl, rfl⟩ := h
  refine ⟨fun hd d1 d2 rd rs hp hr => ?_, fun hn => ?_⟩
  · obtain ⟨m, hu1, hu2⟩ := key (hashLines 0 (rs.map (·.hash))) (by
      intro hd' d1' d2' rd' hp' c0 ro out
      obtain ⟨rfl, rfl, rfl, rfl⟩ := hp.unique hp'
      exact p2VerifyLoop_readable hC _ _ _ _ _ _ _ _ _ hr)
    rw [show linesWith verifying [] = [] from rfl, List.nil_append] at hu1
    have ht := tracked_upto hu1
    rw [List.map_map] at ht
    rw [ht]
    refine ⟨List.take_prefix _ _, ?_⟩
    intro hok
    have := hu2 () hok
    rw [hashLines_length, List.length_map] at this
    rw [List.take_of_length_le (by simpa using this)]
    rfl
  · obtain ⟨m, hu1, -⟩ := key (hashLines 0 []) (by
      intro hd' d1' d2' rd' hp' c0 ro out
      exact (hn ⟨_, _, _, _, hp'⟩).elim)
    rw [show linesWith verifying [] = [] from rfl, List.nil_append] at hu1
    have ht := tracked_upto hu1
    simpa using ht

/-! ### the records -/

omit hH in
theorem recordsFrom_bytes (rs : List (Contribution G1 G2)) : ∀ (pos : Nat) (ys : Bytes), (∀ r ∈ rs, r.hash.length = 32) →
    (∀ j < rs.length, (pos + 192 * j + 160) % 4096 + 32 ≤ 4096) → RecordsFrom C ⟨4096, pos, rs.flatMap (record2Bytes C) ++ ys⟩ rs := by
  induction rs with
  | nil => intro pos ys _ _; trivial
  | cons r rs ih =>
    intro pos ys hl hf
    have hread := record2_read hC r 4096 pos (rs.flatMap (record2Bytes C) ++ ys) (hl r (by simp)) (.inr (by
      have := hf 0 (by simp)
      simpa using this))
    rw [List.flatMap_cons, List.append_assoc]
    refine ⟨_, (recordFrom_iff _ _ _).mp hread, ih _ _ (fun r' h => hl r' (by simp [h])) fun j hj => ?_⟩
    have := hf (j + 1) (by simpa using hj)
    rwa [show pos + 192 + 192 * j + 160 = pos + 192 * (j + 1) + 160 by ring]

/-- the records of a well-formed file, if no hash lies across the end of a read buffer -/
theorem HasRecords.file (f : P2File G1 G2) (hf : f.WF) (hs : f.NoStraddle H) (junk : Bytes) :
    HasRecords C H (f.encode C H ++ junk) f.records := by
  obtain ⟨q1, q2, q3, q4, k1, k2, k3, k4, k5⟩ := P2File.readers hC hH hf 4096 junk
  have e1 : (f.header.domain - 1).toNat = f.z.length := by
    have := hf.domain_pos
    rw [hf.z]; simp only [P2File.header]; omega
  have e2 : f.header.witness.toNat = f.pkk.length := by
    rw [hf.pkk]; simp only [P2File.header]; omega
  refine ⟨f.header, f.delta1, f.delta2, _, ⟨_, _, _, k1, k2, k3, rfl⟩, ?_, by simp [P2File.header]⟩
  rw [e1, k4, e2, k5]
  refine recordsFrom_bytes hC _ _ _ (fun r hr => ?_) fun j hj => ?_
  · exact hf.hash r hr
  · have := hs j hj
    unfold P2File.hashPos at this
    convert this using 3


omit hH in
theorem HasRecords.unique {input : Bytes} {rs rs' : List (Contribution G1 G2)} (h : HasRecords C H input rs) (h' : HasRecords C H input rs') :
    rs = rs' := by
  obtain ⟨hd, d1, d2, rd, p, hr, hl⟩ := h
  obtain ⟨hd', d1', d2', rd', p', hr', hl'⟩ := h'
  obtain ⟨rfl, rfl, rfl, rfl⟩ := p.unique p'
  exact recordsFrom_unique hC _ _ _ hr hr' (hl.trans hl'.symm)

/-- **C77**: accepted bytes have records; they are a chain of proven updates that begins at the `[δ]1` of the initial file and ends at
the `[δ]1` in the bytes. -/
theorem C77_records (par : Par) (b : Nat) (hb : 0 < b) (vr : VerifyRand F) (input : Bytes) (o : P2File G1 G2) (ho : o.WF) (junk : Bytes)
    (h : Phase2.verify C H par b vr input (o.encode C H ++ junk) = .ok ()) :
    ∃ rs hd d1 d2, HasRecords C H input rs ∧ Starts2 C H input hd d1 d2 ∧ hd.equal o.header = true ∧ (∃ xs, Chain2By C o.delta1 [] rs xs) ∧
      (rs.getLast?.map (·.delta)).getD 0 = d1 ∧ C.e o.delta1 d2 = C.e d1 o.delta2 := by
  obtain ⟨hd, d1, d2, rs, ha⟩ := (C77_exact hC hH par b hb vr input o ho junk).mp h
  obtain ⟨rd, p, hr, hl⟩ := ha.place
  have p' := p
  obtain ⟨r1, r2, r3, a1, a2, a3, -⟩ := p'
  obtain ⟨-, -, -, -, -, -, -, -, -, -, -, hh, he, -, -, -, -, hch, hlast⟩ := ha
  refine ⟨rs, hd, d1, d2, ⟨hd, d1, d2, rd, p, hr, hl⟩, ⟨r1, r2, r3, a1, a2, a3⟩, ?_, hch, hlast, he⟩
  rw [hh]; simp [Header.equal]

/-- the chain of given records -/
theorem chain_of_records {par : Par} {b : Nat} (hb : 0 < b) {vr : VerifyRand F} {input : Bytes} {o : P2File G1 G2} (ho : o.WF) {junk : Bytes}
    (h : Phase2.verify C H par b vr input (o.encode C H ++ junk) = .ok ()) {rs : List (Contribution G1 G2)} (hr : HasRecords C H input rs) :
    ∃ xs, Chain2By C o.delta1 [] rs xs := by
  obtain ⟨rs', _, _, _, hr', -, -, hch, -⟩ := C77_records hC hH par b hb vr input o ho junk h
  rw [HasRecords.unique hC hr hr']
  exact hch

/-- **C35** for any bytes (partial: `SX ≠ 0`), whatever their numbers of contributions. -/
theorem C35_bytes_partial (par par' : Par) (b b' : Nat) (hb : 0 < b) (hb' : 0 < b') (vr vr' : VerifyRand F) (input input' : Bytes)
    (o o' : P2File G1 G2) (ho : o.WF) (ho' : o'.WF) (junk junk' : Bytes)
    (h : Phase2.verify C H par b vr input (o.encode C H ++ junk) = .ok ())
    (h' : Phase2.verify C H par' b' vr' input' (o'.encode C H ++ junk') = .ok ())
    (rs rs' : List (Contribution G1 G2)) (hr : HasRecords C H input rs) (hr' : HasRecords C H input' rs')
    (hlast : lastHash2 rs = lastHash2 rs') (hnd : ∀ r ∈ rs, r.pk.sx ≠ 0) (hsha : ∀ r ∈ rs, ∀ r' ∈ rs', NoShaCollision2 C r r')
    (hg2 : ∀ r ∈ rs, ∀ x ∈ [] :: rs.map (·.hash), ∀ x' ∈ [] :: rs'.map (·.hash), NoG2Collision2 C r x x') : rs = rs' := by
  obtain ⟨xs, hx⟩ := chain_of_records hC hH hb ho h hr
  obtain ⟨xs', hx'⟩ := chain_of_records hC hH hb' ho' h' hr'
  exact chain2_binding_any hC _ _ _ _ _ _ hx hx' hlast hnd hsha hg2

/-- **C66**, phase 2, for any bytes (partial: the proof in the first record is not degenerate): the initial files against which they are
accepted agree in shape and in `[δ]1`. -/
theorem C66_bytes_partial (par par' : Par) (b b' : Nat) (hb : 0 < b) (hb' : 0 < b') (vr vr' : VerifyRand F) (input : Bytes)
    (o o' : P2File G1 G2) (ho : o.WF) (ho' : o'.WF) (junk junk' : Bytes) (rs : List (Contribution G1 G2)) (hrs : HasRecords C H input rs)
    (r : Contribution G1 G2) (hr : rs.head? = some r) (hnd : r.pk.sx ≠ 0)
    (h : Phase2.verify C H par b vr input (o.encode C H ++ junk) = .ok ())
    (h' : Phase2.verify C H par' b' vr' input (o'.encode C H ++ junk') = .ok ()) : o.SameShape o' ∧ o.delta1 = o'.delta1 := by
  obtain ⟨hd, d1, d2, rs1, ha⟩ := (C77_exact hC hH par b hb vr input o ho junk).mp h
  obtain ⟨hd', d1', d2', rs2, ha'⟩ := (C77_exact hC hH par' b' hb' vr' input o' ho' junk').mp h'
  obtain ⟨rfl, -⟩ := ha.unique hC ha'
  obtain ⟨xs, hx⟩ := chain_of_records hC hH hb ho h hrs
  obtain ⟨ys, hy⟩ := chain_of_records hC hH hb' ho' h' hrs
  obtain ⟨-, -, -, -, -, -, -, -, -, -, -, hh, -⟩ := ha
  obtain ⟨-, -, -, -, -, -, -, -, -, -, -, hh', -⟩ := ha'
  refine ⟨?_, ?_⟩
  · have e := hh.symm.trans hh'
    simp only [P2File.header, Header.mk.injEq, Int.natCast_inj, and_true] at e
    exact e
  · cases rs with
    | nil => cases hr
    | cons r0 rs =>
      simp only [List.head?_cons, Option.some.injEq] at hr
      subst hr
      cases xs with
      | nil => exact hx.elim
      | cons x xs =>
        cases ys with
        | nil => exact hy.elim
        | cons y ys =>
          obtain ⟨rfl, hx0⟩ := scalar_unique hC hx.1.sx hy.1.sx hnd
          exact smul_cancel hC hx0 (hx.1.delta.symm.trans hy.1.delta)

/-- **C66**, phase 2, for any bytes whose parameters can be decoded (partial): two initial files that differ in a point of Z. Against one
of them at most one of the values that the verifier can draw for that point leads to acceptance. -/
theorem C66_bytes_z_partial [Fintype F] (par : Par) (b : Nat) (hb : 0 < b) (vr : VerifyRand F) (input : Bytes) (hd : Header) (d1 : G1) (d2 : G2)
    (z pkk : List G1) (hp : HoldsParams C H input hd d1 d2 z pkk) (o o' : P2File G1 G2) (ho : o.WF) (ho' : o'.WF)
    (hd2 : o.delta2 = C.g2) (hd2' : o'.delta2 = C.g2) (k : Nat) (hk : k < z.length) (hne : o.z.getD k 0 ≠ o'.z.getD k 0)
    (junk junk' : Bytes) (acc acc' : F → Prop) [DecidablePred acc] [DecidablePred acc']
    (hacc : ∀ x, acc x ↔ Phase2.verify C H par b ⟨setDraw b vr.z k x, vr.pkk⟩ input (o.encode C H ++ junk) = .ok ())
    (hacc' : ∀ x, acc' x ↔ Phase2.verify C H par b ⟨setDraw b vr.z k x, vr.pkk⟩ input (o'.encode C H ++ junk') = .ok ()) :
    (Finset.univ.filter acc).card ≤ 1 ∨ (Finset.univ.filter acc').card ≤ 1 := by
  obtain ⟨Δ, hΔ⟩ := hC.span2 d2
  have hg2 : C.g2 ≠ 0 := g2_ne hC
  by_cases hbad : Δ • z.getD k 0 = o.z.getD k 0
  · right
    rw [Finset.card_le_one]
    intro x hx y hy
    simp only [Finset.mem_filter, Finset.mem_univ, true_and, hacc'] at hx hy
    exact C76_z hC hH par par b hb vr input o' ho' junk' hd d1 d2 z pkk hp (by rw [hd2']; exact hg2) Δ (by rw [hd2', hΔ]) k hk
      (fun e => hne (hbad.symm.trans e)) x y hx hy
  · left
    rw [Finset.card_le_one]
    intro x hx y hy
    simp only [Finset.mem_filter, Finset.mem_univ, true_and, hacc] at hx hy
    exact C76_z hC hH par par b hb vr input o ho junk hd d1 d2 z pkk hp (by rw [hd2]; exact hg2) Δ (by rw [hd2, hΔ]) k hk hbad x y hx hy

/-- **C66**, phase 2, for any bytes whose parameters can be decoded (partial): the same for PKK. -/
theorem C66_bytes_pkk_partial [Fintype F] (par : Par) (b : Nat) (hb : 0 < b) (vr : VerifyRand F) (input : Bytes) (hd : Header) (d1 : G1) (d2 : G2)
    (z pkk : List G1) (hp : HoldsParams C H input hd d1 d2 z pkk) (o o' : P2File G1 G2) (ho : o.WF) (ho' : o'.WF)
    (hd2 : o.delta2 = C.g2) (hd2' : o'.delta2 = C.g2) (k : Nat) (hk : k < pkk.length) (hne : o.pkk.getD k 0 ≠ o'.pkk.getD k 0)
    (junk junk' : Bytes) (acc acc' : F → Prop) [DecidablePred acc] [DecidablePred acc']
    (hacc : ∀ x, acc x ↔ Phase2.verify C H par b ⟨vr.z, setDraw b vr.pkk k x⟩ input (o.encode C H ++ junk) = .ok ())
    (hacc' : ∀ x, acc' x ↔ Phase2.verify C H par b ⟨vr.z, setDraw b vr.pkk k x⟩ input (o'.encode C H ++ junk') = .ok ()) :
    (Finset.univ.filter acc).card ≤ 1 ∨ (Finset.univ.filter acc').card ≤ 1 := by
  obtain ⟨Δ, hΔ⟩ := hC.span2 d2
  have hg2 : C.g2 ≠ 0 := g2_ne hC
  by_cases hbad : Δ • pkk.getD k 0 = o.pkk.getD k 0
  · right
    rw [Finset.card_le_one]
    intro x hx y hy
    simp only [Finset.mem_filter, Finset.mem_univ, true_and, hacc'] at hx hy
    exact C76_pkk hC hH par par b hb vr input o' ho' junk' hd d1 d2 z pkk hp (by rw [hd2']; exact hg2) Δ (by rw [hd2', hΔ]) k hk
      (fun e => hne (hbad.symm.trans e)) x y hx hy
  · left
    rw [Finset.card_le_one]
    intro x hx y hy
    simp only [Finset.mem_filter, Finset.mem_univ, true_and, hacc] at hx hy
    exact C76_pkk hC hH par par b hb vr input o ho junk hd d1 d2 z pkk hp (by rw [hd2]; exact hg2) Δ (by rw [hd2, hΔ]) k hk hbad x y hx hy

/-- **C67** for any bytes (partial): accepted bytes with the same records, against any initial files with the same `[δ]1` and `[δ]2`, have
the same `[δ]1` and `[δ]2`. -/
theorem C67_secret_bytes_partial (par par' : Par) (b b' : Nat) (hb : 0 < b) (hb' : 0 < b') (vr vr' : VerifyRand F) (input input' : Bytes)
    (o o' : P2File G1 G2) (ho : o.WF) (ho' : o'.WF) (junk junk' : Bytes) (rs : List (Contribution G1 G2)) (hr : HasRecords C H input rs)
    (hr' : HasRecords C H input' rs) (h1 : o.delta1 = C.g1) (h1' : o'.delta1 = C.g1) (h2 : o'.delta2 = o.delta2)
    (h : Phase2.verify C H par b vr input (o.encode C H ++ junk) = .ok ())
    (h' : Phase2.verify C H par' b' vr' input' (o'.encode C H ++ junk') = .ok ()) :
    ∃ hd hd' d1 d2, Starts2 C H input hd d1 d2 ∧ Starts2 C H input' hd' d1 d2 := by
  obtain ⟨s, hd, d1, d2, k1, k2, -, -, k3, hp⟩ := C77_records hC hH par b hb vr input o ho junk h
  obtain ⟨s', hd', d1', d2', l1, l2, -, -, l3, hp'⟩ := C77_records hC hH par' b' hb' vr' input' o' ho' junk' h'
  obtain rfl := HasRecords.unique hC hr k1
  obtain rfl := HasRecords.unique hC hr' l1
  obtain rfl : d1 = d1' := k3.symm.trans l3
  refine ⟨hd, hd', d1, d2, k2, ?_⟩
  suffices d2 = d2' by rw [this]; exact l2
  obtain ⟨x, hx⟩ := hC.span2 d2
  obtain ⟨y, hy⟩ := hC.span2 d2'
  rw [h1, hx, hC.smul_right] at hp
  rw [h1', h2, hy, hC.smul_right] at hp'
  have hxy : x • C.e C.g1 C.g2 = y • C.e C.g1 C.g2 := hp.trans hp'.symm
  rw [hx, hy, (e_gen_inj hC).mp hxy]

/-! ### the printed hashes and the records -/

/-- accepted bytes: the chain of the records, and all their hashes printed -/
theorem p2_accepted_bytes {par : Par} {b : Nat} (hb : 0 < b) {vr : VerifyRand F} {input : Bytes} {o : P2File G1 G2} (ho : o.WF)
    {junk : Bytes} {lines : List String} (h : p2Verify C H par b vr input (o.encode C H ++ junk) = (.ok (), lines))
    {rs : List (Contribution G1 G2)} (hr : HasRecords C H input rs) :
    (∃ xs, Chain2By C o.delta1 [] rs xs) ∧ trackedHashes lines = rs.map (fun r => some r.hash) := by
  have hv := (C58_same_programs C H par .strict b ⟨0, 0, 0, 0, 0, 0⟩ ⟨fun _ _ => 0, fun _ _ => 0, fun _ _ => 0, fun _ _ => 0⟩ ⟨0, 0⟩ vr
    input (o.encode C H ++ junk) none).2.2.2
  rw [h] at hv
  refine ⟨chain_of_records hC hH hb ho hv.symm hr, ?_⟩
  obtain ⟨hd, d1, d2, rd, p, hrec, hl⟩ := hr
  refine ((C58_p2_verify_bytes hC hH par b hb vr input o ho junk _ _ h).1 hd d1 d2 rd rs p ?_).2 rfl
  rw [← hl]
  exact readable_of_all rs rd hrec

/-- **C59**, phase 2, the coordinator's record, for any bytes. -/
theorem C59_phase2_kept_bytes (par par' : Par) (b b' : Nat) (hb : 0 < b) (hb' : 0 < b') (vr vr' : VerifyRand F) (input input' : Bytes)
    (o o' : P2File G1 G2) (ho : o.WF) (ho' : o'.WF) (junk junk' : Bytes) (rs rs' : List (Contribution G1 G2)) (hr : HasRecords C H input rs)
    (hr' : HasRecords C H input' rs') (lines lines' : List String)
    (h : p2Verify C H par b vr input (o.encode C H ++ junk) = (.ok (), lines))
    (h' : p2Verify C H par' b' vr' input' (o'.encode C H ++ junk') = (.ok (), lines'))
    (hkept : trackedHashes lines <+: trackedHashes lines') (hsha : ∀ r ∈ rs, ∀ r' ∈ rs', NoShaCollision2 C r r') : rs <+: rs' := by
  obtain ⟨⟨xs, hc⟩, ht⟩ := p2_accepted_bytes hC hH hb ho h hr
  obtain ⟨⟨xs', hc'⟩, ht'⟩ := p2_accepted_bytes hC hH hb' ho' h' hr'
  rw [ht, ht'] at hkept
  have k1 := chain2_hash _ _ _ _ hc
  have k2 := chain2_hash _ _ _ _ hc'
  clear h h' ht ht' hc hc' hr hr'
  induction rs generalizing rs' with
  | nil => exact List.nil_prefix
  | cons r rs ih =>
    cases rs' with
    | nil => simp at hkept
    | cons r' rs' =>
      simp only [List.map_cons, List.cons_prefix_cons, Option.some.injEq] at hkept
      have e : r = r' := by
        refine record2Body_inj hC (hsha r (by simp) r' (by simp) ?_) hkept.1
        rw [← k1 r (by simp), ← k2 r' (by simp), hkept.1]
      subst e
      exact List.cons_prefix_cons.mpr ⟨rfl, ih rs' hkept.2 (fun x hx x' hx' => hsha x (by simp [hx]) x' (by simp [hx']))
        (fun x hx => k1 x (by simp [hx])) (fun x hx => k2 x (by simp [hx]))⟩

/-- **C59**, phase 2, nothing replaced before an attested contribution, for any bytes (partial: `SX ≠ 0` in the records up to it; it is
false otherwise, `C35_degenerate_unbound`). -/
theorem C59_phase2_attested_bytes_partial (par par' : Par) (b b' : Nat) (hb : 0 < b) (hb' : 0 < b') (vr vr' : VerifyRand F)
    (input input' : Bytes) (o o' : P2File G1 G2) (ho : o.WF) (ho' : o'.WF) (junk junk' : Bytes) (rs rs' : List (Contribution G1 G2))
    (hr : HasRecords C H input rs) (hr' : HasRecords C H input' rs') (lines lines' : List String)
    (h : p2Verify C H par b vr input (o.encode C H ++ junk) = (.ok (), lines))
    (h' : p2Verify C H par' b' vr' input' (o'.encode C H ++ junk') = (.ok (), lines'))
    (attested : Bytes) (hlast : (trackedHashes lines).getLast? = some (some attested)) (hin : some attested ∈ trackedHashes lines')
    (hnd : ∀ r ∈ rs, r.pk.sx ≠ 0) (hsha : ∀ r ∈ rs, ∀ r' ∈ rs', NoShaCollision2 C r r')
    (hg2 : ∀ r ∈ rs, ∀ x ∈ [] :: rs.map (·.hash), ∀ x' ∈ [] :: rs'.map (·.hash), NoG2Collision2 C r x x') : rs <+: rs' := by
  obtain ⟨⟨xs, hc⟩, ht⟩ := p2_accepted_bytes hC hH hb ho h hr
  obtain ⟨⟨xs', hc'⟩, ht'⟩ := p2_accepted_bytes hC hH hb' ho' h' hr'
  rw [ht, List.getLast?_map] at hlast
  rw [ht', List.mem_map] at hin
  obtain ⟨r', hr1, he'⟩ := hin
  obtain ⟨pre, post, hsplit⟩ := List.append_of_mem hr1
  have e2 : rs' = (pre ++ [r']) ++ post := by simp [hsplit]
  rw [e2] at hc' hsha hg2 ⊢
  obtain ⟨ys, zs, hcc, -⟩ := chain2_split (pre ++ [r']) post _ _ _ hc'
  have hl : lastHash2 rs = lastHash2 (pre ++ [r']) := by
    unfold lastHash2
    cases hx : rs.getLast? with
    | none => rw [hx] at hlast; simp at hlast
    | some r =>
      rw [hx] at hlast
      simp only [Option.map_some, Option.some.injEq] at hlast he'
      simp [hlast, he']
  have := chain2_binding_any hC rs (pre ++ [r']) _ _ _ _ hc hcc hl hnd
    (fun r hr r' hr' => hsha r hr r' (List.mem_append_left _ hr'))
    (fun r hr x hx x' hx' => hg2 r hr x hx x' (by
      rw [List.map_append]
      exact List.mem_cons.mpr ((List.mem_cons.mp hx').imp_right (List.mem_append_left _))))
  rw [this]
  exact List.prefix_append _ _

/-- **C59**, phase 2, a contributor's secret is in, for any bytes: a contributor has run `p2c` on any bytes; if the hash they attest is
among those printed when any bytes are accepted, these contain a step that multiplies δ by exactly the contributor's secret. -/
theorem C59_phase2_secret_bytes (par par' : Par) (b b' : Nat) (hb : 0 < b) (hb' : 0 < b') (rnd : Rand F) (vr : VerifyRand F)
    (input input' : Bytes) (o : P2File G1 G2) (ho : o.WF) (junk : Bytes) (rs : List (Contribution G1 G2)) (hr : HasRecords C H input' rs)
    (out : Bytes) (l lines : List String) (h : p2Contribute C H par b rnd input = (.ok (), out, l))
    (h' : p2Verify C H par' b' vr input' (o.encode C H ++ junk) = (.ok (), lines))
    (attested : Bytes) (hatt : attestedHashes l = [some attested]) (hin : some attested ∈ trackedHashes lines) (hblind : rnd.s ≠ 0)
    (hsha : ∀ r ∈ rs, C.sha (record2Body C r) = attested → ∃ pre, out = pre ++ record2Body C r ++ attested) :
    ∃ before r after, rs = before ++ r :: after ∧ r.hash = attested ∧
      Step2By C ((before.getLast?.map (·.delta)).getD o.delta1) (lastHash2 before) r rnd.delta := by
  obtain ⟨⟨xs', hc'⟩, ht'⟩ := p2_accepted_bytes hC hH hb' ho h' hr
  have hk := chain2_hash _ _ _ _ hc'
  obtain ⟨-, -, ⟨hok, hout⟩, -⟩ := C58_same_programs C H par .strict b ⟨0, 0, 0, 0, 0, 0⟩ ⟨fun _ _ => 0, fun _ _ => 0, fun _ _ => 0, fun _ _ => 0⟩
    rnd vr input [] none
  rw [h] at hout hok
  obtain ⟨hash, hcon⟩ : ∃ hash, Phase2.contribute C H par b rnd input = (.ok hash, out) := by
    cases hx : Phase2.contribute C H par b rnd input with
    | mk res out' =>
      rw [hx] at hok hout
      cases res with
      | error e => cases hok
      | ok a => exact ⟨a, by rw [show out = out' from hout]⟩
  obtain ⟨h0, rd0, f, -, -, -, -, -, -, -, hall⟩ := contribute2_any hb hcon
  have hrec : ∃ r0, r0 = newRecord2 C rnd (lastHash2 f.records) (rnd.delta • f.delta1) := ⟨_, rfl⟩
  obtain ⟨r0, hr0⟩ := hrec
  have e6 : r0.hash = C.sha (record2Body C r0) := by rw [hr0]; rfl
  have e3 : r0.pk = proofOf C rnd.delta rnd.s (lastHash2 f.records) 1 := by rw [hr0]; rfl
  have hq := (hall par b rnd hb).symm.trans hcon
  obtain ⟨⟨⟨pre, body, k1, k2, k3⟩, -⟩, -⟩ := (C58_p2_contribute hC H par b rnd _ _ _ _ h).imp_left fun f => f rfl
  rw [hatt, List.cons.injEq, Option.some.injEq] at k3
  rw [ht', List.mem_map] at hin
  obtain ⟨r, hr', he⟩ := hin
  rw [Option.some.injEq] at he
  obtain ⟨pre', hpre'⟩ := hsha r hr' (by rw [← hk r hr', he])
  have hl := record2Body_length hC r
  have hl' := record2Body_length hC r0
  have hbody : record2Body C r = record2Body C r0 := by
    have hx : ∃ x, out = x ++ record2Body C r0 ++ r0.hash := by
      refine ⟨H.enc h0.increment ++ (f.contribute C rnd).params C ++ f.records.flatMap (record2Bytes C), ?_⟩
      rw [← (Prod.mk.inj hq).2, show (f.contribute C rnd).records = f.records ++ [r0] by rw [hr0]; rfl]
      simp only [List.flatMap_append, List.flatMap_cons, List.flatMap_nil, List.append_nil, record2Bytes, List.append_assoc]
    obtain ⟨x, hx⟩ := hx
    rw [hx] at hpre'
    have y1 : r0.hash.length = 32 := by rw [e6]; exact hC.sha_length _
    have y2 : attested.length = 32 := by rw [k3.1]; exact hC.sha_length _
    have z := List.append_inj' hpre' (by rw [y1, y2])
    exact (List.append_inj' z.1 (by rw [hl, hl'])).2.symm
  have hrr : r = r0 := record2Body_inj hC hbody (by rw [hk r hr', e6, hbody])
  obtain ⟨before, after, hsplit⟩ := List.append_of_mem hr'
  refine ⟨before, r, after, hsplit, he, ?_⟩
  rw [hsplit] at hc'
  obtain ⟨ys, zs, -, hstep⟩ := chain2_split _ _ _ _ _ hc'
  have hh : (before.getLast?.map (·.hash)).getD [] = lastHash2 before := by
    unfold lastHash2
    cases before.getLast? <;> rfl
  rw [hh] at hstep
  clear hr0
  subst hrr
  cases zs with
  | nil => exact hstep.elim
  | cons z zs =>
    have f1 := factor_unique hC e3 hblind ⟨hstep.1.sx, hstep.1.spx⟩
    subst f1
    exact hstep.1

end

namespace Toy

theorem p2final_records (junk : Bytes) : HasRecords curve Gob.headerCodec (p2final.encode curve Gob.headerCodec ++ junk) p2final.records :=
  HasRecords.file lawful Gob.lawful p2final p2final_wf p2final_noStraddle junk

theorem p2one_records (junk : Bytes) : HasRecords curve Gob.headerCodec (p2one.encode curve Gob.headerCodec ++ junk) p2one.records :=
  HasRecords.file lawful Gob.lawful p2one p2one_facts.1 p2one_noStraddle junk

/-- data with an undecodable point in Z and points of the initial Z in PKK -/
noncomputable def shifted : Bytes := zUndecodable curve Gob.headerCodec p2final [1, 2] (((p2.z ++ p2.pkk).take p2final.pkk.length).map
  ((16 : K)⁻¹ • ·)) bad ++ [9]

theorem shifted_accepted : Phase2.verify curve Gob.headerCodec par4 Phase1.batchSize p2vr shifted (p2.encode curve Gob.headerCodec ++ [1])
    = .ok () :=
  C77_wrong_pkk lawful Gob.lawful bad_bad par par4 Phase1.batchSize Phase1.batchSize (by decide) (by decide) p2vr p2vr p2final p2 p2final_wf
    p2_wf [9] [1] [1, 2] (by decide +kernel) (by decide +kernel) 16 (by decide +kernel) (by decide) (p2final_accepted [9] [1])

end Toy

open Phase1 (batchSize)

-- bytes no command of the tool writes, and bytes with an undecodable Z
example := (C77_exact Toy.lawful Gob.lawful par4 batchSize (by decide) Toy.p2vr Toy.foreign _
  (trapdoorFile_wf Toy.lawful Toy.circuit Toy.circuit_valid Toy.circuit_nc.publicCommitment 2 Toy.circuit_domain (by decide) 4 3 5 7) [2]).mp
  Toy.foreign_accepted

example := (C77_exact Toy.lawful Gob.lawful par4 batchSize (by decide) Toy.p2vr _ Toy.p2 Toy.p2_wf [1]).mp Toy.shifted_accepted

-- the initial file itself is not accepted: no contributions
example : ¬ ∃ h d1 d2 rs, AcceptedWith Toy.curve Gob.headerCodec batchSize Toy.p2vr (Toy.p2.encode Toy.curve Gob.headerCodec) Toy.p2 h d1 d2 rs := by
  rw [← C77_exact Toy.lawful Gob.lawful Toy.par batchSize (by decide) Toy.p2vr _ Toy.p2 Toy.p2_wf []]
  decide +kernel

-- the PKK of the accepted file with the undecodable Z does not decode to that of the final file
example : ((Toy.p2.z ++ Toy.p2.pkk).take Toy.p2final.pkk.length).map ((16 : Toy.K)⁻¹ • ·) ≠ Toy.p2final.pkk := by decide +kernel

-- with the undecodable Z the correct PKK is accepted for few draws only
example : Phase2.verify Toy.curve Gob.headerCodec par4 batchSize Toy.p2vr (zUndecodable Toy.curve Gob.headerCodec Toy.p2final [1, 2]
    Toy.p2final.pkk Toy.bad ++ [9]) (Toy.p2.encode Toy.curve Gob.headerCodec ++ [1]) ≠ .ok () := by
  rw [Ne, C77_shifted Toy.lawful Gob.lawful Toy.bad_bad Toy.par par4 batchSize batchSize (by decide) (by decide) Toy.p2vr Toy.p2vr Toy.p2final
    Toy.p2 Toy.p2final_wf Toy.p2_wf [9] [1] [1, 2] _ (by decide +kernel) (by decide +kernel) rfl (Toy.p2final_accepted [9] [1])]
  decide +kernel

example : ∃ rs hd d1 d2, AcceptedWith Toy.curve Gob.headerCodec batchSize Toy.p2vr Toy.shifted Toy.p2 hd d1 d2 rs ∧
    ∀ b vr o hd' d1' d2' rs', AcceptedWith Toy.curve Gob.headerCodec b vr Toy.shifted o hd' d1' d2' rs' → rs = rs' := by
  obtain ⟨hd, d1, d2, rs, h⟩ := (C77_exact Toy.lawful Gob.lawful par4 batchSize (by decide) Toy.p2vr _ Toy.p2 Toy.p2_wf [1]).mp
    Toy.shifted_accepted
  exact ⟨rs, hd, d1, d2, h, fun b vr o hd' d1' d2' rs' h' => (C77_unique Toy.lawful h h').2.2.2⟩

example := C77_records Toy.lawful Gob.lawful par4 batchSize (by decide) Toy.p2vr _ Toy.p2 Toy.p2_wf [1] Toy.shifted_accepted

example := (C58_p2_verify_bytes Toy.lawful Gob.lawful par4 batchSize (by decide) Toy.p2vr _ Toy.p2 Toy.p2_wf [1] _ _
  (p2Verify_of Toy.shifted_accepted)).1

-- rejected bytes: too short
example : trackedHashes (p2Verify Toy.curve Gob.headerCodec Toy.par batchSize Toy.p2vr [1, 2] (Toy.p2.encode Toy.curve Gob.headerCodec ++ [])).2 = [] :=
  (C58_p2_verify_bytes Toy.lawful Gob.lawful Toy.par batchSize (by decide) Toy.p2vr [1, 2] Toy.p2 Toy.p2_wf [] _ _ rfl).2 (by
    rintro ⟨hd, d1, d2, rd, r1, r2, r3, h, -⟩
    have : (Gob.headerCodec.dec.run (Rd.buffered 4096 [1, 2])).1 ≠ .ok hd := by
      have : ∃ e, (Gob.headerCodec.dec.run (Rd.buffered 4096 [1, 2])).1 = .error e := ⟨_, rfl⟩
      obtain ⟨e, he⟩ := this
      rw [he]; simp
    exact this (by rw [h]))

example := C35_bytes_partial Toy.lawful Gob.lawful Toy.par Toy.par batchSize batchSize (by decide) (by decide) Toy.p2vr Toy.p2vr _ _ Toy.p2
  Toy.p2 Toy.p2_wf Toy.p2_wf [] [] (Toy.p2final_accepted [] []) (Toy.p2final_accepted [1] []) _ _ (Toy.p2final_records []) (Toy.p2final_records [1])
  rfl (by decide +kernel) (by decide +kernel) (by decide +kernel)

example := C66_bytes_partial Toy.lawful Gob.lawful Toy.par Toy.par batchSize batchSize (by decide) (by decide) Toy.p2vr _ _ Toy.p2 Toy.p2other
  Toy.p2_wf Toy.p2other_wf [] [1] _ (Toy.p2final_records []) (Toy.p2final.records.headD Phase2.Contribution.zero) (by decide +kernel)
  (by decide +kernel) (Toy.p2final_accepted _ _) Toy.p2other_accepted

open Classical in
example := C66_bytes_z_partial Toy.lawful Gob.lawful Toy.par batchSize (by decide) Toy.p2vr _ _ _ _ _ _
  (P2File.holdsParams Toy.lawful Gob.lawful Toy.p2final Toy.p2final_wf []) Toy.p2 Toy.p2other Toy.p2_wf Toy.p2other_wf (by decide +kernel)
  (by decide +kernel) 1 (by decide +kernel) (by decide +kernel) [] [1] _ _ (fun _ => Iff.rfl) (fun _ => Iff.rfl)

open Classical in
example := C66_bytes_pkk_partial Toy.lawful Gob.lawful Toy.par batchSize (by decide) Toy.p2vr _ _ _ _ _ _
  (P2File.holdsParams Toy.lawful Gob.lawful Toy.p2final Toy.p2final_wf []) Toy.p2 Toy.p2other' Toy.p2_wf Toy.p2other'_wf (by decide +kernel)
  (by decide +kernel) 0 (by decide +kernel) (by decide +kernel) [] [1] _ _ (fun _ => Iff.rfl) (fun _ => Iff.rfl)

example := C67_secret_bytes_partial Toy.lawful Gob.lawful Toy.par Toy.par batchSize batchSize (by decide) (by decide) Toy.p2vr _ _ _ Toy.p2 Toy.p2
  Toy.p2_wf Toy.p2_wf [] [] Toy.p2final.records (Toy.p2final_records [])
  (HasRecords.file Toy.lawful Gob.lawful Toy.p2bad Toy.p2bad_wf Toy.p2bad_noStraddle []) (by decide +kernel) (by decide +kernel) rfl
  (Toy.p2final_accepted _ _) Toy.p2bad_accepted

example := C59_phase2_kept_bytes Toy.lawful Gob.lawful Toy.par Toy.par batchSize batchSize (by decide) (by decide) Toy.p2vr Toy.p2vr _ _
  Toy.p2 Toy.p2 Toy.p2_wf Toy.p2_wf [] [] _ _ (Toy.p2one_records []) (Toy.p2final_records []) Toy.p2oneLines Toy.p2finalLines
  (p2Verify_of (Toy.p2one_accepted [] [])) (p2Verify_of (Toy.p2final_accepted [] []))
  (by rw [Toy.p2oneLines_hashes, Toy.p2finalLines_hashes]; decide +kernel) (by decide +kernel)

example := C59_phase2_attested_bytes_partial Toy.lawful Gob.lawful Toy.par Toy.par batchSize batchSize (by decide) (by decide) Toy.p2vr Toy.p2vr
  _ _ Toy.p2 Toy.p2 Toy.p2_wf Toy.p2_wf [] [] _ _ (Toy.p2one_records []) (Toy.p2final_records []) Toy.p2oneLines Toy.p2finalLines
  (p2Verify_of (Toy.p2one_accepted [] [])) (p2Verify_of (Toy.p2final_accepted [] []))
  (lastHash2 Toy.p2one.records) (by rw [Toy.p2oneLines_hashes]; decide +kernel) (by rw [Toy.p2finalLines_hashes]; decide +kernel)
  (by decide +kernel) (by decide +kernel) (by decide +kernel)

example : ∃ before r after, Toy.p2final.records = before ++ r :: after ∧ r.hash = lastHash2 Toy.p2one.records ∧
    Step2By Toy.curve ((before.getLast?.map (·.delta)).getD Toy.p2.delta1) (lastHash2 before) r Toy.p2rnd.delta := by
  refine C59_phase2_secret_bytes Toy.lawful Gob.lawful Toy.par Toy.par batchSize batchSize (by decide) (by decide) Toy.p2rnd Toy.p2vr
    _ _ Toy.p2 Toy.p2_wf [] _ (Toy.p2final_records []) _ Toy.p2ownLines Toy.p2finalLines (p2Contribute_of Toy.p2first)
    (p2Verify_of (Toy.p2final_accepted [] [])) _ Toy.p2ownLines_hash ?_ ?_ ?_
  · rw [Toy.p2finalLines_hashes]; decide +kernel
  · decide +kernel
  · intro r hr e
    refine ⟨(Toy.p2one.encode Toy.curve Gob.headerCodec).take ((Toy.p2one.encode Toy.curve Gob.headerCodec).length - 192), ?_⟩
    revert r
    decide +kernel

-- C76 for PKK
example (y : Toy.K) (h : Phase2.verify Toy.curve Gob.headerCodec Toy.par batchSize ⟨Toy.p2vr.z, setDraw batchSize Toy.p2vr.pkk 0 0⟩
    ({ Toy.p2final with pkk := Toy.p2final.pkk.set 0 0 }.encode Toy.curve Gob.headerCodec ++ []) (Toy.p2.encode Toy.curve Gob.headerCodec ++ []) = .ok ()) :=
  C76_pkk Toy.lawful Gob.lawful Toy.par Toy.par batchSize (by decide) Toy.p2vr _ Toy.p2 Toy.p2_wf [] _ _ _ _ _
  (P2File.holdsParams Toy.lawful Gob.lawful { Toy.p2final with pkk := Toy.p2final.pkk.set 0 0 } (by
    have h := Toy.p2final_wf
    exact ⟨h.1, h.2, h.3, h.4, h.5, h.6, h.7, h.8, by rw [List.length_set]; exact h.9, h.10, h.11⟩) []) (by decide) 16 (by decide +kernel) 0
  (by decide +kernel) (by decide +kernel) 0 y h
example : Phase2.verify Toy.curve Gob.headerCodec Toy.par batchSize ⟨Toy.p2vr.z, setDraw batchSize Toy.p2vr.pkk 0 0⟩
    ({ Toy.p2final with pkk := Toy.p2final.pkk.set 0 0 }.encode Toy.curve Gob.headerCodec ++ []) (Toy.p2.encode Toy.curve Gob.headerCodec ++ []) = .ok () := by
  decide +kernel

end ZkSetup
