import Verif.Props.Phase2Straddle
/-
C34: `verifyParameter` returns nil if the points cannot be decoded. What this does to C33, C35 and C36.
-/
set_option linter.unusedSectionVars false

namespace ZkSetup

open Phase1 (wrap64 makeLen multiExp check batchSize)
open Phase2 Finset

/-- 32 bytes that announce a compressed point but do not decode -/
structure BadPoint {G : Type} (c : Codec G) (bad : Bytes) : Prop where
  length : bad.length = 32
  flag : c.compressed (bad.headD 0) = true
  invalid : c.setBytes bad = none

section
variable {F G1 G2 GT : Type} [Field F] [AddCommGroup G1] [Module F G1] [AddCommGroup G2]
  [Module F G2] [AddCommGroup GT] [Module F GT] [DecidableEq G1] [DecidableEq G2] [DecidableEq GT]
variable {C : Curve F G1 G2 GT} (hC : C.Lawful)
include hC

theorem decode_bad {bad : Bytes} (hbad : BadPoint C.c1 bad) (cap pos : Nat) (ys : Bytes) :
    ∃ m, C.c1.decode.run ⟨cap, pos, bad ++ ys⟩ = (.error (.err m), ⟨cap, pos + 32, ys⟩) := by
  refine ⟨"invalid point encoding", ?_⟩
  unfold Codec.decode
  rw [Go.bind_ok (Rd.readFull_append cap pos _ ys _ (by rw [hbad.length, hC.size1])), if_pos hbad.flag]
  simp [Codec.set, hbad.invalid, hC.size1]

/-- decoding points followed by a bad one -/
theorem decodeN_bad {bad : Bytes} (hbad : BadPoint C.c1 bad) (ps : List G1) : ∀ (cap pos : Nat) (ys : Bytes),
    ∃ m, (C.c1.decodeN (ps.length + 1)).run ⟨cap, pos, ps.flatMap C.c1.bytes ++ (bad ++ ys)⟩
      = (.error (.err m), ⟨cap, pos + 32 * (ps.length + 1), ys⟩) := by
  induction ps with
  | nil =>
    intro cap pos ys
    obtain ⟨m, hm⟩ := decode_bad hC hbad cap pos ys
    refine ⟨m, ?_⟩
    simp only [List.length_nil, Codec.decodeN, List.flatMap_nil, List.nil_append]
    rw [Go.bind_error hm]
  | cons p ps ih =>
    intro cap pos ys
    obtain ⟨m, hm⟩ := ih cap (pos + 32) ys
    refine ⟨m, ?_⟩
    have hd := Codec.decode_bytes hC.codec1 cap pos p (ps.flatMap C.c1.bytes ++ (bad ++ ys))
    rw [hC.size1] at hd
    rw [List.length_cons, Codec.decodeN, List.flatMap_cons, List.append_assoc, Go.bind_ok hd, Go.bind_error hm]
    congr 2
    ring

/-- the aggregation stops at the bad point, behind the whole section -/
theorem aggregateLoop_bad {bad : Bytes} (hbad : BadPoint C.c1 bad) (par : Par) (b : Nat) (hb : 0 < b)
    (rnd : Nat → Nat → F) (n : Nat) :
    ∀ (ps qs : List G1) (t : Nat) (r : List F) (inG orG : G1) (cap pos cap' pos' : Nat) (ys zs : Bytes), ps.length = n →
    n < qs.length → n < r.length →
    ∃ m e p', m ≤ n ∧ (aggregateLoop C par b rnd (n + 1) t r inG orG).run
        (⟨cap, pos, ps.flatMap C.c1.bytes ++ (bad ++ ys)⟩, ⟨cap', pos', qs.flatMap C.c1.bytes ++ zs⟩)
      = (.error (.err e), (⟨cap, pos + 32 * (n + 1), ys⟩, ⟨cap', p', (qs.drop m).flatMap C.c1.bytes ++ zs⟩)) := by
  induction n using Nat.strong_induction_on with
  | _ n ih =>
    intro ps qs t r inG orG cap pos cap' pos' ys zs hps hqs hr
    rw [aggregateLoop, dif_pos ⟨by omega, hb⟩]
    by_cases hnb : n + 1 ≤ b
    · obtain ⟨e, he⟩ := decodeN_bad hC hbad ps cap pos ys
      rw [hps] at he
      refine ⟨0, e, pos', by omega, ?_⟩
      have : (onInput (C.c1.decodeN (min (n + 1) b))).run
          (⟨cap, pos, ps.flatMap C.c1.bytes ++ (bad ++ ys)⟩, ⟨cap', pos', qs.flatMap C.c1.bytes ++ zs⟩)
          = (.error (.err e), (⟨cap, pos + 32 * (n + 1), ys⟩, ⟨cap', pos', qs.flatMap C.c1.bytes ++ zs⟩)) := by
        rw [Nat.min_eq_left hnb]
        simp only [onInput, he]
      simp only
      rw [Go.bind_error this]
      simp
    · have hmin : min (n + 1) b = b := by omega
      have hrand : par.mapIdx r.length (fun i _ => rnd t i) r = (List.range r.length).map (rnd t) := by
        rw [Par.mapIdx_eq]
        apply List.ext_getElem?
        intro i
        simp only [List.getElem?_mapIdx, List.getElem?_map]
        by_cases hi : i < r.length
        · rw [List.getElem?_eq_getElem hi, List.getElem?_range hi]; rfl
        · rw [List.getElem?_eq_none (by omega), List.getElem?_eq_none (by simp; omega)]; rfl
      have hpt : (ps.take b).length = b := by simp; omega
      have hqt : (qs.take b).length = b := by simp; omega
      have hi := Codec.decodeN_encodeN hC.codec1 cap pos (ps.take b) ((ps.drop b).flatMap C.c1.bytes ++ (bad ++ ys))
      have ho := Codec.decodeN_encodeN hC.codec1 cap' pos' (qs.take b) ((qs.drop b).flatMap C.c1.bytes ++ zs)
      rw [hpt, hC.size1] at hi
      rw [hqt, hC.size1] at ho
      have e1 : ps.flatMap C.c1.bytes ++ (bad ++ ys)
          = C.c1.encodeN (ps.take b) ++ ((ps.drop b).flatMap C.c1.bytes ++ (bad ++ ys)) := by
        rw [Codec.encodeN, ← List.append_assoc (List.flatMap _ (ps.take b)), ← List.flatMap_append, List.take_append_drop]
      have e2 : qs.flatMap C.c1.bytes ++ zs
          = C.c1.encodeN (qs.take b) ++ ((qs.drop b).flatMap C.c1.bytes ++ zs) := by
        rw [Codec.encodeN, ← List.append_assoc, ← List.flatMap_append, List.take_append_drop]
      rw [e1, e2]
      simp only [hrand, hmin]
      rw [Go.bind_ok (onInput_ok hi)]
      rw [Go.bind_ok (msm_ok (rnd t) r.length b _ hpt (by omega) _)]
      rw [Go.bind_ok (onOrigin_ok ho)]
      rw [Go.bind_ok (msm_ok (rnd t) r.length b _ hqt (by omega) _)]
      obtain ⟨m, e, p', hm, hrun⟩ := ih (n - b) (by omega) (ps.drop b) (qs.drop b) (t + 1)
        ((List.range r.length).map (rnd t)) (inG + ∑ j ∈ range b, rnd t j • (ps.take b).getD j 0)
        (orG + ∑ j ∈ range b, rnd t j • (qs.take b).getD j 0) cap (pos + 32 * b) cap' (pos' + 32 * b) ys zs
        (by simp; omega) (by simp; omega) (by simp; omega)
      refine ⟨b + m, e, p', by omega, ?_⟩
      rw [show n + 1 - b = n - b + 1 by omega, hrun, List.drop_drop]
      congr 3
      rw [show 32 * (n - b + 1) = 32 * (n + 1) - 32 * b by omega]
      omega

/-- the check of a section whose last point is bad passes -/
theorem verifyParameter_bad {bad : Bytes} (hbad : BadPoint C.c1 bad) (par : Par) (b : Nat) (hb : 0 < b)
    (rnd : Nat → Nat → F) (delta g : G2) (field : String) (ps qs : List G1) (cap pos cap' pos' : Nat) (ys zs : Bytes)
    (hqs : ps.length < qs.length) :
    ∃ m p', m ≤ ps.length ∧ (verifyParameter C par b rnd delta g ((ps.length + 1 : Nat) : Int) field).run
        (⟨cap, pos, ps.flatMap C.c1.bytes ++ (bad ++ ys)⟩, ⟨cap', pos', qs.flatMap C.c1.bytes ++ zs⟩)
      = (.ok (), (⟨cap, pos + 32 * (ps.length + 1), ys⟩, ⟨cap', p', (qs.drop m).flatMap C.c1.bytes ++ zs⟩)) := by
  obtain ⟨m, e, p', hm, hrun⟩ := aggregateLoop_bad hC hbad par b hb rnd ps.length ps qs 0
    (List.replicate (ps.length + 1) 0) 0 0 cap pos cap' pos' ys zs rfl hqs (by simp)
  refine ⟨m, p', hm, ?_⟩
  have : (aggregate C par b rnd ((ps.length + 1 : Nat) : Int)).run
      (⟨cap, pos, ps.flatMap C.c1.bytes ++ (bad ++ ys)⟩, ⟨cap', pos', qs.flatMap C.c1.bytes ++ zs⟩)
      = (.error (.err e), (⟨cap, pos + 32 * (ps.length + 1), ys⟩, ⟨cap', p', (qs.drop m).flatMap C.c1.bytes ++ zs⟩)) := by
    unfold aggregate
    rw [Go.bind_ok (a := min (ps.length + 1) b) (by rw [makeLen_min]; rfl),
      Go.bind_ok (a := ps.length + 1) (by rw [makeLen_nat]; rfl), Int.toNat_natCast]
    exact hrun
  unfold verifyParameter
  simp only [this]

variable {H : HeaderCodec} (hH : H.Lawful)
include hH

/-- A file with arbitrary points `zs`, `ks` in the Z and PKK sections, each section ending with an encoding that does not
decode. -/
def undecodable (C : Curve F G1 G2 GT) (H : HeaderCodec) (h : Header) (d1 : G1) (d2 : G2) (zs ks : List G1) (bad tail : Bytes) :
    Bytes :=
  H.enc h ++ C.c1.bytes d1 ++ C.c2.bytes d2 ++ zs.flatMap C.c1.bytes ++ bad ++ ks.flatMap C.c1.bytes ++ bad ++ tail

/-- such a file passes all checks up to the records if the two `[δ]` are consistent -/
theorem verify2_undecodable {bad : Bytes} (hbad : BadPoint C.c1 bad) (par : Par) (b : Nat) (hb : 0 < b) (vr : VerifyRand F)
    (o : P2File G1 G2) (ho : o.WF) (hi : Header) (hr : hi.InRange) (hc : hi.contributions ≠ 0)
    (he : hi.equal o.header = true) (d1 : G1) (d2 : G2) (hd : C.e o.delta1 d2 = C.e d1 o.delta2) (zs ks : List G1)
    (hzs : zs.length + 1 = o.z.length) (hks : ks.length + 1 = o.pkk.length) (tail junk' : Bytes) :
    Phase2.verify C H par b vr (undecodable C H hi d1 d2 zs ks bad tail) (o.encode C H ++ junk') = .ok () ↔
      ∃ c r', (Phase2.verifyLoop C hi.contributions.toNat Contribution.zero o.delta1 []).run
        ⟨4096, (H.enc hi).length + 32 + 64 + 32 * o.z.length + 32 * o.pkk.length, tail⟩ = (.ok c, r') ∧ c.delta = d1 := by
  have hdec := hH.dec_enc hi hr 4096 0 (C.c1.bytes d1 ++ (C.c2.bytes d2 ++ (zs.flatMap C.c1.bytes ++ (bad ++
    (ks.flatMap C.c1.bytes ++ (bad ++ tail))))))
  have hdo := P2File.header_read hC hH ho 4096 junk'
  have hdom : hi.domain = o.domain ∧ hi.witness = o.witness := by
    rw [Header.equal, decide_eq_true_iff] at he
    exact ⟨he.2.2.2.2.2, he.2.1⟩
  have hw3 : wrap64 (hi.domain - 1) = ((zs.length + 1 : Nat) : Int) := by
    have := ho.z
    have := ho.domain
    have := ho.domain_pos
    rw [hdom.1, wrap64_eq] <;> omega
  have hw4 : hi.witness = ((ks.length + 1 : Nat) : Int) := by
    have := ho.pkk
    rw [hdom.2]; omega
  unfold P2File.params at hdo
  unfold Phase2.verify undecodable verifyBody Header.read
  simp only [List.append_assoc, Rd.buffered] at hdo hdec ⊢
  rw [Go.bind_ok (onInput_ok hdec), Go.bind_ok (onOrigin_ok hdo), lift_check_bind, lift_check_bind]
  rw [Go.bind_ok (onOrigin_ok (Codec.decode_bytes hC.codec1 _ _ _ _)),
    Go.bind_ok (onOrigin_ok (Codec.decode_bytes hC.codec2 _ _ _ _)),
    Go.bind_ok (onInput_ok (Codec.decode_bytes hC.codec1 _ _ _ _)),
    Go.bind_ok (onInput_ok (Codec.decode_bytes hC.codec2 _ _ _ _)), lift_check_bind]
  rw [hw3, hw4]
  obtain ⟨m, p', hm, h1⟩ := verifyParameter_bad hC hbad par b hb vr.z d2 o.delta2 "Z" zs o.z 4096
    (0 + (H.enc hi).length + C.c1.size + C.c2.size) 4096 ((H.enc o.header).length + C.c1.size + C.c2.size)
    (ks.flatMap C.c1.bytes ++ (bad ++ tail)) (o.pkk.flatMap C.c1.bytes ++ (o.records.flatMap (record2Bytes C) ++ junk'))
    (by omega)
  rw [Go.bind_ok h1]
  rw [← List.append_assoc (List.flatMap _ (o.z.drop m)), ← List.flatMap_append]
  obtain ⟨m', p'', hm', h2⟩ := verifyParameter_bad hC hbad par b hb vr.pkk d2 o.delta2 "PKK" ks (o.z.drop m ++ o.pkk) 4096
    (0 + (H.enc hi).length + C.c1.size + C.c2.size + 32 * (zs.length + 1)) 4096 p' tail
    (o.records.flatMap (record2Bytes C) ++ junk') (by simp; omega)
  rw [Go.bind_ok h2]
  rw [decide_eq_true_iff, (sameRatio_iff hC _ _ _ _).mpr hd]
  simp only [hc, he, ne_eq, not_false_eq_true, true_and]
  have hpos : 0 + (H.enc hi).length + C.c1.size + C.c2.size + 32 * (zs.length + 1) + 32 * (ks.length + 1)
      = (H.enc hi).length + 32 + 64 + 32 * o.z.length + 32 * o.pkk.length := by
    rw [hC.size1, hC.size2, hzs, hks]; ring
  rw [hpos]
  cases hl : (Phase2.verifyLoop C hi.contributions.toNat Contribution.zero o.delta1 []).run
      ⟨4096, (H.enc hi).length + 32 + 64 + 32 * o.z.length + 32 * o.pkk.length, tail⟩ with
  | mk res r' =>
    cases res with
    | error e =>
      rw [Go.bind_error (onInput_error hl)]
      simp
    | ok c =>
      rw [Go.bind_ok (onInput_ok hl)]
      simp only [Go.lift_run, check_ok, decide_eq_true_iff, Prod.mk.injEq, Except.ok.injEq]
      constructor
      · intro h; exact ⟨c, r', ⟨rfl, rfl⟩, h⟩
      · rintro ⟨c', r'', ⟨rfl, rfl⟩, h⟩; exact h

/-- **C34, negation**: take any accepted file, replace Z and PKK by arbitrary points and the last point of each of the two
sections by bytes that are not a valid encoding. The result is accepted, whatever the verifier draws: the error from
decoding the section is turned into success, and nothing in the section is checked. (So C33 is false as well.) -/
theorem C34_undecodable_accepted {bad : Bytes} (hbad : BadPoint C.c1 bad) (par par' : Par) (b b' : Nat) (hb : 0 < b)
    (hb' : 0 < b') (vr vr' : VerifyRand F) (f o : P2File G1 G2) (hf : f.WF) (ho : o.WF) (hs : f.NoStraddle H)
    (junk junk' : Bytes) (zs ks : List G1) (hzs : zs.length + 1 = f.z.length) (hks : ks.length + 1 = f.pkk.length)
    (h : Phase2.verify C H par b vr (f.encode C H ++ junk) (o.encode C H ++ junk') = .ok ()) :
    Phase2.verify C H par' b' vr' (undecodable C H f.header f.delta1 f.delta2 zs ks bad
      (f.records.flatMap (record2Bytes C) ++ junk)) (o.encode C H ++ junk') = .ok () := by
  obtain ⟨c, r', hrun, hc⟩ := verify2_loop hC hH par b hb vr f o hf ho junk junk' h
  obtain ⟨h1, hsh, h2, -⟩ := (verify2_iff hC hH par b hb vr f o hf ho hs junk junk').mp h
  have hzl : o.z.length = f.z.length := by rw [hf.z, ho.z, hsh.2.2.2.2.2]
  have hkl : o.pkk.length = f.pkk.length := by rw [hf.pkk, ho.pkk, hsh.2.1]
  rw [verify2_undecodable hC hH hbad par' b' hb' vr' o ho f.header (P2File.header_inRange hC hH hf)
    (by simp [P2File.header, h1]) ((header_equal_iff f o).mpr hsh) f.delta1 f.delta2 h2 zs ks (by omega) (by omega), hzl, hkl]
  exact ⟨c, r', by simpa [P2File.header] using hrun, hc⟩

/-- **C34** (partial): acceptance does imply that the header, `[δ]1`, `[δ]2` and all declared records decode. Missing: the
points of Z and PKK. -/
theorem C34_decodable_partial (par : Par) (b : Nat) (vr : VerifyRand F) (input origin : Bytes)
    (h : Phase2.verify C H par b vr input origin = .ok ()) :
    ∃ (hi : Header) (d1 : G1) (d2 : G2) (rs : List (Contribution G1 G2)) (rd : Rd) (used : Bytes),
      Starts2 C H input hi d1 d2 ∧ input = used ++ rd.rest ∧ RecordsAt C rd rs ∧ rs.length = hi.contributions.toNat := by
  obtain ⟨hi, ho, d1, g1, d2, g2, rs, xs, rd, used, h1, h2, -, -, h3, h4, h5, h6, h7, h8⟩ :=
    verify2_any hC hH par b vr input origin h
  exact ⟨hi, d1, d2, rs, rd, used, h1, h4, h5, h6⟩

/-- **C36, negation** for files without contributions: against every initial file with nonempty Z and PKK, a file that
declares −1 contributions, contains no record and has `[δ]1 = [δ]2 = 0` is accepted, whatever the verifier draws. -/
theorem C36_negative_count_accepted {bad : Bytes} (hbad : BadPoint C.c1 bad) (o : P2File G1 G2) (ho : o.WF)
    (zs ks : List G1) (hzs : zs.length + 1 = o.z.length)
    (hks : ks.length + 1 = o.pkk.length) (par : Par) (b : Nat) (hb : 0 < b) (vr : VerifyRand F) :
    Phase2.verify C H par b vr (undecodable C H { o.header with contributions := -1 } 0 0 zs ks bad []) (o.encode C H)
      = .ok () := by
  have hr : ({ o.header with contributions := -1 } : Header).InRange := by
    have := P2File.header_inRange hC hH ho
    exact ⟨this.1, this.2, this.3, this.4, this.5, this.6, by constructor <;> norm_num⟩
  have he : ({ o.header with contributions := -1 } : Header).equal o.header = true := by
    rw [Header.equal, decide_eq_true_iff]; simp
  have := verify2_undecodable hC hH hbad par b hb vr o ho _ hr (by simp) he 0 0
    (by rw [e_zero_right hC, e_zero_left hC]) zs ks hzs hks [] []
  rw [List.append_nil] at this
  rw [this]
  exact ⟨_, _, rfl, rfl⟩

omit hC hH [DecidableEq G1] [DecidableEq G2] [DecidableEq GT] in
/-- the record of a contribution with `δ = 0` and blinding value 0 -/
def zeroRecord2 (C : Curve F G1 G2 GT) : Contribution G1 G2 :=
  { (Contribution.zero : Contribution G1 G2) with hash := C.sha (record2Body C Contribution.zero) }

omit hC hH [DecidableEq G1] [DecidableEq G2] [DecidableEq GT] in
theorem zeroRecord2_step (d : G1) (h : Bytes) : Step2By C d h (zeroRecord2 C) 0 := by
  refine ⟨?_, ?_, ?_, ?_⟩ <;> simp [zeroRecord2, Contribution.zero]
  rfl

/-- **C35, negation**: whatever the hash functions, against every initial file with nonempty Z and PKK there are two accepted
files with two records each and the same last hash but different first records. (The second record has all values 0; the
condition on positions is that of `P2File.NoStraddle` for two records.) -/
theorem C35_degenerate_unbound {bad : Bytes} (hbad : BadPoint C.c1 bad) (o : P2File G1 G2) (ho : o.WF) (hg : o.delta1 ≠ 0)
    (hz : o.z ≠ []) (hk : o.pkk ≠ [])
    (hs : ∀ j < 2, ((H.enc { o.header with contributions := 2 }).length + 32 + 64 + 32 * o.z.length + 32 * o.pkk.length
      + 192 * j + 160) % 4096 + 32 ≤ 4096) :
    ∃ (zs ks : List G1) (r r' last : Contribution G1 G2), r ≠ r' ∧ r.hash.length = 32 ∧ r'.hash.length = 32 ∧
      ∀ x ∈ [r, r'], ∀ (par : Par) (b : Nat) (_ : 0 < b) (vr : VerifyRand F),
        Phase2.verify C H par b vr (undecodable C H { o.header with contributions := 2 } 0 0 zs ks bad
          (record2Bytes C x ++ record2Bytes C last)) (o.encode C H) = .ok () := by
  have hr : ({ o.header with contributions := 2 } : Header).InRange := by
    have := P2File.header_inRange hC hH ho
    exact ⟨this.1, this.2, this.3, this.4, this.5, this.6, by constructor <;> norm_num⟩
  have he : ({ o.header with contributions := 2 } : Header).equal o.header = true := by
    rw [Header.equal, decide_eq_true_iff]; simp
  have hzl := List.length_pos_iff.mpr hz
  have hkl := List.length_pos_iff.mpr hk
  refine ⟨List.replicate (o.z.length - 1) 0, List.replicate (o.pkk.length - 1) 0, newRecord2 C ⟨0, 1⟩ [] ((0 : F) • o.delta1),
    newRecord2 C ⟨1, 1⟩ [] ((1 : F) • o.delta1), zeroRecord2 C, ?_, hC.sha_length _, hC.sha_length _, ?_⟩
  · intro h
    have := congrArg Contribution.delta h
    simp only [newRecord2, zero_smul, one_smul] at this
    exact hg this.symm
  · intro x hx par b hb vr
    have hstep : x.hash.length = 32 ∧ ∃ y, Step2By C o.delta1 [] x y := by
      simp only [List.mem_cons, List.not_mem_nil, or_false] at hx
      rcases hx with rfl | rfl
      · exact ⟨hC.sha_length _, 0, newRecord2_step ⟨0, 1⟩ [] o.delta1⟩
      · exact ⟨hC.sha_length _, 1, newRecord2_step ⟨1, 1⟩ [] o.delta1⟩
    obtain ⟨hxl, y, hy⟩ := hstep
    have := verify2_undecodable hC hH hbad par b hb vr o ho _ hr (by simp) he 0 0
      (by rw [e_zero_right hC, e_zero_left hC]) (List.replicate (o.z.length - 1) 0) (List.replicate (o.pkk.length - 1) 0)
      (by simp; omega) (by simp; omega) (record2Bytes C x ++ record2Bytes C (zeroRecord2 C)) []
    rw [List.append_nil] at this
    rw [this]
    have hl := (verifyLoop2_iff hC [x, zeroRecord2 C] Contribution.zero o.delta1 [] 4096
      ((H.enc { o.header with contributions := 2 }).length + 32 + 64 + 32 * o.z.length + 32 * o.pkk.length) []
      (by
        intro q hq
        simp only [List.mem_cons, List.not_mem_nil, or_false] at hq
        rcases hq with rfl | rfl
        · exact hxl
        · exact hC.sha_length _) (fun j hj => .inr (hs j hj))).1 ⟨[y, 0], hy, zeroRecord2_step _ _, trivial⟩
    simp only [List.flatMap_cons, List.flatMap_nil, List.append_nil] at hl
    exact ⟨_, _, hl, rfl⟩

end

namespace Toy

/-- an encoding that does not decode: the value is too large -/
def bad : Bytes := 0x80 :: 17 :: List.replicate 30 0

theorem bad_bad : BadPoint curve.c1 bad := ⟨by decide, by decide, by decide⟩

end Toy

example := C34_undecodable_accepted Toy.lawful Gob.lawful Toy.bad_bad Toy.par Toy.par batchSize batchSize (by decide) (by decide)
  Toy.p2vr Toy.p2vr Toy.p2final Toy.p2 Toy.p2final_wf Toy.p2_wf Toy.p2final_noStraddle [] [] [1, 2] [3, 4]
  (by decide +kernel) (by decide +kernel) (Toy.p2final_accepted [] [])

example := C34_decodable_partial Toy.lawful Gob.lawful Toy.par batchSize Toy.p2vr _ _ (Toy.p2final_accepted [1] [2, 3])

example := C36_negative_count_accepted Toy.lawful Gob.lawful Toy.bad_bad Toy.p2 Toy.p2_wf [1, 2] [3, 4]
  rfl rfl Toy.par batchSize (by decide) Toy.p2vr

example := C35_degenerate_unbound Toy.lawful Gob.lawful Toy.bad_bad Toy.p2 Toy.p2_wf (by decide) (by decide) (by decide)
  (by decide +kernel)

end ZkSetup
