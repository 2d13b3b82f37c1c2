import Verif.Props.Phase2Align
/-
Phase 2 files that are cut off: the phase 2 part of C47 and the missing points of C34.
-/
set_option linter.unusedSectionVars false

namespace ZkSetup

open Phase1 (wrap64 makeLen multiExp check batchSize)
open Phase2 Finset

theorem run_of_fst {σ α : Type} {x : Go σ α} {s : σ} {a : α} (h : (x.run s).1 = .ok a) : ∃ s', x.run s = (.ok a, s') :=
  ⟨(x.run s).2, Prod.ext h rfl⟩

theorem decode_cut_empty {G : Type} {c : Codec G} (cap pos m : Nat) (b : Bytes) (h : m < c.size) :
    ∃ rd', c.decode.run ⟨cap, pos, b.take m⟩ = (.error (.err "EOF"), rd') ∧ rd'.rest = [] := by
  refine ⟨Rd.adv ⟨cap, pos, b.take m⟩ (b.take m).length, Go.bind_error ?_, by simp⟩
  unfold Rd.readFull
  simp only
  rw [if_neg (by simp; omega)]

/-- decoding points of which the last ones are missing -/
theorem decodeN_cut {G : Type} {c : Codec G} (hc : c.Lawful) (ps : List G) : ∀ (cap pos m : Nat) (ys : Bytes),
    m < c.size * ps.length →
    ∃ e rd', (c.decodeN ps.length).run ⟨cap, pos, (ps.flatMap c.bytes ++ ys).take m⟩ = (.error (.err e), rd') ∧
      rd'.rest = [] := by
  induction ps with
  | nil => intro cap pos m ys h; simp at h
  | cons p ps ih =>
    intro cap pos m ys h
    rw [List.length_cons, Nat.mul_succ] at h
    rw [List.length_cons, Codec.decodeN, List.flatMap_cons, List.append_assoc]
    rcases lt_or_ge m c.size with hm | hm
    · obtain ⟨rd', h1, h2⟩ := decode_cut_empty (c := c) cap pos m (c.bytes p ++ (ps.flatMap c.bytes ++ ys)) hm
      exact ⟨_, rd', Go.bind_error h1, h2⟩
    · obtain ⟨e, rd', h1, h2⟩ := ih cap (pos + c.size) (m - c.size) ys (by omega)
      exact ⟨e, rd', by rw [Go.bind_ok (decode_cut_ok hc cap pos m p _ hm), Go.bind_error h1], h2⟩

section
variable {F G1 G2 GT : Type} [Field F] [AddCommGroup G1] [Module F G1] [AddCommGroup G2]
  [Module F G2] [AddCommGroup GT] [Module F GT] [DecidableEq G1] [DecidableEq G2] [DecidableEq GT]
variable {C : Curve F G1 G2 GT} (hC : C.Lawful)
include hC

/-- the aggregation of a section that is cut off fails at the end of the file -/
theorem aggregateLoop_cut (par : Par) (b : Nat) (hb : 0 < b) (rnd : Nat → Nat → F) (n : Nat) :
    ∀ (ps qs : List G1) (t : Nat) (r : List F) (inG orG : G1) (cap pos m : Nat) (ys : Bytes) (ro ro' : Rd), ps.length = n →
    n ≤ r.length → (C.c1.decodeN n).run ro = (.ok qs, ro') → m < 32 * n →
    ∃ e s', (aggregateLoop C par b rnd n t r inG orG).run (⟨cap, pos, (ps.flatMap C.c1.bytes ++ ys).take m⟩, ro)
      = (.error (.err e), s') ∧ s'.1.rest = [] := by
  induction n using Nat.strong_induction_on with
  | _ n ih =>
    intro ps qs t r inG orG cap pos m ys ro ro' hps hr ho hm
    rw [aggregateLoop, dif_pos ⟨by omega, hb⟩]
    generalize hrc : min n b = rc
    obtain ⟨k, hk⟩ : ∃ k, n = rc + k := ⟨n - rc, by omega⟩
    have hpt : (ps.take rc).length = rc := by simp; omega
    have hsplit : ps.flatMap C.c1.bytes ++ ys
        = (ps.take rc).flatMap C.c1.bytes ++ ((ps.drop rc).flatMap C.c1.bytes ++ ys) := by
      rw [← List.append_assoc, ← List.flatMap_append, List.take_append_drop]
    have hlen : ((ps.take rc).flatMap C.c1.bytes).length = 32 * rc := by
      have := section1_length hC (ps.take rc)
      rwa [hpt] at this
    rcases lt_or_ge m (32 * rc) with hlt | hge
    · obtain ⟨e, rd', h1, h2⟩ := decodeN_cut hC.codec1 (ps.take rc) cap pos m ((ps.drop rc).flatMap C.c1.bytes ++ ys)
        (by rw [hC.size1, hpt]; exact hlt)
      rw [hpt, ← hsplit] at h1
      simp only
      exact ⟨e, (rd', ro), Go.bind_error (onInput_error h1), h2⟩
    · have hi := Codec.decodeN_encodeN hC.codec1 cap pos (ps.take rc)
        (((ps.drop rc).flatMap C.c1.bytes ++ ys).take (m - 32 * rc))
      rw [hpt, hC.size1] at hi
      have htake : (ps.flatMap C.c1.bytes ++ ys).take m
          = C.c1.encodeN (ps.take rc) ++ ((ps.drop rc).flatMap C.c1.bytes ++ ys).take (m - 32 * rc) := by
        rw [hsplit, List.take_append, List.take_of_length_le (by omega), hlen]
        rfl
      have hrand : par.mapIdx r.length (fun i _ => rnd t i) r = (List.range r.length).map (rnd t) := by
        rw [Par.mapIdx_eq]
        apply List.ext_getElem?
        intro i
        simp only [List.getElem?_mapIdx, List.getElem?_map]
        by_cases hi : i < r.length
        · rw [List.getElem?_eq_getElem hi, List.getElem?_range hi]; rfl
        · rw [List.getElem?_eq_none (by omega), List.getElem?_eq_none (by simp; omega)]; rfl
      rw [hk] at ho
      obtain ⟨r2, ho1, ho2⟩ := decodeN_split _ _ _ _ _ _ ho
      simp only [hrand]
      rw [htake, Go.bind_ok (onInput_ok hi)]
      rw [Go.bind_ok (msm_ok (rnd t) r.length rc _ hpt (by omega) _)]
      rw [Go.bind_ok (onOrigin_ok ho1)]
      rw [Go.bind_ok (msm_ok (rnd t) r.length rc _ (decodeN_length _ _ _ _ _ ho1) (by omega) _)]
      have hnk : n - rc = k := by omega
      rw [hnk]
      exact ih k (by omega) (ps.drop rc) _ (t + 1) _ _ _ cap _ (m - 32 * rc) ys r2 ro' (by simp; omega)
        (by simp; omega) ho2 (by omega)

/-- the check of a section that is cut off passes, at the end of the file -/
theorem verifyParameter_cut (par : Par) (b : Nat) (hb : 0 < b) (rnd : Nat → Nat → F) (delta g : G2) (field : String)
    (ps qs : List G1) (cap pos m : Nat) (ys : Bytes) (ro ro' : Rd)
    (ho : (C.c1.decodeN ps.length).run ro = (.ok qs, ro')) (hm : m < 32 * ps.length) :
    ∃ s', (verifyParameter C par b rnd delta g (ps.length : Int) field).run
        (⟨cap, pos, (ps.flatMap C.c1.bytes ++ ys).take m⟩, ro) = (.ok (), s') ∧ s'.1.rest = [] := by
  obtain ⟨e, s', hrun, hs⟩ := aggregateLoop_cut hC par b hb rnd ps.length ps qs 0
    (List.replicate ps.length 0) 0 0 cap pos m ys ro ro' rfl (by simp) ho hm
  refine ⟨s', ?_, hs⟩
  have : (aggregate C par b rnd (ps.length : Int)).run (⟨cap, pos, (ps.flatMap C.c1.bytes ++ ys).take m⟩, ro)
      = (.error (.err e), s') := by
    unfold aggregate
    rw [Go.bind_ok (a := min ps.length b) (by rw [makeLen_min]; rfl),
      Go.bind_ok (a := ps.length) (by rw [makeLen_nat]; rfl), Int.toNat_natCast]
    exact hrun
  unfold verifyParameter
  simp only [this]

/-- no record can be read at the end of the file -/
theorem record2_read_empty (cap pos : Nat) : ∃ e rd', (Contribution.readFrom C).run ⟨cap, pos, []⟩ = (.error e, rd') := by
  obtain ⟨rd', h, -⟩ := decode_cut_empty (c := C.c1) cap pos 0 [] (by rw [hC.size1]; decide)
  rw [List.take_zero] at h
  exact ⟨_, rd', Go.bind_error h⟩

theorem verifyLoop2_empty (n : Nat) (hn : 0 < n) (c0 : Contribution G1 G2) (d : G1) (h : Bytes) (r : Rd) (hr : r.rest = []) :
    ∀ fin r', (Phase2.verifyLoop C n c0 d h).run r ≠ (.ok fin, r') := by
  intro fin r' hrun
  obtain ⟨k, rfl⟩ : ∃ k, n = k + 1 := ⟨n - 1, by omega⟩
  obtain ⟨e, rd', he⟩ := record2_read_empty hC r.cap r.pos
  have : r = ⟨r.cap, r.pos, []⟩ := by rw [← hr]
  rw [this, Phase2.verifyLoop, Go.bind_error he] at hrun
  simp at hrun

/-- reading a record of which more than 31 bytes are missing -/
theorem record2_read_short (c : Contribution G1 G2) (cap pos m : Nat) (ys : Bytes) (hm : m ≤ 160) :
    ∃ e rd', (Contribution.readFrom C).run ⟨cap, pos, (record2Bytes C c ++ ys).take m⟩ = (.error e, rd') := by
  have hs1 := hC.size1
  have hs2 := hC.size2
  unfold Contribution.readFrom record2Bytes record2Body keyBytes
  simp only [List.append_assoc]
  rcases lt_or_ge m C.c1.size with h | h
  · obtain ⟨rd', h1⟩ := decode_cut_err (c := C.c1) cap pos m _ h
    exact ⟨_, rd', Go.bind_error h1⟩
  rw [Go.bind_ok (decode_cut_ok hC.codec1 cap pos m _ _ h)]
  rcases lt_or_ge (m - C.c1.size) C.c1.size with h' | h'
  · obtain ⟨rd', h1⟩ := decode_cut_err (c := C.c1) cap (pos + C.c1.size) (m - C.c1.size) _ h'
    exact ⟨_, rd', Go.bind_error h1⟩
  rw [Go.bind_ok (decode_cut_ok hC.codec1 _ _ _ _ _ h')]
  rcases lt_or_ge (m - C.c1.size - C.c1.size) C.c1.size with h'' | h''
  · obtain ⟨rd', h1⟩ := decode_cut_err (c := C.c1) cap (pos + C.c1.size + C.c1.size) (m - C.c1.size - C.c1.size) _ h''
    exact ⟨_, rd', Go.bind_error h1⟩
  rw [Go.bind_ok (decode_cut_ok hC.codec1 _ _ _ _ _ h'')]
  rcases lt_or_ge (m - C.c1.size - C.c1.size - C.c1.size) C.c2.size with h3 | h3
  · obtain ⟨rd', h1⟩ := decode_cut_err (c := C.c2) cap (pos + C.c1.size + C.c1.size + C.c1.size)
      (m - C.c1.size - C.c1.size - C.c1.size) _ h3
    exact ⟨_, rd', Go.bind_error h1⟩
  rw [Go.bind_ok (decode_cut_ok hC.codec2 _ _ _ _ _ h3)]
  have h0 : m - C.c1.size - C.c1.size - C.c1.size - C.c2.size = 0 := by omega
  rw [h0, List.take_zero]
  exact ⟨_, _, Go.bind_error (Go.bind_error rfl)⟩

/-- reading a record of which bytes of the hash are missing: they are taken to be zero -/
theorem record2_read_hash_cut (c : Contribution G1 G2) (cap pos m : Nat) (ys : Bytes) (hl : c.hash.length = 32)
    (hf : Fits cap (pos + 160)) (hm : 160 < m) (hm' : m < 192) :
    ∃ rd', (Contribution.readFrom C).run ⟨cap, pos, (record2Bytes C c ++ ys).take m⟩
      = (.ok { c with hash := c.hash.take (m - 160) ++ List.replicate (192 - m) 0 }, rd') ∧ rd'.rest = [] := by
  have hbl := record2Body_length hC c
  have htake : (record2Bytes C c ++ ys).take m = record2Body C c ++ c.hash.take (m - 160) := by
    unfold record2Bytes
    rw [List.append_assoc, List.take_append, List.take_of_length_le (by omega), hbl,
      List.take_append_of_le_length (by omega)]
  have hblock : min 32 (Rd.block ⟨cap, pos + 160, c.hash.take (m - 160)⟩ 32) = 32 := by
    unfold Rd.block
    split
    · rfl
    · rename_i hc
      simp only at hc ⊢
      rcases hf with h0 | h0
      · exact absurd h0 hc
      · omega
  have hlt : (c.hash.take (m - 160)).length = m - 160 := by simp; omega
  have hread : (Rd.read 32).run ⟨cap, pos + 160, c.hash.take (m - 160)⟩
      = (.ok (c.hash.take (m - 160)), ⟨cap, pos + 160 + 32, []⟩) := by
    unfold Rd.read
    have hne : (c.hash.take (m - 160)).isEmpty = false := by
      rw [List.isEmpty_eq_false_iff, ← List.length_pos_iff]
      omega
    simp only [hblock, hne, Bool.false_eq_true, if_false, Rd.adv]
    rw [List.take_of_length_le (by omega), List.drop_of_length_le (by omega)]
  refine ⟨⟨cap, pos + 160 + 32, []⟩, ?_, rfl⟩
  rw [htake, record2_read_body hC]
  unfold Phase2.readHash
  rw [Go.bind_run, Go.bind_ok hread]
  simp only [Go.pure_run, hlt]
  rw [show 32 - (m - 160) = 192 - m by omega]

/-- the record loop on records that are cut off -/
theorem verifyLoop2_cut (rs : List (Contribution G1 G2)) : ∀ (c0 : Contribution G1 G2) (d : G1) (h : Bytes) (cap pos m : Nat),
    (∀ r ∈ rs, r.hash.length = 32) → (∀ r ∈ rs, r.hash = C.sha (record2Body C r)) →
    (∀ j < rs.length, Fits cap (pos + 192 * j + 160)) → m < 192 * rs.length →
    ∀ fin r', (Phase2.verifyLoop C rs.length c0 d h).run ⟨cap, pos, (rs.flatMap (record2Bytes C)).take m⟩ = (.ok fin, r') →
    192 * rs.length - m ≤ 31 ∧ (rs.flatMap (record2Bytes C)).drop m = List.replicate (192 * rs.length - m) 0 := by
  induction rs with
  | nil => intro c0 d h cap pos m _ _ _ hm; simp at hm
  | cons r rs ih =>
    intro c0 d h cap pos m hl hsha hf hm fin r' hrun
    have hlr := hl r (by simp)
    have hrl := record2Bytes_length hC r hlr
    have hf0 : Fits cap (pos + 160) := by simpa using hf 0 (by simp)
    simp only [List.length_cons, Phase2.verifyLoop, List.flatMap_cons] at hrun hm ⊢
    rcases lt_or_ge m 192 with hlt | hge
    · rcases Nat.lt_or_ge 160 m with h160 | h160
      · obtain ⟨rd', h1, h2⟩ := record2_read_hash_cut hC r cap pos m (rs.flatMap (record2Bytes C)) hlr hf0 h160 hlt
        rw [Go.bind_ok h1] at hrun
        obtain ⟨_, r2, h3, hrun⟩ := Go.bind_eq_ok hrun
        simp only [Go.lift_run, Prod.mk.injEq] at h3
        obtain ⟨x, hx⟩ := (verifyContribution2_iff hC _ d h).mp h3.1
        have h4 := hx.hash
        have hs := hsha r (by simp)
        simp only [record2Body] at h4 hs
        rw [← hs] at h4
        cases rs with
        | nil =>
          simp only [List.length_nil, List.flatMap_nil, List.append_nil, Nat.zero_add, Nat.mul_one]
          refine ⟨by omega, ?_⟩
          rw [record2Bytes, List.drop_append, List.drop_of_length_le (by rw [record2Body_length hC]; omega),
            record2Body_length hC, List.nil_append]
          have := congrArg (List.drop (m - 160)) h4
          rw [List.drop_left' (by simp; omega)] at this
          exact this.symm
        | cons q rs =>
          exfalso
          rw [← h3.2] at hrun
          exact verifyLoop2_empty hC _ (by simp) _ _ _ rd' h2 _ _ hrun
      · exfalso
        obtain ⟨e, rd', h1⟩ := record2_read_short hC r cap pos m (rs.flatMap (record2Bytes C)) h160
        rw [Go.bind_error h1] at hrun
        simp at hrun
    · rw [List.take_append, List.take_of_length_le (by omega), hrl] at hrun
      rw [Go.bind_ok (record2_read hC r cap pos _ hlr hf0)] at hrun
      obtain ⟨_, r2, h2, hrun⟩ := Go.bind_eq_ok hrun
      simp only [Go.lift_run, Prod.mk.injEq] at h2
      rw [← h2.2] at hrun
      obtain ⟨a1, a2⟩ := ih r r.delta r.hash cap (pos + 192) (m - 192) (fun x hx => hl x (by simp [hx]))
        (fun x hx => hsha x (by simp [hx]))
        (fun j hj => by
          have := hf (j + 1) (by simpa using hj)
          rwa [show pos + 192 + 192 * j + 160 = pos + 192 * (j + 1) + 160 by ring])
        (by omega) fin r' hrun
      refine ⟨by omega, ?_⟩
      rw [List.drop_append, List.drop_of_length_le (by omega), hrl, List.nil_append, a2,
        show 192 * (rs.length + 1) - m = 192 * rs.length - (m - 192) by omega]

/-- the record loop when zero bytes are missing at the end of the last hash -/
theorem verifyLoop2_zero_tail (rs : List (Contribution G1 G2)) : ∀ (c0 : Contribution G1 G2) (d : G1) (h : Bytes)
    (cap pos m k : Nat), (∀ r ∈ rs, r.hash.length = 32) → (∀ j < rs.length, Fits cap (pos + 192 * j + 160)) →
    m + k = 192 * rs.length → 0 < k → k ≤ 31 → (rs.flatMap (record2Bytes C)).drop m = List.replicate k 0 →
    ∀ fin r', (Phase2.verifyLoop C rs.length c0 d h).run ⟨cap, pos, rs.flatMap (record2Bytes C)⟩ = (.ok fin, r') →
    ∃ rd', (Phase2.verifyLoop C rs.length c0 d h).run ⟨cap, pos, (rs.flatMap (record2Bytes C)).take m⟩ = (.ok fin, rd') := by
  induction rs with
  | nil => intro c0 d h cap pos m k _ _ hmk hk; simp at hmk; omega
  | cons r rs ih =>
    intro c0 d h cap pos m k hl hf hmk hk hk31 hz fin r' hrun
    have hlr := hl r (by simp)
    have hrl := record2Bytes_length hC r hlr
    have hbl := record2Body_length hC r
    have hf0 : Fits cap (pos + 160) := by simpa using hf 0 (by simp)
    simp only [List.length_cons, Phase2.verifyLoop, List.flatMap_cons] at hrun hmk hz ⊢
    rw [Go.bind_ok (record2_read hC r cap pos _ hlr hf0)] at hrun
    obtain ⟨_, r2, h2, hrun⟩ := Go.bind_eq_ok hrun
    simp only [Go.lift_run, Prod.mk.injEq] at h2
    obtain ⟨h2, rfl⟩ := h2
    cases rs with
    | nil =>
      simp only [List.length_nil, Nat.zero_add, Nat.mul_one] at hmk
      obtain ⟨rd', h1, -⟩ := record2_read_hash_cut hC r cap pos m (List.flatMap (record2Bytes C) []) hlr hf0 (by omega)
        (by omega)
      have hh : r.hash.take (m - 160) ++ List.replicate (192 - m) 0 = r.hash := by
        simp only [List.flatMap_nil, List.append_nil] at hz
        rw [record2Bytes, List.drop_append, List.drop_of_length_le (by omega), hbl, List.nil_append] at hz
        rw [show 192 - m = k by omega, ← hz, List.take_append_drop]
      rw [hh] at h1
      refine ⟨rd', ?_⟩
      rw [Go.bind_ok h1, Go.bind_ok (a := ()) (s' := rd') (by rw [Go.lift_run, h2])]
      simp only [List.length_nil, Phase2.verifyLoop, Go.pure_run, Prod.mk.injEq, Except.ok.injEq] at hrun ⊢
      exact ⟨hrun.1, trivial⟩
    | cons q rs =>
      simp only [List.length_cons] at hmk
      rw [List.drop_append, List.drop_of_length_le (by omega), hrl, List.nil_append] at hz
      obtain ⟨rd', h1⟩ := ih r r.delta r.hash cap (pos + 192) (m - 192) k (fun x hx => hl x (by simp [hx]))
        (fun j hj => by
          have := hf (j + 1) (by simpa using hj)
          rwa [show pos + 192 + 192 * j + 160 = pos + 192 * (j + 1) + 160 by ring])
        (by simp only [List.length_cons]; omega) hk hk31 hz fin r' hrun
      refine ⟨rd', ?_⟩
      rw [List.take_append, List.take_of_length_le (by omega), hrl, Go.bind_ok (record2_read hC r cap pos _ hlr hf0),
        Go.bind_ok (a := ()) (s' := _) (by rw [Go.lift_run, h2])]
      exact h1

omit hC in
theorem chain2_hashes (rs : List (Contribution G1 G2)) : ∀ (d : G1) (h : Bytes) (xs : List F), Chain2By C d h rs xs →
    ∀ r ∈ rs, r.hash = C.sha (record2Body C r) := by
  induction rs with
  | nil => simp
  | cons r rs ih =>
    intro d h xs hch q hq
    cases xs with
    | nil => exact hch.elim
    | cons x xs =>
      rcases List.mem_cons.mp hq with rfl | hq
      · exact hch.1.hash
      · exact ih _ _ _ hch.2 q hq

theorem records2_length (rs : List (Contribution G1 G2)) (h : ∀ r ∈ rs, r.hash.length = 32) :
    (rs.flatMap (record2Bytes C)).length = 192 * rs.length := by
  induction rs with
  | nil => rfl
  | cons r rs ih =>
    simp only [List.flatMap_cons, List.length_append, record2Bytes_length hC r (h r (by simp)),
      ih fun x hx => h x (by simp [hx]), List.length_cons]
    omega

theorem params2_length (f : P2File G1 G2) : (f.params C).length = 96 + 32 * f.z.length + 32 * f.pkk.length := by
  simp only [P2File.params, List.length_append, hC.codec1.bytes_length, hC.codec2.bytes_length, hC.size1, hC.size2]
  have h1 := section1_length hC f.z
  have h2 := section1_length hC f.pkk
  omega

variable {H : HeaderCodec} (hH : H.Lawful)
include hH

/-- a header that is cut off cannot be read -/
theorem header2_cut (f : P2File G1 G2) (hf : f.WF) (n : Nat) (hn : n < (H.enc f.header).length) (cap : Nat) (h : Header)
    (r' : Rd) : H.dec.run (Rd.buffered cap ((f.encode C H).take n)) ≠ (.ok h, r') := by
  intro hrun
  obtain ⟨used, h1, h2⟩ := hH.dec_local _ _ _ hrun
  simp only [Rd.buffered] at h1
  have hfull : f.encode C H = used ++ (r'.rest ++ (f.encode C H).drop n) := by
    rw [← List.append_assoc, ← h1, List.take_append_drop]
  have h3 := P2File.header_read hC hH hf cap []
  rw [List.append_nil, hfull] at h3
  unfold Rd.buffered at h3
  rw [h2] at h3
  simp only [Prod.mk.injEq, Rd.mk.injEq] at h3
  have h4 := h3.2.2.1
  have h5 := congrArg List.length h1
  simp at h5
  omega

/-- **C34** (missing points) and **C54** (partial): a file that ends inside the header or the parameters is rejected, whatever
it contains otherwise. (The check of an incomplete section passes, see `verifyParameter_cut`, but then the first record
cannot be read.) -/
theorem C34_missing_partial (par : Par) (b : Nat) (hb : 0 < b) (vr : VerifyRand F) (f o : P2File G1 G2) (hf : f.WF)
    (ho : o.WF) (junk : Bytes) (n : Nat) (hn : n < (H.enc f.header ++ f.params C).length) :
    Phase2.verify C H par b vr ((f.encode C H).take n) (o.encode C H ++ junk) ≠ .ok () := by
  intro h
  have hpl := params2_length hC f
  obtain ⟨q1, q2, q3, q4, k1, k2, k3, k4, k5⟩ := P2File.readers hC hH ho 4096 junk
  have henc : f.encode C H = H.enc f.header ++ f.params C ++ f.records.flatMap (record2Bytes C) := rfl
  rw [List.length_append, hpl] at hn
  have hw3 : wrap64 (f.header.domain - 1) = (f.z.length : Int) := by
    have := hf.z
    have := hf.domain
    have := hf.domain_pos
    rw [wrap64_eq] <;> simp only [P2File.header] <;> omega
  have hw4 : f.header.witness = (f.pkk.length : Int) := by simp [P2File.header, hf.pkk]
  have hcount : f.header.contributions.toNat = f.records.length := by simp [P2File.header]
  have hne : f.header.contributions ≠ 0 ↔ f.records ≠ [] := by simp [P2File.header]
  -- the header is complete
  rcases lt_or_ge n (H.enc f.header).length with hlt | hge
  · unfold Phase2.verify verifyBody Header.read at h
    obtain ⟨s, h⟩ := run_of_fst h
    obtain ⟨hd, s1, h1, -⟩ := Go.bind_eq_ok h
    exact header2_cut hC hH f hf n hlt 4096 hd _ (onInput_eq_ok h1).1
  obtain ⟨m, rfl⟩ : ∃ m, n = (H.enc f.header).length + m := ⟨n - (H.enc f.header).length, by omega⟩
  have htake : (f.encode C H).take ((H.enc f.header).length + m)
      = H.enc f.header ++ (f.params C ++ f.records.flatMap (record2Bytes C)).take m := by
    rw [henc, List.append_assoc, List.take_length_add_append]
  have hhead : H.dec.run (Rd.buffered 4096 (H.enc f.header ++ (f.params C ++ f.records.flatMap (record2Bytes C)).take m))
      = (.ok f.header, ⟨4096, (H.enc f.header).length,
          (f.params C ++ f.records.flatMap (record2Bytes C)).take m⟩) := by
    have := hH.dec_enc f.header (P2File.header_inRange hC hH hf) 4096 0
      ((f.params C ++ f.records.flatMap (record2Bytes C)).take m)
    rwa [Nat.zero_add] at this
  rw [htake] at h
  have hlt : m < 96 + 32 * f.z.length + 32 * f.pkk.length := by omega
  unfold Phase2.verify verifyBody Header.read at h
  rw [Go.bind_ok (onInput_ok hhead), Go.bind_ok (onOrigin_ok k1), lift_check_bind, lift_check_bind,
    Go.bind_ok (onOrigin_ok k2), Go.bind_ok (onOrigin_ok k3)] at h
  obtain ⟨hc, he, h⟩ := h
  have hsh : P2File.SameShape f o := (header_equal_iff f o).mp he
  have hzl : o.z.length = f.z.length := by rw [hf.z, ho.z, hsh.2.2.2.2.2]
  have hkl : o.pkk.length = f.pkk.length := by rw [hf.pkk, ho.pkk, hsh.2.1]
  rw [hzl] at k4
  rw [hkl] at k5
  have hrec : 0 < f.records.length := List.length_pos_iff.mpr (hne.mp (by simpa using hc))
  unfold P2File.params at h
  simp only [List.append_assoc] at h
  rcases lt_or_ge m C.c1.size with hm | hm
  · obtain ⟨rd', h1⟩ := decode_cut_err (c := C.c1) 4096 (H.enc f.header).length m _ hm
    rw [Go.bind_error (onInput_error h1)] at h
    simp at h
  rw [Go.bind_ok (onInput_ok (decode_cut_ok hC.codec1 _ _ m _ _ hm))] at h
  rcases lt_or_ge (m - C.c1.size) C.c2.size with hm2 | hm2
  · obtain ⟨rd', h1⟩ := decode_cut_err (c := C.c2) 4096 ((H.enc f.header).length + C.c1.size) (m - C.c1.size) _ hm2
    rw [Go.bind_error (onInput_error h1)] at h
    simp at h
  rw [Go.bind_ok (onInput_ok (decode_cut_ok hC.codec2 _ _ _ _ _ hm2)), lift_check_bind] at h
  obtain ⟨-, h⟩ := h
  rw [hC.size1, hC.size2] at h
  rw [hC.size1] at hm
  rw [hC.size1, hC.size2] at hm2
  -- after the two sections nothing is left
  have hend : ∀ (s s' : Rd × Rd), s.1.rest = [] →
      (onInput (Phase2.verifyLoop C f.records.length Contribution.zero o.delta1 []) >>= fun c =>
        Go.lift (check (decide (c.delta = f.delta1))
          "delta of last contribution delta isn't the same as in parameters")).run s ≠ (.ok (), s') := by
    intro s s' hs0 hrun
    obtain ⟨c, s1, h1, -⟩ := Go.bind_eq_ok hrun
    exact verifyLoop2_empty hC _ hrec _ _ _ _ hs0 _ _ (onInput_eq_ok h1).1
  obtain ⟨sfin, h⟩ := run_of_fst h
  obtain ⟨_, s1, hz1, h⟩ := Go.bind_eq_ok h
  obtain ⟨_, s2, hk1, h⟩ := Go.bind_eq_ok h
  rw [hcount] at h
  refine hend s2 _ ?_ h
  rw [hw3] at hz1
  rw [hw4] at hk1
  rcases Nat.lt_or_ge (m - 32 - 64) (32 * f.z.length) with hmz | hmz
  · obtain ⟨s', e1, e2⟩ := verifyParameter_cut hC par b hb vr.z f.delta2 o.delta2 "Z" f.z o.z 4096
      ((H.enc f.header).length + 32 + 64) (m - 32 - 64)
      (f.pkk.flatMap C.c1.bytes ++ f.records.flatMap (record2Bytes C)) q3 q4 k4 hmz
    rw [e1] at hz1
    simp only [Prod.mk.injEq, true_and] at hz1
    rw [hz1] at e2
    obtain ⟨u, hu⟩ := verifyParameter_forward C par b vr.pkk f.delta2 o.delta2 (f.pkk.length : Int) "PKK" s1
    rw [hk1, e2] at hu
    exact (List.append_eq_nil_iff.mp hu.symm).2
  · have hi := Codec.decodeN_encodeN hC.codec1 4096 ((H.enc f.header).length + 32 + 64) f.z
      ((f.pkk.flatMap C.c1.bytes ++ f.records.flatMap (record2Bytes C)).take (m - 32 - 64 - 32 * f.z.length))
    have htz : (f.z.flatMap C.c1.bytes ++ (f.pkk.flatMap C.c1.bytes ++ f.records.flatMap (record2Bytes C))).take
        (m - 32 - 64) = C.c1.encodeN f.z ++ ((f.pkk.flatMap C.c1.bytes
          ++ f.records.flatMap (record2Bytes C)).take (m - 32 - 64 - 32 * f.z.length)) := by
      have := section1_length hC f.z
      rw [List.take_append, List.take_of_length_le (by omega), this]
      rfl
    rw [htz, verifyParameter_ok C par b hb vr.z f.z.length _ _ "Z" _ _ _ _ _ _ hi k4] at hz1
    simp only [Prod.mk.injEq] at hz1
    obtain ⟨-, rfl⟩ := hz1
    obtain ⟨s', e1, e2⟩ := verifyParameter_cut hC par b hb vr.pkk f.delta2 o.delta2 "PKK" f.pkk o.pkk 4096
      ((H.enc f.header).length + 32 + 64 + C.c1.size * f.z.length) (m - 32 - 64 - 32 * f.z.length)
      (f.records.flatMap (record2Bytes C)) q4 _ k5 (by omega)
    rw [e1] at hk1
    simp only [Prod.mk.injEq, true_and] at hk1
    rw [← hk1]; exact e2

/-- a cut-off file is accepted only if all that is missing are zero bytes of the last hash -/
theorem truncated2_only_zeros (par : Par) (b : Nat) (hb : 0 < b) (vr : VerifyRand F) (f o : P2File G1 G2) (hf : f.WF)
    (ho : o.WF) (hs : f.NoStraddle H) (hsha : ∀ r ∈ f.records, r.hash = C.sha (record2Body C r)) (junk : Bytes) (n : Nat)
    (hn : n < (f.encode C H).length)
    (h : Phase2.verify C H par b vr ((f.encode C H).take n) (o.encode C H ++ junk) = .ok ()) :
    (f.encode C H).length - n ≤ 31 ∧ (f.encode C H).drop n = List.replicate ((f.encode C H).length - n) 0 := by
  have hpl := params2_length hC f
  have hrl := records2_length hC f.records hf.hash
  obtain ⟨q1, q2, q3, q4, k1, k2, k3, k4, k5⟩ := P2File.readers hC hH ho 4096 junk
  have henc : f.encode C H = H.enc f.header ++ f.params C ++ f.records.flatMap (record2Bytes C) := rfl
  have hlen : (f.encode C H).length = (H.enc f.header).length + (96 + 32 * f.z.length + 32 * f.pkk.length)
      + 192 * f.records.length := by
    rw [henc, List.length_append, List.length_append, hpl, hrl]
  have hw3 : wrap64 (f.header.domain - 1) = (f.z.length : Int) := by
    have := hf.z
    have := hf.domain
    have := hf.domain_pos
    clear hs
    rw [wrap64_eq] <;> simp only [P2File.header] <;> omega
  have hw4 : f.header.witness = (f.pkk.length : Int) := by simp [P2File.header, hf.pkk]
  have hcount : f.header.contributions.toNat = f.records.length := by simp [P2File.header]
  have hlong : (H.enc f.header ++ f.params C).length ≤ n := by
    by_contra hlt
    exact C34_missing_partial hC hH par b hb vr f o hf ho junk n (by omega) h
  rw [List.length_append, hpl] at hlong
  obtain ⟨m, rfl⟩ : ∃ m, n = (H.enc f.header).length + m := ⟨n - (H.enc f.header).length, by omega⟩
  have htake : (f.encode C H).take ((H.enc f.header).length + m)
      = H.enc f.header ++ (f.params C ++ f.records.flatMap (record2Bytes C)).take m := by
    rw [henc, List.append_assoc, List.take_length_add_append]
  have hhead : H.dec.run (Rd.buffered 4096 (H.enc f.header ++ (f.params C ++ f.records.flatMap (record2Bytes C)).take m))
      = (.ok f.header, ⟨4096, (H.enc f.header).length,
          (f.params C ++ f.records.flatMap (record2Bytes C)).take m⟩) := by
    have := hH.dec_enc f.header (P2File.header_inRange hC hH hf) 4096 0
      ((f.params C ++ f.records.flatMap (record2Bytes C)).take m)
    rwa [Nat.zero_add] at this
  rw [htake] at h
  have hge2 : 96 + 32 * f.z.length + 32 * f.pkk.length ≤ m := by omega
  have htk : (f.params C ++ f.records.flatMap (record2Bytes C)).take m = f.params C
      ++ (f.records.flatMap (record2Bytes C)).take (m - (96 + 32 * f.z.length + 32 * f.pkk.length)) := by
    rw [List.take_append, List.take_of_length_le (by omega), hpl]
  rw [htk] at h hhead
  have hloop : ∃ c r', (Phase2.verifyLoop C f.records.length Contribution.zero o.delta1 []).run
      ⟨4096, (H.enc f.header).length + 32 + 64 + 32 * f.z.length + 32 * f.pkk.length,
        (f.records.flatMap (record2Bytes C)).take (m - (96 + 32 * f.z.length + 32 * f.pkk.length))⟩ = (.ok c, r') := by
    unfold P2File.params at h hhead
    simp only [List.append_assoc] at h hhead
    have hsh : P2File.SameShape f o := by
      have h' := h
      unfold Phase2.verify verifyBody Header.read at h'
      rw [Go.bind_ok (onInput_ok hhead), Go.bind_ok (onOrigin_ok k1), lift_check_bind, lift_check_bind] at h'
      exact (header_equal_iff f o).mp h'.2.1
    have hzl : o.z.length = f.z.length := by rw [hf.z, ho.z, hsh.2.2.2.2.2]
    have hkl : o.pkk.length = f.pkk.length := by rw [hf.pkk, ho.pkk, hsh.2.1]
    rw [hzl] at k4
    rw [hkl] at k5
    unfold Phase2.verify at h
    rw [verifyBody_iff H par b hb vr hhead k1 k2 k3 (Codec.decode_bytes hC.codec1 _ _ _ _)
      (Codec.decode_bytes hC.codec2 _ _ _ _) hw3 hw4 (Codec.decodeN_encodeN hC.codec1 _ _ _ _) k4
      (Codec.decodeN_encodeN hC.codec1 _ _ _ _) k5, hcount] at h
    obtain ⟨c, r', h1, -⟩ := h.2.2.2.2.2
    rw [hC.size1, hC.size2] at h1
    exact ⟨c, r', h1⟩
  obtain ⟨c, r', hrun⟩ := hloop
  obtain ⟨a1, a2⟩ := verifyLoop2_cut hC f.records _ _ _ 4096 _ _ hf.hash hsha (fun j hj => .inr (hs j hj))
    (by omega) _ _ hrun
  refine ⟨by omega, ?_⟩
  rw [hlen]
  have e : (f.encode C H).drop ((H.enc f.header).length + m)
      = (f.records.flatMap (record2Bytes C)).drop (m - (96 + 32 * f.z.length + 32 * f.pkk.length)) := by
    rw [henc, List.drop_append, List.drop_of_length_le (by rw [List.length_append]; omega), List.nil_append,
      List.length_append, hpl]
    congr 1
    omega
  rw [e, a2]
  congr 1
  omega

/-- **C54** (partial): let `f` be accepted and none of its hashes lie across a boundary of the read buffer. A strict prefix of
`f` is accepted (against any origin, with any draws) only if what is missing are at most 31 bytes, all of them zero. (The
missing bytes are then part of the last hash.) Missing for the full C54: `C54_zero_tail_accepted`. -/
theorem C54_truncated_partial (par par' : Par) (b b' : Nat) (hb : 0 < b) (hb' : 0 < b') (vr vr' : VerifyRand F)
    (f o o' : P2File G1 G2) (hf : f.WF) (ho : o.WF) (ho' : o'.WF) (hs : f.NoStraddle H) (junk junk' : Bytes)
    (hacc : Phase2.verify C H par' b' vr' (f.encode C H) (o'.encode C H ++ junk') = .ok ()) (n : Nat)
    (hn : n < (f.encode C H).length)
    (h : Phase2.verify C H par b vr ((f.encode C H).take n) (o.encode C H ++ junk) = .ok ()) :
    (f.encode C H).length - n ≤ 31 ∧ ∀ x ∈ (f.encode C H).drop n, x = 0 := by
  have := verify2_iff hC hH par' b' hb' vr' f o' hf ho' hs [] junk'
  rw [List.append_nil] at this
  obtain ⟨-, -, -, -, -, ⟨xs, hch⟩, -⟩ := this.mp hacc
  obtain ⟨h1, h2⟩ := truncated2_only_zeros hC hH par b hb vr f o hf ho hs (chain2_hashes _ _ _ _ hch) junk n hn h
  refine ⟨h1, ?_⟩
  rw [h2]
  intro x hx
  exact List.eq_of_mem_replicate hx

/-- **C54, negation**: if the last hash of an accepted file ends in zero bytes, the file without (up to 31 of) them is
accepted as well. -/
theorem C54_zero_tail_accepted (par : Par) (b : Nat) (hb : 0 < b) (vr : VerifyRand F) (f o : P2File G1 G2) (hf : f.WF)
    (ho : o.WF) (hs : f.NoStraddle H) (junk : Bytes)
    (hacc : Phase2.verify C H par b vr (f.encode C H) (o.encode C H ++ junk) = .ok ()) (k : Nat) (hk : k ≤ 31)
    (hz : ∀ x ∈ (f.encode C H).drop ((f.encode C H).length - k), x = 0) :
    Phase2.verify C H par b vr ((f.encode C H).take ((f.encode C H).length - k)) (o.encode C H ++ junk) = .ok () := by
  rcases Nat.eq_zero_or_pos k with rfl | hk0
  · rwa [Nat.sub_zero, List.take_length]
  have hpl := params2_length hC f
  have hrl := records2_length hC f.records hf.hash
  obtain ⟨q1, q2, q3, q4, k1, k2, k3, k4, k5⟩ := P2File.readers hC hH ho 4096 junk
  obtain ⟨r1, r2, r3, r4, h1, h2, h3, h4, h5⟩ := P2File.readers hC hH hf 4096 []
  rw [List.append_nil] at h1
  rw [List.append_nil] at h5
  have hw3 : wrap64 (f.header.domain - 1) = (f.z.length : Int) := by
    have := hf.z
    have := hf.domain
    have := hf.domain_pos
    clear hs
    rw [wrap64_eq] <;> simp only [P2File.header] <;> omega
  have hw4 : f.header.witness = (f.pkk.length : Int) := by simp [P2File.header, hf.pkk]
  have hcount : f.header.contributions.toNat = f.records.length := by simp [P2File.header]
  have hsh : P2File.SameShape f o := by
    have h' := hacc
    unfold Phase2.verify verifyBody Header.read at h'
    rw [Go.bind_ok (onInput_ok h1), Go.bind_ok (onOrigin_ok k1), lift_check_bind, lift_check_bind] at h'
    exact (header_equal_iff f o).mp h'.2.1
  have hzl : o.z.length = f.z.length := by rw [hf.z, ho.z, hsh.2.2.2.2.2]
  have hkl : o.pkk.length = f.pkk.length := by rw [hf.pkk, ho.pkk, hsh.2.1]
  rw [hzl] at k4
  rw [hkl] at k5
  have hacc' := hacc
  unfold Phase2.verify at hacc'
  rw [verifyBody_iff H par b hb vr h1 k1 k2 k3 h2 h3 hw3 hw4 h4 k4 h5 k5, hcount] at hacc'
  obtain ⟨a1, a2, a3, a4, a5, c, r', a6, a7⟩ := hacc'
  have hrec : 0 < f.records.length := by
    rw [List.length_pos_iff]
    intro h0
    exact a1 (by simp [P2File.header, h0])
  have hlen : (f.encode C H).length = (H.enc f.header).length + (96 + 32 * f.z.length + 32 * f.pkk.length)
      + 192 * f.records.length := by
    rw [P2File.encode, List.length_append, List.length_append, hpl, hrl]
  generalize hm : 192 * f.records.length - k = m
  have htake : (f.encode C H).take ((f.encode C H).length - k) = H.enc f.header ++ (f.params C
      ++ (f.records.flatMap (record2Bytes C)).take m) := by
    have e : (f.encode C H).length - k = (H.enc f.header ++ f.params C).length + m := by
      rw [hlen, List.length_append, hpl]; omega
    rw [e, P2File.encode, List.take_length_add_append, List.append_assoc]
  have hdrop : (f.records.flatMap (record2Bytes C)).drop m = List.replicate k 0 := by
    have e : (f.encode C H).drop ((f.encode C H).length - k) = (f.records.flatMap (record2Bytes C)).drop m := by
      have e : (f.encode C H).length - k = (H.enc f.header ++ f.params C).length + m := by
        rw [hlen, List.length_append, hpl]; omega
      rw [e, P2File.encode, List.drop_length_add_append]
    rw [← e]
    refine List.eq_replicate_iff.mpr ⟨?_, fun x hx => hz x hx⟩
    rw [List.length_drop]
    omega
  have hhead : H.dec.run (Rd.buffered 4096 (H.enc f.header ++ (f.params C ++ (f.records.flatMap (record2Bytes C)).take m)))
      = (.ok f.header, ⟨4096, (H.enc f.header).length,
          f.params C ++ (f.records.flatMap (record2Bytes C)).take m⟩) := by
    have := hH.dec_enc f.header (P2File.header_inRange hC hH hf) 4096 0
      (f.params C ++ (f.records.flatMap (record2Bytes C)).take m)
    rwa [Nat.zero_add] at this
  obtain ⟨rd', hloop⟩ := verifyLoop2_zero_tail hC f.records Contribution.zero o.delta1 [] 4096
    ((H.enc f.header).length + 32 + 64 + 32 * f.z.length + 32 * f.pkk.length) m k hf.hash (fun j hj => .inr (hs j hj))
    (by omega) hk0 hk hdrop c r' a6
  rw [htake]
  unfold P2File.params at hhead ⊢
  simp only [List.append_assoc] at hhead ⊢
  unfold Phase2.verify
  rw [verifyBody_iff H par b hb vr hhead k1 k2 k3 (Codec.decode_bytes hC.codec1 _ _ _ _)
    (Codec.decode_bytes hC.codec2 _ _ _ _) hw3 hw4 (Codec.decodeN_encodeN hC.codec1 _ _ _ _) k4
    (Codec.decodeN_encodeN hC.codec1 _ _ _ _) k5, hcount, hC.size1, hC.size2]
  exact ⟨a1, a2, a3, a4, a5, c, rd', hloop, a7⟩

/-- **C47** (partial, phase 2): the process dies during `p2c`, leaving any strict prefix of the output behind. For an input
whose records carry their hashes (every accepted input does) and files in which no hash lies across a buffer boundary,
`Verify` accepts the partial output only if it lacks at most 31 zero bytes at its end; in particular never while a
point or a nonzero byte is missing. Missing for the full C47: `C54_zero_tail_accepted`, and files with a hash across
a boundary. -/
theorem C47_phase2_partial (par par' : Par) (b b' : Nat) (hb : 0 < b) (hb' : 0 < b') (rnd : Rand F) (vr : VerifyRand F)
    (f o : P2File G1 G2) (hf : f.WF) (ho : o.WF) (hc : f.records.length + 1 < 2 ^ 63 - 1) (hs : f.NoStraddle H)
    (hs' : (f.contribute C rnd).NoStraddle H) (hsha : ∀ r ∈ f.records, r.hash = C.sha (record2Body C r))
    (junk junk' : Bytes) :
    ∃ out hash, Phase2.contribute C H par b rnd (f.encode C H ++ junk) = (.ok hash, out) ∧
      ∀ n, n < out.length → Phase2.verify C H par' b' vr (out.take n) (o.encode C H ++ junk') = .ok () →
        out.length - n ≤ 31 ∧ ∀ x ∈ out.drop n, x = 0 := by
  refine ⟨_, _, C29_contribute_partial hC hH par b hb rnd f hf hs junk, ?_⟩
  intro n hn h
  obtain ⟨h1, h2⟩ := truncated2_only_zeros hC hH par' b' hb' vr (f.contribute C rnd) o (contribute2_wf hC f hf rnd hc) ho
    hs' (by
      intro r hr
      simp only [P2File.contribute, List.mem_append, List.mem_singleton] at hr
      rcases hr with hr | rfl
      · exact hsha r hr
      · exact (newRecord2_step rnd (lastHash2 f.records) f.delta1).hash) junk' n hn h
  refine ⟨h1, ?_⟩
  rw [h2]
  intro x hx
  exact List.eq_of_mem_replicate hx

end

/-! ### concrete cases -/

example := C34_missing_partial Toy.lawful Gob.lawful Toy.par batchSize (by decide) Toy.p2vr Toy.p2final Toy.p2 Toy.p2final_wf
  Toy.p2_wf [1] 300 (by decide +kernel)

-- the hypotheses hold for every prefix; here the one without the last record
example := C54_truncated_partial Toy.lawful Gob.lawful Toy.par Toy.par batchSize batchSize (by decide) (by decide) Toy.p2vr
  Toy.p2vr Toy.p2final Toy.p2 Toy.p2 Toy.p2final_wf Toy.p2_wf Toy.p2_wf Toy.p2final_noStraddle [] []
  (by have := Toy.p2final_accepted [] []; rwa [List.append_nil] at this)
  ((Toy.p2final.encode Toy.curve Gob.headerCodec).length - 192) (by decide +kernel)

-- so it is rejected
example : Phase2.verify Toy.curve Gob.headerCodec Toy.par batchSize Toy.p2vr
    ((Toy.p2final.encode Toy.curve Gob.headerCodec).take ((Toy.p2final.encode Toy.curve Gob.headerCodec).length - 192))
    (Toy.p2.encode Toy.curve Gob.headerCodec ++ []) ≠ .ok () :=
  fun h => absurd (C54_truncated_partial Toy.lawful Gob.lawful Toy.par Toy.par batchSize batchSize (by decide) (by decide)
    Toy.p2vr Toy.p2vr Toy.p2final Toy.p2 Toy.p2 Toy.p2final_wf Toy.p2_wf Toy.p2_wf Toy.p2final_noStraddle [] []
    (by have := Toy.p2final_accepted [] []; rwa [List.append_nil] at this) _ (by decide +kernel) h).1 (by decide +kernel)

namespace Toy

/-- one contribution whose hash ends in a zero byte -/
def p2zeroTail : P2File K K := p2.ceremony curve [⟨5, 5⟩]

theorem p2zeroTail_accepted : Phase2.verify curve Gob.headerCodec par batchSize p2vr
    (p2zeroTail.encode curve Gob.headerCodec ++ []) (p2.encode curve Gob.headerCodec ++ [7]) = .ok () := by
  obtain ⟨h1, h2, h3⟩ := ceremony2_facts lawful Gob.lawful p2 p2_wf rfl [⟨5, 5⟩] (by decide)
  exact verify2_update lawful Gob.lawful par batchSize (by decide) p2vr p2 p2zeroTail p2_wf h1 (by decide +kernel)
    (by intro h; rw [p2zeroTail] at h; rw [h] at h2; simp at h2) _ (by decide) _ h3 [] [7]

end Toy

example : Phase2.verify Toy.curve Gob.headerCodec Toy.par batchSize Toy.p2vr
    ((Toy.p2zeroTail.encode Toy.curve Gob.headerCodec).take ((Toy.p2zeroTail.encode Toy.curve Gob.headerCodec).length - 1))
    (Toy.p2.encode Toy.curve Gob.headerCodec ++ [7]) = .ok () :=
  C54_zero_tail_accepted Toy.lawful Gob.lawful Toy.par batchSize (by decide) Toy.p2vr Toy.p2zeroTail Toy.p2
    (ceremony2_facts Toy.lawful Gob.lawful Toy.p2 Toy.p2_wf rfl [⟨5, 5⟩] (by decide)).1 Toy.p2_wf (by decide +kernel) [7]
    (by have := Toy.p2zeroTail_accepted; rwa [List.append_nil] at this) 1 (by decide) (by decide +kernel)

example := C47_phase2_partial Toy.lawful Gob.lawful Toy.par Toy.par batchSize batchSize (by decide) (by decide) Toy.p2rnd'
  Toy.p2vr (Toy.p2.contribute Toy.curve Toy.p2rnd) Toy.p2 (contribute2_wf Toy.lawful _ Toy.p2_wf _ (by decide)) Toy.p2_wf
  (by decide) (by decide +kernel) (by decide +kernel) (by decide +kernel) [1] [2]

end ZkSetup
