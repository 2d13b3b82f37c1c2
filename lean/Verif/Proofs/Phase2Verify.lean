import Verif.Proofs.Phase2IO
import Verif.Proofs.Phase1Verify
/-
`phase2.Verify`: aggregation, the record loop, the whole verifier.
-/
set_option linter.unusedSectionVars false

namespace ZkSetup

open Phase1 (wrap64 makeLen multiExp check)
open Phase2 Finset

/-- reading `m + k` points is reading `m` points and then `k` points -/
theorem decodeN_split {G : Type} (c : Codec G) (m k : Nat) : ∀ (r r'' : Rd) (ps : List G),
    (c.decodeN (m + k)).run r = (.ok ps, r'') →
    ∃ r', (c.decodeN m).run r = (.ok (ps.take m), r') ∧ (c.decodeN k).run r' = (.ok (ps.drop m), r'') := by
  induction m with
  | zero => intro r r'' ps h; exact ⟨r, by simp [Codec.decodeN], by simpa using h⟩
  | succ m ih =>
    intro r r'' ps h
    rw [Nat.succ_add] at h
    unfold Codec.decodeN at h
    obtain ⟨p, r1, h1, h⟩ := Go.bind_eq_ok h
    obtain ⟨qs, r2, h2, h⟩ := Go.bind_eq_ok h
    simp only [Go.pure_run, Prod.mk.injEq, Except.ok.injEq] at h
    obtain ⟨rfl, rfl⟩ := h
    obtain ⟨r', h3, h4⟩ := ih _ _ _ h2
    refine ⟨r', ?_, by simpa using h4⟩
    unfold Codec.decodeN
    rw [Go.bind_ok h1, Go.bind_ok h3]
    simp

theorem decodeN_length {G : Type} (c : Codec G) (n : Nat) : ∀ (r r' : Rd) (ps : List G),
    (c.decodeN n).run r = (.ok ps, r') → ps.length = n := by
  induction n with
  | zero => intro r r' ps h; simp [Codec.decodeN] at h; simp [← h.1]
  | succ n ih =>
    intro r r' ps h
    unfold Codec.decodeN at h
    obtain ⟨p, r1, h1, h⟩ := Go.bind_eq_ok h
    obtain ⟨qs, r2, h2, h⟩ := Go.bind_eq_ok h
    simp only [Go.pure_run, Prod.mk.injEq, Except.ok.injEq] at h
    obtain ⟨rfl, rfl⟩ := h
    simp [ih _ _ _ h2]

theorem onInput_ok {α : Type} {x : Go Rd α} {r r' ro : Rd} {a : α} (h : x.run r = (.ok a, r')) :
    (onInput x).run (r, ro) = (.ok a, (r', ro)) := by simp [onInput, h]

theorem onOrigin_ok {α : Type} {x : Go Rd α} {r r' ri : Rd} {a : α} (h : x.run r = (.ok a, r')) :
    (onOrigin x).run (ri, r) = (.ok a, (ri, r')) := by simp [onOrigin, h]

theorem onInput_error {α : Type} {x : Go Rd α} {r r' ro : Rd} {e : Fail} (h : x.run r = (.error e, r')) :
    (onInput x).run (r, ro) = (.error e, (r', ro)) := by simp [onInput, h]

theorem onInput_run {α : Type} (x : Go Rd α) (s : Rd × Rd) :
    (onInput x).run s = ((x.run s.1).1, ((x.run s.1).2, s.2)) := rfl

theorem onOrigin_run {α : Type} (x : Go Rd α) (s : Rd × Rd) :
    (onOrigin x).run s = ((x.run s.2).1, (s.1, (x.run s.2).2)) := rfl

section
variable {F G1 G2 GT : Type} [Field F] [AddCommGroup G1] [Module F G1] [AddCommGroup G2]
  [Module F G2] [AddCommGroup GT] [Module F GT] [DecidableEq G1] [DecidableEq G2] [DecidableEq GT]

theorem msm_ok {σ : Type} (rnd : Nat → F) (R n : Nat) (ps : List G1) (hl : ps.length = n) (hn : n ≤ R) (s : σ) :
    (msm ps (((List.range R).map rnd).take n)).run s = (.ok (∑ j ∈ range n, rnd j • ps.getD j 0), s) := by
  unfold msm multiExp
  rw [if_neg (by simp [hl]; omega)]
  have : ((List.range R).map rnd).take n = (List.range n).map rnd := by
    rw [← List.map_take, List.take_range, Nat.min_eq_left hn]
  simp only [this, Go.pure_run]
  rw [zipWith_sum _ _ _ (by omega), hl]

/-- splitting off the first batch of the verifier's sum -/
theorem batch_split (b t : Nat) (hb : 0 < b) (rnd : Nat → Nat → F) (ps : List G1) (rc : Nat)
    (hrc : min ps.length b = rc) :
    ∑ k ∈ range ps.length, rnd (t + k / b) (k % b) • ps.getD k 0
      = ∑ k ∈ range rc, rnd t k • (ps.take rc).getD k 0
        + ∑ k ∈ range (ps.drop rc).length, rnd (t + 1 + k / b) (k % b) • (ps.drop rc).getD k 0 := by
  have hlen : ps.length = rc + (ps.drop rc).length := by simp; omega
  conv_lhs => rw [hlen]
  rw [sum_range_add]
  congr 1
  · apply sum_congr rfl
    intro k hk
    have hk := mem_range.mp hk
    have hkb : k < b := by omega
    rw [Nat.div_eq_of_lt hkb, Nat.mod_eq_of_lt hkb, Nat.add_zero]
    simp only [List.getD_eq_getElem?_getD, List.getElem?_take, if_pos hk]
  · apply sum_congr rfl
    intro k hk
    have hk := mem_range.mp hk
    simp only [List.length_drop] at hk
    have : rc = b := by omega
    subst this
    rw [Nat.add_div_left _ hb, Nat.add_mod_left]
    simp only [List.getD_eq_getElem?_getD, List.getElem?_drop]
    congr 2
    omega

theorem aggregateLoop_ok (C : Curve F G1 G2 GT) (par : Par) (b : Nat) (hb : 0 < b) (rnd : Nat → Nat → F) (n : Nat) :
    ∀ (t : Nat) (r : List F) (inG orG : G1) (ri ri' ro ro' : Rd) (ps qs : List G1), n ≤ r.length →
    (C.c1.decodeN n).run ri = (.ok ps, ri') → (C.c1.decodeN n).run ro = (.ok qs, ro') →
    (aggregateLoop C par b rnd n t r inG orG).run (ri, ro)
      = (.ok (inG + ∑ k ∈ range ps.length, rnd (t + k / b) (k % b) • ps.getD k 0,
              orG + ∑ k ∈ range qs.length, rnd (t + k / b) (k % b) • qs.getD k 0), (ri', ro')) := by
  induction n using Nat.strong_induction_on with
  | _ n ih =>
    intro t r inG orG ri ri' ro ro' ps qs hr hi ho
    have hps := decodeN_length _ _ _ _ _ hi
    have hqs := decodeN_length _ _ _ _ _ ho
    by_cases h0 : 0 < n ∧ 0 < b
    swap
    · have hn0 : n = 0 := by omega
      subst hn0
      simp only [Codec.decodeN, Go.pure_run, Prod.mk.injEq, Except.ok.injEq] at hi ho
      obtain ⟨rfl, rfl⟩ := hi
      obtain ⟨rfl, rfl⟩ := ho
      rw [aggregateLoop, dif_neg h0]
      simp
    · rw [aggregateLoop, dif_pos h0]
      generalize hrc : min n b = rc
      obtain ⟨k, hk⟩ : ∃ k, n = rc + k := ⟨n - rc, by omega⟩
      have hrc0 : 0 < rc := by omega
      rw [hk] at hi ho
      obtain ⟨r1, hi1, hi2⟩ := decodeN_split _ _ _ _ _ _ hi
      obtain ⟨r2, ho1, ho2⟩ := decodeN_split _ _ _ _ _ _ ho
      have hrand : par.mapIdx r.length (fun i _ => rnd t i) r = (List.range r.length).map (rnd t) := by
        rw [Par.mapIdx_eq]
        apply List.ext_getElem?
        intro i
        simp only [List.getElem?_mapIdx, List.getElem?_map]
        by_cases hi : i < r.length
        · rw [List.getElem?_eq_getElem hi, List.getElem?_range hi]; rfl
        · rw [List.getElem?_eq_none (by omega), List.getElem?_eq_none (by simp; omega)]; rfl
      simp only [hrand]
      rw [Go.bind_ok (onInput_ok hi1)]
      rw [Go.bind_ok (msm_ok (rnd t) r.length rc _ (decodeN_length _ _ _ _ _ hi1) (by omega) _)]
      rw [Go.bind_ok (onOrigin_ok ho1)]
      rw [Go.bind_ok (msm_ok (rnd t) r.length rc _ (decodeN_length _ _ _ _ _ ho1) (by omega) _)]
      have hnk : n - rc = k := by omega
      rw [hnk]
      rw [ih k (by omega) (t + 1) _ _ _ _ _ _ _ _ _ (by simp; omega) hi2 ho2]
      rw [batch_split b t hb rnd ps rc (by omega), batch_split b t hb rnd qs rc (by omega)]
      rw [add_assoc, add_assoc]

theorem aggregate_ok (C : Curve F G1 G2 GT) (par : Par) (b : Nat) (hb : 0 < b) (rnd : Nat → Nat → F) (n : Nat)
    (ri ri' ro ro' : Rd) (ps qs : List G1)
    (hi : (C.c1.decodeN n).run ri = (.ok ps, ri')) (ho : (C.c1.decodeN n).run ro = (.ok qs, ro')) :
    (aggregate C par b rnd (n : Int)).run (ri, ro) = (.ok (batchSum b rnd ps, batchSum b rnd qs), (ri', ro')) := by
  unfold aggregate
  rw [Go.bind_ok (a := min n b) (by rw [makeLen_min]; rfl), Go.bind_ok (a := n) (by rw [makeLen_nat]; rfl)]
  rw [Int.toNat_natCast]
  rw [aggregateLoop_ok C par b hb rnd n 0 _ 0 0 _ _ _ _ _ _ (by simp) hi ho]
  simp [batchSum]

theorem verifyParameter_ok (C : Curve F G1 G2 GT) (par : Par) (b : Nat) (hb : 0 < b) (rnd : Nat → Nat → F) (n : Nat)
    (delta g : G2) (field : String)
    (ri ri' ro ro' : Rd) (ps qs : List G1)
    (hi : (C.c1.decodeN n).run ri = (.ok ps, ri')) (ho : (C.c1.decodeN n).run ro = (.ok qs, ro')) :
    (verifyParameter C par b rnd delta g (n : Int) field).run (ri, ro)
      = (check (C.sameRatio (batchSum b rnd ps) (batchSum b rnd qs) delta g) ("inconsistent update to " ++ field),
          (ri', ro')) := by
  unfold verifyParameter
  simp only [aggregate_ok C par b hb rnd n _ _ _ _ _ _ hi ho]

variable {C : Curve F G1 G2 GT} (hC : C.Lawful)
include hC

/-- `verifyContribution` decides whether the record is a proven update. -/
theorem verifyContribution2_iff (c : Contribution G1 G2) (d : G1) (h : Bytes) :
    Phase2.verifyContribution C c d h = .ok () ↔ ∃ x, Step2By C d h c x := by
  unfold Phase2.verifyContribution
  simp only [except_seq_ok, check_ok, knowledge_iff hC, decide_eq_true_iff, computeHash2_eq]
  constructor
  · rintro ⟨⟨x, hx⟩, h2, h3⟩
    rw [update1_iff hC hx] at h2
    exact ⟨x, hx.1, hx.2, h2, h3⟩
  · rintro ⟨x, hx⟩
    refine ⟨⟨x, hx.sx, hx.spx⟩, ?_, hx.hash⟩
    rw [update1_iff hC ⟨hx.sx, hx.spx⟩]
    exact hx.delta

/-- the record loop on arbitrary input -/
theorem verifyLoop2_sound (n : Nat) : ∀ (c0 : Contribution G1 G2) (d : G1) (h : Bytes) (r r' : Rd)
    (fin : Contribution G1 G2), (Phase2.verifyLoop C n c0 d h).run r = (.ok fin, r') →
    ∃ (rs : List (Contribution G1 G2)) (xs : List F), rs.length = n ∧ Chain2By C d h rs xs ∧ fin = rs.getLast?.getD c0 := by
  induction n with
  | zero =>
    intro c0 d h r r' fin hrun
    simp only [Phase2.verifyLoop, Go.pure_run, Prod.mk.injEq, Except.ok.injEq] at hrun
    exact ⟨[], [], rfl, trivial, by simp [hrun.1]⟩
  | succ n ih =>
    intro c0 d h r r' fin hrun
    unfold Phase2.verifyLoop at hrun
    obtain ⟨c, r1, _, hrun⟩ := Go.bind_eq_ok hrun
    obtain ⟨_, r2, h2, hrun⟩ := Go.bind_eq_ok hrun
    simp only [Go.lift_run, Prod.mk.injEq] at h2
    obtain ⟨x, hx⟩ := (verifyContribution2_iff hC c d h).mp h2.1
    obtain ⟨rs, xs, hl, hch, hfin⟩ := ih _ _ _ _ _ _ hrun
    refine ⟨c :: rs, x :: xs, by simp [hl], ⟨hx, hch⟩, ?_⟩
    rw [hfin, List.getLast?_cons]
    cases rs with
    | nil => simp
    | cons a rs => simp [List.getLast?_cons]

/-- the record loop on stored records, none of them across a buffer boundary -/
theorem verifyLoop2_iff (rs : List (Contribution G1 G2)) : ∀ (c0 : Contribution G1 G2) (d : G1) (h : Bytes)
    (cap pos : Nat) (ys : Bytes), (∀ r ∈ rs, r.hash.length = 32) → (∀ j < rs.length, Fits cap (pos + 192 * j + 160)) →
    ((∃ xs, Chain2By C d h rs xs) →
      (Phase2.verifyLoop C rs.length c0 d h).run ⟨cap, pos, rs.flatMap (record2Bytes C) ++ ys⟩
        = (.ok (rs.getLast?.getD c0), ⟨cap, pos + 192 * rs.length, ys⟩)) ∧
    ((∃ fin r', (Phase2.verifyLoop C rs.length c0 d h).run ⟨cap, pos, rs.flatMap (record2Bytes C) ++ ys⟩ = (.ok fin, r')) →
      ∃ xs, Chain2By C d h rs xs) := by
  induction rs with
  | nil =>
    intro c0 d h cap pos ys _ _
    exact ⟨fun _ => by simp [Phase2.verifyLoop], fun _ => ⟨[], trivial⟩⟩
  | cons r rs ih =>
    intro c0 d h cap pos ys hl hf
    have ih := ih r r.delta r.hash cap (pos + 192) ys (fun r' h => hl r' (by simp [h])) (fun j hj => by
      have := hf (j + 1) (by simpa using hj)
      rwa [show pos + 192 + 192 * j + 160 = pos + 192 * (j + 1) + 160 by ring])
    have hread := record2_read hC r cap pos (rs.flatMap (record2Bytes C) ++ ys) (hl r (by simp))
      (by simpa using hf 0 (by simp))
    simp only [List.length_cons, Phase2.verifyLoop, List.flatMap_cons, List.append_assoc]
    rw [Go.bind_ok hread]
    constructor
    · rintro ⟨xs, hxs⟩
      cases xs with
      | nil => exact hxs.elim
      | cons x xs =>
        rw [Go.bind_ok (a := ()) (s' := _)
          (by rw [Go.lift_run, (verifyContribution2_iff hC r d h).mpr ⟨x, hxs.1⟩])]
        rw [ih.1 ⟨xs, hxs.2⟩]
        simp only [Prod.mk.injEq, Except.ok.injEq, Rd.mk.injEq, and_true, true_and]
        refine ⟨?_, by ring⟩
        rw [List.getLast?_cons]
        cases rs with
        | nil => simp
        | cons a rs => simp [List.getLast?_cons]
    · rintro ⟨fin, r', hrun⟩
      obtain ⟨_, r2, h2, hrun⟩ := Go.bind_eq_ok hrun
      simp only [Go.lift_run, Prod.mk.injEq] at h2
      obtain ⟨x, hx⟩ := (verifyContribution2_iff hC r d h).mp h2.1
      obtain ⟨h2, rfl⟩ := h2
      obtain ⟨xs, hxs⟩ := ih.2 ⟨fin, r', hrun⟩
      exact ⟨x :: xs, hx, hxs⟩

omit hC in
theorem lift_check_bind {σ α : Type} (b : Bool) (m : String) (f : Unit → Go σ α) (s : σ) (v : α) :
    ((Go.lift (check b m) >>= f).run s).1 = .ok v ↔ b = true ∧ ((f ()).run s).1 = .ok v := by
  cases b with
  | true => rw [Go.bind_ok (a := ()) (s' := s) rfl]; simp
  | false => rw [Go.bind_error (e := .err m) (s' := s) rfl]; simp

omit hC in
/-- the verifier on files whose points can be decoded -/
theorem verifyBody_iff (H : HeaderCodec) (par : Par) (b : Nat) (hb : 0 < b) (vr : VerifyRand F)
    {ri0 ri1 ri2 ri3 ri4 ri5 ro0 ro1 ro2 ro3 ro4 ro5 : Rd} {hi ho : Header} {g1 d1 : G1} {g2 d2 : G2}
    {z z' k k' : List G1} {nz nk : Nat}
    (h1 : H.dec.run ri0 = (.ok hi, ri1)) (h2 : H.dec.run ro0 = (.ok ho, ro1))
    (h3 : C.c1.decode.run ro1 = (.ok g1, ro2)) (h4 : C.c2.decode.run ro2 = (.ok g2, ro3))
    (h5 : C.c1.decode.run ri1 = (.ok d1, ri2)) (h6 : C.c2.decode.run ri2 = (.ok d2, ri3))
    (hnz : wrap64 (hi.domain - 1) = (nz : Int)) (hnk : hi.witness = (nk : Int))
    (h7 : (C.c1.decodeN nz).run ri3 = (.ok z, ri4)) (h8 : (C.c1.decodeN nz).run ro3 = (.ok z', ro4))
    (h9 : (C.c1.decodeN nk).run ri4 = (.ok k, ri5)) (h10 : (C.c1.decodeN nk).run ro4 = (.ok k', ro5)) :
    ((verifyBody C H par b vr).run (ri0, ro0)).1 = .ok () ↔
      hi.contributions ≠ 0 ∧ hi.equal ho = true ∧ C.sameRatio g1 d1 d2 g2 = true ∧
      C.sameRatio (batchSum b vr.z z) (batchSum b vr.z z') d2 g2 = true ∧
      C.sameRatio (batchSum b vr.pkk k) (batchSum b vr.pkk k') d2 g2 = true ∧
      ∃ c r', (Phase2.verifyLoop C hi.contributions.toNat Contribution.zero g1 []).run ri5 = (.ok c, r') ∧
        c.delta = d1 := by
  unfold verifyBody Header.read
  rw [Go.bind_ok (onInput_ok h1), Go.bind_ok (onOrigin_ok h2), lift_check_bind, lift_check_bind, decide_eq_true_iff]
  refine and_congr Iff.rfl (and_congr Iff.rfl ?_)
  rw [Go.bind_ok (onOrigin_ok h3), Go.bind_ok (onOrigin_ok h4), Go.bind_ok (onInput_ok h5), Go.bind_ok (onInput_ok h6)]
  rw [lift_check_bind]
  refine and_congr Iff.rfl ?_
  rw [hnz, hnk]
  cases hz : C.sameRatio (batchSum b vr.z z) (batchSum b vr.z z') d2 g2 with
  | false =>
    rw [Go.bind_error (by rw [verifyParameter_ok C par b hb vr.z nz d2 g2 "Z" _ _ _ _ _ _ h7 h8, hz]; rfl)]
    simp
  | true =>
    rw [Go.bind_ok (by rw [verifyParameter_ok C par b hb vr.z nz d2 g2 "Z" _ _ _ _ _ _ h7 h8, hz]; rfl)]
    simp only [true_and]
    cases hk : C.sameRatio (batchSum b vr.pkk k) (batchSum b vr.pkk k') d2 g2 with
    | false =>
      rw [Go.bind_error (by rw [verifyParameter_ok C par b hb vr.pkk nk d2 g2 "PKK" _ _ _ _ _ _ h9 h10, hk]; rfl)]
      simp
    | true =>
      rw [Go.bind_ok (by rw [verifyParameter_ok C par b hb vr.pkk nk d2 g2 "PKK" _ _ _ _ _ _ h9 h10, hk]; rfl)]
      simp only [true_and]
      cases hl : (Phase2.verifyLoop C hi.contributions.toNat Contribution.zero g1 []).run ri5 with
      | mk res r' =>
        cases res with
        | error e =>
          rw [Go.bind_error (onInput_error hl)]
          simp
        | ok c =>
          rw [Go.bind_ok (onInput_ok hl)]
          simp only [Go.lift_run, check_ok, decide_eq_true_iff, Prod.mk.injEq, Except.ok.injEq]
          constructor
          · intro h; exact ⟨c, r', ⟨rfl, rfl⟩, h⟩
          · rintro ⟨c', r'', ⟨rfl, rfl⟩, h⟩; exact h

variable {H : HeaderCodec} (hH : H.Lawful)
include hH

omit hH hC in
theorem header_equal_iff (f o : P2File G1 G2) : f.header.equal o.header = true ↔ P2File.SameShape f o := by
  rw [Header.equal, decide_eq_true_iff]
  unfold P2File.SameShape P2File.header
  simp only [Int.natCast_inj]

/-- the readers of a structured file, section by section -/
theorem P2File.readers {f : P2File G1 G2} (hf : f.WF) (cap : Nat) (ys : Bytes) :
    ∃ r1 r2 r3 r4,
      H.dec.run (Rd.buffered cap (f.encode C H ++ ys)) = (.ok f.header, r1) ∧
      C.c1.decode.run r1 = (.ok f.delta1, r2) ∧ C.c2.decode.run r2 = (.ok f.delta2, r3) ∧
      (C.c1.decodeN f.z.length).run r3 = (.ok f.z, r4) ∧
      (C.c1.decodeN f.pkk.length).run r4 = (.ok f.pkk,
        ⟨cap, (H.enc f.header).length + 32 + 64 + 32 * f.z.length + 32 * f.pkk.length,
          f.records.flatMap (record2Bytes C) ++ ys⟩) := by
  have h := P2File.header_read hC hH hf cap ys
  unfold P2File.params at h
  simp only [List.append_assoc] at h
  refine ⟨_, _, _, _, h, Codec.decode_bytes hC.codec1 _ _ _ _, Codec.decode_bytes hC.codec2 _ _ _ _,
    Codec.decodeN_encodeN hC.codec1 _ _ _ _, ?_⟩
  have := Codec.decodeN_encodeN hC.codec1 cap
    ((H.enc f.header).length + 32 + 64 + 32 * f.z.length) f.pkk (f.records.flatMap (record2Bytes C) ++ ys)
  rw [hC.size1] at this
  rw [hC.size1, hC.size2]
  exact this

/-- What acceptance of a structured file means. -/
theorem verify2_iff (par : Par) (b : Nat) (hb : 0 < b) (vr : VerifyRand F) (f o : P2File G1 G2) (hf : f.WF) (ho : o.WF)
    (hs : f.NoStraddle H) (ys ys' : Bytes) :
    Phase2.verify C H par b vr (f.encode C H ++ ys) (o.encode C H ++ ys') = .ok () ↔
      f.records ≠ [] ∧ P2File.SameShape f o ∧ C.e o.delta1 f.delta2 = C.e f.delta1 o.delta2 ∧
      C.e (batchSum b vr.z f.z) f.delta2 = C.e (batchSum b vr.z o.z) o.delta2 ∧
      C.e (batchSum b vr.pkk f.pkk) f.delta2 = C.e (batchSum b vr.pkk o.pkk) o.delta2 ∧
      (∃ xs, Chain2By C o.delta1 [] f.records xs) ∧ (∀ r, f.records.getLast? = some r → r.delta = f.delta1) := by
  obtain ⟨r1, r2, r3, r4, h1, h2, h3, h4, h5⟩ := P2File.readers hC hH hf 4096 ys
  obtain ⟨q1, q2, q3, q4, k1, k2, k3, k4, k5⟩ := P2File.readers hC hH ho 4096 ys'
  by_cases hsh : P2File.SameShape f o
  · have hzl : o.z.length = f.z.length := by rw [hf.z, ho.z, hsh.2.2.2.2.2]
    have hkl : o.pkk.length = f.pkk.length := by rw [hf.pkk, ho.pkk, hsh.2.1]
    rw [hzl] at k4
    rw [hkl] at k5
    have hw3 : wrap64 (f.header.domain - 1) = (f.z.length : Int) := by
      have := hf.z
      have := hf.domain
      have := hf.domain_pos
      clear hs
      rw [wrap64_eq] <;> simp only [P2File.header] <;> omega
    have hw4 : f.header.witness = (f.pkk.length : Int) := by
      simp [P2File.header, hf.pkk]
    have hn : f.header.contributions.toNat = f.records.length := by simp [P2File.header]
    unfold Phase2.verify
    rw [verifyBody_iff H par b hb vr h1 k1 k2 k3 h2 h3 hw3 hw4 h4 k4 h5 k5]
    simp only [sameRatio_iff hC, header_equal_iff, hn]
    have hloop := verifyLoop2_iff hC f.records Contribution.zero o.delta1 [] 4096
      ((H.enc f.header).length + 32 + 64 + 32 * f.z.length + 32 * f.pkk.length) ys hf.hash (fun j hj => .inr (hs j hj))
    have hne : f.header.contributions ≠ 0 ↔ f.records ≠ [] := by
      simp [P2File.header]
    rw [hne]
    refine and_congr_right fun hrec => and_congr Iff.rfl (and_congr Iff.rfl (and_congr Iff.rfl (and_congr Iff.rfl ?_)))
    constructor
    · rintro ⟨c, r', hrun, hc⟩
      have hch := hloop.2 ⟨c, r', hrun⟩
      refine ⟨hch, ?_⟩
      have := hloop.1 hch
      rw [this] at hrun
      simp only [Prod.mk.injEq, Except.ok.injEq] at hrun
      intro r hr
      rw [hr] at hrun
      rw [← hc, ← hrun.1]; rfl
    · rintro ⟨hch, hlast⟩
      refine ⟨_, _, hloop.1 hch, ?_⟩
      obtain ⟨r, hr⟩ : ∃ r, f.records.getLast? = some r := by
        cases h : f.records.getLast? with
        | none => exact absurd (by simpa using h) hrec
        | some r => exact ⟨r, rfl⟩
      rw [hr]
      exact hlast r hr
  · constructor
    · intro h
      exfalso
      apply hsh
      unfold Phase2.verify verifyBody Header.read at h
      rw [Go.bind_ok (onInput_ok h1), Go.bind_ok (onOrigin_ok k1), lift_check_bind, lift_check_bind] at h
      exact (header_equal_iff f o).mp h.2.1
    · rintro ⟨_, h, _⟩; exact absurd h hsh

end
end ZkSetup
