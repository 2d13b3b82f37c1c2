import Verif.Spec.AnyVerify
import Verif.Proofs.Accepted
import Verif.Proofs.Panic
import Verif.Proofs.AnyInput
/-
`phase2.Verify` on any bytes, exactly.
-/
set_option linter.unusedSectionVars false

namespace ZkSetup

open Phase1 (wrap64 makeLen multiExp check)
open Phase2

/-! ### reading points -/

/-- asked for `n` points, a reader yields all of them or stops -/
theorem decodes_or_stops {G : Type} (c : Codec G) (n : Nat) : ∀ r, (∃ ps r', (c.decodeN n).run r = (.ok ps, r')) ∨ ∃ i r', StopsAt c n r i r' := by
  induction n with
  | zero => intro r; exact .inl ⟨[], r, rfl⟩
  | succ n ih =>
    intro r
    cases h : c.decode.run r with
    | mk res r1 =>
      cases res with
      | error e => exact .inr ⟨0, r1, by omega, [], r, e, rfl, h⟩
      | ok p =>
        rcases ih r1 with ⟨ps, r', h'⟩ | ⟨i, r', hi, ps, rm, e, h1, h2⟩
        · refine .inl ⟨p :: ps, r', ?_⟩
          unfold Codec.decodeN
          rw [Go.bind_ok h, Go.bind_ok h']
          rfl
        · refine .inr ⟨i + 1, r', by omega, p :: ps, rm, e, ?_, h2⟩
          unfold Codec.decodeN
          rw [Go.bind_ok h, Go.bind_ok h1]
          rfl

/-- how the loop over `n` points ends when the reader stops -/
theorem StopsAt.run {G : Type} {c : Codec G} (n : Nat) : ∀ {r r' : Rd} {i : Nat}, StopsAt c n r i r' → ∃ m, (c.decodeN n).run r = (.error (.err m), r') := by
  induction n with
  | zero => rintro r r' i ⟨h, -⟩; omega
  | succ n ih =>
    rintro r r' i ⟨hi, ps, rm, e, h1, h2⟩
    unfold Codec.decodeN
    cases i with
    | zero =>
      simp only [Codec.decodeN, Go.pure_run, Prod.mk.injEq, Except.ok.injEq] at h1
      obtain ⟨-, rfl⟩ := h1
      have hp := c.decode_noPanic.run r
      rw [h2] at hp
      cases e with
      | err m => exact ⟨m, Go.bind_error h2⟩
      | panic m => exact (hp ⟨m, rfl⟩).elim
    | succ i =>
      unfold Codec.decodeN at h1
      obtain ⟨p, r1, e1, h1⟩ := Go.bind_eq_ok h1
      obtain ⟨qs, r2, e2, h1⟩ := Go.bind_eq_ok h1
      simp only [Go.pure_run, Prod.mk.injEq] at h1
      obtain ⟨-, rfl⟩ := h1
      obtain ⟨m, hm⟩ := ih ⟨by omega, qs, r2, e, e2, h2⟩
      exact ⟨m, by rw [Go.bind_ok e1, Go.bind_error hm]⟩

/-- the first `m` points are read, the reader stops among the others -/
theorem StopsAt.split {G : Type} {c : Codec G} {n i m : Nat} {r r' : Rd} (h : StopsAt c n r i r') (hm : m ≤ i) :
    ∃ ps r1, (c.decodeN m).run r = (.ok ps, r1) ∧ StopsAt c (n - m) r1 (i - m) r' := by
  obtain ⟨hi, ps, rm, e, h1, h2⟩ := h
  obtain ⟨k, rfl⟩ : ∃ k, i = m + k := ⟨i - m, by omega⟩
  obtain ⟨r1, k1, k2⟩ := decodeN_split _ _ _ _ _ _ h1
  exact ⟨_, r1, k1, by omega, _, rm, e, by rw [show m + k - m = k by omega]; exact k2, h2⟩

/-- the reader stops among the first `m` points already -/
theorem StopsAt.shorten {G : Type} {c : Codec G} {n i m : Nat} {r r' : Rd} (h : StopsAt c n r i r') (hm : i < m) : StopsAt c m r i r' :=
  ⟨hm, h.2⟩

section
variable {F G1 G2 GT : Type} [Field F] [AddCommGroup G1] [Module F G1] [AddCommGroup G2]
  [Module F G2] [AddCommGroup GT] [Module F GT] [DecidableEq G1] [DecidableEq G2] [DecidableEq GT]

/-! ### the comparison -/

theorem onInput_err {α : Type} {x : Go Rd α} {s : Rd × Rd} {e : Fail} {r : Rd} (h : x.run s.1 = (.error e, r)) :
    (onInput x).run s = (.error e, (r, s.2)) := by
  unfold onInput
  simp only [h]

theorem aggregateLoop_stop (C : Curve F G1 G2 GT) (par : Par) (b : Nat) (hb : 0 < b) (rnd : Nat → Nat → F) (n : Nat) :
    ∀ (t : Nat) (r : List F) (inG orG : G1) (ri ri' ro ro' : Rd) (i : Nat) (qs : List G1), n ≤ r.length →
    StopsAt C.c1 n ri i ri' → (C.c1.decodeN (b * (i / b))).run ro = (.ok qs, ro') →
    ∃ m, (aggregateLoop C par b rnd n t r inG orG).run (ri, ro) = (.error (.err m), (ri', ro')) := by
  induction n using Nat.strong_induction_on with
  | _ n ih =>
    intro t r inG orG ri ri' ro ro' i qs hr hi ho
    have hin := hi.1
    rw [aggregateLoop, dif_pos ⟨by omega, hb⟩]
    generalize hrc : min n b = rc
    by_cases hlt : i < rc
    · obtain ⟨m, hm⟩ := StopsAt.run rc (hi.shorten hlt)
      rw [Nat.div_eq_of_lt (by omega), Nat.mul_zero] at ho
      simp only [Codec.decodeN, Go.pure_run, Prod.mk.injEq, Except.ok.injEq] at ho
      obtain ⟨-, rfl⟩ := ho
      exact ⟨m, Go.bind_error (onInput_err hm)⟩
    · have : rc = b := by omega
      subst this
      obtain ⟨ps, r1, hi1, hi2⟩ := hi.split (m := rc) (by omega)
      have hd : rc * (i / rc) = rc + rc * ((i - rc) / rc) := by
        obtain ⟨k, rfl⟩ : ∃ k, i = rc + k := ⟨i - rc, by omega⟩
        rw [Nat.add_div_left _ hb, Nat.add_sub_cancel_left, Nat.mul_succ, Nat.add_comm]
      rw [hd] at ho
      obtain ⟨r2, ho1, ho2⟩ := decodeN_split _ _ _ _ _ _ ho
      have hrand : par.mapIdx r.length (fun i _ => rnd t i) r = (List.range r.length).map (rnd t) := by
        rw [Par.mapIdx_eq]
        apply List.ext_getElem?
        intro i
        simp only [List.getElem?_mapIdx, List.getElem?_map]
        by_cases hi : i < r.length
        · rw [List.getElem?_eq_getElem hi, List.getElem?_range hi]; rfl
        · rw [List.getElem?_eq_none (by omega), List.getElem?_eq_none (by simp; omega)]; rfl
      simp only [hrand]
      rw [Go.bind_ok (onInput_ok hi1)]
      rw [Go.bind_ok (msm_ok (rnd t) r.length rc _ (decodeN_length _ _ _ _ _ hi1) (by omega) _)]
      rw [Go.bind_ok (onOrigin_ok ho1)]
      rw [Go.bind_ok (msm_ok (rnd t) r.length rc _ (decodeN_length _ _ _ _ _ ho1) (by omega) _)]
      exact ih (n - rc) (by omega) (t + 1) _ _ _ _ _ _ _ _ _ (by simp; omega) hi2 ho2

theorem verifyParameter_stop (C : Curve F G1 G2 GT) (par : Par) (b : Nat) (hb : 0 < b) (rnd : Nat → Nat → F) (n : Nat)
    (delta g : G2) (field : String) (ri ri' ro ro' : Rd) (i : Nat) (qs : List G1)
    (hi : StopsAt C.c1 n ri i ri') (ho : (C.c1.decodeN (b * (i / b))).run ro = (.ok qs, ro')) :
    (verifyParameter C par b rnd delta g (n : Int) field).run (ri, ro) = (.ok (), (ri', ro')) := by
  unfold verifyParameter
  have : ∃ m, (aggregate C par b rnd (n : Int)).run (ri, ro) = (.error (.err m), (ri', ro')) := by
    unfold aggregate
    rw [Go.bind_ok (a := min n b) (by rw [makeLen_min]; rfl), Go.bind_ok (a := n) (by rw [makeLen_nat]; rfl)]
    rw [Int.toNat_natCast]
    exact aggregateLoop_stop C par b hb rnd n 0 _ 0 0 _ _ _ _ _ _ (by simp) hi ho
  obtain ⟨m, hm⟩ := this
  simp only [hm]

variable {C : Curve F G1 G2 GT} (hC : C.Lawful)
include hC

/-- a comparison succeeds exactly in the cases of `Compared` -/
theorem verifyParameter_iff (par : Par) (b : Nat) (hb : 0 < b) (rnd : Nat → Nat → F) (n : Nat) (d g : G2) (field : String)
    (ri ro : Rd) (qs : List G1) (ro1 : Rd) (hn : n ≤ qs.length) (ho : (C.c1.decodeN qs.length).run ro = (.ok qs, ro1)) (s' : Rd × Rd) :
    (verifyParameter C par b rnd d g (n : Int) field).run (ri, ro) = (.ok (), s') ↔
      ∃ k, k ≤ n ∧ Compared C b rnd d g n ri qs s'.1 k ∧ (C.c1.decodeN k).run ro = (.ok (qs.take k), s'.2) := by
  have hk : ∀ k, k ≤ n → ∃ r, (C.c1.decodeN k).run ro = (.ok (qs.take k), r) ∧ (C.c1.decodeN (qs.length - k)).run r = (.ok (qs.drop k), ro1) := by
    intro k hk
    have := ho
    rw [show qs.length = k + (qs.length - k) by omega] at this
    exact decodeN_split _ _ _ _ _ _ this
  constructor
  · intro h
    rcases decodes_or_stops C.c1 n ri with ⟨ps, r', h'⟩ | ⟨i, r', h'⟩
    · obtain ⟨r, h1, -⟩ := hk n le_rfl
      rw [verifyParameter_ok C par b hb rnd n d g field _ _ _ _ _ _ h' h1, Prod.mk.injEq, check_ok, sameRatio_iff hC] at h
      obtain ⟨h2, rfl⟩ := h
      exact ⟨n, le_rfl, .all ps r' h' h2, h1⟩
    · have hle : b * (i / b) ≤ n := (Nat.mul_div_le i b).trans h'.1.le
      obtain ⟨r, h1, -⟩ := hk _ hle
      rw [verifyParameter_stop C par b hb rnd n d g field _ _ _ _ _ _ h' h1, Prod.mk.injEq] at h
      obtain ⟨-, rfl⟩ := h
      exact ⟨_, hle, .stop i r' h', h1⟩
  · obtain ⟨s1, s2⟩ := s'
    rintro ⟨k, hkn, hcmp, h1⟩
    simp only at hcmp h1
    cases hcmp with
    | all ps r' h' h2 =>
      rw [verifyParameter_ok C par b hb rnd n d g field _ _ _ _ _ _ h' h1, Prod.mk.injEq, check_ok, sameRatio_iff hC]
      exact ⟨h2, rfl⟩
    | stop i r' h' => exact verifyParameter_stop C par b hb rnd n d g field _ _ _ _ _ _ h' h1

/-! ### the records -/

omit hC in
theorem recordFrom_iff (r r' : Rd) (c : Contribution G1 G2) : (Contribution.readFrom C).run r = (.ok c, r') ↔ RecordFrom C r c r' := by
  constructor
  · intro h
    unfold Contribution.readFrom at h
    obtain ⟨d, r1, e1, h⟩ := Go.bind_eq_ok h
    obtain ⟨s, r2, e2, h⟩ := Go.bind_eq_ok h
    obtain ⟨sx, r3, e3, h⟩ := Go.bind_eq_ok h
    obtain ⟨spx, r4, e4, h⟩ := Go.bind_eq_ok h
    obtain ⟨hash, r5, e5, h⟩ := Go.bind_eq_ok h
    simp only [Go.pure_run, Prod.mk.injEq, Except.ok.injEq] at h
    obtain ⟨rfl, rfl⟩ := h
    unfold readHash at e5
    obtain ⟨hb, r6, e6, e5⟩ := Go.bind_eq_ok e5
    simp only [Go.pure_run, Prod.mk.injEq, Except.ok.injEq] at e5
    obtain ⟨rfl, rfl⟩ := e5
    unfold Rd.read at e6
    simp only at e6
    split at e6
    · simp at e6
    · rename_i hne
      simp only [Prod.mk.injEq, Except.ok.injEq] at e6
      obtain ⟨rfl, rfl⟩ := e6
      refine ⟨r1, r2, r3, r4, e1, e2, e3, e4, by simpa using hne, _, rfl, ?_, rfl⟩
      simp only [List.length_take, Rd.block]
  · rintro ⟨r1, r2, r3, r4, e1, e2, e3, e4, hne, n, rfl, hh, rfl⟩
    unfold Contribution.readFrom
    rw [Go.bind_ok e1, Go.bind_ok e2, Go.bind_ok e3, Go.bind_ok e4]
    unfold readHash Rd.read
    have : r4.rest.isEmpty = false := by simpa using hne
    obtain ⟨cd, ⟨c1, c2, c3⟩, ch⟩ := c
    simp only [Go.bind_run, this, Bool.false_eq_true, if_false, Go.pure_run, Rd.adv, List.length_take, Rd.block]
    simp only at hh
    rw [hh]

omit hC in
theorem recordsFrom_iff (rs : List (Contribution G1 G2)) : ∀ r, RecordsAt C r rs ↔ RecordsFrom C r rs := by
  induction rs with
  | nil => intro r; rfl
  | cons c rs ih =>
    intro r
    simp only [RecordsAt, RecordsFrom, recordFrom_iff, ih]

/-- a record is determined by the reader -/
theorem recordsFrom_unique (rs : List (Contribution G1 G2)) : ∀ (rs' : List (Contribution G1 G2)) r, RecordsFrom C r rs → RecordsFrom C r rs' →
    rs.length = rs'.length → rs = rs' := by
  induction rs with
  | nil => intro rs' r _ _ hl; exact (List.length_eq_zero_iff.mp hl.symm).symm
  | cons c rs ih =>
    intro rs' r h h' hl
    cases rs' with
    | nil => cases hl
    | cons c' rs' =>
      obtain ⟨r1, h1, h2⟩ := h
      obtain ⟨r1', h1', h2'⟩ := h'
      rw [← recordFrom_iff] at h1 h1'
      rw [h1, Prod.mk.injEq, Except.ok.injEq] at h1'
      obtain ⟨rfl, rfl⟩ := h1'
      rw [ih rs' r1 h2 h2' (by simpa using hl)]

/-- the loop over the records, exactly -/
theorem verifyLoop2_exact (n : Nat) (c0 : Contribution G1 G2) (d : G1) (h : Bytes) (r : Rd) (fin : Contribution G1 G2) :
    (∃ r', (Phase2.verifyLoop C n c0 d h).run r = (.ok fin, r')) ↔
      ∃ rs, RecordsFrom C r rs ∧ rs.length = n ∧ (∃ xs, Chain2By C d h rs xs) ∧ fin = rs.getLast?.getD c0 := by
  constructor
  · rintro ⟨r', hr⟩
    obtain ⟨rs, xs, hl, hrec, hch, hfin⟩ := verifyLoop2_records hC n _ _ _ _ _ _ hr
    exact ⟨rs, (recordsFrom_iff _ _).mp hrec, hl, ⟨xs, hch⟩, hfin⟩
  · rintro ⟨rs, hrec, hl, ⟨xs, hch⟩, hfin⟩
    rw [← recordsFrom_iff] at hrec
    induction n generalizing c0 d h r rs xs with
    | zero =>
      obtain rfl := List.length_eq_zero_iff.mp hl
      exact ⟨r, by rw [hfin]; rfl⟩
    | succ n ih =>
      cases rs with
      | nil => cases hl
      | cons c rs =>
        cases xs with
        | nil => exact hch.elim
        | cons x xs =>
          obtain ⟨r1, h1, h2⟩ := hrec
          obtain ⟨k1, k2⟩ := hch
          unfold Phase2.verifyLoop
          rw [Go.bind_ok h1, Go.bind_ok (by rw [Go.lift_run, (verifyContribution2_iff hC c d h).mpr ⟨x, k1⟩])]
          refine ih _ _ _ _ rs h2 (by simpa using hl) ?_ xs k2
          rw [hfin, List.getLast?_cons]
          cases rs with
          | nil => simp
          | cons a rs => simp [List.getLast?_cons]

/-! ### the verification -/

variable {H : HeaderCodec} (hH : H.Lawful)
include hH

theorem verify2_exact (par : Par) (b : Nat) (hb : 0 < b) (vr : VerifyRand F) (input : Bytes) (o : P2File G1 G2) (ho : o.WF) (junk : Bytes) :
    Phase2.verify C H par b vr input (o.encode C H ++ junk) = .ok () ↔ ∃ h d1 d2 rs, AcceptedWith C H b vr input o h d1 d2 rs := by
  obtain ⟨q1, q2, q3, q4, k1, k2, k3, k4, k5⟩ := P2File.readers hC hH ho 4096 junk
  have hall := decodeN_join _ _ _ _ _ _ _ _ k4 k5
  rw [← List.length_append] at hall
  have hdp := ho.domain_pos
  have hd64 := ho.domain
  have hz := ho.z
  have hpk := ho.pkk
  have hwz : wrap64 ((o.domain : Int) - 1) = ((o.domain - 1 : Nat) : Int) := by
    rw [wrap64_eq] <;> omega
  have hrest : ∀ k, k ≤ o.domain - 1 → ∀ r, (C.c1.decodeN k).run q3 = (.ok ((o.z ++ o.pkk).take k), r) →
      ∃ r', (C.c1.decodeN ((o.z ++ o.pkk).drop k).length).run r = (.ok ((o.z ++ o.pkk).drop k), r') := by
    intro k hk r hr
    have h := hall
    rw [show (o.z ++ o.pkk).length = k + ((o.z ++ o.pkk).drop k).length by simp; omega] at h
    obtain ⟨r1, h1, h2⟩ := decodeN_split _ _ _ _ _ _ h
    rw [hr, Prod.mk.injEq] at h1
    exact ⟨_, by rw [h1.2]; exact h2⟩
  unfold Phase2.verify
  constructor
  · intro h
    obtain ⟨s, h⟩ : ∃ s, (verifyBody C H par b vr).run (Rd.buffered 4096 input, Rd.buffered 4096 (o.encode C H ++ junk)) = (.ok (), s) :=
      ⟨_, Prod.ext h rfl⟩
    unfold verifyBody Header.read at h
    obtain ⟨hi, s1, e1, h⟩ := Go.bind_eq_ok h
    obtain ⟨f1, g1⟩ := onInput_eq_ok e1
    obtain ⟨s1a, s1b⟩ := s1
    simp only at f1 g1
    subst g1
    rw [Go.bind_ok (onOrigin_ok k1)] at h
    obtain ⟨_, s3, e3, h⟩ := Go.bind_eq_ok h
    obtain ⟨f3, rfl⟩ := lift_check_eq_ok e3
    obtain ⟨_, s4, e4, h⟩ := Go.bind_eq_ok h
    obtain ⟨f4, rfl⟩ := lift_check_eq_ok e4
    rw [Go.bind_ok (onOrigin_ok k2), Go.bind_ok (onOrigin_ok k3)] at h
    obtain ⟨d1, ⟨s7, t7⟩, e7, h⟩ := Go.bind_eq_ok h
    obtain ⟨f7, g7⟩ := onInput_eq_ok e7
    simp only at f7 g7
    have g7 := g7.symm
    subst g7
    obtain ⟨d2, ⟨s8, t8⟩, e8, h⟩ := Go.bind_eq_ok h
    obtain ⟨f8, g8⟩ := onInput_eq_ok e8
    simp only at f8 g8
    have g8 := g8.symm
    subst g8
    obtain ⟨_, s9, e9, h⟩ := Go.bind_eq_ok h
    obtain ⟨f9, rfl⟩ := lift_check_eq_ok e9
    rw [sameRatio_iff hC] at f9
    obtain ⟨_, ⟨s10, t10⟩, e10, h⟩ := Go.bind_eq_ok h
    obtain ⟨_, ⟨s11, t11⟩, e11, h⟩ := Go.bind_eq_ok h
    obtain ⟨c, ⟨s12, t12⟩, e12, h⟩ := Go.bind_eq_ok h
    obtain ⟨f12, g12⟩ := onInput_eq_ok e12
    simp only at f12 g12
    have g12 := g12.symm
    subst g12
    obtain ⟨f13, -⟩ := lift_check_eq_ok h
    simp only [Header.equal, decide_eq_true_eq] at f3 f4 f13
    obtain ⟨w1, w2, w3, w4, w5, w6⟩ := f4
    have hw6 : hi.domain = (o.domain : Int) := w6
    have hw2 : hi.witness = (o.witness : Int) := w2
    rw [hw6, hwz] at e10
    rw [hw2] at e11
    rw [verifyParameter_iff hC par b hb vr.z _ _ _ _ _ _ (o.z ++ o.pkk) _ (by simp; omega) hall] at e10
    obtain ⟨k, hk, hcz, hoz⟩ := e10
    obtain ⟨r', hr'⟩ := hrest k hk _ hoz
    rw [verifyParameter_iff hC par b hb vr.pkk _ _ _ _ _ _ _ _ (by simp; omega) hr'] at e11
    obtain ⟨k', hk', hck, -⟩ := e11
    obtain ⟨rs, hrec, hl, hch, hfin⟩ := (verifyLoop2_exact hC _ _ _ _ _ _).mp ⟨_, f12⟩
    refine ⟨hi, d1, d2, rs, _, _, _, _, _, k, k', f1, f7, f8, f3, ?_, f9, hcz, hck, hrec, hl, hch, ?_⟩
    · obtain ⟨a1, a2, a3, a4, a5, a6, a7⟩ := hi
      simp only at w1 w2 w3 w4 w5 w6
      simp only [w1, w2, w3, w4, w5, w6]
    · rw [← f13, hfin]
      cases rs.getLast? <;> rfl
  · rintro ⟨hi, d1, d2, rs, r1, r2, r3, r4, r5, k, k', e1, e7, e8, f3, f4, f9, hcz, hck, hrec, hl, hch, hfin⟩
    have hw6 : hi.domain = (o.domain : Int) := by rw [f4]; rfl
    have hw2 : hi.witness = (o.witness : Int) := by rw [f4]; rfl
    have hkz : k ≤ o.domain - 1 := by
      cases hcz with
      | all => exact le_rfl
      | stop i r' h' => exact (Nat.mul_div_le i b).trans h'.1.le
    have hkk : k' ≤ o.witness := by
      cases hck with
      | all => exact le_rfl
      | stop i r' h' => exact (Nat.mul_div_le i b).trans h'.1.le
    have heq : hi.equal o.header = true := by
      rw [f4]; simp [Header.equal]
    have htake : ∀ (l : List G1) (r r' : Rd), (C.c1.decodeN l.length).run r = (.ok l, r') → ∀ j, j ≤ l.length →
        ∃ r'', (C.c1.decodeN j).run r = (.ok (l.take j), r'') := by
      intro l r r' h j hj
      rw [show l.length = j + (l.length - j) by omega] at h
      obtain ⟨r1, h1, -⟩ := decodeN_split _ _ _ _ _ _ h
      exact ⟨r1, h1⟩
    obtain ⟨t10, ht10⟩ := htake _ _ _ hall k (by simp; omega)
    obtain ⟨r', hr'⟩ := hrest k hkz _ ht10
    obtain ⟨t11, ht11⟩ := htake _ _ _ hr' k' (by simp; omega)
    obtain ⟨r6, hrun⟩ := (verifyLoop2_exact hC hi.contributions.toNat Contribution.zero o.delta1 [] r5 _).mpr ⟨rs, hrec, hl, hch, rfl⟩
    have e10 := (verifyParameter_iff hC par b hb vr.z (o.domain - 1) d2 o.delta2 "Z" r3 q3 (o.z ++ o.pkk) _ (by simp; omega) hall (r4, t10)).mpr
      ⟨k, hkz, hcz, ht10⟩
    have e11 := (verifyParameter_iff hC par b hb vr.pkk o.witness d2 o.delta2 "PKK" r4 t10 _ _ (by simp; omega) hr' (r5, t11)).mpr
      ⟨k', hkk, hck, ht11⟩
    unfold verifyBody Header.read
    rw [Go.bind_ok (onInput_ok e1), Go.bind_ok (onOrigin_ok k1), lift_check_bind, lift_check_bind, decide_eq_true_iff]
    refine ⟨f3, heq, ?_⟩
    rw [Go.bind_ok (onOrigin_ok k2), Go.bind_ok (onOrigin_ok k3), Go.bind_ok (onInput_ok e7), Go.bind_ok (onInput_ok e8)]
    rw [lift_check_bind, sameRatio_iff hC]
    refine ⟨f9, ?_⟩
    rw [hw6, hwz, hw2, Go.bind_ok e10, Go.bind_ok e11, Go.bind_ok (onInput_ok hrun)]
    simp only [Go.lift_run, check_ok, decide_eq_true_iff]
    rw [← hfin]
    cases rs.getLast? <;> rfl

omit hC hH in
theorem Compared.reader {b : Nat} {rnd : Nat → Nat → F} {d g : G2} {n : Nat} {r r' : Rd} {qs : List G1} {k : Nat}
    (h : Compared C b rnd d g n r qs r' k) : r' = ((C.c1.decodeN n).run r).2 := by
  cases h with
  | all ps r' h' _ => rw [h']
  | stop i r' h' => obtain ⟨m, hm⟩ := StopsAt.run n h'; rw [hm]

omit hC hH in
theorem RecordsPlace.unique {input : Bytes} {h h' : Header} {d1 d1' : G1} {d2 d2' : G2} {rd rd' : Rd}
    (p : RecordsPlace C H input h d1 d2 rd) (p' : RecordsPlace C H input h' d1' d2' rd') : h = h' ∧ d1 = d1' ∧ d2 = d2' ∧ rd = rd' := by
  obtain ⟨r1, r2, r3, a1, a2, a3, a4⟩ := p
  obtain ⟨r1', r2', r3', b1, b2, b3, b4⟩ := p'
  rw [a1, Prod.mk.injEq, Except.ok.injEq] at b1
  obtain ⟨rfl, rfl⟩ := b1
  rw [a2, Prod.mk.injEq, Except.ok.injEq] at b2
  obtain ⟨rfl, rfl⟩ := b2
  rw [a3, Prod.mk.injEq, Except.ok.injEq] at b3
  obtain ⟨rfl, rfl⟩ := b3
  exact ⟨rfl, rfl, rfl, a4.trans b4.symm⟩

omit hC hH in
/-- the records of accepted bytes are where the bytes say -/
theorem AcceptedWith.place {b : Nat} {vr : VerifyRand F} {input : Bytes} {o : P2File G1 G2} {h : Header} {d1 : G1} {d2 : G2}
    {rs : List (Contribution G1 G2)} (ha : AcceptedWith C H b vr input o h d1 d2 rs) :
    ∃ rd, RecordsPlace C H input h d1 d2 rd ∧ RecordsFrom C rd rs ∧ rs.length = h.contributions.toNat := by
  obtain ⟨r1, r2, r3, r4, r5, k, k', e1, e2, e3, -, hh, -, c1, c2, hrec, hl, -⟩ := ha
  refine ⟨r5, ⟨r1, r2, r3, e1, e2, e3, ?_⟩, hrec, hl⟩
  rw [c2.reader, c1.reader, hh]
  simp only [P2File.header, Int.toNat_natCast]
  rw [show ((o.domain : Int) - 1).toNat = o.domain - 1 by omega]

omit hH in
/-- header, `[δ]1`, `[δ]2` and records of accepted bytes depend on the bytes only -/
theorem AcceptedWith.unique {b b' : Nat} {vr vr' : VerifyRand F} {input : Bytes} {o o' : P2File G1 G2} {h h' : Header} {d1 d1' : G1}
    {d2 d2' : G2} {rs rs' : List (Contribution G1 G2)} (ha : AcceptedWith C H b vr input o h d1 d2 rs)
    (ha' : AcceptedWith C H b' vr' input o' h' d1' d2' rs') : h = h' ∧ d1 = d1' ∧ d2 = d2' ∧ rs = rs' := by
  obtain ⟨rd, p, hr, hl⟩ := ha.place
  obtain ⟨rd', p', hr', hl'⟩ := ha'.place
  obtain ⟨rfl, rfl, rfl, rfl⟩ := p.unique p'
  exact ⟨rfl, rfl, rfl, recordsFrom_unique hC _ _ _ hr hr' (hl.trans hl'.symm)⟩

omit hC hH in
theorem readable_of_all (rs : List (Contribution G1 G2)) : ∀ r, RecordsFrom C r rs → ReadableRecords C rs.length r rs := by
  induction rs with
  | nil => intro r _; rfl
  | cons c rs ih =>
    rintro r ⟨r', h1, h2⟩
    exact ⟨r', h1, ih r' h2⟩

omit hC hH in
theorem RecordFrom.unique {r r' r'' : Rd} {c c' : Contribution G1 G2} (h : RecordFrom C r c r') (h' : RecordFrom C r c' r'') : c = c' ∧ r' = r'' := by
  rw [← recordFrom_iff] at h h'
  rw [h, Prod.mk.injEq, Except.ok.injEq] at h'
  exact h'

omit hC hH in
theorem readable_unique (n : Nat) : ∀ (rs rs' : List (Contribution G1 G2)) r, ReadableRecords C n r rs → ReadableRecords C n r rs' → rs = rs' := by
  induction n with
  | zero => rintro rs rs' r rfl rfl; rfl
  | succ n ih =>
    intro rs rs' r h h'
    cases rs with
    | nil =>
      cases rs' with
      | nil => rfl
      | cons c cs => obtain ⟨r', h1, -⟩ := h'; exact (h ⟨c, r', h1⟩).elim
    | cons c cs =>
      obtain ⟨r', h1, h2⟩ := h
      cases rs' with
      | nil => exact (h' ⟨c, r', h1⟩).elim
      | cons c' cs' =>
        obtain ⟨r'', h1', h2'⟩ := h'
        obtain ⟨rfl, rfl⟩ := h1.unique h1'
        rw [ih _ _ _ h2 h2']

end
end ZkSetup
