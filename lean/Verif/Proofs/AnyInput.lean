import Verif.Proofs.Phase1Contribute
import Verif.Proofs.Phase2Verify
/-
Contributions to arbitrary bytes: what a successful phase 1 contribution has read is a well-formed file.
-/
set_option linter.unusedSectionVars false

namespace ZkSetup

open Phase1

/-- reading `m` points and then `k` points is reading `m + k` points -/
theorem decodeN_join {G : Type} (c : Codec G) (m k : Nat) : ∀ (r r' r'' : Rd) (ps qs : List G),
    (c.decodeN m).run r = (.ok ps, r') → (c.decodeN k).run r' = (.ok qs, r'') →
    (c.decodeN (m + k)).run r = (.ok (ps ++ qs), r'') := by
  induction m with
  | zero =>
    intro r r' r'' ps qs h1 h2
    simp [Codec.decodeN] at h1
    obtain ⟨rfl, rfl⟩ := h1
    simpa using h2
  | succ m ih =>
    intro r r' r'' ps qs h1 h2
    unfold Codec.decodeN at h1
    obtain ⟨p, r1, h3, h1⟩ := Go.bind_eq_ok h1
    obtain ⟨ps', r2, h4, h1⟩ := Go.bind_eq_ok h1
    simp only [Go.pure_run, Prod.mk.injEq, Except.ok.injEq] at h1
    obtain ⟨rfl, rfl⟩ := h1
    rw [Nat.succ_add]
    unfold Codec.decodeN
    rw [Go.bind_ok h3, Go.bind_ok (ih _ _ _ _ _ h4 h2)]
    simp

theorem onRd_eq_ok {α : Type} {x : Go Rd α} {rd : Rd} {out : Bytes} {a : α} {s : IOSt}
    (h : (IOSt.onRd x).run ⟨rd, out⟩ = (.ok a, s)) : ∃ rd', x.run rd = (.ok a, rd') ∧ s = ⟨rd', out⟩ := by
  unfold IOSt.onRd at h
  simp only [Prod.mk.injEq] at h
  exact ⟨(x.run rd).2, Prod.ext h.1 rfl, h.2.symm⟩

theorem read_length {n : Nat} {rd rd' : Rd} {b : Bytes} (h : (Rd.read n).run rd = (.ok b, rd')) : b.length ≤ n := by
  unfold Rd.read at h
  simp only at h
  split at h
  · simp at h
  · simp only [Prod.mk.injEq, Except.ok.injEq] at h
    rw [← h.1]
    simp

theorem put_getUint16 (x y : UInt8) : putUint16 (getUint16 [x, y]) = [x, y] := by
  have hx := x.toNat_lt
  have hy := y.toNat_lt
  have hv : (getUint16 [x, y]).toNat = 256 * x.toNat + y.toNat := by
    simp [getUint16, beValue]
    omega
  unfold putUint16
  rw [hv]
  have h1 : (256 * x.toNat + y.toNat) / 256 % 256 = x.toNat := by omega
  have h2 : (256 * x.toNat + y.toNat) % 256 = y.toNat := by omega
  simp [beBytes, h1, h2]

/-- a header read with bytes left after it is the first three bytes -/
theorem header_inv {input : Bytes} {h : Header} {rd : Rd} (hr : Header.readFrom.run (Rd.file input 0) = (.ok h, rd))
    (hne : rd.rest ≠ []) : input = h.writeTo ++ rd.rest := by
  unfold Header.readFrom at hr
  obtain ⟨a, r1, h1, hr⟩ := Go.bind_eq_ok hr
  obtain ⟨c, r2, h2, hr⟩ := Go.bind_eq_ok hr
  simp only [Go.pure_run, Prod.mk.injEq, Except.ok.injEq] at hr
  obtain ⟨rfl, rfl⟩ := hr
  match input with
  | [] => simp [Rd.read, Rd.file] at h1
  | [x] =>
    simp [Rd.read, Rd.file, Rd.block, Rd.adv] at h1
    obtain ⟨rfl, rfl⟩ := h1
    simp [Rd.read] at h2
  | [x, y] =>
    simp [Rd.read, Rd.file, Rd.block, Rd.adv] at h1
    obtain ⟨rfl, rfl⟩ := h1
    simp [Rd.read, Rd.block, Rd.adv] at h2
    obtain ⟨rfl, rfl⟩ := h2
    simp at hne
  | x :: y :: z :: w =>
    simp [Rd.read, Rd.file, Rd.block, Rd.adv] at h1
    obtain ⟨rfl, rfl⟩ := h1
    simp [Rd.read, Rd.block, Rd.adv] at h2
    obtain ⟨rfl, rfl⟩ := h2
    simp [Header.writeTo, put_getUint16]

section
variable {F G1 G2 GT : Type} [Field F] [AddCommGroup G1] [Module F G1] [AddCommGroup G2]
  [Module F G2] [AddCommGroup GT] [Module F GT] [DecidableEq G1] [DecidableEq G2]

section loop
variable {G : Type} [AddCommGroup G] [Module F G] [DecidableEq G]

theorem keepFirst_eq_ok {fp : G} {q : Option G} {s s' : IOSt} {p : G}
    (h : (keepFirst fp q).run s = (.ok p, s')) : s' = s := by
  unfold keepFirst at h
  split at h
  · split at h
    · simp at h; exact h.2.symm
    · simp [Go.fail] at h
  · simp at h; exact h.2.symm

theorem keepFirst_any {fp : G} {q : Option G} {s s' : IOSt} {p : G}
    (h : (keepFirst fp q).run s = (.ok p, s')) (st : IOSt) : (keepFirst fp q).run st = (.ok p, st) := by
  unfold keepFirst at h ⊢
  split at h
  · rename_i e
    rw [if_pos e]
    split at h
    · simp at h
      simp [h]
    · simp [Go.fail] at h
  · rename_i e
    rw [if_neg e]
    simp at h
    simp [h]

/-- a successful scaling loop has decoded that many points -/
theorem scaleLoop_reads (c : Codec G) (par : Par) (b : Nat) (hb : 0 < b) (tau : F) (mult : Option F)
    (first : List G → Option G) (n : Nat) : ∀ (buff : List G) (start : F) (fp p : G) (rd : Rd) (out : Bytes) (s : IOSt),
    (scaleLoop c par b tau mult first n buff start fp).run ⟨rd, out⟩ = (.ok p, s) →
    ∃ pts rd', (c.decodeN n).run rd = (.ok pts, rd') ∧ s.rd = rd' := by
  induction n using Nat.strong_induction_on with
  | _ n ih =>
    intro buff start fp p rd out s h
    rw [scaleLoop] at h
    by_cases h0 : 0 < n ∧ 0 < b
    · rw [dif_pos h0] at h
      obtain ⟨pts, s1, h1, h⟩ := Go.bind_eq_ok h
      obtain ⟨rd1, h1', rfl⟩ := onRd_eq_ok h1
      rw [Go.bind_ok (IOSt.emit_run _ _)] at h
      obtain ⟨fp', s2, h2, h⟩ := Go.bind_eq_ok h
      obtain rfl := keepFirst_eq_ok h2
      obtain ⟨pts', rd2, h3, h4⟩ := ih (n - min n b) (by omega) _ _ _ _ _ _ _ h
      have := decodeN_join c _ _ _ _ _ _ _ h1' h3
      rw [show min n b + (n - min n b) = n by omega] at this
      exact ⟨_, _, this, h4⟩
    · rw [dif_neg h0] at h
      have : n = 0 := by omega
      subst this
      simp at h
      exact ⟨[], rd, by simp [Codec.decodeN], by rw [← h.2]⟩

/-- The scaling loop depends on its input only through the points decoded. -/
theorem scaleLoop_same (c : Codec G) (par : Par) (b : Nat) (hb : 0 < b) (tau : F) (mult : Option F)
    (first : List G → Option G) (n : Nat) : ∀ (buff : List G) (start : F) (fp p : G) (rd1 rd1' rd2 rd2' : Rd)
    (out1 : Bytes) (pts : List G) (s : IOSt),
    (c.decodeN n).run rd1 = (.ok pts, rd1') → (c.decodeN n).run rd2 = (.ok pts, rd2') →
    (scaleLoop c par b tau mult first n buff start fp).run ⟨rd1, out1⟩ = (.ok p, s) →
    ∃ o, s.out = out1 ++ o ∧ ∀ out2,
      (scaleLoop c par b tau mult first n buff start fp).run ⟨rd2, out2⟩ = (.ok p, ⟨rd2', out2 ++ o⟩) := by
  induction n using Nat.strong_induction_on with
  | _ n ih =>
    intro buff start fp p rd1 rd1' rd2 rd2' out1 pts s d1 d2 h
    rw [scaleLoop] at h ⊢
    by_cases h0 : 0 < n ∧ 0 < b
    · rw [dif_pos h0] at h ⊢
      have hn : n = min n b + (n - min n b) := by omega
      rw [hn] at d1 d2
      obtain ⟨rd3, d3, d4⟩ := decodeN_split _ _ _ _ _ _ d1
      obtain ⟨rd5, d5, d6⟩ := decodeN_split _ _ _ _ _ _ d2
      rw [Go.bind_ok (IOSt.onRd_ok d3), Go.bind_ok (IOSt.emit_run _ _)] at h
      obtain ⟨fp', s2, h2, h⟩ := Go.bind_eq_ok h
      obtain rfl := keepFirst_eq_ok h2
      obtain ⟨o', ho', hrun⟩ := ih (n - min n b) (by omega) _ _ _ _ _ _ _ _ _ _ _ d4 d6 h
      refine ⟨_, by rw [ho', List.append_assoc], fun out2 => ?_⟩
      rw [Go.bind_ok (IOSt.onRd_ok d5), Go.bind_ok (IOSt.emit_run _ _)]
      rw [Go.bind_ok (keepFirst_any h2 _), hrun, List.append_assoc]
    · rw [dif_neg h0] at h ⊢
      have : n = 0 := by omega
      subst this
      simp [Codec.decodeN] at h d1 d2 ⊢
      obtain ⟨rfl, rfl⟩ := h
      simp [d2]

end loop

variable {C : Curve F G1 G2 GT}

theorem scaleG1_reads (par : Par) (b : Nat) (hb : 0 < b) (N : Int) (tau : F) (mult : Option F) {p : G1} {rd : Rd}
    {out : Bytes} {s : IOSt} (h : (scaleG1 C par b N tau mult).run ⟨rd, out⟩ = (.ok p, s)) :
    0 ≤ N ∧ ∃ pts rd', (C.c1.decodeN N.toNat).run rd = (.ok pts, rd') ∧ s.rd = rd' := by
  unfold scaleG1 at h
  obtain ⟨n, s1, h1, h⟩ := Go.bind_eq_ok h
  rw [Go.lift_run] at h1
  simp only [Prod.mk.injEq] at h1
  obtain ⟨h1, rfl⟩ := h1
  refine ⟨?_, scaleLoop_reads _ _ _ hb _ _ _ _ _ _ _ _ _ _ _ h⟩
  unfold makeLen at h1
  split at h1
  · cases h1
  · omega

theorem scaleG2_reads (par : Par) (b : Nat) (hb : 0 < b) (N : Int) (tau : F) {p : G2} {rd : Rd}
    {out : Bytes} {s : IOSt} (h : (scaleG2 C par b N tau).run ⟨rd, out⟩ = (.ok p, s)) :
    0 ≤ N ∧ ∃ pts rd', (C.c2.decodeN N.toNat).run rd = (.ok pts, rd') ∧ s.rd = rd' := by
  unfold scaleG2 at h
  obtain ⟨n, s1, h1, h⟩ := Go.bind_eq_ok h
  rw [Go.lift_run] at h1
  simp only [Prod.mk.injEq] at h1
  obtain ⟨h1, rfl⟩ := h1
  refine ⟨?_, scaleLoop_reads _ _ _ hb _ _ _ _ _ _ _ _ _ _ _ h⟩
  unfold makeLen at h1
  split at h1
  · cases h1
  · omega

/-- a file of one point per section cannot be scaled: `buff[1]` does not exist -/
theorem scaleG1_single_fails (par : Par) (b : Nat) (hb : 0 < b) (tau : F) {rd : Rd} {out : Bytes} {p : G1} {s : IOSt} :
    (scaleG1 C par b 1 tau none).run ⟨rd, out⟩ ≠ (.ok p, s) := by
  intro h
  unfold scaleG1 at h
  have hm : makeLen (min (1 : Int) b) = .ok 1 := by
    rw [show min (1 : Int) (b : Int) = ((1 : Nat) : Int) by omega, makeLen_nat]
  rw [hm, Go.bind_ok (Go.lift_run _ _)] at h
  simp only [Int.toNat_one] at h
  rw [scaleLoop, dif_pos ⟨by omega, hb⟩] at h
  have hmin : min 1 b = 1 := by omega
  simp only [hmin] at h
  obtain ⟨pts, s1, h1, h⟩ := Go.bind_eq_ok h
  obtain ⟨rd1, h1', rfl⟩ := onRd_eq_ok h1
  rw [Go.bind_ok (IOSt.emit_run _ _)] at h
  obtain ⟨fp', s2, h2, h⟩ := Go.bind_eq_ok h
  have hl := decodeN_length _ _ _ _ _ h1'
  unfold keepFirst at h2
  rw [if_pos rfl] at h2
  split at h2
  · rename_i q hq
    have : 1 < (par.mapIdx 1 (fun i p => (applyMultiplicand par none (powers 1 tau 1)).getD i 0 • p)
        (pts ++ (List.replicate 1 (0 : G1)).drop 1)).length := by
      by_contra hlt
      rw [List.getElem?_eq_none (by omega)] at hq
      cases hq
    rw [Par.mapIdx_eq'] at this
    simp [hl] at this
  · simp [Go.fail] at h2

theorem readHash_length {rd rd' : Rd} {h : Bytes} (hr : readHash.run rd = (.ok h, rd')) : h.length = 32 := by
  unfold readHash at hr
  obtain ⟨b, rd1, h1, h2⟩ := Go.bind_eq_ok hr
  simp only [Go.pure_run, Prod.mk.injEq, Except.ok.injEq] at h2
  have hb : b.length ≤ 32 := read_length h1
  rw [← h2.1]
  simp
  omega

/-- a record read has a hash of 32 bytes -/
theorem record_hash_length {c0 c : Contribution G1 G2} {rd rd' : Rd}
    (h : (Contribution.readFrom C).run (c0, rd) = (.ok (), (c, rd'))) : c.hash.length = 32 := by
  unfold Contribution.readFrom at h
  iterate 15 obtain ⟨_, _, _, h⟩ := Go.bind_eq_ok h
  rename_i s _
  unfold readField at h
  simp only at h
  split at h
  · rename_i a r hr
    simp only [Prod.mk.injEq] at h
    rw [← h.2.1]
    exact readHash_length hr
  · simp at h

/-- records read in a row -/
theorem copy_reads (n : Nat) : ∀ (c0 c : Contribution G1 G2) (rd : Rd) (out : Bytes) (s : IOSt),
    (copyContributions C n c0).run ⟨rd, out⟩ = (.ok c, s) →
    ∃ rs : List (Contribution G1 G2), rs.length = n ∧ (∀ r ∈ rs, r.hash.length = 32) ∧
      ∀ out2, (copyContributions C n c0).run ⟨rd, out2⟩
        = (.ok (rs.getLast?.getD c0), ⟨s.rd, out2 ++ rs.flatMap (recordBytes C)⟩) := by
  induction n with
  | zero =>
    intro c0 c rd out s h
    simp [copyContributions] at h
    exact ⟨[], rfl, by simp, fun out2 => by simp [copyContributions, ← h.2]⟩
  | succ n ih =>
    intro c0 c rd out s h
    unfold copyContributions at h
    obtain ⟨c1, s1, h1, h⟩ := Go.bind_eq_ok h
    rw [Go.bind_ok (IOSt.emit_run _ _)] at h
    obtain ⟨rs, hl, hh, hrun⟩ := ih _ _ _ _ _ h
    simp only at h1
    have hr : ∃ rd1, (Contribution.readFrom C).run (c0, rd) = (.ok (), (c1, rd1)) ∧ s1 = ⟨rd1, out⟩ := by
      revert h1
      rcases (Contribution.readFrom C).run (c0, rd) with ⟨_ | _, c', rd'⟩
      · intro h1; simp at h1
      · intro h1
        simp only [Prod.mk.injEq, Except.ok.injEq] at h1
        obtain ⟨rfl, rfl⟩ := h1
        exact ⟨rd', rfl, rfl⟩
    obtain ⟨rd1, hr, rfl⟩ := hr
    refine ⟨c1 :: rs, by simp [hl], ?_, fun out2 => ?_⟩
    · intro r hr'
      rcases List.mem_cons.1 hr' with rfl | hr'
      · exact record_hash_length hr
      · exact hh r hr'
    · unfold copyContributions
      rw [Go.bind_ok (a := c1) (s' := ⟨rd1, out2⟩) (by simp only [hr]), Go.bind_ok (IOSt.emit_run _ _),
        contribution_writeTo]
      simp only
      rw [hrun]
      congr 1
      · congr 1
        cases rs with
        | nil => rfl
        | cons r' rs => simp [List.getLast?_cons]
      · simp

section lawful
variable (hC : C.Lawful)
include hC

/-- scaling a section of any input, given the points it decodes to -/
theorem scaleG1_any (par : Par) (b : Nat) (N : Int) (tau : F) (mult : Option F) (pts : List G1)
    (hN : N = pts.length) (ho : (if mult.isNone then 1 else 0) < min pts.length b) :
    ∃ p, ∀ (rd rd' : Rd) (out : Bytes), (C.c1.decodeN pts.length).run rd = (.ok pts, rd') →
      (scaleG1 C par b N tau mult).run ⟨rd, out⟩
        = (.ok p, ⟨rd', out ++ (scaled (mult.getD 1) tau pts).flatMap C.c1.bytes⟩) := by
  obtain ⟨p, h, _⟩ := scaleG1_spec hC par b N tau mult pts hN ho
  refine ⟨p, fun rd rd' out d => ?_⟩
  have h1 := h 0 0 [] []
  subst hN
  unfold scaleG1 at h1 ⊢
  simp only [makeLen_min, Go.bind_ok (Go.lift_run _ _), Int.toNat_natCast] at h1 ⊢
  have d0 := Codec.decodeN_encodeN hC.codec1 0 0 pts []
  obtain ⟨o, ho', hrun⟩ := scaleLoop_same _ _ _ (by omega) _ _ _ _ _ _ _ _ _ _ _ _ _ _ _ d0 d h1
  simp only [List.nil_append] at ho'
  rw [hrun, ← ho']

theorem scaleG2_any (par : Par) (b : Nat) (N : Int) (tau : F) (pts : List G2)
    (hN : N = pts.length) (ho : 1 < min pts.length b) :
    ∃ p, ∀ (rd rd' : Rd) (out : Bytes), (C.c2.decodeN pts.length).run rd = (.ok pts, rd') →
      (scaleG2 C par b N tau).run ⟨rd, out⟩
        = (.ok p, ⟨rd', out ++ (scaled 1 tau pts).flatMap C.c2.bytes⟩) := by
  obtain ⟨p, h, _⟩ := scaleG2_spec hC par b N tau pts hN ho
  refine ⟨p, fun rd rd' out d => ?_⟩
  have h1 := h 0 0 [] []
  subst hN
  unfold scaleG2 at h1 ⊢
  simp only [makeLen_min, Go.bind_ok (Go.lift_run _ _), Int.toNat_natCast] at h1 ⊢
  have d0 := Codec.decodeN_encodeN hC.codec2 0 0 pts []
  obtain ⟨o, ho', hrun⟩ := scaleLoop_same _ _ _ (by omega) _ _ _ _ _ _ _ _ _ _ _ _ _ _ _ d0 d h1
  simp only [List.nil_append] at ho'
  rw [hrun, ← ho']

/-- Two inputs that are read as the same header, points and records give the same contribution. -/
theorem contribute_same (par : Par) (b : Nat) (hb : 2 ≤ b) (rnd : Rand F) (f : P1File G1 G2) (hf : f.WF)
    (hp : 1 ≤ f.power.toNat) (input : Bytes) (rd0 rd1 rd2 rd3 rd4 rd5 rd6 : Rd)
    (d0 : Header.readFrom.run (Rd.file input 0) = (.ok ⟨f.power, UInt16.ofNat f.records.length⟩, rd0))
    (d1 : (C.c1.decodeN f.tauG1.length).run (Rd.buffered 4096 rd0.rest) = (.ok f.tauG1, rd1))
    (d2 : (C.c1.decodeN f.alphaG1.length).run rd1 = (.ok f.alphaG1, rd2))
    (d3 : (C.c1.decodeN f.betaG1.length).run rd2 = (.ok f.betaG1, rd3))
    (d4 : (C.c2.decodeN f.tauG2.length).run rd3 = (.ok f.tauG2, rd4))
    (d5 : C.c2.decode.run rd4 = (.ok f.betaG2, rd5))
    (d6 : ∀ out, (copyContributions C f.records.length Contribution.zero).run ⟨rd5, out⟩
      = (.ok (f.records.getLast?.getD Contribution.zero), ⟨rd6, out ++ f.records.flatMap (recordBytes C)⟩)) :
    contribute C par b rnd input = contribute C par b rnd (f.encode C) := by
  have hN2 : 2 ≤ 2 ^ f.power.toNat := by
    calc 2 = 2 ^ 1 := rfl
      _ ≤ 2 ^ f.power.toNat := Nat.pow_le_pow_right (by omega) hp
  have hlt := hf.tauG1
  have hla := hf.alphaG1
  have hlb := hf.betaG1
  have hl2 := hf.tauG2
  have hcnt := hf.count
  obtain ⟨t1, ht1⟩ := scaleG1_any hC par b (wrap64 (2 * goPow2 f.power - 1)) rnd.tau none f.tauG1
    (by rw [wrap_tau hf.power, hlt]) (by simp; omega)
  obtain ⟨a1, ha1⟩ := scaleG1_any hC par b (goPow2 f.power) rnd.tau (some rnd.alpha) f.alphaG1
    (by rw [goPow2_eq hf.power, hla]) (by simp; omega)
  obtain ⟨b1, hb1⟩ := scaleG1_any hC par b (goPow2 f.power) rnd.tau (some rnd.beta) f.betaG1
    (by rw [goPow2_eq hf.power, hlb]) (by simp; omega)
  obtain ⟨t2, ht2⟩ := scaleG2_any hC par b (goPow2 f.power) rnd.tau f.tauG2
    (by rw [goPow2_eq hf.power, hl2]) (by omega)
  have hn : (UInt16.ofNat f.records.length + 1 - 1).toNat = f.records.length := by
    rw [UInt16.add_sub_cancel]
    simp; omega
  -- what every such input gives
  have key : ∀ (input : Bytes) (rd0 rd1 rd2 rd3 rd4 rd5 rd6 : Rd),
      Header.readFrom.run (Rd.file input 0) = (.ok ⟨f.power, UInt16.ofNat f.records.length⟩, rd0) →
      (C.c1.decodeN f.tauG1.length).run (Rd.buffered 4096 rd0.rest) = (.ok f.tauG1, rd1) →
      (C.c1.decodeN f.alphaG1.length).run rd1 = (.ok f.alphaG1, rd2) →
      (C.c1.decodeN f.betaG1.length).run rd2 = (.ok f.betaG1, rd3) →
      (C.c2.decodeN f.tauG2.length).run rd3 = (.ok f.tauG2, rd4) →
      C.c2.decode.run rd4 = (.ok f.betaG2, rd5) →
      (∀ out, (copyContributions C f.records.length Contribution.zero).run ⟨rd5, out⟩
        = (.ok (f.records.getLast?.getD Contribution.zero), ⟨rd6, out ++ f.records.flatMap (recordBytes C)⟩)) →
      contribute C par b rnd input
        = (.ok (newRecord C rnd (lastHash f.records) t1 a1 b1 t2 (rnd.beta • f.betaG2)).hash,
          Header.writeTo ⟨f.power, UInt16.ofNat f.records.length + 1⟩
            ++ (f.update rnd (newRecord C rnd (lastHash f.records) t1 a1 b1 t2 (rnd.beta • f.betaG2))).params C
            ++ f.records.flatMap (recordBytes C)
            ++ recordBytes C (newRecord C rnd (lastHash f.records) t1 a1 b1 t2 (rnd.beta • f.betaG2))) := by
    intro input rd0 rd1 rd2 rd3 rd4 rd5 rd6 d0 d1 d2 d3 d4 d5 d6
    unfold contribute
    rw [d0]
    simp only
    unfold contributeBody
    rw [Go.bind_ok (IOSt.emit_run _ _)]
    simp only []
    rw [Go.bind_ok (ht1 _ _ _ d1), Go.bind_ok (ha1 _ _ _ d2), Go.bind_ok (hb1 _ _ _ d3),
      Go.bind_ok (ht2 _ _ _ d4), Go.bind_ok (IOSt.onRd_ok d5), Go.bind_ok (IOSt.emit_run _ _)]
    simp only [hn]
    rw [Go.bind_ok (d6 _)]
    simp only [lastHash_eq]
    rw [Go.bind_ok (IOSt.emit_run _ _)]
    simp only [Go.pure_run, genPublicKey_eq, contribution_writeTo, computeHash_eq]
    simp only [List.nil_append, List.append_assoc, P1File.params, P1File.update, Option.getD_none,
      Option.getD_some]
    rfl
  rw [key input _ _ _ _ _ _ _ d0 d1 d2 d3 d4 d5 d6]
  have henc : f.encode C = Header.writeTo ⟨f.power, UInt16.ofNat f.records.length⟩
      ++ (C.c1.encodeN f.tauG1 ++ (C.c1.encodeN f.alphaG1 ++ (C.c1.encodeN f.betaG1
      ++ (C.c2.encodeN f.tauG2 ++ (C.c2.bytes f.betaG2
      ++ (f.records.flatMap (recordBytes C) ++ [])))))) := by
    rw [header_encode _ _ hcnt]
    simp [P1File.encode, P1File.params, Codec.encodeN]
  rw [henc]
  have hcopy := fun out => copy_spec hC f.records hf.hash Contribution.zero 4096 (0 + C.c1.size * f.tauG1.length
    + C.c1.size * f.alphaG1.length + C.c1.size * f.betaG1.length + C.c2.size * f.tauG2.length + C.c2.size)
    (.inr ⟨by omega, by rw [hC.size1, hC.size2]; omega⟩) [] out
  exact (key _ _ _ _ _ _ _ _ (header_read _ _) (Codec.decodeN_encodeN hC.codec1 _ _ _ _)
    (Codec.decodeN_encodeN hC.codec1 _ _ _ _) (Codec.decodeN_encodeN hC.codec1 _ _ _ _)
    (Codec.decodeN_encodeN hC.codec2 _ _ _ _) (Codec.decode_bytes hC.codec2 _ _ _ _) hcopy).symm

/-- If a contribution to some bytes succeeds, then those bytes are read as a well-formed file: with every choice of
secrets, batch size and scheduling the contribution is the contribution to that file. -/
theorem contribute_any {par : Par} {b : Nat} (hb : 2 ≤ b) {rnd : Rand F} {input hash out : Bytes}
    (h : contribute C par b rnd input = (.ok hash, out)) :
    ∃ f : P1File G1 G2, f.WF ∧ 1 ≤ f.power.toNat ∧ input.take 3 = (f.encode C).take 3 ∧
      ∀ par b rnd, 2 ≤ b → contribute C par b rnd input = contribute C par b rnd (f.encode C) := by
  unfold contribute at h
  split at h
  · simp at h
  rename_i header rd0 d0
  simp only [Prod.mk.injEq] at h
  obtain ⟨h, -⟩ := h
  generalize hres : (contributeBody C par b rnd header).run ⟨Rd.buffered 4096 rd0.rest, []⟩ = res at h
  obtain ⟨r, s⟩ := res
  simp only at h
  subst h
  unfold contributeBody at hres
  rw [Go.bind_ok (IOSt.emit_run _ _)] at hres
  obtain ⟨t1, s1, h1, hres⟩ := Go.bind_eq_ok hres
  obtain ⟨a1, s2, h2, hres⟩ := Go.bind_eq_ok hres
  obtain ⟨b1, s3, h3, hres⟩ := Go.bind_eq_ok hres
  obtain ⟨t2, s4, h4, hres⟩ := Go.bind_eq_ok hres
  obtain ⟨b2, s5, h5, hres⟩ := Go.bind_eq_ok hres
  rw [Go.bind_ok (IOSt.emit_run _ _)] at hres
  obtain ⟨c, s6, h6, hres⟩ := Go.bind_eq_ok hres
  obtain ⟨n1, p1, rd1, d1, e1⟩ := scaleG1_reads par b (by omega) _ _ _ h1
  obtain ⟨n2, p2, rd2, d2, e2⟩ := scaleG1_reads par b (by omega) _ _ _ h2
  obtain ⟨n3, p3, rd3, d3, e3⟩ := scaleG1_reads par b (by omega) _ _ _ h3
  obtain ⟨n4, p4, rd4, d4, e4⟩ := scaleG2_reads par b (by omega) _ _ h4
  obtain ⟨rd5, d5, e5⟩ := onRd_eq_ok (rd := s4.rd) (out := s4.out) h5
  obtain ⟨rs, hl, hh, d6⟩ := copy_reads _ _ _ _ _ _ h6
  -- the power is between 1 and 62
  have hp62 : header.power.toNat ≤ 62 := by
    by_contra hlt
    unfold goPow2 at n2
    rw [if_neg hlt] at n2
    omega
  have hp1 : 1 ≤ header.power.toNat := by
    by_contra hlt
    have h0 : header.power.toNat = 0 := by omega
    rw [wrap_tau hp62, h0] at h1
    exact scaleG1_single_fails par b (by omega) _ h1
  rw [wrap_tau hp62, Int.toNat_natCast] at d1
  rw [goPow2_eq hp62, Int.toNat_natCast] at d2 d3 d4
  have hn : (header.contributions + 1 - 1).toNat = header.contributions.toNat := by
    rw [UInt16.add_sub_cancel]
  rw [hn] at hl d6
  have l1 := decodeN_length _ _ _ _ _ d1
  have l2 := decodeN_length _ _ _ _ _ d2
  have l3 := decodeN_length _ _ _ _ _ d3
  have l4 := decodeN_length _ _ _ _ _ d4
  have hlt := header.contributions.toNat_lt
  let f : P1File G1 G2 := ⟨header.power, p1, p2, p3, p4, b2, rs⟩
  have hf : f.WF := ⟨hp62, l1, l2, l3, l4, by simp only [f]; omega, hh⟩
  have hcnt : UInt16.ofNat f.records.length = header.contributions := by
    simp only [f, hl]; simp
  refine ⟨f, hf, hp1, ?_, ?_⟩
  · have hne : rd0.rest ≠ [] := by
      intro he
      rw [he] at d1
      obtain ⟨m, hm⟩ : ∃ m, 2 * 2 ^ header.power.toNat - 1 = m + 1 := by
        have : 0 < 2 ^ header.power.toNat := Nat.pow_pos (by omega)
        exact ⟨2 * 2 ^ header.power.toNat - 2, by omega⟩
      rw [hm] at d1
      unfold Codec.decodeN at d1
      obtain ⟨q, s, d1, -⟩ := Go.bind_eq_ok d1
      unfold Codec.decode at d1
      obtain ⟨q, s, d1, -⟩ := Go.bind_eq_ok d1
      rw [hC.size1] at d1
      simp [Rd.readFull, Rd.buffered] at d1
    rw [header_inv d0 hne]
    have : f.encode C = header.writeTo ++ (f.params C ++ f.records.flatMap (recordBytes C)) := by
      have := header_encode f.power f.records.length hf.count
      rw [hcnt] at this
      rw [this]
      simp [P1File.encode]
    rw [this]
    have hl3 : header.writeTo.length = 3 := by
      simp [Header.writeTo, putUint16_length]
    rw [List.take_left' hl3, List.take_left' hl3]
  · intro par b rnd hb
    refine contribute_same hC par b hb rnd f hf hp1 input rd0 rd1 rd2 rd3 rd4 rd5 s6.rd ?_ ?_ ?_ ?_ ?_ ?_ ?_
    · rw [hcnt]; exact d0
    · rw [show f.tauG1.length = _ from l1]; exact d1
    · rw [show f.alphaG1.length = _ from l2, ← e1]; exact d2
    · rw [show f.betaG1.length = _ from l3, ← e2]; exact d3
    · rw [show f.tauG2.length = _ from l4, ← e3]; exact d4
    · rw [← e4]; exact d5
    · intro out
      subst e5
      have := d6 out
      rw [show f.records.length = _ from hl]
      exact this

end lawful
end
end ZkSetup
