import Verif.Proofs.AnyVerify1
import Verif.Props.Counts
import Verif.Props.Attest
import Verif.Props.Phase1History
/-
C78: what `p1v` accepts, whatever the bytes are. With it C16, C58 and C59 for any bytes.
-/
set_option linter.unusedSectionVars false

namespace ZkSetup

open Phase1 Console

section
variable {F G1 G2 GT : Type} [Field F] [AddCommGroup G1] [Module F G1] [AddCommGroup G2]
  [Module F G2] [AddCommGroup GT] [Module F GT] [DecidableEq G1] [DecidableEq G2] [DecidableEq GT]
variable {C : Curve F G1 G2 GT} (hC : C.Lawful)

omit [DecidableEq G1] [DecidableEq G2] [DecidableEq GT] in
theorem HoldsSections.unique {input : Bytes} {f f' : P1File G1 G2} {n n' : Nat} {rd rd' : Rd} (h : HoldsSections C input f n rd)
    (h' : HoldsSections C input f' n' rd') : { f with records := f'.records } = f' ∧ n = n' ∧ rd = rd' := by
  obtain ⟨x, y, rest, r1, r2, r3, r4, e0, e1, -, a1, a2, a3, a4, a5⟩ := h
  obtain ⟨x', y', rest', r1', r2', r3', r4', e0', e1', -, a1', a2', a3', a4', a5'⟩ := h'
  rw [e0] at e0'
  simp only [List.cons.injEq] at e0'
  obtain ⟨p, rfl, rfl, rfl⟩ := e0'
  rw [← p, a1, Prod.mk.injEq, Except.ok.injEq] at a1'
  obtain ⟨p1, rfl⟩ := a1'
  rw [← p, a2, Prod.mk.injEq, Except.ok.injEq] at a2'
  obtain ⟨p2, rfl⟩ := a2'
  rw [← p, a3, Prod.mk.injEq, Except.ok.injEq] at a3'
  obtain ⟨p3, rfl⟩ := a3'
  rw [← p, a4, Prod.mk.injEq, Except.ok.injEq] at a4'
  obtain ⟨p4, rfl⟩ := a4'
  rw [a5, Prod.mk.injEq, Except.ok.injEq] at a5'
  obtain ⟨p5, rfl⟩ := a5'
  refine ⟨?_, e1.trans e1'.symm, rfl⟩
  rw [p, p1, p2, p3, p4, p5]

omit [DecidableEq G1] [DecidableEq G2] [DecidableEq GT] in
/-- **C78**: what is read in a file depends on its bytes alone, also if it is not accepted. -/
theorem C78_reads_unique {input : Bytes} {f f' : P1File G1 G2} {bs bs' : List Bool} (h : ReadsFile C input f bs)
    (h' : ReadsFile C input f' bs') : f = f' ∧ bs = bs' := by
  obtain ⟨n, rd, a, b⟩ := h
  obtain ⟨n', rd', a', b'⟩ := h'
  obtain ⟨e, rfl, rfl⟩ := a.unique a'
  obtain ⟨e1, e2⟩ := b.unique n b'
  exact ⟨by rw [← e, ← e1], e2⟩

omit [DecidableEq G1] [DecidableEq G2] [DecidableEq GT] in
/-- **C78**: what is read in a file depends on its bytes alone. -/
theorem C78_unique {input : Bytes} {f f' : P1File G1 G2} (h : HoldsFile C input f) (h' : HoldsFile C input f') : f = f' :=
  (C78_reads_unique h h').1

include hC

theorem sections_read {par : Par} {pol : MsmPolicy} {b : Nat} (hb : 0 < b) {vr : VerifyRand F} {input : Bytes} {hd : Header} {r0 rd : Rd}
    {v : (G1 × G1) × (G1 × G1) × (G1 × G1) × (G2 × G2) × G2} (rs : List (Contribution G1 G2))
    (h0 : Header.readFrom.run (Rd.file input 0) = (.ok hd, r0))
    (h1 : (readSections C par pol b vr (goPow2 hd.power)).run (Rd.buffered (2 ^ 20) r0.rest) = (.ok v, rd)) :
    ∃ f : P1File G1 G2, f.records = rs ∧ HoldsSections C input f hd.contributions.toNat rd ∧
      v = (combos pol b vr.tau1 f.tauG1, combos pol b vr.alpha1 f.alphaG1, combos pol b vr.beta1 f.betaG1, combos pol b vr.tau2 f.tauG2, f.betaG2) := by
  by_cases hp : hd.power.toNat ≤ 62
  · have hg : goPow2 hd.power = (2 : Int) ^ hd.power.toNat := by rw [goPow2_eq hp]; push_cast; rfl
    rw [hg, readSections_iff hC par pol b hb vr _ hp] at h1
    obtain ⟨t1, a1, b1, t2, b2, r1, r2, r3, r4, k1, k2, k3, k4, k5, rfl⟩ := h1
    have hne : r0.rest ≠ [] := by
      have := decodeN_len _ k1
      have h2 : 0 < 2 ^ hd.power.toNat := Nat.pow_pos (by omega)
      rw [hC.size1] at this
      intro h
      simp only [h, Rd.buffered, List.length_nil] at this
      omega
    have hi := header_inv h0 hne
    match input, h0, hi with
    | [], h0, _ => simp [Header.readFrom, Rd.read, Rd.file, Go.bind_run] at h0
    | [x], h0, hi => exact absurd (congrArg List.length hi) (by simp [Header.writeTo, putUint16, beBytes])
    | [x, y], h0, hi => exact absurd (congrArg List.length hi) (by simp [Header.writeTo, putUint16, beBytes])
    | p :: x :: y :: rest, h0, _ =>
      rw [p1_header, Prod.mk.injEq, Except.ok.injEq] at h0
      obtain ⟨rfl, rfl⟩ := h0
      exact ⟨⟨p, t1, a1, b1, t2, b2, rs⟩, rfl, ⟨x, y, rest, r1, r2, r3, r4, rfl, getUint16_toNat x y, hp, k1, k2, k3, k4, k5⟩, rfl⟩
  · exact absurd h1 (readSections_large hC par pol b vr _ hp _ _ _)

theorem sections_back {par : Par} {pol : MsmPolicy} {b : Nat} (hb : 0 < b) {vr : VerifyRand F} {input : Bytes} {f : P1File G1 G2} {n : Nat}
    {rd : Rd} (h : HoldsSections C input f n rd) :
    ∃ hd r0, Header.readFrom.run (Rd.file input 0) = (.ok hd, r0) ∧ hd.contributions.toNat = n ∧
      (readSections C par pol b vr (goPow2 hd.power)).run (Rd.buffered (2 ^ 20) r0.rest) = (.ok (combos pol b vr.tau1 f.tauG1,
        combos pol b vr.alpha1 f.alphaG1, combos pol b vr.beta1 f.betaG1, combos pol b vr.tau2 f.tauG2, f.betaG2), rd) := by
  obtain ⟨x, y, rest, r1, r2, r3, r4, rfl, rfl, hp, k1, k2, k3, k4, k5⟩ := h
  refine ⟨_, _, p1_header _ _ _ _, getUint16_toNat x y, ?_⟩
  have hg : goPow2 f.power = (2 : Int) ^ f.power.toNat := by rw [goPow2_eq hp]; push_cast; rfl
  rw [hg, readSections_iff hC par pol b hb vr _ hp]
  exact ⟨_, _, _, _, _, r1, r2, r3, r4, k1, k2, k3, k4, k5, rfl⟩

theorem verifyRest_exact (tr : Option Bytes) (n : Nat) (rd : Rd) (pol : MsmPolicy) (b : Nat) (vr : VerifyRand F) (f : P1File G1 G2)
    (bs : List Bool) (hr : RecordsOver C n Contribution.zero rd f.records bs) :
    verifyRest C tr n rd (combos pol b vr.tau1 f.tauG1) (combos pol b vr.alpha1 f.alphaG1) (combos pol b vr.beta1 f.betaG1)
        (combos pol b vr.tau2 f.tauG2) f.betaG2 = .ok () ↔ bs = List.replicate n false ∧
      ∃ prev, defaultContribution C tr = .ok prev ∧ ChainOk C prev f.records ∧
        SectionsOk C pol b vr f (f.records.getLast?.getD Contribution.zero) := by
  unfold verifyRest
  rw [except_bind_ok]
  constructor
  · rintro ⟨prev, h1, h2⟩
    rw [except_bind_ok] at h2
    obtain ⟨fin, h3, h4⟩ := h2
    obtain ⟨rs, k1, k2, rfl⟩ := (verifyLoop_exact hC _ _ _ _ _).mp h3
    obtain ⟨rfl, rfl⟩ := k1.unique _ hr
    refine ⟨rfl, ?_⟩
    simp only [except_seq_ok, check_ok, decide_eq_true_iff, ratio1_iff hC, ratio2_iff hC] at h4
    exact ⟨prev, h1, k2, h4.1, h4.2.1, h4.2.2.1, h4.2.2.2.1, h4.2.2.2.2⟩
  · rintro ⟨rfl, prev, h1, h2, h3⟩
    refine ⟨prev, h1, ?_⟩
    rw [except_bind_ok]
    refine ⟨_, (verifyLoop_exact hC _ _ _ _ _).mpr ⟨_, hr, h2, rfl⟩, ?_⟩
    simp only [except_seq_ok, check_ok, decide_eq_true_iff, ratio1_iff hC, ratio2_iff hC]
    exact ⟨h3.tauG1, h3.alphaG1, h3.betaG1, h3.tauG2, h3.betaG2⟩

/-- **C78**: `phase1.Verify` accepts any bytes, on any machine, if and only if they hold sections, every record read is a proven update of
the one before it, and the sections are consistent with the last one. -/
theorem C78_exact (par : Par) (pol : MsmPolicy) (b : Nat) (hb : 0 < b) (vr : VerifyRand F) (input : Bytes) (tr : Option Bytes) :
    verify C par pol b vr input tr = .ok () ↔ ∃ f, HoldsFile C input f ∧ ∃ prev, defaultContribution C tr = .ok prev ∧
      ChainOk C prev f.records ∧ SectionsOk C pol b vr f (f.records.getLast?.getD Contribution.zero) := by
  unfold verify
  constructor
  · intro h
    rcases h0 : Header.readFrom.run (Rd.file input 0) with ⟨_ | hd, r0⟩
    · rw [h0] at h; cases h
    rw [h0] at h
    simp only at h
    rcases h1 : (readSections C par pol b vr (goPow2 hd.power)).run (Rd.buffered (2 ^ 20) r0.rest) with ⟨_ | v, rd⟩
    · rw [h1] at h; cases h
    rw [h1] at h
    obtain ⟨rs, bs, hrs⟩ := recordsOver_exists hC hd.contributions.toNat Contribution.zero rd
    obtain ⟨f, rfl, hf, rfl⟩ := sections_read hC hb rs h0 h1
    obtain ⟨rfl, h2⟩ := (verifyRest_exact hC tr _ rd pol b vr f bs hrs).mp h
    refine ⟨f, ⟨_, _, hf, ?_⟩, h2⟩
    rwa [hrs.length.1]
  · rintro ⟨f, ⟨n, rd, hf, hrs⟩, h⟩
    obtain ⟨hd, r0, h0, rfl, h1⟩ := sections_back hC (par := par) (pol := pol) (vr := vr) hb hf
    rw [h0]
    simp only [h1]
    exact (verifyRest_exact hC tr _ rd pol b vr f _ hrs).mpr ⟨by rw [hrs.length.1], h⟩

/-- **C78**: bytes in which a record is spoilt, that is in which an attempt to decode a point has failed and left something else in its
place, are never accepted. -/
theorem C78_spoilt_rejected (par : Par) (pol : MsmPolicy) (b : Nat) (hb : 0 < b) (vr : VerifyRand F) (input : Bytes) (tr : Option Bytes)
    (f : P1File G1 G2) (bs : List Bool) (hf : ReadsFile C input f bs) (hbad : true ∈ bs) : verify C par pol b vr input tr ≠ .ok () := by
  intro h
  obtain ⟨g, hg, -⟩ := (C78_exact hC par pol b hb vr input tr).mp h
  obtain ⟨rfl, rfl⟩ := C78_reads_unique hf hg
  simp at hbad

/-! ### files -/

theorem recordsOver_bytes (rs : List (Contribution G1 G2)) : ∀ (old : Contribution G1 G2) (cap pos : Nat) (ys : Bytes) (m : Nat)
    (qs : List (Contribution G1 G2)) (bs : List Bool), (∀ r ∈ rs, r.hash.length = 32) → 32 ∣ cap → 32 ∣ pos →
    RecordsOver C m (rs.getLast?.getD old) ⟨cap, pos + 640 * rs.length, ys⟩ qs bs →
    RecordsOver C (rs.length + m) old ⟨cap, pos, rs.flatMap (recordBytes C) ++ ys⟩ (rs ++ qs) (List.replicate rs.length false ++ bs) := by
  induction rs with
  | nil => intro old cap pos ys m qs bs _ _ _ h; simpa using h
  | cons r rs ih =>
    intro old cap pos ys m qs bs hl hcap hpos h
    rw [List.length_cons, Nat.add_right_comm, List.flatMap_cons, List.append_assoc, List.cons_append, List.replicate_succ, List.cons_append]
    refine ⟨r, ⟨cap, pos + 640, rs.flatMap (recordBytes C) ++ ys⟩, false, rs ++ qs, _, ?_, ?_, rfl, rfl⟩
    · rw [← recordOver_iff hC, record_read hC r old cap pos _ (hl r (by simp)) (.inr ⟨hcap, hpos⟩)]
      exact ⟨rfl, rfl⟩
    · refine ih r cap (pos + 640) ys m qs bs (fun x hx => hl x (by simp [hx])) hcap (by omega) ?_
      rw [show pos + 640 + 640 * rs.length = pos + 640 * (r :: rs).length by simp; omega]
      rw [List.getLast?_cons, Option.getD_some] at h
      exact h

theorem holdsSections_bytes (f : P1File G1 G2) (hf : f.WF) (n : Nat) (hn : n < 65536) (tail : Bytes) :
    HoldsSections C ([f.power, UInt8.ofNat (n / 256), UInt8.ofNat (n % 256)] ++ f.params C ++ tail) f n
      ⟨2 ^ 20, 32 * f.tauG1.length + 32 * f.alphaG1.length + 32 * f.betaG1.length + 64 * f.tauG2.length + 64, tail⟩ := by
  have k1 := Codec.decodeN_encodeN hC.codec1 (2 ^ 20) 0 f.tauG1 (f.alphaG1.flatMap C.c1.bytes ++ (f.betaG1.flatMap C.c1.bytes
    ++ (f.tauG2.flatMap C.c2.bytes ++ (C.c2.bytes f.betaG2 ++ tail))))
  have k2 := Codec.decodeN_encodeN hC.codec1 (2 ^ 20) (0 + C.c1.size * f.tauG1.length) f.alphaG1 (f.betaG1.flatMap C.c1.bytes
    ++ (f.tauG2.flatMap C.c2.bytes ++ (C.c2.bytes f.betaG2 ++ tail)))
  have k3 := Codec.decodeN_encodeN hC.codec1 (2 ^ 20) (0 + C.c1.size * f.tauG1.length + C.c1.size * f.alphaG1.length) f.betaG1
    (f.tauG2.flatMap C.c2.bytes ++ (C.c2.bytes f.betaG2 ++ tail))
  have k4 := Codec.decodeN_encodeN hC.codec2 (2 ^ 20) (0 + C.c1.size * f.tauG1.length + C.c1.size * f.alphaG1.length
    + C.c1.size * f.betaG1.length) f.tauG2 (C.c2.bytes f.betaG2 ++ tail)
  have k5 := Codec.decode_bytes hC.codec2 (2 ^ 20) (0 + C.c1.size * f.tauG1.length + C.c1.size * f.alphaG1.length
    + C.c1.size * f.betaG1.length + C.c2.size * f.tauG2.length) f.betaG2 tail
  unfold Codec.encodeN at k1 k2 k3 k4
  conv at k1 => lhs; rw [hf.tauG1]
  conv at k2 => lhs; rw [hf.alphaG1]
  conv at k3 => lhs; rw [hf.betaG1]
  conv at k4 => lhs; rw [hf.tauG2]
  refine ⟨UInt8.ofNat (n / 256), UInt8.ofNat (n % 256), f.params C ++ tail, _, _, _, _, by simp, ?_, hf.power, ?_, k2, k3, k4, ?_⟩
  · simp; omega
  · rw [← k1]; simp [P1File.params, Rd.buffered]
  · rw [k5]; simp [hC.size1, hC.size2]

/-- the bytes of a file hold the file, whatever follows -/
theorem HoldsFile.file (f : P1File G1 G2) (hf : f.WF) (junk : Bytes) : HoldsFile C (f.encode C ++ junk) f := by
  have := recordsOver_bytes hC f.records Contribution.zero (2 ^ 20) (32 * f.tauG1.length + 32 * f.alphaG1.length + 32 * f.betaG1.length
    + 64 * f.tauG2.length + 64) junk 0 [] [] hf.hash (by decide) (by omega) ⟨rfl, rfl⟩
  rw [List.append_nil, List.append_nil, Nat.add_zero] at this
  refine ⟨_, _, ?_, this⟩
  have := holdsSections_bytes hC f hf f.records.length hf.count (f.records.flatMap (recordBytes C) ++ junk)
  simpa [P1File.encode] using this

/-! ### the hashes printed -/

theorem p1VerifyLoop_prints (n : Nat) : ∀ (rs : List (Contribution G1 G2)) (bs : List Bool) (i : Nat) (cur prev : Contribution G1 G2) (rd : Rd) (s : St Unit),
    RecordsOver C n cur rd rs bs → ∃ k ≤ n, linesWith verifying ((p1VerifyLoop C n i cur prev rd).run s).2.out
        = linesWith verifying s.out ++ hashLines i ((rs.take k).map (·.hash)) ∧
      (ChainOk C prev (rs.take (k - 1)) ∧ true ∉ bs.take (k - 1)) ∧ (k < n → ¬ (ChainOk C prev (rs.take k) ∧ true ∉ bs.take k)) := by
  induction n with
  | zero =>
    rintro rs bs i cur prev rd s ⟨rfl, rfl⟩
    exact ⟨0, le_rfl, by simp [p1VerifyLoop, hashLines], ⟨trivial, by simp⟩, fun h => by omega⟩
  | succ n ih =>
    rintro rs bs i cur prev rd s ⟨c, r', bad, cs, ds, h1, h2, rfl, rfl⟩
    obtain ⟨rfl, rfl, hbad⟩ := h1.unique (recordOver_read hC cur rd)
    unfold p1VerifyLoop
    have hp : linesWith verifying (s.out ++ [hashLine i ((Contribution.readFrom C).run (cur, rd)).2.1.hash])
        = linesWith verifying s.out ++ [hashLine i ((Contribution.readFrom C).run (cur, rd)).2.1.hash] := by
      simp [linesWith_append, linesWith, hashLine_starts, -String.reduceToList]
    rw [Go.bind_ok (println_run _ _)]
    rcases hv : verifyContribution C ((Contribution.readFrom C).run (cur, rd)).2.1 prev with e | _
    · rw [Go.bind_error (e := e) (by rw [quiet_run]; simp only [Go.lift_run, hv]; rfl)]
      refine ⟨1, by omega, ?_, ⟨trivial, by simp⟩, fun _ hc => ?_⟩
      · simpa [hashLines] using hp
      · have := (verifyContribution_iff hC _ _).mpr hc.1.1
        rw [hv] at this; cases this
    · rw [Go.bind_ok (a := ()) (by rw [quiet_run]; simp only [Go.lift_run, hv]; rfl)]
      rw [← hbad]
      cases bad with
      | true =>
        rw [Go.bind_error (e := .err "couldn't verify hash of contribution") (by rw [quiet_run]; rfl)]
        refine ⟨1, by omega, ?_, ⟨trivial, by simp⟩, fun _ hc => hc.2 (by simp)⟩
        simpa [hashLines] using hp
      | false =>
      rw [Go.bind_ok (a := ()) (by rw [quiet_run]; rfl)]
      obtain ⟨k, hk, e1, e2, e3⟩ := ih cs ds (i + 1) _ ((Contribution.readFrom C).run (cur, rd)).2.1 _ ⟨(), s.out ++ [_]⟩ h2
      have hs := (verifyContribution_iff hC _ _).mp hv
      refine ⟨k + 1, by omega, ?_, ?_, fun hk hc => e3 (by omega) ⟨hc.1.2, fun h => hc.2 (by simp [h])⟩⟩
      · refine e1.trans ?_
        rw [hp]
        simp [hashLines]
      · cases k with
        | zero => exact ⟨trivial, by simp⟩
        | succ k => exact ⟨⟨hs, e2.1⟩, by simpa using e2.2⟩

theorem p1Verify_reads {par : Par} {pol : MsmPolicy} {b : Nat} {vr : VerifyRand F} {input : Bytes} {tr : Option Bytes}
    {r : Except Fail Unit} {lines : List String} (h : p1Verify C par pol b vr input tr = (r, lines)) {hd : Header} {r0 rd : Rd}
    {v : (G1 × G1) × (G1 × G1) × (G1 × G1) × (G2 × G2) × G2} (h0 : Header.readFrom.run (Rd.file input 0) = (.ok hd, r0))
    (h1 : (readSections C par pol b vr (goPow2 hd.power)).run (Rd.buffered (2 ^ 20) r0.rest) = (.ok v, rd)) :
    ∃ out, linesWith verifying out = [] ∧
      ((p1VerifyRest C tr hd.contributions.toNat rd v.1 v.2.1 v.2.2.1 v.2.2.2.1 v.2.2.2.2).run ⟨(), out⟩).2.out = lines := by
  rcases p1Verify_split C par pol b vr _ tr r lines h with ⟨⟨e, rfl⟩, -⟩ | ⟨hd', r0', v', s, k1, k2, -, h3, s', h4, rfl⟩
  · unfold p1Verify at h
    rw [h0] at h
    dsimp only at h
    generalize hfirst : "Power := " ++ toString hd.power.toNat ++ " and  #Contributions := " ++ toString hd.contributions.toNat
      = first at h
    have hf : linesWith verifying [first] = [] := by
      rw [← hfirst, linesWith, List.filter_cons_of_neg, List.filter_nil]
      simp only [String.toList_append, List.append_assoc]; exact Bool.false_ne_true
    have m := (p1ReadSections_mute C par pol b vr (goPow2 hd.power)).2 ⟨Rd.buffered (2 ^ 20) r0.rest, [first]⟩
    have hlike := p1ReadSections_like C par pol b vr (goPow2 hd.power) ⟨Rd.buffered (2 ^ 20) r0.rest, [first]⟩
    rcases hx : (p1ReadSections C par pol b vr (goPow2 hd.power)).run ⟨Rd.buffered (2 ^ 20) r0.rest, [first]⟩ with ⟨r', s⟩
    rw [hx] at h m hlike
    obtain ⟨l1, l2⟩ := hlike
    dsimp only at l1 l2
    rw [h1] at l1 l2
    simp only at l1 l2
    subst l1
    rw [Prod.mk.injEq] at h
    refine ⟨s.out, m.trans hf, ?_⟩
    rw [← h.2, ← l2]
    rfl
  · rw [h0, Prod.mk.injEq, Except.ok.injEq] at k1
    obtain ⟨rfl, rfl⟩ := k1
    rw [h1, Prod.mk.injEq, Except.ok.injEq] at k2
    obtain ⟨rfl, rfl⟩ := k2
    exact ⟨_, h3, by rw [h4]⟩

/-- **C58**, phase 1 verification of any bytes, accepted or not: the hashes printed are those of the records read, from the first one up to
and including the first that is spoilt or is not a proven update of the one before it; none if the sections cannot be read or there is no record to
start from. -/
theorem C58_p1_verify_bytes (par : Par) (pol : MsmPolicy) (b : Nat) (hb : 0 < b) (vr : VerifyRand F) (input : Bytes) (tr : Option Bytes)
    (r : Except Fail Unit) (lines : List String) (h : p1Verify C par pol b vr input tr = (r, lines)) :
    (∀ f bs prev, ReadsFile C input f bs → defaultContribution C tr = .ok prev → ∃ k ≤ f.records.length,
      trackedHashes lines = (f.records.take k).map (fun r => some r.hash) ∧
        (ChainOk C prev (f.records.take (k - 1)) ∧ true ∉ bs.take (k - 1)) ∧
        (k < f.records.length → ¬ (ChainOk C prev (f.records.take k) ∧ true ∉ bs.take k))) ∧
    ((∀ f bs, ¬ ReadsFile C input f bs) ∨ (∀ prev, defaultContribution C tr ≠ .ok prev) → trackedHashes lines = []) := by
  constructor
  · rintro f bs prev ⟨n, rd, hf, hrs⟩ hp
    obtain ⟨hd, r0, h0, rfl, h1⟩ := sections_back hC (par := par) (pol := pol) (vr := vr) hb hf
    obtain ⟨out, h3, h4⟩ := p1Verify_reads hC h h0 h1
    obtain ⟨k, hk, e1, e2, e3⟩ := p1VerifyLoop_prints hC _ f.records bs 0 _ prev _ ⟨(), out⟩ hrs
    rw [hrs.length.1]
    refine ⟨k, hk, ?_, e2, e3⟩
    have : linesWith verifying lines = hashLines 0 ((f.records.take k).map (·.hash)) := by
      unfold p1VerifyRest at h4
      rw [Go.bind_ok (a := prev) (by rw [quiet_run]; simp only [Go.lift_run, hp]; rfl)] at h4
      simp only [h3, List.nil_append] at e1
      rcases hl : (p1VerifyLoop C hd.contributions.toNat 0 Contribution.zero prev rd).run ⟨(), out⟩ with ⟨e | fin, s1⟩
      · rw [Go.bind_error hl] at h4
        rw [hl] at e1
        rw [← h4]; exact e1
      · rw [Go.bind_ok hl] at h4
        rw [hl] at e1
        generalize hq : Go.run _ s1 = q at h4
        obtain ⟨q1, q2⟩ := q
        rw [← e1, ← h4]
        exact mute_run (p := verifying) (by mute) hq
    unfold trackedHashes
    rw [this, hashLines_read, List.map_map]
    rfl
  · intro hno
    unfold trackedHashes
    rcases p1Verify_split C par pol b vr _ tr r lines h with ⟨-, -, h2⟩ | ⟨hd, r0, v, s, h1, h2, -, h3, s', h4, rfl⟩
    · rw [h2]; rfl
    · rcases hno with hno | hno
      · obtain ⟨rs, bs, hrs⟩ := recordsOver_exists hC hd.contributions.toNat Contribution.zero s.st
        obtain ⟨f, rfl, hf, -⟩ := sections_read hC hb rs h1 h2
        exact (hno f bs ⟨_, _, hf, hrs⟩).elim
      · rcases hp : defaultContribution C tr with e | prev
        · unfold p1VerifyRest at h4
          rw [Go.bind_error (e := e) (by rw [quiet_run]; simp only [Go.lift_run, hp]; rfl), Prod.mk.injEq] at h4
          rw [← h4.2, h3]; rfl
        · exact (hno prev hp).elim

/-! ### a record that is not there -/

omit hC in
/-- bytes taken by a point of a record -/
def Slot.size : Slot G1 G2 → Nat
  | .g1 _ _ => 32
  | .g2 _ _ => 64

theorem Filled.len {fs : List (Slot G1 G2)} {c c' : Contribution G1 G2} {r r' : Rd} {e : Ending} (h : Filled C fs c r c' r' e) :
    e = .all → r'.rest.length + (fs.map Slot.size).sum ≤ r.rest.length := by
  induction h with
  | done => intro _; simp
  | g1 p e _ ih =>
    intro ha
    have := ih ha
    have e := decode_len e
    rw [hC.size1] at e
    simp only [List.map_cons, List.sum_cons, Slot.size]
    omega
  | g2 p e _ ih =>
    intro ha
    have := ih ha
    have e := decode_len e
    rw [hC.size2] at e
    simp only [List.map_cons, List.sum_cons, Slot.size]
    omega
  | kept1 => intro h; cases h
  | kept2 => intro h; cases h
  | spoilt1 => intro h; cases h
  | spoilt2 => intro h; cases h

omit hC [DecidableEq G1] [DecidableEq G2] [DecidableEq GT] in
theorem Filled.hash {fs : List (Slot G1 G2)} {c c' : Contribution G1 G2} {r r' : Rd} {e : Ending} (h : Filled C fs c r c' r' e) :
    (∀ f ∈ fs, match f with | .g1 _ put => ∀ p c, (put p c).hash = c.hash | .g2 _ put => ∀ p c, (put p c).hash = c.hash) → c'.hash = c.hash := by
  induction h with
  | done => intro _; rfl
  | g1 p e _ ih =>
    intro hh
    rw [ih fun f hf => hh f (by simp [hf])]
    exact hh _ List.mem_cons_self p _
  | g2 p e _ ih =>
    intro hh
    rw [ih fun f hf => hh f (by simp [hf])]
    exact hh _ List.mem_cons_self p _
  | kept1 => intro _; rfl
  | kept2 => intro _; rfl
  | spoilt1 => intro _; rfl
  | spoilt2 => intro _; rfl

/-- a record cut before its hash keeps the hash of the record before -/
theorem RecordOver.cut {old c : Contribution G1 G2} {r r' : Rd} {bad : Bool} (h : RecordOver C old r c r' bad) (hl : r.rest.length < 608) : c.hash = old.hash := by
  have hs : ((slots (G1 := G1) (G2 := G2)).map Slot.size).sum = 608 := by simp [slots, Slot.size]
  cases h with
  | stale _ _ h => exact h.hash (by simp [slots])
  | spoilt _ _ h => exact h.hash (by simp [slots])
  | noHash _ _ h _ => have := h.len hC rfl; omega
  | full _ _ _ h _ _ => have := h.len hC rfl; omega

omit hC [DecidableEq G1] [DecidableEq G2] [DecidableEq GT] in
theorem chainOk_take {rs : List (Contribution G1 G2)} : ∀ {prev : Contribution G1 G2} (k : Nat), ChainOk C prev rs → ChainOk C prev (rs.take k) := by
  induction rs with
  | nil => intro prev k h; simpa using h
  | cons r rs ih =>
    intro prev k h
    cases k with
    | zero => trivial
    | succ k => exact ⟨h.1, ih k h.2⟩

/-- **C58** fails for files that are not accepted: if the header counts one contribution more than there is, or the next one is cut before
its hash, then the hash of the last contribution is printed once more, as that of a further contribution. -/
theorem C58_p1_printed_twice (par : Par) (pol : MsmPolicy) (b : Nat) (hb : 0 < b) (vr : VerifyRand F) (f : P1File G1 G2) (hf : f.WF)
    (hcnt : f.records.length + 1 < 65536) (cut : Bytes) (hcut : cut.length < 608) (tr : Option Bytes) (prev : Contribution G1 G2)
    (hp : defaultContribution C tr = .ok prev) (hch : ChainOk C prev f.records) (r : Except Fail Unit) (lines : List String)
    (h : p1Verify C par pol b vr ([f.power, UInt8.ofNat ((f.records.length + 1) / 256), UInt8.ofNat ((f.records.length + 1) % 256)]
      ++ f.params C ++ (f.records.flatMap (recordBytes C) ++ cut)) tr = (r, lines)) :
    trackedHashes lines = f.records.map (fun r => some r.hash) ++ [some (f.records.getLast?.getD Contribution.zero).hash] := by
  obtain ⟨c, r', bad, hc⟩ : ∃ c r' bad, RecordOver C (f.records.getLast?.getD Contribution.zero) ⟨2 ^ 20, 32 * f.tauG1.length + 32 * f.alphaG1.length
      + 32 * f.betaG1.length + 64 * f.tauG2.length + 64 + 640 * f.records.length, cut⟩ c r' bad := ⟨_, _, _, recordOver_read hC _ _⟩
  have hr := recordsOver_bytes hC f.records Contribution.zero (2 ^ 20) (32 * f.tauG1.length + 32 * f.alphaG1.length + 32 * f.betaG1.length
    + 64 * f.tauG2.length + 64) cut 1 [c] [bad] hf.hash (by decide) (by omega) ⟨c, r', bad, [], [], hc, ⟨rfl, rfl⟩, rfl, rfl⟩
  have hs := holdsSections_bytes hC f hf (f.records.length + 1) hcnt (f.records.flatMap (recordBytes C) ++ cut)
  have hh : ReadsFile C _ { f with records := f.records ++ [c] } _ := ⟨_, _, hs, hr⟩
  obtain ⟨k, hk, e1, -, e3⟩ := (C58_p1_verify_bytes hC par pol b hb vr _ tr r lines h).1 _ _ prev hh hp
  simp only [List.length_append, List.length_singleton] at hk e3
  have : k = f.records.length + 1 := by
    by_contra hne
    refine e3 (by omega) ?_
    rw [List.take_append_of_le_length (by omega), List.take_append_of_le_length (by simp; omega)]
    exact ⟨chainOk_take k hch, fun h => by simpa using List.mem_of_mem_take h⟩
  subst this
  rw [e1, List.take_of_length_le (by simp), List.map_append, ← hc.cut hC hcut]
  rfl

/-! ### accepted bytes -/

/-- **C78**: what is read in accepted bytes is a well-formed file. -/
theorem C78_wellformed (par : Par) (pol : MsmPolicy) (b : Nat) (hb : 0 < b) (vr : VerifyRand F) (input : Bytes) (tr : Option Bytes)
    (f : P1File G1 G2) (hf : HoldsFile C input f) (h : verify C par pol b vr input tr = .ok ()) : f.WF := by
  obtain ⟨g, hg, prev, -, hch, -⟩ := (C78_exact hC par pol b hb vr input tr).mp h
  obtain rfl := C78_unique hf hg
  obtain ⟨n, rd, ⟨x, y, rest, r1, r2, r3, r4, -, hn, hp, k1, k2, k3, k4, -⟩, hr⟩ := hf
  have := x.toNat_lt
  have := y.toNat_lt
  exact ⟨hp, decodeN_length _ _ _ _ _ k1, decodeN_length _ _ _ _ _ k2, decodeN_length _ _ _ _ _ k3, decodeN_length _ _ _ _ _ k4,
    by rw [hr.length.1]; omega, fun r hr => by rw [chainOk_hash _ _ hch r hr, hC.sha_length]⟩

/-- **C78**: bytes in which the well-formed file `f` is read are accepted, on any machine and whatever the verifier draws, if and only if the
file `f` as the program would write it is. -/
theorem C78_same (par : Par) (pol : MsmPolicy) (b : Nat) (hb : 0 < b) (vr : VerifyRand F) (input junk : Bytes) (tr : Option Bytes)
    (f : P1File G1 G2) (hf : HoldsFile C input f) (hwf : f.WF) :
    verify C par pol b vr input tr = .ok () ↔ verify C par pol b vr (f.encode C ++ junk) tr = .ok () := by
  rw [C78_exact hC par pol b hb, C78_exact hC par pol b hb]
  have hg := HoldsFile.file hC f hwf junk
  constructor
  · rintro ⟨g, h, hh⟩
    obtain rfl := C78_unique hf h
    exact ⟨f, hg, hh⟩
  · rintro ⟨g, h, hh⟩
    obtain rfl := C78_unique hg h
    exact ⟨f, hf, hh⟩

/-- an accepting run on any bytes has a counterpart on a file -/
theorem p1_reencode {par : Par} {pol : MsmPolicy} {b : Nat} (hb : 0 < b) {vr : VerifyRand F} {input : Bytes} {tr : Option Bytes}
    {lines : List String} {f : P1File G1 G2} (hf : HoldsFile C input f) (h : p1Verify C par pol b vr input tr = (.ok (), lines)) :
    f.WF ∧ ∃ lines', p1Verify C par pol b vr (f.encode C ++ []) tr = (.ok (), lines') ∧ trackedHashes lines' = trackedHashes lines := by
  have hv : verify C par pol b vr input tr = .ok () := by
    rw [← (C58_same_programs C Gob.headerCodec par pol b ⟨0, 0, 0, 0, 0, 0⟩ vr ⟨0, 0⟩ ⟨fun _ _ => 0, fun _ _ => 0⟩ input [] tr).2.1, h]
  have hwf := C78_wellformed hC par pol b hb vr input tr f hf hv
  have hv' := (C78_same hC par pol b hb vr input [] tr f hf hwf).mp hv
  refine ⟨hwf, _, p1Verify_of hv', ?_⟩
  obtain ⟨-, e⟩ := p1_accepted hC hb hwf (p1Verify_of hv')
  rw [e]
  obtain ⟨g, hg, prev, hp, hch, -⟩ := (C78_exact hC par pol b hb vr input tr).mp hv
  obtain rfl := C78_unique hf hg
  obtain ⟨k, hk, e1, -, e3⟩ := (C58_p1_verify_bytes hC par pol b hb vr _ tr _ lines h).1 f _ prev hf hp
  have : k = f.records.length := by
    by_contra hne
    exact e3 (by omega) ⟨chainOk_take k hch, fun h => by simpa using List.mem_of_mem_take h⟩
  rw [e1, this, List.take_length]

/-- **C58**, phase 1, accepted bytes: the hashes of all records read are printed. -/
theorem C58_p1_accepted_bytes (par : Par) (pol : MsmPolicy) (b : Nat) (hb : 0 < b) (vr : VerifyRand F) (input : Bytes) (tr : Option Bytes)
    (lines : List String) (f : P1File G1 G2) (hf : HoldsFile C input f) (h : p1Verify C par pol b vr input tr = (.ok (), lines)) :
    trackedHashes lines = f.records.map (fun r => some r.hash) := by
  obtain ⟨hwf, lines', h', e⟩ := p1_reencode hC hb hf h
  rw [← e]
  exact (p1_accepted hC hb hwf h').2

/-- **C16** for any bytes: the last hash fixes all contributions (under the conditions of `C16_any_length_partial`). -/
theorem C16_bytes_partial (par par' : Par) (pol pol' : MsmPolicy) (b b' : Nat) (hb : 0 < b) (hb' : 0 < b') (vr vr' : VerifyRand F)
    (input input' : Bytes) (f g : P1File G1 G2) (hf : HoldsFile C input f) (hg : HoldsFile C input' g) (tr tr' : Option Bytes)
    (h : verify C par pol b vr input tr = .ok ()) (h' : verify C par' pol' b' vr' input' tr' = .ok ())
    (hlast : lastHash f.records = lastHash g.records) (hnd : ∀ r ∈ f.records, Nondegenerate r)
    (hsha : ∀ r ∈ f.records, ∀ r' ∈ g.records, NoShaCollision C r r')
    (hg2 : ∀ r ∈ f.records, ∀ x ∈ [] :: f.records.map (·.hash), ∀ x' ∈ [] :: g.records.map (·.hash), NoG2Collision C r x x') :
    f.records = g.records := by
  have w := C78_wellformed hC par pol b hb vr input tr f hf h
  have w' := C78_wellformed hC par' pol' b' hb' vr' input' tr' g hg h'
  exact C16_any_length_partial hC par par' pol pol' b b' hb hb' vr vr' f g w w' [] [] tr tr'
    ((C78_same hC par pol b hb vr input [] tr f hf w).mp h) ((C78_same hC par' pol' b' hb' vr' input' [] tr' g hg w').mp h') hlast hnd hsha hg2

/-- **C59** for any bytes, phase 1, the coordinator's record: if the hashes printed for accepted bytes begin with those printed for other
accepted bytes, then all contributions of these are in them, unchanged and at the same places. -/
theorem C59_phase1_kept_bytes (par par' : Par) (pol pol' : MsmPolicy) (b b' : Nat) (hb : 0 < b) (hb' : 0 < b') (vr vr' : VerifyRand F)
    (input input' : Bytes) (f g : P1File G1 G2) (hf : HoldsFile C input f) (hg : HoldsFile C input' g) (tr tr' : Option Bytes)
    (lines lines' : List String) (h : p1Verify C par pol b vr input tr = (.ok (), lines))
    (h' : p1Verify C par' pol' b' vr' input' tr' = (.ok (), lines')) (hkept : trackedHashes lines <+: trackedHashes lines')
    (hsha : ∀ r ∈ f.records, ∀ r' ∈ g.records, NoShaCollision C r r') : f.records <+: g.records := by
  obtain ⟨w, l, k, e⟩ := p1_reencode hC hb hf h
  obtain ⟨w', l', k', e'⟩ := p1_reencode hC hb' hg h'
  rw [← e, ← e'] at hkept
  exact C59_phase1_kept hC par par' pol pol' b b' hb hb' vr vr' f g w w' [] [] tr tr' l l' k k' hkept hsha

/-- **C59** for any bytes, phase 1: if the last hash printed for accepted bytes is among those printed for others, then all contributions of
the first are at the beginning of the second (under the conditions of `C59_phase1_attested_partial`). -/
theorem C59_phase1_attested_bytes_partial (par par' : Par) (pol pol' : MsmPolicy) (b b' : Nat) (hb : 0 < b) (hb' : 0 < b')
    (vr vr' : VerifyRand F) (input input' : Bytes) (f g : P1File G1 G2) (hf : HoldsFile C input f) (hg : HoldsFile C input' g)
    (tr tr' : Option Bytes) (lines lines' : List String) (h : p1Verify C par pol b vr input tr = (.ok (), lines))
    (h' : p1Verify C par' pol' b' vr' input' tr' = (.ok (), lines'))
    (attested : Bytes) (hlast : (trackedHashes lines).getLast? = some (some attested)) (hin : some attested ∈ trackedHashes lines')
    (hnd : ∀ r ∈ f.records, Nondegenerate r) (hsha : ∀ r ∈ f.records, ∀ r' ∈ g.records, NoShaCollision C r r')
    (hg2 : ∀ r ∈ f.records, ∀ x ∈ [] :: f.records.map (·.hash), ∀ x' ∈ [] :: g.records.map (·.hash), NoG2Collision C r x x') :
    f.records <+: g.records := by
  obtain ⟨w, l, k, e⟩ := p1_reencode hC hb hf h
  obtain ⟨w', l', k', e'⟩ := p1_reencode hC hb' hg h'
  rw [← e] at hlast
  rw [← e'] at hin
  exact C59_phase1_attested_partial hC par par' pol pol' b b' hb hb' vr vr' f g w w' [] [] tr tr' l l' k k' attested hlast hin hnd hsha hg2

/-- **C59** for any accepted bytes, phase 1: a contributor whose attested hash is printed finds their secrets in them. -/
theorem C59_phase1_secret_bytes (par par' : Par) (pol : MsmPolicy) (b b' : Nat) (hb : 2 ≤ b) (hb' : 0 < b') (rnd : Rand F)
    (vr : VerifyRand F) (f : P1File G1 G2) (hf : f.WF) (hpow : 1 ≤ f.power.toNat) (hcnt : f.records.length < 65535) (junk : Bytes)
    (input' : Bytes) (g : P1File G1 G2) (hg : HoldsFile C input' g) (tr : Option Bytes) (out : Bytes) (l lines : List String)
    (h : p1Contribute C par b rnd (f.encode C ++ junk) = (.ok (), out, l))
    (h' : p1Verify C par' pol b' vr input' tr = (.ok (), lines))
    (attested : Bytes) (hatt : attestedHashes l = [some attested]) (hin : some attested ∈ trackedHashes lines)
    (hs : rnd.sTau ≠ 0 ∧ rnd.sAlpha ≠ 0 ∧ rnd.sBeta ≠ 0)
    (hsha : ∀ r ∈ g.records, C.sha (recordBody C r) = attested → ∃ pre, out = pre ++ recordBody C r ++ attested) :
    ∃ first before r after, defaultContribution C tr = .ok first ∧ g.records = before ++ r :: after ∧ r.hash = attested ∧
      StepBy C (before.getLast?.getD first) r rnd.tau rnd.alpha rnd.beta := by
  obtain ⟨w', l', k', e'⟩ := p1_reencode hC hb' hg h'
  rw [← e'] at hin
  exact C59_phase1_secret_included hC par par' pol b b' hb hb' rnd vr f g hf hpow hcnt w' junk [] tr out l l' h k' attested hatt hin hs hsha

/-! ### one record counted many times -/

theorem recordOver_empty (old : Contribution G1 G2) (r : Rd) (hr : r.rest = []) : RecordOver C old r old r false := by
  have h : C.c1.decode.run r = (.error (.err "EOF"), r) := by
    unfold Codec.decode
    rw [Go.bind_error (e := .err "EOF") (s' := r)]
    rw [hC.size1]
    obtain ⟨cap, pos, rest⟩ := r
    simp only at hr
    simp [Rd.readFull, Rd.adv, hr]
  refine .stale _ _ (.kept1 _ h ?_)
  rw [hr]
  rintro ⟨b, more, hb, hl, -⟩
  have hs := hC.size1
  have := congrArg List.length hb
  simp only [List.length_nil, List.length_append] at this
  split at hl <;> omega

theorem recordsOver_empty (m : Nat) (old : Contribution G1 G2) (r : Rd) (hr : r.rest = []) :
    RecordsOver C m old r (List.replicate m old) (List.replicate m false) := by
  induction m with
  | zero => exact ⟨rfl, rfl⟩
  | succ m ih => exact ⟨old, r, false, _, _, recordOver_empty hC old r hr, ih, rfl, rfl⟩

/-- **C78**, a consequence: the number of contributions in the header of an accepted file need not be the number of records in it. For every
power and every number from 1 to 65535 there are accepted bytes that say so many contributions and hold one, whose hash is printed as often. -/
theorem C78_counted (p : UInt8) (hp : p.toNat ≤ 62) (n : Nat) (h1 : 1 ≤ n) (h2 : n < 65536) :
    ∃ r : Contribution G1 G2, ∀ (par : Par) (pol : MsmPolicy) (b : Nat) (_ : 0 < b) (vr : VerifyRand F), ∃ lines,
      p1Verify C par pol b vr ([p, UInt8.ofNat (n / 256), UInt8.ofNat (n % 256)] ++ (zeroFile p [] : P1File G1 G2).params C ++ recordBytes C r) none
        = (.ok (), lines) ∧ trackedHashes lines = List.replicate n (some r.hash) := by
  refine ⟨zeroRecord C, fun par pol b hb vr => ?_⟩
  have hzl : (zeroRecord C : Contribution G1 G2).hash.length = 32 := hC.sha_length _
  have hwf : (zeroFile p [] : P1File G1 G2).WF := by
    refine ⟨hp, by simp [zeroFile], by simp [zeroFile], by simp [zeroFile], by simp [zeroFile], by simp [zeroFile], ?_⟩
    simp [zeroFile]
  have hs := holdsSections_bytes hC (zeroFile p [] : P1File G1 G2) hwf n h2 (recordBytes C (zeroRecord C))
  rw [show (zeroFile p [] : P1File G1 G2).power = p from rfl] at hs
  have hr := recordsOver_bytes hC [(zeroRecord C : Contribution G1 G2)] Contribution.zero (2 ^ 20)
    (32 * (zeroFile p [] : P1File G1 G2).tauG1.length + 32 * (zeroFile p [] : P1File G1 G2).alphaG1.length
      + 32 * (zeroFile p [] : P1File G1 G2).betaG1.length + 64 * (zeroFile p [] : P1File G1 G2).tauG2.length + 64) [] (n - 1)
    (List.replicate (n - 1) (zeroRecord C)) (List.replicate (n - 1) false) (by simp [hzl]) (by decide) (by omega) (recordsOver_empty hC _ _ _ rfl)
  simp only [List.flatMap_cons, List.flatMap_nil, List.append_nil, List.length_singleton, List.singleton_append] at hr
  rw [show 1 + (n - 1) = n by omega, ← List.replicate_succ, show n - 1 + 1 = n by omega, ← List.replicate_add, show 1 + (n - 1) = n by omega] at hr
  have hh : HoldsFile C _ (zeroFile p (List.replicate n (zeroRecord C))) :=
    ⟨n, _, hs, by rw [show (zeroFile p (List.replicate n (zeroRecord C)) : P1File G1 G2).records.length = n by simp [zeroFile]]; exact hr⟩
  have hch : ∀ (m : Nat) (prev : Contribution G1 G2), ChainOk C prev (List.replicate m (zeroRecord C)) := by
    intro m
    induction m with
    | zero => intro prev; trivial
    | succ m ih => intro prev; exact ⟨⟨0, 0, 0, zeroRecord_step prev⟩, ih _⟩
  have hv := (C78_exact hC par pol b hb vr _ none).mpr ⟨_, hh, _, defaultContribution_none, hch _ _, zeroFile_sections _ _ _ _ _ _ (by
    have : n ≠ 0 := by omega
    simp [zeroFile, List.getLast?_replicate, this]
    rfl)⟩
  refine ⟨_, p1Verify_of hv, ?_⟩
  rw [C58_p1_accepted_bytes hC par pol b hb vr _ none _ _ hh (p1Verify_of hv)]
  simp [zeroFile]

/-- **C78**, a consequence: two contributions counted, one in the file, and after it bytes that do not decode. They are accepted if and only
if the failed attempt to decode them leaves the point as it was: coordinates that are out of range are accepted, coordinates of no point
are not. -/
theorem C78_undecodable (p : UInt8) (hp : p.toNat ≤ 62) (tail : Bytes)
    (htail : ∀ (cap pos : Nat) (q : G1) (r : Rd), C.c1.decode.run ⟨cap, pos, tail⟩ ≠ (.ok q, r)) (par : Par) (pol : MsmPolicy)
    (b : Nat) (hb : 0 < b) (vr : VerifyRand F) :
    verify C par pol b vr ([p, 0, 2] ++ (zeroFile p [] : P1File G1 G2).params C ++ (recordBytes C (zeroRecord C) ++ tail)) none = .ok () ↔
      ¬ Spoils C.c1 tail 0 := by
  have hzl : (zeroRecord C : Contribution G1 G2).hash.length = 32 := hC.sha_length _
  have hwf : (zeroFile p [] : P1File G1 G2).WF := by
    refine ⟨hp, by simp [zeroFile], by simp [zeroFile], by simp [zeroFile], by simp [zeroFile], by simp [zeroFile], ?_⟩
    simp [zeroFile]
  have hs := holdsSections_bytes hC (zeroFile p [] : P1File G1 G2) hwf 2 (by omega) (recordBytes C (zeroRecord C) ++ tail)
  rw [show (zeroFile p [] : P1File G1 G2).power = p from rfl] at hs
  obtain ⟨pos, hpos⟩ : ∃ pos, pos = 32 * (zeroFile p [] : P1File G1 G2).tauG1.length + 32 * (zeroFile p [] : P1File G1 G2).alphaG1.length
      + 32 * (zeroFile p [] : P1File G1 G2).betaG1.length + 64 * (zeroFile p [] : P1File G1 G2).tauG2.length + 64 := ⟨_, rfl⟩
  rw [← hpos] at hs
  obtain ⟨e, r', hd⟩ : ∃ e r', C.c1.decode.run ⟨2 ^ 20, pos + 640, tail⟩ = (.error e, r') := by
    rcases h : C.c1.decode.run ⟨2 ^ 20, pos + 640, tail⟩ with ⟨e | q, r'⟩
    · exact ⟨e, r', rfl⟩
    · exact (htail _ _ _ _ h).elim
  have hr : ∀ bad, RecordOver C (zeroRecord C) ⟨2 ^ 20, pos + 640, tail⟩ (zeroRecord C) r' bad →
      ReadsFile C ([p, 0, 2] ++ (zeroFile p [] : P1File G1 G2).params C ++ (recordBytes C (zeroRecord C) ++ tail))
        (zeroFile p [zeroRecord C, zeroRecord C]) [false, bad] := by
    intro bad h
    have hr := recordsOver_bytes hC [(zeroRecord C : Contribution G1 G2)] Contribution.zero (2 ^ 20) pos tail 1 [zeroRecord C] [bad]
      (by simp [hzl]) (by decide) (by omega) ⟨_, _, _, _, _, h, ⟨rfl, rfl⟩, rfl, rfl⟩
    simp only [List.flatMap_cons, List.flatMap_nil, List.append_nil] at hr
    exact ⟨2, _, hs, hr⟩
  by_cases hsp : Spoils C.c1 tail 0
  · refine iff_of_false ?_ (not_not.mpr hsp)
    exact C78_spoilt_rejected hC par pol b hb vr _ none _ _ (hr true (.spoilt _ _ (.spoilt1 _ hd hsp))) (by simp)
  · refine iff_of_true ?_ hsp
    refine (C78_exact hC par pol b hb vr _ none).mpr ⟨_, hr false (.stale _ _ (.kept1 _ hd hsp)), _, defaultContribution_none,
      ⟨⟨0, 0, 0, zeroRecord_step _⟩, ⟨0, 0, 0, zeroRecord_step _⟩, trivial⟩, zeroFile_sections _ _ _ _ _ _ rfl⟩

end

namespace Toy

/-- a value that is no point -/
theorem tail_bad (v : UInt8) (hv : 17 ≤ v.toNat) (cap pos : Nat) (q : K) (r : Rd) :
    curve.c1.decode.run ⟨cap, pos, 0x80 :: v :: List.replicate 30 0⟩ ≠ (.ok q, r) := by
  intro hh
  obtain ⟨_, _, h1, h2⟩ := Go.bind_eq_ok hh
  cases h1
  have : ¬ v.toNat < 17 := by omega
  simp [Codec.set, curve, codec, this] at h2

-- one contribution, two counted, then a value out of range: accepted
example (vr : VerifyRand K) : verify curve par .strict batchSize vr ([1, 0, 2] ++ (zeroFile 1 [] : P1File K K).params curve
    ++ (recordBytes curve (zeroRecord curve) ++ 0x80 :: 200 :: List.replicate 30 0)) none = .ok () := by
  refine (C78_undecodable lawful 1 (by decide) _ (tail_bad 200 (by decide)) par .strict batchSize (by decide) vr).mpr ?_
  rw [← spoils_iff _ (by decide)]
  decide +kernel

-- one contribution, two counted, then something that is not a point: not accepted
example (vr : VerifyRand K) : verify curve par .strict batchSize vr ([1, 0, 2] ++ (zeroFile 1 [] : P1File K K).params curve
    ++ (recordBytes curve (zeroRecord curve) ++ 0x80 :: 18 :: List.replicate 30 0)) none ≠ .ok () := by
  rw [ne_eq, C78_undecodable lawful 1 (by decide) _ (tail_bad 18 (by decide)) par .strict batchSize (by decide) vr, not_not,
    ← spoils_iff _ (by decide)]
  decide +kernel

theorem one_held (junk : Bytes) : HoldsFile curve (one.encode curve ++ junk) one := HoldsFile.file lawful one one_wf junk

theorem clean_held (junk : Bytes) : HoldsFile curve (clean.encode curve ++ junk) clean := HoldsFile.file lawful clean clean_wf junk

end Toy

example := (C78_exact Toy.lawful Toy.par .strict batchSize (by decide) Toy.vr _ none).mp Toy.one_accepted

-- three bytes are not accepted
example : ¬ ∃ f, HoldsFile Toy.curve [1, 0, 0] f ∧ ∃ prev, defaultContribution Toy.curve none = .ok prev ∧
    ChainOk Toy.curve prev f.records ∧ SectionsOk Toy.curve .strict batchSize Toy.vr f (f.records.getLast?.getD Contribution.zero) := by
  rw [← C78_exact Toy.lawful Toy.par .strict batchSize (by decide)]
  decide +kernel

example := C78_unique (Toy.one_held [1]) (Toy.one_held [1])

example := C78_wellformed Toy.lawful Toy.par .strict batchSize (by decide) Toy.vr _ none _ (Toy.one_held [7]) Toy.one_accepted

example := (C78_same Toy.lawful Toy.par .strict batchSize (by decide) Toy.vr _ [1, 2, 3] none _ (Toy.one_held [7]) Toy.one_wf).mp Toy.one_accepted

example := C78_counted Toy.lawful 3 (by decide) 500 (by decide) (by decide)

example := (C58_p1_verify_bytes Toy.lawful Toy.par .strict batchSize (by decide) Toy.vr _ none _ _ (p1Verify_of Toy.clean_accepted')).1 _ _ _
  (Toy.clean_held []) defaultContribution_none

-- no sections, no hashes
example : trackedHashes (p1Verify Toy.curve Toy.par .strict batchSize Toy.vr [1, 0, 0] none).2 = [] := by
  refine (C58_p1_verify_bytes Toy.lawful Toy.par .strict batchSize (by decide) Toy.vr [1, 0, 0] none _ _ rfl).2 (.inl ?_)
  rintro f bs ⟨n, rd, ⟨x, y, rest, r1, r2, r3, r4, h, -, -, k, -⟩, -⟩
  simp only [List.cons.injEq] at h
  obtain ⟨hp, -, -, rfl⟩ := h
  rw [← hp] at k
  have := decodeN_len _ k
  simp [Rd.buffered, Toy.lawful.size1] at this

-- two contributions, three counted: the hash of the second is printed twice
example : trackedHashes (p1Verify Toy.curve Toy.par .strict batchSize Toy.vr ([Toy.clean.power, 0, 3] ++ Toy.clean.params Toy.curve
      ++ (Toy.clean.records.flatMap (recordBytes Toy.curve) ++ [])) none).2
    = Toy.clean.records.map (fun r => some r.hash) ++ [some (Toy.clean.records.getLast?.getD Contribution.zero).hash] := by
  obtain ⟨prev, hp, hch, -⟩ := (verify_bytes Toy.lawful Toy.par .strict batchSize (by decide) Toy.vr Toy.clean Toy.clean_wf [] none).mp
    Toy.clean_accepted'
  have h := C58_p1_printed_twice Toy.lawful Toy.par .strict batchSize (by decide) Toy.vr Toy.clean Toy.clean_wf (by decide) [] (by decide) none
    prev hp hch _ _ Prod.mk.eta.symm
  have e : Toy.clean.records.length = 2 := by decide +kernel
  have e1 : UInt8.ofNat ((2 + 1) / 256) = 0 := by decide
  have e2 : UInt8.ofNat ((2 + 1) % 256) = 3 := by decide
  rw [e, e1, e2] at h
  exact h

example := C58_p1_accepted_bytes Toy.lawful Toy.par .strict batchSize (by decide) Toy.vr _ none _ _ (Toy.clean_held []) (p1Verify_of Toy.clean_accepted')

example := C16_bytes_partial Toy.lawful Toy.par Toy.par .strict .strict batchSize batchSize (by decide) (by decide) Toy.vr Toy.vr _ _ _ _
  (Toy.clean_held []) (Toy.clean_held []) none none Toy.clean_accepted' Toy.clean_accepted' rfl (by decide +kernel) (by decide +kernel)
  (by decide +kernel)

example := C59_phase1_kept_bytes Toy.lawful Toy.par Toy.par .strict .strict batchSize batchSize (by decide) (by decide) Toy.vr Toy.vr _ _ _ _
  (Toy.one_held [7]) (Toy.clean_held []) none none Toy.oneLines Toy.cleanLines (p1Verify_of Toy.one_accepted)
  (p1Verify_of Toy.clean_accepted') (by rw [Toy.oneLines_hashes, Toy.cleanLines_hashes]; decide +kernel) (by decide +kernel)

example := C59_phase1_attested_bytes_partial Toy.lawful Toy.par Toy.par .strict .strict batchSize batchSize (by decide) (by decide) Toy.vr Toy.vr
  _ _ _ _ (Toy.one_held [7]) (Toy.clean_held []) none none Toy.oneLines Toy.cleanLines (p1Verify_of Toy.one_accepted)
  (p1Verify_of Toy.clean_accepted') (lastHash Toy.one.records) (by rw [Toy.oneLines_hashes]; decide +kernel)
  (by rw [Toy.cleanLines_hashes]; decide +kernel) (by decide +kernel) (by decide +kernel) (by decide +kernel)

example : ∃ first before r after, defaultContribution Toy.curve none = .ok first ∧ Toy.clean.records = before ++ r :: after ∧
    r.hash = lastHash Toy.one.records ∧
    StepBy Toy.curve (before.getLast?.getD first) r Toy.rnd.tau Toy.rnd.alpha Toy.rnd.beta := by
  obtain ⟨hash, h⟩ := Toy.first_contribution
  exact C59_phase1_secret_bytes Toy.lawful Toy.par Toy.par .strict batchSize batchSize (by decide) (by decide) Toy.rnd Toy.vr
    (P1File.init Toy.curve 1) (init_wf Toy.curve 1 (by decide)) (by decide) (by decide) [] _ Toy.clean (Toy.clean_held []) none _ Toy.ownLines
    Toy.cleanLines (p1Contribute_of h) (p1Verify_of Toy.clean_accepted') _ Toy.ownLines_hash
    (by rw [Toy.cleanLines_hashes]; decide +kernel) (by decide +kernel)
    (fun r hr e => ⟨(Toy.one.encode Toy.curve).take ((Toy.one.encode Toy.curve).length - 640), by
      revert r; decide +kernel⟩)

end ZkSetup
