import Verif.Proofs.Phase2Any
import Verif.Proofs.Phase2Params
import Verif.Proofs.Encodings
import Verif.Spec.Accepted
/-
`phase2.Verify` and key extraction on arbitrary bytes whose parameters can be decoded.
-/
set_option linter.unusedSectionVars false

namespace ZkSetup

open Phase1 (wrap64 makeLen check)
open Phase2 Keys Encodings

section
variable {F G1 G2 GT : Type} [Field F] [AddCommGroup G1] [Module F G1] [AddCommGroup G2]
  [Module F G2] [AddCommGroup GT] [Module F GT] [DecidableEq G1] [DecidableEq G2] [DecidableEq GT]
variable {C : Curve F G1 G2 GT}

theorem ok_inj {σ α : Type} {a b : α} {s t : σ} {r : Except Fail α × σ} (h : r = (.ok a, s)) (h' : r = (.ok b, t)) : a = b ∧ s = t := by
  rw [h] at h'
  simp only [Prod.mk.injEq, Except.ok.injEq] at h'
  exact h'

theorem HoldsParams.unique {H : HeaderCodec} {file : Bytes} {h h' : Header} {d1 d1' : G1} {d2 d2' : G2} {z z' pkk pkk' : List G1}
    (a : HoldsParams C H file h d1 d2 z pkk) (b : HoldsParams C H file h' d1' d2' z' pkk') :
    h = h' ∧ d1 = d1' ∧ d2 = d2' ∧ z = z' ∧ pkk = pkk' := by
  obtain ⟨r1, r2, r3, r4, r5, a1, a2, a3, a4, a5⟩ := a
  obtain ⟨q1, q2, q3, q4, q5, b1, b2, b3, b4, b5⟩ := b
  obtain ⟨rfl, rfl⟩ := ok_inj a1 b1
  obtain ⟨rfl, rfl⟩ := ok_inj a2 b2
  obtain ⟨rfl, rfl⟩ := ok_inj a3 b3
  obtain ⟨rfl, rfl⟩ := ok_inj a4 b4
  obtain ⟨rfl, rfl⟩ := ok_inj a5 b5
  exact ⟨rfl, rfl, rfl, rfl, rfl⟩

omit [Field F] [AddCommGroup G1] [Module F G1] [AddCommGroup G2] [Module F G2] [AddCommGroup GT] [Module F GT] [DecidableEq G1]
  [DecidableEq G2] [DecidableEq GT] in
theorem HoldsParams.lengths {H : HeaderCodec} {file : Bytes} {h : Header} {d1 : G1} {d2 : G2} {z pkk : List G1}
    (a : HoldsParams C H file h d1 d2 z pkk) : z.length = (h.domain - 1).toNat ∧ pkk.length = h.witness.toNat := by
  obtain ⟨r1, r2, r3, r4, r5, -, -, -, a4, a5⟩ := a
  exact ⟨decodeN_length _ _ _ _ _ a4, decodeN_length _ _ _ _ _ a5⟩

theorem reads_of_decodeN {ts : List (Item G1 G2)} (n : Nat) : ∀ (r r' : Rd) (ps : List G1),
    (C.c1.decodeN n).run r = (.ok ps, r') → Reads C ts r' → Reads C (ps.map .g1 ++ ts) r := by
  induction n with
  | zero =>
    intro r r' ps h ht
    simp only [Codec.decodeN, Go.pure_run, Prod.mk.injEq, Except.ok.injEq] at h
    obtain ⟨rfl, rfl⟩ := h
    exact ht
  | succ n ih =>
    intro r r' ps h ht
    unfold Codec.decodeN at h
    obtain ⟨p, r1, h1, h⟩ := Go.bind_eq_ok h
    obtain ⟨qs, r2, h2, h⟩ := Go.bind_eq_ok h
    simp only [Go.pure_run, Prod.mk.injEq, Except.ok.injEq] at h
    obtain ⟨rfl, rfl⟩ := h
    exact ⟨r1, h1, ih _ _ _ h2 ht⟩

/-- the parameters of the bytes are those of the structured file `f` -/
theorem HoldsParams.reads {H : HeaderCodec} {file : Bytes} {h : Header} (f : P2File G1 G2)
    (a : HoldsParams C H file h f.delta1 f.delta2 f.z f.pkk) :
    ∃ rd, (Header.read H).run (Rd.buffered 4096 file) = (.ok h, rd) ∧ Reads C f.paramItems rd := by
  obtain ⟨r1, r2, r3, r4, r5, a1, a2, a3, a4, a5⟩ := a
  refine ⟨r1, a1, ?_⟩
  have e : f.paramItems = .g1 f.delta1 :: .g2 f.delta2 :: (f.z.map .g1 ++ (f.pkk.map .g1 ++ [])) := by simp [P2File.paramItems]
  rw [e]
  exact ⟨r2, a2, r3, a3, reads_of_decodeN _ _ _ _ a4 (reads_of_decodeN _ _ _ _ a5 trivial)⟩

theorem pkBody_shape (E : KeyEnv G1) {h h' : Header} (e : h.equal h' = true) : pkBody C E h = pkBody C E h' := by
  simp only [Header.equal, decide_eq_true_eq] at e
  obtain ⟨e1, e2, -, -, -, e6⟩ := e
  unfold pkBody
  rw [e1, e2, e6]

theorem splitPkBody_shape {h h' : Header} (e : h.equal h' = true) : splitPkBody C h = splitPkBody C h' := by
  simp only [Header.equal, decide_eq_true_eq] at e
  obtain ⟨e1, e2, -, -, -, e6⟩ := e
  unfold splitPkBody
  rw [e1, e2, e6]

theorem readVK_shape {O : Type} (E : KeyEnv G1) (ev : Bytes) {h h' : Header} (e : h.equal h' = true) :
    readVK (O := O) C E ev h = readVK C E ev h' := by
  simp only [Header.equal, decide_eq_true_eq] at e
  obtain ⟨e1, -⟩ := e
  unfold readVK
  rw [e1]

theorem onPh2_eq_ok {O α : Type} {x : Go Rd α} {s s' : KeySt O} {a : α} (h : (KeySt.onPh2 x).run s = (.ok a, s')) :
    x.run s.ph2 = (.ok a, s'.ph2) := by
  unfold KeySt.onPh2 at h
  simp only [Prod.mk.injEq] at h
  obtain ⟨h1, rfl⟩ := h
  exact Prod.ext h1 rfl

theorem onEvals_ph2 {O α : Type} {x : Go Rd α} {s s' : KeySt O} {a : α} (h : (KeySt.onEvals x).run s = (.ok a, s')) :
    s'.ph2 = s.ph2 := by
  unfold KeySt.onEvals at h
  simp only [Prod.mk.injEq] at h
  obtain ⟨-, rfl⟩ := h
  rfl

theorem write_ph2 {O : Type} {f : O → O} {s s' : KeySt O} {a : Unit} (h : (KeySt.write f).run s = (.ok a, s')) :
    s'.ph2 = s.ph2 := by
  unfold KeySt.write at h
  simp only [Prod.mk.injEq] at h
  obtain ⟨-, rfl⟩ := h
  rfl

theorem lift_run_eq_ok {σ α : Type} {x : Except Fail α} {s s' : σ} {a : α} (h : (Go.lift x : Go σ α).run s = (.ok a, s')) :
    x = .ok a ∧ s' = s := by
  rw [Go.lift_run, Prod.mk.injEq] at h
  exact ⟨h.1, h.2.symm⟩

theorem makeLen_ok_toNat {n : Int} {m : Nat} (h : makeLen n = .ok m) : m = n.toNat := by
  unfold makeLen at h
  split at h
  · cases h
  · cases h; rfl

/-- a proving key is only extracted from bytes whose parameters can be decoded -/
theorem extractPK_params (E : KeyEnv G1) (ph2 evals : Bytes) (h : (extractPK C E ph2 evals).1 = .ok ()) :
    ∃ hi d1 d2 z pkk, HoldsParams C E.header ph2 hi d1 d2 z pkk := by
  unfold extractPK extract at h
  rcases hr : (Header.read E.header).run (Rd.buffered 4096 ph2) with ⟨v, rd⟩
  rw [hr] at h
  cases v with
  | error e => cases h
  | ok hi =>
    simp only at h
    obtain ⟨s, h⟩ : ∃ s, (pkBody C E hi).run ⟨rd, Rd.buffered 4096 evals, []⟩ = (.ok (), s) :=
      ⟨((pkBody C E hi).run ⟨rd, Rd.buffered 4096 evals, []⟩).2, Prod.ext h rfl⟩
    generalize hs0 : (⟨rd, Rd.buffered 4096 evals, []⟩ : KeySt Bytes) = s0 at h
    unfold pkBody at h
    obtain ⟨_, s1, e1, h⟩ := Go.bind_eq_ok h
    obtain ⟨_, s2, e2, h⟩ := Go.bind_eq_ok h
    obtain ⟨_, s3, e3, h⟩ := Go.bind_eq_ok h
    obtain ⟨_, s4, e4, h⟩ := Go.bind_eq_ok h
    obtain ⟨_, s5, e5, h⟩ := Go.bind_eq_ok h
    obtain ⟨_, s6, e6, h⟩ := Go.bind_eq_ok h
    obtain ⟨d1, s7, e7, h⟩ := Go.bind_eq_ok h
    obtain ⟨_, s8, e8, h⟩ := Go.bind_eq_ok h
    obtain ⟨_, s9, e9, h⟩ := Go.bind_eq_ok h
    obtain ⟨d2, s10, e10, h⟩ := Go.bind_eq_ok h
    obtain ⟨_, s11, e11, h⟩ := Go.bind_eq_ok h
    obtain ⟨_, s12, e12, h⟩ := Go.bind_eq_ok h
    obtain ⟨_, s13, e13, h⟩ := Go.bind_eq_ok h
    obtain ⟨_, s14, e14, h⟩ := Go.bind_eq_ok h
    obtain ⟨n, s15, e15, h⟩ := Go.bind_eq_ok h
    obtain ⟨z, s16, e16, h⟩ := Go.bind_eq_ok h
    obtain ⟨_, s17, e17, h⟩ := Go.bind_eq_ok h
    obtain ⟨m, s18, e18, h⟩ := Go.bind_eq_ok h
    obtain ⟨pkk, s19, e19, -⟩ := Go.bind_eq_ok h
    have q : s6.ph2 = rd := by
      rw [write_ph2 e6, onEvals_ph2 e5, write_ph2 e4, onEvals_ph2 e3, write_ph2 e2, (lift_run_eq_ok e1).2, ← hs0]
    have q9 : s9.ph2 = s7.ph2 := by rw [onEvals_ph2 e9, write_ph2 e8]
    have q15 : s15.ph2 = s10.ph2 := by
      rw [(lift_run_eq_ok e15).2, write_ph2 e14, onEvals_ph2 e13, write_ph2 e12, onEvals_ph2 e11]
    have q18 : s18.ph2 = s16.ph2 := by rw [(lift_run_eq_ok e18).2, write_ph2 e17]
    have k7 := onPh2_eq_ok e7
    have k10 := onPh2_eq_ok e10
    have k16 := onPh2_eq_ok e16
    have k19 := onPh2_eq_ok e19
    rw [q] at k7
    rw [q9] at k10
    rw [q15, makeLen_ok_toNat (lift_run_eq_ok e15).1] at k16
    rw [q18, makeLen_ok_toNat (lift_run_eq_ok e18).1] at k19
    exact ⟨hi, d1, d2, z, pkk, rd, _, _, _, _, hr, k7, k10, k16, k19⟩

theorem extractKeys_params (E : KeyEnv G1) (ph2 evals : Bytes) (h : (extractKeys C E ph2 evals).1 = .ok ()) :
    ∃ hi d1 d2 z pkk, HoldsParams C E.header ph2 hi d1 d2 z pkk := by
  refine extractPK_params E ph2 evals ?_
  unfold extractKeys bothKeys at h
  rcases hpk : extractPK C E ph2 evals with ⟨v, o⟩
  rw [hpk] at h
  cases v with
  | error e => cases h
  | ok u => rfl

variable (hC : C.Lawful) {H : HeaderCodec} (hH : H.Lawful)
include hC hH

/-- a structured file holds its parameters -/
theorem P2File.holdsParams (f : P2File G1 G2) (hf : f.WF) (junk : Bytes) :
    HoldsParams C H (f.encode C H ++ junk) f.header f.delta1 f.delta2 f.z f.pkk := by
  obtain ⟨r1, r2, r3, r4, h1, h2, h3, h4, h5⟩ := P2File.readers hC hH hf 4096 junk
  rw [hf.pkk] at h5
  exact ⟨r1, r2, r3, r4, _, h1, h2, h3, by rw [header_z hC f hf]; exact h4, h5⟩

omit hH in
theorem extract_params {O : Type} (f : P2File G1 G2) {ts : List (Item G1 G2)}
    (body : Header → Go (KeySt O) Unit) {h h' : Header} (hb : body h = body h') (hbody : SimKey C f.paramItems ts (body h'))
    (bs bs' ev : Bytes) (a : HoldsParams C H bs h f.delta1 f.delta2 f.z f.pkk)
    (a' : HoldsParams C H bs' h' f.delta1 f.delta2 f.z f.pkk) (o : O) : extract H bs ev o body = extract H bs' ev o body := by
  obtain ⟨r, e1, r1⟩ := a.reads f
  obtain ⟨r', e2, r2⟩ := a'.reads f
  unfold extract
  simp only [e1, e2, hb]
  obtain ⟨k1, k2, _⟩ := hbody r r' (Rd.buffered 4096 ev) o r1 r2
  rw [k1, k2]

omit hH in
/-- extraction depends on the header, up to the counter, and on the parameters -/
theorem extractKeys_by_params (E : KeyEnv G1) (f : P2File G1 G2) (hf : f.WF) (h h' : Header) (he : h.equal f.header = true)
    (he' : h'.equal f.header = true) (bs bs' ev : Bytes) (a : HoldsParams C E.header bs h f.delta1 f.delta2 f.z f.pkk)
    (a' : HoldsParams C E.header bs' h' f.delta1 f.delta2 f.z f.pkk) :
    extractKeys C E bs ev = extractKeys C E bs' ev ∧ extractSplitKeys C E bs ev = extractSplitKeys C E bs' ev := by
  have hv : ∀ {O : Type}, SimKey (O := O) C f.paramItems (f.z.map .g1 ++ f.pkk.map .g1) (readVK C E ev h') := by
    intro O; rw [readVK_shape E ev he']; exact readVK_sim hC E ev f
  refine ⟨?_, ?_⟩
  · unfold extractKeys extractPK extractVK
    rw [extract_params hC f (pkBody C E) (by rw [pkBody_shape E he, pkBody_shape E he'])
        (by rw [pkBody_shape E he']; exact pkBody_sim hC E f hf) bs bs' ev a a',
      extract_params hC f (vkBody C E ev) (by simp only [vkBody, readVK_shape E ev he, readVK_shape E ev he'])
        (SimKey.bind hv fun _ => SimKey.write _) bs bs' ev a a']
  · unfold extractSplitKeys extractSplitPK extractSplitVK
    rw [extract_params hC f (splitPkBody C) (by rw [splitPkBody_shape he, splitPkBody_shape he'])
        (by rw [splitPkBody_shape he']; exact splitPkBody_sim hC f hf) bs bs' ev a a',
      extract_params hC f (splitVkBody C E ev) (by simp only [splitVkBody, readVK_shape E ev he, readVK_shape E ev he'])
        (SimKey.bind hv fun _ => SimKey.bind (SimKey.write _) fun _ => SimKey.write _) bs bs' ev a a']

/-- acceptance of bytes whose parameters can be decoded, against a structured origin -/
theorem verify2_params (par : Par) (b : Nat) (hb : 0 < b) (vr : VerifyRand F) (input : Bytes) (o : P2File G1 G2) (ho : o.WF)
    (junk : Bytes) (hi : Header) (d1 : G1) (d2 : G2) (z pkk : List G1) (hp : HoldsParams C H input hi d1 d2 z pkk)
    (h : Phase2.verify C H par b vr input (o.encode C H ++ junk) = .ok ()) :
    hi.contributions ≠ 0 ∧ hi.equal o.header = true ∧ z.length = o.z.length ∧ pkk.length = o.pkk.length ∧
      C.e o.delta1 d2 = C.e d1 o.delta2 ∧
      C.e (batchSum b vr.z z) d2 = C.e (batchSum b vr.z o.z) o.delta2 ∧
      C.e (batchSum b vr.pkk pkk) d2 = C.e (batchSum b vr.pkk o.pkk) o.delta2 ∧
      ∃ (rs : List (Contribution G1 G2)) (xs : List F) (rd : Rd) (used : Bytes), input = used ++ rd.rest ∧ RecordsAt C rd rs ∧
        rs.length = hi.contributions.toNat ∧ Chain2By C o.delta1 [] rs xs ∧ (rs.getLast?.map (·.delta)).getD 0 = d1 := by
  have hl := hp.lengths
  have hop := P2File.holdsParams hC hH o ho junk
  obtain ⟨i1, i2, i3, i4, i5, a1, a2, a3, a4, a5⟩ := hp
  obtain ⟨o1, o2, o3, o4, o5, b1, b2, b3, b4, b5⟩ := hop
  unfold Phase2.verify at h
  obtain ⟨s, h⟩ : ∃ s, (verifyBody C H par b vr).run (Rd.buffered 4096 input, Rd.buffered 4096 (o.encode C H ++ junk)) = (.ok (), s) :=
    ⟨_, Prod.ext h rfl⟩
  unfold verifyBody Header.read at h
  rw [Go.bind_ok (onInput_ok a1), Go.bind_ok (onOrigin_ok b1)] at h
  obtain ⟨_, s3, e3, h⟩ := Go.bind_eq_ok h
  obtain ⟨k3, rfl⟩ := lift_check_eq_ok e3
  obtain ⟨_, s4, e4, h⟩ := Go.bind_eq_ok h
  obtain ⟨k4, rfl⟩ := lift_check_eq_ok e4
  have e4' := k4
  simp only [Header.equal, decide_eq_true_eq] at e4'
  obtain ⟨-, ew, -, -, -, ed⟩ := e4'
  have hd : hi.domain - 1 = ((o.domain - 1 : Nat) : Int) := by
    have := ho.domain_pos
    rw [ed]; simp only [P2File.header]; omega
  have hw : hi.witness = (o.witness : Int) := ew
  have hdn : (hi.domain - 1).toNat = o.domain - 1 := by rw [hd]; rfl
  have hwn : hi.witness.toNat = o.witness := by rw [hw]; rfl
  rw [hdn] at a4
  rw [hwn] at a5
  have hdo : (o.header.domain - 1).toNat = o.domain - 1 := by rw [← ed]; exact hdn
  have hwo : o.header.witness.toNat = o.witness := rfl
  rw [hdo] at b4
  rw [hwo] at b5
  have hwrap : wrap64 (hi.domain - 1) = ((o.domain - 1 : Nat) : Int) := by
    have := ho.domain
    rw [hd, wrap64]
    omega
  rw [Go.bind_ok (onOrigin_ok b2), Go.bind_ok (onOrigin_ok b3), Go.bind_ok (onInput_ok a2), Go.bind_ok (onInput_ok a3)] at h
  obtain ⟨_, s9, e9, h⟩ := Go.bind_eq_ok h
  obtain ⟨k9, rfl⟩ := lift_check_eq_ok e9
  rw [hwrap] at h
  obtain ⟨_, s10, e10, h⟩ := Go.bind_eq_ok h
  rw [verifyParameter_ok C par b hb vr.z _ _ _ _ _ _ _ _ _ _ a4 b4, Prod.mk.injEq] at e10
  obtain ⟨e10, rfl⟩ := e10
  rw [hw] at h
  obtain ⟨_, s11, e11, h⟩ := Go.bind_eq_ok h
  rw [verifyParameter_ok C par b hb vr.pkk _ _ _ _ _ _ _ _ _ _ a5 b5, Prod.mk.injEq] at e11
  obtain ⟨e11, rfl⟩ := e11
  obtain ⟨c, s12, e12, h⟩ := Go.bind_eq_ok h
  have e12 := onInput_eq_ok e12
  have e13 := lift_check_eq_ok h
  obtain ⟨rs, xs, hrl, hrec, hch, hfin⟩ := verifyLoop2_records hC _ _ _ _ _ _ _ e12.1
  have hck : ∀ {c : Bool} {m : String} {u : Unit}, check c m = .ok u → c = true := by
    intro c m u h
    cases c with
    | true => rfl
    | false => cases h
  obtain ⟨u1, f1, -⟩ := hH.dec_local _ _ _ a1
  obtain ⟨u2, f2⟩ := Forward.decode C.c1 i1
  obtain ⟨u3, f3⟩ := Forward.decode C.c2 i2
  obtain ⟨u4, f4⟩ := Forward.decodeN C.c1 (o.domain - 1) i3
  obtain ⟨u5, f5⟩ := Forward.decodeN C.c1 o.witness i4
  rw [a2] at f2
  rw [a3] at f3
  rw [a4] at f4
  rw [a5] at f5
  refine ⟨by simpa using k3, k4, by rw [hl.1, hdn, ho.z], by rw [hl.2, hwn, ho.pkk], (sameRatio_iff hC _ _ _ _).mp k9,
    (sameRatio_iff hC _ _ _ _).mp (hck e10), (sameRatio_iff hC _ _ _ _).mp (hck e11), rs, xs, i5,
    u1 ++ u2 ++ u3 ++ u4 ++ u5, ?_, hrec, hrl, hch, ?_⟩
  · have h0 : input = (Rd.buffered 4096 input).rest := rfl
    rw [h0, f1, f2, f3, f4, f5]
    simp only [List.append_assoc]
  · have := e13.1
    rw [decide_eq_true_iff, hfin] at this
    rw [← this]
    cases rs.getLast? <;> rfl

end
end ZkSetup
