import Verif.Proofs.Encodings
import Verif.Props.Init
import Verif.Props.Keys
import Verif.Props.Phase1Truncate
import Verif.Props.Phase2Align
/-
C72: files are the same to the tool if they hold the same points, however these are encoded — for the commands that read from the
front. Those that compute positions need compressed points.
-/
set_option linter.unusedSectionVars false

namespace ZkSetup

open Encodings

section
variable {F G1 G2 GT : Type} [Field F] [AddCommGroup G1] [Module F G1] [AddCommGroup G2]
  [Module F G2] [AddCommGroup GT] [Module F GT] [DecidableEq G1] [DecidableEq G2] [DecidableEq GT]
variable {C : Curve F G1 G2 GT} (hC : C.Lawful)
include hC

/-- **C72**, phase 1: two files with the same contents, each point in either encoding and with anything behind them, get the same
verdict with the same message. -/
theorem C72_p1_verify (par : Par) (pol : Phase1.MsmPolicy) (b : Nat) (hb : 0 < b) (vr : Phase1.VerifyRand F) (f : P1File G1 G2)
    (hf : f.WF) (tr : Option Bytes) (bs bs' : Bytes) (h : f.Written C bs) (h' : f.Written C bs') :
    Phase1.verify C par pol b vr bs tr = Phase1.verify C par pol b vr bs' tr := by
  obtain ⟨rd, e, hr⟩ := p1_reads hC f hf bs h (2 ^ 20) (by decide)
  obtain ⟨rd', e', hr'⟩ := p1_reads hC f hf bs' h' (2 ^ 20) (by decide)
  unfold Phase1.verify
  simp only [e, e']
  obtain ⟨e1, hok⟩ := readSections_sim hC par pol b hb vr f hf _ _ hr hr'
  rcases h1 : (Phase1.readSections C par pol b vr (Phase1.goPow2 f.power)).run (Rd.buffered (2 ^ 20) rd.rest) with ⟨v, s⟩
  rcases h2 : (Phase1.readSections C par pol b vr (Phase1.goPow2 f.power)).run (Rd.buffered (2 ^ 20) rd'.rest) with ⟨v', s'⟩
  rw [h1, h2] at e1 hok
  simp only at e1 hok
  subst e1
  cases v with
  | error e => rfl
  | ok a =>
    obtain ⟨tau1, alpha1, beta1, tau2, betaG2⟩ := a
    obtain ⟨k, k'⟩ := hok _ rfl
    have hn : (UInt16.ofNat f.records.length).toNat = f.records.length := by
      have := hf.count
      simp; omega
    simp only [Phase1.verifyRest, hn]
    congr 1
    funext prev
    rw [verifyLoop_reads hC f.records _ prev s s' k k']

/-- **C72**, phase 1: a contribution to either file prints the same hash and writes the same file, with all points compressed. -/
theorem C72_p1_contribute (par : Par) (b : Nat) (hb : 0 < b) (rnd : Phase1.Rand F) (f : P1File G1 G2) (hf : f.WF) (bs bs' : Bytes)
    (h : f.Written C bs) (h' : f.Written C bs') : Phase1.contribute C par b rnd bs = Phase1.contribute C par b rnd bs' := by
  obtain ⟨rd, e, hr⟩ := p1_reads hC f hf bs h 4096 (by decide)
  obtain ⟨rd', e', hr'⟩ := p1_reads hC f hf bs' h' 4096 (by decide)
  unfold Phase1.contribute
  simp only [e, e']
  obtain ⟨e1, e2, _⟩ := contributeBody_sim hC par b hb rnd f hf _ _ [] hr hr'
  rw [e1, e2]

/-- the verdict depends neither on the encoding of the points nor on that of the header -/
theorem verify2_reads {H H' : Phase2.HeaderCodec} (hH : H.Lawful) (hH' : H'.Lawful) (par : Par) (b : Nat) (hb : 0 < b) (vr : Phase2.VerifyRand F)
    (f o : P2File G1 G2) (hf : f.WF) (ho : o.WF) (bs bs' os os' : Bytes) (h : f.Written C H bs) (h' : f.Written C H' bs')
    (k : o.ParamsWritten C H os) (k' : o.ParamsWritten C H' os') :
    Phase2.verify C H par b vr bs os = Phase2.verify C H' par b vr bs' os' := by
  obtain ⟨r, e1, r1⟩ := p2_reads hC H hH f hf bs h
  obtain ⟨r', e2, r2⟩ := p2_reads hC H' hH' f hf bs' h'
  obtain ⟨q, e3, q1⟩ := p2_reads_params hC H hH o ho os k
  obtain ⟨q', e4, q2⟩ := p2_reads_params hC H' hH' o ho os' k'
  unfold Phase2.verify Phase2.verifyBody
  rw [Go.bind_ok (onInput_ok e1), Go.bind_ok (onInput_ok e2), Go.bind_ok (onOrigin_ok e3), Go.bind_ok (onOrigin_ok e4)]
  by_cases hs : f.header.equal o.header = true
  · obtain ⟨s1, s2, s3, s4, s5, s6⟩ := (header_equal_iff f o).mp hs
    have d1 := hf.domain
    have d2 := hf.domain_pos
    have hz : Phase1.wrap64 (f.header.domain - 1) = f.z.length := by
      rw [hf.z]; simp only [P2File.header, Phase1.wrap64]; omega
    have hz' : Phase1.wrap64 (f.header.domain - 1) = o.z.length := by
      rw [ho.z, ← s6]; simp only [P2File.header, Phase1.wrap64]; omega
    have hn : f.header.contributions.toNat = f.records.length := by simp [P2File.header]
    rw [hn]
    have ep : ∀ g : P2File G1 G2, g.items = .g1 g.delta1 :: .g2 g.delta2 :: (g.z.map .g1 ++ (g.pkk.map .g1
        ++ (g.records.flatMap record2Items ++ []))) := by intro g; simp [P2File.items, P2File.paramItems]
    have eo : o.paramItems = .g1 o.delta1 :: .g2 o.delta2 :: (o.z.map .g1 ++ (o.pkk.map .g1 ++ [])) := by
      simp [P2File.paramItems]
    rw [ep] at r1 r2
    rw [eo] at q1 q2
    refine (Sim2.bind (Sim2.lift _) fun _ => Sim2.bind (Sim2.lift _) fun _ => Sim2.bind (Sim2.onOrigin (Sim.of_reads hC fun _ h =>
      reads_g1 hC h)) fun _ => Sim2.bind (Sim2.onOrigin (Sim.of_reads hC fun _ h => reads_g2 hC h)) fun _ => Sim2.bind (Sim2.onInput
      (Sim.of_reads hC fun _ h => reads_g1 hC h)) fun _ => Sim2.bind (Sim2.onInput (Sim.of_reads hC fun _ h => reads_g2 hC h)) fun _ =>
      Sim2.bind (Sim2.lift _) fun _ => Sim2.bind (verifyParameter_sim hC par b hb _ _ _ _ _ _ _ hz hz') fun _ =>
      Sim2.bind (verifyParameter_sim hC par b hb _ _ _ _ _ _ _ (by simp [P2File.header, hf.pkk])
        (by simp [P2File.header, ho.pkk, s2])) fun _ =>
      Sim2.bind (Sim2.onInput (verifyLoop2_sim hC _ _ _ _)) fun _ => Sim2.lift _ : Sim2 C _ _ [] [] _) r r' q q' r1 r2 q1 q2 |>.1
  · rw [Bool.not_eq_true] at hs
    by_cases h0 : f.header.contributions = 0
    · simp [hs, h0, Phase1.check, Go.bind_run]
    · simp [hs, h0, Phase1.check, Go.bind_run]

/-- **C72**, phase 2: the verdict does not depend on the encoding of the points of either file, as long as no hash of the submitted
file lies across a buffer boundary in either encoding. -/
theorem C72_p2_verify_partial {H : Phase2.HeaderCodec} (hH : H.Lawful) (par : Par) (b : Nat) (hb : 0 < b) (vr : Phase2.VerifyRand F)
    (f o : P2File G1 G2) (hf : f.WF) (ho : o.WF) (bs bs' os os' : Bytes) (h : f.Written C H bs) (h' : f.Written C H bs')
    (k : o.ParamsWritten C H os) (k' : o.ParamsWritten C H os') :
    Phase2.verify C H par b vr bs os = Phase2.verify C H par b vr bs' os' :=
  verify2_reads hC hH hH par b hb vr f o hf ho bs bs' os os' h h' k k'

/-- **C72**, phase 2: a contribution to either file prints the same hash and writes the same file, under the same condition. -/
theorem C72_p2_contribute_partial {H : Phase2.HeaderCodec} (hH : H.Lawful) (par : Par) (b : Nat) (hb : 0 < b) (rnd : Phase2.Rand F)
    (f : P2File G1 G2) (hf : f.WF) (bs bs' : Bytes) (h : f.Written C H bs) (h' : f.Written C H bs') :
    Phase2.contribute C H par b rnd bs = Phase2.contribute C H par b rnd bs' := by
  obtain ⟨r, e1, r1⟩ := p2_reads hC H hH f hf bs h
  obtain ⟨r', e2, r2⟩ := p2_reads hC H hH f hf bs' h'
  unfold Phase2.contribute Phase2.contributeBody
  rw [Go.bind_ok (IOSt.onRd_ok e1), Go.bind_ok (IOSt.onRd_ok e2)]
  obtain ⟨k1, k2, _⟩ := contributeWith_sim hC H par b hb rnd f hf _ _ [] r1 r2
  simp only [k1, k2]

theorem extract_reads {O : Type} {H : Phase2.HeaderCodec} (hH : H.Lawful) (f : P2File G1 G2) (hf : f.WF)
    {ts : List (Item G1 G2)} (body : Phase2.Header → Go (Keys.KeySt O) Unit) (hbody : SimKey C f.paramItems ts (body f.header))
    (bs bs' ev : Bytes) (h : f.ParamsWritten C H bs) (h' : f.ParamsWritten C H bs') (o : O) :
    Keys.extract H bs ev o body = Keys.extract H bs' ev o body := by
  obtain ⟨r, e1, r1⟩ := p2_reads_params hC H hH f hf bs h
  obtain ⟨r', e2, r2⟩ := p2_reads_params hC H hH f hf bs' h'
  unfold Keys.extract
  simp only [e1, e2]
  obtain ⟨k1, k2, _⟩ := hbody r r' (Rd.buffered 4096 ev) o r1 r2
  rw [k1, k2]

/-- **C72**, keys: the keys and the split keys, and the error if there is one, do not depend on the encoding of the points of the
phase 2 file. -/
theorem C72_keys (E : Keys.KeyEnv G1) (hH : E.header.Lawful) (f : P2File G1 G2) (hf : f.WF) (bs bs' ev : Bytes)
    (h : f.ParamsWritten C E.header bs) (h' : f.ParamsWritten C E.header bs') :
    Keys.extractKeys C E bs ev = Keys.extractKeys C E bs' ev ∧ Keys.extractSplitKeys C E bs ev = Keys.extractSplitKeys C E bs' ev := by
  refine ⟨?_, ?_⟩
  · unfold Keys.extractKeys Keys.extractPK Keys.extractVK
    rw [extract_reads hC hH f hf _ (pkBody_sim hC E f hf) bs bs' ev h h',
      extract_reads hC hH f hf (Keys.vkBody C E ev)
        (SimKey.bind (readVK_sim hC E ev f) fun _ => SimKey.write _) bs bs' ev h h']
  · unfold Keys.extractSplitKeys Keys.extractSplitPK Keys.extractSplitVK
    rw [extract_reads hC hH f hf _ (splitPkBody_sim hC f hf) bs bs' ev h h',
      extract_reads hC hH f hf (Keys.splitVkBody C E ev)
        (SimKey.bind (readVK_sim hC E ev f) fun _ => SimKey.bind (SimKey.write _) fun _ => SimKey.write _) bs bs' ev h h']

end

/-! ### which files these are -/

section
variable {F G1 G2 GT : Type} [Field F] [AddCommGroup G1] [Module F G1] [AddCommGroup G2]
  [Module F G2] [AddCommGroup GT] [Module F GT] [DecidableEq G1] [DecidableEq G2] [DecidableEq GT]
variable {C : Curve F G1 G2 GT}

/-- the encoding the tool itself writes -/
def Item.bytes (C : Curve F G1 G2 GT) : Item G1 G2 → Bytes
  | .g1 p => C.c1.bytes p
  | .g2 p => C.c2.bytes p
  | .hash h => h

/-- all points uncompressed -/
def Item.rawBytes (C : Curve F G1 G2 GT) : Item G1 G2 → Bytes
  | .g1 p => C.c1.rawBytes p
  | .g2 p => C.c2.rawBytes p
  | .hash h => h

/-- a choice of encodings, one for each item -/
theorem encodes_choice (w : Item G1 G2 → Bytes) (hw1 : ∀ p, C.c1.Writes p (w (.g1 p))) (hw2 : ∀ p, C.c2.Writes p (w (.g2 p)))
    (hw : ∀ h, w (.hash h) = h) (junk : Bytes) (ts : List (Item G1 G2)) : ∀ (pos : Nat), (∀ h, Item.hash h ∈ ts → h.length = 32) →
      Encodes C (fun _ => True) pos ts (ts.flatMap w ++ junk) := by
  induction ts with
  | nil => intros; trivial
  | cons t ts ih =>
    intro pos hl
    have hl' : ∀ h, Item.hash h ∈ ts → h.length = 32 := fun h hh => hl h (List.mem_cons_of_mem _ hh)
    rw [List.flatMap_cons, List.append_assoc]
    cases t with
    | g1 p => exact ⟨_, _, rfl, hw1 p, ih _ hl'⟩
    | g2 p => exact ⟨_, _, rfl, hw2 p, ih _ hl'⟩
    | hash h => exact ⟨_, by rw [hw], hl h (List.mem_cons_self ..), trivial, ih _ hl'⟩

theorem P1File.items_hash {f : P1File G1 G2} (hf : f.WF) (h : Bytes) (hh : Item.hash h ∈ f.items) : h.length = 32 := by
  simp only [P1File.items, List.mem_append, List.mem_map, List.mem_flatMap, recordItems, keyItems, List.mem_cons, reduceCtorEq,
    and_false, exists_false, List.not_mem_nil, or_false, false_or, Item.hash.injEq] at hh
  obtain ⟨r, hr, rfl⟩ := hh
  exact hf.hash r hr

/-- the tool's own encoding, followed by anything -/
theorem C72_p1_compressed (f : P1File G1 G2) (hf : f.WF) (junk : Bytes) : f.Written C (f.encode C ++ junk) := by
  refine ⟨f.items.flatMap (Item.bytes C) ++ junk, ?_, encodes_choice _ (fun _ => .inl rfl) (fun _ => .inl rfl) (fun _ => rfl) junk _ _
    (P1File.items_hash hf)⟩
  have e : (fun r : Phase1.Contribution G1 G2 => recordBytes C r) = fun r => (recordItems r).flatMap (Item.bytes C) := by
    funext r
    simp [recordBytes, recordBody, keyBytes, recordItems, keyItems, Item.bytes]
  have e' : recordBytes C = fun r : Phase1.Contribution G1 G2 => (recordItems r).flatMap (Item.bytes C) := e
  simp [P1File.encode, P1File.params, P1File.items, List.flatMap_assoc, List.flatMap_map, e', Item.bytes]

/-- a file with all points uncompressed, followed by anything -/
theorem C72_p1_uncompressed (f : P1File G1 G2) (hf : f.WF) (junk : Bytes) :
    f.Written C ([f.power, UInt8.ofNat (f.records.length / 256), UInt8.ofNat (f.records.length % 256)]
      ++ (f.items.flatMap (Item.rawBytes C) ++ junk)) :=
  ⟨_, rfl, encodes_choice _ (fun _ => .inr rfl) (fun _ => .inr rfl) (fun _ => rfl) junk _ _ (P1File.items_hash hf)⟩

/-- the first point uncompressed, the others compressed -/
def P1File.rawFirst (C : Curve F G1 G2 GT) (f : P1File G1 G2) : Bytes :=
  [f.power, UInt8.ofNat (f.records.length / 256), UInt8.ofNat (f.records.length % 256)]
    ++ ((f.items.take 1).flatMap (Item.rawBytes C) ++ (f.items.drop 1).flatMap (Item.bytes C))

theorem P1File.rawFirst_written (f : P1File G1 G2) (hf : f.WF) : f.Written C (f.rawFirst C) := by
  refine ⟨_, rfl, ?_⟩
  have hh := P1File.items_hash hf
  have h1 : 0 < f.tauG1.length := by have := hf.tauG1; have := Nat.one_le_two_pow (n := f.power.toNat); omega
  obtain ⟨p, ts, hi⟩ : ∃ p ts, f.items = .g1 p :: ts := by
    unfold P1File.items
    cases ht : f.tauG1 with
    | nil => rw [ht] at h1; simp at h1
    | cons p ps => exact ⟨p, _, rfl⟩
  rw [hi]
  refine ⟨C.c1.rawBytes p, ts.flatMap (Item.bytes C), by simp [Item.rawBytes], .inr rfl, ?_⟩
  have := encodes_choice (C := C) (Item.bytes C) (fun _ => .inl rfl) (fun _ => .inl rfl) (fun _ => rfl) [] ts
    (3 + (C.c1.rawBytes p).length) (fun h hm => hh h (by rw [hi]; exact List.mem_cons_of_mem _ hm))
  rwa [List.append_nil] at this

/-- the tool's own encoding of the parameters, followed by anything -/
theorem C72_p2_params_compressed (H : Phase2.HeaderCodec) (o : P2File G1 G2) (junk : Bytes) :
    o.ParamsWritten C H (o.encode C H ++ junk) := by
  refine ⟨o.paramItems.flatMap (Item.bytes C) ++ (o.records.flatMap (record2Bytes C) ++ junk), ?_,
    encodes_choice _ (fun _ => .inl rfl) (fun _ => .inl rfl) (fun _ => rfl) _ _ _ (by intro h; simp [P2File.paramItems])⟩
  simp [P2File.encode, P2File.params, P2File.paramItems, List.flatMap_map, Item.bytes]

section
variable (hC : C.Lawful)
include hC

theorem encodes_g1s {fits : Nat → Prop} (ts : List (Item G1 G2)) (t : Bytes) (ps : List G1) : ∀ pos,
    Encodes C fits (pos + 32 * ps.length) ts t → Encodes C fits pos (ps.map .g1 ++ ts) (ps.flatMap C.c1.bytes ++ t) := by
  induction ps with
  | nil => intro pos h; exact h
  | cons p ps ih =>
    intro pos h
    rw [List.flatMap_cons, List.append_assoc]
    refine ⟨_, _, rfl, .inl rfl, ih _ ?_⟩
    rw [hC.codec1.bytes_length, hC.size1]
    rw [List.length_cons] at h
    have e : pos + 32 + 32 * ps.length = pos + 32 * (ps.length + 1) := by omega
    rw [e]
    exact h

theorem encodes_records2 {fits : Nat → Prop} (junk : Bytes) (rs : List (Phase2.Contribution G1 G2)) : ∀ pos,
    (∀ r ∈ rs, r.hash.length = 32) → (∀ j < rs.length, fits (pos + 192 * j + 160)) →
    Encodes C fits pos (rs.flatMap record2Items) (rs.flatMap (record2Bytes C) ++ junk) := by
  have l1 := hC.codec1.bytes_length
  have l2 := hC.codec2.bytes_length
  simp only [hC.size1] at l1
  simp only [hC.size2] at l2
  induction rs with
  | nil => intros; trivial
  | cons r rs ih =>
    intro pos hh hf
    have h0 := hf 0 (by simp)
    have hrest := ih (pos + 192) (fun q hq => hh q (List.mem_cons_of_mem _ hq)) (fun j hj => by
      have := hf (j + 1) (by simp; omega)
      have e : pos + 192 + 192 * j + 160 = pos + 192 * (j + 1) + 160 := by omega
      rw [e]
      exact this)
    rw [List.flatMap_cons, List.flatMap_cons, record2Bytes, record2Body, keyBytes]
    simp only [record2Items, keyItems, List.append_assoc, List.cons_append, List.nil_append]
    refine ⟨_, _, rfl, .inl rfl, _, _, rfl, .inl rfl, _, _, rfl, .inl rfl, _, _, rfl, .inl rfl, _, rfl,
      hh r (List.mem_cons_self ..), ?_, ?_⟩
    · simp only [l1, l2]
      have e : pos + 32 + 32 + 32 + 64 = pos + 192 * 0 + 160 := by omega
      rw [e]
      exact h0
    · simp only [l1, l2]
      have e : pos + 32 + 32 + 32 + 64 + 32 = pos + 192 := by omega
      rw [e]
      exact hrest

/-- the file with `[δ]1` in the given encoding, all other points compressed -/
theorem p2_written (H : Phase2.HeaderCodec) (f : P2File G1 G2) (hf : f.WF) (e : Bytes) (he : C.c1.Writes f.delta1 e) (junk : Bytes)
    (hs : ∀ j < f.records.length, ((H.enc f.header).length + e.length + 64 + 32 * f.z.length + 32 * f.pkk.length + 192 * j + 160)
      % 4096 + 32 ≤ 4096) :
    f.Written C H (H.enc f.header ++ e ++ C.c2.bytes f.delta2 ++ f.z.flatMap C.c1.bytes ++ f.pkk.flatMap C.c1.bytes
      ++ f.records.flatMap (record2Bytes C) ++ junk) := by
  refine ⟨e ++ (C.c2.bytes f.delta2 ++ (f.z.flatMap C.c1.bytes ++ (f.pkk.flatMap C.c1.bytes
      ++ (f.records.flatMap (record2Bytes C) ++ junk)))), by simp, ?_⟩
  have ei : f.items = .g1 f.delta1 :: .g2 f.delta2 :: (f.z.map .g1 ++ (f.pkk.map .g1 ++ f.records.flatMap record2Items)) := by
    simp [P2File.items, P2File.paramItems]
  rw [ei]
  refine ⟨_, _, rfl, he, _, _, rfl, .inl rfl, ?_⟩
  refine encodes_g1s hC _ _ _ _ (encodes_g1s hC _ _ _ _ (encodes_records2 hC _ _ _ hf.hash ?_))
  rw [hC.codec2.bytes_length, hC.size2]
  exact hs

/-- the tool's own encoding, if no hash lies across a buffer boundary -/
theorem C72_p2_compressed (H : Phase2.HeaderCodec) (f : P2File G1 G2) (hf : f.WF) (hs : f.NoStraddle H) (junk : Bytes) :
    f.Written C H (f.encode C H ++ junk) := by
  have := p2_written hC H f hf _ (.inl rfl) junk (by
    rw [hC.codec1.bytes_length, hC.size1]
    exact hs)
  simpa [P2File.encode, P2File.params] using this

end

/-! ### acceptance -/

/-- the header with `k` bytes before it -/
def padded (k : Nat) (H : Phase2.HeaderCodec) : Phase2.HeaderCodec where
  enc h := List.replicate k 0 ++ H.enc h
  dec := Rd.readFull k >>= fun _ => H.dec

theorem readFull_ok {k : Nat} {r r' : Rd} {b : Bytes} (h : (Rd.readFull k).run r = (.ok b, r')) :
    r.rest = b ++ r'.rest ∧ b.length = k ∧ r'.cap = r.cap := by
  unfold Rd.readFull at h
  simp only at h
  split at h
  · simp only [Prod.mk.injEq, Except.ok.injEq] at h
    obtain ⟨rfl, rfl⟩ := h
    exact ⟨by simp, by simp; omega, rfl⟩
  · simp at h

theorem padded_lawful (k : Nat) {H : Phase2.HeaderCodec} (hH : H.Lawful) : (padded k H).Lawful where
  dec_enc h hr cap pos ys := by
    simp only [padded, List.append_assoc]
    rw [Go.bind_ok (Rd.readFull_append cap pos _ _ k (by simp)), hH.dec_enc h hr]
    simp [Nat.add_assoc]
  dec_local r r' h hrun := by
    obtain ⟨b, s, h1, h2⟩ := Go.bind_eq_ok hrun
    obtain ⟨e1, e2, _⟩ := readFull_ok h1
    obtain ⟨used, e3, h3⟩ := hH.dec_local s r' h h2
    refine ⟨b ++ used, by rw [e1, e3, List.append_assoc], fun cap pos ys => ?_⟩
    simp only [padded, List.append_assoc]
    rw [Go.bind_ok (Rd.readFull_append cap pos _ _ k e2), h3]
    simp [e2, Nat.add_assoc]
  dec_cap r r' h hrun := by
    obtain ⟨b, s, h1, h2⟩ := Go.bind_eq_ok hrun
    rw [hH.dec_cap s r' h h2, (readFull_ok h1).2.2]
  dec_range r r' h hrun := by
    obtain ⟨b, s, h1, h2⟩ := Go.bind_eq_ok hrun
    exact hH.dec_range s r' h h2
  dec_total r r' m hrun := by
    simp only [padded, Go.bind_run] at hrun
    split at hrun
    · exact hH.dec_total _ _ _ hrun
    · rename_i e s' h1
      simp only [Prod.mk.injEq, Except.error.injEq] at hrun
      unfold Rd.readFull at h1
      simp only at h1
      split at h1
      · simp at h1
      · simp only [Prod.mk.injEq, Except.error.injEq] at h1
        rw [hrun.1] at h1
        simp at h1

variable (hC : C.Lawful)
include hC

/-- **C72**, phase 2: what acceptance means, for every encoding of the points of the two files in which no hash of the submitted file
lies across a buffer boundary. -/
theorem C72_p2_accept_partial {H : Phase2.HeaderCodec} (hH : H.Lawful) (par : Par) (b : Nat) (hb : 0 < b) (vr : Phase2.VerifyRand F)
    (f o : P2File G1 G2) (hf : f.WF) (ho : o.WF) (bs os : Bytes) (h : f.Written C H bs) (k : o.ParamsWritten C H os) :
    Phase2.verify C H par b vr bs os = .ok () ↔
      f.records ≠ [] ∧ P2File.SameShape f o ∧ C.e o.delta1 f.delta2 = C.e f.delta1 o.delta2 ∧
      C.e (batchSum b vr.z f.z) f.delta2 = C.e (batchSum b vr.z o.z) o.delta2 ∧
      C.e (batchSum b vr.pkk f.pkk) f.delta2 = C.e (batchSum b vr.pkk o.pkk) o.delta2 ∧
      (∃ xs, Chain2By C o.delta1 [] f.records xs) ∧ (∀ r, f.records.getLast? = some r → r.delta = f.delta1) := by
  have hH' := padded_lawful (64 - (H.enc f.header).length % 64) hH
  have hs : f.NoStraddle (padded (64 - (H.enc f.header).length % 64) H) := by
    refine C43_aligned _ f ?_
    unfold P2File.alignment padded
    simp only [List.length_append, List.length_replicate]
    omega
  rw [verify2_reads hC hH hH' par b hb vr f o hf ho bs _ os _ h (C72_p2_compressed hC _ f hf hs []) k
    (C72_p2_params_compressed _ o [])]
  exact verify2_iff hC hH' par b hb vr f o hf ho hs [] []

/-- the file with `[δ]1` uncompressed -/
def P2File.rawFirst (C : Curve F G1 G2 GT) (H : Phase2.HeaderCodec) (f : P2File G1 G2) : Bytes :=
  H.enc f.header ++ C.c1.rawBytes f.delta1 ++ C.c2.bytes f.delta2 ++ f.z.flatMap C.c1.bytes ++ f.pkk.flatMap C.c1.bytes
    ++ f.records.flatMap (record2Bytes C)

omit hC in
theorem P2File.rawFirst_params (H : Phase2.HeaderCodec) (f : P2File G1 G2) (junk : Bytes) :
    f.ParamsWritten C H (f.rawFirst C H ++ junk) := by
  refine ⟨C.c1.rawBytes f.delta1 ++ ((f.paramItems.drop 1).flatMap (Item.bytes C) ++ (f.records.flatMap (record2Bytes C) ++ junk)), ?_,
    _, _, rfl, .inr rfl, ?_⟩
  · simp [P2File.rawFirst, P2File.paramItems, List.flatMap_map, Item.bytes]
  · exact encodes_choice _ (fun _ => .inl rfl) (fun _ => .inl rfl) (fun _ => rfl) _ _ _ (by intro h; simp [P2File.paramItems])

/-- one of two encodings of a file has no hash across a buffer boundary: the usual one, or the one with `[δ]1` uncompressed -/
theorem C72_p2_one_of_two (H : Phase2.HeaderCodec) (f : P2File G1 G2) (hf : f.WF) (junk : Bytes) :
    f.Written C H (f.encode C H ++ junk) ∨ f.Written C H (f.rawFirst C H ++ junk) := by
  by_cases ha : f.alignment (H.enc f.header).length ≤ 32
  · exact .inl (C72_p2_compressed hC H f hf (C43_aligned H f ha) junk)
  · right
    refine p2_written hC H f hf _ (.inr rfl) junk ?_
    intro j _
    rw [hC.codec1.raw_length, hC.size1]
    unfold P2File.alignment at ha
    omega

/-- **C72**, phase 2: an honest file, of any circuit and with any number of contributions, is accepted in one of the two encodings,
whatever the verifier draws. In the other one it can be rejected, see `C31_unaligned_rejected`. -/
theorem C72_p2_accepted {H : Phase2.HeaderCodec} (hH : H.Lawful) (f o : P2File G1 G2) (hf : f.WF) (ho : o.WF) (hr : f.records ≠ [])
    (x : F) (hx : x ≠ 0) (xs : List F) (hu : UpdateOf C o f x xs) (junk junk' : Bytes) :
    (∀ (par : Par) (b : Nat) (_ : 0 < b) (vr : Phase2.VerifyRand F),
      Phase2.verify C H par b vr (f.encode C H ++ junk) (o.encode C H ++ junk') = .ok ()) ∨
    (∀ (par : Par) (b : Nat) (_ : 0 < b) (vr : Phase2.VerifyRand F),
      Phase2.verify C H par b vr (f.rawFirst C H ++ junk) (o.encode C H ++ junk') = .ok ()) := by
  have hmath : ∀ (b : Nat) (_ : 0 < b) (vr : Phase2.VerifyRand F) (bs : Bytes) (par : Par), f.Written C H bs →
      Phase2.verify C H par b vr bs (o.encode C H ++ junk') = .ok () := by
    intro b hb vr bs par hw
    rw [C72_p2_accept_partial hC hH par b hb vr f o hf ho bs _ hw (C72_p2_params_compressed H o junk')]
    refine ⟨hr, hu.shape, ?_, ?_, ?_, ⟨xs, hu.chain⟩, ?_⟩
    · rw [hu.delta1, hu.delta2, hC.smul_left, hC.smul_right]
    · rw [hu.z, batchSum_map, hu.delta2, hC.smul_left, hC.smul_right, smul_smul, inv_mul_cancel₀ hx, one_smul]
    · rw [hu.pkk, batchSum_map, hu.delta2, hC.smul_left, hC.smul_right, smul_smul, inv_mul_cancel₀ hx, one_smul]
    · intro r h
      have := hu.last
      rw [h] at this
      exact this
  rcases C72_p2_one_of_two hC H f hf junk with hw | hw
  · exact .inl fun par b hb vr => hmath b hb vr _ par hw
  · exact .inr fun par b hb vr => hmath b hb vr _ par hw

/-- **C72**: a file as an honest contributor writes it is accepted in every encoding if it is accepted in one (phase 1). -/
theorem C72_p1_accepted (f : P1File G1 G2) (hf : f.WF) (par : Par) (pol : Phase1.MsmPolicy) (b : Nat) (hb : 0 < b)
    (vr : Phase1.VerifyRand F) (tr : Option Bytes) (bs : Bytes) (h : f.Written C bs) :
    Phase1.verify C par pol b vr bs tr = Phase1.verify C par pol b vr (f.encode C) tr := by
  have := C72_p1_compressed (C := C) f hf []
  rw [List.append_nil] at this
  exact C72_p1_verify hC par pol b hb vr f hf tr _ _ h this

end

/-! ### the commands that compute positions -/

namespace Toy

/-- a phase 1 file with one contribution -/
def mixed : P1File K K := (P1File.init curve 2).contribute curve rnd

theorem mixed_wf : mixed.WF := (init_wf curve 2 (by decide)).contribute lawful _ (by decide)

/-- what initialisation makes of a phase 1 file -/
def evalsFrom (bs : Bytes) : Except Fail Unit × Bytes :=
  let r := Phase2.initializeFiles curve env par4 (some circuit) bs [] []
  (r.1, r.2.evals)

/-- **C72**, negation for initialisation: of two files with the same points, both accepted by the phase 1 verifier whatever it draws,
initialisation makes different parameters, in both cases reporting success. With the first point uncompressed everything after it
stands 32 bytes further on, and the last power of `τ` (15) is taken for `[α]1` (5). -/
theorem C72_p2n_false :
    (∀ (q : Par) (b : Nat) (_ : 0 < b) (vr : Phase1.VerifyRand K),
      Phase1.verify curve q .strict b vr (mixed.encode curve) none = .ok () ∧
      Phase1.verify curve q .strict b vr (mixed.rawFirst curve) none = .ok ()) ∧
    (evalsFrom (mixed.encode curve)).1 = .ok () ∧ (evalsFrom (mixed.encode curve)).2.take 32 = curve.c1.bytes 5 ∧
    (evalsFrom (mixed.rawFirst curve)).1 = .ok () ∧ (evalsFrom (mixed.rawFirst curve)).2.take 32 = curve.c1.bytes 15 ∧
    mixed.alphaG1.head? = some 5 ∧ mixed.tauG1.getLast? = some 15 := by
  refine ⟨fun q b hb vr => ?_, by decide +kernel, by decide +kernel, by decide +kernel, by decide +kernel, by decide +kernel,
    by decide +kernel⟩
  have h1 : Phase1.verify curve q .strict b vr (mixed.encode curve) none = .ok () := by
    have := ZkSetup.honest_accepted lawful mixed mixed_wf _ ((tracks_genesis 2 (by decide)).ceremony [rnd]) (by
      simp [mixed, P1File.contribute, P1File.update]) q b hb vr none rfl []
    rwa [List.append_nil] at this
  exact ⟨h1, (C72_p1_accepted lawful mixed mixed_wf q .strict b hb vr none _ (P1File.rawFirst_written mixed mixed_wf)).trans h1⟩

/-- **C72**, negation for phase 2: an honest file is rejected, and accepted with its first point uncompressed, whatever the verifier
draws. -/
theorem C72_p2_false (q : Par) (b : Nat) (hb : 0 < b) (vr : Phase2.VerifyRand K) :
    Phase2.verify curve Gob.headerCodec q b vr (wide1.encode curve Gob.headerCodec) (wide.encode curve Gob.headerCodec) ≠ .ok () ∧
    Phase2.verify curve Gob.headerCodec q b vr (wide1.rawFirst curve Gob.headerCodec) (wide.encode curve Gob.headerCodec) = .ok () := by
  have hrej := straddle_rejected.2.2 q b hb vr
  refine ⟨hrej, ?_⟩
  obtain ⟨h1, h2, h3⟩ := ceremony2_facts lawful Gob.lawful wide wide_wf rfl [p2rnd] (by decide)
  rcases C72_p2_accepted lawful Gob.lawful wide1 wide wide1_wf wide_wf (by simp [wide1, P2File.contribute]) _
    (deltaProduct_ne lawful (rnds := [p2rnd]) (by decide)) _ h3 [] [] with h | h
  · have := h q b hb vr
    simp only [List.append_nil] at this
    exact absurd this hrej
  · have := h q b hb vr
    simpa only [List.append_nil] using this

end Toy

-- all points uncompressed
example := C72_p1_contribute Toy.lawful Toy.par Phase1.batchSize (by decide) Toy.rnd' Toy.mixed Toy.mixed_wf _ _
  (C72_p1_uncompressed Toy.mixed Toy.mixed_wf [1, 2]) (P1File.rawFirst_written Toy.mixed Toy.mixed_wf)

example : Toy.mixed.rawFirst Toy.curve ≠ Toy.mixed.encode Toy.curve := by decide +kernel

-- two encodings of the final file, two of its origin
example (vr : Phase2.VerifyRand Toy.K) := C72_p2_verify_partial Toy.lawful Gob.lawful Toy.par Phase1.batchSize (by decide) vr Toy.p2final
  Toy.p2 Toy.p2final_wf Toy.p2_wf _ (Toy.p2final.rawFirst Toy.curve Gob.headerCodec ++ [7]) _ _
  (C72_p2_compressed Toy.lawful _ _ Toy.p2final_wf Toy.p2final_noStraddle [])
  (p2_written Toy.lawful _ _ Toy.p2final_wf _ (.inr rfl) _ (by decide +kernel))
  (C72_p2_params_compressed _ _ [5]) (C72_p2_params_compressed _ _ [])

example (rnd : Phase2.Rand Toy.K) := C72_p2_contribute_partial Toy.lawful Gob.lawful Toy.par Phase1.batchSize (by decide) rnd Toy.p2final
  Toy.p2final_wf _ (Toy.p2final.rawFirst Toy.curve Gob.headerCodec ++ [7])
  (C72_p2_compressed Toy.lawful _ _ Toy.p2final_wf Toy.p2final_noStraddle [])
  (p2_written Toy.lawful _ _ Toy.p2final_wf _ (.inr rfl) _ (by decide +kernel))

example (evals : Bytes) := C72_keys Toy.lawful Toy.keyEnv Gob.lawful Toy.p2final Toy.p2final_wf _ _ evals
  (P2File.rawFirst_params _ Toy.p2final []) (C72_p2_params_compressed _ _ [1])

end ZkSetup
