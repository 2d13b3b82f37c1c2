import Verif.Proofs.AnyInput2
import Verif.Proofs.AnyInit
import Verif.Spec.Format
import Verif.Props.ConsoleCli
/-
C64: whatever the input files hold, the files that a successful command has written have the documented format.
-/
set_option linter.unusedSectionVars false

namespace ZkSetup

open Phase1

section
variable {F G1 G2 GT : Type} [Field F] [AddCommGroup G1] [Module F G1] [AddCommGroup G2]
  [Module F G2] [AddCommGroup GT] [Module F GT] [DecidableEq G1] [DecidableEq G2] [DecidableEq GT]
variable {C : Curve F G1 G2 GT}

section
variable (hC : C.Lawful)
include hC

/-! ### phase 1 -/

/-- **C64**, `p1n`: for every power up to 62 the output is a well-formed file without records, of the documented size. -/
theorem C64_p1n (p : UInt8) (hp : p.toNat ≤ 62) :
    ∃ f : P1File G1 G2, f.WF ∧ f.power = p ∧ f.records = [] ∧ initializeFile C p = f.encode C ∧
      (initializeFile C p).length = p1Size p.toNat 0 := by
  refine ⟨P1File.init C p, init_wf C p hp, rfl, rfl, C05_initialize_encode hC p hp, ?_⟩
  rw [C05_initialize_encode hC p hp, encode_length hC _ (init_wf C p hp)]
  simp [p1Size, P1File.init]
  omega

/-- **C64**, `p1c`: if a contribution to any bytes succeeds, then the bytes start with the header of a well-formed file, and
for every contributor and every machine the contribution to the bytes is the contribution to that file; in particular it
succeeds for every contributor. -/
theorem C64_p1c_any {par : Par} {b : Nat} (hb : 2 ≤ b) {rnd : Rand F} {input hash out : Bytes}
    (h : contribute C par b rnd input = (.ok hash, out)) :
    ∃ f : P1File G1 G2, f.WF ∧ 1 ≤ f.power.toNat ∧ input.take 3 = (f.encode C).take 3 ∧
      ∀ par b rnd, 2 ≤ b → contribute C par b rnd input = contribute C par b rnd (f.encode C) ∧
        ∃ hash out, contribute C par b rnd input = (.ok hash, out) := by
  obtain ⟨f, hf, hp, ht, hc⟩ := contribute_any hC hb h
  refine ⟨f, hf, hp, ht, fun par b rnd hb => ⟨hc par b rnd hb, ?_⟩⟩
  obtain ⟨t1, a1, b1, t2, h', -⟩ := contribute_bytes hC par b hb rnd f hf hp
  have := h' []
  rw [List.append_nil] at this
  exact ⟨_, _, (hc par b rnd hb).trans this⟩

/-- the first three bytes of an encoded file -/
theorem encode_take3 (f : P1File G1 G2) (hf : f.WF) :
    (f.encode C).take 3 = [f.power, UInt8.ofNat (f.records.length / 256), UInt8.ofNat (f.records.length % 256)] := by
  have : f.encode C = Header.writeTo ⟨f.power, UInt16.ofNat f.records.length⟩ ++ (f.params C ++ f.records.flatMap (recordBytes C)) := by
    rw [header_encode _ _ hf.count]; simp [P1File.encode]
  rw [this, List.take_append_of_le_length (by simp [Header.writeTo]), List.take_of_length_le (by simp [Header.writeTo])]
  rw [header_encode _ _ hf.count]

/-- **C64**, `p1c`, the output: if a contribution to any bytes succeeds and their header counts less than 65535
contributions, then the output is the encoding of a well-formed file with the power of the input, one more record than
the input counts, the printed hash being that of the last record, and it has the documented size. Without the bound it is
false, see `C64_p1c_wraps`. -/
theorem C64_p1c_partial {par : Par} {b : Nat} (hb : 2 ≤ b) {rnd : Rand F} {input hash out : Bytes}
    (h : contribute C par b rnd input = (.ok hash, out)) {p c1 c0 : UInt8} {rest : Bytes} (hi : input = p :: c1 :: c0 :: rest)
    (hc : 256 * c1.toNat + c0.toNat < 65535) :
    ∃ g : P1File G1 G2, g.WF ∧ out = g.encode C ∧ g.power = p ∧ g.records.length = 256 * c1.toNat + c0.toNat + 1 ∧
      (g.records.getLast?.map fun r => r.hash) = some hash ∧
      out.length = p1Size p.toNat (256 * c1.toNat + c0.toNat + 1) := by
  obtain ⟨f, hf, hp, ht, hany⟩ := contribute_any hC hb h
  rw [encode_take3 hC f hf, hi] at ht
  simp only [List.take_succ_cons, List.take_zero, List.cons.injEq, and_true] at ht
  obtain ⟨hpw, e1, e0⟩ := ht
  have hcnt := hf.count
  have hlen : f.records.length = 256 * c1.toNat + c0.toNat := by
    rw [e1, e0]; simp; omega
  obtain ⟨g, r, hg, hgw, hgp, hgr, -⟩ := C10_contribute_preserves_history hC par b hb rnd f hf hp (by omega)
  have hg' := hg []
  rw [List.append_nil, ← hany par b rnd hb, h] at hg'
  simp only [Prod.mk.injEq, Except.ok.injEq] at hg'
  obtain ⟨rfl, rfl⟩ := hg'
  have hl : g.records.length = 256 * c1.toNat + c0.toNat + 1 := by rw [hgr]; simp [hlen]
  refine ⟨g, hgw, rfl, by rw [hgp, hpw], hl, by rw [hgr]; simp, ?_⟩
  rw [encode_length hC _ hgw, hl, hgp, ← hpw]
  simp [p1Size]; omega

/-- contribution number 65536: the output is the encoding of a file without records, followed by all the records -/
theorem wrap_bytes (par : Par) (b : Nat) (hb : 2 ≤ b) (rnd : Rand F) (f : P1File G1 G2) (hf : f.WF)
    (hp : 1 ≤ f.power.toNat) (hc : f.records.length = 65535) :
    ∃ hash, ∃ g : P1File G1 G2, g.WF ∧ g.records = [] ∧ g.power = f.power ∧ ∃ tail, 0 < tail.length ∧
      contribute C par b rnd (f.encode C) = (.ok hash, g.encode C ++ tail) := by
  obtain ⟨t1, a1, b1, t2, h, -⟩ := contribute_bytes hC par b hb rnd f hf hp
  have h' := h []
  rw [List.append_nil] at h'
  refine ⟨(newRecord C rnd (lastHash f.records) t1 a1 b1 t2 (rnd.beta • f.betaG2)).hash, { f.update rnd (newRecord C rnd (lastHash f.records) t1 a1 b1 t2 (rnd.beta • f.betaG2)) with records := [] },
    ?_, rfl, rfl, f.records.flatMap (recordBytes C)
      ++ recordBytes C (newRecord C rnd (lastHash f.records) t1 a1 b1 t2 (rnd.beta • f.betaG2)), ?_, h'.trans ?_⟩
  · refine ⟨hf.power, ?_, ?_, ?_, ?_, by simp, by simp⟩
    · simp [P1File.update, hf.tauG1]
    · simp [P1File.update, hf.alphaG1]
    · simp [P1File.update, hf.betaG1]
    · simp [P1File.update, hf.tauG2]
  · rw [List.length_append, recordBytes_length hC _ (newRecord_hash_length hC ..)]
    omega
  · rw [hc]
    simp [P1File.encode, P1File.update, P1File.params, Header.writeTo, putUint16, beBytes]

/-- **C64**, `p1c`, negation: with 65535 records in the input the output is not the encoding of any well-formed file. -/
theorem C64_p1c_wraps (par : Par) (b : Nat) (hb : 2 ≤ b) (rnd : Rand F) (f : P1File G1 G2) (hf : f.WF)
    (hp : 1 ≤ f.power.toNat) (hc : f.records.length = 65535) :
    ∃ hash out, contribute C par b rnd (f.encode C) = (.ok hash, out) ∧ ∀ g : P1File G1 G2, g.WF → out ≠ g.encode C := by
  obtain ⟨hash, g0, hw0, hr0, hp0, tail, ht, h⟩ := wrap_bytes hC par b hb rnd f hf hp hc
  refine ⟨_, _, h, ?_⟩
  intro g hg he
  have h3 := congrArg (List.take 3) he
  have hl := congrArg List.length he
  rw [List.length_append, encode_length hC _ hw0, encode_length hC _ hg, hr0] at hl
  rw [List.take_append_of_le_length (by rw [encode_length hC _ hw0]; omega), encode_take3 hC g hg, encode_take3 hC g0 hw0, hr0] at h3
  simp only [List.length_nil, List.cons.injEq, and_true] at h3
  obtain ⟨e1, e2, e3⟩ := h3
  have hgc := hg.count
  have e2' := congrArg UInt8.toNat e2
  have e3' := congrArg UInt8.toNat e3
  simp at e2' e3'
  have hz : g.records.length = 0 := by omega
  rw [hz, ← e1] at hl
  simp only [List.length_nil] at hl
  omega

/-- **C64**, `p1c`: the output of a successful contribution can be contributed to, by everyone and whatever the first input
was. -/
theorem C64_p1c_continues {par : Par} {b : Nat} (hb : 2 ≤ b) {rnd : Rand F} {input hash out : Bytes}
    (h : contribute C par b rnd input = (.ok hash, out)) (par' : Par) (b' : Nat) (hb' : 2 ≤ b') (rnd' : Rand F) :
    ∃ hash' out', contribute C par' b' rnd' out = (.ok hash', out') := by
  obtain ⟨f, hf, hp, -, hany⟩ := contribute_any hC hb h
  have key : ∃ g : P1File G1 G2, g.WF ∧ 1 ≤ g.power.toNat ∧ ∃ tail, out = g.encode C ++ tail := by
    rw [hany par b rnd hb] at h
    by_cases hc : f.records.length < 65535
    · obtain ⟨g, r, hg, hgw, hgp, -⟩ := C10_contribute_preserves_history hC par b hb rnd f hf hp hc
      have hg' := hg []
      rw [List.append_nil, h] at hg'
      simp only [Prod.mk.injEq] at hg'
      exact ⟨g, hgw, by rw [hgp]; exact hp, [], by rw [List.append_nil, hg'.2]⟩
    · obtain ⟨hash', g, hgw, _, hgp, tail, _, hg⟩ := wrap_bytes hC par b hb rnd f hf hp (by have := hf.count; omega)
      rw [h] at hg
      simp only [Prod.mk.injEq] at hg
      exact ⟨g, hgw, by rw [hgp]; exact hp, tail, hg.2⟩
  obtain ⟨g, hgw, hgp, tail, rfl⟩ := key
  obtain ⟨t1, a1, b1, t2, h', -⟩ := contribute_bytes hC par' b' hb' rnd' g hgw hgp
  exact ⟨_, _, h' tail⟩

omit [DecidableEq G1] [DecidableEq G2] [DecidableEq GT] [Field F] [Module F G1] [AddCommGroup G1] [AddCommGroup G2] [Module F G2]
  [AddCommGroup GT] [Module F GT] hC in
theorem transformLoop_any {G : Type} (c : Codec G) (n : Nat) : ∀ (rd : Rd) (out x o : Bytes),
    transformPoints.loop c n rd out = (.ok x, o) → ∃ pts : List G, pts.length = n ∧ o = out ++ pts.flatMap c.bytes := by
  induction n with
  | zero => intro rd out x o h; simp only [transformPoints.loop, Prod.mk.injEq] at h; exact ⟨[], rfl, by simp [h.2]⟩
  | succ n ih =>
    intro rd out x o h
    unfold transformPoints.loop at h
    split at h
    · obtain ⟨pts, hl, ho⟩ := ih _ _ _ _ h
      rename_i q _ _
      exact ⟨q :: pts, by simp [hl], by simp [ho]⟩
    · simp at h

omit [DecidableEq G1] [DecidableEq G2] [DecidableEq GT] [Field F] [Module F G1] [AddCommGroup G1] [AddCommGroup G2] [Module F G2]
  [AddCommGroup GT] [Module F GT] hC in
theorem transformPoints_any {G : Type} {c : Codec G} {input : Bytes} {pos : Int} {n : Nat} {x o : Bytes}
    (h : transformPoints c input pos n = (.ok x, o)) : 0 ≤ pos ∧ ∃ pts : List G, pts.length = n ∧ o = pts.flatMap c.bytes := by
  unfold transformPoints at h
  split at h
  · simp at h
  · obtain ⟨pts, hl, ho⟩ := transformLoop_any c n _ _ _ _ h
    exact ⟨by omega, pts, hl, by simpa using ho⟩

theorem transform_any {a b : UInt8} (hb : b.toNat ≤ 62) {input out : Bytes} (h : transform C a b input = (.ok (), out)) :
    ∃ f : P1File G1 G2, f.WF ∧ f.power = b ∧ f.records = [] ∧ out = f.encode C ∧
      (let posTauG2 := wrap64 (64 + wrap64 (2 * goPow2 a - 1) * 64)
        let posAlphaG1 := wrap64 (posTauG2 + goPow2 a * 128)
        (transformPoints C.c1 input posAlphaG1 (2 ^ b.toNat)).2 = f.alphaG1.flatMap C.c1.bytes ∧
        (transformPoints C.c1 input (wrap64 (posAlphaG1 + goPow2 a * 64)) (2 ^ b.toNat)).2 = f.betaG1.flatMap C.c1.bytes) := by
  unfold transform at h
  simp only [] at h
  split at h
  · simp at h
  rename_i o1 h1
  split at h
  · simp at h
  rename_i o2 h2
  split at h
  · simp at h
  rename_i o3 h3
  split at h
  · simp at h
  rename_i o4 h4
  split at h
  · simp at h
  rename_i o5 h5
  obtain ⟨_, t, l1, rfl⟩ := transformPoints_any h1
  obtain ⟨_, al, l2, rfl⟩ := transformPoints_any h2
  obtain ⟨_, be, l3, rfl⟩ := transformPoints_any h3
  obtain ⟨_, t2, l4, rfl⟩ := transformPoints_any h4
  obtain ⟨_, b2, l5, rfl⟩ := transformPoints_any h5
  rw [wrap_tau (p := b) hb] at l1
  rw [goPow2_eq (p := b) hb] at l2 l3 l4 h2 h3
  rw [Int.toNat_natCast] at l1 l2 l3 l4 h2 h3
  obtain ⟨q, rfl⟩ : ∃ q, b2 = [q] := List.length_eq_one_iff.mp l5
  simp only [Prod.mk.injEq, true_and] at h
  have hw : (⟨b, t, al, be, t2, q, []⟩ : P1File G1 G2).WF :=
    ⟨hb, l1, l2, l3, l4, by simp, by simp⟩
  have he : out = (⟨b, t, al, be, t2, q, []⟩ : P1File G1 G2).encode C := by
    rw [← h]
    simp [P1File.encode, P1File.params, Header.writeTo, putUint16, beBytes]
  exact ⟨_, hw, rfl, rfl, he, congrArg Prod.snd h2, congrArg Prod.snd h3⟩

/-- **C64**, `p1t`: if the transformation of any bytes to a power up to 62 succeeds, then the output is the encoding of a
well-formed file without records, of the documented size. For higher powers it is false, see `C64_p1t_false`. -/
theorem C64_p1t_partial {a b : UInt8} (hb : b.toNat ≤ 62) {input out : Bytes} (h : transform C a b input = (.ok (), out)) :
    ∃ f : P1File G1 G2, f.WF ∧ f.power = b ∧ f.records = [] ∧ out = f.encode C ∧ out.length = p1Size b.toNat 0 := by
  obtain ⟨f, hw, rfl, hr, he, -⟩ := transform_any hC hb h
  refine ⟨f, hw, rfl, hr, he, ?_⟩
  rw [he, encode_length hC _ hw, hr]
  simp [p1Size]; omega

/-- **C64**, `p1t`, negation: for powers from 63 on the transformation of any bytes that begin with a point of G2 succeeds.
The output has 67 bytes and is not the encoding of any well-formed file. -/
theorem C64_p1t_false (a b : UInt8) (ha : 63 ≤ a.toNat) (hb : 63 ≤ b.toNat) (q : G2) (junk : Bytes) :
    transform C a b (C.c2.bytes q ++ junk) = (.ok (), [b, 0, 0] ++ C.c2.bytes q) ∧
      ∀ f : P1File G1 G2, f.WF → [b, 0, 0] ++ C.c2.bytes q ≠ f.encode C := by
  have hga : goPow2 a = -(2 ^ 63) := by unfold goPow2; rw [if_neg (by omega)]
  have hgb : goPow2 b = -(2 ^ 63) := by unfold goPow2; rw [if_neg (by omega)]
  constructor
  · unfold transform
    simp only [hga, hgb]
    have h0 : ∀ {G : Type} (c : Codec G) (x : Bytes) (pos : Int), 0 ≤ pos → transformPoints c x pos 0 = (.ok [], []) := by
      intro G c x pos hp
      unfold transformPoints
      rw [if_neg (by omega)]
      rfl
    have h1 : transformPoints C.c2 (C.c2.bytes q ++ junk) 0 1 = (.ok (C.c2.bytes q), C.c2.bytes q) := by
      unfold transformPoints
      rw [if_neg (by omega)]
      simp only [transformPoints.loop, Rd.buffered, Int.toNat_zero, List.drop_zero, Codec.decode_bytes hC.codec2, List.nil_append]
    have e1 : (wrap64 (2 * -(2 ^ 63) - 1)).toNat = 0 := by decide
    have e2 : (-(2 ^ 63) : Int).toNat = 0 := by decide
    have e3 : wrap64 (64 + wrap64 (2 * -(2 ^ 63) - 1) * 64) = 0 := by decide
    have e4 : wrap64 (0 + -(2 ^ 63) * 128) = 0 := by decide
    have e5 : wrap64 (0 + -(2 ^ 63) * 64) = 0 := by decide
    rw [e3, e4, e5, e5, e1, e2, h0 C.c1 _ 64 (by omega), h0 C.c1 _ 0 (by omega), h0 C.c2 _ 0 (by omega), h1]
    simp [Header.writeTo, putUint16, beBytes]
  · intro f hf he
    have h3 := congrArg (List.take 3) he
    rw [encode_take3 hC f hf] at h3
    simp only [List.cons_append, List.nil_append, List.take_succ_cons, List.take_zero, List.cons.injEq] at h3
    have := hf.power
    rw [← h3.1] at this
    omega

/-- **C18**, `p1t` with an original power from 58 on: the 64-bit positions overflow, and all sections but the first are read from
the start of the input. The power makes no difference, and the two sections for α and β are the same. -/
theorem C18_overflow (a b : UInt8) (ha : 58 ≤ a.toNat) (hb : b.toNat ≤ 62) (input : Bytes) :
    transform C a b input = transform C 255 b input ∧
    ∀ out, transform C a b input = (.ok (), out) → ∃ f : P1File G1 G2, f.WF ∧ out = f.encode C ∧ f.alphaG1 = f.betaG1 := by
  have hpos : ∃ m : Int, goPow2 a = 2 ^ 58 * m := by
    unfold goPow2
    split
    · exact ⟨2 ^ (a.toNat - 58), by rw [← pow_add]; congr 1; omega⟩
    · exact ⟨-32, by norm_num⟩
  obtain ⟨m, hm⟩ := hpos
  have e3 : wrap64 (64 + wrap64 (2 * (2 ^ 58 * m) - 1) * 64) = 0 := by unfold wrap64; omega
  have e4 : wrap64 (0 + (2 ^ 58 * m) * 128) = 0 := by unfold wrap64; omega
  have e5 : wrap64 (0 + (2 ^ 58 * m) * 64) = 0 := by unfold wrap64; omega
  have h255 : goPow2 255 = 2 ^ 58 * (-32) := by decide
  have f3 : wrap64 (64 + wrap64 (2 * (2 ^ 58 * (-32)) - 1) * 64) = 0 := by decide
  have f4 : wrap64 (0 + (2 ^ 58 * (-32)) * 128) = 0 := by decide
  have f5 : wrap64 (0 + (2 ^ 58 * (-32)) * 64) = 0 := by decide
  constructor
  · unfold transform
    simp only [hm, h255, e3, e4, e5, f3, f4, f5]
  · intro out h
    obtain ⟨f, hw, -, -, he, h1, h2⟩ := transform_any hC hb h
    simp only [hm, e3, e4, e5] at h1 h2
    exact ⟨f, hw, he, flatMap_bytes_inj hC.codec1 (by rw [hw.alphaG1, hw.betaG1]) (h1.symm.trans h2)⟩

/-! ### phase 2 -/

open Phase2 in
/-- **C64**, `p2c`: if a contribution to any bytes succeeds and the counts of their header are not negative, then there is a
well-formed file with that header such that for every contributor and every machine the contribution to the bytes is the
contribution to that file; the output is well-formed and has the documented size. With negative counts it is false, see
`C64_p2c_false`. -/
theorem C64_p2c_partial {H : HeaderCodec} (hH : H.Lawful) {par : Par} {b : Nat} (hb : 0 < b) {rnd : Phase2.Rand F} {input hash out : Bytes}
    (h : Phase2.contribute C H par b rnd input = (.ok hash, out)) {h0 : Phase2.Header} {rd0 : Rd}
    (hdec : H.dec.run (Rd.buffered 4096 input) = (.ok h0, rd0))
    (hn : 0 ≤ h0.wires ∧ 0 ≤ h0.pub ∧ 0 ≤ h0.privateCommitted ∧ 0 ≤ h0.constraints ∧ 0 ≤ h0.domain)
    (hcn : 0 ≤ h0.contributions ∧ h0.contributions < 2 ^ 63 - 2) :
    ∃ f : P2File G1 G2, f.WF ∧ f.header = h0 ∧ ∀ par b rnd, 0 < b →
      Phase2.contribute C H par b rnd input
        = (.ok (lastHash2 (f.contribute C rnd).records), (f.contribute C rnd).encode C H) ∧
      (f.contribute C rnd).WF ∧
      ((f.contribute C rnd).encode C H).length
        = (H.enc { h0 with contributions := h0.contributions + 1 }).length
          + p2Size h0.domain.toNat h0.witness.toNat (h0.contributions.toNat + 1) := by
  obtain ⟨h0', rd0', f, hd, hdm, hw, hz, hp, hrec, hhash, hall⟩ := contribute2_any hb h
  rw [hdec] at hd
  simp only [Prod.mk.injEq, Except.ok.injEq] at hd
  obtain ⟨rfl, rfl⟩ := hd
  have hr := hH.dec_range _ _ _ hdec
  clear hdec
  obtain ⟨w, wi, pu, pc, co, dm, cn⟩ := h0
  obtain ⟨r1, r2, r3, r4, r5, r6, r7⟩ := hr
  simp only [] at *
  obtain ⟨n1, n2, n3, n4, n5⟩ := hn
  have hd1 : wrap64 (dm - 1) = dm - 1 := wrap64_eq (by omega) (by omega)
  rw [hd1] at hdm hz
  have hinc : (Header.increment ⟨w, wi, pu, pc, co, dm, cn⟩) = ⟨w, wi, pu, pc, co, dm, cn + 1⟩ := by
    unfold Header.increment
    simp only [Phase2.Header.mk.injEq, true_and]
    exact wrap64_eq (by omega) (by omega)
  have hcn1 : wrap64 (cn + 1 - 1) = cn := by rw [wrap64_eq (x := cn + 1 - 1) (by omega) (by omega)]; omega
  rw [hinc] at hrec hall
  simp only [hcn1] at hrec
  have hwf : (⟨w.toNat, wi.toNat, pu.toNat, pc.toNat, co.toNat, dm.toNat, f.delta1, f.delta2, f.z, f.pkk, f.records⟩ : P2File G1 G2).WF := by
    refine ⟨?_, ?_, ?_, ?_, ?_, ?_, ?_, ?_, hp, ?_, hhash⟩ <;> simp only [] <;> omega
  refine ⟨_, hwf, ?_, ?_⟩
  · simp only [P2File.header, Phase2.Header.mk.injEq]
    omega
  · intro par b rnd hb
    have hw' := contribute2_wf hC _ hwf rnd (by show f.records.length + 1 < _; omega)
    have hhd : (P2File.contribute C ⟨w.toNat, wi.toNat, pu.toNat, pc.toNat, co.toNat, dm.toNat, f.delta1, f.delta2, f.z, f.pkk,
        f.records⟩ rnd).header = ⟨w, wi, pu, pc, co, dm, cn + 1⟩ := by
      simp only [P2File.header, P2File.contribute, Phase2.Header.mk.injEq, List.length_append, List.length_singleton]
      omega
    refine ⟨?_, hw', ?_⟩
    · rw [hall par b rnd hb, P2File.encode, hhd]
      rfl
    · rw [encode2_length hC _ hw', hhd]
      simp only [P2File.contribute, List.length_append, List.length_singleton, hrec, p2Size]
      omega

omit [DecidableEq G1] [DecidableEq G2] [DecidableEq GT] [Field F] [Module F G1] [AddCommGroup G1] [AddCommGroup G2] [Module F G2]
  [AddCommGroup GT] [Module F GT] hC in
theorem nextPowerofTwo_ge {n x : Int} (h : Phase2.nextPowerofTwo n = .ok x) : n ≤ x := by
  have : ∀ (fuel : Nat) (res : Int), Phase2.nextPowerofTwoLoop n fuel res = .ok x → n ≤ x := by
    intro fuel
    induction fuel with
    | zero => intro res h; simp [Phase2.nextPowerofTwoLoop] at h
    | succ fuel ih =>
      intro res h
      unfold Phase2.nextPowerofTwoLoop at h
      split at h
      · simp only [Except.ok.injEq] at h; omega
      · exact ih _ h
  exact this _ _ h

omit [DecidableEq G1] [DecidableEq G2] [DecidableEq GT] [Field F] [Module F G1] [AddCommGroup G1] [AddCommGroup G2] [Module F G2]
  [AddCommGroup GT] [Module F GT] hC in
theorem nextPowerofTwo_least {n x : Int} (h : Phase2.nextPowerofTwo n = .ok x) (j : Nat) (hj : 1 ≤ j)
    (hn : n ≤ ((2 ^ j : Nat) : Int)) : x ≤ ((2 ^ j : Nat) : Int) := by
  have : ∀ (fuel m : Nat), m ≤ j → Phase2.nextPowerofTwoLoop n fuel ((2 ^ m : Nat) : Int) = .ok x → x ≤ ((2 ^ j : Nat) : Int) := by
    intro fuel
    induction fuel with
    | zero => intro m _ h; simp [Phase2.nextPowerofTwoLoop] at h
    | succ fuel ih =>
      intro m hm h
      unfold Phase2.nextPowerofTwoLoop at h
      split at h
      · simp only [Except.ok.injEq] at h
        rw [← h]
        exact_mod_cast Nat.pow_le_pow_right (by omega) hm
      · rename_i hlt
        have hlt' : 2 ^ m < 2 ^ j := by exact_mod_cast (by omega : ((2 ^ m : Nat) : Int) < ((2 ^ j : Nat) : Int))
        refine ih (m + 1) ((Nat.pow_lt_pow_iff_right (by omega)).1 hlt') ?_
        rw [← h, pow_succ]
        push_cast
        rfl
  exact this 27 1 hj h

open Phase2 in
theorem initFiles_of_shape {H : HeaderCodec} {r : R1CS F} {nb k : Nat} {cmt : Bytes} {st : InitSt} (hk1 : 1 ≤ k) (hk27 : k ≤ 27)
    (hm : r.nbPublic + r.nbSecret + r.nbInternal < 2 ^ 62) (hnext : nextPowerofTwo nb = .ok ((2 ^ k : Nat) : Int))
    (h : InitShape C H (circuitHeader r nb ((2 ^ k : Nat) : Int)) cmt k st) :
    ∃ f : P2File G1 G2, InitFiles C H r nb cmt.length st.ph2 st.lag st.evals f := by
  have hnb := nextPowerofTwo_ge hnext
  have hpk : 2 ^ k ≤ 2 ^ 27 := Nat.pow_le_pow_right (by omega) hk27
  have hpk0 : 0 < 2 ^ k := Nat.pow_pos (by omega)
  obtain ⟨⟨z, pkk, hz, hp, hph⟩, ⟨t, a, b, t2, l1, l2, l3, l4, hlag⟩, ⟨ev, v1, v2, v3, v4, v5, v6, hev⟩⟩ := h
  have hwires := circuitHeader_wires r (nb : Int) ((2 ^ k : Nat) : Int)
  have hwit : (circuitHeader r (nb : Int) ((2 ^ k : Nat) : Int)).witness
      = r.nbSecret + r.nbInternal - r.commitment.nbPrivateCommitted - if r.commitment.committed = [] then 0 else 1 := by
    unfold circuitHeader Commitment.is
    by_cases hc : r.commitment.committed = [] <;> simp [hc]
  have hpub : (circuitHeader r (nb : Int) ((2 ^ k : Nat) : Int)).pub
      = r.nbPublic + if r.commitment.committed = [] then 0 else 1 := by
    unfold circuitHeader Commitment.is
    by_cases hc : r.commitment.committed = [] <;> simp [hc]
  have hpc : (circuitHeader r (nb : Int) ((2 ^ k : Nat) : Int)).privateCommitted = r.commitment.nbPrivateCommitted := by
    unfold circuitHeader Commitment.is
    by_cases hc : r.commitment.committed = [] <;> simp [hc]
  obtain ⟨hco, hdm, hcn⟩ := circuitHeader_rest r (nb : Int) ((2 ^ k : Nat) : Int)
  have hww : r.wires = r.nbPublic + r.nbSecret + r.nbInternal := by unfold R1CS.wires; omega
  rw [hww] at hwires
  have hhd : circuitHeader r (nb : Int) ((2 ^ k : Nat) : Int) = ⟨(r.nbPublic + r.nbSecret + r.nbInternal : Nat), (pkk.length : Int),
      (r.nbPublic + if r.commitment.committed = [] then 0 else 1 : Nat), (r.commitment.nbPrivateCommitted : Int), nb,
      ((2 ^ k : Nat) : Int), 0⟩ := by
    rw [← hwires, hp, ← hpc]
    generalize circuitHeader r (nb : Int) ((2 ^ k : Nat) : Int) = hh at *
    cases hh
    simp only [Phase2.Header.mk.injEq, true_and] at *
    refine ⟨?_, hco, hdm, hcn⟩
    rw [hpub]; split <;> simp
  rw [hwires] at v1 v2 v3
  rw [hpub] at v4
  rw [hpc] at v5
  rw [hwit] at hp
  have hwf : (⟨r.nbPublic + r.nbSecret + r.nbInternal, pkk.length, r.nbPublic + if r.commitment.committed = [] then 0 else 1,
      r.commitment.nbPrivateCommitted, nb, 2 ^ k, C.g1, C.g2, z, pkk, []⟩ : P2File G1 G2).WF := by
    refine ⟨?_, ?_, ?_, ?_, ?_, ?_, hpk0, hz, rfl, by simp, by simp⟩ <;> simp only [] <;> split at hp <;> (try split) <;> omega
  refine ⟨_, hwf, rfl, rfl, rfl, rfl, rfl, rfl, ?_, rfl, ⟨k, hk1, hk27, rfl⟩, by simp only []; omega,
    fun j h1 h2 => by exact_mod_cast nextPowerofTwo_least hnext j h1 (by exact_mod_cast h2), ?_, ?_, ?_⟩
  · simp only []
    split at hp <;> simp_all <;> omega
  · rw [hph, hhd]
    simp [P2File.encode, P2File.header, P2File.params, Codec.encodeN]
  · rw [hlag]
    simp only [List.length_append, Codec.encodeSlice_length hC.codec1, Codec.encodeSlice_length hC.codec2, hC.size1, hC.size2, l1, l2,
      l3, l4, lagSize]
    omega
  · rw [hev, ← v6]
    simp only [Evals.encode, List.length_append, Codec.encodeSlice_length hC.codec1, Codec.encodeSlice_length hC.codec2, hC.size1,
      hC.size2, hC.codec1.bytes_length, hC.codec2.bytes_length, evalsSize]
    split at v4 <;> simp_all <;> omega

open Phase2 in
/-- **C64**, `p2n`: if the initialisation succeeds, whatever the phase 1 file holds, then the phase 2 file is the encoding of a
well-formed file without records, with `δ = 1` and the counts of the circuit, which is a partition of its wires; `srs.lag` and
`evals` have the documented sizes, `srs.lag` with the size of the domain. -/
theorem C64_p2n {E : InitEnv F} {par : Par} {r : R1CS F} {file oldLag oldEvals : Bytes} {st : InitSt}
    (hdom : ∀ k, nextPowerofTwo r.nbConstraints = .ok ((2 ^ k : Nat) : Int) → (E.dom (2 ^ k)).Lawful k)
    (hm : r.nbPublic + r.nbSecret + r.nbInternal < 2 ^ 62)
    (h : initializeFiles C E par (some r) file oldLag oldEvals = (.ok (), st)) :
    ∃ f : P2File G1 G2, InitFiles C E.header r r.nbConstraints (E.cmtBytes r.commitment).length st.ph2 st.lag st.evals f := by
  obtain ⟨r', k, e, hk1, hk27, hn, hs⟩ := init_any (C := C) (fun r' k e => by cases e; exact hdom k) h
  cases e
  exact initFiles_of_shape hC hk1 hk27 hm hn hs

open Phase2 in
/-- **C64**, `p2np`: the same for the initialisation from a circuit in parts, with the number of constraints that is given. -/
theorem C64_p2np {E : InitEnv F} {par : Par} {cs : PartedR1CS F} {nb : Nat} {file oldLag oldEvals : Bytes} {st : InitSt}
    (hdom : ∀ k, nextPowerofTwo nb = .ok ((2 ^ k : Nat) : Int) → (E.dom (2 ^ k)).Lawful k)
    (hm : cs.base.nbPublic + cs.base.nbSecret + cs.base.nbInternal < 2 ^ 62)
    (h : initializeParted C E par cs nb file oldLag oldEvals = (.ok (), st)) :
    ∃ f : P2File G1 G2, InitFiles C E.header cs.base nb (E.cmtBytes cs.base.commitment).length st.ph2 st.lag st.evals f := by
  obtain ⟨k, hk1, hk27, hn, hs⟩ := initParted_any (C := C) hdom h
  exact initFiles_of_shape hC hk1 hk27 hm hn hs

open Phase2 in
/-- bytes whose length does not fit their header are not the encoding of a well-formed file -/
theorem not_encoding {H : HeaderCodec} (hH : H.Lawful) {cap : Nat} {out : Bytes} {h0 : Phase2.Header}
    (h2 : (H.dec.run (Rd.buffered cap out)).1 = .ok h0)
    (h3 : out.length ≠ (H.enc h0).length + p2Size h0.domain.toNat h0.witness.toNat h0.contributions.toNat) (f : P2File G1 G2)
    (hf : f.WF) : out ≠ f.encode C H := by
  rintro rfl
  have hd : (H.dec.run (Rd.buffered cap (f.encode C H))).1 = .ok f.header := by
    have := hH.dec_enc f.header (P2File.header_inRange hC hH hf) cap 0 (f.params C ++ f.records.flatMap (record2Bytes C))
    unfold P2File.encode
    rw [List.append_assoc]
    exact congrArg Prod.fst this
  rw [hd] at h2
  simp only [Except.ok.injEq] at h2
  subst h2
  apply h3
  rw [encode2_length hC _ hf]
  simp only [P2File.header, Int.toNat_natCast, p2Size]
  omega

omit [DecidableEq G1] [DecidableEq G2] [DecidableEq GT] hC in
/-- **C64**, `srs.lag`: Format.md gives the size for the power of the phase 1 file. That is right only if the domain has that
size. -/
theorem C64_lag_documented {H : Phase2.HeaderCodec} {r : Phase2.R1CS F} {nb cmt : Nat} {ph2 lag evals : Bytes} {f : P2File G1 G2}
    (h : InitFiles C H r nb cmt ph2 lag evals f) (power : Nat) : lag.length = lagSize (2 ^ power) ↔ f.domain = 2 ^ power := by
  rw [h.lag]
  unfold lagSize
  omega

end
end

/-! ### cases -/

open Phase2 in
/-- **C64**, `p2c`, negation: a file whose header says −1 contributions is accepted; the output says 0 contributions although it
holds a record. It is not the encoding of any well-formed file. -/
theorem C64_p2c_false : ∃ hash out, Phase2.contribute Toy.curve Gob.headerCodec Toy.par 2 Toy.p2rnd
      (Gob.headerCodec.enc { Toy.p2.header with contributions := -1 } ++ Toy.p2.params Toy.curve) = (.ok hash, out) ∧
    (Gob.headerCodec.dec.run (Rd.buffered 4096 out)).1 = .ok Toy.p2.header ∧
    out.length = (Gob.headerCodec.enc Toy.p2.header).length + p2Size 4 3 1 ∧
    ∀ f : P2File Toy.K Toy.K, f.WF → out ≠ f.encode Toy.curve Gob.headerCodec := by
  obtain ⟨res, hres⟩ : ∃ res, res = Phase2.contribute Toy.curve Gob.headerCodec Toy.par 2 Toy.p2rnd
      (Gob.headerCodec.enc { Toy.p2.header with contributions := -1 } ++ Toy.p2.params Toy.curve) := ⟨_, rfl⟩
  have h1 : (match res.1 with | .ok _ => true | .error _ => false) = true := by rw [hres]; decide +kernel
  have h2 : (Gob.headerCodec.dec.run (Rd.buffered 4096 res.2)).1 = .ok Toy.p2.header := by rw [hres]; decide +kernel
  have h3 : res.2.length = (Gob.headerCodec.enc Toy.p2.header).length + p2Size 4 3 1 := by rw [hres]; decide +kernel
  rw [← hres]
  obtain ⟨x, out⟩ := res
  cases x with
  | error e => simp at h1
  | ok hash =>
    exact ⟨hash, out, rfl, h2, h3, not_encoding Toy.lawful Gob.lawful h2 fun e =>
      absurd (Nat.add_left_cancel (h3.symm.trans e)) (by decide)⟩

example := C64_p1n Toy.lawful 26 (by decide)

/-- a contribution to the initial file of power 1 -/
theorem Toy.first : ∃ hash out, contribute Toy.curve Toy.par batchSize Toy.rnd ((P1File.init Toy.curve 1).encode Toy.curve ++ [7, 7])
    = (.ok hash, out) := by
  obtain ⟨t1, a1, b1, t2, h, -⟩ := contribute_bytes Toy.lawful Toy.par batchSize (by decide) Toy.rnd (P1File.init Toy.curve 1)
    (init_wf Toy.curve 1 (by decide)) (by decide)
  exact ⟨_, _, h [7, 7]⟩

section
-- an input with two bytes too many; the hypothesis is met by `Toy.first`
variable {hash out : Bytes} (h : contribute Toy.curve Toy.par batchSize Toy.rnd ((P1File.init Toy.curve 1).encode Toy.curve ++ [7, 7])
  = (.ok hash, out))
example := C64_p1c_any Toy.lawful (by decide) h
example := C64_p1c_continues Toy.lawful (by decide) h Toy.par 2 (by decide) Toy.rnd'
example := C64_p1c_partial Toy.lawful (by decide) h (p := 1) (c1 := 0) (c0 := 0)
  (rest := (P1File.init Toy.curve 1).params Toy.curve ++ [7, 7]) (by simp [P1File.encode, P1File.init]) (by decide)
end

-- 65535 records
example := C64_p1c_wraps Toy.lawful Toy.par batchSize (by decide) Toy.rnd
  { P1File.init Toy.curve 1 with records := List.replicate 65535 { Contribution.zero with hash := List.replicate 32 0 } }
  ⟨by decide, by decide, by decide, by decide, by decide, by rw [List.length_replicate]; decide,
    fun r hr => by rw [(List.mem_replicate.1 hr).2]; decide⟩ (by decide) List.length_replicate

example := C64_p1t_partial Toy.lawful (a := 2) (b := 1) (by decide)
  (C18_transform Toy.lawful Toy.response 2 1 (by decide) (by decide) Toy.response_wf [1, 2, 3]).1
example := C18_overflow Toy.lawful 60 0 (by decide) (by decide) (Toy.curve.c2.rawBytes 5 ++ Toy.curve.c1.bytes 3)
-- it succeeds
example : (match (transform Toy.curve 60 0 (Toy.curve.c2.rawBytes 5 ++ Toy.curve.c1.bytes 3)).1 with
    | .ok _ => true | .error _ => false) = true := by decide +kernel
example := C64_p1t_false Toy.lawful 200 100 (by decide) (by decide) (5 : Toy.K) [1, 2]

open Phase2 in
/-- a contribution to a file with three bytes too many -/
theorem Toy.second : ∃ hash out, Phase2.contribute Toy.curve Gob.headerCodec Toy.par 2 Toy.p2rnd
    (Toy.p2.encode Toy.curve Gob.headerCodec ++ [1, 2, 3]) = (.ok hash, out) := by
  have h : (match (Phase2.contribute Toy.curve Gob.headerCodec Toy.par 2 Toy.p2rnd
      (Toy.p2.encode Toy.curve Gob.headerCodec ++ [1, 2, 3])).1 with | .ok _ => true | .error _ => false) = true := by decide +kernel
  generalize Phase2.contribute Toy.curve Gob.headerCodec Toy.par 2 Toy.p2rnd
      (Toy.p2.encode Toy.curve Gob.headerCodec ++ [1, 2, 3]) = res at h ⊢
  obtain ⟨x, o⟩ := res
  cases x with
  | error e => simp at h
  | ok x => exact ⟨x, o, rfl⟩

set_option maxRecDepth 20000 in
example {hash out : Bytes} (h : Phase2.contribute Toy.curve Gob.headerCodec Toy.par 2 Toy.p2rnd
    (Toy.p2.encode Toy.curve Gob.headerCodec ++ [1, 2, 3]) = (.ok hash, out)) := by
  have hd := fun ys => P2File.header_read (C := Toy.curve) (H := Gob.headerCodec) (f := Toy.p2) Toy.lawful Gob.lawful Toy.p2_wf 4096 ys
  have hp := @C64_p2c_partial _ _ _ _ _ _ _ _ _ _ _ _ _ _ Toy.curve Toy.lawful _ Gob.lawful _ _ (by decide) _ _ _ _ h
  have hd' := hd [1, 2, 3]
  have hp' := hp hd'
  exact hp' (by decide) (by decide)

theorem Toy.circuit_power (k : Nat) (h : Phase2.nextPowerofTwo ((3 : Nat) : Int) = .ok ((2 ^ k : Nat) : Int)) : k = 2 := by
  have e : Phase2.nextPowerofTwo ((3 : Nat) : Int) = .ok ((2 ^ 2 : Nat) : Int) := rfl
  rw [e, Except.ok.injEq] at h
  exact (Nat.pow_right_injective (le_refl 2) (by exact_mod_cast h)).symm

-- a file of power 3, a domain of size 4: `srs.lag` has not the documented size
example : ∃ st : Phase2.InitSt, ∃ f : P2File Toy.K Toy.K, InitFiles Toy.curve Toy.env.header Toy.circuit 3 1 st.ph2 st.lag st.evals f ∧
    f.domain = 4 ∧ st.lag.length ≠ lagSize (2 ^ 3) := by
  obtain ⟨st, h, -⟩ := C24_evaluations Toy.lawful Toy.env par4 Toy.circuit Toy.circuit_valid Toy.circuit_nc (Toy.srs 3 3 5 7)
    (Toy.srs_wf 3 (by decide) _ _ _) 3 5 7 (Toy.srs_powers 3 3 5 7) 2 Toy.circuit_domain (by decide) (by decide) dom4_lawful
    [9, 9] [1, 2, 3] [4]
  obtain ⟨f, hf⟩ := C64_p2n Toy.lawful (fun k h => by rw [Toy.circuit_power k h]; exact dom4_lawful) (by decide) h
  have hd : f.domain = 4 := by
    have h1 := hf.enough
    have h2 := hf.least 2 (by decide) (by decide)
    obtain ⟨k, _, _, h3⟩ := hf.domain
    have h4 : k ≤ 2 := (Nat.pow_le_pow_iff_right (by decide)).1 (h3 ▸ h2)
    have : 3 ≤ 2 ^ k := h3 ▸ h1
    rw [h3]
    match k, h4 with
    | 0, _ => simp at this
    | 1, _ => simp at this
    | 2, _ => rfl
  exact ⟨st, f, hf, hd, fun e => by have := (C64_lag_documented hf 3).1 e; omega⟩

-- the circuit in parts
example : ∃ st : Phase2.InitSt, ∃ f : P2File Toy.K Toy.K,
    InitFiles Toy.curve Toy.env.header Toy.parted.base 3 1 st.ph2 st.lag st.evals f := by
  obtain ⟨st, h, -⟩ := C24_evaluations Toy.lawful Toy.env par4 Toy.circuit Toy.circuit_valid Toy.circuit_nc (Toy.srs 3 3 5 7)
    (Toy.srs_wf 3 (by decide) _ _ _) 3 5 7 (Toy.srs_powers 3 3 5 7) 2 Toy.circuit_domain (by decide) (by decide) dom4_lawful
    [9, 9] [1, 2, 3] [4]
  rw [← C44_parted (C := Toy.curve) Toy.env par4 Toy.circuit Toy.parted rfl rfl rfl rfl rfl rfl Toy.parted_get] at h
  exact ⟨st, C64_p2np Toy.lawful (nb := 3) (fun k h => by rw [Toy.circuit_power k h]; exact dom4_lawful) (by decide) h⟩

end ZkSetup
