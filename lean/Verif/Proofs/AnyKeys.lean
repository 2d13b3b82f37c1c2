import Verif.Spec.AnyKeys
import Verif.Proofs.AnyContribute
import Verif.Proofs.Keys
import Verif.Proofs.Gob
import Verif.Proofs.InitRun
/-
Key extraction on any bytes: what the reads return.
-/
set_option linter.unusedSectionVars false

namespace ZkSetup

open Keys KeySt Phase2
open Phase1 (wrap64 makeLen)

section
variable {G : Type} {c : Codec G}

theorem decodeN_iff (hs : 0 < c.size) (n : Nat) : ∀ (cap pos : Nat) (bs : Bytes) (ps : List G) (r' : Rd),
    (c.decodeN n).run ⟨cap, pos, bs⟩ = (.ok ps, r') ↔
      ps.length = n ∧ ∃ e t, bs = e ++ t ∧ Spans c ps e ∧ r' = ⟨cap, pos + e.length, t⟩ := by
  induction n with
  | zero =>
    intro cap pos bs ps r'
    simp only [Codec.decodeN, Go.pure_run, Prod.mk.injEq, Except.ok.injEq]
    constructor
    · rintro ⟨rfl, rfl⟩
      exact ⟨rfl, [], bs, rfl, rfl, rfl⟩
    · rintro ⟨h, e, t, rfl, hsp, rfl⟩
      obtain rfl := List.length_eq_zero_iff.mp h
      obtain rfl : e = [] := hsp
      exact ⟨rfl, rfl⟩
  | succ n ih =>
    intro cap pos bs ps r'
    unfold Codec.decodeN
    constructor
    · intro h
      obtain ⟨p, r1, h1, h⟩ := Go.bind_eq_ok h
      obtain ⟨qs, r2, h2, h⟩ := Go.bind_eq_ok h
      simp only [Go.pure_run, Prod.mk.injEq, Except.ok.injEq] at h
      obtain ⟨rfl, rfl⟩ := h
      obtain ⟨e, t, rfl, hd, rfl⟩ := (decode_iff hs _ _ _ _ _).mp h1
      obtain ⟨hl, e', t', rfl, hsp, rfl⟩ := (ih _ _ _ _ _).mp h2
      refine ⟨by simp [hl], e ++ e', t', by simp, ⟨e, e', rfl, hd, hsp⟩, ?_⟩
      simp [Nat.add_assoc]
    · rintro ⟨hl, e, t, rfl, hsp, rfl⟩
      cases ps with
      | nil => simp at hl
      | cons p ps =>
        obtain ⟨e1, e2, rfl, hd, hsp⟩ := hsp
        rw [Go.bind_ok ((decode_iff hs cap pos _ p _).mpr ⟨e1, e2 ++ t, by simp, hd, rfl⟩),
          Go.bind_ok ((ih _ _ _ ps _).mpr ⟨by simpa using hl, e2, t, rfl, hsp, rfl⟩)]
        simp [Nat.add_assoc]

theorem beBytes_beValue' (b : Bytes) : beBytes b.length (beValue b) = b := by
  induction b using List.reverseRecOn with
  | nil => rfl
  | append_singleton b x ih =>
    have hx := x.toNat_lt
    have h1 : beValue (b ++ [x]) = beValue b * 256 + x.toNat := by simp [beValue]
    rw [List.length_append, List.length_singleton, beBytes, h1]
    have e1 : (beValue b * 256 + x.toNat) / 256 = beValue b := by omega
    rw [e1, ih]
    congr 2
    apply UInt8.toNat_inj.mp
    simp

theorem decodeSlice_iff (hs : 0 < c.size) (cap pos : Nat) (bs : Bytes) (ps : List G) (r' : Rd) :
    c.decodeSlice.run ⟨cap, pos, bs⟩ = (.ok ps, r') ↔ ∃ e t, bs = e ++ t ∧ SliceSpans c ps e ∧ r' = ⟨cap, pos + e.length, t⟩ := by
  unfold Codec.decodeSlice
  constructor
  · intro h
    obtain ⟨b, r1, h1, h⟩ := Go.bind_eq_ok h
    unfold Rd.readFull at h1
    simp only at h1
    split at h1
    · rename_i hl
      simp only [Prod.mk.injEq, Except.ok.injEq, Rd.adv] at h1
      obtain ⟨rfl, rfl⟩ := h1
      obtain ⟨hn, e, t, ht, hsp, rfl⟩ := (decodeN_iff hs _ _ _ _ _ _).mp h
      have h4 : (bs.take 4).length = 4 := by simp; omega
      have hlt := Gob.beValue_lt (bs.take 4)
      have hbe := beBytes_beValue' (bs.take 4)
      rw [h4] at hlt hbe
      refine ⟨bs.take 4 ++ e, t, ?_, ⟨by rw [hn]; simpa using hlt, e, by rw [hn, hbe], hsp⟩, ?_⟩
      · rw [List.append_assoc, ← ht, List.take_append_drop]
      · rw [List.length_append, h4, Nat.add_assoc]
    · simp at h1
  · rintro ⟨e, t, rfl, ⟨hlt, e', rfl, hsp⟩, rfl⟩
    rw [List.append_assoc, Go.bind_ok (Rd.readFull_append cap pos _ _ 4 (beBytes_length _ _)), beValue_beBytes _ _ (by simpa using hlt)]
    refine (decodeN_iff hs _ _ _ _ _ _).mpr ⟨rfl, e', t, rfl, hsp, ?_⟩
    rw [List.length_append, beBytes_length, Nat.add_assoc]

/-- what is read is determined by the bytes -/
theorem decodes_unique (hs : 0 < c.size) {p q : G} {e e' t t' : Bytes} (h : e ++ t = e' ++ t') (h1 : c.Decodes p e) (h2 : c.Decodes q e') :
    p = q ∧ e = e' ∧ t = t' := by
  have a1 := (decode_iff hs 0 0 (e ++ t) p _).mpr ⟨e, t, rfl, h1, rfl⟩
  have a2 := (decode_iff hs 0 0 (e ++ t) q _).mpr ⟨e', t', h, h2, rfl⟩
  rw [a1] at a2
  simp only [Prod.mk.injEq, Except.ok.injEq, Rd.mk.injEq, true_and, Nat.zero_add] at a2
  exact ⟨a2.1, List.append_inj_left h a2.2.1, a2.2.2⟩

theorem spans_unique (hs : 0 < c.size) {ps qs : List G} (hl : ps.length = qs.length) {e e' t t' : Bytes} (h : e ++ t = e' ++ t')
    (h1 : Spans c ps e) (h2 : Spans c qs e') : ps = qs ∧ e = e' ∧ t = t' := by
  have a1 := (decodeN_iff hs _ 0 0 (e ++ t) ps _).mpr ⟨rfl, e, t, rfl, h1, rfl⟩
  have a2 := (decodeN_iff hs _ 0 0 (e ++ t) qs _).mpr ⟨hl.symm, e', t', h, h2, rfl⟩
  rw [a1] at a2
  simp only [Prod.mk.injEq, Except.ok.injEq, Rd.mk.injEq, true_and, Nat.zero_add] at a2
  exact ⟨a2.1, List.append_inj_left h a2.2.1, a2.2.2⟩

theorem sliceSpans_unique (hs : 0 < c.size) {ps qs : List G} {e e' t t' : Bytes} (h : e ++ t = e' ++ t')
    (h1 : SliceSpans c ps e) (h2 : SliceSpans c qs e') : ps = qs ∧ e = e' ∧ t = t' := by
  have a1 := (decodeSlice_iff hs 0 0 (e ++ t) ps _).mpr ⟨e, t, rfl, h1, rfl⟩
  have a2 := (decodeSlice_iff hs 0 0 (e ++ t) qs _).mpr ⟨e', t', h, h2, rfl⟩
  rw [a1] at a2
  simp only [Prod.mk.injEq, Except.ok.injEq, Rd.mk.injEq, true_and, Nat.zero_add] at a2
  exact ⟨a2.1, List.append_inj_left h a2.2.1, a2.2.2⟩

theorem decodes_bytes (hc : c.Lawful) (p : G) : c.Decodes p (c.bytes p) := by
  refine ⟨?_, hc.set_bytes p⟩
  rw [hc.bytes_flag, hc.bytes_length]
  rfl

theorem spans_bytes (hc : c.Lawful) (ps : List G) : Spans c ps (ps.flatMap c.bytes) := by
  induction ps with
  | nil => rfl
  | cons p ps ih => exact ⟨_, _, rfl, decodes_bytes hc p, ih⟩

theorem spans_raw (hc : c.Lawful) (ps : List G) : Spans c ps (ps.flatMap c.rawBytes) := by
  induction ps with
  | nil => rfl
  | cons p ps ih =>
    refine ⟨_, _, rfl, ⟨?_, hc.set_raw p⟩, ih⟩
    rw [hc.raw_flag, hc.raw_length]
    rfl

theorem sliceSpans_encode (hc : c.Lawful) (ps : List G) (hl : ps.length < 2 ^ 32) : SliceSpans c ps (c.encodeSlice ps) :=
  ⟨hl, _, rfl, spans_bytes hc ps⟩

theorem sliceSpans_encodeRaw (hc : c.Lawful) (ps : List G) (hl : ps.length < 2 ^ 32) : SliceSpans c ps (c.encodeSliceRaw ps) :=
  ⟨hl, _, rfl, spans_raw hc ps⟩

end

section
variable {F G1 G2 GT : Type} [Field F] [AddCommGroup G1] [Module F G1] [AddCommGroup G2]
  [Module F G2] [AddCommGroup GT] [Module F GT] [DecidableEq G1] [DecidableEq G2]

theorem onEvals_inv {O α : Type} {x : Go Rd α} {s s' : KeySt O} {a : α} (h : (onEvals x).run s = (.ok a, s')) :
    ∃ e', x.run s.evals = (.ok a, e') ∧ s' = ⟨s.ph2, e', s.out⟩ := by
  rw [onEvals_run] at h
  simp only [Prod.mk.injEq] at h
  exact ⟨_, Prod.ext h.1 rfl, h.2.symm⟩

theorem onPh2_inv {O α : Type} {x : Go Rd α} {s s' : KeySt O} {a : α} (h : (onPh2 x).run s = (.ok a, s')) :
    ∃ p', x.run s.ph2 = (.ok a, p') ∧ s' = ⟨p', s.evals, s.out⟩ := by
  rw [onPh2_run] at h
  simp only [Prod.mk.injEq] at h
  exact ⟨_, Prod.ext h.1 rfl, h.2.symm⟩

variable {C : Curve F G1 G2 GT} (hC : C.Lawful)
include hC

/-- the reads of the extraction of a proving key -/
theorem readPk_iff (h : Header) (cap pos cap' pos' : Nat) (bs ev : Bytes) (key : ProvingKey G1 G2) :
    (∃ s', (readPk C h).run (⟨⟨cap, pos, bs⟩, ⟨cap', pos', ev⟩, ()⟩ : KeySt Unit) = (.ok key, s')) ↔
      ∃ (f : P2File G1 G2) (v : Evals G1 G2), f.ParamsIn C h bs ∧ v.ProvingIn C ev ∧
        key = { provingKeyOf f v with domain := toUint64 h.domain, wires := toUint64 h.wires } := by
  have hs1 := hC.codec1.size_pos
  have hs2 := hC.codec2.size_pos
  constructor
  · rintro ⟨s', hr⟩
    unfold readPk at hr
    obtain ⟨alpha1, _, h1, hr⟩ := Go.bind_eq_ok hr
    obtain ⟨e1, g1, rfl⟩ := onEvals_inv h1
    obtain ⟨x1, t1, rfl, d1, rfl⟩ := (decode_iff hs1 _ _ _ _ _).mp g1
    obtain ⟨beta1, _, h2, hr⟩ := Go.bind_eq_ok hr
    obtain ⟨e2, g2, rfl⟩ := onEvals_inv h2
    obtain ⟨x2, t2, rfl, d2, rfl⟩ := (decode_iff hs1 _ _ _ _ _).mp g2
    obtain ⟨delta1, _, h3, hr⟩ := Go.bind_eq_ok hr
    obtain ⟨e3, g3, rfl⟩ := onPh2_inv h3
    obtain ⟨y1, u1, rfl, d3, rfl⟩ := (decode_iff hs1 _ _ _ _ _).mp g3
    obtain ⟨beta2, _, h4, hr⟩ := Go.bind_eq_ok hr
    obtain ⟨e4, g4, rfl⟩ := onEvals_inv h4
    obtain ⟨x3, t3, rfl, d4, rfl⟩ := (decode_iff hs2 _ _ _ _ _).mp g4
    obtain ⟨delta2, _, h5, hr⟩ := Go.bind_eq_ok hr
    obtain ⟨e5, g5, rfl⟩ := onPh2_inv h5
    obtain ⟨y2, u2, rfl, d5, rfl⟩ := (decode_iff hs2 _ _ _ _ _).mp g5
    obtain ⟨a, _, h6, hr⟩ := Go.bind_eq_ok hr
    obtain ⟨e6, g6, rfl⟩ := onEvals_inv h6
    obtain ⟨x4, t4, rfl, d6, rfl⟩ := (decodeSlice_iff hs1 _ _ _ _ _).mp g6
    obtain ⟨b1, _, h7, hr⟩ := Go.bind_eq_ok hr
    obtain ⟨e7, g7, rfl⟩ := onEvals_inv h7
    obtain ⟨x5, t5, rfl, d7, rfl⟩ := (decodeSlice_iff hs1 _ _ _ _ _).mp g7
    obtain ⟨n, _, h8, hr⟩ := Go.bind_eq_ok hr
    simp only [Go.lift_run, Prod.mk.injEq] at h8
    obtain ⟨h8, rfl⟩ := h8
    obtain ⟨z, _, h9, hr⟩ := Go.bind_eq_ok hr
    obtain ⟨e9, g9, rfl⟩ := onPh2_inv h9
    obtain ⟨l9, y3, u3, rfl, d9, rfl⟩ := (decodeN_iff hs1 _ _ _ _ _ _).mp g9
    obtain ⟨m, _, h10, hr⟩ := Go.bind_eq_ok hr
    simp only [Go.lift_run, Prod.mk.injEq] at h10
    obtain ⟨h10, rfl⟩ := h10
    obtain ⟨k, _, h11, hr⟩ := Go.bind_eq_ok hr
    obtain ⟨e11, g11, rfl⟩ := onPh2_inv h11
    obtain ⟨l11, y4, u4, rfl, d11, rfl⟩ := (decodeN_iff hs1 _ _ _ _ _ _).mp g11
    obtain ⟨b2, _, h12, hr⟩ := Go.bind_eq_ok hr
    obtain ⟨e12, g12, rfl⟩ := onEvals_inv h12
    obtain ⟨x6, t6, rfl, d12, rfl⟩ := (decodeSlice_iff hs2 _ _ _ _ _).mp g12
    simp only [Go.pure_run, Prod.mk.injEq, Except.ok.injEq] at hr
    obtain ⟨rfl, -⟩ := hr
    have hz := makeLen_eq_ok h8
    have hk := makeLen_eq_ok h10
    refine ⟨⟨0, 0, 0, 0, 0, h.domain.toNat, delta1, delta2, z, k, []⟩, ⟨alpha1, beta1, beta2, a, b1, b2, [], [], []⟩,
      ⟨?_, ?_, ?_, y1, y2, y3, y4, u4, rfl, d3, d5, d9, d11⟩, ⟨x1, x2, x3, x4, x5, x6, t6, rfl, d1, d2, d4, d6, d7, d12⟩, rfl⟩
    · simp only
      omega
    · simp only
      omega
    · simp only
      omega
  · rintro ⟨f, v, ⟨hd, hz, hk, y1, y2, y3, y4, u4, rfl, d3, d5, d9, d11⟩, ⟨x1, x2, x3, x4, x5, x6, t6, rfl, d1, d2, d4, d6, d7, d12⟩, rfl⟩
    have hz' : makeLen (h.domain - 1) = .ok f.z.length := by
      rw [show h.domain - 1 = (f.z.length : Int) by omega]
      exact makeLen_nat _
    have hk' : makeLen h.witness = .ok f.pkk.length := by
      rw [hk]
      exact makeLen_nat _
    unfold readPk
    rw [Go.bind_ok (onEvals_ok ((decode_iff hs1 _ _ _ _ _).mpr ⟨x1, _, rfl, d1, rfl⟩)),
      Go.bind_ok (onEvals_ok ((decode_iff hs1 _ _ _ _ _).mpr ⟨x2, _, rfl, d2, rfl⟩)),
      Go.bind_ok (onPh2_ok ((decode_iff hs1 _ _ _ _ _).mpr ⟨y1, _, rfl, d3, rfl⟩)),
      Go.bind_ok (onEvals_ok ((decode_iff hs2 _ _ _ _ _).mpr ⟨x3, _, rfl, d4, rfl⟩)),
      Go.bind_ok (onPh2_ok ((decode_iff hs2 _ _ _ _ _).mpr ⟨y2, _, rfl, d5, rfl⟩)),
      Go.bind_ok (onEvals_ok ((decodeSlice_iff hs1 _ _ _ _ _).mpr ⟨x4, _, rfl, d6, rfl⟩)),
      Go.bind_ok (onEvals_ok ((decodeSlice_iff hs1 _ _ _ _ _).mpr ⟨x5, _, rfl, d7, rfl⟩)), hz', Go.bind_ok (Go.lift_run _ _),
      Go.bind_ok (onPh2_ok ((decodeN_iff hs1 _ _ _ _ _ _).mpr ⟨rfl, y3, _, rfl, d9, rfl⟩)), hk', Go.bind_ok (Go.lift_run _ _),
      Go.bind_ok (onPh2_ok ((decodeN_iff hs1 _ _ _ _ _ _).mpr ⟨rfl, y4, _, rfl, d11, rfl⟩)),
      Go.bind_ok (onEvals_ok ((decodeSlice_iff hs2 _ _ _ _ _).mpr ⟨x6, _, rfl, d12, rfl⟩))]
    exact ⟨_, rfl⟩

/-- the reads of the extraction of a verifying key -/
theorem readVKParts_iff (h : Header) (cap pos : Nat) (bs ev : Bytes) (vk : VerifyKey G1 G2) (ckk : List G1) :
    (∃ s', (readVKParts C ev h).run (⟨⟨cap, pos, bs⟩, Rd.buffered 4096 ev, ()⟩ : KeySt Unit) = (.ok (vk, ckk), s')) ↔
      ∃ (f : P2File G1 G2) (v : Evals G1 G2), f.DeltasIn C bs ∧ v.VerifyingIn C h.wires ev ∧ vk = verifyKeyOf C f v ∧ ckk = v.ckk := by
  have hs1 := hC.codec1.size_pos
  have hs2 := hC.codec2.size_pos
  constructor
  · rintro ⟨s', hr⟩
    unfold readVKParts Rd.buffered at hr
    obtain ⟨alpha1, _, h1, hr⟩ := Go.bind_eq_ok hr
    obtain ⟨e1, g1, rfl⟩ := onEvals_inv h1
    obtain ⟨x1, t1, hev, d1, rfl⟩ := (decode_iff hs1 _ _ _ _ _).mp g1
    obtain ⟨beta1, _, h2, hr⟩ := Go.bind_eq_ok hr
    obtain ⟨e2, g2, rfl⟩ := onEvals_inv h2
    obtain ⟨x2, t2, rfl, d2, rfl⟩ := (decode_iff hs1 _ _ _ _ _).mp g2
    obtain ⟨beta2, _, h4, hr⟩ := Go.bind_eq_ok hr
    obtain ⟨e4, g4, rfl⟩ := onEvals_inv h4
    obtain ⟨x3, t3, rfl, d4, rfl⟩ := (decode_iff hs2 _ _ _ _ _).mp g4
    obtain ⟨delta1, _, h3, hr⟩ := Go.bind_eq_ok hr
    obtain ⟨e3, g3, rfl⟩ := onPh2_inv h3
    obtain ⟨y1, u1, rfl, d3, rfl⟩ := (decode_iff hs1 _ _ _ _ _).mp g3
    obtain ⟨delta2, _, h5, hr⟩ := Go.bind_eq_ok hr
    obtain ⟨e5, g5, rfl⟩ := onPh2_inv h5
    obtain ⟨y2, u2, rfl, d5, rfl⟩ := (decode_iff hs2 _ _ _ _ _).mp g5
    obtain ⟨⟨⟩, _, h6, hr⟩ := Go.bind_eq_ok hr
    rw [seekEvals_run] at h6
    split at h6
    swap
    · simp at h6
    rename_i hp
    simp only [Prod.mk.injEq, true_and, Rd.buffered] at h6
    subst h6
    obtain ⟨k, _, h7, hr⟩ := Go.bind_eq_ok hr
    obtain ⟨e7, g7, rfl⟩ := onEvals_inv h7
    obtain ⟨x4, t4, hx, d7, rfl⟩ := (decodeSlice_iff hs1 _ _ _ _ _).mp g7
    obtain ⟨ck, _, h8, hr⟩ := Go.bind_eq_ok hr
    obtain ⟨e8, g8, rfl⟩ := onEvals_inv h8
    obtain ⟨x5, t5, rfl, d8, rfl⟩ := (decodeSlice_iff hs1 _ _ _ _ _).mp g8
    simp only [Go.pure_run, Prod.mk.injEq, Except.ok.injEq] at hr
    obtain ⟨⟨rfl, rfl⟩, -⟩ := hr
    refine ⟨⟨0, 0, 0, 0, 0, 0, delta1, delta2, [], [], []⟩, ⟨alpha1, beta1, beta2, [], [], [], k, ck, []⟩, ⟨y1, y2, u2, rfl, d3, d5⟩,
      ⟨⟨x1, x2, x3, t3, hev, d1, d2, d4⟩, (wrap64 (128 * (h.wires + 1) + 12)).toNat, ?_, ?_, x4, x5, t5, hx, d7, d8⟩, rfl, rfl⟩
    · unfold wrap64
      omega
    · rw [Int.toNat_of_nonneg hp]
      unfold wrap64
      omega
  · rintro ⟨f, v, ⟨y1, y2, u2, rfl, d3, d5⟩, ⟨⟨x1, x2, x3, t3, hev, d1, d2, d4⟩, p, hp1, hp2, x4, x5, t5, hx, d7, d8⟩, rfl, rfl⟩
    have hpos : wrap64 (128 * (h.wires + 1) + 12) = (p : Int) := by
      unfold wrap64
      omega
    have hseek : ∀ (a b : Rd), (seekEvals (O := Unit) ev (wrap64 (128 * (h.wires + 1) + 12))).run ⟨a, b, ()⟩
        = (.ok (), ⟨a, ⟨4096, 0, x4 ++ (x5 ++ t5)⟩, ()⟩) := by
      intro a b
      rw [seekEvals_run, hpos, if_pos (by omega), Int.toNat_natCast, hx]
      rfl
    unfold readVKParts Rd.buffered
    rw [Go.bind_ok (onEvals_ok ((decode_iff hs1 _ _ _ _ _).mpr ⟨x1, _, hev, d1, rfl⟩)),
      Go.bind_ok (onEvals_ok ((decode_iff hs1 _ _ _ _ _).mpr ⟨x2, _, rfl, d2, rfl⟩)),
      Go.bind_ok (onEvals_ok ((decode_iff hs2 _ _ _ _ _).mpr ⟨x3, _, rfl, d4, rfl⟩)),
      Go.bind_ok (onPh2_ok ((decode_iff hs1 _ _ _ _ _).mpr ⟨y1, _, rfl, d3, rfl⟩)),
      Go.bind_ok (onPh2_ok ((decode_iff hs2 _ _ _ _ _).mpr ⟨y2, _, rfl, d5, rfl⟩)),
      Go.bind_ok (hseek _ _),
      Go.bind_ok (onEvals_ok ((decodeSlice_iff hs1 _ _ _ _ _).mpr ⟨x4, _, rfl, d7, rfl⟩)),
      Go.bind_ok (onEvals_ok ((decodeSlice_iff hs1 _ _ _ _ _).mpr ⟨x5, _, rfl, d8, rfl⟩))]
    exact ⟨_, rfl⟩

end
end ZkSetup
