import Verif.Proofs.AnyKeys
import Verif.Props.Keys
import Verif.Props.Phase2Sound
/-
C83: which bytes the extraction of keys accepts, and what it writes.
-/
set_option linter.unusedSectionVars false

namespace ZkSetup

open Phase2 Keys KeySt

section
variable {F G1 G2 GT : Type} [Field F] [AddCommGroup G1] [Module F G1] [AddCommGroup G2]
  [Module F G2] [AddCommGroup GT] [Module F GT] [DecidableEq G1] [DecidableEq G2] [DecidableEq GT]
variable {C : Curve F G1 G2 GT} (hC : C.Lawful)
include hC

omit hC in
theorem P2File.ParamsIn.toUint64 {f : P2File G1 G2} {h : Header} {bs : Bytes} (hp : f.ParamsIn C h bs) (hr : h.domain < 2 ^ 64) :
    Keys.toUint64 h.domain = f.domain := by
  rw [hp.domain] at hr ⊢
  exact toUint64_nat _ (by exact_mod_cast hr)

/-- **C83**, proving key, for all bytes: it is extracted exactly if the header announces a domain of at most `2^28` points and the points
can be read; the key consists of these points. The number of wires is copied from the header. -/
theorem C83_pk (K : KeyEnv G1) (hH : K.header.Lawful) (ph2 evals out : Bytes) : extractPK C K ph2 evals = (.ok (), some out) ↔
    ∃ h r, K.header.dec.run (Rd.buffered 4096 ph2) = (.ok h, r) ∧ h.domain ≤ 2 ^ 28 ∧
      ∃ (f : P2File G1 G2) (v : Evals G1 G2), f.ParamsIn C h r.rest ∧ v.ProvingIn C evals ∧
        out = ({ provingKeyOf f v with wires := (h.wires % 2 ^ 64).toNat } : ProvingKey G1 G2).encode C (K.domain f.domain) := by
  unfold extractPK
  rw [extract_ok]
  constructor
  · rintro ⟨h, ⟨cap, pos, rest⟩, hd, hb⟩
    obtain ⟨key, d, s', hdom, hr, rfl⟩ := (pkBody_iff C K h _ out).mp hb
    obtain ⟨f, v, hf, hv, rfl⟩ := (readPk_iff hC h _ _ _ _ _ _ key).mp ⟨s', hr⟩
    have e := hf.toUint64 (by have := (hH.dec_range _ _ _ hd).domain; omega)
    have h28 : ¬ 2 ^ 28 < f.domain := by
      intro hlt
      unfold domainBytes at hdom
      rw [e, if_pos hlt] at hdom
      simp at hdom
    unfold domainBytes at hdom
    rw [e, if_neg h28] at hdom
    simp only [Except.ok.injEq] at hdom
    subst hdom
    refine ⟨h, _, hd, by have := hf.domain; omega, f, v, hf, hv, ?_⟩
    rw [e]
    rfl
  · rintro ⟨h, ⟨cap, pos, rest⟩, hd, hle, f, v, hf, hv, rfl⟩
    have e := hf.toUint64 (by omega)
    obtain ⟨s', hs'⟩ := (readPk_iff hC h cap pos 4096 0 rest evals _).mpr ⟨f, v, hf, hv, rfl⟩
    refine ⟨h, _, hd, (pkBody_iff C K h _ _).mpr ⟨_, K.domain f.domain, s', ?_, hs', ?_⟩⟩
    · rw [e]
      unfold domainBytes
      rw [if_neg (by have := hf.domain; omega)]
    · rw [e]
      rfl

/-- **C83**, split proving key, for all bytes: the same without the bound of the domain, which is not computed here. -/
theorem C83_split_pk (K : KeyEnv G1) (hH : K.header.Lawful) (ph2 evals : Bytes) (out : SplitPK) :
    extractSplitPK C K ph2 evals = (.ok (), some out) ↔
    ∃ h r, K.header.dec.run (Rd.buffered 4096 ph2) = (.ok h, r) ∧
      ∃ (f : P2File G1 G2) (v : Evals G1 G2), f.ParamsIn C h r.rest ∧ v.ProvingIn C evals ∧
        out = ({ provingKeyOf f v with wires := (h.wires % 2 ^ 64).toNat } : ProvingKey G1 G2).encodeSplit C := by
  unfold extractSplitPK
  rw [extract_ok]
  constructor
  · rintro ⟨h, ⟨cap, pos, rest⟩, hd, hb⟩
    obtain ⟨key, s', hr, rfl⟩ := (splitPkBody_iff C h _ rfl out).mp hb
    obtain ⟨f, v, hf, hv, rfl⟩ := (readPk_iff hC h _ _ _ _ _ _ key).mp ⟨s', hr⟩
    have e := hf.toUint64 (by have := (hH.dec_range _ _ _ hd).domain; omega)
    refine ⟨h, _, hd, f, v, hf, hv, ?_⟩
    rw [e]
    rfl
  · rintro ⟨h, ⟨cap, pos, rest⟩, hd, f, v, hf, hv, rfl⟩
    have e := hf.toUint64 (by have := (hH.dec_range _ _ _ hd).domain; omega)
    obtain ⟨s', hs'⟩ := (readPk_iff hC h cap pos 4096 0 rest evals _).mpr ⟨f, v, hf, hv, rfl⟩
    refine ⟨h, _, hd, (splitPkBody_iff C h _ rfl _).mpr ⟨_, s', hs', ?_⟩⟩
    rw [e]
    rfl

/-- **C83**, verifying key, for all bytes: of the phase 2 file only the header and the first two points are needed. -/
theorem C83_vk (K : KeyEnv G1) (ph2 evals out : Bytes) : extractVK C K ph2 evals = (.ok (), some out) ↔
    ∃ h r, K.header.dec.run (Rd.buffered 4096 ph2) = (.ok h, r) ∧
      ∃ (f : P2File G1 G2) (v : Evals G1 G2) (ck : Bytes), f.DeltasIn C r.rest ∧ v.VerifyingIn C h.wires evals ∧
        K.commitmentKey v.ckk = .ok ck ∧ out = (verifyKeyOf C f v).encode C ck K.noCommitment := by
  unfold extractVK
  rw [extract_ok]
  constructor
  · rintro ⟨h, ⟨cap, pos, rest⟩, hd, hb⟩
    obtain ⟨vk, ckk, ck, s', hr, hck, rfl⟩ := (vkBody_iff C K evals h _ out).mp hb
    obtain ⟨f, v, hf, hv, rfl, rfl⟩ := (readVKParts_iff hC h _ _ _ _ vk ckk).mp ⟨s', hr⟩
    exact ⟨h, _, hd, f, v, ck, hf, hv, hck, by simp⟩
  · rintro ⟨h, ⟨cap, pos, rest⟩, hd, f, v, ck, hf, hv, hck, rfl⟩
    obtain ⟨s', hs'⟩ := (readVKParts_iff hC h cap pos rest evals _ _).mpr ⟨f, v, hf, hv, rfl, rfl⟩
    exact ⟨h, _, hd, (vkBody_iff C K evals h _ _).mpr ⟨_, _, ck, s', hs', hck, by simp⟩⟩

/-- **C83**, split verifying key, for all bytes -/
theorem C83_split_vk (K : KeyEnv G1) (ph2 evals : Bytes) (out : SplitVK) : extractSplitVK C K ph2 evals = (.ok (), some out) ↔
    ∃ h r, K.header.dec.run (Rd.buffered 4096 ph2) = (.ok h, r) ∧
      ∃ (f : P2File G1 G2) (v : Evals G1 G2) (ck : Bytes), f.DeltasIn C r.rest ∧ v.VerifyingIn C h.wires evals ∧
        K.commitmentKey v.ckk = .ok ck ∧ out = ⟨(verifyKeyOf C f v).encode C ck K.noCommitment, some (ck ++ ck)⟩ := by
  unfold extractSplitVK
  rw [extract_ok]
  constructor
  · rintro ⟨h, ⟨cap, pos, rest⟩, hd, hb⟩
    obtain ⟨vk, ckk, ck, s', hr, hck, rfl⟩ := (splitVkBody_iff C K evals h _ rfl out).mp hb
    obtain ⟨f, v, hf, hv, rfl, rfl⟩ := (readVKParts_iff hC h _ _ _ _ vk ckk).mp ⟨s', hr⟩
    exact ⟨h, _, hd, f, v, ck, hf, hv, hck, rfl⟩
  · rintro ⟨h, ⟨cap, pos, rest⟩, hd, f, v, ck, hf, hv, hck, rfl⟩
    obtain ⟨s', hs'⟩ := (readVKParts_iff hC h cap pos rest evals _ _).mpr ⟨f, v, hf, hv, rfl, rfl⟩
    exact ⟨h, _, hd, (splitVkBody_iff C K evals h _ rfl _).mpr ⟨_, _, ck, s', hs', hck, rfl⟩⟩

omit hC [DecidableEq G1] [DecidableEq G2] [DecidableEq GT] [Field F] [AddCommGroup G1] [Module F G1] [AddCommGroup G2]
  [Module F G2] [AddCommGroup GT] [Module F GT] in
theorem bothKeys_iff {P V : Type} (pk : Except Fail Unit × Option P) (vk : Except Fail Unit × Option V) (p : P) (v : V) :
    bothKeys pk vk = (.ok (), ⟨some p, some v⟩) ↔ pk = (.ok (), some p) ∧ vk = (.ok (), some v) := by
  unfold bothKeys
  rcases pk with ⟨_ | ⟨⟩, o⟩
  · simp
  · rcases vk with ⟨r, o'⟩
    simp only [Prod.mk.injEq, KeyFiles.mk.injEq]
    constructor
    · rintro ⟨rfl, rfl, rfl⟩
      exact ⟨⟨trivial, rfl⟩, rfl, rfl⟩
    · rintro ⟨⟨-, rfl⟩, rfl, rfl⟩
      exact ⟨rfl, rfl, rfl⟩

omit hC in
theorem extractKeys_some (K : KeyEnv G1) (ph2 evals : Bytes) (h : (extractKeys C K ph2 evals).1 = .ok ()) :
    ∃ pk vk, extractPK C K ph2 evals = (.ok (), some pk) ∧ extractVK C K ph2 evals = (.ok (), some vk) := by
  obtain ⟨h1, h2⟩ := (bothKeys_ok _ _).mp h
  obtain ⟨pk, h1⟩ := extract_some _ _ _ _ _ h1
  obtain ⟨vk, h2⟩ := extract_some _ _ _ _ _ h2
  exact ⟨pk, vk, h1, h2⟩

/-- **C83**, `key`, for all bytes: it succeeds exactly if the header can be read and announces a domain of at most `2^28` points, and what the
two keys need can be read. -/
theorem C83_key (K : KeyEnv G1) (hH : K.header.Lawful) (ph2 evals : Bytes) : (extractKeys C K ph2 evals).1 = .ok () ↔
    ∃ h r, K.header.dec.run (Rd.buffered 4096 ph2) = (.ok h, r) ∧ h.domain ≤ 2 ^ 28 ∧
      ∃ (f : P2File G1 G2) (v : Evals G1 G2) (ck : Bytes), f.ParamsIn C h r.rest ∧ v.ProvingIn C evals ∧ v.VerifyingIn C h.wires evals ∧
        K.commitmentKey v.ckk = .ok ck := by
  have hs1 := hC.codec1.size_pos
  have hs2 := hC.codec2.size_pos
  constructor
  · intro h
    obtain ⟨pk, vk, h1, h2⟩ := extractKeys_some K ph2 evals h
    obtain ⟨h, r, hd, hle, f, v, hf, hv, -⟩ := (C83_pk hC K hH _ _ _).mp h1
    obtain ⟨h', r', hd', f', v', ck, hf', hv', hck, -⟩ := (C83_vk hC K _ _ _).mp h2
    rw [hd] at hd'
    simp only [Prod.mk.injEq, Except.ok.injEq] at hd'
    obtain ⟨rfl, rfl⟩ := hd'
    obtain ⟨x1, x2, x3, sa, sb, sb2, u, e', w4, w5, w6, w7, w8, w9⟩ := hv
    refine ⟨h, r, hd, hle, f, { v with vkk := v'.vkk, ckk := v'.ckk }, ck, hf, ⟨x1, x2, x3, sa, sb, sb2, u, e', w4, w5, w6, w7, w8, w9⟩, ?_, hck⟩
    refine ⟨⟨x1, x2, x3, _, e', w4, w5, w6⟩, hv'.2⟩
  · rintro ⟨h, r, hd, hle, f, v, ck, hf, hv, hv', hck⟩
    obtain ⟨d1, d2, ez, ek, t, e, w1, w2, -, -⟩ := hf.bytes
    have h1 := (C83_pk hC K hH _ _ _).mpr ⟨h, r, hd, hle, f, v, hf, hv, rfl⟩
    have h2 := (C83_vk hC K _ _ _).mpr ⟨h, r, hd, f, v, ck, ⟨d1, d2, _, e, w1, w2⟩, hv', hck, rfl⟩
    unfold extractKeys
    rw [(bothKeys_iff _ _ _ _).mpr ⟨h1, h2⟩]

/-! ### files cut short -/

omit hC in
theorem headerWith_self (f : P2File G1 G2) : f.headerWith f.records.length = f.header := rfl

/-- the header that is read in the beginning of a file is the header of the file -/
theorem header_cut {H : HeaderCodec} (hH : H.Lawful) (f : P2File G1 G2) (hf : f.WF) (n : Nat) {h : Header} {r : Rd}
    (hd : H.dec.run (Rd.buffered 4096 ((f.encode C H).take n)) = (.ok h, r)) :
    h = f.header ∧ (H.enc f.header).length ≤ n ∧ r.rest = (f.params C ++ f.records.flatMap (record2Bytes C)).take (n - (H.enc f.header).length) := by
  obtain ⟨used, hu, hall⟩ := hH.dec_local _ _ _ hd
  simp only [Rd.buffered] at hu
  have hfull : f.encode C H = used ++ (r.rest ++ (f.encode C H).drop n) := by
    rw [← List.append_assoc, ← hu, List.take_append_drop]
  have e1 := hall 4096 0 (r.rest ++ (f.encode C H).drop n)
  have henc : f.encode C H = H.enc f.header ++ (f.params C ++ f.records.flatMap (record2Bytes C)) := by
    unfold P2File.encode
    rw [List.append_assoc]
  rw [← hfull, henc, hH.dec_enc f.header (P2File.header_inRange hC hH hf)] at e1
  simp only [Prod.mk.injEq, Except.ok.injEq, Rd.mk.injEq, true_and, Nat.zero_add] at e1
  obtain ⟨rfl, e2, -⟩ := e1
  have hnl : (H.enc f.header).length ≤ n := by
    have := congrArg List.length hu
    simp only [List.length_take, List.length_append] at this
    omega
  refine ⟨rfl, hnl, ?_⟩
  obtain ⟨m, rfl⟩ : ∃ m, n = (H.enc f.header).length + m := ⟨n - (H.enc f.header).length, by omega⟩
  rw [henc, List.take_length_add_append] at hu
  obtain ⟨-, hrest⟩ := List.append_inj hu e2
  rw [← hrest, Nat.add_sub_cancel_left]

/-- the parameters that are read in the beginning of a file are complete -/
theorem params_cut (f g : P2File G1 G2) (hf : f.WF) (h : Header) (hh : h = f.header) (rest : Bytes) (m : Nat)
    (hg : g.ParamsIn C h ((f.params C ++ rest).take m)) : (f.params C).length ≤ m := by
  have hs1 := hC.codec1.size_pos
  have hs2 := hC.codec2.size_pos
  subst hh
  obtain ⟨d1, d2, ez, ek, t, e, w1, w2, w3, w4⟩ := hg.bytes
  have hz : g.z.length = f.z.length := by
    have h1 := hg.z
    have h2 := hf.z
    have h3 := hf.domain_pos
    simp only [P2File.header] at h1
    omega
  have hk : g.pkk.length = f.pkk.length := by
    have h1 := hg.pkk
    have h2 := hf.pkk
    simp only [P2File.header] at h1
    omega
  have hfull : d1 ++ (d2 ++ (ez ++ (ek ++ (t ++ (f.params C ++ rest).drop m))))
      = C.c1.bytes f.delta1 ++ (C.c2.bytes f.delta2 ++ (f.z.flatMap C.c1.bytes ++ (f.pkk.flatMap C.c1.bytes ++ rest))) := by
    have := List.take_append_drop m (f.params C ++ rest)
    rw [e] at this
    unfold P2File.params at this ⊢
    simpa only [List.append_assoc] using this
  obtain ⟨-, q1, hfull⟩ := decodes_unique hs1 hfull w1 (decodes_bytes hC.codec1 _)
  obtain ⟨-, q2, hfull⟩ := decodes_unique hs2 hfull w2 (decodes_bytes hC.codec2 _)
  obtain ⟨-, q3, hfull⟩ := spans_unique hs1 hz hfull w3 (spans_bytes hC.codec1 _)
  obtain ⟨-, q4, -⟩ := spans_unique hs1 hk hfull w4 (spans_bytes hC.codec1 _)
  have hl := congrArg List.length e
  rw [q1, q2, q3, q4] at hl
  simp only [P2File.params, List.length_append, List.length_take] at hl ⊢
  omega

/-- **C83**, the phase 2 file cut short: `key` refuses exactly if a parameter is missing. That records are missing, any number of them, is not
noticed: the keys are the same. -/
theorem C83_cut_ph2 (K : KeyEnv G1) (hH : K.header.Lawful) (f : P2File G1 G2) (hf : f.WF) (hd : f.domain ≤ 2 ^ 28) (v : Evals G1 G2)
    (hw : f.wires < 2 ^ 32) (ha : v.a.length = f.wires) (hb1 : v.b1.length = f.wires) (hb2 : v.b2.length = f.wires)
    (hv : v.vkk.length < 2 ^ 32) (hc : v.ckk.length < 2 ^ 32) (ck : Bytes) (hck : K.commitmentKey v.ckk = .ok ck) (n : Nat) :
    ((extractKeys C K ((f.encode C K.header).take n) (v.encode C)).1 = .ok () ↔
      (K.header.enc f.header).length + (f.params C).length ≤ n) ∧
    ((K.header.enc f.header).length + (f.params C).length ≤ n →
      extractKeys C K ((f.encode C K.header).take n) (v.encode C) = extractKeys C K (f.encode C K.header) (v.encode C)) := by
  have hkey : ∀ rest, extractKeys C K (K.header.enc f.header ++ (f.params C ++ rest)) (v.encode C)
      = (.ok (), ⟨some ((provingKeyOf f v).encode C (K.domain f.domain)), some ((verifyKeyOf C f v).encode C ck K.noCommitment)⟩) := by
    intro rest
    have hcount := hf.count
    have h1 := extractPK_starts hC K hH f hf hd f.records.length (by omega) (by omega) v (by omega) (by omega) (by omega) rest []
    have h2 := (extractVK_starts hC K hH f hf f.records.length (by omega) (by omega) v hw ha hb1 hb2 hv hc ck hck rest []).1
    rw [headerWith_self, List.append_nil] at h1 h2
    exact (bothKeys_iff _ _ _ _).mpr ⟨h1, h2⟩
  have hlong : (K.header.enc f.header).length + (f.params C).length ≤ n →
      (f.encode C K.header).take n = K.header.enc f.header ++ (f.params C ++ (f.records.flatMap (record2Bytes C)).take
        (n - ((K.header.enc f.header).length + (f.params C).length))) := by
    intro hn
    obtain ⟨m, rfl⟩ : ∃ m, n = (K.header.enc f.header).length + ((f.params C).length + m) :=
      ⟨n - ((K.header.enc f.header).length + (f.params C).length), by omega⟩
    unfold P2File.encode
    rw [List.append_assoc, List.take_length_add_append, List.take_length_add_append]
    congr 3
    omega
  have hall := hkey (f.records.flatMap (record2Bytes C))
  rw [← List.append_assoc] at hall
  refine ⟨⟨fun h => ?_, fun hn => ?_⟩, fun hn => ?_⟩
  · obtain ⟨pk, vk, h1, -⟩ := extractKeys_some K _ _ h
    obtain ⟨h, r, hdec, -, g, v', hg, -⟩ := (C83_pk hC K hH _ _ _).mp h1
    obtain ⟨e1, e2, e3⟩ := header_cut hC hH f hf n hdec
    rw [e3] at hg
    have := params_cut hC f g hf h e1 _ _ hg
    omega
  · rw [hlong hn, hkey]
  · rw [hlong hn, hkey]
    exact hall.symm

/-- **C83**, the evaluation file cut short: `key` refuses exactly if a point is missing. The commitment description at its end is not read. -/
theorem C83_cut_evals (K : KeyEnv G1) (hH : K.header.Lawful) (f : P2File G1 G2) (hf : f.WF) (hd : f.domain ≤ 2 ^ 28) (v : Evals G1 G2)
    (hw : f.wires < 2 ^ 32) (ha : v.a.length = f.wires) (hb1 : v.b1.length = f.wires) (hb2 : v.b2.length = f.wires)
    (hv : v.vkk.length < 2 ^ 32) (hc : v.ckk.length < 2 ^ 32) (ck : Bytes) (hck : K.commitmentKey v.ckk = .ok ck) (n : Nat) :
    ((extractKeys C K (f.encode C K.header) ((v.encode C).take n)).1 = .ok () ↔ (v.encode C).length - v.commitment.length ≤ n) ∧
    ((v.encode C).length - v.commitment.length ≤ n →
      extractKeys C K (f.encode C K.header) ((v.encode C).take n) = extractKeys C K (f.encode C K.header) (v.encode C)) := by
  have hs1 := hC.codec1.size_pos
  have hcount := hf.count
  have henc : f.encode C K.header = K.header.enc (f.headerWith f.records.length) ++ (f.params C ++ f.records.flatMap (record2Bytes C)) := by
    unfold P2File.encode
    rw [List.append_assoc]
    rfl
  have hkey : ∀ cm : Bytes, extractKeys C K (f.encode C K.header) (({ v with commitment := cm } : Evals G1 G2).encode C)
      = (.ok (), ⟨some ((provingKeyOf f v).encode C (K.domain f.domain)), some ((verifyKeyOf C f v).encode C ck K.noCommitment)⟩) := by
    intro cm
    have h1 := extractPK_starts hC K hH f hf hd f.records.length (by omega) (by omega) { v with commitment := cm } (by simp only; omega)
      (by simp only; omega) (by simp only; omega) (f.records.flatMap (record2Bytes C)) []
    have h2 := (extractVK_starts hC K hH f hf f.records.length (by omega) (by omega) { v with commitment := cm } hw ha hb1 hb2 hv hc ck hck
      (f.records.flatMap (record2Bytes C)) []).1
    rw [← henc, List.append_nil] at h1 h2
    exact (bothKeys_iff _ _ _ _).mpr ⟨h1, h2⟩
  have hev : v.encode C = ({ v with commitment := [] } : Evals G1 G2).encode C ++ v.commitment := by simp [Evals.encode]
  have hlen : (v.encode C).length - v.commitment.length = (({ v with commitment := [] } : Evals G1 G2).encode C).length := by
    rw [hev, List.length_append, Nat.add_sub_cancel]
  have hlong : (v.encode C).length - v.commitment.length ≤ n → ∃ cm, (v.encode C).take n = ({ v with commitment := cm } : Evals G1 G2).encode C := by
    rw [hlen]
    intro hn
    obtain ⟨m, rfl⟩ : ∃ m, n = (({ v with commitment := [] } : Evals G1 G2).encode C).length + m := ⟨_, (Nat.add_sub_of_le hn).symm⟩
    refine ⟨v.commitment.take m, ?_⟩
    rw [hev, List.take_length_add_append]
    simp [Evals.encode]
  refine ⟨⟨fun h => ?_, fun hn => ?_⟩, fun hn => ?_⟩
  · obtain ⟨pk, vk, -, h2⟩ := extractKeys_some K _ _ h
    obtain ⟨h, r, hdec, g, v', ck', -, ⟨-, pos, hp1, hp2, sv, sc, t, e, w1, w2⟩, -⟩ := (C83_vk hC K _ _ _).mp h2
    have hdec' : (f.encode C K.header).take (f.encode C K.header).length = f.encode C K.header := List.take_length
    rw [← hdec'] at hdec
    obtain ⟨rfl, -⟩ := header_cut hC hH f hf _ hdec
    have hpos : pos = 128 * (f.wires + 1) + 12 := by
      simp only [P2File.header] at hp2
      omega
    have hdrop := evals_vkk hC v f.wires ha hb1 hb2 []
    rw [List.append_nil, List.append_nil, ← hpos] at hdrop
    rw [List.drop_take, hdrop] at e
    have hfull : sv ++ (sc ++ (t ++ (C.c1.encodeSlice v.vkk ++ (C.c1.encodeSlice v.ckk ++ v.commitment)).drop (n - pos)))
        = C.c1.encodeSlice v.vkk ++ (C.c1.encodeSlice v.ckk ++ v.commitment) := by
      have := List.take_append_drop (n - pos) (C.c1.encodeSlice v.vkk ++ (C.c1.encodeSlice v.ckk ++ v.commitment))
      rw [e] at this
      simpa only [List.append_assoc] using this
    obtain ⟨-, q1, hfull⟩ := sliceSpans_unique hs1 hfull w1 (sliceSpans_encode hC.codec1 _ hv)
    obtain ⟨-, q2, -⟩ := sliceSpans_unique hs1 hfull w2 (sliceSpans_encode hC.codec1 _ hc)
    have hl := congrArg List.length e
    have hl2 := congrArg List.length hdrop
    have h4 := Codec.encodeSlice_length hC.codec1 v.vkk
    rw [q1, q2] at hl
    simp only [List.length_append, List.length_take, List.length_drop] at hl hl2
    omega
  · obtain ⟨cm, hcm⟩ := hlong hn
    rw [hcm, hkey]
  · obtain ⟨cm, hcm⟩ := hlong hn
    have := hkey v.commitment
    rw [hcm, hkey]
    exact this.symm

/-! ### the number of wires -/

/-- **C83**: the number of wires in the header is not compared with the evaluation file. `2^57` more wires give the same positions: both keys
are written, the proving key with the wrong number of wires. -/
theorem C83_wires (K : KeyEnv G1) (hH : K.header.Lawful) (f : P2File G1 G2) (hf : f.WF) (hd : f.domain ≤ 2 ^ 28) (v : Evals G1 G2)
    (w j : Nat) (hfw : f.wires = w + 2 ^ 57 * j) (hw : w < 2 ^ 32) (ha : v.a.length = w) (hb1 : v.b1.length = w) (hb2 : v.b2.length = w)
    (hv : v.vkk.length < 2 ^ 32) (hc : v.ckk.length < 2 ^ 32) (ck : Bytes) (hck : K.commitmentKey v.ckk = .ok ck) (junk : Bytes) :
    extractKeys C K (f.encode C K.header ++ junk) (v.encode C)
      = (.ok (), ⟨some ((provingKeyOf f v).encode C (K.domain f.domain)), some ((verifyKeyOf C f v).encode C ck K.noCommitment)⟩) := by
  have hcount := hf.count
  have henc : f.encode C K.header ++ junk
      = K.header.enc (f.headerWith f.records.length) ++ (f.params C ++ (f.records.flatMap (record2Bytes C) ++ junk)) := by
    unfold P2File.encode
    simp only [List.append_assoc]
    rfl
  have hr := P2File.header_inRange hC hH hf
  have hdec : K.header.dec.run (Rd.buffered 4096 (f.encode C K.header ++ junk))
      = (.ok f.header, ⟨4096, 0 + (K.header.enc f.header).length, f.params C ++ (f.records.flatMap (record2Bytes C) ++ junk)⟩) := by
    rw [henc, headerWith_self]
    exact hH.dec_enc f.header hr 4096 0 _
  refine (bothKeys_iff _ _ _ _).mpr ⟨?_, ?_⟩
  · have h1 := extractPK_starts hC K hH f hf hd f.records.length (by omega) (by omega) v (by omega)
      (by omega) (by omega) (f.records.flatMap (record2Bytes C) ++ junk) []
    rw [← henc, List.append_nil] at h1
    exact h1
  · refine (C83_vk hC K _ _ _).mpr ⟨_, _, hdec, f, v, ck, ?_, ⟨?_, 128 * (w + 1) + 12, by omega, ?_, ?_⟩, hck, rfl⟩
    · refine ⟨_, _, f.z.flatMap C.c1.bytes ++ (f.pkk.flatMap C.c1.bytes ++ (f.records.flatMap (record2Bytes C) ++ junk)), ?_,
        decodes_bytes hC.codec1 _, decodes_bytes hC.codec2 _⟩
      simp [P2File.params]
    · refine ⟨_, _, _, C.c1.encodeSlice v.a ++ (C.c1.encodeSlice v.b1 ++ (C.c2.encodeSlice v.b2 ++ (C.c1.encodeSlice v.vkk ++
        (C.c1.encodeSlice v.ckk ++ v.commitment)))), ?_, decodes_bytes hC.codec1 _, decodes_bytes hC.codec1 _, decodes_bytes hC.codec2 _⟩
      simp [Evals.encode]
    · simp only [P2File.header]
      omega
    · have := evals_vkk hC v w ha hb1 hb2 []
      rw [List.append_nil, List.append_nil] at this
      exact ⟨_, _, _, this, sliceSpans_encode hC.codec1 _ hv, sliceSpans_encode hC.codec1 _ hc⟩

end

/-! ### concrete cases -/

namespace Toy

/-- an evaluation file for the toy phase 2 file, with a commitment description of three bytes -/
def evals5 : Evals K K := ⟨1, 2, 2, [0, 3, 4, 5, 6], [5, 0, 6, 0, 1], [5, 0, 6, 0, 1], [7, 8], [], [1, 2, 3]⟩

/-- `2^57` wires too many in the header -/
def p2wires : P2File K K := { p2 with wires := 5 + 2 ^ 57 * 1 }

theorem p2wires_wf : p2wires.WF := ⟨by decide, by decide, by decide, by decide, by decide, by decide, by decide, rfl, rfl, by decide,
  by simp [p2wires, p2]⟩

/-- the evaluation file with the points before `[B]2` compressed, and `[B]2` uncompressed -/
def evalsRaw : Bytes := curve.c1.bytes evals5.alpha1 ++ (curve.c1.bytes evals5.beta1 ++ (curve.c2.bytes evals5.beta2 ++
  (curve.c1.encodeSlice evals5.a ++ (curve.c1.encodeSlice evals5.b1 ++ (curve.c2.encodeSliceRaw evals5.b2 ++ [])))))

/-- the phase 2 file with all points uncompressed, in which nothing else stands -/
def p2raw : Bytes := Gob.headerCodec.enc p2.header ++ (curve.c1.rawBytes p2.delta1 ++ (curve.c2.rawBytes p2.delta2 ++
  (p2.z.flatMap curve.c1.rawBytes ++ (p2.pkk.flatMap curve.c1.rawBytes ++ []))))

end Toy

-- a proving key is extracted from uncompressed points
example : extractPK Toy.curve Toy.keyEnv Toy.p2raw Toy.evalsRaw
    = (.ok (), some ((provingKeyOf Toy.p2 Toy.evals5).encode Toy.curve (beBytes 8 4))) := by
  have h1 := Toy.lawful.codec1
  have h2 := Toy.lawful.codec2
  have hd : Toy.keyEnv.header.dec.run (Rd.buffered 4096 Toy.p2raw) = (.ok Toy.p2.header, ⟨4096, 0 + (Gob.headerCodec.enc Toy.p2.header).length,
      Toy.curve.c1.rawBytes Toy.p2.delta1 ++ (Toy.curve.c2.rawBytes Toy.p2.delta2 ++
        (Toy.p2.z.flatMap Toy.curve.c1.rawBytes ++ (Toy.p2.pkk.flatMap Toy.curve.c1.rawBytes ++ [])))⟩) := by
    have hr := P2File.header_inRange Toy.lawful Gob.lawful Toy.p2_wf
    have hk : Toy.keyEnv.header = Gob.headerCodec := rfl
    unfold Toy.p2raw Rd.buffered
    rw [hk, Gob.lawful.dec_enc _ hr]
  refine (C83_pk Toy.lawful Toy.keyEnv Gob.lawful _ _ _).mpr ⟨Toy.p2.header, _, hd, by decide, Toy.p2, Toy.evals5,
    ⟨rfl, by decide, by decide, _, _, _, _, _, rfl, ⟨?_, h1.set_raw _⟩, ⟨?_, h2.set_raw _⟩, spans_raw h1 _, spans_raw h1 _⟩,
    ⟨_, _, _, _, _, _, _, rfl, decodes_bytes h1 _, decodes_bytes h1 _, decodes_bytes h2 _, sliceSpans_encode h1 _ (by decide),
      sliceSpans_encode h1 _ (by decide), sliceSpans_encodeRaw h2 _ (by decide)⟩, rfl⟩
  · rw [h1.raw_flag, h1.raw_length]
    rfl
  · rw [h2.raw_flag, h2.raw_length]
    rfl

example := C83_split_pk Toy.lawful Toy.keyEnv Gob.lawful (Toy.p2final.encode Toy.curve Gob.headerCodec) (Toy.evals5.encode Toy.curve)
-- the two records of a ceremony may be missing, but not a byte of the parameters
example : (extractKeys Toy.curve Toy.keyEnv ((Toy.p2final.encode Toy.curve Gob.headerCodec).take
    ((Toy.p2final.encode Toy.curve Gob.headerCodec).length - 384)) (Toy.evals5.encode Toy.curve)).1 = .ok () :=
  (C83_cut_ph2 Toy.lawful Toy.keyEnv Gob.lawful Toy.p2final Toy.p2final_wf (by decide +kernel) Toy.evals5 (by decide +kernel)
    (by decide +kernel) (by decide +kernel) (by decide +kernel) (by decide) (by decide) [0] rfl _).1.mpr (by decide +kernel)
example : (extractKeys Toy.curve Toy.keyEnv ((Toy.p2final.encode Toy.curve Gob.headerCodec).take
    ((Toy.p2final.encode Toy.curve Gob.headerCodec).length - 385)) (Toy.evals5.encode Toy.curve)).1 ≠ .ok () := fun h =>
  absurd ((C83_cut_ph2 Toy.lawful Toy.keyEnv Gob.lawful Toy.p2final Toy.p2final_wf (by decide +kernel) Toy.evals5 (by decide +kernel)
    (by decide +kernel) (by decide +kernel) (by decide +kernel) (by decide) (by decide) [0] rfl _).1.mp h) (by decide +kernel)
example : (extractKeys Toy.curve Toy.keyEnv (Toy.p2final.encode Toy.curve Gob.headerCodec) ((Toy.evals5.encode Toy.curve).take
    ((Toy.evals5.encode Toy.curve).length - 3))).1 = .ok () :=
  (C83_cut_evals Toy.lawful Toy.keyEnv Gob.lawful Toy.p2final Toy.p2final_wf (by decide +kernel) Toy.evals5 (by decide +kernel)
    (by decide +kernel) (by decide +kernel) (by decide +kernel) (by decide) (by decide) [0] rfl _).1.mpr (by decide +kernel)
example := C83_wires Toy.lawful Toy.keyEnv Gob.lawful Toy.p2wires Toy.p2wires_wf (by decide) Toy.evals5 5 1 rfl (by decide) rfl rfl rfl
  (by decide) (by decide) [0] rfl [1]
-- what is read there
example : ∃ h r, Toy.keyEnv.header.dec.run (Rd.buffered 4096 (Toy.p2wires.encode Toy.curve Toy.keyEnv.header ++ [1])) = (.ok h, r) ∧
    h.domain ≤ 2 ^ 28 ∧ ∃ (f : P2File Toy.K Toy.K) (v : Evals Toy.K Toy.K) (ck : Bytes), f.ParamsIn Toy.curve h r.rest ∧
      v.ProvingIn Toy.curve (Toy.evals5.encode Toy.curve) ∧ v.VerifyingIn Toy.curve h.wires (Toy.evals5.encode Toy.curve) ∧
      Toy.keyEnv.commitmentKey v.ckk = .ok ck :=
  (C83_key Toy.lawful Toy.keyEnv Gob.lawful _ _).mp (by
    have := C83_wires Toy.lawful Toy.keyEnv Gob.lawful Toy.p2wires Toy.p2wires_wf (by decide) Toy.evals5 5 1 rfl (by decide) rfl rfl rfl
      (by decide) (by decide) [0] rfl [1]
    exact congrArg Prod.fst this)

end ZkSetup
