import Verif.Spec.InitBytes
import Verif.Proofs.AnyTransform
import Verif.Proofs.AnyKeys
import Verif.Proofs.InitRun
/-
The initialisation of phase 2 on any phase 1 bytes: which sections are read, where, and that nothing else matters.
-/
set_option linter.unusedSectionVars false

namespace ZkSetup

open Phase2
open Phase1 (goPow2 makeLen seekDecode check)

section
variable {G : Type} {c : Codec G}

theorem listed_iff_spans (ps : List G) : ∀ bs : Bytes, Listed c ps bs ↔ ∃ e t, bs = e ++ t ∧ Spans c ps e := by
  induction ps with
  | nil => intro bs; exact ⟨fun _ => ⟨[], bs, rfl, rfl⟩, fun _ => trivial⟩
  | cons p ps ih =>
    intro bs
    constructor
    · rintro ⟨e, t, rfl, hd, h⟩
      obtain ⟨e', t', rfl, h'⟩ := (ih t).mp h
      exact ⟨e ++ e', t', by simp, e, e', rfl, hd, h'⟩
    · rintro ⟨_, t, rfl, e, t', rfl, hd, h⟩
      exact ⟨e, t' ++ t, by simp, hd, (ih _).mpr ⟨_, _, rfl, h⟩⟩

theorem decodeN_listed (hs : 0 < c.size) (n cap pos : Nat) (bs : Bytes) (ps : List G) :
    ((c.decodeN n).run ⟨cap, pos, bs⟩).1 = .ok ps ↔ ps.length = n ∧ Listed c ps bs := by
  rw [listed_iff_spans]
  constructor
  · intro h
    obtain ⟨hl, e, t, hb, hsp, -⟩ := (decodeN_iff hs n cap pos bs ps _).mp (Prod.ext h rfl)
    exact ⟨hl, e, t, hb, hsp⟩
  · rintro ⟨hl, e, t, hb, hsp⟩
    rw [(decodeN_iff hs n cap pos bs ps _).mpr ⟨hl, e, t, hb, hsp, rfl⟩]

theorem seekDecode_listed (hs : 0 < c.size) (file : Bytes) (pos : Int) (p : G) :
    seekDecode c file pos = .ok p ↔ 0 ≤ pos ∧ Listed c [p] (file.drop pos.toNat) := by
  unfold seekDecode
  split
  · constructor
    · intro h; simp at h
    · rintro ⟨h, -⟩; omega
  · unfold Rd.file
    constructor
    · intro h
      obtain ⟨e, t, hb, hd, -⟩ := (decode_iff hs _ _ _ _ _).mp (Prod.ext h rfl)
      exact ⟨by omega, e, t, hb, hd, trivial⟩
    · rintro ⟨-, e, t, hb, hd, -⟩
      rw [(decode_iff hs _ _ _ _ _).mpr ⟨e, t, hb, hd, rfl⟩]

theorem listed_bytes (hc : c.Lawful) (ps : List G) (junk : Bytes) : Listed c ps (ps.flatMap c.bytes ++ junk) :=
  (listed_iff_spans ps _).mpr ⟨_, _, rfl, spans_bytes hc ps⟩

theorem listed_bytes_append (hc : c.Lawful) (ps qs : List G) (t : Bytes) : Listed c (ps ++ qs) (ps.flatMap c.bytes ++ t) ↔ Listed c qs t := by
  induction ps with
  | nil => rfl
  | cons p ps ih =>
    rw [← ih]
    constructor
    · rintro ⟨e, t', hb, hd, h⟩
      rw [List.flatMap_cons, List.append_assoc] at hb
      obtain ⟨-, -, rfl⟩ := decodes_unique hc.size_pos hb (decodes_bytes hc p) hd
      exact h
    · intro h
      exact ⟨_, _, by rw [List.flatMap_cons, List.append_assoc], decodes_bytes hc p, h⟩

theorem listed_head {p : G} {ps : List G} {bs : Bytes} (h : Listed c (p :: ps) bs) : Listed c [p] bs := by
  obtain ⟨e, t, hb, hd, -⟩ := h
  exact ⟨e, t, hb, hd, trivial⟩

theorem listed_take {ps : List G} (n : Nat) {bs : Bytes} (h : Listed c ps bs) : Listed c (ps.take n) bs :=
  listed_append _ (ps.drop n) bs (by rw [List.take_append_drop]; exact h)

theorem listed_more {ps : List G} : ∀ {bs : Bytes} (t : Bytes), Listed c ps bs → Listed c ps (bs ++ t) := by
  induction ps with
  | nil => intros; trivial
  | cons p ps ih =>
    rintro bs t ⟨e, t', rfl, hd, h⟩
    exact ⟨e, t' ++ t, by simp, hd, ih t h⟩

end

section
variable {F G1 G2 GT : Type} [Field F] [AddCommGroup G1] [Module F G1] [AddCommGroup G2]
  [Module F G2] [AddCommGroup GT] [Module F GT] [DecidableEq G1] [DecidableEq G2]

/-- a Lagrange section depends on the file through the points at its position -/
theorem lagrangeSection_listed {G : Type} [AddCommGroup G] [Module F G] {c : Codec G} (hs : 0 < c.size) (par : Par) (dom : Lagrange.Domain F)
    (file : Bytes) (pos : Int) (h0 : 0 ≤ pos) (ps : List G) (hl : ps.length = dom.cardinality) (h : Listed c ps (file.drop pos.toNat)) :
    lagrangeSection c par file pos dom = match Lagrange.convert par dom ps with
      | some buff => .ok (c.encodeSlice buff)
      | none => .error (.panic "integer divide by zero") := by
  unfold lagrangeSection check
  rw [if_pos (by simpa using h0)]
  have := (decodeN_listed hs dom.cardinality 4096 0 (file.drop pos.toNat) ps).mpr ⟨hl, h⟩
  unfold Rd.buffered
  rw [this]
  rfl

theorem lagrangeSection_inv {G : Type} [AddCommGroup G] [Module F G] {c : Codec G} (hs : 0 < c.size) (par : Par) (dom : Lagrange.Domain F)
    (file : Bytes) (pos : Int) {out : Bytes} (h : lagrangeSection c par file pos dom = .ok out) :
    0 ≤ pos ∧ ∃ ps : List G, ps.length = dom.cardinality ∧ Listed c ps (file.drop pos.toNat) := by
  unfold lagrangeSection at h
  obtain ⟨_u, h1, h⟩ := except_bind_eq_ok h
  obtain ⟨ps, h2, -⟩ := except_bind_eq_ok h
  unfold check at h1
  have h0 : 0 ≤ pos := by
    by_contra hn
    rw [if_neg (by simpa using hn)] at h1
    simp at h1
  exact ⟨h0, ps, (decodeN_listed hs _ _ _ _ _).mp h2⟩

theorem checkPower_iff (p : UInt8) (m : Nat) : checkPower p (m : Int) = .ok () ↔ p.toNat ≤ 62 ∧ m ≤ 2 ^ p.toNat := by
  unfold checkPower check goPow2
  by_cases hp : p.toNat ≤ 62
  · rw [if_pos hp]
    by_cases hm : m ≤ 2 ^ p.toNat
    · have : ¬ ((2 : Int) ^ p.toNat < m) := by push Not; exact_mod_cast hm
      simp [this, hp, hm]
    · have : (2 : Int) ^ p.toNat < m := by push Not at hm; exact_mod_cast hm
      simp [this, hm]
  · rw [if_neg hp]
    have : -(2 : Int) ^ 63 < m := by omega
    simp only [this, hp, false_and, iff_false]
    simp

theorem header_read3 (p x y : UInt8) (body : Bytes) :
    ∃ c, (Phase1.Header.readFrom.run (Rd.file (p :: x :: y :: body) 0)).1 = .ok ⟨p, c⟩ := by
  unfold Phase1.Header.readFrom
  simp [Go.bind_run, Rd.read, Rd.file, Rd.block, Rd.adv]

theorem header_read_inv {input : Bytes} {h : Phase1.Header} (hr : (Phase1.Header.readFrom.run (Rd.file input 0)).1 = .ok h)
    (hl : 3 ≤ input.length) : ∃ x y body, input = h.power :: x :: y :: body := by
  match input, hl with
  | p :: x :: y :: body, _ =>
    obtain ⟨c, hc⟩ := header_read3 p x y body
    rw [hc] at hr
    simp only [Except.ok.injEq] at hr
    subst hr
    exact ⟨x, y, body, rfl⟩

variable {C : Curve F G1 G2 GT} (hC : C.Lawful)
include hC

/-- what of the input counts -/
structure InitView (C : Curve F G1 G2 GT) (f : P1File G1 G2) (n : Nat) (h : Phase1.Header) (input : Bytes) : Prop where
  power : h.power.toNat ≤ 62
  stands : f.StandsIn C (initStarts h.power.toNat) input
  tauG1 : f.tauG1.length = 2 * n - 1
  alphaG1 : f.alphaG1.length = n
  betaG1 : f.betaG1.length = n
  tauG2 : f.tauG2.length = n
  pos : 0 < n

omit hC in
theorem starts_int {p : UInt8} (hp : p.toNat ≤ 62) :
    (3 + 32 * (2 * goPow2 p - 1) = ((initStarts p.toNat).alphaG1 : Int)) ∧
    (((initStarts p.toNat).alphaG1 : Int) + 32 * goPow2 p = ((initStarts p.toNat).betaG1 : Int)) ∧
    (((initStarts p.toNat).betaG1 : Int) + 32 * goPow2 p = ((initStarts p.toNat).tauG2 : Int)) ∧
    (((initStarts p.toNat).betaG1 : Int) + 96 * goPow2 p = ((initStarts p.toNat).betaG2 : Int)) := by
  have hN : 0 < 2 ^ p.toNat := Nat.pow_pos (by omega)
  have hg : goPow2 p = ((2 ^ p.toNat : Nat) : Int) := goPow2_eq hp
  simp only [initStarts]
  generalize 2 ^ p.toNat = N at *
  omega

theorem processLagrange_same (par : Par) (dom : Nat → Lagrange.Domain F) {f : P1File G1 G2} {n : Nat} {h1 h1' : Phase1.Header}
    {input input' : Bytes} (s : InitView C f n h1 input) (s' : InitView C f n h1' input') (h2 : Header) (hd : (dom h2.domain.toNat).cardinality = n) :
    processLagrange C par dom h1 h2 input = processLagrange C par dom h1' h2 input' := by
  have hs1 := hC.codec1.size_pos
  have hs2 := hC.codec2.size_pos
  obtain ⟨a1, a2, a3, -⟩ := starts_int s.power
  obtain ⟨b1, b2, b3, -⟩ := starts_int s'.power
  have t := listed_take n s.stands.tauG1
  have t' := listed_take n s'.stands.tauG1
  have tl : (f.tauG1.take n).length = n := by rw [List.length_take, s.tauG1]; have := s.pos; omega
  unfold processLagrange
  simp only [a1, a2, a3, b1, b2, b3, hd]
  rw [lagrangeSection_listed hs1 par _ input 3 (by omega) _ (tl.trans hd.symm) t,
    lagrangeSection_listed hs1 par _ input' 3 (by omega) _ (tl.trans hd.symm) t',
    lagrangeSection_listed hs1 par _ input _ (Int.natCast_nonneg _) _ (s.alphaG1.trans hd.symm) s.stands.alphaG1,
    lagrangeSection_listed hs1 par _ input' _ (Int.natCast_nonneg _) _ (s.alphaG1.trans hd.symm) s'.stands.alphaG1,
    lagrangeSection_listed hs1 par _ input _ (Int.natCast_nonneg _) _ (s.betaG1.trans hd.symm) s.stands.betaG1,
    lagrangeSection_listed hs1 par _ input' _ (Int.natCast_nonneg _) _ (s.betaG1.trans hd.symm) s'.stands.betaG1,
    lagrangeSection_listed hs2 par _ input _ (Int.natCast_nonneg _) _ (s.tauG2.trans hd.symm) s.stands.tauG2,
    lagrangeSection_listed hs2 par _ input' _ (Int.natCast_nonneg _) _ (s.tauG2.trans hd.symm) s'.stands.tauG2]

theorem readPhase1_same {f : P1File G1 G2} {n : Nat} {h : Phase1.Header} {input : Bytes} (s : InitView C f n h input) :
    readPhase1 C input h.power = .ok (f.alphaG1.getD 0 0, f.betaG1.getD 0 0, f.betaG2) := by
  have hs1 := hC.codec1.size_pos
  have hs2 := hC.codec2.size_pos
  obtain ⟨a1, a2, -, a4⟩ := starts_int s.power
  have hd : ∀ {l : List G1} {bs : Bytes}, l.length = n → Listed C.c1 l bs → Listed C.c1 [l.getD 0 0] bs := by
    intro l bs hl h
    match l with
    | [] => have := s.pos; simp at hl; omega
    | p :: ps => exact listed_head h
  unfold readPhase1
  simp only [a1, a2, a4]
  rw [(seekDecode_listed hs1 _ _ _).mpr ⟨Int.natCast_nonneg _, hd s.alphaG1 s.stands.alphaG1⟩,
    (seekDecode_listed hs1 _ _ _).mpr ⟨Int.natCast_nonneg _, hd s.betaG1 s.stands.betaG1⟩,
    (seekDecode_listed hs2 _ _ _).mpr ⟨Int.natCast_nonneg _, s.stands.betaG2⟩]
  rfl

theorem processEvaluations_same (r : R1CS F) {f : P1File G1 G2} {n : Nat} {h1 h1' : Phase1.Header}
    {input input' : Bytes} (s : InitView C f n h1 input) (s' : InitView C f n h1' input') (h2 : Header) :
    processEvaluations C r h1 h2 input = processEvaluations C r h1' h2 input' := by
  unfold processEvaluations
  rw [readPhase1_same hC s, readPhase1_same hC s']

theorem processDeltaAndZ_same {f : P1File G1 G2} {n : Nat} {h1 h1' : Phase1.Header}
    {input input' : Bytes} (s : InitView C f n h1 input) (s' : InitView C f n h1' input') (h2 : Header) (hd : h2.domain = n) :
    processDeltaAndZ C h2 input = processDeltaAndZ C h2 input' := by
  have hs1 := hC.codec1.size_pos
  have hm : makeLen (2 * h2.domain - 1) = .ok (2 * n - 1) := by
    have := s.pos
    unfold makeLen
    rw [hd, if_neg (by omega)]
    congr 1
    omega
  have e := (decodeN_listed hs1 (2 * n - 1) 4096 0 _ _).mpr ⟨s.tauG1, s.stands.tauG1⟩
  have e' := (decodeN_listed hs1 (2 * n - 1) 4096 0 _ _).mpr ⟨s.tauG1, s'.stands.tauG1⟩
  simp only [initStarts] at e e'
  unfold processDeltaAndZ Rd.buffered
  simp only [hm]
  congr 1
  funext _
  congr 1
  funext _
  have hl : ∀ {α : Type} (a : α) (g : α → Go InitSt Unit), (Go.lift (.ok a) >>= g) = g a := fun _ _ => rfl
  rw [hl, hl, e, e']

/-- **Only the parameters count**: inputs that supply the same parameters give the same result and files. -/
theorem init_same (E : InitEnv F) (par : Par) (r : R1CS F) {k : Nat} (hk : nextPowerofTwo r.nbConstraints = .ok ((2 ^ k : Nat) : Int))
    (hd : (E.dom (2 ^ k)).cardinality = 2 ^ k) {f : P1File G1 G2} (h1 : f.tauG1.length = 2 * 2 ^ k - 1) (h2 : f.alphaG1.length = 2 ^ k)
    (h3 : f.betaG1.length = 2 ^ k) (h4 : f.tauG2.length = 2 ^ k) {input input' : Bytes} (s : f.Supplies C r.nbConstraints input)
    (s' : f.Supplies C r.nbConstraints input') (oldLag oldEvals : Bytes) :
    initializeFiles C E par (some r) input oldLag oldEvals = initializeFiles C E par (some r) input' oldLag oldEvals := by
  obtain ⟨p, x, y, body, hi, hp, hm, hst⟩ := s
  obtain ⟨p', x', y', body', hi', hp', hm', hst'⟩ := s'
  obtain ⟨c, hc⟩ := header_read3 p x y body
  obtain ⟨c', hc'⟩ := header_read3 p' x' y' body'
  rw [← hi] at hc
  rw [← hi'] at hc'
  have hpos : 0 < 2 ^ k := Nat.pow_pos (by omega)
  have v : InitView C f (2 ^ k) ⟨p, c⟩ input := ⟨hp, hst, h1, h2, h3, h4, hpos⟩
  have v' : InitView C f (2 ^ k) ⟨p', c'⟩ input' := ⟨hp', hst', h1, h2, h3, h4, hpos⟩
  have hdm := (circuitHeader_rest r r.nbConstraints ((2 ^ k : Nat) : Int)).2.1
  unfold initializeFiles initBody processHeader
  simp only [hk, hc, hc', (checkPower_iff p r.nbConstraints).mpr ⟨hp, hm⟩, (checkPower_iff p' r.nbConstraints).mpr ⟨hp', hm'⟩,
    Go.bind_run, Go.lift_run, Go.pure_run]
  simp only [emitPh2]
  rw [processLagrange_same hC par E.dom v v' _ (by rw [hdm, Int.toNat_natCast]; exact hd), processEvaluations_same hC r v v',
    processDeltaAndZ_same hC v v' _ hdm]

/-- what a success says about the input -/
theorem init_supplies (E : InitEnv F) (par : Par) (r : R1CS F) {k : Nat} (hk : nextPowerofTwo r.nbConstraints = .ok ((2 ^ k : Nat) : Int))
    (hk27 : k ≤ 27) (hd : (E.dom (2 ^ k)).cardinality = 2 ^ k) {input oldLag oldEvals : Bytes} {s : InitSt}
    (h : initializeFiles C E par (some r) input oldLag oldEvals = (.ok (), s)) :
    ∃ f : P1File G1 G2, f.ForPower (UInt8.ofNat k) ∧ f.Supplies C r.nbConstraints input := by
  have hs1 := hC.codec1.size_pos
  have hs2 := hC.codec2.size_pos
  unfold initializeFiles initBody at h
  obtain ⟨⟨r', hd1, hd2⟩, s1, ha, h⟩ := Go.bind_eq_ok h
  obtain ⟨_, s2, hb, h⟩ := Go.bind_eq_ok h
  obtain ⟨_, s3, hc, h⟩ := Go.bind_eq_ok h
  obtain ⟨_, s4, he, -⟩ := Go.bind_eq_ok h
  -- header
  unfold processHeader at ha
  simp only [] at ha
  obtain ⟨dm, _, h1, ha⟩ := Go.bind_eq_ok ha
  obtain ⟨hdr, _, h2, ha⟩ := Go.bind_eq_ok ha
  obtain ⟨_, _, h3, ha⟩ := Go.bind_eq_ok ha
  obtain ⟨_, _, -, ha⟩ := Go.bind_eq_ok ha
  simp only [Go.lift_run, Prod.mk.injEq, Go.pure_run, Except.ok.injEq] at h1 h2 h3 ha
  obtain ⟨⟨rfl, rfl, hh2⟩, -⟩ := ha
  have h1 := h1.1
  rw [hk] at h1
  simp only [Except.ok.injEq] at h1
  subst h1
  obtain ⟨hp, hm⟩ := (checkPower_iff _ _).mp h3.1
  have hdm : hd2.domain = ((2 ^ k : Nat) : Int) := by rw [← hh2]; exact (circuitHeader_rest r r.nbConstraints _).2.1
  obtain ⟨a1, a2, a3, a4⟩ := starts_int hp
  -- tau
  unfold processDeltaAndZ at he
  obtain ⟨_, _, -, he⟩ := Go.bind_eq_ok he
  obtain ⟨_, _, -, he⟩ := Go.bind_eq_ok he
  obtain ⟨len, _, hlen, he⟩ := Go.bind_eq_ok he
  obtain ⟨tau, _, htau, -⟩ := Go.bind_eq_ok he
  simp only [Go.lift_run, Prod.mk.injEq] at hlen htau
  have hlen := makeLen_eq_ok hlen.1
  obtain ⟨htl, htau⟩ := (decodeN_listed hs1 _ _ _ _ _).mp htau.1
  -- the sections
  unfold processLagrange at hb
  simp only [a1, a2, a3, hdm, Int.toNat_natCast] at hb
  obtain ⟨_, _, -, hb⟩ := Go.bind_eq_ok hb
  obtain ⟨_, _, -, hb⟩ := Go.bind_eq_ok hb
  obtain ⟨_, _, -, hb⟩ := Go.bind_eq_ok hb
  obtain ⟨_, _, hal, hb⟩ := Go.bind_eq_ok hb
  obtain ⟨_, _, -, hb⟩ := Go.bind_eq_ok hb
  obtain ⟨_, _, hbe, hb⟩ := Go.bind_eq_ok hb
  obtain ⟨_, _, -, hb⟩ := Go.bind_eq_ok hb
  obtain ⟨_, _, ht2, hb⟩ := Go.bind_eq_ok hb
  simp only [Go.lift_run, Prod.mk.injEq] at hal hbe ht2
  obtain ⟨-, al, hall, hal⟩ := lagrangeSection_inv hs1 par _ _ _ hal.1
  obtain ⟨-, be, hbel, hbe⟩ := lagrangeSection_inv hs1 par _ _ _ hbe.1
  obtain ⟨-, t2, ht2l, ht2⟩ := lagrangeSection_inv hs2 par _ _ _ ht2.1
  -- betaG2
  unfold processEvaluations at hc
  obtain ⟨_, _, -, hc⟩ := Go.bind_eq_ok hc
  obtain ⟨_, _, -, hc⟩ := Go.bind_eq_ok hc
  obtain ⟨abb, _, hr, -⟩ := Go.bind_eq_ok hc
  simp only [Go.lift_run, Prod.mk.injEq] at hr
  have hr := hr.1
  unfold readPhase1 at hr
  obtain ⟨_, -, hr⟩ := except_bind_eq_ok hr
  obtain ⟨_, -, hr⟩ := except_bind_eq_ok hr
  obtain ⟨b2, hb2, -⟩ := except_bind_eq_ok hr
  rw [a1, a2, a4] at hb2
  obtain ⟨-, hb2⟩ := (seekDecode_listed hs2 _ _ _).mp hb2
  have hk8 : (UInt8.ofNat k).toNat = k := by rw [UInt8.toNat_ofNat']; omega
  have hpk : powersFor (UInt8.ofNat k).toNat = 2 ^ k := by rw [hk8, powersFor, if_pos (by omega)]
  have hpos : 0 < 2 ^ k := Nat.pow_pos (by omega)
  have hin : 3 ≤ input.length := by
    have := listed_length hs1 _ _ htau
    rw [hdm] at hlen
    rw [htl, List.length_drop] at this
    have : 1 ≤ C.c1.size * len := Nat.mul_pos hs1 (by omega)
    omega
  obtain ⟨x, y, body, hi⟩ := header_read_inv h2.1 hin
  refine ⟨⟨UInt8.ofNat k, tau, al, be, t2, b2, []⟩, ⟨rfl, ?_, ?_, ?_, ?_, rfl⟩, hdr.power, x, y, body, hi, hp, hm, ?_⟩
  · rw [hpk]; simp only [htl]; omega
  · rw [hpk]; exact hall.trans hd
  · rw [hpk]; exact hbel.trans hd
  · rw [hpk]; exact ht2l.trans hd
  · exact ⟨htau, hal, hbe, ht2, hb2⟩

/-- a well-formed phase 1 file supplies its parameters -/
theorem supplies_encode (f : P1File G1 G2) (hf : f.WF) (m : Nat) (hm : m ≤ 2 ^ f.power.toNat) (junk : Bytes) :
    f.Supplies C m (f.encode C ++ junk) := by
  have e := P1File.split (C := C) f junk
  refine ⟨f.power, _, _, _, by rw [e]; rfl, hf.power, hm, ?_⟩
  obtain ⟨p0, q0, e0, l0⟩ := P1File.at_tauG1 (C := C) f junk
  obtain ⟨p1, q1, e1, l1⟩ := P1File.at_alphaG1 hC f hf junk
  obtain ⟨p2, q2, e2, l2⟩ := P1File.at_betaG1 hC f hf junk
  obtain ⟨p3, q3, e3, l3⟩ := P1File.at_tauG2 hC f hf junk
  obtain ⟨p4, q4, e4, l4⟩ := P1File.at_betaG2 hC f hf junk
  simp only [initStarts]
  refine ⟨?_, ?_, ?_, ?_, ?_⟩ <;> simp only []
  · rw [e0, List.drop_left' l0]; exact listed_bytes hC.codec1 _ _
  · rw [e1, List.drop_left' l1]; exact listed_bytes hC.codec1 _ _
  · rw [e2, List.drop_left' l2]; exact listed_bytes hC.codec1 _ _
  · rw [e3, List.drop_left' (by omega)]; exact listed_bytes hC.codec2 _ _
  · rw [e4, List.drop_left' (by omega)]
    have := listed_bytes hC.codec2 [f.betaG2] q4
    simpa using this

omit hC in
theorem standsIn_header {f : P1File G1 G2} {p : Nat} {a b c a' b' c' : UInt8} {t : Bytes}
    (h : f.StandsIn C (initStarts p) (a :: b :: c :: t)) : f.StandsIn C (initStarts p) (a' :: b' :: c' :: t) := by
  have hd : ∀ (j : Nat) (a b c : UInt8), (a :: b :: c :: t).drop (3 + j) = t.drop j := by
    intro j a b c
    rw [← List.drop_drop]
    rfl
  obtain ⟨h1, h2, h3, h4, h5⟩ := h
  simp only [initStarts, Nat.add_assoc] at h1 h2 h3 h4 h5
  rw [hd] at h2 h3 h4 h5
  refine ⟨h1, ?_, ?_, ?_, ?_⟩ <;> simp only [initStarts, Nat.add_assoc] <;> rw [hd]
  · exact h2
  · exact h3
  · exact h4
  · exact h5

/-- so do its parameters with any number of records in the header and anything behind them -/
theorem supplies_params (f : P1File G1 G2) (hf : f.WF) (m : Nat) (hm : m ≤ 2 ^ f.power.toNat) (x y : UInt8) (t : Bytes) :
    f.Supplies C m (f.power :: x :: y :: (f.params C ++ t)) := by
  obtain ⟨p, x', y', body, hi, hp, hm, s⟩ := supplies_encode hC { f with records := [] }
    ⟨hf.power, hf.tauG1, hf.alphaG1, hf.betaG1, hf.tauG2, by simp, by simp⟩ m hm t
  simp only [P1File.encode, P1File.params, List.flatMap_nil, List.append_nil, List.cons_append, List.nil_append, List.append_assoc,
    List.cons.injEq] at hi
  obtain ⟨hpw, -, -, hb⟩ := hi
  have s' : f.StandsIn C (initStarts p.toNat) _ := ⟨s.tauG1, s.alphaG1, s.betaG1, s.tauG2, s.betaG2⟩
  refine ⟨f.power, x, y, _, rfl, hf.power, by rw [hpw]; exact hm, ?_⟩
  rw [hpw]
  simp only [P1File.encode, P1File.params, List.flatMap_nil, List.append_nil, List.cons_append, List.nil_append, List.append_assoc] at s' ⊢
  exact standsIn_header s'

omit hC in
/-- the beginnings of the sections are supplied as well -/
theorem Supplies.cut {f : P1File G1 G2} {m : Nat} {input : Bytes} (h : f.Supplies C m input) (n : Nat) (p : UInt8) :
    P1File.Supplies C ⟨p, f.tauG1.take (2 * n - 1), f.alphaG1.take n, f.betaG1.take n, f.tauG2.take n, f.betaG2, []⟩ m input := by
  obtain ⟨q, x, y, body, hi, hp, hm, s⟩ := h
  exact ⟨q, x, y, body, hi, hp, hm, listed_take _ s.tauG1, listed_take _ s.alphaG1, listed_take _ s.betaG1, listed_take _ s.tauG2, s.betaG2⟩

end
end ZkSetup
