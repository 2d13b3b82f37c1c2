import Verif.Proofs.AnyContribute
import Verif.Props.AnyVerify1
import Verif.Props.AnyVerify
import Verif.Props.Continue
import Verif.Props.WellFormed
import Verif.Props.Encodings
/-
C80: what `p1c` and `p2c` accept and write, whatever the bytes are.
-/
set_option linter.unusedSectionVars false

namespace ZkSetup

open Encodings

section phase1
open Phase1
variable {F G1 G2 GT : Type} [Field F] [AddCommGroup G1] [Module F G1] [AddCommGroup G2]
  [Module F G2] [AddCommGroup GT] [Module F GT] [DecidableEq G1] [DecidableEq G2] [DecidableEq GT]
variable {C : Curve F G1 G2 GT} (hC : C.Lawful)
include hC

theorem hash_of_reads {ts : List (Item G1 G2)} {x : Bytes} {r : Rd} (h : Reads C (.hash x :: ts) r) : x.length = 32 := by
  obtain ⟨r', h, -⟩ := h
  exact readHash_length h

/-- the records at a reader are copied -/
theorem copy_of_reads (rs : List (Contribution G1 G2)) : ∀ (c0 : Contribution G1 G2) (rd : Rd), Reads C (rs.flatMap recordItems) rd →
    ∃ rd', ∀ out, (copyContributions C rs.length c0).run ⟨rd, out⟩
      = (.ok (rs.getLast?.getD c0), ⟨rd', out ++ rs.flatMap (recordBytes C)⟩) := by
  induction rs with
  | nil => intro c0 rd _; exact ⟨rd, fun out => by simp [copyContributions]⟩
  | cons c rs ih =>
    intro c0 rd h
    rw [List.flatMap_cons] at h
    obtain ⟨r1, h1, h2⟩ := reads_record hC c c0 h
    obtain ⟨rd', h3⟩ := ih c r1 h2
    refine ⟨rd', fun out => ?_⟩
    rw [List.length_cons, copyContributions, Go.bind_ok (a := c) (s' := ⟨r1, out⟩) (by simp only [h1]), Go.bind_ok (IOSt.emit_run _ _),
      contribution_writeTo]
    simp only
    rw [h3]
    congr 1
    · congr 1
      cases rs with
      | nil => rfl
      | cons r' rs => simp [List.getLast?_cons]
    · simp

/-- the header of any bytes -/
theorem header_any (p x y : UInt8) (body : Bytes) :
    Header.readFrom.run (Rd.file (p :: x :: y :: body) 0) = (.ok ⟨p, UInt16.ofNat (256 * x.toNat + y.toNat)⟩, ⟨0, 3, body⟩) := by
  unfold Header.readFrom Rd.file
  simp only [List.drop_zero]
  rw [Go.bind_ok (a := [p]) (s' := ⟨0, 1, x :: y :: body⟩) (by simp [Rd.read, Rd.block, Rd.adv])]
  rw [Go.bind_ok (a := [x, y]) (s' := ⟨0, 3, body⟩) (by simp [Rd.read, Rd.block, Rd.adv])]
  simp [getUint16, beValue, Nat.mul_comm]

/-- a file is read in the bytes exactly if the readers of the program read it -/
theorem readIn_iff (f : P1File G1 G2) (hf : f.WF) (cap : Nat) (hcap : 32 ∣ cap) (input : Bytes) : f.ReadIn C input ↔
    ∃ rd, Header.readFrom.run (Rd.file input 0) = (.ok ⟨f.power, UInt16.ofNat f.records.length⟩, rd) ∧
      Reads C f.items (Rd.buffered cap rd.rest) := by
  constructor
  · rintro ⟨x, y, body, rfl, hn, h⟩
    exact ⟨_, by rw [header_any hC, hn], (reads_iff_aligned hC hcap _ _).mpr h⟩
  · rintro ⟨rd, h0, h⟩
    have hne : rd.rest ≠ [] := by
      intro he
      obtain ⟨m, hm⟩ : ∃ m, f.tauG1.length = m + 1 := by
        have : 0 < 2 ^ f.power.toNat := Nat.pow_pos (by omega)
        exact ⟨2 * 2 ^ f.power.toNat - 2, by rw [hf.tauG1]; omega⟩
      obtain ⟨p, ps, hps⟩ : ∃ p ps, f.tauG1 = p :: ps := by
        cases ht : f.tauG1 with
        | nil => rw [ht] at hm; simp at hm
        | cons p ps => exact ⟨p, ps, rfl⟩
      have : ∃ ts, f.items = .g1 p :: ts := ⟨_, by simp [P1File.items, hps]; rfl⟩
      obtain ⟨ts, hts⟩ := this
      rw [hts, he] at h
      obtain ⟨r', h, -⟩ := h
      unfold Rd.buffered at h
      obtain ⟨e, t, h1, h2, -⟩ := (decode_iff hC.codec1.size_pos _ _ _ _ _).mp h
      have h3 := h2.1
      have h4 := congrArg List.length h1
      simp at h4
      have := hC.size1
      split at h3 <;> omega
    have hi := header_inv h0 hne
    rw [header_encode _ _ hf.count] at hi
    refine ⟨_, _, _, hi, ?_, (reads_iff_aligned hC hcap _ _).mp h⟩
    have := hf.count
    simp
    omega

/-- what the contribution reads if it succeeds -/
theorem contribute_reads {par : Par} {b : Nat} (hb : 2 ≤ b) {rnd : Rand F} {input hash out : Bytes}
    (h : contribute C par b rnd input = (.ok hash, out)) :
    ∃ f : P1File G1 G2, f.WF ∧ 1 ≤ f.power.toNat ∧ f.ReadIn C input := by
  unfold contribute at h
  split at h
  · simp at h
  rename_i header rd0 d0
  simp only [Prod.mk.injEq] at h
  obtain ⟨h, -⟩ := h
  generalize hres : (contributeBody C par b rnd header).run ⟨Rd.buffered 4096 rd0.rest, []⟩ = res at h
  obtain ⟨r, s⟩ := res
  simp only at h
  subst h
  unfold contributeBody at hres
  rw [Go.bind_ok (IOSt.emit_run _ _)] at hres
  obtain ⟨t1, s1, h1, hres⟩ := Go.bind_eq_ok hres
  obtain ⟨a1, s2, h2, hres⟩ := Go.bind_eq_ok hres
  obtain ⟨b1, s3, h3, hres⟩ := Go.bind_eq_ok hres
  obtain ⟨t2, s4, h4, hres⟩ := Go.bind_eq_ok hres
  obtain ⟨b2, s5, h5, hres⟩ := Go.bind_eq_ok hres
  rw [Go.bind_ok (IOSt.emit_run _ _)] at hres
  obtain ⟨c, s6, h6, hres⟩ := Go.bind_eq_ok hres
  obtain ⟨n1, p1, rd1, d1, e1⟩ := scaleG1_reads par b (by omega) _ _ _ h1
  obtain ⟨n2, p2, rd2, d2, e2⟩ := scaleG1_reads par b (by omega) _ _ _ h2
  obtain ⟨n3, p3, rd3, d3, e3⟩ := scaleG1_reads par b (by omega) _ _ _ h3
  obtain ⟨n4, p4, rd4, d4, e4⟩ := scaleG2_reads par b (by omega) _ _ h4
  obtain ⟨rd5, d5, e5⟩ := onRd_eq_ok (rd := s4.rd) (out := s4.out) h5
  obtain ⟨rs, hl, d6⟩ := copy_items _ _ _ _ _ _ h6
  have hp62 : header.power.toNat ≤ 62 := by
    by_contra hlt
    unfold goPow2 at n2
    rw [if_neg hlt] at n2
    omega
  have hp1 : 1 ≤ header.power.toNat := by
    by_contra hlt
    have h0 : header.power.toNat = 0 := by omega
    rw [wrap_tau hp62, h0] at h1
    exact scaleG1_single_fails par b (by omega) _ h1
  rw [wrap_tau hp62, Int.toNat_natCast] at d1
  rw [goPow2_eq hp62, Int.toNat_natCast] at d2 d3 d4
  have hn : (header.contributions + 1 - 1).toNat = header.contributions.toNat := by
    rw [UInt16.add_sub_cancel]
  rw [hn] at hl
  have l1 := decodeN_length _ _ _ _ _ d1
  have l2 := decodeN_length _ _ _ _ _ d2
  have l3 := decodeN_length _ _ _ _ _ d3
  have l4 := decodeN_length _ _ _ _ _ d4
  have hlt := header.contributions.toNat_lt
  rw [e1] at d2
  rw [e2] at d3
  rw [e3] at d4
  rw [e4] at d5
  rw [e5] at d6
  let f : P1File G1 G2 := ⟨header.power, p1, p2, p3, p4, b2, rs⟩
  have hreads : Reads C f.items (Rd.buffered 4096 rd0.rest) := by
    simp only [P1File.items, f, List.append_assoc]
    exact reads_of_g1s _ _ _ _ _ d1 (reads_of_g1s _ _ _ _ _ d2 (reads_of_g1s _ _ _ _ _ d3 (reads_of_g2s _ _ _ _ _ d4 ⟨_, d5, d6⟩)))
  have hash32 : ∀ (rs : List (Contribution G1 G2)) (r : Rd), Reads C (rs.flatMap recordItems) r → ∀ c ∈ rs, c.hash.length = 32 := by
    intro rs
    induction rs with
    | nil => intro r _ c hc; cases hc
    | cons c rs ih =>
      intro r hr c' hc'
      rw [List.flatMap_cons] at hr
      obtain ⟨r1, k1, k2⟩ := reads_record hC c Contribution.zero hr
      rcases List.mem_cons.1 hc' with rfl | hc'
      · exact record_hash_length k1
      · exact ih _ k2 _ hc'
  have hf : f.WF := ⟨hp62, l1, l2, l3, l4, by simp only [f]; omega, hash32 _ _ d6⟩
  have hcnt : UInt16.ofNat f.records.length = header.contributions := by
    simp only [f, hl]; simp
  refine ⟨f, hf, hp1, (readIn_iff hC f hf 4096 (by omega) input).mpr ⟨rd0, ?_, hreads⟩⟩
  rw [d0, hcnt]

/-- **C80**, `p1c`, the file read in the bytes decides: for every contributor and machine the contribution to the bytes is the contribution
to that file. -/
theorem C80_p1c_same (par : Par) (b : Nat) (hb : 2 ≤ b) (rnd : Rand F) (f : P1File G1 G2) (hf : f.WF) (hp : 1 ≤ f.power.toNat)
    (input : Bytes) (hr : f.ReadIn C input) : contribute C par b rnd input = contribute C par b rnd (f.encode C) := by
  obtain ⟨rd0, d0, h⟩ := (readIn_iff hC f hf 4096 (by omega) input).mp hr
  simp only [P1File.items, List.append_assoc] at h
  obtain ⟨r1, d1, h⟩ := reads_g1s hC _ h
  obtain ⟨r2, d2, h⟩ := reads_g1s hC _ h
  obtain ⟨r3, d3, h⟩ := reads_g1s hC _ h
  obtain ⟨r4, d4, h⟩ := reads_g2s hC _ h
  obtain ⟨r5, d5, h⟩ := h
  obtain ⟨r6, d6⟩ := copy_of_reads hC _ Contribution.zero _ h
  exact contribute_same hC par b hb rnd f hf hp input rd0 r1 r2 r3 r4 r5 r6 d0 d1 d2 d3 d4 d5 d6

/-- **C80**, `p1c`, exactly: a contribution to any bytes succeeds exactly if a well-formed file of a power of at least 1 can be read in
them. -/
theorem C80_p1c_exact (par : Par) (b : Nat) (hb : 2 ≤ b) (rnd : Rand F) (input : Bytes) :
    (∃ hash out, contribute C par b rnd input = (.ok hash, out)) ↔
      ∃ f : P1File G1 G2, f.WF ∧ 1 ≤ f.power.toNat ∧ f.ReadIn C input := by
  constructor
  · rintro ⟨hash, out, h⟩
    exact contribute_reads hC hb h
  · rintro ⟨f, hf, hp, hr⟩
    obtain ⟨t1, a1, b1, t2, h', -⟩ := contribute_bytes hC par b hb rnd f hf hp
    have := h' []
    rw [List.append_nil, ← C80_p1c_same hC par b hb rnd f hf hp input hr] at this
    exact ⟨_, _, this⟩

/-- **C80**, `p1c`: what is written is the contribution to the file read. -/
theorem C80_p1c_writes (par : Par) (b : Nat) (hb : 2 ≤ b) (rnd : Rand F) (f : P1File G1 G2) (hf : f.WF) (hreg : f.Regular)
    (hp : 1 ≤ f.power.toNat) (hc : f.records.length < 65535) (input : Bytes) (hr : f.ReadIn C input) :
    contribute C par b rnd input = (.ok (lastHash (f.contribute C rnd).records), (f.contribute C rnd).encode C) := by
  have := contribute_regular hC par b hb rnd f hf hreg hp hc []
  rw [List.append_nil] at this
  rw [C80_p1c_same hC par b hb rnd f hf hp input hr, this]

/-- the records at a reader are determined -/
theorem records_unique (rs : List (Contribution G1 G2)) : ∀ (rs' : List (Contribution G1 G2)) (r : Rd), rs.length = rs'.length →
    Reads C (rs.flatMap recordItems) r → Reads C (rs'.flatMap recordItems) r → rs = rs' := by
  induction rs with
  | nil => intro rs' r hl _ _; exact (List.length_eq_zero_iff.mp hl.symm).symm
  | cons c rs ih =>
    intro rs' r hl h h'
    cases rs' with
    | nil => simp at hl
    | cons c' rs' =>
      rw [List.flatMap_cons] at h h'
      obtain ⟨r1, k1, k2⟩ := reads_record hC c Contribution.zero h
      obtain ⟨r1', k1', k2'⟩ := reads_record hC c' Contribution.zero h'
      rw [k1] at k1'
      simp only [Prod.mk.injEq, true_and] at k1'
      obtain ⟨rfl, rfl⟩ := k1'
      rw [ih rs' r1 (by simpa using hl) k2 k2']

/-- **C80**: at most one file can be read in the bytes. -/
theorem C80_p1_unique {f f' : P1File G1 G2} (hf : f.WF) (hf' : f'.WF) {input : Bytes} (h : f.ReadIn C input) (h' : f'.ReadIn C input) :
    f = f' := by
  obtain ⟨x, y, body, e, hn, h⟩ := h
  obtain ⟨x', y', body', e', hn', h'⟩ := h'
  rw [e] at e'
  simp only [List.cons.injEq] at e'
  obtain ⟨hpw, rfl, rfl, rfl⟩ := e'
  replace h := (reads_iff_aligned hC (cap := 4096) (by omega) _ _).mpr h
  replace h' := (reads_iff_aligned hC (cap := 4096) (by omega) _ _).mpr h'
  simp only [P1File.items, List.append_assoc] at h h'
  obtain ⟨r1, d1, h⟩ := reads_g1s hC _ h
  obtain ⟨r2, d2, h⟩ := reads_g1s hC _ h
  obtain ⟨r3, d3, h⟩ := reads_g1s hC _ h
  obtain ⟨r4, d4, h⟩ := reads_g2s hC _ h
  obtain ⟨r5, d5, h⟩ := h
  obtain ⟨r1', d1', h'⟩ := reads_g1s hC _ h'
  obtain ⟨r2', d2', h'⟩ := reads_g1s hC _ h'
  obtain ⟨r3', d3', h'⟩ := reads_g1s hC _ h'
  obtain ⟨r4', d4', h'⟩ := reads_g2s hC _ h'
  obtain ⟨r5', d5', h'⟩ := h'
  rw [hf.tauG1] at d1
  rw [hf'.tauG1, ← hpw, d1] at d1'
  simp only [Prod.mk.injEq, Except.ok.injEq] at d1'
  obtain ⟨q1, rfl⟩ := d1'
  rw [hf.alphaG1] at d2
  rw [hf'.alphaG1, ← hpw, d2] at d2'
  simp only [Prod.mk.injEq, Except.ok.injEq] at d2'
  obtain ⟨q2, rfl⟩ := d2'
  rw [hf.betaG1] at d3
  rw [hf'.betaG1, ← hpw, d3] at d3'
  simp only [Prod.mk.injEq, Except.ok.injEq] at d3'
  obtain ⟨q3, rfl⟩ := d3'
  rw [hf.tauG2] at d4
  rw [hf'.tauG2, ← hpw, d4] at d4'
  simp only [Prod.mk.injEq, Except.ok.injEq] at d4'
  obtain ⟨q4, rfl⟩ := d4'
  rw [d5] at d5'
  simp only [Prod.mk.injEq, Except.ok.injEq] at d5'
  obtain ⟨q5, rfl⟩ := d5'
  have q6 := records_unique hC _ _ _ (hn.trans hn'.symm) h h'
  cases f
  cases f'
  simp_all

/-- the records at a reader, as the verification reads them -/
theorem over_of_reads (rs : List (Contribution G1 G2)) : ∀ (old : Contribution G1 G2) (r : Rd), Reads C (rs.flatMap recordItems) r →
    RecordsOver C rs.length old r rs (List.replicate rs.length false) := by
  induction rs with
  | nil => intro old r _; exact ⟨rfl, rfl⟩
  | cons c rs ih =>
    intro old r h
    rw [List.flatMap_cons] at h
    obtain ⟨r1, k1, k2⟩ := reads_record hC c old h
    refine ⟨c, r1, false, rs, List.replicate rs.length false, (recordOver_iff hC old r c r1 false).mp ?_, ih c r1 k2, rfl, by
      rw [List.length_cons, List.replicate_succ]⟩
    rw [k1]
    exact ⟨rfl, rfl⟩

/-- **C80**: a file that `p1c` reads in the bytes is the one that `p1v` reads. -/
theorem C80_p1v_reads (f : P1File G1 G2) (hf : f.WF) (input : Bytes) (hr : f.ReadIn C input) : HoldsFile C input f := by
  obtain ⟨x, y, body, rfl, hn, h⟩ := hr
  replace h := (reads_iff_aligned hC (cap := 2 ^ 20) (by omega) _ _).mpr h
  simp only [P1File.items, List.append_assoc] at h
  obtain ⟨r1, d1, h⟩ := reads_g1s hC _ h
  obtain ⟨r2, d2, h⟩ := reads_g1s hC _ h
  obtain ⟨r3, d3, h⟩ := reads_g1s hC _ h
  obtain ⟨r4, d4, h⟩ := reads_g2s hC _ h
  obtain ⟨r5, d5, h⟩ := h
  rw [hf.tauG1] at d1
  rw [hf.alphaG1] at d2
  rw [hf.betaG1] at d3
  rw [hf.tauG2] at d4
  exact ⟨_, r5, ⟨x, y, body, r1, r2, r3, r4, rfl, hn, hf.power, d1, d2, d3, d4, d5⟩, over_of_reads hC _ _ _ h⟩

end phase1

section phase1
open Phase1
variable {F G1 G2 GT : Type} [Field F] [AddCommGroup G1] [Module F G1] [AddCommGroup G2]
  [Module F G2] [AddCommGroup GT] [Module F GT] [DecidableEq G1] [DecidableEq G2] [DecidableEq GT]
variable {C : Curve F G1 G2 GT} (hC : C.Lawful)
include hC

/-- **C80**, phase 1: bytes in which a contribution reads `f` are accepted exactly if the file `f` as the program writes it is. -/
theorem C80_p1v_same (par : Par) (pol : MsmPolicy) (b : Nat) (hb : 0 < b) (vr : VerifyRand F) (f : P1File G1 G2) (hf : f.WF)
    (input junk : Bytes) (hr : f.ReadIn C input) (tr : Option Bytes) :
    verify C par pol b vr input tr = .ok () ↔ verify C par pol b vr (f.encode C ++ junk) tr = .ok () :=
  C78_same hC par pol b hb vr input junk tr f (C80_p1v_reads hC f hf input hr) hf

/-- **C80**, phase 1, going on with any bytes: an honest contribution to accepted bytes in which a contribution can read a regular file
`f` is accepted exactly if the points at the start of the sections of `f` are the ones of its last record. -/
theorem C80_p1_continue (par par' : Par) (b b' : Nat) (hb : 2 ≤ b) (hb' : 0 < b') (rnd : Rand F) (hr : rnd.Nonzero)
    (vr vr' : VerifyRand F) (f : P1File G1 G2) (hf : f.WF) (hreg : f.Regular) (hp : 1 ≤ f.power.toNat)
    (hc : f.records.length < 65535) (last : Contribution G1 G2) (hlast : f.records.getLast? = some last)
    (input : Bytes) (hin : f.ReadIn C input) (tr : Option Bytes) (h : verify C par .strict b vr input tr = .ok ()) :
    ∃ hash out, contribute C par b rnd input = (.ok hash, out) ∧
      (verify C par' .strict b' vr' out tr = .ok () ↔ f.HoldsPointsOf last) := by
  have h' := (C80_p1v_same hC par .strict b (by omega) vr f hf input [] hin tr).mp h
  have := C56_phase1_exact hC par par' b b' hb hb' rnd hr vr vr' f hf hreg hp hc last hlast [] tr h'
  rwa [List.append_nil, ← C80_p1c_same hC par b hb rnd f hf hp input hin] at this

end phase1

section phase2
open Phase2
open Phase1 (wrap64)
variable {F G1 G2 GT : Type} [Field F] [AddCommGroup G1] [Module F G1] [AddCommGroup G2]
  [Module F G2] [AddCommGroup GT] [Module F GT] [DecidableEq G1] [DecidableEq G2] [DecidableEq GT]
variable {C : Curve F G1 G2 GT} (hC : C.Lawful) {H : HeaderCodec} (hH : H.Lawful)

include hC in
/-- as many points as are decoded, so many bytes there are at least -/
theorem decodeN_le (n : Nat) : ∀ (r r' : Rd) (ps : List G1), (C.c1.decodeN n).run r = (.ok ps, r') → n + r'.rest.length ≤ r.rest.length := by
  induction n with
  | zero => intro r r' ps h; simp [Codec.decodeN] at h; rw [h.2]; omega
  | succ n ih =>
    intro r r' ps h
    rw [Codec.decodeN] at h
    obtain ⟨p, r1, h1, h⟩ := Go.bind_eq_ok h
    obtain ⟨qs, r2, h2, h⟩ := Go.bind_eq_ok h
    simp only [Go.pure_run, Prod.mk.injEq, Except.ok.injEq] at h
    obtain ⟨-, rfl⟩ := h
    have := ih _ _ _ h2
    obtain ⟨e, t, h3, h4, rfl⟩ := (decode_iff hC.codec1.size_pos r.cap r.pos r.rest p r1).mp h1
    have h5 := h4.1
    have h6 := congrArg List.length h3
    have := hC.size1
    simp only [List.length_append] at h6
    have h7 : n + r2.rest.length ≤ t.length := by simpa using ih _ _ _ h2
    split at h5 <;> omega

/-- the records copied are the ones at the reader -/
theorem copy2_items (n : Nat) : ∀ (c0 c : Contribution G1 G2) (rd : Rd) (out : Bytes) (s : IOSt),
    (copyContributions C n c0).run ⟨rd, out⟩ = (.ok c, s) →
    ∃ rs : List (Contribution G1 G2), rs.length = n ∧ Reads C (rs.flatMap record2Items) rd := by
  induction n with
  | zero => intros; exact ⟨[], rfl, trivial⟩
  | succ n ih =>
    intro c0 c rd out s h
    rw [copyContributions] at h
    obtain ⟨c1, s1, h1, h⟩ := Go.bind_eq_ok h
    obtain ⟨rd1, d1, rfl⟩ := onRd_eq_ok h1
    rw [Go.bind_ok (IOSt.emit_run _ _)] at h
    obtain ⟨rs, hl, hr⟩ := ih _ _ _ _ _ h
    refine ⟨c1 :: rs, by simp [hl], ?_⟩
    rw [List.flatMap_cons]
    exact reads_of_record2 _ d1 hr

include hC

/-- the records at a reader are copied -/
theorem copy2_of_reads (rs : List (Contribution G1 G2)) : ∀ (c0 : Contribution G1 G2) (rd : Rd), Reads C (rs.flatMap record2Items) rd →
    ∃ rd', ∀ out, (copyContributions C rs.length c0).run ⟨rd, out⟩
      = (.ok (rs.getLast?.getD c0), ⟨rd', out ++ rs.flatMap (record2Bytes C)⟩) := by
  induction rs with
  | nil => intro c0 rd _; exact ⟨rd, fun out => by simp [copyContributions]⟩
  | cons c rs ih =>
    intro c0 rd h
    rw [List.flatMap_cons] at h
    obtain ⟨r1, h1, h2⟩ := reads_record2 hC c h
    obtain ⟨rd', h3⟩ := ih c r1 h2
    refine ⟨rd', fun out => ?_⟩
    rw [List.length_cons, copyContributions, Go.bind_ok (IOSt.onRd_ok h1), Go.bind_ok (IOSt.emit_run _ _),
      contribution2_writeTo]
    simp only
    rw [h3]
    congr 1
    · congr 1
      cases rs with
      | nil => rfl
      | cons r' rs => simp [List.getLast?_cons]
    · simp

theorem recordsFrom_of_reads (rs : List (Contribution G1 G2)) : ∀ (rd : Rd), Reads C (rs.flatMap record2Items) rd → RecordsFrom C rd rs := by
  induction rs with
  | nil => intro rd _; trivial
  | cons c rs ih =>
    intro rd h
    rw [List.flatMap_cons] at h
    obtain ⟨r1, h1, h2⟩ := reads_record2 hC c h
    exact ⟨r1, (recordFrom_iff _ _ _).mp h1, ih _ h2⟩

include hH

/-- a file is read in the bytes exactly if the readers of the program read it -/
theorem readIn2_iff (f : P2File G1 G2) (h : Header) (input : Bytes) : f.ReadIn C H h input ↔
    ∃ r, H.dec.run (Rd.buffered 4096 input) = (.ok h, r) ∧ h.domain = f.z.length + 1 ∧ h.witness = f.pkk.length ∧
      f.records.length = h.contributions.toNat ∧ Reads C f.items r := by
  unfold P2File.ReadIn
  refine exists_congr fun r => and_congr_right fun h0 => and_congr_right fun _ => and_congr_right fun _ => and_congr_right fun _ => ?_
  have hcap := hH.dec_cap _ _ _ h0
  obtain ⟨cap, pos, bs⟩ := r
  simp only [Rd.buffered] at hcap
  subst hcap
  rw [reads_iff_begins hC]
  have : roomOf 4096 = inBuffer := rfl
  rw [this]

/-- **C80**, `p2c`: what a contribution to bytes in which `f` can be read writes: the header with one more contribution, the updated
parameters, and the records with a new one. -/
theorem C80_p2c_writes (par : Par) (b : Nat) (hb : 0 < b) (rnd : Rand F) (f : P2File G1 G2) (h : Header) (input : Bytes)
    (hr : f.ReadIn C H h input) : Phase2.contribute C H par b rnd input = (.ok (lastHash2 (f.contribute C rnd).records),
      H.enc { h with contributions := wrap64 (h.contributions + 1) } ++ (f.contribute C rnd).params C
        ++ (f.contribute C rnd).records.flatMap (record2Bytes C)) := by
  obtain ⟨r0, d0, hz, hk, hn, hr⟩ := (readIn2_iff hC hH f h input).mp hr
  have hrange := hH.dec_range _ _ _ d0
  simp only [P2File.items, P2File.paramItems, List.append_assoc] at hr
  obtain ⟨r1, d1, hr⟩ := reads_g1 hC hr
  obtain ⟨r2, d2, hr⟩ := reads_g2 hC hr
  obtain ⟨r3, d3, hr⟩ := reads_g1s hC _ hr
  obtain ⟨r4, d4, hr⟩ := reads_g1s hC _ hr
  obtain ⟨r5, d5⟩ := copy2_of_reads hC _ Contribution.zero _ hr
  have hw : wrap64 (h.increment.domain - 1) = (f.z.length : Int) := by
    have := hrange.domain
    rw [wrap64_eq] <;> simp only [Header.increment] <;> omega
  have hk' : h.increment.witness = (f.pkk.length : Int) := hk
  have hc : wrap64 (h.increment.contributions - 1) = h.contributions := by
    have := hrange.contributions
    simp only [Header.increment, wrap64]
    omega
  unfold Phase2.contribute contributeBody Header.read
  rw [Go.bind_ok (IOSt.onRd_ok d0)]
  unfold contributeWith
  rw [hw, hk', hc, ← hn]
  rw [Go.bind_ok (IOSt.emit_run _ _), Go.bind_ok (scalePoint_any _ _ d1), Go.bind_ok (scalePoint_any _ _ d2),
    Go.bind_ok (scale2_any par b hb _ (by omega) _ _ _ _ _ (by rw [Int.toNat_natCast]; exact d3)),
    Go.bind_ok (scale2_any par b hb _ (by omega) _ _ _ _ _ (by rw [Int.toNat_natCast]; exact d4)),
    Go.bind_ok (d5 _), Go.bind_ok (IOSt.emit_run _ _), contribution2_writeTo]
  have hprev : previousHash h.contributions (f.records.getLast?.getD Contribution.zero) = lastHash2 f.records := by
    unfold previousHash lastHash2
    cases hrs : f.records with
    | nil => split <;> rfl
    | cons r rs =>
      rw [if_neg (by
        intro h0
        rw [h0, hrs] at hn
        simp at hn), List.getLast?_cons]
      rfl
  have hnew : newContribution C rnd (rnd.delta • f.delta1) (lastHash2 f.records) = newRecord2 C rnd (lastHash2 f.records) (rnd.delta • f.delta1) := by
    unfold newContribution newRecord2
    simp only [genPublicKey_eq, computeHash2_eq]
  rw [hprev, hnew]
  simp only [Go.pure_run]
  rw [Prod.mk.injEq]
  constructor
  · simp [P2File.contribute, lastHash2, newRecord2]
  · unfold P2File.params
    simp [P2File.contribute, Header.write, Header.increment]

/-- **C80**, `p2c`, exactly: a contribution to any bytes (less than 2⁶³ of them) succeeds exactly if after a header which announces them,
parameters and records can be read in them. -/
theorem C80_p2c_exact (par : Par) (b : Nat) (hb : 0 < b) (rnd : Rand F) (input : Bytes) (hl : input.length < 2 ^ 63) :
    (∃ hash out, Phase2.contribute C H par b rnd input = (.ok hash, out)) ↔ ∃ (f : P2File G1 G2) (h : Header), f.ReadIn C H h input := by
  constructor
  · rintro ⟨hash, out, h⟩
    unfold Phase2.contribute at h
    simp only [Prod.mk.injEq] at h
    obtain ⟨h, -⟩ := h
    generalize hres : (contributeBody C H par b rnd).run ⟨Rd.buffered 4096 input, []⟩ = res at h
    obtain ⟨r, s⟩ := res
    simp only at h
    subst h
    unfold contributeBody Header.read at hres
    obtain ⟨h0, s0, hh, hres⟩ := Go.bind_eq_ok hres
    obtain ⟨rd0, d0, rfl⟩ := onRd_eq_ok hh
    unfold contributeWith at hres
    rw [Go.bind_ok (IOSt.emit_run _ _)] at hres
    obtain ⟨e1, s1, h1, hres⟩ := Go.bind_eq_ok hres
    obtain ⟨e2, s2, h2, hres⟩ := Go.bind_eq_ok hres
    obtain ⟨u1, s3, h3, hres⟩ := Go.bind_eq_ok hres
    obtain ⟨u2, s4, h4, hres⟩ := Go.bind_eq_ok hres
    obtain ⟨c, s5, h5, hres⟩ := Go.bind_eq_ok hres
    unfold scalePoint at h1 h2
    obtain ⟨p1, s1', g1, h1⟩ := Go.bind_eq_ok h1
    obtain ⟨rd1, d1, rfl⟩ := onRd_eq_ok g1
    rw [Go.bind_ok (IOSt.emit_run _ _)] at h1
    simp only [Go.pure_run, Prod.mk.injEq, Except.ok.injEq] at h1
    obtain ⟨rfl, rfl⟩ := h1
    obtain ⟨p2, s2', g2, h2⟩ := Go.bind_eq_ok h2
    obtain ⟨rd2, d2, rfl⟩ := onRd_eq_ok g2
    rw [Go.bind_ok (IOSt.emit_run _ _)] at h2
    simp only [Go.pure_run, Prod.mk.injEq, Except.ok.injEq] at h2
    obtain ⟨rfl, rfl⟩ := h2
    obtain ⟨n3, z, rd3, d3, e3⟩ := scale2_reads par b hb _ _ h3
    obtain ⟨n4, pkk, rd4, d4, e4⟩ := scale2_reads par b hb _ _ (rd := s3.rd) (out := s3.out) h4
    obtain ⟨rs, hrl, hrs⟩ := copy2_items _ _ _ s4.rd s4.out _ h5
    rw [e3] at d4
    rw [e4] at hrs
    have hrange := hH.dec_range _ _ _ d0
    have hc : wrap64 (h0.increment.contributions - 1) = h0.contributions := by
      have := hrange.contributions
      simp only [Header.increment, wrap64]
      omega
    rw [hc] at hrl
    obtain ⟨used, hu, -⟩ := hH.dec_local _ _ _ d0
    have l3 := decodeN_le hC _ _ _ _ d3
    have l0 : rd0.rest.length ≤ input.length := by
      have := congrArg List.length hu
      simp [Rd.buffered] at this
      omega
    have l1 : rd2.rest.length ≤ rd0.rest.length := by
      obtain ⟨e, t, k1, -, rfl⟩ := (decode_iff hC.codec1.size_pos rd0.cap rd0.pos rd0.rest p1 rd1).mp d1
      obtain ⟨e', t', k2, -, rfl⟩ := (decode_iff hC.codec2.size_pos _ _ _ p2 rd2).mp d2
      have := congrArg List.length k1
      have := congrArg List.length k2
      simp at *
      omega
    have hdom : wrap64 (h0.increment.domain - 1) = h0.domain - 1 := by
      have := hrange.domain
      simp only [Header.increment] at n3 l3 ⊢
      by_cases hm : h0.domain = -(2 ^ 63)
      · exfalso
        rw [hm] at l3
        have : (wrap64 (-(2 ^ 63) - 1)).toNat = 2 ^ 63 - 1 := by decide
        rw [this] at l3
        have hlast : 0 < rd3.rest.length ∨ rd2.rest.length < rd0.rest.length := by
          right
          obtain ⟨e, t, k1, k3, rfl⟩ := (decode_iff hC.codec1.size_pos rd0.cap rd0.pos rd0.rest p1 rd1).mp d1
          obtain ⟨e', t', k2, -, rfl⟩ := (decode_iff hC.codec2.size_pos _ _ _ p2 rd2).mp d2
          have k4 := k3.1
          have := hC.size1
          have := congrArg List.length k1
          have := congrArg List.length k2
          simp at *
          split at k4 <;> omega
        omega
      · exact wrap64_eq (by omega) (by omega)
    rw [hdom] at d3 n3
    have z1 := decodeN_length _ _ _ _ _ d3
    have z2 := decodeN_length _ _ _ _ _ d4
    let f : P2File G1 G2 := ⟨0, 0, 0, 0, 0, 0, p1, p2, z, pkk, rs⟩
    refine ⟨f, h0, (readIn2_iff hC hH f h0 input).mpr ⟨rd0, d0, ?_, ?_, hrl, ?_⟩⟩
    · simp only [f, z1]; omega
    · have : h0.increment.witness = h0.witness := rfl
      rw [this] at z2 n4
      simp only [f, z2]; omega
    · simp only [P2File.items, P2File.paramItems, f, List.append_assoc]
      exact ⟨_, d1, _, d2, reads_of_g1s _ _ _ _ _ d3 (reads_of_g1s _ _ _ _ _ d4 hrs)⟩
  · rintro ⟨f, h, hr⟩
    exact ⟨_, _, C80_p2c_writes hC hH par b hb rnd f h input hr⟩

/-- **C80**: what can be read in the bytes is determined. -/
theorem C80_p2_unique {f f' : P2File G1 G2} {h h' : Header} {input : Bytes} (hr : f.ReadIn C H h input) (hr' : f'.ReadIn C H h' input) :
    h = h' ∧ f.delta1 = f'.delta1 ∧ f.delta2 = f'.delta2 ∧ f.z = f'.z ∧ f.pkk = f'.pkk ∧ f.records = f'.records := by
  obtain ⟨r0, d0, hz, hk, hn, hr⟩ := (readIn2_iff hC hH f h input).mp hr
  obtain ⟨r0', d0', hz', hk', hn', hr'⟩ := (readIn2_iff hC hH f' h' input).mp hr'
  rw [d0] at d0'
  simp only [Prod.mk.injEq, Except.ok.injEq] at d0'
  obtain ⟨rfl, rfl⟩ := d0'
  simp only [P2File.items, P2File.paramItems, List.append_assoc] at hr hr'
  obtain ⟨r1, d1, hr⟩ := reads_g1 hC hr
  obtain ⟨r2, d2, hr⟩ := reads_g2 hC hr
  obtain ⟨r3, d3, hr⟩ := reads_g1s hC _ hr
  obtain ⟨r4, d4, hr⟩ := reads_g1s hC _ hr
  obtain ⟨r1', d1', hr'⟩ := reads_g1 hC hr'
  obtain ⟨r2', d2', hr'⟩ := reads_g2 hC hr'
  obtain ⟨r3', d3', hr'⟩ := reads_g1s hC _ hr'
  obtain ⟨r4', d4', hr'⟩ := reads_g1s hC _ hr'
  rw [d1] at d1'
  simp only [Prod.mk.injEq, Except.ok.injEq] at d1'
  obtain ⟨q1, rfl⟩ := d1'
  rw [d2] at d2'
  simp only [Prod.mk.injEq, Except.ok.injEq] at d2'
  obtain ⟨q2, rfl⟩ := d2'
  rw [show f'.z.length = f.z.length by omega, d3] at d3'
  simp only [Prod.mk.injEq, Except.ok.injEq] at d3'
  obtain ⟨q3, rfl⟩ := d3'
  rw [show f'.pkk.length = f.pkk.length by omega, d4] at d4'
  simp only [Prod.mk.injEq, Except.ok.injEq] at d4'
  obtain ⟨q4, rfl⟩ := d4'
  exact ⟨rfl, q1, q2, q3, q4, recordsFrom_unique hC _ _ _ (recordsFrom_of_reads hC _ _ hr) (recordsFrom_of_reads hC _ _ hr') (hn.trans hn'.symm)⟩

/-- **C80**, phase 2: what a verification demands of bytes in which a contribution can read the well-formed file `f`; a hash may lie
anywhere in the read buffer. -/
theorem C80_p2v_exact (par : Par) (b : Nat) (hb : 0 < b) (vr : VerifyRand F) (f o : P2File G1 G2) (hf : f.WF) (ho : o.WF)
    (input junk : Bytes) (hr : f.ReadIn C H f.header input) :
    Phase2.verify C H par b vr input (o.encode C H ++ junk) = .ok () ↔
      f.records ≠ [] ∧ P2File.SameShape f o ∧ C.e o.delta1 f.delta2 = C.e f.delta1 o.delta2 ∧
      C.e (batchSum b vr.z f.z) f.delta2 = C.e (batchSum b vr.z o.z) o.delta2 ∧
      C.e (batchSum b vr.pkk f.pkk) f.delta2 = C.e (batchSum b vr.pkk o.pkk) o.delta2 ∧
      (∃ xs, Chain2By C o.delta1 [] f.records xs) ∧ (∀ r, f.records.getLast? = some r → r.delta = f.delta1) := by
  rw [C77_exact hC hH par b hb vr input o ho junk]
  have hr0 := hr
  obtain ⟨r0, d0, -, -, -, hr⟩ := (readIn2_iff hC hH f _ input).mp hr
  simp only [P2File.items, P2File.paramItems, List.append_assoc] at hr
  obtain ⟨r1, d1, hr⟩ := reads_g1 hC hr
  obtain ⟨r2, d2, hr⟩ := reads_g2 hC hr
  obtain ⟨r3, d3, hr⟩ := reads_g1s hC _ hr
  obtain ⟨r4, d4, hr⟩ := reads_g1s hC _ hr
  have hrec := recordsFrom_of_reads hC _ _ hr
  have hshape : f.header = { o.header with contributions := f.header.contributions } ↔ P2File.SameShape f o := by
    simp only [P2File.header, P2File.SameShape, Header.mk.injEq, Int.natCast_inj, and_true]
  have hcount : f.header.contributions ≠ 0 ↔ f.records ≠ [] := by
    simp [P2File.header, List.length_eq_zero_iff]
  constructor
  · rintro ⟨h, e1, e2, rs, s1, s2, s3, s4, s5, k, k', c0, c1, c2, hne, hsh, hpair, hcz, hck, hrs, hrl, hch, hlast⟩
    rw [d0] at c0
    simp only [Prod.mk.injEq, Except.ok.injEq] at c0
    obtain ⟨rfl, rfl⟩ := c0
    rw [d1] at c1
    simp only [Prod.mk.injEq, Except.ok.injEq] at c1
    obtain ⟨rfl, rfl⟩ := c1
    rw [d2] at c2
    simp only [Prod.mk.injEq, Except.ok.injEq] at c2
    obtain ⟨rfl, rfl⟩ := c2
    have hne' := hcount.mp hne
    have hsh' := hshape.mp hsh
    have hzl : o.domain - 1 = f.z.length := by rw [hf.z, hsh'.2.2.2.2.2]
    have hkl : o.witness = f.pkk.length := by rw [hf.pkk, hsh'.2.1]
    have hoz : o.z.length = f.z.length := by rw [ho.z, hzl]
    have hok : o.pkk.length = f.pkk.length := by rw [ho.pkk, hkl]
    rw [hzl] at hcz
    rw [hkl] at hck
    cases hcz with
    | stop i _ hs =>
      obtain ⟨m, hm⟩ := StopsAt.run _ hs
      rw [d3] at hm
      simp at hm
    | all ps _ t1 t2 =>
      rw [d3] at t1
      simp only [Prod.mk.injEq, Except.ok.injEq] at t1
      obtain ⟨rfl, rfl⟩ := t1
      cases hck with
      | stop i _ hs =>
        obtain ⟨m, hm⟩ := StopsAt.run _ hs
        rw [d4] at hm
        simp at hm
      | all ps _ t3 t4 =>
        rw [d4] at t3
        simp only [Prod.mk.injEq, Except.ok.injEq] at t3
        obtain ⟨rfl, rfl⟩ := t3
        have hrl' : f.records.length = rs.length := by rw [hrl]; simp [P2File.header]
        obtain rfl := recordsFrom_unique hC _ _ _ hrec hrs hrl'
        refine ⟨hne', hsh', hpair, ?_, ?_, hch, ?_⟩
        · rw [t2, ← hoz, List.take_left]
        · rw [t4, ← hoz, List.drop_left, ← hok, List.take_length]
        · intro r hr
          rw [hr] at hlast
          exact hlast
  · rintro ⟨hne, hsh, hpair, hz, hk, hch, hlast⟩
    have hzl : o.domain - 1 = f.z.length := by rw [hf.z, hsh.2.2.2.2.2]
    have hkl : o.witness = f.pkk.length := by rw [hf.pkk, hsh.2.1]
    have hoz : o.z.length = f.z.length := by rw [ho.z, hzl]
    have hok : o.pkk.length = f.pkk.length := by rw [ho.pkk, hkl]
    refine ⟨f.header, f.delta1, f.delta2, f.records, r0, r1, r2, r3, r4, f.z.length, f.pkk.length, d0, d1, d2, hcount.mpr hne,
      hshape.mpr hsh, hpair, ?_, ?_, hrec, by simp [P2File.header], hch, ?_⟩
    · rw [hzl]
      exact .all _ _ d3 (by rw [hz, ← hoz, List.take_left])
    · rw [hkl]
      exact .all _ _ d4 (by rw [hk, ← hoz, List.drop_left, ← hok, List.take_length])
    · rw [List.getLast?_eq_some_getLast hne]
      exact hlast _ (List.getLast?_eq_some_getLast hne)

/-- **C80**, phase 2, going on with any bytes: an honest contribution to bytes in which a contribution can read the well-formed file `f`
with contributions is accepted exactly if the bytes are, provided that no hash of the file written lies across a buffer boundary. -/
theorem C80_p2_continue (par par' : Par) (b b' : Nat) (hb : 0 < b) (hb' : 0 < b') (rnd : Rand F) (hd : rnd.delta ≠ 0)
    (f o : P2File G1 G2) (hf : f.WF) (ho : o.WF) (hs' : (f.contribute C rnd).NoStraddle H) (hne : f.records ≠ [])
    (hc : f.records.length + 1 < 2 ^ 63 - 1) (input junk' : Bytes) (hr : f.ReadIn C H f.header input) :
    Phase2.contribute C H par b rnd input = (.ok (lastHash2 (f.contribute C rnd).records), (f.contribute C rnd).encode C H) ∧
      ∀ vr : VerifyRand F, (Phase2.verify C H par' b' vr ((f.contribute C rnd).encode C H) (o.encode C H ++ junk') = .ok () ↔
        Phase2.verify C H par' b' vr input (o.encode C H ++ junk') = .ok ()) := by
  refine ⟨?_, fun vr => ?_⟩
  · rw [C80_p2c_writes hC hH par b hb rnd f f.header input hr]
    have : ({ f.header with contributions := wrap64 (f.header.contributions + 1) } : Header) = (f.contribute C rnd).header := by
      simp only [P2File.header, P2File.contribute, List.length_append, List.length_singleton]
      rw [wrap64_eq (by omega) (by omega)]
      simp
    rw [this]
    rfl
  · have h1 := verify2_iff hC hH par' b' hb' vr _ o (contribute2_wf hC f hf rnd hc) ho hs' [] junk'
    rw [List.append_nil] at h1
    rw [h1, C80_p2v_exact hC hH par' b' hb' vr f o hf ho input junk' hr]
    exact contribute2_conditions hC b' vr rnd hd f o hne

end phase2

section written
variable {F G1 G2 GT : Type} [Field F] [AddCommGroup G1] [Module F G1] [AddCommGroup G2]
  [Module F G2] [AddCommGroup GT] [Module F GT] [DecidableEq G1] [DecidableEq G2] [DecidableEq GT]
variable {C : Curve F G1 G2 GT} (hC : C.Lawful)
include hC

/-- **C80**: what the program writes, or writes with some points uncompressed, can be read. -/
theorem C80_p1_written (f : P1File G1 G2) (hf : f.WF) (bs : Bytes) (h : f.Written C bs) : f.ReadIn C bs :=
  (readIn_iff hC f hf 4096 (by omega) bs).mpr (p1_reads hC f hf bs h 4096 (by omega))

/-- **C80**: the same for phase 2, if no hash lies across a buffer boundary. -/
theorem C80_p2_written {H : Phase2.HeaderCodec} (hH : H.Lawful) (f : P2File G1 G2) (hf : f.WF) (bs : Bytes) (h : f.Written C H bs) :
    f.ReadIn C H f.header bs := by
  obtain ⟨rd, h1, h2⟩ := p2_reads hC H hH f hf bs h
  refine (readIn2_iff hC hH f _ bs).mpr ⟨rd, h1, ?_, ?_, ?_, h2⟩
  · have := hf.z
    have := hf.domain_pos
    simp only [P2File.header]
    omega
  · simp [P2File.header, hf.pkk]
  · simp [P2File.header]

end written

/-! ### concrete cases -/

-- the first point uncompressed
theorem Toy.mixed_readIn : Toy.mixed.ReadIn Toy.curve (Toy.mixed.rawFirst Toy.curve) :=
  C80_p1_written Toy.lawful _ Toy.mixed_wf _ (P1File.rawFirst_written Toy.mixed Toy.mixed_wf)

example : ∃ hash out, Phase1.contribute Toy.curve Toy.par Phase1.batchSize Toy.rnd (Toy.mixed.rawFirst Toy.curve) = (.ok hash, out) :=
  (C80_p1c_exact Toy.lawful Toy.par Phase1.batchSize (by decide) Toy.rnd _).mpr ⟨Toy.mixed, Toy.mixed_wf, by decide +kernel, Toy.mixed_readIn⟩

example := C80_p1c_writes Toy.lawful Toy.par Phase1.batchSize (by decide) Toy.rnd Toy.honest Toy.honest_wf Toy.honest_regular
  (by decide +kernel) (by decide +kernel) _ (C80_p1_written Toy.lawful _ Toy.honest_wf _ (C72_p1_uncompressed Toy.honest Toy.honest_wf [1, 2]))

-- a header alone holds no file
example : ¬ ∃ hash out, Phase1.contribute Toy.curve Toy.par Phase1.batchSize Toy.rnd [1, 0, 0] = (.ok hash, out) := by
  rw [C80_p1c_exact Toy.lawful Toy.par Phase1.batchSize (by decide) Toy.rnd]
  rintro ⟨f, hf, -, x, y, body, he, -, hb⟩
  simp only [List.cons.injEq] at he
  obtain ⟨hp, rfl, rfl, rfl⟩ := he
  have hl := hf.tauG1
  rw [← hp] at hl
  cases ht : f.tauG1 with
  | nil => rw [ht] at hl; simp at hl
  | cons p ps =>
    simp only [P1File.items, ht, List.map_cons, List.cons_append] at hb
    obtain ⟨e, t, h1, h2, -⟩ := hb
    obtain ⟨rfl, -⟩ := List.append_eq_nil_iff.mp h1.symm
    have := h2.1
    have h32 := Toy.lawful.size1
    simp at this
    split at this <;> omega

-- an accepted file, all points uncompressed, is continued
theorem Toy.honest_readIn : Toy.honest.ReadIn Toy.curve (Toy.honest.rawFirst Toy.curve) :=
  C80_p1_written Toy.lawful _ Toy.honest_wf _ (P1File.rawFirst_written Toy.honest Toy.honest_wf)

example := C80_p1_continue Toy.lawful Toy.par Toy.par Phase1.batchSize 1 (by decide) (by decide) Toy.rnd Toy.rnd_nonzero
  Toy.vr Toy.vr Toy.honest Toy.honest_wf Toy.honest_regular (by decide +kernel) (by decide +kernel)
  (Toy.honest.records.getLastD Phase1.Contribution.zero) (by decide +kernel) _ Toy.honest_readIn none
  ((C80_p1v_same Toy.lawful Toy.par .strict Phase1.batchSize (by decide) Toy.vr Toy.honest Toy.honest_wf _ [1, 2] Toy.honest_readIn
    none).mpr (Toy.honest_accepted _ rfl))

theorem Toy.p2final_readIn : Toy.p2final.ReadIn Toy.curve Gob.headerCodec Toy.p2final.header
    (Toy.p2final.rawFirst Toy.curve Gob.headerCodec ++ [7]) :=
  C80_p2_written Toy.lawful Gob.lawful _ Toy.p2final_wf _ (p2_written Toy.lawful _ _ Toy.p2final_wf _ (.inr rfl) _ (by decide +kernel))

example (rnd : Phase2.Rand Toy.K) := C80_p2c_writes Toy.lawful Gob.lawful Toy.par Phase1.batchSize (by decide) rnd _ _ _ Toy.p2final_readIn

example (vr : Phase2.VerifyRand Toy.K) : Phase2.verify Toy.curve Gob.headerCodec Toy.par Phase1.batchSize vr
    ((Toy.p2final.contribute Toy.curve Toy.p2rnd).encode Toy.curve Gob.headerCodec) (Toy.p2.encode Toy.curve Gob.headerCodec ++ [2]) = .ok () ↔
      Phase2.verify Toy.curve Gob.headerCodec Toy.par Phase1.batchSize vr (Toy.p2final.rawFirst Toy.curve Gob.headerCodec ++ [7])
        (Toy.p2.encode Toy.curve Gob.headerCodec ++ [2]) = .ok () :=
  (C80_p2_continue Toy.lawful Gob.lawful Toy.par Toy.par Phase1.batchSize Phase1.batchSize (by decide) (by decide) Toy.p2rnd (by decide)
    Toy.p2final Toy.p2 Toy.p2final_wf Toy.p2_wf (by decide +kernel) (by decide +kernel) (by decide +kernel) _ [2] Toy.p2final_readIn).2 vr

example : ∃ hash out, Phase2.contribute Toy.curve Gob.headerCodec Toy.par Phase1.batchSize Toy.p2rnd
    (Toy.p2final.rawFirst Toy.curve Gob.headerCodec ++ [7]) = (.ok hash, out) :=
  (C80_p2c_exact Toy.lawful Gob.lawful Toy.par Phase1.batchSize (by decide) Toy.p2rnd _ (by
    have : (Toy.p2final.rawFirst Toy.curve Gob.headerCodec ++ [7]).length ≤ 10000 := by decide +kernel
    omega)).mpr ⟨_, _, Toy.p2final_readIn⟩

end ZkSetup
