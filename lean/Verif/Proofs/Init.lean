import Verif.Spec.Init
import Verif.Proofs.Lagrange
import Verif.Proofs.BitRev
import Verif.Proofs.Phase1Origin
/-
Phase 2 initialisation: what each step computes.
-/
set_option linter.unusedSectionVars false

namespace ZkSetup

open Phase2 Finset
open Phase1 (makeLen goPow2 seekDecode check)

section
variable {F : Type} [Field F] {G : Type} [AddCommGroup G] [Module F G]

theorem index_ok {α : Type} (xs : List α) (d : α) (i : Nat) (h : i < xs.length) : index xs i = .ok (xs.getD i d) := by
  simp [index, h]

theorem accumulate_eq (cs : List F) (res : G) (t : Term) (v : G) (h : t.coeff < 4 ∨ t.coeff < cs.length) :
    accumulate cs res t v = .ok (res + coeffValue cs t.coeff • v) := by
  unfold accumulate
  obtain ⟨c, w⟩ := t
  simp only at h ⊢
  match c, h with
  | 0, _ => simp [coeffValue]
  | 1, _ => simp [coeffValue]
  | 2, _ => simp [coeffValue, two_smul, add_assoc]
  | 3, _ => simp [coeffValue, sub_eq_add_neg]
  | c + 4, h =>
    have h' : c + 4 < cs.length := by omega
    rw [if_neg (by omega), if_neg (by omega), if_neg (by omega), if_neg (by omega), index_ok cs 0 _ h']
    rfl

theorem lcCoeff_cons (cs : List F) (t : Term) (ts : List Term) (w : Nat) :
    lcCoeff cs (t :: ts) w = (if t.wire = w then coeffValue cs t.coeff else 0) + lcCoeff cs ts w := by
  unfold lcCoeff
  by_cases h : t.wire = w <;> simp [h]

theorem accumulateTerms_eq (cs : List F) (srs : List G) (i : Nat) (hi : i < srs.length) (ts : List Term) :
    ∀ (buff : List G), (∀ t ∈ ts, t.wire < buff.length) → (∀ t ∈ ts, t.coeff < 4 ∨ t.coeff < cs.length) →
    ∃ out, accumulateTerms cs srs i ts buff = .ok out ∧ out.length = buff.length ∧
      ∀ w, out.getD w 0 = buff.getD w 0 + lcCoeff cs ts w • srs.getD i 0 := by
  induction ts with
  | nil =>
    intro buff _ _
    exact ⟨buff, rfl, rfl, fun w => by simp [lcCoeff]⟩
  | cons t ts ih =>
    intro buff hw hc
    have hw0 := hw t (List.mem_cons_self ..)
    obtain ⟨out, ho, hl, hv⟩ := ih (buff.set t.wire (buff.getD t.wire 0 + coeffValue cs t.coeff • srs.getD i 0))
      (fun t' ht' => by rw [List.length_set]; exact hw t' (List.mem_cons_of_mem _ ht'))
      (fun t' ht' => hc t' (List.mem_cons_of_mem _ ht'))
    refine ⟨out, ?_, by rw [hl, List.length_set], ?_⟩
    · rw [accumulateTerms, index_ok buff 0 _ hw0, index_ok srs 0 _ hi]
      simp only [bind, Except.bind]
      rw [accumulate_eq _ _ _ _ (hc t (List.mem_cons_self ..))]
      exact ho
    · intro w
      rw [hv, lcCoeff_cons]
      by_cases h : t.wire = w
      · subst h
        rw [if_pos rfl, List.getD_eq_getElem _ _ (by simpa using hw0), List.getElem_set_self, add_smul, add_assoc]
      · rw [if_neg h, zero_add]
        congr 1
        simp [List.getD_eq_getElem?_getD, List.getElem?_set_ne h]

theorem accumulateAll_eq (cs : List F) (srs : List G) (side : R1C → List Term) (rs : List R1C) :
    ∀ (i : Nat) (buff : List G), i + rs.length ≤ srs.length →
    (∀ c ∈ rs, ∀ t ∈ side c, t.wire < buff.length) → (∀ c ∈ rs, ∀ t ∈ side c, t.coeff < 4 ∨ t.coeff < cs.length) →
    ∃ out, accumulateAll cs srs side i rs buff = .ok out ∧ out.length = buff.length ∧
      ∀ w, out.getD w 0 = buff.getD w 0
        + ∑ j ∈ range rs.length, lcCoeff cs (side (rs.getD j ⟨[], [], []⟩)) w • srs.getD (i + j) 0 := by
  induction rs with
  | nil =>
    intro i buff _ _ _
    exact ⟨buff, rfl, rfl, fun w => by simp⟩
  | cons c rs ih =>
    intro i buff hs hw hc
    simp only [List.length_cons] at hs
    obtain ⟨b1, h1, hl1, hv1⟩ := accumulateTerms_eq cs srs i (by omega) (side c) buff (hw c (List.mem_cons_self ..))
      (hc c (List.mem_cons_self ..))
    obtain ⟨out, h2, hl2, hv2⟩ := ih (i + 1) b1 (by omega)
      (fun c' hc' => by rw [hl1]; exact hw c' (List.mem_cons_of_mem _ hc')) (fun c' hc' => hc c' (List.mem_cons_of_mem _ hc'))
    refine ⟨out, ?_, by rw [hl2, hl1], ?_⟩
    · rw [accumulateAll, h1]
      exact h2
    · intro w
      rw [hv2, hv1, List.length_cons, sum_range_succ' (fun j => lcCoeff cs (side ((c :: rs).getD j ⟨[], [], []⟩)) w • srs.getD (i + j) 0)]
      simp only [List.getD_cons_succ, List.getD_cons_zero, Nat.add_zero]
      rw [add_assoc, add_comm (lcCoeff cs (side c) w • srs.getD i 0)]
      congr 2
      apply sum_congr rfl
      intro j _
      rw [show i + 1 + j = i + (j + 1) by omega]

/-- one accumulation loop over all constraints -/
theorem accumulateAll_valid (r : R1CS F) (hr : r.Valid) (side : R1C → List Term) (hside : ∀ c, side c ∈ [c.l, c.r, c.o])
    (srs buff : List G) (hs : r.constraints.length ≤ srs.length) (hb : buff.length = r.wires) :
    accumulateAll r.coefficients srs side 0 r.constraints buff
      = .ok ((List.range r.wires).map fun w => buff.getD w 0 + wireSum r side (fun i => srs.getD i 0) w) := by
  obtain ⟨out, h, hl, hv⟩ := accumulateAll_eq r.coefficients srs side r.constraints 0 buff (by omega)
    (fun c hc => by rw [hb]; exact hr.wire c hc _ (hside c)) (fun c hc => hr.coeff c hc _ (hside c))
  rw [h]
  congr 1
  apply List.ext_getElem (by simp [hl, hb])
  intro w h1 h2
  have := hv w
  rw [List.getD_eq_getElem _ _ h1] at this
  rw [this, List.getElem_map, List.getElem_range]
  simp only [zero_add]
  rfl

theorem accumulateAll_zero (r : R1CS F) (hr : r.Valid) (side : R1C → List Term) (hside : ∀ c, side c ∈ [c.l, c.r, c.o])
    (srs : List G) (hs : r.constraints.length ≤ srs.length) :
    accumulateAll r.coefficients srs side 0 r.constraints (List.replicate r.wires 0)
      = .ok ((List.range r.wires).map (wireSum r side (fun i => srs.getD i 0))) := by
  rw [accumulateAll_valid r hr side hside srs _ hs (by simp)]
  congr 1
  apply List.map_congr_left
  intro w hw
  rw [List.mem_range] at hw
  simp [List.getD_eq_getElem?_getD, List.getElem?_replicate, hw]

theorem wireSum_congr (r : R1CS F) (side : R1C → List Term) (x y : Nat → G) (n : Nat) (hn : r.constraints.length ≤ n)
    (h : ∀ i < n, x i = y i) : wireSum r side x = wireSum r side y := by
  funext w
  unfold wireSum
  apply sum_congr rfl
  intro i hi
  rw [h i (by rw [mem_range] at hi; omega)]

end

/-! ### the domain -/

theorem nextPowerofTwoLoop_eq (n : Int) (fuel : Nat) : ∀ (k : Nat) (m : Nat), k ≤ m → m < k + fuel →
    (∀ j, k ≤ j → j < m → (2 : Int) ^ j < n) → n ≤ 2 ^ m → nextPowerofTwoLoop n fuel (2 ^ k) = .ok (2 ^ m) := by
  induction fuel with
  | zero => intro k m h1 h2; omega
  | succ fuel ih =>
    intro k m h1 h2 h3 h4
    rw [nextPowerofTwoLoop]
    by_cases hk : k = m
    · subst hk
      rw [if_pos (by omega)]
    · rw [if_neg (by have := h3 k le_rfl (by omega); omega), ← pow_succ]
      exact ih (k + 1) m (by omega) (by omega) (fun j hj hj' => h3 j (by omega) hj') h4

theorem nextPowerofTwoLoop_panic (n : Int) (fuel : Nat) : ∀ (k : Nat), (∀ j < fuel, (2 : Int) ^ (k + j) < n) →
    nextPowerofTwoLoop n fuel (2 ^ k) = .error (.panic "the power is beyond 28") := by
  induction fuel with
  | zero => intro k _; rfl
  | succ fuel ih =>
    intro k h
    rw [nextPowerofTwoLoop, if_neg (by have := h 0 (by omega); simp at this; omega), ← pow_succ]
    apply ih
    intro j hj
    have := h (j + 1) (by omega)
    rwa [show k + 1 + j = k + (j + 1) by omega]

/-! ### Z -/

theorem bitRev_top (k : Nat) : bitRev k (2 ^ k - 1) = 2 ^ k - 1 := by
  induction k with
  | zero => rfl
  | succ k ih =>
    have hp : 0 < 2 ^ k := Nat.pow_pos (by omega)
    rw [bitRev, show (2 ^ (k + 1) - 1) % 2 = 1 by rw [pow_succ]; omega,
      show (2 ^ (k + 1) - 1) / 2 = 2 ^ k - 1 by rw [pow_succ]; omega, ih, pow_succ]
    omega

theorem computeZ_eq {G : Type} [AddCommGroup G] (k : Nat) (hk : k < 64) (tau : List G) :
    computeZ (2 ^ k) tau = zSection k tau := by
  unfold computeZ zSection
  have hlen : (bitReverse ((List.range (2 ^ k)).map fun i =>
      if i < 2 ^ k - 1 then tau.getD (i + 2 ^ k) 0 - tau.getD i 0 else 0)).length = 2 ^ k := by
    rw [bitReverse_length]; simp
  apply List.ext_getElem
  · simp
  intro j h1 h2
  simp only [List.length_map, List.length_range] at h2
  have hj : j < 2 ^ k := by omega
  rw [List.getElem_take, List.getElem_map, List.getElem_range]
  have hlt := bitRev_lt k j
  have hpow := bitReverse_pow k hk ((List.range (2 ^ k)).map fun i =>
      if i < 2 ^ k - 1 then tau.getD (i + 2 ^ k) 0 - tau.getD i 0 else 0) (by simp) (bitRev k j) hlt
  rw [bitRev_bitRev _ _ hj] at hpow
  rw [List.getElem?_eq_getElem (by omega), List.getElem?_eq_getElem (by simpa using hlt), Option.some_inj] at hpow
  rw [hpow, List.getElem_map, List.getElem_range, if_pos]
  have hne : bitRev k j ≠ 2 ^ k - 1 := by
    intro h
    have h3 : bitRev k (2 ^ k - 1) = 2 ^ k - 1 := bitRev_top k
    have := congrArg (bitRev k) h
    rw [bitRev_bitRev _ _ hj, h3] at this
    omega
  omega

/-! ### reading the phase 1 file -/

section
variable {F G1 G2 GT : Type} [Field F] [AddCommGroup G1] [Module F G1] [AddCommGroup G2]
  [Module F G2] [AddCommGroup GT] [Module F GT] [DecidableEq G1] [DecidableEq G2]

theorem lagrangeSection_eq {G : Type} [AddCommGroup G] [Module F G] {c : Codec G} (hc : c.Lawful) (par : Par)
    (dom : Lagrange.Domain F) (k : Nat) (hk : k < 64) (hd : dom.Lawful k) (xs : List G) (hx : 2 ^ k ≤ xs.length)
    (file pre post : Bytes) (hfile : file = pre ++ (xs.flatMap c.bytes ++ post)) (pos : Int) (hpos : pos = pre.length) :
    lagrangeSection c par file pos dom = .ok (c.encodeSlice ((List.range (2 ^ k)).map (lagSection (2 ^ k) dom.gen xs))) := by
  subst hpos hfile
  have hl : (xs.take (2 ^ k)).length = 2 ^ k := by simp; omega
  have hdec := Codec.decodeN_encodeN hc 4096 0 (xs.take (2 ^ k)) ((xs.drop (2 ^ k)).flatMap c.bytes ++ post)
  rw [hl, Codec.encodeN, ← List.append_assoc, ← List.flatMap_append, List.take_append_drop] at hdec
  obtain ⟨out, ho, hol, hov⟩ := Lagrange.convert_spec par dom k hk hd (xs.take (2 ^ k)) hl
  have hout : out = (List.range (2 ^ k)).map (lagSection (2 ^ k) dom.gen xs) := by
    apply List.ext_getElem (by simp [hol])
    intro i h1 h2
    have hi : i < 2 ^ k := by omega
    have := hov i hi
    rw [List.getD_eq_getElem _ _ h1] at this
    rw [this, List.getElem_map, List.getElem_range, lagSection]
    unfold idft
    congr 1
    apply sum_congr rfl
    intro j hj
    rw [mem_range] at hj
    simp [List.getD_eq_getElem?_getD, hj]
  unfold lagrangeSection
  simp only [Int.natCast_nonneg, decide_true, check, if_true, Int.toNat_natCast, List.drop_left, Rd.buffered, hd.card, hdec,
    bind, Except.bind, ho, hout]

variable {C : Curve F G1 G2 GT} (hC : C.Lawful)

omit [DecidableEq G1] [DecidableEq G2] in
/-- where the sections lie in an encoded phase 1 file -/
theorem P1File.split (f : P1File G1 G2) (junk : Bytes) : f.encode C ++ junk
    = [f.power, UInt8.ofNat (f.records.length / 256), UInt8.ofNat (f.records.length % 256)] ++
      (f.tauG1.flatMap C.c1.bytes ++ (f.alphaG1.flatMap C.c1.bytes ++ (f.betaG1.flatMap C.c1.bytes ++
      (f.tauG2.flatMap C.c2.bytes ++ (C.c2.bytes f.betaG2 ++ (f.records.flatMap (recordBytes C) ++ junk)))))) := by
  simp [P1File.encode, P1File.params]

include hC

/-- the first three bytes -/
def header3 (f : P1File G1 G2) : Bytes :=
  [f.power, UInt8.ofNat (f.records.length / 256), UInt8.ofNat (f.records.length % 256)]

omit hC [DecidableEq G1] [DecidableEq G2] in
theorem header3_length (f : P1File G1 G2) : (header3 f).length = 3 := rfl

omit hC [DecidableEq G1] [DecidableEq G2] in
theorem P1File.at_tauG1 (f : P1File G1 G2) (junk : Bytes) : ∃ pre post,
    f.encode C ++ junk = pre ++ (f.tauG1.flatMap C.c1.bytes ++ post) ∧ pre.length = 3 :=
  ⟨_, _, P1File.split f junk, rfl⟩

theorem P1File.at_alphaG1 (f : P1File G1 G2) (hf : f.WF) (junk : Bytes) : ∃ pre post,
    f.encode C ++ junk = pre ++ (f.alphaG1.flatMap C.c1.bytes ++ post) ∧
      pre.length = 3 + 32 * (2 * 2 ^ f.power.toNat - 1) := by
  refine ⟨header3 f ++ f.tauG1.flatMap C.c1.bytes, _, by
    rw [P1File.split]; simp only [List.append_assoc]; rfl, ?_⟩
  simp only [List.length_append, section1_length hC, section2_length hC, header3_length, hf.tauG1]
  try omega

theorem P1File.at_betaG1 (f : P1File G1 G2) (hf : f.WF) (junk : Bytes) : ∃ pre post,
    f.encode C ++ junk = pre ++ (f.betaG1.flatMap C.c1.bytes ++ post) ∧
      pre.length = 3 + 32 * (2 * 2 ^ f.power.toNat - 1) + 32 * 2 ^ f.power.toNat := by
  refine ⟨header3 f ++ f.tauG1.flatMap C.c1.bytes ++ f.alphaG1.flatMap C.c1.bytes, _, by
    rw [P1File.split]; simp only [List.append_assoc]; rfl, ?_⟩
  simp only [List.length_append, section1_length hC, section2_length hC, header3_length, hf.tauG1, hf.alphaG1]
  try omega

theorem P1File.at_tauG2 (f : P1File G1 G2) (hf : f.WF) (junk : Bytes) : ∃ pre post,
    f.encode C ++ junk = pre ++ (f.tauG2.flatMap C.c2.bytes ++ post) ∧
      pre.length = 3 + 32 * (2 * 2 ^ f.power.toNat - 1) + 64 * 2 ^ f.power.toNat := by
  refine ⟨header3 f ++ f.tauG1.flatMap C.c1.bytes ++ f.alphaG1.flatMap C.c1.bytes ++ f.betaG1.flatMap C.c1.bytes, _, by
    rw [P1File.split]; simp only [List.append_assoc]; rfl, ?_⟩
  simp only [List.length_append, section1_length hC, section2_length hC, header3_length, hf.tauG1, hf.alphaG1, hf.betaG1]
  try omega

theorem P1File.at_betaG2 (f : P1File G1 G2) (hf : f.WF) (junk : Bytes) : ∃ pre post,
    f.encode C ++ junk = pre ++ (C.c2.bytes f.betaG2 ++ post) ∧
      pre.length = 3 + 32 * (2 * 2 ^ f.power.toNat - 1) + 128 * 2 ^ f.power.toNat := by
  refine ⟨header3 f ++ f.tauG1.flatMap C.c1.bytes ++ f.alphaG1.flatMap C.c1.bytes ++ f.betaG1.flatMap C.c1.bytes ++ f.tauG2.flatMap C.c2.bytes, _, by
    rw [P1File.split]; simp only [List.append_assoc]; rfl, ?_⟩
  simp only [List.length_append, section1_length hC, section2_length hC, header3_length, hf.tauG1, hf.alphaG1, hf.betaG1, hf.tauG2]
  try omega

omit hC in
theorem seekDecode_first {G : Type} [AddCommGroup G] {c : Codec G} (hc : c.Lawful) (file pre post : Bytes) (xs : List G)
    (hx : 0 < xs.length) (hfile : file = pre ++ (xs.flatMap c.bytes ++ post)) (pos : Int) (hpos : pos = pre.length) :
    seekDecode c file pos = .ok (xs.getD 0 0) := by
  obtain ⟨p, q, h, hp⟩ := flatMap_split hc xs 0 hx
  have : p = [] := List.length_eq_zero_iff.mp (by omega)
  subst this
  rw [hfile, h, List.nil_append, List.append_assoc]
  exact seekDecode_at hc _ _ _ _ hpos

theorem readPhase1_eq (f : P1File G1 G2) (hf : f.WF) (junk : Bytes) :
    readPhase1 C (f.encode C ++ junk) f.power = .ok (f.alphaG1.getD 0 0, f.betaG1.getD 0 0, f.betaG2) := by
  have hN : 0 < 2 ^ f.power.toNat := Nat.pow_pos (by omega)
  have hg := goPow2_eq hf.power
  obtain ⟨p1, q1, h1, l1⟩ := P1File.at_alphaG1 hC f hf junk
  obtain ⟨p2, q2, h2, l2⟩ := P1File.at_betaG1 hC f hf junk
  obtain ⟨p3, q3, h3, l3⟩ := P1File.at_betaG2 hC f hf junk
  have s1 := seekDecode_first hC.codec1 _ _ _ f.alphaG1 (by rw [hf.alphaG1]; exact hN) h1
    (3 + 32 * (2 * goPow2 f.power - 1)) (by rw [hg, l1]; omega)
  have s2 := seekDecode_first hC.codec1 _ _ _ f.betaG1 (by rw [hf.betaG1]; exact hN) h2
    (3 + 32 * (2 * goPow2 f.power - 1) + 32 * goPow2 f.power) (by rw [hg, l2]; omega)
  have s3 : seekDecode C.c2 (f.encode C ++ junk)
      (3 + 32 * (2 * goPow2 f.power - 1) + 32 * goPow2 f.power + 96 * goPow2 f.power) = .ok f.betaG2 := by
    rw [h3]
    exact seekDecode_at hC.codec2 _ _ _ _ (by rw [hg, l3]; omega)
  unfold readPhase1
  simp only [s1, s2, s3, bind, Except.bind]

/-- the Lagrange sections written to `srs.lag` -/
def lagBytes (C : Curve F G1 G2 GT) (n : Nat) (ω : F) (f : P1File G1 G2) : Bytes :=
  C.c1.encodeSlice ((List.range n).map (lagSection n ω f.tauG1)) ++
  (C.c1.encodeSlice ((List.range n).map (lagSection n ω f.alphaG1)) ++
  (C.c1.encodeSlice ((List.range n).map (lagSection n ω f.betaG1)) ++
  C.c2.encodeSlice ((List.range n).map (lagSection n ω f.tauG2))))

theorem processLagrange_run (par : Par) (dom : Nat → Lagrange.Domain F) (f : P1File G1 G2) (hf : f.WF) (junk : Bytes) (k : Nat)
    (hk : k ≤ f.power.toNat) (hd : (dom (2 ^ k)).Lawful k) (h1 : Phase1.Header) (hh1 : h1.power = f.power)
    (h2 : Header) (hh2 : h2.domain = ((2 ^ k : Nat) : Int)) (s : InitSt) :
    (processLagrange C par dom h1 h2 (f.encode C ++ junk)).run s
      = (.ok (), { s with lag := lagBytes C (2 ^ k) (dom (2 ^ k)).gen f }) := by
  have hle : 2 ^ k ≤ 2 ^ f.power.toNat := Nat.pow_le_pow_right (by omega) hk
  have hp := hf.power
  have hN : 0 < 2 ^ f.power.toNat := Nat.pow_pos (by omega)
  have hg := goPow2_eq hf.power
  obtain ⟨p0, q0, e0, l0⟩ := P1File.at_tauG1 (C := C) f junk
  obtain ⟨p1, q1, e1, l1⟩ := P1File.at_alphaG1 hC f hf junk
  obtain ⟨p2, q2, e2, l2⟩ := P1File.at_betaG1 hC f hf junk
  obtain ⟨p3, q3, e3, l3⟩ := P1File.at_tauG2 hC f hf junk
  have s0 := lagrangeSection_eq hC.codec1 par _ k (by omega) hd f.tauG1 (by rw [hf.tauG1]; omega) _ _ _ e0 3 (by rw [l0]; rfl)
  have s1 := lagrangeSection_eq hC.codec1 par _ k (by omega) hd f.alphaG1 (by rw [hf.alphaG1]; omega) _ _ _ e1
    (3 + 32 * (2 * goPow2 f.power - 1)) (by rw [l1, hg]; omega)
  have s2 := lagrangeSection_eq hC.codec1 par _ k (by omega) hd f.betaG1 (by rw [hf.betaG1]; omega) _ _ _ e2
    (3 + 32 * (2 * goPow2 f.power - 1) + 32 * goPow2 f.power) (by rw [l2, hg]; omega)
  have s3 := lagrangeSection_eq hC.codec2 par _ k (by omega) hd f.tauG2 (by rw [hf.tauG2]; omega) _ _ _ e3
    (3 + 32 * (2 * goPow2 f.power - 1) + 32 * goPow2 f.power + 32 * goPow2 f.power) (by rw [l3, hg]; omega)
  unfold processLagrange
  simp only [hh2, Int.toNat_natCast, hh1]
  rw [s0, s1, s2, s3]
  simp [Go.bind_run, createLag, emitLag, lagBytes]

theorem readTauLag_eq (n : Nat) (hn : n < 2 ^ 32) (ω : F) (f : P1File G1 G2) :
    readTauLag C (lagBytes C n ω f) (n : Int)
      = (.ok ((List.range n).map (lagSection n ω f.tauG1)), .ok ((List.range n).map (lagSection n ω f.tauG2))) := by
  have h1 := Codec.decodeSlice_encodeSlice hC.codec1 0 0 ((List.range n).map (lagSection n ω f.tauG1))
    (C.c1.encodeSlice ((List.range n).map (lagSection n ω f.alphaG1)) ++
      (C.c1.encodeSlice ((List.range n).map (lagSection n ω f.betaG1)) ++
      C.c2.encodeSlice ((List.range n).map (lagSection n ω f.tauG2)))) (by simpa using hn)
  unfold readTauLag lagBytes
  simp only [Rd.file, List.drop_zero, h1]
  have ha := Codec.encodeSlice_length hC.codec1 ((List.range n).map (lagSection n ω f.alphaG1))
  have hb := Codec.encodeSlice_length hC.codec1 ((List.range n).map (lagSection n ω f.betaG1))
  simp only [List.length_map, List.length_range, hC.size1] at ha hb
  have hlen : (2 * 32 * (n : Int) + 2 * 4).toNat = (C.c1.encodeSlice ((List.range n).map (lagSection n ω f.alphaG1)) ++
      C.c1.encodeSlice ((List.range n).map (lagSection n ω f.betaG1))).length := by
    rw [List.length_append, ha, hb]; omega
  have hdrop : (C.c1.encodeSlice ((List.range n).map (lagSection n ω f.alphaG1)) ++
      (C.c1.encodeSlice ((List.range n).map (lagSection n ω f.betaG1)) ++
      C.c2.encodeSlice ((List.range n).map (lagSection n ω f.tauG2)))).drop (2 * 32 * (n : Int) + 2 * 4).toNat
      = C.c2.encodeSlice ((List.range n).map (lagSection n ω f.tauG2)) := by
    rw [hlen, ← List.append_assoc, List.drop_left]
  simp only [Rd.adv, hdrop]
  have h2 := fun p => Codec.decodeSlice_encodeSlice hC.codec2 0 p ((List.range n).map (lagSection n ω f.tauG2)) []
    (by simpa using hn)
  simp only [List.append_nil] at h2
  rw [h2]

theorem readLag3_eq (n : Nat) (hn : n < 2 ^ 32) (ω : F) (f : P1File G1 G2) :
    ((readLag3 C).run (Rd.buffered 4096 (lagBytes C n ω f))).1
      = .ok ((List.range n).map (lagSection n ω f.tauG1), (List.range n).map (lagSection n ω f.alphaG1),
        (List.range n).map (lagSection n ω f.betaG1)) := by
  unfold readLag3 lagBytes Rd.buffered
  rw [Go.bind_ok (Codec.decodeSlice_encodeSlice hC.codec1 _ _ _ _ (by simpa using hn)),
    Go.bind_ok (Codec.decodeSlice_encodeSlice hC.codec1 _ _ _ _ (by simpa using hn)),
    Go.bind_ok (Codec.decodeSlice_encodeSlice hC.codec1 _ _ _ _ (by simpa using hn))]
  rfl

omit hC [DecidableEq G1] [DecidableEq G2] in
theorem map_lag_getD {G : Type} [AddCommGroup G] [Module F G] (n : Nat) (ω : F) (xs : List G) (i : Nat) (hi : i < n) :
    ((List.range n).map (lagSection n ω xs)).getD i 0 = lagSection n ω xs i := by
  simp [List.getD_eq_getElem?_getD, hi]

/-- one accumulation over a Lagrange section -/
theorem accumulate_lag {G : Type} [AddCommGroup G] [Module F G] (r : R1CS F) (hr : r.Valid) (side : R1C → List Term)
    (hside : ∀ c, side c ∈ [c.l, c.r, c.o]) (n : Nat) (ω : F) (xs : List G) (hn : r.constraints.length ≤ n) :
    accumulateAll r.coefficients ((List.range n).map (lagSection n ω xs)) side 0 r.constraints (List.replicate r.wires 0)
      = .ok ((List.range r.wires).map (wireSum r side (lagSection n ω xs))) := by
  rw [accumulateAll_zero r hr side hside _ (by simpa using hn)]
  rw [wireSum_congr r side _ _ n hn (fun i hi => map_lag_getD n ω xs i hi)]

theorem accumulate_lag_add {G : Type} [AddCommGroup G] [Module F G] (r : R1CS F) (hr : r.Valid) (side : R1C → List Term)
    (hside : ∀ c, side c ∈ [c.l, c.r, c.o]) (n : Nat) (ω : F) (xs : List G) (hn : r.constraints.length ≤ n) (g : Nat → G) :
    accumulateAll r.coefficients ((List.range n).map (lagSection n ω xs)) side 0 r.constraints ((List.range r.wires).map g)
      = .ok ((List.range r.wires).map fun w => g w + wireSum r side (lagSection n ω xs) w) := by
  rw [accumulateAll_valid r hr side hside _ _ (by simpa using hn) (by simp)]
  rw [wireSum_congr r side _ _ n hn (fun i hi => map_lag_getD n ω xs i hi)]
  congr 1
  apply List.map_congr_left
  intro w hw
  rw [List.mem_range] at hw
  simp [List.getD_eq_getElem?_getD, hw]

theorem processEvaluations_run (r : R1CS F) (hr : r.Valid) (f : P1File G1 G2) (hf : f.WF) (junk : Bytes) (n : Nat)
    (hn : n < 2 ^ 32) (hc : r.constraints.length ≤ n) (ω : F) (h1 : Phase1.Header) (hh1 : h1.power = f.power) (h2 : Header)
    (hd : h2.domain = (n : Int)) (hw : h2.wires = (r.wires : Int)) (ph2 evals : Bytes) :
    (processEvaluations C r h1 h2 (f.encode C ++ junk)).run ⟨ph2, lagBytes C n ω f, evals⟩
      = (.ok (), ⟨ph2, lagBytes C n ω f, C.c1.bytes (f.alphaG1.getD 0 0) ++ C.c1.bytes (f.betaG1.getD 0 0) ++ C.c2.bytes f.betaG2 ++
          C.c1.encodeSlice ((List.range r.wires).map (wireSum r R1C.l (lagSection n ω f.tauG1))) ++
          C.c1.encodeSlice ((List.range r.wires).map (wireSum r R1C.r (lagSection n ω f.tauG1))) ++
          C.c2.encodeSlice ((List.range r.wires).map (wireSum r R1C.r (lagSection n ω f.tauG2)))⟩) := by
  unfold processEvaluations
  rw [Go.bind_ok (a := lagBytes C n ω f) (s' := ⟨ph2, lagBytes C n ω f, evals⟩) rfl]
  rw [Go.bind_ok (a := ()) (s' := ⟨ph2, lagBytes C n ω f, []⟩) rfl]
  rw [hh1, readPhase1_eq hC f hf junk, Go.bind_ok (Go.lift_run _ _)]
  simp only [hd, readTauLag_eq hC n hn ω f, hw, makeLen_nat, accumulate_lag hC r hr R1C.l (by simp) n ω f.tauG1 hc,
    accumulate_lag hC r hr R1C.r (by simp) n ω f.tauG1 hc, accumulate_lag hC r hr R1C.r (by simp) n ω f.tauG2 hc]
  simp [Go.bind_run, emitEvals, accumulate_lag hC r hr R1C.l (by simp) n ω f.tauG1 hc,
    accumulate_lag hC r hr R1C.r (by simp) n ω f.tauG1 hc, accumulate_lag hC r hr R1C.r (by simp) n ω f.tauG2 hc]

theorem processDeltaAndZ_run (f : P1File G1 G2) (hf : f.WF) (junk : Bytes) (k : Nat) (hk : k ≤ f.power.toNat) (h2 : Header)
    (hd : h2.domain = ((2 ^ k : Nat) : Int)) (s : InitSt) :
    (processDeltaAndZ C h2 (f.encode C ++ junk)).run s
      = (.ok (), { s with ph2 := s.ph2 ++ (C.c1.bytes C.g1 ++ C.c2.bytes C.g2 ++ (zSection k f.tauG1).flatMap C.c1.bytes) }) := by
  have hle : 2 ^ k ≤ 2 ^ f.power.toNat := Nat.pow_le_pow_right (by omega) hk
  have hpos : 0 < 2 ^ k := Nat.pow_pos (by omega)
  have hp := hf.power
  obtain ⟨pre, post, e, l⟩ := P1File.at_tauG1 (C := C) f junk
  have hdrop : (f.encode C ++ junk).drop 3 = f.tauG1.flatMap C.c1.bytes ++ post := by
    rw [e, ← l, List.drop_left]
  have hl : (f.tauG1.take (2 * 2 ^ k - 1)).length = 2 * 2 ^ k - 1 := by
    rw [List.length_take, hf.tauG1]; omega
  have hdec := Codec.decodeN_encodeN hC.codec1 4096 0 (f.tauG1.take (2 * 2 ^ k - 1))
    ((f.tauG1.drop (2 * 2 ^ k - 1)).flatMap C.c1.bytes ++ post)
  rw [hl, Codec.encodeN, ← List.append_assoc, ← List.flatMap_append, List.take_append_drop] at hdec
  have hlen : (2 * ((2 ^ k : Nat) : Int) - 1) = ((2 * 2 ^ k - 1 : Nat) : Int) := by omega
  have hz : zSection k (f.tauG1.take (2 * 2 ^ k - 1)) = zSection k f.tauG1 := by
    unfold zSection
    apply List.map_congr_left
    intro j hj
    rw [List.mem_range] at hj
    have hb := bitRev_lt k j
    have hne : bitRev k j ≠ 2 ^ k - 1 := by
      intro h
      have := congrArg (bitRev k) h
      rw [bitRev_bitRev _ _ (by omega), bitRev_top] at this
      omega
    have h1 : bitRev k j + 2 ^ k < 2 * 2 ^ k - 1 := by omega
    have h2 : bitRev k j < 2 * 2 ^ k - 1 := by omega
    simp [List.getD_eq_getElem?_getD, List.getElem?_take, h1, h2]
  unfold processDeltaAndZ
  simp only [hd, hlen, hdrop, makeLen_nat]
  simp only [Go.bind_run, emitPh2, Go.lift_run, Rd.buffered, hdec, Int.toNat_natCast, computeZ_eq k (by omega), hz]
  simp [Codec.encodeN]

theorem processPVCKK_run (cmtBytes : Commitment → Bytes) (r : R1CS F) (hr : r.Valid) (f : P1File G1 G2) (n : Nat)
    (hn : n < 2 ^ 32) (hc : r.constraints.length ≤ n) (ω : F) (h2 : Header) (hw : h2.wires = (r.wires : Int))
    (pkk vkk ckk : List G1)
    (hfil : filterL ((List.range r.wires).map (combined r n ω f)) h2 r.commitment = .ok (pkk, vkk, ckk)) (ph2 evals : Bytes) :
    (processPVCKK C cmtBytes r h2).run ⟨ph2, lagBytes C n ω f, evals⟩
      = (.ok (), ⟨ph2 ++ pkk.flatMap C.c1.bytes, lagBytes C n ω f,
          evals ++ (C.c1.encodeSlice vkk ++ C.c1.encodeSlice ckk ++ cmtBytes r.commitment)⟩) := by
  unfold processPVCKK
  rw [Go.bind_ok (a := lagBytes C n ω f) (s' := ⟨ph2, lagBytes C n ω f, evals⟩) rfl]
  rw [hw, makeLen_nat, Go.bind_ok (Go.lift_run _ _), readLag3_eq hC n hn, Go.bind_ok (Go.lift_run _ _)]
  simp only
  rw [accumulate_lag hC r hr R1C.o (by simp) n ω f.tauG1 hc, Go.bind_ok (Go.lift_run _ _),
    accumulate_lag_add hC r hr R1C.r (by simp) n ω f.alphaG1 hc, Go.bind_ok (Go.lift_run _ _),
    accumulate_lag_add hC r hr R1C.l (by simp) n ω f.betaG1 hc, Go.bind_ok (Go.lift_run _ _)]
  have : (List.range r.wires).map (fun w => wireSum r R1C.o (lagSection n ω f.tauG1) w
      + wireSum r R1C.r (lagSection n ω f.alphaG1) w + wireSum r R1C.l (lagSection n ω f.betaG1) w)
      = (List.range r.wires).map (combined r n ω f) := rfl
  rw [this, hfil, Go.bind_ok (Go.lift_run _ _)]
  simp [Go.bind_run, emitPh2, emitEvals, Codec.encodeN]

end

end ZkSetup
