import Verif.Proofs.AnyInput
import Verif.Proofs.InitRun
import Verif.Proofs.DiskInit
/-
Phase 2 initialisation from arbitrary bytes: the shape of what a successful run writes.
-/
set_option linter.unusedSectionVars false

namespace ZkSetup

open Phase2
open Phase1 (makeLen wrap64 check goPow2)

section
variable {F G1 G2 GT : Type} [Field F] [AddCommGroup G1] [Module F G1] [AddCommGroup G2]
  [Module F G2] [AddCommGroup GT] [Module F GT] [DecidableEq G1] [DecidableEq G2]

section acc
variable {G : Type} [AddCommGroup G] [Module F G]

theorem lagrangeSection_ok {c : Codec G} {par : Par} {file : Bytes} {pos : Int} {dom : Lagrange.Domain F} {k : Nat} (hk : k < 64) (hd : dom.Lawful k)
    {s : Bytes} (h : lagrangeSection c par file pos dom = .ok s) : ∃ l : List G, l.length = 2 ^ k ∧ s = c.encodeSlice l := by
  unfold lagrangeSection at h
  obtain ⟨_, _, h⟩ := except_bind_eq_ok h
  obtain ⟨buff, h1, h⟩ := except_bind_eq_ok h
  have hl : buff.length = 2 ^ k := by
    rw [← hd.card]
    exact decodeN_length _ _ _ _ _ (Prod.ext h1 rfl)
  obtain ⟨out, h2, h3, -⟩ := Lagrange.convert_spec par dom k hk hd buff hl
  rw [h2] at h
  simp only [Except.ok.injEq] at h
  exact ⟨out, h3, h.symm⟩

end acc

theorem lift_eq_ok {σ α : Type} {x : Except Fail α} {s s' : σ} {a : α} (h : (Go.lift x : Go σ α).run s = (.ok a, s')) :
    x = .ok a ∧ s' = s := by
  rw [Go.lift_run] at h
  simp only [Prod.mk.injEq] at h
  exact ⟨h.1, h.2.symm⟩

variable {C : Curve F G1 G2 GT}

theorem processLagrange_ok {par : Par} {dom : Nat → Lagrange.Domain F} {h1 : Phase1.Header} {h2 : Header} {file : Bytes} {k : Nat}
    (hk : k < 64) (hd : (dom h2.domain.toNat).Lawful k) {s s' : InitSt} {u : Unit}
    (h : (processLagrange C par dom h1 h2 file).run s = (.ok u, s')) :
    ∃ (t a b : List G1) (t2 : List G2), t.length = 2 ^ k ∧ a.length = 2 ^ k ∧ b.length = 2 ^ k ∧ t2.length = 2 ^ k ∧
      s' = { s with lag := C.c1.encodeSlice t ++ C.c1.encodeSlice a ++ C.c1.encodeSlice b ++ C.c2.encodeSlice t2 } := by
  unfold processLagrange at h
  obtain ⟨_, _, e, h⟩ := Go.bind_eq_ok h
  cases e
  obtain ⟨b1, _, e, h⟩ := Go.bind_eq_ok h
  obtain ⟨e1, rfl⟩ := lift_eq_ok e
  obtain ⟨_, _, e, h⟩ := Go.bind_eq_ok h
  cases e
  obtain ⟨b2, _, e, h⟩ := Go.bind_eq_ok h
  obtain ⟨e2, rfl⟩ := lift_eq_ok e
  obtain ⟨_, _, e, h⟩ := Go.bind_eq_ok h
  cases e
  obtain ⟨b3, _, e, h⟩ := Go.bind_eq_ok h
  obtain ⟨e3, rfl⟩ := lift_eq_ok e
  obtain ⟨_, _, e, h⟩ := Go.bind_eq_ok h
  cases e
  obtain ⟨b4, _, e, h⟩ := Go.bind_eq_ok h
  obtain ⟨e4, rfl⟩ := lift_eq_ok e
  cases h
  obtain ⟨t, l1, rfl⟩ := lagrangeSection_ok hk hd e1
  obtain ⟨a, l2, rfl⟩ := lagrangeSection_ok hk hd e2
  obtain ⟨b, l3, rfl⟩ := lagrangeSection_ok hk hd e3
  obtain ⟨t2, l4, rfl⟩ := lagrangeSection_ok hk hd e4
  exact ⟨t, a, b, t2, l1, l2, l3, l4, by simp⟩

theorem processDeltaAndZ_ok {h2 : Header} {file : Bytes} {k : Nat} (hdm : h2.domain = ((2 ^ k : Nat) : Int)) {s s' : InitSt} {u : Unit}
    (h : (processDeltaAndZ C h2 file).run s = (.ok u, s')) :
    ∃ z : List G1, z.length = 2 ^ k - 1 ∧
      s' = { s with ph2 := s.ph2 ++ (C.c1.bytes C.g1 ++ C.c2.bytes C.g2 ++ C.c1.encodeN z) } := by
  unfold processDeltaAndZ at h
  obtain ⟨_, _, e, h⟩ := Go.bind_eq_ok h
  cases e
  obtain ⟨_, _, e, h⟩ := Go.bind_eq_ok h
  cases e
  obtain ⟨n, _, e, h⟩ := Go.bind_eq_ok h
  obtain ⟨e1, rfl⟩ := lift_eq_ok e
  obtain ⟨tau, _, e, h⟩ := Go.bind_eq_ok h
  obtain ⟨e2, rfl⟩ := lift_eq_ok e
  cases h
  refine ⟨computeZ h2.domain.toNat tau, ?_, by simp⟩
  unfold computeZ
  rw [hdm]
  rw [Int.toNat_natCast, List.length_take, bitReverse_length, List.length_map, List.length_range]
  exact Nat.min_eq_left (Nat.sub_le _ _)

/-- the header and the evaluation file of a circuit, plain or parted -/
theorem processEvaluations_ok {r : R1CS F} {h1 : Phase1.Header} {h2 : Header} {file : Bytes} {s s' : InitSt} {u : Unit}
    (h : (processEvaluations C r h1 h2 file).run s = (.ok u, s')) :
    ∃ (al b1 : G1) (b2 : G2) (a b : List G1) (bb : List G2), (a.length : Int) = h2.wires ∧ (b.length : Int) = h2.wires ∧
      (bb.length : Int) = h2.wires ∧ s' = { s with
        evals := C.c1.bytes al ++ C.c1.bytes b1 ++ C.c2.bytes b2 ++ C.c1.encodeSlice a ++ C.c1.encodeSlice b ++ C.c2.encodeSlice bb } := by
  unfold processEvaluations at h
  obtain ⟨lag, _, e, h⟩ := Go.bind_eq_ok h
  cases e
  obtain ⟨_, _, e, h⟩ := Go.bind_eq_ok h
  cases e
  obtain ⟨⟨al, b1, b2⟩, _, e, h⟩ := Go.bind_eq_ok h
  obtain ⟨e1, rfl⟩ := lift_eq_ok e
  obtain ⟨_, _, e, h⟩ := Go.bind_eq_ok h
  cases e
  obtain ⟨_, _, e, h⟩ := Go.bind_eq_ok h
  cases e
  obtain ⟨_, _, e, h⟩ := Go.bind_eq_ok h
  cases e
  obtain ⟨tau1, _, e, h⟩ := Go.bind_eq_ok h
  obtain ⟨e2, rfl⟩ := lift_eq_ok e
  obtain ⟨w, _, e, h⟩ := Go.bind_eq_ok h
  obtain ⟨e3, rfl⟩ := lift_eq_ok e
  obtain ⟨a, _, e, h⟩ := Go.bind_eq_ok h
  obtain ⟨e4, rfl⟩ := lift_eq_ok e
  obtain ⟨_, _, e, h⟩ := Go.bind_eq_ok h
  cases e
  obtain ⟨b, _, e, h⟩ := Go.bind_eq_ok h
  obtain ⟨e5, rfl⟩ := lift_eq_ok e
  obtain ⟨_, _, e, h⟩ := Go.bind_eq_ok h
  cases e
  obtain ⟨tau2, _, e, h⟩ := Go.bind_eq_ok h
  obtain ⟨e6, rfl⟩ := lift_eq_ok e
  obtain ⟨bb, _, e, h⟩ := Go.bind_eq_ok h
  obtain ⟨e7, rfl⟩ := lift_eq_ok e
  cases h
  have hw := makeLen_eq_ok e3
  have l1 := accumulateAll_length _ _ _ _ _ _ _ e4
  have l2 := accumulateAll_length _ _ _ _ _ _ _ e5
  have l3 := accumulateAll_length _ _ _ _ _ _ _ e7
  simp only [List.length_replicate] at l1 l2 l3
  exact ⟨al, b1, b2, a, b, bb, by rw [l1, hw], by rw [l2, hw], by rw [l3, hw], by simp⟩

theorem processPVCKK_ok {cb : Commitment → Bytes} {r : R1CS F} {hd : Header} {s s' : InitSt} {u : Unit}
    (h : (processPVCKK C cb r hd).run s = (.ok u, s')) :
    ∃ pkk vkk ckk : List G1, (pkk.length : Int) = hd.witness ∧ (vkk.length : Int) = hd.pub ∧ (ckk.length : Int) = hd.privateCommitted ∧
      s' = { s with ph2 := s.ph2 ++ C.c1.encodeN pkk, evals := s.evals ++ (C.c1.encodeSlice vkk ++ C.c1.encodeSlice ckk ++ cb r.commitment) } := by
  unfold processPVCKK at h
  obtain ⟨lag, _, ee1, h1⟩ := Go.bind_eq_ok h
  cases ee1
  obtain ⟨n, _, ee2, h2⟩ := Go.bind_eq_ok h1
  obtain ⟨e1, rfl⟩ := lift_eq_ok ee2
  obtain ⟨⟨t, a, b⟩, _, ee3, h3⟩ := Go.bind_eq_ok h2
  obtain ⟨e2, rfl⟩ := lift_eq_ok ee3
  obtain ⟨L1, _, ee4, h4⟩ := Go.bind_eq_ok h3
  obtain ⟨e3, rfl⟩ := lift_eq_ok ee4
  obtain ⟨L2, _, ee5, h5⟩ := Go.bind_eq_ok h4
  obtain ⟨e4, rfl⟩ := lift_eq_ok ee5
  obtain ⟨L3, _, ee6, h6⟩ := Go.bind_eq_ok h5
  obtain ⟨e5, rfl⟩ := lift_eq_ok ee6
  obtain ⟨⟨pkk, vkk, ckk⟩, _, ee7, h7⟩ := Go.bind_eq_ok h6
  obtain ⟨e6, rfl⟩ := lift_eq_ok ee7
  obtain ⟨_, _, g1, h8⟩ := Go.bind_eq_ok h7
  obtain ⟨_, _, g2, h9⟩ := Go.bind_eq_ok h8
  obtain ⟨_, _, g3, h10⟩ := Go.bind_eq_ok h9
  simp only [emitPh2, emitEvals, Prod.mk.injEq] at g1 g2 g3 h10
  rw [← g1.2] at g2
  rw [← g2.2] at g3
  rw [← g3.2] at h10
  rw [← h10.2]
  obtain ⟨l1, l2, l3⟩ := filterL_lengths e6
  exact ⟨pkk, vkk, ckk, l1.symm, l2.symm, l3.symm, by simp⟩

theorem processEvaluationsParted_ok {cs : PartedR1CS F} {nb : Int} {h1 : Phase1.Header} {h2 : Header} {file : Bytes} {s s' : InitSt} {u : Unit}
    (h : (processEvaluationsParted C cs nb h1 h2 file).run s = (.ok u, s')) :
    ∃ (al b1 : G1) (b2 : G2) (a b : List G1) (bb : List G2), (a.length : Int) = h2.wires ∧ (b.length : Int) = h2.wires ∧
      (bb.length : Int) = h2.wires ∧ s' = { s with
        evals := C.c1.bytes al ++ C.c1.bytes b1 ++ C.c2.bytes b2 ++ C.c1.encodeSlice a ++ C.c1.encodeSlice b ++ C.c2.encodeSlice bb } := by
  unfold processEvaluationsParted at h
  obtain ⟨lag, _, e, h⟩ := Go.bind_eq_ok h
  cases e
  obtain ⟨_, _, e, h⟩ := Go.bind_eq_ok h
  cases e
  obtain ⟨⟨al, b1, b2⟩, _, e, h⟩ := Go.bind_eq_ok h
  obtain ⟨e1, rfl⟩ := lift_eq_ok e
  obtain ⟨_, _, e, h⟩ := Go.bind_eq_ok h
  cases e
  obtain ⟨_, _, e, h⟩ := Go.bind_eq_ok h
  cases e
  obtain ⟨_, _, e, h⟩ := Go.bind_eq_ok h
  cases e
  obtain ⟨tau1, _, e, h⟩ := Go.bind_eq_ok h
  obtain ⟨e2, rfl⟩ := lift_eq_ok e
  obtain ⟨w, _, e, h⟩ := Go.bind_eq_ok h
  obtain ⟨e3, rfl⟩ := lift_eq_ok e
  obtain ⟨a, _, e, h⟩ := Go.bind_eq_ok h
  obtain ⟨e4, rfl⟩ := lift_eq_ok e
  obtain ⟨_, _, e, h⟩ := Go.bind_eq_ok h
  cases e
  obtain ⟨b, _, e, h⟩ := Go.bind_eq_ok h
  obtain ⟨e5, rfl⟩ := lift_eq_ok e
  obtain ⟨_, _, e, h⟩ := Go.bind_eq_ok h
  cases e
  obtain ⟨tau2, _, e, h⟩ := Go.bind_eq_ok h
  obtain ⟨e6, rfl⟩ := lift_eq_ok e
  obtain ⟨bb, _, e, h⟩ := Go.bind_eq_ok h
  obtain ⟨e7, rfl⟩ := lift_eq_ok e
  cases h
  have hw := makeLen_eq_ok e3
  have l1 := accumulateParted_length _ _ _ _ _ _ _ _ e4
  have l2 := accumulateParted_length _ _ _ _ _ _ _ _ e5
  have l3 := accumulateParted_length _ _ _ _ _ _ _ _ e7
  simp only [List.length_replicate] at l1 l2 l3
  exact ⟨al, b1, b2, a, b, bb, by rw [l1, hw], by rw [l2, hw], by rw [l3, hw], by simp⟩

theorem processPVCKKParted_ok {cb : Commitment → Bytes} {cs : PartedR1CS F} {nb : Int} {hd : Header} {s s' : InitSt} {u : Unit}
    (h : (processPVCKKParted C cb cs nb hd).run s = (.ok u, s')) :
    ∃ pkk vkk ckk : List G1, (pkk.length : Int) = hd.witness ∧ (vkk.length : Int) = hd.pub ∧ (ckk.length : Int) = hd.privateCommitted ∧
      s' = { s with ph2 := s.ph2 ++ C.c1.encodeN pkk, evals := s.evals ++ (C.c1.encodeSlice vkk ++ C.c1.encodeSlice ckk ++ cb cs.base.commitment) } := by
  unfold processPVCKKParted at h
  obtain ⟨lag, _, ee1, h1⟩ := Go.bind_eq_ok h
  cases ee1
  obtain ⟨n, _, ee2, h2⟩ := Go.bind_eq_ok h1
  obtain ⟨e1, rfl⟩ := lift_eq_ok ee2
  obtain ⟨⟨t, a, b⟩, _, ee3, h3⟩ := Go.bind_eq_ok h2
  obtain ⟨e2, rfl⟩ := lift_eq_ok ee3
  obtain ⟨L1, _, ee4, h4⟩ := Go.bind_eq_ok h3
  obtain ⟨e3, rfl⟩ := lift_eq_ok ee4
  obtain ⟨L2, _, ee5, h5⟩ := Go.bind_eq_ok h4
  obtain ⟨e4, rfl⟩ := lift_eq_ok ee5
  obtain ⟨L3, _, ee6, h6⟩ := Go.bind_eq_ok h5
  obtain ⟨e5, rfl⟩ := lift_eq_ok ee6
  obtain ⟨⟨pkk, vkk, ckk⟩, _, ee7, h7⟩ := Go.bind_eq_ok h6
  obtain ⟨e6, rfl⟩ := lift_eq_ok ee7
  obtain ⟨_, _, g1, h8⟩ := Go.bind_eq_ok h7
  obtain ⟨_, _, g2, h9⟩ := Go.bind_eq_ok h8
  obtain ⟨_, _, g3, h10⟩ := Go.bind_eq_ok h9
  simp only [emitPh2, emitEvals, Prod.mk.injEq] at g1 g2 g3 h10
  rw [← g1.2] at g2
  rw [← g2.2] at g3
  rw [← g3.2] at h10
  rw [← h10.2]
  obtain ⟨l1, l2, l3⟩ := filterL_lengths e6
  exact ⟨pkk, vkk, ckk, l1.symm, l2.symm, l3.symm, by simp⟩

/-- What a successful initialisation has written: the shape of the three files. -/
structure InitShape (C : Curve F G1 G2 GT) (H : HeaderCodec) (hd : Header) (cmt : Bytes) (k : Nat) (st : InitSt) : Prop where
  ph2 : ∃ z pkk : List G1, z.length = 2 ^ k - 1 ∧ (pkk.length : Int) = hd.witness ∧
    st.ph2 = H.enc hd ++ (C.c1.bytes C.g1 ++ C.c2.bytes C.g2 ++ C.c1.encodeN z) ++ C.c1.encodeN pkk
  lag : ∃ (t a b : List G1) (t2 : List G2), t.length = 2 ^ k ∧ a.length = 2 ^ k ∧ b.length = 2 ^ k ∧ t2.length = 2 ^ k ∧
    st.lag = C.c1.encodeSlice t ++ C.c1.encodeSlice a ++ C.c1.encodeSlice b ++ C.c2.encodeSlice t2
  evals : ∃ ev : Evals G1 G2, (ev.a.length : Int) = hd.wires ∧ (ev.b1.length : Int) = hd.wires ∧ (ev.b2.length : Int) = hd.wires ∧
    (ev.vkk.length : Int) = hd.pub ∧ (ev.ckk.length : Int) = hd.privateCommitted ∧ ev.commitment = cmt ∧ st.evals = ev.encode C

theorem init_any {E : InitEnv F} {par : Par} {r1cs : Option (R1CS F)} {file oldLag oldEvals : Bytes} {st : InitSt}
    (hdom : ∀ r k, r1cs = some r → nextPowerofTwo r.nbConstraints = .ok ((2 ^ k : Nat) : Int) → (E.dom (2 ^ k)).Lawful k)
    (h : initializeFiles C E par r1cs file oldLag oldEvals = (.ok (), st)) :
    ∃ r k, r1cs = some r ∧ 1 ≤ k ∧ k ≤ 27 ∧ nextPowerofTwo r.nbConstraints = .ok ((2 ^ k : Nat) : Int) ∧
      InitShape C E.header (circuitHeader r r.nbConstraints ((2 ^ k : Nat) : Int)) (E.cmtBytes r.commitment) k st := by
  unfold initializeFiles initBody at h
  obtain ⟨⟨r, h1, h2⟩, s1, e, h⟩ := Go.bind_eq_ok h
  cases r1cs with
  | none => simp [processHeader, Go.fail] at e
  | some r' =>
    unfold processHeader at e
    obtain ⟨d, _, e', e⟩ := Go.bind_eq_ok e
    obtain ⟨g1, rfl⟩ := lift_eq_ok e'
    obtain ⟨_, _, e', e⟩ := Go.bind_eq_ok e
    obtain ⟨g2, rfl⟩ := lift_eq_ok e'
    obtain ⟨_, _, e', e⟩ := Go.bind_eq_ok e
    obtain ⟨g3, rfl⟩ := lift_eq_ok e'
    obtain ⟨_, _, e', e⟩ := Go.bind_eq_ok e
    cases e'
    simp only [Go.pure_run, Prod.mk.injEq, Except.ok.injEq] at e
    obtain ⟨⟨rfl, rfl, rfl⟩, rfl⟩ := e
    obtain ⟨k, hk1, hk27, rfl⟩ := nextPowerofTwo_ok g1
    have hdm := (circuitHeader_rest r' r'.nbConstraints ((2 ^ k : Nat) : Int)).2.1
    obtain ⟨_, _, e, h⟩ := Go.bind_eq_ok h
    obtain ⟨t, a, b, t2, l1, l2, l3, l4, rfl⟩ := processLagrange_ok (k := k) (by omega)
      (by rw [hdm, Int.toNat_natCast]; exact hdom r' k rfl g1) e
    obtain ⟨_, _, e, h⟩ := Go.bind_eq_ok h
    obtain ⟨al, b1, b2, a', b', bb, m1, m2, m3, rfl⟩ := processEvaluations_ok e
    obtain ⟨_, _, e, h⟩ := Go.bind_eq_ok h
    obtain ⟨z, lz, rfl⟩ := processDeltaAndZ_ok hdm e
    obtain ⟨pkk, vkk, ckk, n1, n2, n3, rfl⟩ := processPVCKK_ok h
    refine ⟨r', k, rfl, hk1, hk27, g1, ⟨z, pkk, lz, n1, ?_⟩, ⟨t, a, b, t2, l1, l2, l3, l4, rfl⟩,
      ⟨⟨al, b1, b2, a', b', bb, vkk, ckk, E.cmtBytes r'.commitment⟩, m1, m2, m3, n2, n3, rfl, ?_⟩⟩
    · simp only [Header.write, List.nil_append, List.append_assoc]
    · simp [Evals.encode]

theorem initParted_any {E : InitEnv F} {par : Par} {cs : PartedR1CS F} {nb : Int} {file oldLag oldEvals : Bytes} {st : InitSt}
    (hdom : ∀ k, nextPowerofTwo nb = .ok ((2 ^ k : Nat) : Int) → (E.dom (2 ^ k)).Lawful k)
    (h : initializeParted C E par cs nb file oldLag oldEvals = (.ok (), st)) :
    ∃ k, 1 ≤ k ∧ k ≤ 27 ∧ nextPowerofTwo nb = .ok ((2 ^ k : Nat) : Int) ∧
      InitShape C E.header (circuitHeader cs.base nb ((2 ^ k : Nat) : Int)) (E.cmtBytes cs.base.commitment) k st := by
  unfold initializeParted at h
  obtain ⟨⟨h1, h2⟩, s1, e, h⟩ := Go.bind_eq_ok h
  unfold processHeaderParted at e
  obtain ⟨d, _, e', e⟩ := Go.bind_eq_ok e
  obtain ⟨g1, rfl⟩ := lift_eq_ok e'
  obtain ⟨_, _, e', e⟩ := Go.bind_eq_ok e
  obtain ⟨g2, rfl⟩ := lift_eq_ok e'
  obtain ⟨_, _, e', e⟩ := Go.bind_eq_ok e
  obtain ⟨g3, rfl⟩ := lift_eq_ok e'
  obtain ⟨_, _, e', e⟩ := Go.bind_eq_ok e
  cases e'
  simp only [Go.pure_run, Prod.mk.injEq, Except.ok.injEq] at e
  obtain ⟨⟨rfl, rfl⟩, rfl⟩ := e
  obtain ⟨k, hk1, hk27, rfl⟩ := nextPowerofTwo_ok g1
  have hdm := (circuitHeader_rest cs.base nb ((2 ^ k : Nat) : Int)).2.1
  obtain ⟨_, _, e, h⟩ := Go.bind_eq_ok h
  obtain ⟨t, a, b, t2, l1, l2, l3, l4, rfl⟩ := processLagrange_ok (k := k) (by omega)
    (by rw [hdm, Int.toNat_natCast]; exact hdom k g1) e
  obtain ⟨_, _, e, h⟩ := Go.bind_eq_ok h
  obtain ⟨al, b1, b2, a', b', bb, m1, m2, m3, rfl⟩ := processEvaluationsParted_ok e
  obtain ⟨_, _, e, h⟩ := Go.bind_eq_ok h
  obtain ⟨z, lz, rfl⟩ := processDeltaAndZ_ok hdm e
  obtain ⟨pkk, vkk, ckk, n1, n2, n3, rfl⟩ := processPVCKKParted_ok h
  refine ⟨k, hk1, hk27, g1, ⟨z, pkk, lz, n1, ?_⟩, ⟨t, a, b, t2, l1, l2, l3, l4, rfl⟩,
    ⟨⟨al, b1, b2, a', b', bb, vkk, ckk, E.cmtBytes cs.base.commitment⟩, m1, m2, m3, n2, n3, rfl, ?_⟩⟩
  · simp only [Header.write, List.nil_append, List.append_assoc]
  · simp [Evals.encode]

end
end ZkSetup
