import Verif.Proofs.Panic
import Verif.Props.Init
import Verif.Props.Cli
import Verif.Props.Phase1Sound
/-
C57: which inputs make a command crash.
-/
set_option linter.unusedSectionVars false

namespace ZkSetup

open Go Phase2

section
variable {F G1 G2 GT : Type} [Field F] [AddCommGroup G1] [Module F G1] [AddCommGroup G2]
  [Module F G2] [AddCommGroup GT] [Module F GT] [DecidableEq G1] [DecidableEq G2] [DecidableEq GT]

/-! ### initialisation -/

theorem lagrangeSection_out {G : Type} [AddCommGroup G] [Module F G] (c : Codec G) (par : Par) (file : Bytes) (pos : Int)
    (dom : Lagrange.Domain F) (k : Nat) (hk : k < 64) (hd : dom.Lawful k) :
    ¬ Panics (lagrangeSection c par file pos dom) ∧
      ∀ bs, lagrangeSection c par file pos dom = .ok bs → ∃ xs : List G, xs.length = 2 ^ k ∧ bs = c.encodeSlice xs := by
  unfold lagrangeSection
  cases hc : Phase1.check (decide (0 ≤ pos)) "seek: invalid argument" with
  | error e =>
    have := check_noPanic (decide (0 ≤ pos)) "seek: invalid argument"
    rw [hc] at this
    exact ⟨fun h => this (panics_error h), fun _ h => by cases h⟩
  | ok u =>
    have hnp := (c.decodeN_noPanic dom.cardinality).run (Rd.buffered 4096 (file.drop pos.toNat))
    cases hdec : (c.decodeN dom.cardinality).run (Rd.buffered 4096 (file.drop pos.toNat)) with
    | mk r rd =>
      rw [hdec] at hnp
      cases r with
      | error e => exact ⟨fun h => hnp (panics_error h), fun _ h => by cases h⟩
      | ok buff =>
        have hl := decodeN_length _ _ _ _ _ hdec
        rw [hd.card] at hl
        obtain ⟨out, ho, hol, -⟩ := Lagrange.convert_spec par dom k hk hd buff hl
        simp only [bind, Except.bind, ho]
        refine ⟨not_panics_ok _, ?_⟩
        rintro bs ⟨⟩
        exact ⟨out, hol, rfl⟩

/-- `srs.lag` with four sections of `n` points -/
def LagOf (C : Curve F G1 G2 GT) (n : Nat) (lag : Bytes) : Prop :=
  ∃ (x1 x2 x3 : List G1) (x4 : List G2), x1.length = n ∧ x2.length = n ∧ x3.length = n ∧ x4.length = n ∧
    lag = C.c1.encodeSlice x1 ++ (C.c1.encodeSlice x2 ++ (C.c1.encodeSlice x3 ++ C.c2.encodeSlice x4))

theorem processLagrange_out (C : Curve F G1 G2 GT) (par : Par) (dom : Nat → Lagrange.Domain F) (h1 : Phase1.Header) (h2 : Header)
    (file : Bytes) (k : Nat) (hk : k < 64) (hdom : h2.domain = ((2 ^ k : Nat) : Int)) (hd : (dom (2 ^ k)).Lawful k) (s : InitSt) :
    ¬ Panics ((processLagrange C par dom h1 h2 file).run s).1 ∧
      ∀ s', (processLagrange C par dom h1 h2 file).run s = (.ok (), s') → LagOf C (2 ^ k) s'.lag := by
  have hn : h2.domain.toNat = 2 ^ k := by rw [hdom]; rfl
  have hA := fun pos => lagrangeSection_out C.c1 par file pos (dom (2 ^ k)) k hk hd
  have hB := fun pos => lagrangeSection_out C.c2 par file pos (dom (2 ^ k)) k hk hd
  unfold processLagrange
  simp only [hn]
  obtain ⟨n1, o1⟩ := hA 3
  obtain ⟨n2, o2⟩ := hA (3 + 32 * (2 * Phase1.goPow2 h1.power - 1))
  obtain ⟨n3, o3⟩ := hA (3 + 32 * (2 * Phase1.goPow2 h1.power - 1) + 32 * Phase1.goPow2 h1.power)
  obtain ⟨n4, o4⟩ := hB (3 + 32 * (2 * Phase1.goPow2 h1.power - 1) + 32 * Phase1.goPow2 h1.power + 32 * Phase1.goPow2 h1.power)
  have hx : ∀ bs, (emitLag bs).Safe := fun _ => ⟨fun _ => not_panics_ok _⟩
  constructor
  · refine Safe.run ?_ _
    refine Safe.bind ⟨fun _ => not_panics_ok _⟩ fun _ => ?_
    np (.lift n1)
    np (hx _)
    np (.lift n2)
    np (hx _)
    np (.lift n3)
    np (hx _)
    np (.lift n4)
    exact hx _
  · intro s' h
    revert h o1 o2 o3 o4
    generalize lagrangeSection C.c1 par file 3 (dom (2 ^ k)) = e1
    generalize lagrangeSection C.c1 par file (3 + 32 * (2 * Phase1.goPow2 h1.power - 1)) (dom (2 ^ k)) = e2
    generalize lagrangeSection C.c1 par file (3 + 32 * (2 * Phase1.goPow2 h1.power - 1) + 32 * Phase1.goPow2 h1.power)
      (dom (2 ^ k)) = e3
    generalize lagrangeSection C.c2 par file (3 + 32 * (2 * Phase1.goPow2 h1.power - 1) + 32 * Phase1.goPow2 h1.power
      + 32 * Phase1.goPow2 h1.power) (dom (2 ^ k)) = e4
    intro o1 o2 o3 o4 h
    cases e1 with
    | error => cases h
    | ok b1 =>
    cases e2 with
    | error => cases h
    | ok b2 =>
    cases e3 with
    | error => cases h
    | ok b3 =>
    cases e4 with
    | error => cases h
    | ok b4 =>
    obtain ⟨x1, l1, rfl⟩ := o1 _ rfl
    obtain ⟨x2, l2, rfl⟩ := o2 _ rfl
    obtain ⟨x3, l3, rfl⟩ := o3 _ rfl
    obtain ⟨x4, l4, rfl⟩ := o4 _ rfl
    refine ⟨x1, x2, x3, x4, l1, l2, l3, l4, ?_⟩
    simp only [Go.bind_run, createLag, emitLag, Go.lift_run, Prod.mk.injEq] at h
    rw [← h.2]
    simp

theorem readTauLag_lists {C : Curve F G1 G2 GT} (hC : C.Lawful) {n : Nat} (hn : n < 2 ^ 32) {lag : Bytes} (h : LagOf C n lag) :
    ∃ x1 x4, readTauLag C lag (n : Int) = (.ok x1, .ok x4) ∧ x1.length = n ∧ x4.length = n := by
  obtain ⟨x1, x2, x3, x4, l1, l2, l3, l4, rfl⟩ := h
  refine ⟨x1, x4, ?_, l1, l4⟩
  have h1 := Codec.decodeSlice_encodeSlice hC.codec1 0 0 x1
    (C.c1.encodeSlice x2 ++ (C.c1.encodeSlice x3 ++ C.c2.encodeSlice x4)) (by omega)
  unfold readTauLag
  simp only [Rd.file, List.drop_zero, h1]
  have ha := Codec.encodeSlice_length hC.codec1 x2
  have hb := Codec.encodeSlice_length hC.codec1 x3
  simp only [hC.size1, l2, l3] at ha hb
  have hlen : (2 * 32 * (n : Int) + 2 * 4).toNat = (C.c1.encodeSlice x2 ++ C.c1.encodeSlice x3).length := by
    rw [List.length_append, ha, hb]; omega
  have hdrop : (C.c1.encodeSlice x2 ++ (C.c1.encodeSlice x3 ++ C.c2.encodeSlice x4)).drop (2 * 32 * (n : Int) + 2 * 4).toNat
      = C.c2.encodeSlice x4 := by
    rw [hlen, ← List.append_assoc, List.drop_left]
  simp only [Rd.adv, hdrop]
  have h2 := fun p => Codec.decodeSlice_encodeSlice hC.codec2 0 p x4 [] (by omega)
  simp only [List.append_nil] at h2
  rw [h2]

theorem readLag3_lists {C : Curve F G1 G2 GT} (hC : C.Lawful) {n : Nat} (hn : n < 2 ^ 32) {lag : Bytes} (h : LagOf C n lag) :
    ∃ x1 x2 x3, ((readLag3 C).run (Rd.buffered 4096 lag)).1 = .ok (x1, x2, x3) ∧ x1.length = n ∧ x2.length = n ∧ x3.length = n := by
  obtain ⟨x1, x2, x3, x4, l1, l2, l3, l4, rfl⟩ := h
  refine ⟨x1, x2, x3, ?_, l1, l2, l3⟩
  unfold readLag3 Rd.buffered
  rw [Go.bind_ok (Codec.decodeSlice_encodeSlice hC.codec1 _ _ _ _ (by omega)),
    Go.bind_ok (Codec.decodeSlice_encodeSlice hC.codec1 _ _ _ _ (by omega)),
    Go.bind_ok (Codec.decodeSlice_encodeSlice hC.codec1 _ _ _ _ (by omega))]
  rfl

/-- leaves `srs.lag` alone -/
structure KeepsLag {α : Type} (x : Go InitSt α) : Prop where
  run : ∀ s, (x.run s).2.lag = s.lag

theorem KeepsLag.bind {α β : Type} {x : Go InitSt α} {f : α → Go InitSt β} (hx : KeepsLag x) (hf : ∀ a, KeepsLag (f a)) :
    KeepsLag (x >>= f) := by
  refine ⟨fun s => ?_⟩
  have h := hx.run s
  rw [Go.bind_run]
  revert h
  cases x.run s with
  | mk r s' =>
    cases r with
    | ok a => exact fun h => ((hf a).run s').trans h
    | error e => exact id

theorem KeepsLag.lift {α : Type} (r : Except Fail α) : KeepsLag (Go.lift r) := ⟨fun _ => rfl⟩

theorem processEvaluations_keepsLag (C : Curve F G1 G2 GT) (r : R1CS F) (h1 : Phase1.Header) (h2 : Header) (file : Bytes) :
    KeepsLag (processEvaluations C r h1 h2 file) := by
  have he : ∀ bs, KeepsLag (emitEvals bs) := fun _ => ⟨fun _ => rfl⟩
  exact .bind ⟨fun _ => rfl⟩ fun _ => .bind ⟨fun _ => rfl⟩ fun _ => .bind (.lift _) fun _ => .bind (he _) fun _ =>
    .bind (he _) fun _ => .bind (he _) fun _ => .bind (.lift _) fun _ => .bind (.lift _) fun _ => .bind (.lift _) fun _ =>
    .bind (he _) fun _ => .bind (.lift _) fun _ => .bind (he _) fun _ => .bind (.lift _) fun _ => .bind (.lift _) fun _ => he _

theorem processDeltaAndZ_keepsLag (C : Curve F G1 G2 GT) (h2 : Header) (file : Bytes) : KeepsLag (processDeltaAndZ C h2 file) := by
  have he : ∀ bs, KeepsLag (emitPh2 bs) := fun _ => ⟨fun _ => rfl⟩
  exact .bind (he _) fun _ => .bind (he _) fun _ => .bind (.lift _) fun _ => .bind (.lift _) fun _ => he _

theorem readPhase1_noPanic (C : Curve F G1 G2 GT) (file : Bytes) (p : UInt8) : ¬ Panics (readPhase1 C file p) := by
  unfold readPhase1
  refine except_no_panic (seekDecode_noPanic _ _ _) fun _ => ?_
  refine except_no_panic (seekDecode_noPanic _ _ _) fun _ => ?_
  refine except_no_panic (seekDecode_noPanic _ _ _) fun _ => ?_
  exact not_panics_ok _

theorem emitEvals_noPanic (bs : Bytes) : (emitEvals bs).Safe := ⟨fun _ => not_panics_ok _⟩
theorem emitPh2_noPanic (bs : Bytes) : (emitPh2 bs).Safe := ⟨fun _ => not_panics_ok _⟩

theorem processEvaluations_noPanic {C : Curve F G1 G2 GT} (hC : C.Lawful) (r : R1CS F) (hr : r.Valid) (h1 : Phase1.Header) (h2 : Header)
    (file : Bytes) (n : Nat) (hn : n < 2 ^ 32) (hc : r.constraints.length ≤ n) (hd : h2.domain = (n : Int))
    (hw : h2.wires = (r.wires : Int)) (s : InitSt) (hs : LagOf C n s.lag) :
    ¬ Panics ((processEvaluations C r h1 h2 file).run s).1 := by
  obtain ⟨x1, x4, hx, l1, l4⟩ := readTauLag_lists hC hn hs
  unfold processEvaluations
  rw [Go.bind_ok (a := s.lag) (s' := s) rfl]
  simp only [hd, hx, hw, makeLen_nat]
  refine Safe.run ?_ _
  refine Safe.bind ⟨fun _ => not_panics_ok _⟩ fun _ => ?_
  np (.lift (readPhase1_noPanic _ _ _))
  np (emitEvals_noPanic _)
  np (emitEvals_noPanic _)
  np (emitEvals_noPanic _)
  refine ⟨fun s => ?_⟩
  rw [Go.bind_ok (Go.lift_run _ _), Go.bind_ok (Go.lift_run _ _), accumulateAll_zero r hr R1C.l (by simp) x1 (by omega),
    Go.bind_ok (Go.lift_run _ _), accumulateAll_zero r hr R1C.r (by simp) x1 (by omega)]
  refine Safe.run ?_ _
  np (emitEvals_noPanic _)
  np (.lift (not_panics_ok _))
  np (emitEvals_noPanic _)
  refine ⟨fun s => ?_⟩
  rw [Go.bind_ok (Go.lift_run _ _), accumulateAll_zero r hr R1C.r (by simp) x4 (by omega)]
  exact Safe.run (.bind (.lift (not_panics_ok _)) fun _ => emitEvals_noPanic _) _

theorem processDeltaAndZ_noPanic (C : Curve F G1 G2 GT) (h2 : Header) (hd : 1 ≤ h2.domain) (file : Bytes) :
    (processDeltaAndZ C h2 file).Safe := by
  unfold processDeltaAndZ
  np (emitPh2_noPanic _)
  np (emitPh2_noPanic _)
  np (.lift (by rw [makeLen_panics]; omega))
  np (.lift ((C.c1.decodeN_noPanic _).run _))
  exact emitPh2_noPanic _

theorem filterL_public (r : R1CS F) (hpc : r.PublicCommitment) (c d : Int) (L : List G1) (hL : L.length = r.wires) :
    filterL L (circuitHeader r c d) r.commitment = .ok (L.drop r.shared, L.take r.shared, []) := by
  have hsh := hpc.shared_le
  refine filterL_split L _ r.commitment hpc.priv r.shared (r.wires - r.shared) ?_ ?_ ?_ ?_ (by omega)
  · unfold circuitHeader R1CS.shared Commitment.is
    by_cases h : r.commitment.committed = [] <;> simp [h]
  · unfold circuitHeader Commitment.is
    unfold R1CS.shared R1CS.wires at *
    by_cases h : r.commitment.committed = []
    · simp [h, hpc.priv]; omega
    · simp [h, hpc.priv] at hsh ⊢; omega
  · unfold circuitHeader
    split <;> simp [hpc.priv]
  · intro his
    have h : r.commitment.committed ≠ [] := by simpa [Commitment.is] using his
    rw [(hpc.index h).1, R1CS.shared, if_neg h]
    omega

theorem processPVCKK_noPanic {C : Curve F G1 G2 GT} (hC : C.Lawful) (cmtBytes : Commitment → Bytes) (r : R1CS F) (hr : r.Valid)
    (hpc : r.PublicCommitment) (c d : Int) (n : Nat) (hn : n < 2 ^ 32) (hc : r.constraints.length ≤ n) (s : InitSt)
    (hs : LagOf C n s.lag) : ¬ Panics ((processPVCKK C cmtBytes r (circuitHeader r c d)).run s).1 := by
  obtain ⟨x1, x2, x3, hx, l1, l2, l3⟩ := readLag3_lists hC hn hs
  unfold processPVCKK
  rw [Go.bind_ok (a := s.lag) (s' := s) rfl, circuitHeader_wires, makeLen_nat, Go.bind_ok (Go.lift_run _ _), hx,
    Go.bind_ok (Go.lift_run _ _)]
  simp only
  rw [accumulateAll_valid r hr R1C.o (by simp) x1 _ (by omega) (by simp), Go.bind_ok (Go.lift_run _ _),
    accumulateAll_valid r hr R1C.r (by simp) x2 _ (by omega) (by simp), Go.bind_ok (Go.lift_run _ _),
    accumulateAll_valid r hr R1C.l (by simp) x3 _ (by omega) (by simp), Go.bind_ok (Go.lift_run _ _),
    filterL_public r hpc c d _ (by simp), Go.bind_ok (Go.lift_run _ _)]
  exact Safe.run (.bind (emitPh2_noPanic _) fun _ => .bind (emitEvals_noPanic _) fun _ => .bind (emitEvals_noPanic _) fun _ =>
    emitEvals_noPanic _) _

theorem processHeader_out (H : HeaderCodec) (r : R1CS F) (hr : r.Valid) (k : Nat) (hk : IsDomain r.constraints.length k) (hk27 : k ≤ 27)
    (file : Bytes) (s : InitSt) : ¬ Panics ((processHeader H (some r) file).run s).1 ∧
      ∀ r' h1 h2 s', (processHeader H (some r) file).run s = (.ok (r', h1, h2), s') →
        r' = r ∧ h2 = circuitHeader r r.constraints.length ((2 ^ k : Nat) : Int) := by
  have hd : nextPowerofTwo (r.nbConstraints : Int) = .ok ((2 ^ k : Nat) : Int) := by
    rw [hr.count]; exact nextPowerofTwo_eq hk hk27
  unfold processHeader
  simp only [hd]
  rw [Go.bind_ok (Go.lift_run _ _)]
  constructor
  · refine Safe.run ?_ _
    np (.lift (header_noPanic.run _))
    np (.lift (check_noPanic _ _))
    exact .bind (emitPh2_noPanic _) fun _ => .pure _
  · intro r' h1 h2 s' h
    obtain ⟨a1, s1, -, h⟩ := Go.bind_eq_ok h
    obtain ⟨a2, s2, -, h⟩ := Go.bind_eq_ok h
    obtain ⟨a3, s3, -, h⟩ := Go.bind_eq_ok h
    rw [hr.count] at h
    cases h
    exact ⟨rfl, rfl⟩

/-- **C57**, phase 2 initialisation. The phase 1 file is an input that comes from others. For a circuit as gnark builds it (with a
commitment only to public wires whose commitment wire follows them: the others abort, C27) and at most `2^27` constraints, no
contents of the phase 1 file make `Initialize` crash. -/
theorem C57_initialize_partial {C : Curve F G1 G2 GT} (hC : C.Lawful) (E : InitEnv F) (par : Par) (r : R1CS F) (hr : r.Valid)
    (hpc : r.PublicCommitment) (k : Nat) (hk : IsDomain r.constraints.length k) (hk27 : k ≤ 27) (hdom : (E.dom (2 ^ k)).Lawful k)
    (phase1File oldLag oldEvals : Bytes) : ¬ Panics (initializeFiles C E par (some r) phase1File oldLag oldEvals).1 := by
  have hn : 2 ^ k < 2 ^ 32 := Nat.pow_lt_pow_right (by omega) (by omega)
  have hpos : 0 < 2 ^ k := Nat.pow_pos (by omega)
  have hw := circuitHeader_wires r (r.constraints.length : Int) ((2 ^ k : Nat) : Int)
  obtain ⟨-, hd1, -⟩ := circuitHeader_rest r (r.constraints.length : Int) ((2 ^ k : Nat) : Int)
  obtain ⟨n0, o0⟩ := processHeader_out E.header r hr k hk hk27 phase1File ⟨[], oldLag, oldEvals⟩
  unfold initializeFiles initBody
  rw [panics_bind]
  rintro (h | ⟨⟨r', h1, h2⟩, s1, e1, h⟩)
  · exact n0 h
  obtain ⟨rfl, rfl⟩ := o0 _ _ _ _ e1
  simp only at h
  obtain ⟨n1, o1⟩ := processLagrange_out C par E.dom h1 _ phase1File k (by omega) hd1 hdom s1
  rw [panics_bind] at h
  rcases h with h | ⟨_, s2, e2, h⟩
  · exact n1 h
  have hl2 := o1 _ e2
  rw [panics_bind] at h
  rcases h with h | ⟨_, s3, e3, h⟩
  · exact processEvaluations_noPanic hC r' hr h1 _ phase1File _ hn hk.fits hd1 hw s2 hl2 h
  have hl3 : s3.lag = s2.lag := by
    have := (processEvaluations_keepsLag C r' h1 (circuitHeader r' r'.constraints.length ((2 ^ k : Nat) : Int)) phase1File).run s2
    rwa [e3] at this
  rw [panics_after (processDeltaAndZ_noPanic C _ (by rw [hd1]; omega) phase1File)] at h
  obtain ⟨_, s4, e4, h⟩ := h
  have hl4 : s4.lag = s3.lag := by
    have := (processDeltaAndZ_keepsLag C (circuitHeader r' r'.constraints.length ((2 ^ k : Nat) : Int)) phase1File).run s3
    rwa [e4] at this
  exact processPVCKK_noPanic hC E.cmtBytes r' hr hpc _ _ _ hn hk.fits s4 (by rw [hl4, hl3]; exact hl2) h

theorem nextPowerofTwo_int {k : Nat} (n : Int) (hk : IsDomain n.toNat k) (hk27 : k ≤ 27) :
    nextPowerofTwo n = .ok ((2 ^ k : Nat) : Int) := by
  by_cases h : 0 ≤ n
  · obtain ⟨m, rfl⟩ := Int.eq_ofNat_of_zero_le h
    exact nextPowerofTwo_eq hk hk27
  · have h0 : n.toNat = 0 := by omega
    rw [h0] at hk
    have h1 := hk.least 1 (le_refl _) (by omega)
    have h2 := hk.two
    have : k = 1 := by omega
    subst this
    unfold nextPowerofTwo nextPowerofTwoLoop
    rw [if_pos (by omega)]
    rfl

/-- **C57**, the same for a parted circuit: if its parts are those of `r` and the number of constraints given is that of `r` (any
number below zero counts as none), no contents of the phase 1 file make `InitializeFromPartedR1CS` crash. -/
theorem C57_parted_partial {C : Curve F G1 G2 GT} (hC : C.Lawful) (E : InitEnv F) (par : Par) (r : R1CS F) (hr : r.Valid)
    (hpc : r.PublicCommitment) (k : Nat) (hk : IsDomain r.constraints.length k) (hk27 : k ≤ 27) (hdom : (E.dom (2 ^ k)).Lawful k)
    (cs : PartedR1CS F) (hpub : cs.base.nbPublic = r.nbPublic) (hsec : cs.base.nbSecret = r.nbSecret)
    (hint : cs.base.nbInternal = r.nbInternal) (hcoeff : cs.base.coefficients = r.coefficients)
    (hcmt : cs.base.commitment = r.commitment) (hget : ∀ i (h : i < r.constraints.length), cs.get i = .ok r.constraints[i])
    (nbCons : Int) (hnb : nbCons.toNat = r.constraints.length) (phase1File oldLag oldEvals : Bytes) :
    ¬ Panics (initializeParted C E par cs nbCons phase1File oldLag oldEvals).1 := by
  have hh : ∀ c d, circuitHeader cs.base c d = circuitHeader r c d := by
    intro c d
    unfold circuitHeader
    rw [hpub, hsec, hint, hcmt]
  have hacc : ∀ {G : Type} [AddCommGroup G] [Module F G] (srs buff : List G) (side : R1C → List Term),
      accumulateParted cs.base.coefficients srs side cs.get nbCons.toNat 0 buff
        = accumulateAll r.coefficients srs side 0 r.constraints buff := by
    intro G _ _ srs buff side
    rw [hcoeff, hnb]
    exact accumulateParted_eq _ _ _ _ _ _ _ fun j hj => by rw [Nat.zero_add]; exact hget j hj
  have hE : ∀ h1 h2, processEvaluationsParted C cs nbCons h1 h2 phase1File = processEvaluations C r h1 h2 phase1File := by
    intro h1 h2
    unfold processEvaluationsParted processEvaluations
    simp only [hacc]
  have hP : ∀ h2, processPVCKKParted C E.cmtBytes cs nbCons h2 = processPVCKK C E.cmtBytes r h2 := by
    intro h2
    unfold processPVCKKParted processPVCKK
    simp only [hacc, hcmt]
  have hn : 2 ^ k < 2 ^ 32 := Nat.pow_lt_pow_right (by omega) (by omega)
  have hpos : 0 < 2 ^ k := Nat.pow_pos (by omega)
  have hw := circuitHeader_wires r nbCons ((2 ^ k : Nat) : Int)
  obtain ⟨-, hd1, -⟩ := circuitHeader_rest r nbCons ((2 ^ k : Nat) : Int)
  have hd := nextPowerofTwo_int nbCons (hnb ▸ hk) hk27
  unfold initializeParted
  simp only [hE, hP]
  rw [panics_bind]
  rintro (h | ⟨⟨h1, h2⟩, s1, e1, h⟩)
  · revert h
    unfold processHeaderParted
    simp only [hd]
    refine Safe.run ?_ _
    np (.lift (not_panics_ok _))
    np (.lift (header_noPanic.run _))
    np (.lift (check_noPanic _ _))
    exact .bind (emitPh2_noPanic _) fun _ => .pure _
  have : h2 = circuitHeader r nbCons ((2 ^ k : Nat) : Int) := by
    unfold processHeaderParted at e1
    simp only [hd, hh] at e1
    rw [Go.bind_ok (Go.lift_run _ _)] at e1
    obtain ⟨a1, t1, -, e1⟩ := Go.bind_eq_ok e1
    obtain ⟨a2, t2, -, e1⟩ := Go.bind_eq_ok e1
    obtain ⟨a3, t3, -, e1⟩ := Go.bind_eq_ok e1
    cases e1
    rfl
  subst this
  simp only at h
  obtain ⟨n1, o1⟩ := processLagrange_out C par E.dom h1 _ phase1File k (by omega) hd1 hdom s1
  rw [panics_bind] at h
  rcases h with h | ⟨_, s2, e2, h⟩
  · exact n1 h
  have hl2 := o1 _ e2
  rw [panics_bind] at h
  rcases h with h | ⟨_, s3, e3, h⟩
  · exact processEvaluations_noPanic hC r hr h1 _ phase1File _ hn hk.fits hd1 hw s2 hl2 h
  have hl3 : s3.lag = s2.lag := by
    have := (processEvaluations_keepsLag C r h1 (circuitHeader r nbCons ((2 ^ k : Nat) : Int)) phase1File).run s2
    rwa [e3] at this
  rw [panics_after (processDeltaAndZ_noPanic C _ (by rw [hd1]; omega) phase1File)] at h
  obtain ⟨_, s4, e4, h⟩ := h
  have hl4 : s4.lag = s3.lag := by
    have := (processDeltaAndZ_keepsLag C (circuitHeader r nbCons ((2 ^ k : Nat) : Int)) phase1File).run s3
    rwa [e4] at this
  exact processPVCKK_noPanic hC E.cmtBytes r hr hpc _ _ _ hn hk.fits s4 (by rw [hl4, hl3]; exact hl2) h

/-! ### phase 1 -/

theorem header_read_long (p c : UInt8) (rest : Bytes) : ∃ h rd, Phase1.Header.readFrom.run (Rd.file (p :: c :: rest) 0) = (.ok h, rd) ∧
    h.power = p ∧ rd.rest = (p :: c :: rest).drop 3 := by
  unfold Phase1.Header.readFrom
  simp [Go.bind_run, Rd.read, Rd.file, Rd.block, Rd.adv]

theorem header_read_short (input : Bytes) (h : input.length < 2) : ∃ m rd,
    Phase1.Header.readFrom.run (Rd.file input 0) = (.error (.err m), rd) := by
  unfold Phase1.Header.readFrom
  match input, h with
  | [], _ => exact ⟨_, _, rfl⟩
  | [p], _ => exact ⟨"EOF", _, by simp [Go.bind_run, Rd.read, Rd.file, Rd.block, Rd.adv]; rfl⟩

/-- **C57**, phase 1 verification crashes exactly on files of at least two bytes whose power is at least 63, whatever follows. -/
theorem C57_p1_verify (C : Curve F G1 G2 GT) (par : Par) (pol : Phase1.MsmPolicy) (b : Nat) (vr : Phase1.VerifyRand F) (input : Bytes)
    (transformed : Option Bytes) : Panics (Phase1.verify C par pol b vr input transformed) ↔
      ∃ p c rest, input = p :: c :: rest ∧ 63 ≤ p.toNat := by
  unfold Phase1.verify
  by_cases hl : input.length < 2
  · obtain ⟨m, rd, h⟩ := header_read_short input hl
    rw [h]
    refine iff_of_false (not_panics_err _) ?_
    rintro ⟨p, c, rest, rfl, -⟩
    simp at hl
  · match input, hl with
    | [_], h => simp at h
    | p :: c :: rest, _ =>
      obtain ⟨h, rd, e, rfl, -⟩ := header_read_long p c rest
      rw [e]
      dsimp only
      have hp := readSections_panics C par pol b vr h.power (Rd.buffered (2 ^ 20) rd.rest)
      have hex : (∃ p c' rest', h.power :: c :: rest = p :: c' :: rest' ∧ 63 ≤ p.toNat) ↔ 63 ≤ h.power.toNat :=
        ⟨by rintro ⟨_, _, _, h, hp⟩; cases h; exact hp, fun hp => ⟨_, _, _, rfl, hp⟩⟩
      rw [hex]
      split
      · rename_i hr
        rw [hr] at hp
        exact ⟨fun k => hp.mp (panics_error k), fun k => panics_error (hp.mpr k)⟩
      · rename_i hr
        rw [hr] at hp
        refine iff_of_false (verifyRest_noPanic _ _ _ _ _ _ _ _ _) fun k => not_panics_ok _ (hp.mpr k)

/-- **C57**, phase 1 contribution: it crashes exactly on files whose power is at least 63, and on files with power 0 whose first
point can be decoded. -/
theorem C57_p1_contribute (C : Curve F G1 G2 GT) (par : Par) (b : Nat) (hb : 2 ≤ b) (rnd : Phase1.Rand F) (input : Bytes) :
    Panics (Phase1.contribute C par b rnd input).1 ↔ ∃ p c rest, input = p :: c :: rest ∧
      (63 ≤ p.toNat ∨ p = 0 ∧ ∃ q, (C.c1.decode.run (Rd.buffered 4096 (input.drop 3))).1 = .ok q) := by
  unfold Phase1.contribute
  by_cases hl : input.length < 2
  · obtain ⟨m, rd, h⟩ := header_read_short input hl
    rw [h]
    refine iff_of_false (not_panics_err _) ?_
    rintro ⟨p, c, rest, rfl, -⟩
    simp at hl
  · match input, hl with
    | [_], h => simp at h
    | p :: c :: rest, _ =>
      obtain ⟨h, rd, e, rfl, hrd⟩ := header_read_long p c rest
      rw [e]
      dsimp only
      rw [contributeBody_panics C par b hb, hrd]
      constructor
      · exact fun k => ⟨_, _, _, rfl, k⟩
      · rintro ⟨_, _, _, e, k⟩
        cases e
        exact k

/-- **C57**, `Transform` never crashes. -/
theorem C57_p1_transform (C : Curve F G1 G2 GT) (inPower outPower : UInt8) (input : Bytes) :
    ¬ Panics (Phase1.transform C inPower outPower input).1 := transform_noPanic C inPower outPower input

/-! ### phase 2 -/

/-- counts with which the phase 2 functions crash: the lengths of Z or PKK are negative -/
def Phase2.Header.BadCounts (h : Header) : Prop := h.domain < 1 ∨ h.witness < 0

theorem wrap64_pred {n : Int} (h : 1 ≤ n) (h' : n < 2 ^ 63) : 0 ≤ Phase1.wrap64 (n - 1) := by
  rw [wrap64_eq (by omega) (by omega)]; omega

/-- **C57**, phase 2 contribution crashes only on files whose header can be decoded and carries a domain below 1 or a negative number
of witness wires. -/
theorem C57_p2_contribute (C : Curve F G1 G2 GT) {H : HeaderCodec} (hH : H.Lawful) (par : Par) (b : Nat) (rnd : Phase2.Rand F)
    (input : Bytes) (hp : Panics (Phase2.contribute C H par b rnd input).1) :
    ∃ h, (H.dec.run (Rd.buffered 4096 input)).1 = .ok h ∧ h.BadCounts := by
  unfold Phase2.contribute Phase2.contributeBody at hp
  dsimp only at hp
  rw [panics_after (IOSt.onRd_noPanic (header2_noPanic hH))] at hp
  obtain ⟨h, s', e, hp⟩ := hp
  have he : (H.dec.run (Rd.buffered 4096 input)).1 = .ok h := congrArg Prod.fst e
  refine ⟨h, he, ?_⟩
  by_contra hc
  unfold Header.BadCounts at hc
  push Not at hc
  have hr := (hH.dec_range _ _ h (Prod.ext he rfl)).domain
  exact (contributeWith_noPanic C H par b rnd h.increment (wrap64_pred hc.1 hr.2) hc.2).run _ hp

/-- **C57**, and it does crash on such files if the two points behind the header can be decoded: whatever the rest, with any domain
below 1 but the smallest integer. -/
theorem C57_p2_contribute_crashes {C : Curve F G1 G2 GT} (hC : C.Lawful) {H : HeaderCodec} (hH : H.Lawful) (par : Par) (b : Nat)
    (rnd : Phase2.Rand F) (h : Header) (hr : h.InRange) (hd : h.domain < 1) (hd' : -(2 ^ 63) < h.domain) (d1 : G1) (d2 : G2)
    (rest : Bytes) : Panics (Phase2.contribute C H par b rnd (H.enc h ++ (C.c1.bytes d1 ++ (C.c2.bytes d2 ++ rest)))).1 := by
  unfold Phase2.contribute Phase2.contributeBody Header.read Rd.buffered
  dsimp only
  rw [Go.bind_ok (IOSt.onRd_ok (hH.dec_enc h hr 4096 0 _))]
  unfold Phase2.contributeWith
  rw [Go.bind_ok (IOSt.emit_run _ _), Go.bind_ok (scalePoint_spec hC.codec1 _ _ _ _ _ _), Go.bind_ok (scalePoint_spec hC.codec2 _ _ _ _ _ _),
    panics_bind]
  refine .inl ((scale2_panics C par b _ _ _).mpr ?_)
  show Phase1.wrap64 (h.domain - 1) < 0
  rw [wrap64_eq (by omega) (by omega)]
  omega

/-- **C57**, phase 2 verification crashes only if both headers can be decoded, agree and carry bad counts. -/
theorem C57_p2_verify_counts (C : Curve F G1 G2 GT) {H : HeaderCodec} (hH : H.Lawful) (par : Par) (b : Nat)
    (vr : Phase2.VerifyRand F) (input origin : Bytes) (hp : Panics (Phase2.verify C H par b vr input origin)) :
    ∃ h h', (H.dec.run (Rd.buffered 4096 input)).1 = .ok h ∧ (H.dec.run (Rd.buffered 4096 origin)).1 = .ok h' ∧
      h.BadCounts ∧ h'.BadCounts := by
  obtain ⟨h, h', e, e', heq, hc⟩ := verifyBody_panics C hH par b vr _ _ hp
  unfold Header.equal at heq
  obtain ⟨-, w2, -, -, -, w6⟩ := of_decide_eq_true heq
  have hr := (hH.dec_range _ _ h (Prod.ext e rfl)).domain
  have hb : h.BadCounts := by
    unfold Header.BadCounts
    by_contra hn
    push Not at hn
    have := wrap64_pred hn.1 hr.2
    omega
  refine ⟨h, h', e, e', hb, ?_⟩
  unfold Header.BadCounts at *
  omega

/-- **C57**, phase 2 verification: if the origin is a well-formed file (with whatever bytes behind it), then no submitted file makes
it crash. -/
theorem C57_p2_verify {C : Curve F G1 G2 GT} (hC : C.Lawful) {H : HeaderCodec} (hH : H.Lawful) (par : Par) (b : Nat)
    (vr : Phase2.VerifyRand F) (o : P2File G1 G2) (ho : o.WF) (junk input : Bytes) :
    ¬ Panics (Phase2.verify C H par b vr input (o.encode C H ++ junk)) := by
  intro hp
  obtain ⟨-, h', -, e, -, hb⟩ := C57_p2_verify_counts C hH par b vr _ _ hp
  rw [P2File.header_read hC hH ho] at e
  cases e
  have := ho.domain_pos
  unfold Header.BadCounts P2File.header at hb
  simp only at hb
  omega

/-! ### keys -/

/-- counts with which the extraction of keys crashes -/
def Phase2.Header.BadKeyCounts (h : Header) : Prop := h.BadCounts ∨ 2 ^ 28 < h.domain

/-- **C57**, extraction of proving keys: whatever the evaluation file, it crashes only on phase 2 files whose header can be decoded and
carries a domain below 1 or above `2^28`, or a negative number of witness wires. -/
theorem C57_proving_keys (C : Curve F G1 G2 GT) (E : Keys.KeyEnv G1) (hH : E.header.Lawful) (ph2 evals : Bytes)
    (hc : ∀ h, (E.header.dec.run (Rd.buffered 4096 ph2)).1 = .ok h → ¬ h.BadKeyCounts) :
    ¬ Panics (Keys.extractPK C E ph2 evals).1 ∧ ¬ Panics (Keys.extractSplitPK C E ph2 evals).1 := by
  have hb : ∀ h, (E.header.dec.run (Rd.buffered 4096 ph2)).1 = .ok h → 1 ≤ h.domain ∧ h.domain ≤ 2 ^ 28 ∧ 0 ≤ h.witness := by
    intro h e
    have := hc h e
    unfold Header.BadKeyCounts Header.BadCounts at this
    omega
  refine ⟨?_, ?_⟩
  · exact extract_noPanic hH _ _ _ _ fun h e => pkBody_noPanic C E h (hb h e).1 (hb h e).2.1 (hb h e).2.2
  · exact extract_noPanic hH _ _ _ _ fun h e => splitPkBody_noPanic C h (hb h e).1 (hb h e).2.2

/-- **C57**, extraction of proving keys from a well-formed phase 2 file of a domain up to `2^28`, whatever follows it: no evaluation file
makes it crash. -/
theorem C57_proving_keys_wellformed {C : Curve F G1 G2 GT} (hC : C.Lawful) (E : Keys.KeyEnv G1) (hH : E.header.Lawful) (f : P2File G1 G2)
    (hf : f.WF) (hd : f.domain ≤ 2 ^ 28) (junk evals : Bytes) :
    ¬ Panics (Keys.extractPK C E (f.encode C E.header ++ junk) evals).1 ∧
      ¬ Panics (Keys.extractSplitPK C E (f.encode C E.header ++ junk) evals).1 := by
  refine C57_proving_keys C E hH _ _ fun h e hb => ?_
  rw [P2File.header_read hC hH hf] at e
  cases e
  have := hf.domain_pos
  unfold Header.BadKeyCounts Header.BadCounts P2File.header at hb
  dsimp only at hb
  omega

/-- **C57**, contribution to a well-formed phase 2 file, whatever follows it, does not crash. -/
theorem C57_p2_contribute_wellformed {C : Curve F G1 G2 GT} (hC : C.Lawful) {H : HeaderCodec} (hH : H.Lawful) (par : Par) (b : Nat)
    (rnd : Phase2.Rand F) (f : P2File G1 G2) (hf : f.WF) (junk : Bytes) :
    ¬ Panics (Phase2.contribute C H par b rnd (f.encode C H ++ junk)).1 := by
  intro hp
  obtain ⟨h, e, hb⟩ := C57_p2_contribute C hH par b rnd _ hp
  rw [P2File.header_read hC hH hf] at e
  cases e
  have := hf.domain_pos
  unfold Header.BadCounts P2File.header at hb
  dsimp only at hb
  omega

/-- **C57**, extraction of verifying keys: no phase 2 file and no evaluation file make it crash, if `pedersen.Setup` does not. -/
theorem C57_verifying_keys (C : Curve F G1 G2 GT) (E : Keys.KeyEnv G1) (hH : E.header.Lawful) (hE : ∀ l, ¬ Panics (E.commitmentKey l))
    (ph2 evals : Bytes) : ¬ Panics (Keys.extractVK C E ph2 evals).1 ∧ ¬ Panics (Keys.extractSplitVK C E ph2 evals).1 := by
  refine ⟨?_, ?_⟩
  · exact extract_noPanic hH _ _ _ _ fun h e => .bind (readVK_noPanic C E hE _ _) fun _ => write_noPanic _
  · exact extract_noPanic hH _ _ _ _ fun h e => .bind (readVK_noPanic C E hE _ _) fun _ =>
      .bind (write_noPanic _) fun _ => write_noPanic _

/-! ### commands -/

/-- A circuit that initialisation handles: as gnark builds them, with at most `2^27` constraints, and a commitment (if any) only to
public wires whose commitment wire follows them. -/
structure Phase2.R1CS.Supported (r : R1CS F) : Prop where
  valid : r.Valid
  commitment : r.PublicCommitment
  size : r.constraints.length ≤ 2 ^ 27

/-- a file that begins with the power 0 or a power of at least 63 -/
def BadPower (bs : Bytes) : Prop := ∃ p rest, bs = p :: rest ∧ (p = 0 ∨ 63 ≤ p.toNat)

theorem bothSteps_panics {first second : Cli.FS → Except Fail Unit × Cli.FS} {fs : Cli.FS}
    (hp : Panics (Cli.inOrder first second fs).1) : Panics (first fs).1 ∨ ∃ fs', (first fs).2 = fs' ∧ Panics (second fs').1 := by
  unfold Cli.inOrder at hp
  split at hp
  · rename_i h
    rw [h]
    exact .inl hp
  · rename_i fs' h
    exact .inr ⟨fs', by rw [h], hp⟩

theorem withFiles_panics {O : Type} {ph2 : String} {body : Bytes → Bytes → Except Fail Unit × Option O} {save : Cli.FS → O → Cli.FS}
    {fs : Cli.FS} (hp : Panics (Cli.withFiles ph2 body save fs).1) : ∃ a b, fs ph2 = some a ∧ Panics (body a b).1 := by
  unfold Cli.withFiles Cli.openFile at hp
  cases h : fs ph2 with
  | none => rw [h] at hp; exact (not_panics_err _ hp).elim
  | some a =>
    rw [h] at hp
    dsimp only at hp
    cases h' : fs "evals" with
    | none => rw [h'] at hp; exact (not_panics_err _ hp).elim
    | some b =>
      rw [h'] at hp
      exact ⟨a, b, rfl, hp⟩

/-- an empty file holds no header -/
theorem header_empty {H : HeaderCodec} (hH : H.Lawful) (h : Header) : (H.dec.run (Rd.buffered 4096 [])).1 ≠ .ok h := by
  intro e
  obtain ⟨used, hu, hl⟩ := hH.dec_local _ _ h (Prod.ext e rfl)
  have hu' : used = [] := (List.append_eq_nil_iff.mp hu.symm).1
  subst hu'
  have key : ∀ h' : Header, h'.InRange → h = h' := by
    intro h' hr
    have e1 := hl 0 0 (H.enc h' ++ [])
    rw [List.nil_append, hH.dec_enc h' hr] at e1
    injection e1 with e1
    injection e1 with e1
    exact e1.symm
  have := (key ⟨0, 0, 0, 0, 0, 0, 0⟩ (by constructor <;> simp)).symm.trans (key ⟨1, 0, 0, 0, 0, 0, 0⟩ (by constructor <;> simp))
  simp at this

theorem map_panics {α β : Type} {r : Except Fail α} {f : α → β} (h : Panics (r.map f)) : Panics r := by
  cases r with
  | ok a => exact (not_panics_ok _ h).elim
  | error e => exact panics_error h

theorem afterCreate_cases (inp out : String) (bs : Bytes) : Cli.contentsAfterCreate inp out bs = bs ∨ Cli.contentsAfterCreate inp out bs = [] := by
  unfold Cli.contentsAfterCreate
  split
  · exact .inr rfl
  · exact .inl rfl

/-- **C57**, commands: every crash of a command other than `p2np` has one of the following causes. Files other than the
first argument (and the constraint system of `p2n`) have no influence: not `evals`, `srs.lag`, the transformed file, nor the origin. -/
theorem C57_exec_partial {C : Curve F G1 G2 GT} (hC : C.Lawful) (E : Cli.Env F G1) (hb : 2 ≤ E.batch) (hH1 : E.init.header.Lawful)
    (hH2 : E.keys.header.Lawful) (hE : ∀ l, ¬ Panics (E.keys.commitmentKey l))
    (hdom : ∀ bs r k, E.r1cs bs = some r → IsDomain r.constraints.length k → k ≤ 27 → (E.init.dom (2 ^ k)).Lawful k) (d : Cli.Draws F) (cmd : String) (args : List String) (fs : Cli.FS)
    (hnp : cmd ≠ "p2np") (hp : Panics (Cli.exec C E d cmd args fs).1) :
    (cmd = "sol" ∧ (fs (args.getD 0 "" ++ ".vk.save")).bind E.solidity = none) ∨
    (cmd = "p2n" ∧ ∃ bs r, (fs (args.getD 1 "") = some bs ∨ bs = []) ∧ E.r1cs bs = some r ∧ ¬ r.Supported) ∨
    ∃ bs, fs (args.getD 0 "") = some bs ∧
      (((cmd = "p1c" ∨ cmd = "p1v" ∨ cmd = "p1vt") ∧ BadPower bs) ∨
      ((cmd = "p2c" ∨ cmd = "p2v") ∧ ∃ h, (E.init.header.dec.run (Rd.buffered 4096 bs)).1 = .ok h ∧ h.BadCounts) ∨
      ((cmd = "key" ∨ cmd = "keys") ∧ ∃ h, (E.keys.header.dec.run (Rd.buffered 4096 bs)).1 = .ok h ∧ h.BadKeyCounts)) := by
  have hargs : ∀ {c : Prop} [Decidable c] {x : Except Fail Unit × Cli.FS}, Panics (if c then Cli.badArgs fs else x).1 → Panics x.1 := by
    intro c _ x h
    split at h
    · exact (not_panics_err _ h).elim
    · exact h
  have hopen : ∀ {x : Bytes → Except Fail Unit × Cli.FS} {fs' : Cli.FS} {path : String} {fs'' : Cli.FS},
      Panics (match Cli.openFile fs' path with
        | .error e => ((.error e : Except Fail Unit), fs'')
        | .ok bs => x bs).1 → ∃ bs, fs' path = some bs ∧ Panics (x bs).1 := by
    intro x fs' path fs'' h
    unfold Cli.openFile at h
    cases hf : fs' path with
    | none => rw [hf] at h; exact (not_panics_err _ h).elim
    | some bs => rw [hf] at h; exact ⟨bs, rfl, h⟩
  have hverify : ∀ inp tr, Panics (Cli.p1Verify C E.batch E.pol d.par d.verify1 inp tr fs) →
      ∃ bs, fs inp = some bs ∧ BadPower bs := by
    intro inp tr h
    unfold Cli.p1Verify Cli.openFile at h
    cases hf : fs inp with
    | none => rw [hf] at h; exact (not_panics_err _ h).elim
    | some bs =>
      rw [hf] at h
      refine ⟨bs, rfl, ?_⟩
      change Panics (Cli.openTransformed fs tr >>= _) at h
      cases ht : Cli.openTransformed fs tr with
      | error e =>
        exfalso
        rw [ht] at h
        unfold Cli.openTransformed Cli.openFile at ht
        split at ht
        · cases ht
        · cases hf' : fs tr with
          | none => rw [hf'] at ht; cases ht; exact not_panics_err _ h
          | some _ => rw [hf'] at ht; cases ht
      | ok t =>
        rw [ht] at h
        obtain ⟨p, c, rest, rfl, h63⟩ := (C57_p1_verify C d.par E.pol E.batch d.verify1 bs t).mp h
        exact ⟨_, _, rfl, .inr h63⟩
  have hatoi : ∀ s e, Cli.atoi s = .error e → ∀ {β : Type}, ¬ Panics (.error e : Except Fail β) := by
    intro s e h β
    unfold Cli.atoi at h
    split at h
    · split at h
      · cases h
      · cases h; exact not_panics_err _
    · cases h; exact not_panics_err _
  unfold Cli.exec at hp
  split at hp
  · -- p1n
    exfalso
    unfold Cli.p1n at hp
    replace hp := hargs hp
    split at hp
    · exact hatoi _ _ ‹_› hp
    · split at hp
      · exact not_panics_err _ hp
      · exact not_panics_ok _ hp
  · -- p1c
    obtain ⟨bs, hf, h⟩ := hopen (hargs hp)
    refine .inr (.inr ⟨bs, hf, .inl ⟨.inl rfl, ?_⟩⟩)
    obtain ⟨p, c, rest, e, h⟩ := (C57_p1_contribute C d.par E.batch hb d.contribute1 _).mp (map_panics h)
    rcases afterCreate_cases (Cli.arg args 0) (Cli.arg args 1) bs with h' | h'
    · rw [h'] at e
      exact ⟨p, _, e, h.elim .inr fun h => .inl h.1⟩
    · rw [h'] at e; cases e
  · -- p1v
    obtain ⟨bs, hf, h⟩ := hverify _ _ (hargs hp)
    exact .inr (.inr ⟨bs, hf, .inl ⟨.inr (.inl rfl), h⟩⟩)
  · -- p1t
    exfalso
    unfold Cli.p1t at hp
    replace hp := hargs hp
    split at hp
    · exact hatoi _ _ ‹_› hp
    · split at hp
      · exact hatoi _ _ ‹_› hp
      · unfold Cli.p1tRun at hp
        split at hp
        · exact not_panics_err _ hp
        · obtain ⟨bs, -, h⟩ := hopen hp
          exact C57_p1_transform C _ _ _ h
  · -- p1vt
    obtain ⟨bs, hf, h⟩ := hverify _ _ (hargs hp)
    exact .inr (.inr ⟨bs, hf, .inl ⟨.inr (.inr rfl), h⟩⟩)
  · -- p2n
    refine .inr (.inl ⟨rfl, ?_⟩)
    obtain ⟨bs, -, h⟩ := hopen (hargs hp)
    obtain ⟨cs, hcs, h⟩ := hopen h
    have hcs' : fs (args.getD 1 "") = some cs ∨ cs = [] := by
      unfold Cli.FS.set at hcs
      split at hcs
      · cases hcs; exact .inr rfl
      · exact .inl hcs
    cases hr : E.r1cs cs with
    | none =>
      exfalso
      rw [hr] at h
      exact not_panics_err _ h
    | some r =>
      refine ⟨cs, r, hcs', hr, fun hs => ?_⟩
      rw [hr] at h
      obtain ⟨k, hk⟩ := isDomain_exists r.constraints.length
      have hk27 := isDomain_le hk (by omega) hs.size
      exact C57_initialize_partial hC E.init d.par r hs.valid hs.commitment k hk hk27 (hdom cs r k hr hk hk27) _ _ _ h
  · exact (hnp rfl).elim
  · -- p2c
    obtain ⟨bs, hf, h⟩ := hopen (hargs hp)
    refine .inr (.inr ⟨bs, hf, .inr (.inl ⟨.inl rfl, ?_⟩)⟩)
    obtain ⟨h', e, hbad⟩ := C57_p2_contribute C hH1 d.par E.batch d.contribute2 _ (map_panics h)
    rcases afterCreate_cases (Cli.arg args 0) (Cli.arg args 1) bs with h'' | h''
    · rw [h''] at e
      exact ⟨h', e, hbad⟩
    · rw [h''] at e
      exact (header_empty hH1 _ e).elim
  · -- p2v
    have h := hargs hp
    change Panics (Cli.p2Verify C E d.par d.verify2 (Cli.arg args 0) (Cli.arg args 1) fs) at h
    unfold Cli.p2Verify Cli.openFile at h
    change Panics ((match fs (args.getD 0 "") with | some bs => _ | none => _) >>= _) at h
    cases hf : fs (args.getD 0 "") with
    | none => rw [hf] at h; exact (not_panics_err _ h).elim
    | some bs =>
      rw [hf] at h
      change Panics ((match fs (Cli.arg args 1) with | some bs => _ | none => _) >>= _) at h
      cases hf' : fs (Cli.arg args 1) with
      | none => rw [hf'] at h; exact (not_panics_err _ h).elim
      | some org =>
        rw [hf'] at h
        obtain ⟨h1, h2, e1, e2, b1, b2⟩ := C57_p2_verify_counts C hH1 d.par E.batch d.verify2 _ _ h
        exact .inr (.inr ⟨bs, rfl, .inr (.inl ⟨.inr rfl, h1, e1, b1⟩)⟩)
  · -- key
    rcases bothSteps_panics (hargs hp) with h | ⟨fs', -, h⟩
    · obtain ⟨a, b, hf, h⟩ := withFiles_panics h
      refine .inr (.inr ⟨a, hf, .inr (.inr ⟨.inl rfl, ?_⟩)⟩)
      by_contra hc
      exact (C57_proving_keys C E.keys hH2 a b fun h e hbad => hc ⟨h, e, hbad⟩).1 h
    · obtain ⟨a, b, -, h⟩ := withFiles_panics h
      exact ((C57_verifying_keys C E.keys hH2 hE a b).1 h).elim
  · -- keys
    rcases bothSteps_panics (hargs hp) with h | ⟨fs', -, h⟩
    · obtain ⟨a, b, hf, h⟩ := withFiles_panics h
      refine .inr (.inr ⟨a, hf, .inr (.inr ⟨.inr rfl, ?_⟩)⟩)
      by_contra hc
      exact (C57_proving_keys C E.keys hH2 a b fun h e hbad => hc ⟨h, e, hbad⟩).2 h
    · obtain ⟨a, b, -, h⟩ := withFiles_panics h
      exact ((C57_verifying_keys C E.keys hH2 hE a b).2 h).elim
  · -- sol
    refine .inl ⟨rfl, ?_⟩
    replace hp := hargs hp
    split at hp
    · assumption
    · exact (not_panics_ok _ hp).elim
  · exact (not_panics_err _ hp).elim

/-- **C57** is false: `p1n` accepts the power 0 (and, by wrapping, powers of at least 63; C19), and the first contribution to the file
it has written crashes. -/
theorem C57_p1n_then_p1c {C : Curve F G1 G2 GT} (hC : C.Lawful) (E : Cli.Env F G1) (hb : 2 ≤ E.batch) (d d' : Cli.Draws F)
    (s f g : String) (i : Int) (hs : Denotes s i) (h1 : -(2 ^ 63) ≤ i) (h2 : i ≤ 26) (hbad : i % 256 = 0 ∨ 63 ≤ i % 256) (hfg : f ≠ g)
    (fs : Cli.FS) : ∃ fs', Cli.exec C E d "p1n" [s, f] fs = (.ok (), fs') ∧ Panics (Cli.exec C E d' "p1c" [f, g] fs').1 := by
  refine ⟨_, p1n_run s f i hs h1 h2 fs, ?_⟩
  have hi := toByte_toNat i
  have hp : Panics (Phase1.contribute C d'.par E.batch d'.contribute1 (Phase1.initializeFile C (Cli.toByte i))).1 := by
    rw [C57_p1_contribute C d'.par E.batch hb]
    obtain ⟨a, b, hab⟩ : ∃ a b, putUint16 (0 : UInt16) = [a, b] := ⟨_, _, rfl⟩
    obtain ⟨rest, hrest⟩ : ∃ rest, Phase1.initializeFile C (Cli.toByte i) = Cli.toByte i :: a :: rest := by
      unfold Phase1.initializeFile Phase1.Header.writeTo
      simp only [hab, List.append_assoc]
      exact ⟨_, rfl⟩
    refine ⟨Cli.toByte i, a, rest, hrest, ?_⟩
    rcases hbad with h0 | h0
    · refine .inr ?_
      have hz : Cli.toByte i = 0 := UInt8.toNat_inj.mp (by simp; omega)
      refine ⟨hz, C.g1, ?_⟩
      rw [hz]
      have hN : Phase1.goPow2 0 = 1 := by decide
      have hw : (Phase1.wrap64 (2 * 1 - 1)).toNat = 1 := by decide
      unfold Phase1.initializeFile Phase1.Header.writeTo
      simp only [hab, hN, hw, Int.toNat_one, List.replicate_one, Codec.encodeN, List.flatMap_cons, List.flatMap_nil, List.append_nil, List.append_assoc,
        List.cons_append, List.nil_append, List.drop_succ_cons, List.drop_zero, Rd.buffered]
      rw [Codec.decode_bytes hC.codec1]
    · exact .inl (by omega)
  show Panics (Cli.p1c C E.batch d'.par d'.contribute1 [f, g] _).1
  unfold Cli.p1c
  rw [if_neg (by simp)]
  simp only [Cli.arg, List.getD_cons_zero, Cli.openFile, Cli.FS.set, if_true, Cli.contentsAfterCreate,
    show [f, g].getD 1 "" = g from rfl, if_neg hfg]
  obtain ⟨m, hm⟩ := hp
  exact ⟨m, by rw [hm]; rfl⟩

/-- **C57** is false: `sol` crashes if there is no verifying key to read. -/
theorem C57_sol_missing (C : Curve F G1 G2 GT) (E : Cli.Env F G1) (d : Cli.Draws F) (session : String) (fs : Cli.FS)
    (h : fs (session ++ ".vk.save") = none) : Panics (Cli.exec C E d "sol" [session] fs).1 := by
  show Panics (Cli.sol E [session] fs).1
  unfold Cli.sol
  rw [if_neg (by simp)]
  simp only [Cli.arg, List.getD_cons_zero, h, Option.bind_none]
  exact panics_panic _

end

/-! ### concrete cases -/

/-- two deltas behind a header with domain 0 and one contribution -/
def Toy.badCounts : Bytes := Gob.headerCodec.enc ⟨1, 0, 1, 0, 0, 0, 1⟩ ++ (Toy.curve.c1.bytes 1 ++ Toy.curve.c2.bytes 1)

theorem Toy.badCounts_crashes : Panics (Phase2.verify Toy.curve Gob.headerCodec Toy.par Phase1.batchSize Toy.p2vr Toy.badCounts Toy.badCounts) := by
  have h : (match Phase2.verify Toy.curve Gob.headerCodec Toy.par Phase1.batchSize Toy.p2vr Toy.badCounts Toy.badCounts with
    | .error (.panic _) => true | _ => false) = true := by decide +kernel
  split at h
  · rename_i m e; exact ⟨m, e⟩
  · cases h

-- a transformed or contributed file with power 63, and one with power 62 that is rejected without a crash
example : Panics (Phase1.verify Toy.curve Toy.par .strict Phase1.batchSize Toy.vr [63, 0] none) :=
  (C57_p1_verify ..).mpr ⟨63, 0, [], rfl, by decide⟩
example : ¬ Panics (Phase1.verify Toy.curve Toy.par .strict Phase1.batchSize Toy.vr [62, 0, 0, 1, 2, 3] none) := by
  rw [C57_p1_verify]
  rintro ⟨p, c, rest, ⟨⟩, h⟩
  exact absurd h (by decide)
example : Panics (Phase1.contribute Toy.curve Toy.par Phase1.batchSize Toy.rnd [200, 0]).1 :=
  (C57_p1_contribute _ _ _ (by decide) _ _).mpr ⟨200, 0, [], rfl, .inl (by decide)⟩
example : ¬ Panics (Phase1.contribute Toy.curve Toy.par Phase1.batchSize Toy.rnd [5, 0, 0, 1]).1 := by
  rw [C57_p1_contribute _ _ _ (by decide)]
  rintro ⟨p, c, rest, ⟨⟩, h⟩
  exact absurd h (by decide)

-- commands: `p1n 0 f`, `p1c f g`; and with a wrapped power
example := C57_p1n_then_p1c Toy.lawful Toy.cliEnv (by decide) Toy.draws Toy.draws "0" "f" "g" 0 (Toy.denotes rfl) (by decide) (by decide)
  (by decide) (by decide) Toy.aFile
example := C57_p1n_then_p1c Toy.lawful Toy.cliEnv (by decide) Toy.draws Toy.draws "-193" "f" "g" (-193) (Toy.denotes rfl) (by decide)
  (by decide) (by decide) (by decide) Toy.aFile
example := C57_sol_missing Toy.curve Toy.cliEnv Toy.draws "session" Toy.aFile rfl

-- phase 2: a header with domain 0, and a submitted file of arbitrary bytes
example := C57_p2_contribute_crashes Toy.lawful Gob.lawful Toy.par Phase1.batchSize Toy.p2rnd ⟨1, 0, 1, 0, 0, 0, 0⟩ (by constructor <;> simp)
  (by decide) (by decide) 1 1 []
example : ∃ h : Header, (Gob.headerCodec.dec.run (Rd.buffered 4096
    (Gob.headerCodec.enc ⟨1, 0, 1, 0, 0, 0, 0⟩ ++ (Toy.curve.c1.bytes 1 ++ (Toy.curve.c2.bytes 1 ++ []))))).1 = .ok h ∧ h.BadCounts :=
  C57_p2_contribute Toy.curve Gob.lawful Toy.par Phase1.batchSize Toy.p2rnd _ (C57_p2_contribute_crashes Toy.lawful Gob.lawful
    Toy.par Phase1.batchSize Toy.p2rnd ⟨1, 0, 1, 0, 0, 0, 0⟩ (by constructor <;> simp) (by decide) (by decide) 1 1 [])
example := C57_p2_verify_counts Toy.curve Gob.lawful Toy.par Phase1.batchSize Toy.p2vr Toy.badCounts Toy.badCounts Toy.badCounts_crashes
example := C57_p2_verify Toy.lawful Gob.lawful Toy.par Phase1.batchSize Toy.p2vr Toy.p2 Toy.p2_wf [] [1, 2, 3]

-- keys from the well-formed phase 2 file, with an evaluation file of arbitrary bytes
example : ¬ Panics (Keys.extractPK Toy.curve Toy.keyEnv (Toy.p2.encode Toy.curve Gob.headerCodec ++ []) [1, 2, 3]).1 :=
  (C57_proving_keys_wellformed Toy.lawful Toy.keyEnv Gob.lawful Toy.p2 Toy.p2_wf (by decide) [] [1, 2, 3]).1
example := C57_p2_contribute_wellformed Toy.lawful Gob.lawful Toy.par Phase1.batchSize Toy.p2rnd Toy.p2 Toy.p2_wf [7]
example := C57_verifying_keys Toy.curve Toy.keyEnv Gob.lawful (fun l => by show ¬ Panics (.ok _); exact not_panics_ok _) [1] [2]

-- initialisation from arbitrary bytes
example := C57_initialize_partial Toy.lawful Toy.env Toy.par Toy.circuit Toy.circuit_valid Toy.circuit_nc.publicCommitment 2 Toy.circuit_domain
  (by decide) dom4_lawful [1, 2, 3] [] []
example := C57_parted_partial Toy.lawful Toy.env Toy.par Toy.circuit Toy.circuit_valid Toy.circuit_nc.publicCommitment 2 Toy.circuit_domain
  (by decide) dom4_lawful Toy.parted rfl rfl rfl rfl rfl Toy.parted_get 3 rfl [1, 2, 3] [] []
-- every crash of the toy tool has one of the listed causes; here the power in the file
example : ∃ bs, Toy.aFile.set "f" [99, 0] "f" = some bs ∧ BadPower bs := by
  have h := C57_exec_partial Toy.lawful Toy.cliEnv (by decide) Gob.lawful Gob.lawful (fun l => by show ¬ Panics (.ok _); exact not_panics_ok _)
    (by
      intro bs r k hr hk _
      have hl : r.constraints.length = 3 := by
        simp only [Toy.cliEnv] at hr
        split at hr
        · cases hr; rfl
        · split at hr
          · cases hr; rfl
          · cases hr
      rw [hl] at hk
      have h2 : k = 2 := by
        have h1 := hk.least 2 (by decide) (by decide)
        have h3 := hk.fits
        have h4 := hk.two
        interval_cases k <;> simp_all
      subst h2
      exact dom4_lawful)
    Toy.draws "p1v" ["f"] (Toy.aFile.set "f" [99, 0]) (by decide)
    ((C57_p1_verify Toy.curve Toy.par .strict Phase1.batchSize Toy.draws.verify1 [99, 0] none).mpr ⟨99, 0, [], rfl, by decide⟩)
  rcases h with ⟨h, -⟩ | ⟨h, -⟩ | ⟨bs, h, ⟨-, hb⟩ | ⟨h', -⟩ | ⟨h', -⟩⟩
  · exact absurd h (by decide)
  · exact absurd h (by decide)
  · exact ⟨bs, h, hb⟩
  · exact absurd h' (by decide)
  · exact absurd h' (by decide)
example : Toy.circuit.Supported := ⟨Toy.circuit_valid, Toy.circuit_nc.publicCommitment, by decide⟩

end ZkSetup
