import Verif.Proofs.DiskInit
/-
C55 for `p2n` and `p2np`: what is reported and left on a disk that fills up during phase 2 initialisation.
-/
set_option linter.unusedSectionVars false

namespace ZkSetup

open Phase2 Disk
open Phase1 (makeLen)
open ZkSetup.Keys (checkedCall sliceCalls allBytes_encodeSlice)

/-- What must fit for success to be reported: the phase 2 file consists of a header of `hl` bytes, `[δ]` and `n - 1` points of Z, and
`w` points of PKK; `srs.lag` of four sections with `n` points; `evals` of α, β and the points of `wires` wires, and a second part of
`tail` bytes. The header, `srs.lag` and the first part of `evals` must fit. Of each other section, all must fit but what is left in
the buffer of 4096 bytes at the end. -/
structure InitFits (c2 cl ce hl n w wires tail : Nat) : Prop where
  header : hl ≤ c2
  deltaZ : sectionPasses c2 hl (64 + 32 * n)
  pkk : sectionPasses c2 (hl + 64 + 32 * n) (32 * w)
  lag : 16 + 160 * n ≤ cl
  evals : 140 + 128 * wires ≤ ce
  tail : sectionPasses ce (140 + 128 * wires) tail

section
variable {F G1 G2 GT : Type} [Field F] [AddCommGroup G1] [Module F G1] [AddCommGroup G2]
  [Module F G2] [AddCommGroup GT] [Module F GT]
variable {C : Curve F G1 G2 GT} (hC : C.Lawful)
include hC

/-- the whole of `Initialize`, with conditions `Kf`, `Kb` for the second part of `evals` -/
theorem init_steps (E : InitEnv F) (cuts : List Nat) (par : Par) (r : R1CS F) (file : Bytes) (k : Nat) (hk1 : k ≤ 27)
    (hk : nextPowerofTwo r.nbConstraints = .ok ((2 ^ k : Nat) : Int)) (hd : (E.dom (2 ^ k)).Lawful k) (c2 cl ce : Nat) (h : Header)
    (hh : h = circuitHeader r r.nbConstraints ((2 ^ k : Nat) : Int)) (hl : Nat) (hhl : hl = (E.header.enc h).length) (Kf Kb : Prop)
    (hK : ∀ vkk ckk : List G1, h.pub = (vkk.length : Int) → h.privateCommitted = (ckk.length : Int) →
      Passes ce (·.length = 140 + 128 * h.wires.toNat)
        (tailPart (vkk.map C.c1.bytes) (ckk.map C.c1.bytes) cuts (E.cmtBytes r.commitment)) Kf Kb) :
    Steps (Beside c2 cl ce (some (·.length = 0)) none none) (initBody C E par (some r) file)
      (do
        let (r, header1, header2) ← processHeaderOnDisk E.header (some r) file
        processLagrangeOnDisk C par E.dom header1 header2 file
        processEvaluationsOnDisk C r header1 header2 file
        processDeltaAndZOnDisk C header2 file
        processPVCKKOnDisk C E.cmtBytes cuts r header2)
      (hl ≤ c2 ∧ 16 + 160 * 2 ^ k ≤ cl ∧ 140 + 128 * h.wires.toNat ≤ ce ∧ sectionPasses c2 hl (64 + 32 * 2 ^ k) ∧
        sectionPasses c2 (hl + 64 + 32 * 2 ^ k) (32 * h.witness.toNat) ∧ Kf)
      (hl ≤ c2 ∧ 16 + 160 * 2 ^ k ≤ cl ∧ 140 + 128 * h.wires.toNat ≤ ce ∧ sectionPasses c2 hl (64 + 32 * 2 ^ k) ∧
        sectionPasses c2 (hl + 64 + 32 * 2 ^ k) (32 * h.witness.toNat) ∧ Kb)
      fun _ => Beside c2 cl ce (some (·.length = hl + 64 + 32 * 2 ^ k + 32 * h.witness.toNat))
        (some (fun b => LagOf C (2 ^ k) b ∧ 16 + 160 * 2 ^ k ≤ cl))
        (some (·.length = 140 + 128 * h.wires.toNat + tailLength h (E.cmtBytes r.commitment))) := by
  have hdom : h.domain = ((2 ^ k : Nat) : Int) := by
    rw [hh]; exact (circuitHeader_rest r (r.nbConstraints : Int) ((2 ^ k : Nat) : Int)).2.1
  have hn : 2 ^ k < 2 ^ 32 := Nat.pow_lt_pow_right (by omega) (by omega)
  have hpos : 0 < 2 ^ k := Nat.pow_pos (by omega)
  unfold initBody
  have s0 := processHeader_steps (c2 := c2) (cl := cl) (ce := ce) (QL := none) (QE := none) E.header r file _ hk
  rw [← hh, ← hhl] at s0
  refine Steps.mono (.bind s0 fun a => .assume (P := a.1 = r ∧ a.2.2 = h) (Kf := 16 + 160 * 2 ^ k ≤ cl ∧
    140 + 128 * h.wires.toNat ≤ ce ∧ sectionPasses c2 hl (64 + 32 * 2 ^ k) ∧
        sectionPasses c2 (hl + 64 + 32 * 2 ^ k) (32 * h.witness.toNat) ∧ Kf)
    (Kb := 16 + 160 * 2 ^ k ≤ cl ∧ 140 + 128 * h.wires.toNat ≤ ce ∧ sectionPasses c2 hl (64 + 32 * 2 ^ k) ∧
        sectionPasses c2 (hl + 64 + 32 * 2 ^ k) (32 * h.witness.toNat) ∧ Kb) ?_) id id fun _ _ _ _ => id
  obtain ⟨r', h1, h'⟩ := a
  rintro ⟨rfl, rfl⟩
  simp only
  have s1 := fun Q2 QL QE => processLagrange_steps (c2 := c2) (cl := cl) (ce := ce) (Q2 := Q2) (QL := QL) (QE := QE) hC par E.dom h1 h'
    file k (by omega) hdom hd
  have s2 := fun Q2 QE => evals_steps (c2 := c2) (cl := cl) (ce := ce) (Q2 := Q2) (QE := QE) hC
    (fun side srs b => accumulateAll r'.coefficients srs side 0 r'.constraints b)
    (fun side srs b => accumulateAll r'.coefficients srs side 0 r'.constraints b)
    (fun _ _ _ _ => accumulateAll_length _ _ _ _ _ _ _) (fun _ _ _ _ => accumulateAll_length _ _ _ _ _ _ _) h1 h' file (2 ^ k) hn hdom
  have s3 := fun QL QE => deltaAndZ_steps (c2 := c2) (cl := cl) (ce := ce) (QL := QL) (QE := QE) hC h' file hl (2 ^ k) hpos hdom
  have s4 := pvckk_steps (c2 := c2) (cl := cl) (ce := ce) hC E.cmtBytes cuts r'.commitment
    (fun side srs b => accumulateAll r'.coefficients srs side 0 r'.constraints b) h' (hl + 64 + 32 * 2 ^ k) (2 ^ k)
    (140 + 128 * h'.wires.toNat) Kf Kb hK
  refine Steps.mono (.bind (s1 _ _ _) fun _ => .bind (s2 _ _) fun _ => .bind (s3 _ _) fun _ => s4) ?_ ?_ fun _ _ _ _ => id
  · rintro ⟨-, ⟨a, b⟩, c, d, e⟩
    exact ⟨a, b, c, d, e⟩
  · rintro ⟨a, b, c, d, e⟩
    exact ⟨a, ⟨a, b⟩, c, a, d, e⟩

/-- the whole of `InitializeFromPartedR1CS` -/
theorem initParted_steps (E : InitEnv F) (cuts : List Nat) (par : Par) (cs : PartedR1CS F) (nbCons : Int) (file : Bytes) (k : Nat)
    (hk1 : k ≤ 27) (hk : nextPowerofTwo nbCons = .ok ((2 ^ k : Nat) : Int)) (hd : (E.dom (2 ^ k)).Lawful k) (c2 cl ce : Nat) (h : Header)
    (hh : h = circuitHeader cs.base nbCons ((2 ^ k : Nat) : Int)) (hl : Nat) (hhl : hl = (E.header.enc h).length) (Kf Kb : Prop)
    (hK : ∀ vkk ckk : List G1, h.pub = (vkk.length : Int) → h.privateCommitted = (ckk.length : Int) →
      Passes ce (·.length = 140 + 128 * h.wires.toNat)
        (tailPart (vkk.map C.c1.bytes) (ckk.map C.c1.bytes) cuts (E.cmtBytes cs.base.commitment)) Kf Kb) :
    Steps (Beside c2 cl ce (some (·.length = 0)) none none)
      (do
        let (header1, header2) ← processHeaderParted E.header cs nbCons file
        processLagrange C par E.dom header1 header2 file
        processEvaluationsParted C cs nbCons header1 header2 file
        processDeltaAndZ C header2 file
        processPVCKKParted C E.cmtBytes cs nbCons header2)
      (do
        let (header1, header2) ← processHeaderPartedOnDisk E.header cs nbCons file
        processLagrangeOnDisk C par E.dom header1 header2 file
        processEvaluationsPartedOnDisk C cs nbCons header1 header2 file
        processDeltaAndZOnDisk C header2 file
        processPVCKKPartedOnDisk C E.cmtBytes cuts cs nbCons header2)
      (hl ≤ c2 ∧ 16 + 160 * 2 ^ k ≤ cl ∧ 140 + 128 * h.wires.toNat ≤ ce ∧ sectionPasses c2 hl (64 + 32 * 2 ^ k) ∧
        sectionPasses c2 (hl + 64 + 32 * 2 ^ k) (32 * h.witness.toNat) ∧ Kf)
      (hl ≤ c2 ∧ 16 + 160 * 2 ^ k ≤ cl ∧ 140 + 128 * h.wires.toNat ≤ ce ∧ sectionPasses c2 hl (64 + 32 * 2 ^ k) ∧
        sectionPasses c2 (hl + 64 + 32 * 2 ^ k) (32 * h.witness.toNat) ∧ Kb)
      fun _ => Beside c2 cl ce (some (·.length = hl + 64 + 32 * 2 ^ k + 32 * h.witness.toNat))
        (some (fun b => LagOf C (2 ^ k) b ∧ 16 + 160 * 2 ^ k ≤ cl))
        (some (·.length = 140 + 128 * h.wires.toNat + tailLength h (E.cmtBytes cs.base.commitment))) := by
  have hdom : h.domain = ((2 ^ k : Nat) : Int) := by
    rw [hh]; exact (circuitHeader_rest cs.base nbCons ((2 ^ k : Nat) : Int)).2.1
  have hn : 2 ^ k < 2 ^ 32 := Nat.pow_lt_pow_right (by omega) (by omega)
  have hpos : 0 < 2 ^ k := Nat.pow_pos (by omega)
  have s0 := processHeaderParted_steps (c2 := c2) (cl := cl) (ce := ce) (QL := none) (QE := none) E.header cs nbCons file _ hk
  rw [← hh, ← hhl] at s0
  refine Steps.mono (.bind s0 fun a => .assume (P := a.2 = h) (Kf := 16 + 160 * 2 ^ k ≤ cl ∧
    140 + 128 * h.wires.toNat ≤ ce ∧ sectionPasses c2 hl (64 + 32 * 2 ^ k) ∧
        sectionPasses c2 (hl + 64 + 32 * 2 ^ k) (32 * h.witness.toNat) ∧ Kf)
    (Kb := 16 + 160 * 2 ^ k ≤ cl ∧ 140 + 128 * h.wires.toNat ≤ ce ∧ sectionPasses c2 hl (64 + 32 * 2 ^ k) ∧
        sectionPasses c2 (hl + 64 + 32 * 2 ^ k) (32 * h.witness.toNat) ∧ Kb) ?_) id id fun _ _ _ _ => id
  obtain ⟨h1, h'⟩ := a
  rintro rfl
  simp only
  have s1 := fun Q2 QL QE => processLagrange_steps (c2 := c2) (cl := cl) (ce := ce) (Q2 := Q2) (QL := QL) (QE := QE) hC par E.dom h1 h'
    file k (by omega) hdom hd
  have s2 := fun Q2 QE => evals_steps (c2 := c2) (cl := cl) (ce := ce) (Q2 := Q2) (QE := QE) hC
    (fun side srs b => accumulateParted cs.base.coefficients srs side cs.get nbCons.toNat 0 b)
    (fun side srs b => accumulateParted cs.base.coefficients srs side cs.get nbCons.toNat 0 b)
    (fun _ _ _ _ => accumulateParted_length _ _ _ _ _ _ _ _) (fun _ _ _ _ => accumulateParted_length _ _ _ _ _ _ _ _) h1 h' file
    (2 ^ k) hn hdom
  have s3 := fun QL QE => deltaAndZ_steps (c2 := c2) (cl := cl) (ce := ce) (QL := QL) (QE := QE) hC h' file hl (2 ^ k) hpos hdom
  have s4 := pvckk_steps (c2 := c2) (cl := cl) (ce := ce) hC E.cmtBytes cuts cs.base.commitment
    (fun side srs b => accumulateParted cs.base.coefficients srs side cs.get nbCons.toNat 0 b) h' (hl + 64 + 32 * 2 ^ k) (2 ^ k)
    (140 + 128 * h'.wires.toNat) Kf Kb hK
  refine Steps.mono (.bind (s1 _ _ _) fun _ => .bind (s2 _ _) fun _ => .bind (s3 _ _) fun _ => s4) ?_ ?_ fun _ _ _ _ => id
  · rintro ⟨-, ⟨a, b⟩, c, d, e⟩
    exact ⟨a, b, c, d, e⟩
  · rintro ⟨a, b, c, d, e⟩
    exact ⟨a, ⟨a, b⟩, c, a, d, e⟩


omit hC in
/-- the files at the start -/
theorem start_beside (c2 cl ce : Nat) (oldLag oldEvals : Bytes) :
    Beside c2 cl ce (some (·.length = 0)) none none ⟨[], oldLag, oldEvals⟩ ⟨⟨c2, []⟩, ⟨cl, oldLag⟩, ⟨ce, oldEvals⟩⟩ :=
  ⟨⟨by simp, rfl⟩, rfl, rfl⟩

/-- the second part of `evals` with small messages -/
theorem tail_small (cuts : List Nat) (info : Bytes) (hs : ∀ c ∈ pieces true (cuts ++ [0]) info, c.bytes.length ≤ 4096) (h : Header)
    (ce e : Nat) (vkk ckk : List G1) (hp : h.pub = (vkk.length : Int)) (hc : h.privateCommitted = (ckk.length : Int)) :
    Passes ce (·.length = e) (tailPart (vkk.map C.c1.bytes) (ckk.map C.c1.bytes) cuts info) (sectionPasses ce e (tailLength h info))
      (sectionPasses ce e (tailLength h info)) := by
  have k1 : ∀ p, (C.c1.bytes p).length = 32 := fun p => (hC.codec1.bytes_length p).trans hC.size1
  have hsl : ∀ xs : List G1, ∀ c ∈ sliceCalls (xs.map C.c1.bytes), c.checked = true ∧ c.bytes.length ≤ 4096 := by
    intro xs c hc
    simp only [sliceCalls, List.mem_cons, List.map_map, List.mem_map, Function.comp] at hc
    rcases hc with rfl | ⟨x, -, rfl⟩
    · exact ⟨rfl, by simp [checkedCall]⟩
    · exact ⟨rfl, by simp only [checkedCall, k1]; omega⟩
  have := passes_buffered ce e (sliceCalls (vkk.map C.c1.bytes) ++ sliceCalls (ckk.map C.c1.bytes) ++ pieces true (cuts ++ [0]) info)
    (by
      intro c hc
      rcases List.mem_append.1 hc with hc | hc
      · rcases List.mem_append.1 hc with hc | hc
        · exact hsl _ c hc
        · exact hsl _ c hc
      · exact ⟨pieces_checked _ _ _ c hc, hs c hc⟩)
  have hl : (allBytes (sliceCalls (vkk.map C.c1.bytes) ++ sliceCalls (ckk.map C.c1.bytes) ++ pieces true (cuts ++ [0]) info)).length
      = tailLength h info := by
    have := congrArg List.length (tailPart_all C vkk ckk cuts info)
    unfold tailPart Part.all at this
    rw [this, List.length_append, List.length_append, Codec.encodeSlice_length hC.codec1, Codec.encodeSlice_length hC.codec1,
      hC.size1, tailLength, hp, hc, Int.toNat_natCast, Int.toNat_natCast]
    omega
  rwa [hl] at this

/-- the second part of `evals` in general -/
theorem tail_any (cuts : List Nat) (info : Bytes) (h : Header) (ce e : Nat) (vkk ckk : List G1)
    (hp : h.pub = (vkk.length : Int)) (hc : h.privateCommitted = (ckk.length : Int)) :
    Passes ce (·.length = e) (tailPart (vkk.map C.c1.bytes) (ckk.map C.c1.bytes) cuts info) (min ce e + tailLength h info ≤ ce + 4096)
      (e + tailLength h info ≤ ce ∨ tailLength h info ≤ 4096) := by
  have := passes_checked ce e (sliceCalls (vkk.map C.c1.bytes) ++ sliceCalls (ckk.map C.c1.bytes) ++ pieces true (cuts ++ [0]) info)
    (by
      intro c hc
      rcases List.mem_append.1 hc with hc | hc
      · rcases List.mem_append.1 hc with hc | hc
        · simp only [sliceCalls, List.mem_cons, List.map_map, List.mem_map, Function.comp] at hc
          rcases hc with rfl | ⟨x, -, rfl⟩ <;> rfl
        · simp only [sliceCalls, List.mem_cons, List.map_map, List.mem_map, Function.comp] at hc
          rcases hc with rfl | ⟨x, -, rfl⟩ <;> rfl
      · exact pieces_checked _ _ _ c hc)
  have hl : (allBytes (sliceCalls (vkk.map C.c1.bytes) ++ sliceCalls (ckk.map C.c1.bytes) ++ pieces true (cuts ++ [0]) info)).length
      = tailLength h info := by
    have := congrArg List.length (tailPart_all C vkk ckk cuts info)
    unfold tailPart Part.all at this
    rw [this, List.length_append, List.length_append, Codec.encodeSlice_length hC.codec1, Codec.encodeSlice_length hC.codec1,
      hC.size1, tailLength, hp, hc, Int.toNat_natCast, Int.toNat_natCast]
    omega
  rwa [hl] at this

/-- **C55**, `p2n`: exactly when `Initialize` reports success on a disk with room for `c2`, `cl` and `ce` bytes of the phase 2 file,
`srs.lag` and `evals`, and what the files hold then. (The messages of the commitment info are at most 4096 bytes long here; with a
commitment to few wires they are.) -/
theorem C55_p2n_exact (E : InitEnv F) (cuts : List Nat) (par : Par) (r : R1CS F) (phase1File oldLag oldEvals : Bytes) (k : Nat)
    (hk : IsDomain r.nbConstraints k) (hk27 : k ≤ 27) (hdom : (E.dom (2 ^ k)).Lawful k) (h : Header)
    (hh : h = circuitHeader r r.nbConstraints ((2 ^ k : Nat) : Int))
    (hs : ∀ c ∈ pieces true (cuts ++ [0]) (E.cmtBytes r.commitment), c.bytes.length ≤ 4096) (c2 cl ce : Nat) :
    ((initOnDisk C E cuts par c2 cl ce (some r) phase1File oldLag oldEvals).1 = .ok () ↔
      (initializeFiles C E par (some r) phase1File oldLag oldEvals).1 = .ok () ∧
      InitFits c2 cl ce (E.header.enc h).length (2 ^ k) h.witness.toNat h.wires.toNat (tailLength h (E.cmtBytes r.commitment))) ∧
    ∀ d, initOnDisk C E cuts par c2 cl ce (some r) phase1File oldLag oldEvals = (.ok (), d) →
      ∃ s, initializeFiles C E par (some r) phase1File oldLag oldEvals = (.ok (), s) ∧ d.ph2.data = s.ph2.take c2 ∧
        d.lag.data = s.lag ∧ d.evals.data = s.evals.take ce := by
  have st := init_steps hC E cuts par r phase1File k hk27 (nextPowerofTwo_eq hk hk27) hdom c2 cl ce h hh _ rfl _ _
    (tail_small hC cuts _ hs h ce _)
  have b0 := start_beside c2 cl ce oldLag oldEvals
  refine ⟨⟨fun hr => ?_, fun hr => ?_⟩, fun d hr => ?_⟩
  · obtain ⟨d, hd⟩ := run_of_fst hr
    obtain ⟨⟨a1, a2, a3, a4, a5, a6⟩, s, e, -⟩ := st.fwd _ _ b0 _ _ hd
    exact ⟨by unfold initializeFiles; rw [e], a1, a4, a5, a2, a3, a6⟩
  · obtain ⟨h1, h2⟩ := hr
    obtain ⟨s, e⟩ := run_of_fst h1
    obtain ⟨d, e', -⟩ := st.bwd _ _ b0 _ _ e ⟨h2.header, h2.lag, h2.evals, h2.deltaZ, h2.pkk, h2.tail⟩
    exact congrArg Prod.fst e'
  · obtain ⟨-, s, e, hb⟩ := st.fwd _ _ b0 _ _ hr
    refine ⟨s, e, by rw [hb.ph2.1], ?_, by rw [hb.evals.1]⟩
    obtain ⟨e1, e2, e3⟩ := hb.lag
    rw [e1]
    exact List.take_of_length_le (by rw [e2.length hC]; exact e3)

/-- **C55**, `p2np`: the same for a parted circuit. -/
theorem C55_p2np_exact (E : InitEnv F) (cuts : List Nat) (par : Par) (cs : PartedR1CS F) (nbCons : Int)
    (phase1File oldLag oldEvals : Bytes) (k : Nat) (hk : IsDomain nbCons.toNat k) (hk27 : k ≤ 27) (hdom : (E.dom (2 ^ k)).Lawful k)
    (h : Header) (hh : h = circuitHeader cs.base nbCons ((2 ^ k : Nat) : Int))
    (hs : ∀ c ∈ pieces true (cuts ++ [0]) (E.cmtBytes cs.base.commitment), c.bytes.length ≤ 4096) (c2 cl ce : Nat) :
    ((initPartedOnDisk C E cuts par c2 cl ce cs nbCons phase1File oldLag oldEvals).1 = .ok () ↔
      (initializeParted C E par cs nbCons phase1File oldLag oldEvals).1 = .ok () ∧
      InitFits c2 cl ce (E.header.enc h).length (2 ^ k) h.witness.toNat h.wires.toNat (tailLength h (E.cmtBytes cs.base.commitment))) ∧
    ∀ d, initPartedOnDisk C E cuts par c2 cl ce cs nbCons phase1File oldLag oldEvals = (.ok (), d) →
      ∃ s, initializeParted C E par cs nbCons phase1File oldLag oldEvals = (.ok (), s) ∧ d.ph2.data = s.ph2.take c2 ∧
        d.lag.data = s.lag ∧ d.evals.data = s.evals.take ce := by
  have st := initParted_steps hC E cuts par cs nbCons phase1File k hk27 (nextPowerofTwo_int nbCons hk hk27) hdom c2 cl ce h hh _ rfl _ _
    (tail_small hC cuts _ hs h ce _)
  have b0 := start_beside c2 cl ce oldLag oldEvals
  refine ⟨⟨fun hr => ?_, fun hr => ?_⟩, fun d hr => ?_⟩
  · obtain ⟨d, hd⟩ := run_of_fst hr
    obtain ⟨⟨a1, a2, a3, a4, a5, a6⟩, s, e, -⟩ := st.fwd _ _ b0 _ _ hd
    exact ⟨congrArg Prod.fst e, a1, a4, a5, a2, a3, a6⟩
  · obtain ⟨h1, h2⟩ := hr
    obtain ⟨s, e⟩ := run_of_fst h1
    obtain ⟨d, e', -⟩ := st.bwd _ _ b0 _ _ e ⟨h2.header, h2.lag, h2.evals, h2.deltaZ, h2.pkk, h2.tail⟩
    exact congrArg Prod.fst e'
  · obtain ⟨-, s, e, hb⟩ := st.fwd _ _ b0 _ _ hr
    refine ⟨s, e, by rw [hb.ph2.1], ?_, by rw [hb.evals.1]⟩
    obtain ⟨e1, e2, e3⟩ := hb.lag
    rw [e1]
    exact List.take_of_length_le (by rw [e2.length hC]; exact e3)

/-- What a run of `p2n` or `p2np` on a disk that may fill up has to do with the run on a disk with room: `plain` and `disk` are
result and files. -/
structure DiskRun (c2 cl ce : Nat) (plain : Except Fail Unit × InitSt) (disk : Except Fail Unit × DiskSt) : Prop where
  /-- success is only reported if initialisation succeeds; `srs.lag` is complete then, the phase 2 file lacks at most 8192 bytes
  and `evals` at most 4096 -/
  reported : disk.1 = .ok () → plain.1 = .ok () ∧ disk.2.lag.data = plain.2.lag ∧
    disk.2.ph2.data = plain.2.ph2.take c2 ∧ plain.2.ph2.length ≤ c2 + 8192 ∧
    disk.2.evals.data = plain.2.evals.take ce ∧ plain.2.evals.length ≤ ce + 4096
  /-- with enough room success is reported, and the files are complete -/
  room : plain.1 = .ok () → plain.2.ph2.length ≤ c2 → plain.2.lag.length ≤ cl → plain.2.evals.length ≤ ce →
    disk.1 = .ok () ∧ disk.2.ph2.data = plain.2.ph2 ∧ disk.2.lag.data = plain.2.lag ∧ disk.2.evals.data = plain.2.evals

omit hC in
theorem passes_room (c p l : Nat) (h : p + l ≤ c) : sectionPasses c p l := by
  have := Nat.div_mul_le_self (l - 1) 4096
  unfold sectionPasses
  omega

omit hC in
theorem passes_tail {c p l : Nat} (h : sectionPasses c p l) : min c p + l ≤ c + 4096 := by
  have := Nat.div_add_mod (l - 1) 4096
  have := Nat.mod_lt (l - 1) (show 4096 > 0 by decide)
  unfold sectionPasses at h
  omega

theorem diskRun_of_steps {body : Go InitSt Unit} {dbody : Go DiskSt Unit} {hl n w wires tail : Nat}
    (st : ∀ c2 cl ce, Steps (Beside c2 cl ce (some (·.length = 0)) none none) body dbody
      (hl ≤ c2 ∧ 16 + 160 * n ≤ cl ∧ 140 + 128 * wires ≤ ce ∧ sectionPasses c2 hl (64 + 32 * n) ∧
        sectionPasses c2 (hl + 64 + 32 * n) (32 * w) ∧ min ce (140 + 128 * wires) + tail ≤ ce + 4096)
      (hl ≤ c2 ∧ 16 + 160 * n ≤ cl ∧ 140 + 128 * wires ≤ ce ∧ sectionPasses c2 hl (64 + 32 * n) ∧
        sectionPasses c2 (hl + 64 + 32 * n) (32 * w) ∧ (140 + 128 * wires + tail ≤ ce ∨ tail ≤ 4096))
      fun _ => Beside c2 cl ce (some (·.length = hl + 64 + 32 * n + 32 * w))
        (some (fun b => LagOf C n b ∧ 16 + 160 * n ≤ cl)) (some (·.length = 140 + 128 * wires + tail)))
    (c2 cl ce : Nat) (oldLag oldEvals : Bytes) :
    (∀ s, body.run ⟨[], oldLag, oldEvals⟩ = (.ok (), s) → s.ph2.length = hl + 64 + 32 * n + 32 * w ∧ s.lag.length = 16 + 160 * n ∧
      s.evals.length = 140 + 128 * wires + tail) ∧
    DiskRun c2 cl ce (body.run ⟨[], oldLag, oldEvals⟩) (dbody.run ⟨⟨c2, []⟩, ⟨cl, oldLag⟩, ⟨ce, oldEvals⟩⟩) := by
  have hlen : ∀ s, body.run ⟨[], oldLag, oldEvals⟩ = (.ok (), s) → s.ph2.length = hl + 64 + 32 * n + 32 * w ∧
      s.lag.length = 16 + 160 * n ∧ s.evals.length = 140 + 128 * wires + tail := by
    intro s e
    obtain ⟨d, -, hb⟩ := (st (hl + 64 + 32 * n + 32 * w) (16 + 160 * n) (140 + 128 * wires + tail)).bwd _ _ (start_beside _ _ _ _ _) _ _ e
      ⟨by omega, by omega, by omega, passes_room _ _ _ (by omega), passes_room _ _ _ (by omega), .inl (by omega)⟩
    exact ⟨hb.ph2.2, hb.lag.2.1.length hC, hb.evals.2⟩
  have b0 := start_beside c2 cl ce oldLag oldEvals
  replace st := st c2 cl ce
  refine ⟨hlen, ?_, ?_⟩
  · intro hr
    obtain ⟨d, hd⟩ := run_of_fst hr
    obtain ⟨⟨a1, a2, a3, a4, a5, a6⟩, s, e, hb⟩ := st.fwd _ _ b0 _ _ hd
    obtain ⟨e1, e2, e3⟩ := hb.lag
    have p1 := passes_tail a4
    have p2 := passes_tail a5
    have l2 := hb.ph2.2
    have le := hb.evals.2
    simp only at l2 le
    rw [e, hd]
    refine ⟨rfl, ?_, by simp only; rw [hb.ph2.1], ?_, by simp only; rw [hb.evals.1], ?_⟩
    · simp only
      rw [e1]
      exact List.take_of_length_le (by rw [e2.length hC]; exact e3)
    · simp only; omega
    · simp only; omega
  · intro hr h1 h2 h3
    obtain ⟨s, e⟩ := run_of_fst hr
    rw [e] at h1 h2 h3
    simp only at h1 h2 h3
    obtain ⟨l1, l2, l3⟩ := hlen _ e
    obtain ⟨d, e', hb⟩ := st.bwd _ _ b0 _ _ e ⟨by omega, by omega, by omega, passes_room _ _ _ (by omega),
      passes_room _ _ _ (by omega), .inl (by omega)⟩
    rw [e, e']
    refine ⟨rfl, ?_, ?_, ?_⟩
    · simp only; rw [hb.ph2.1]; exact List.take_of_length_le h1
    · simp only; rw [hb.lag.1]; exact List.take_of_length_le h2
    · simp only; rw [hb.evals.1]; exact List.take_of_length_le h3

/-- sizes of the files of a successful initialisation, and **C55** for `p2n` as far as it holds, if the domain is known -/
theorem init_diskRun (E : InitEnv F) (cuts : List Nat) (par : Par) (r : R1CS F) (phase1File oldLag oldEvals : Bytes) (k : Nat)
    (hk : nextPowerofTwo r.nbConstraints = .ok ((2 ^ k : Nat) : Int)) (hk27 : k ≤ 27) (hdom : (E.dom (2 ^ k)).Lawful k) (h : Header)
    (hh : h = circuitHeader r r.nbConstraints ((2 ^ k : Nat) : Int)) (c2 cl ce : Nat) :
    (∀ s, initializeFiles C E par (some r) phase1File oldLag oldEvals = (.ok (), s) →
      s.ph2.length = (E.header.enc h).length + 64 + 32 * 2 ^ k + 32 * h.witness.toNat ∧ s.lag.length = 16 + 160 * 2 ^ k ∧
      s.evals.length = 140 + 128 * h.wires.toNat + tailLength h (E.cmtBytes r.commitment)) ∧
    DiskRun c2 cl ce (initializeFiles C E par (some r) phase1File oldLag oldEvals)
      (initOnDisk C E cuts par c2 cl ce (some r) phase1File oldLag oldEvals) :=
  diskRun_of_steps hC (fun c2 cl ce => init_steps hC E cuts par r phase1File k hk27 hk hdom c2 cl ce h hh _ rfl _ _
    (tail_any hC cuts _ h ce _)) c2 cl ce oldLag oldEvals

theorem initParted_diskRun (E : InitEnv F) (cuts : List Nat) (par : Par) (cs : PartedR1CS F) (nbCons : Int)
    (phase1File oldLag oldEvals : Bytes) (k : Nat)
    (hk : nextPowerofTwo nbCons = .ok ((2 ^ k : Nat) : Int)) (hk27 : k ≤ 27) (hdom : (E.dom (2 ^ k)).Lawful k) (h : Header)
    (hh : h = circuitHeader cs.base nbCons ((2 ^ k : Nat) : Int)) (c2 cl ce : Nat) :
    (∀ s, initializeParted C E par cs nbCons phase1File oldLag oldEvals = (.ok (), s) →
      s.ph2.length = (E.header.enc h).length + 64 + 32 * 2 ^ k + 32 * h.witness.toNat ∧ s.lag.length = 16 + 160 * 2 ^ k ∧
      s.evals.length = 140 + 128 * h.wires.toNat + tailLength h (E.cmtBytes cs.base.commitment)) ∧
    DiskRun c2 cl ce (initializeParted C E par cs nbCons phase1File oldLag oldEvals)
      (initPartedOnDisk C E cuts par c2 cl ce cs nbCons phase1File oldLag oldEvals) :=
  diskRun_of_steps hC (fun c2 cl ce => initParted_steps hC E cuts par cs nbCons phase1File k hk27 hk hdom c2 cl ce h hh _ rfl _ _
    (tail_any hC cuts _ h ce _)) c2 cl ce oldLag oldEvals

omit hC in
theorem nextPowerofTwo_domain {n x : Int} (h : nextPowerofTwo n = .ok x) : ∃ k, IsDomain n.toNat k ∧ k ≤ 27 := by
  by_cases hn : n.toNat ≤ 2 ^ 27
  · obtain ⟨k, h1, h2, -⟩ := (C21_domain n.toNat).1 hn
    exact ⟨k, h2, h1⟩
  · obtain ⟨m, hm⟩ := (C21_domain n.toNat).2 (by omega)
    rw [Int.toNat_of_nonneg (by omega), h] at hm
    cases hm

/-- **C55**, `p2n`, as far as it holds: for every circuit, phase 1 file and disk, if `Initialize` reports success then initialisation
would have succeeded with room, `srs.lag` is complete, the phase 2 file lacks at most its last 8192 bytes and `evals` at most its last
4096. With enough room the files are those of `initializeFiles`. Missing: that the phase 2 file and `evals` are complete
(`C55_p2n_false`). -/
theorem C55_p2n_partial (E : InitEnv F) (cuts : List Nat) (par : Par) (r1cs : Option (R1CS F))
    (hdom : ∀ r, r1cs = some r → ∀ k ≤ 27, IsDomain r.nbConstraints k → (E.dom (2 ^ k)).Lawful k) (phase1File oldLag oldEvals : Bytes)
    (c2 cl ce : Nat) :
    DiskRun c2 cl ce (initializeFiles C E par r1cs phase1File oldLag oldEvals)
      (initOnDisk C E cuts par c2 cl ce r1cs phase1File oldLag oldEvals) := by
  rcases r1cs with _ | r
  · constructor
    · intro hr
      obtain ⟨d, hd⟩ := run_of_fst hr
      obtain ⟨a, d1, e1, -⟩ := Go.bind_eq_ok hd
      cases e1
    · intro hr
      obtain ⟨d, hd⟩ := run_of_fst hr
      obtain ⟨a, d1, e1, -⟩ := Go.bind_eq_ok hd
      cases e1
  · rcases hn : nextPowerofTwo r.nbConstraints with f | x
    · constructor
      · intro hr
        obtain ⟨d, hd⟩ := run_of_fst hr
        obtain ⟨a, d1, e1, -⟩ := Go.bind_eq_ok hd
        unfold processHeaderOnDisk at e1
        simp only at e1
        rw [hn] at e1
        cases e1
      · intro hr
        obtain ⟨d, hd⟩ := run_of_fst hr
        obtain ⟨a, d1, e1, -⟩ := Go.bind_eq_ok hd
        unfold processHeader at e1
        simp only at e1
        rw [hn] at e1
        cases e1
    · obtain ⟨k, hk, hk27⟩ := nextPowerofTwo_domain (Int.toNat_natCast r.nbConstraints ▸ hn)
      rw [Int.toNat_natCast] at hk
      exact (init_diskRun hC E cuts par r phase1File oldLag oldEvals k (nextPowerofTwo_eq hk hk27) hk27 (hdom r rfl k hk27 hk) _ rfl
        c2 cl ce).2

/-- **C55**, `p2np`, as far as it holds. -/
theorem C55_p2np_partial (E : InitEnv F) (cuts : List Nat) (par : Par) (cs : PartedR1CS F) (nbCons : Int)
    (hdom : ∀ k ≤ 27, IsDomain nbCons.toNat k → (E.dom (2 ^ k)).Lawful k) (phase1File oldLag oldEvals : Bytes) (c2 cl ce : Nat) :
    DiskRun c2 cl ce (initializeParted C E par cs nbCons phase1File oldLag oldEvals)
      (initPartedOnDisk C E cuts par c2 cl ce cs nbCons phase1File oldLag oldEvals) := by
  rcases hn : nextPowerofTwo nbCons with f | x
  · constructor
    · intro hr
      obtain ⟨d, hd⟩ := run_of_fst hr
      obtain ⟨a, d1, e1, -⟩ := Go.bind_eq_ok hd
      unfold processHeaderPartedOnDisk at e1
      rw [hn] at e1
      cases e1
    · intro hr
      obtain ⟨d, hd⟩ := run_of_fst hr
      obtain ⟨a, d1, e1, -⟩ := Go.bind_eq_ok hd
      unfold processHeaderParted at e1
      rw [hn] at e1
      cases e1
  · obtain ⟨k, hk, hk27⟩ := nextPowerofTwo_domain hn
    exact (initParted_diskRun hC E cuts par cs nbCons phase1File oldLag oldEvals k (nextPowerofTwo_int nbCons hk hk27) hk27
      (hdom k hk27 hk) _ rfl c2 cl ce).2

omit hC in
theorem passes_last (c p l : Nat) (h : p + l ≤ c + 1) : sectionPasses c p l := by
  have := Nat.div_mul_le_self (l - 1) 4096
  unfold sectionPasses
  omega

omit hC in
theorem passes_small (c p l : Nat) (h : l ≤ 4096) : sectionPasses c p l := by
  unfold sectionPasses
  have : (l - 1) / 4096 = 0 := Nat.div_eq_of_lt (by omega)
  omega

/-- **C55** is false for `p2n`: whenever initialisation succeeds with room, success is also reported on a disk that lacks

* the last byte of the phase 2 file,
* the last byte of `evals`,
* everything of the phase 2 file but the header (`hl` bytes), if the domain has at most 126 points and there are at most 128
  private wires,

with enough room for the other files. -/
theorem C55_p2n_false (E : InitEnv F) (cuts : List Nat) (par : Par) (r : R1CS F) (phase1File oldLag oldEvals : Bytes) (k : Nat)
    (hk : IsDomain r.nbConstraints k) (hk27 : k ≤ 27) (hdom : (E.dom (2 ^ k)).Lawful k) (h : Header)
    (hh : h = circuitHeader r r.nbConstraints ((2 ^ k : Nat) : Int))
    (hs : ∀ c ∈ pieces true (cuts ++ [0]) (E.cmtBytes r.commitment), c.bytes.length ≤ 4096) (s : InitSt)
    (hi : initializeFiles C E par (some r) phase1File oldLag oldEvals = (.ok (), s)) :
    (∀ c2 cl ce, c2 + 1 = s.ph2.length → s.lag.length ≤ cl → s.evals.length ≤ ce →
      ∃ d, initOnDisk C E cuts par c2 cl ce (some r) phase1File oldLag oldEvals = (.ok (), d) ∧ d.ph2.data = s.ph2.dropLast ∧
        d.ph2.data ≠ s.ph2) ∧
    (∀ c2 cl ce, s.ph2.length ≤ c2 → s.lag.length ≤ cl → ce + 1 = s.evals.length →
      ∃ d, initOnDisk C E cuts par c2 cl ce (some r) phase1File oldLag oldEvals = (.ok (), d) ∧ d.evals.data = s.evals.dropLast ∧
        d.evals.data ≠ s.evals) ∧
    (64 + 32 * 2 ^ k ≤ 4096 → h.witness ≤ 128 → ∀ cl ce, s.lag.length ≤ cl → s.evals.length ≤ ce →
      ∃ d, initOnDisk C E cuts par (E.header.enc h).length cl ce (some r) phase1File oldLag oldEvals = (.ok (), d) ∧
        d.ph2.data = s.ph2.take (E.header.enc h).length ∧ d.ph2.data.length + 64 ≤ s.ph2.length) := by
  obtain ⟨l1, l2, l3⟩ := (init_diskRun hC E cuts par r phase1File oldLag oldEvals k (nextPowerofTwo_eq hk hk27) hk27 hdom h hh 0 0 0).1 s hi
  have hpos : 0 < 2 ^ k := Nat.pow_pos (by omega)
  have key : ∀ c2 cl ce, InitFits c2 cl ce (E.header.enc h).length (2 ^ k) h.witness.toNat h.wires.toNat
      (tailLength h (E.cmtBytes r.commitment)) →
      ∃ d, initOnDisk C E cuts par c2 cl ce (some r) phase1File oldLag oldEvals = (.ok (), d) ∧ d.ph2.data = s.ph2.take c2 ∧
        d.evals.data = s.evals.take ce := by
    intro c2 cl ce hf
    obtain ⟨e1, e2⟩ := C55_p2n_exact hC E cuts par r phase1File oldLag oldEvals k hk hk27 hdom h hh hs c2 cl ce
    have h1 := e1.2 ⟨congrArg Prod.fst hi, hf⟩
    obtain ⟨s', e, f1, -, f3⟩ := e2 _ (Prod.ext h1 rfl)
    rw [hi] at e
    obtain rfl := (Prod.mk.inj e).2
    exact ⟨_, Prod.ext h1 rfl, f1, f3⟩
  have full : ∀ b : Bytes, ∀ c, c + 1 = b.length → b.take c = b.dropLast ∧ b.take c ≠ b := by
    intro b c hc
    refine ⟨by rw [List.dropLast_eq_take, ← hc]; rfl, fun hb => ?_⟩
    have := congrArg List.length hb
    rw [List.length_take] at this
    omega
  refine ⟨fun c2 cl ce h2 hl he => ?_, fun c2 cl ce h2 hl he => ?_, fun hn hw cl ce hl he => ?_⟩
  · obtain ⟨d, e1, e2, -⟩ := key c2 cl ce ⟨by omega, passes_last _ _ _ (by omega), passes_last _ _ _ (by omega), by omega, by omega,
      passes_room _ _ _ (by omega)⟩
    exact ⟨d, e1, e2.trans (full _ _ h2).1, e2 ▸ (full _ _ h2).2⟩
  · obtain ⟨d, e1, -, e2⟩ := key c2 cl ce ⟨by omega, passes_room _ _ _ (by omega), passes_room _ _ _ (by omega), by omega,
      by have : 8 ≤ tailLength h (E.cmtBytes r.commitment) := by unfold tailLength; omega
         omega, passes_last _ _ _ (by omega)⟩
    exact ⟨d, e1, e2.trans (full _ _ he).1, e2 ▸ (full _ _ he).2⟩
  · obtain ⟨d, e1, e2, -⟩ := key (E.header.enc h).length cl ce ⟨le_rfl, passes_small _ _ _ (by omega), passes_small _ _ _ (by omega),
      by omega, by omega, passes_room _ _ _ (by omega)⟩
    refine ⟨d, e1, e2, ?_⟩
    rw [e2, List.length_take]
    omega

/-- **C55**, `p2np`: the same for a parted circuit. -/
theorem C55_p2np_false (E : InitEnv F) (cuts : List Nat) (par : Par) (cs : PartedR1CS F) (nbCons : Int) (phase1File oldLag oldEvals : Bytes) (k : Nat)
    (hk : IsDomain nbCons.toNat k) (hk27 : k ≤ 27) (hdom : (E.dom (2 ^ k)).Lawful k) (h : Header)
    (hh : h = circuitHeader cs.base nbCons ((2 ^ k : Nat) : Int))
    (hs : ∀ c ∈ pieces true (cuts ++ [0]) (E.cmtBytes cs.base.commitment), c.bytes.length ≤ 4096) (s : InitSt)
    (hi : initializeParted C E par cs nbCons phase1File oldLag oldEvals = (.ok (), s)) :
    (∀ c2 cl ce, c2 + 1 = s.ph2.length → s.lag.length ≤ cl → s.evals.length ≤ ce →
      ∃ d, initPartedOnDisk C E cuts par c2 cl ce cs nbCons phase1File oldLag oldEvals = (.ok (), d) ∧ d.ph2.data = s.ph2.dropLast ∧
        d.ph2.data ≠ s.ph2) ∧
    (∀ c2 cl ce, s.ph2.length ≤ c2 → s.lag.length ≤ cl → ce + 1 = s.evals.length →
      ∃ d, initPartedOnDisk C E cuts par c2 cl ce cs nbCons phase1File oldLag oldEvals = (.ok (), d) ∧ d.evals.data = s.evals.dropLast ∧
        d.evals.data ≠ s.evals) ∧
    (64 + 32 * 2 ^ k ≤ 4096 → h.witness ≤ 128 → ∀ cl ce, s.lag.length ≤ cl → s.evals.length ≤ ce →
      ∃ d, initPartedOnDisk C E cuts par (E.header.enc h).length cl ce cs nbCons phase1File oldLag oldEvals = (.ok (), d) ∧
        d.ph2.data = s.ph2.take (E.header.enc h).length ∧ d.ph2.data.length + 64 ≤ s.ph2.length) := by
  obtain ⟨l1, l2, l3⟩ := (initParted_diskRun hC E cuts par cs nbCons phase1File oldLag oldEvals k (nextPowerofTwo_int nbCons hk hk27) hk27 hdom h hh 0 0 0).1 s hi
  have hpos : 0 < 2 ^ k := Nat.pow_pos (by omega)
  have key : ∀ c2 cl ce, InitFits c2 cl ce (E.header.enc h).length (2 ^ k) h.witness.toNat h.wires.toNat
      (tailLength h (E.cmtBytes cs.base.commitment)) →
      ∃ d, initPartedOnDisk C E cuts par c2 cl ce cs nbCons phase1File oldLag oldEvals = (.ok (), d) ∧ d.ph2.data = s.ph2.take c2 ∧
        d.evals.data = s.evals.take ce := by
    intro c2 cl ce hf
    obtain ⟨e1, e2⟩ := C55_p2np_exact hC E cuts par cs nbCons phase1File oldLag oldEvals k hk hk27 hdom h hh hs c2 cl ce
    have h1 := e1.2 ⟨congrArg Prod.fst hi, hf⟩
    obtain ⟨s', e, f1, -, f3⟩ := e2 _ (Prod.ext h1 rfl)
    rw [hi] at e
    obtain rfl := (Prod.mk.inj e).2
    exact ⟨_, Prod.ext h1 rfl, f1, f3⟩
  have full : ∀ b : Bytes, ∀ c, c + 1 = b.length → b.take c = b.dropLast ∧ b.take c ≠ b := by
    intro b c hc
    refine ⟨by rw [List.dropLast_eq_take, ← hc]; rfl, fun hb => ?_⟩
    have := congrArg List.length hb
    rw [List.length_take] at this
    omega
  refine ⟨fun c2 cl ce h2 hl he => ?_, fun c2 cl ce h2 hl he => ?_, fun hn hw cl ce hl he => ?_⟩
  · obtain ⟨d, e1, e2, -⟩ := key c2 cl ce ⟨by omega, passes_last _ _ _ (by omega), passes_last _ _ _ (by omega), by omega, by omega,
      passes_room _ _ _ (by omega)⟩
    exact ⟨d, e1, e2.trans (full _ _ h2).1, e2 ▸ (full _ _ h2).2⟩
  · obtain ⟨d, e1, -, e2⟩ := key c2 cl ce ⟨by omega, passes_room _ _ _ (by omega), passes_room _ _ _ (by omega), by omega,
      by have : 8 ≤ tailLength h (E.cmtBytes cs.base.commitment) := by unfold tailLength; omega
         omega, passes_last _ _ _ (by omega)⟩
    exact ⟨d, e1, e2.trans (full _ _ he).1, e2 ▸ (full _ _ he).2⟩
  · obtain ⟨d, e1, e2, -⟩ := key (E.header.enc h).length cl ce ⟨le_rfl, passes_small _ _ _ (by omega), passes_small _ _ _ (by omega),
      by omega, by omega, passes_room _ _ _ (by omega)⟩
    refine ⟨d, e1, e2, ?_⟩
    rw [e2, List.length_take]
    omega

end

/-! ### examples -/

/-- initialisation of the toy circuit succeeds -/
theorem Toy.init_ok : ∃ s, initializeFiles Toy.curve Toy.env par4 (some Toy.circuit) ((Toy.srs 3 3 5 7).encode Toy.curve ++ []) [1, 2, 3] []
    = (.ok (), s) :=
  ⟨_, init_honest Toy.lawful Toy.env par4 Toy.circuit Toy.circuit_valid Toy.circuit_nc.publicCommitment (Toy.srs 3 3 5 7)
    (Toy.srs_wf 3 (by decide) _ _ _) 3 5 7 (Toy.srs_powers 3 3 5 7) 2 Toy.circuit_domain (by decide) (by decide) dom4_lawful _ _ _⟩

theorem Toy.initParted_ok : ∃ s, initializeParted Toy.curve Toy.env par4 Toy.parted 3 ((Toy.srs 3 3 5 7).encode Toy.curve ++ []) [1, 2, 3] []
    = (.ok (), s) := by
  obtain ⟨s, h⟩ := Toy.init_ok
  exact ⟨s, (C44_parted (C := Toy.curve) Toy.env par4 Toy.circuit Toy.parted rfl rfl rfl rfl rfl rfl Toy.parted_get _ _ _).trans h⟩

theorem Toy.circuit_domains (k : Nat) (h : IsDomain 3 k) : (Toy.env.dom (2 ^ k)).Lawful k := by
  have h2 : k = 2 := by
    have h1 := h.least 2 (by decide) (by decide)
    have h3 := h.fits
    have h4 := h.two
    interval_cases k <;> simp_all
  subst h2
  exact dom4_lawful

example := C55_p2n_partial Toy.lawful Toy.env [] par4 (some Toy.circuit) (by rintro r ⟨⟩ k - h; exact Toy.circuit_domains k h)
  ((Toy.srs 3 3 5 7).encode Toy.curve ++ []) [1, 2, 3] [] 300 400 500
example := C55_p2np_partial Toy.lawful Toy.env [] par4 Toy.parted 3 (fun k _ h => Toy.circuit_domains k h)
  ((Toy.srs 3 3 5 7).encode Toy.curve ++ []) [1, 2, 3] [] 300 400 500
example := C55_p2n_exact Toy.lawful Toy.env [] par4 Toy.circuit ((Toy.srs 3 3 5 7).encode Toy.curve ++ []) [1, 2, 3] [] 2
  Toy.circuit_domain (by decide) dom4_lawful _ rfl (by decide) 300 400 500
example := C55_p2np_exact Toy.lawful Toy.env [] par4 Toy.parted 3 ((Toy.srs 3 3 5 7).encode Toy.curve ++ []) [1, 2, 3] [] 2
  Toy.circuit_domain (by decide) dom4_lawful _ rfl (by decide) 300 400 500
-- the phase 2 file of the toy circuit: success is reported with one byte missing, and with the header only
example : ∃ s c2 d, initializeFiles Toy.curve Toy.env par4 (some Toy.circuit) ((Toy.srs 3 3 5 7).encode Toy.curve ++ []) [1, 2, 3] []
      = (.ok (), s) ∧
    initOnDisk Toy.curve Toy.env [] par4 c2 s.lag.length s.evals.length (some Toy.circuit) ((Toy.srs 3 3 5 7).encode Toy.curve ++ [])
      [1, 2, 3] [] = (.ok (), d) ∧ d.ph2.data.length + 64 ≤ s.ph2.length := by
  obtain ⟨s, h⟩ := Toy.init_ok
  obtain ⟨d, h1, -, h2⟩ := (C55_p2n_false Toy.lawful Toy.env [] par4 Toy.circuit _ _ _ 2 Toy.circuit_domain (by decide) dom4_lawful _ rfl
    (by decide) s h).2.2 (by decide) (by decide) s.lag.length s.evals.length le_rfl le_rfl
  exact ⟨s, _, d, h, h1, h2⟩
example : ∃ s c2 d, initializeParted Toy.curve Toy.env par4 Toy.parted 3 ((Toy.srs 3 3 5 7).encode Toy.curve ++ []) [1, 2, 3] []
      = (.ok (), s) ∧
    initPartedOnDisk Toy.curve Toy.env [] par4 c2 s.lag.length s.evals.length Toy.parted 3 ((Toy.srs 3 3 5 7).encode Toy.curve ++ [])
      [1, 2, 3] [] = (.ok (), d) ∧ d.ph2.data.length + 64 ≤ s.ph2.length := by
  obtain ⟨s, h⟩ := Toy.initParted_ok
  obtain ⟨d, h1, -, h2⟩ := (C55_p2np_false Toy.lawful Toy.env [] par4 Toy.parted 3 _ _ _ 2 Toy.circuit_domain (by decide) dom4_lawful _ rfl
    (by decide) s h).2.2 (by decide) (by decide) s.lag.length s.evals.length le_rfl le_rfl
  exact ⟨s, _, d, h, h1, h2⟩

end ZkSetup
