import Verif.Proofs.InitRun
import Verif.Props.Lagrange
import Verif.Props.Phase2
/-
Phase 2 initialisation: C20, C21, C24, C25, C26, C27, C28 (counts), C44.
-/
set_option linter.unusedSectionVars false

namespace ZkSetup

open Phase2 Finset
open Phase1 (makeLen goPow2 seekDecode check defaultContribution)

/-! ### C21: the domain -/

/-- `2^k` is the least power of two that is at least 2 and at least `n` -/
structure IsDomain (n k : Nat) : Prop where
  two : 1 ≤ k
  fits : n ≤ 2 ^ k
  least : ∀ j, 1 ≤ j → n ≤ 2 ^ j → k ≤ j

theorem isDomain_exists (n : Nat) : ∃ k, IsDomain n k := by
  have hex : ∃ k, 1 ≤ k ∧ n ≤ 2 ^ k := ⟨n + 1, by omega, by
    calc n ≤ 2 ^ n := Nat.lt_two_pow_self.le
      _ ≤ 2 ^ (n + 1) := Nat.pow_le_pow_right (by omega) (by omega)⟩
  exact ⟨Nat.find hex, (Nat.find_spec hex).1, (Nat.find_spec hex).2, fun j h1 h2 => Nat.find_min' hex ⟨h1, h2⟩⟩

theorem isDomain_le {n k m : Nat} (h : IsDomain n k) (hm : 1 ≤ m) (hn : n ≤ 2 ^ m) : k ≤ m := h.least m hm hn

theorem nextPowerofTwo_eq {n k : Nat} (h : IsDomain n k) (hk : k ≤ 27) : nextPowerofTwo (n : Int) = .ok ((2 ^ k : Nat) : Int) := by
  have := nextPowerofTwoLoop_eq (n : Int) 27 1 k h.two (by omega)
    (fun j hj hj' => by
      by_contra hcon
      have : n ≤ 2 ^ j := by exact_mod_cast not_lt.mp hcon
      have := h.least j hj this
      omega)
    (by exact_mod_cast h.fits)
  unfold nextPowerofTwo
  rw [show (2 : Int) = 2 ^ 1 by norm_num, this]
  push_cast
  rfl

theorem nextPowerofTwo_panic {n : Nat} (h : 2 ^ 27 < n) : ∃ m, nextPowerofTwo (n : Int) = .error (.panic m) := by
  refine ⟨_, nextPowerofTwoLoop_panic (n : Int) 27 1 ?_⟩
  intro j hj
  have : 2 ^ (1 + j) ≤ 2 ^ 27 := Nat.pow_le_pow_right (by omega) (by omega)
  have : 2 ^ (1 + j) < n := by omega
  exact_mod_cast this

/-- **C21**: up to `2^27` constraints the domain is the least power of two that is at least 2 and at least the number of
constraints, and larger circuits abort. -/
theorem C21_domain (n : Nat) :
    (n ≤ 2 ^ 27 → ∃ k, k ≤ 27 ∧ IsDomain n k ∧ nextPowerofTwo (n : Int) = .ok ((2 ^ k : Nat) : Int)) ∧
    (2 ^ 27 < n → ∃ m, nextPowerofTwo (n : Int) = .error (.panic m)) := by
  refine ⟨fun h => ?_, nextPowerofTwo_panic⟩
  obtain ⟨k, hk⟩ := isDomain_exists n
  have := hk.least 27 (by omega) h
  exact ⟨k, this, hk, nextPowerofTwo_eq hk this⟩

example : ∃ k, k ≤ 27 ∧ IsDomain 5 k ∧ nextPowerofTwo 5 = .ok ((2 ^ k : Nat) : Int) := (C21_domain 5).1 (by norm_num)

section
variable {F G1 G2 GT : Type} [Field F] [AddCommGroup G1] [Module F G1] [AddCommGroup G2]
  [Module F G2] [AddCommGroup GT] [Module F GT] [DecidableEq G1] [DecidableEq G2]

/-- **C21**: if header processing accepts a circuit for a phase 1 file that declares a power of at least 1 — whatever the file
contains otherwise — then the domain fits: `domain ≤ 2^power`, so `2·domain - 1 ≤ 2·2^power - 1` powers are read. -/
theorem C21_fits (H : HeaderCodec) (r : R1CS F) (phase1File : Bytes) (s s' : InitSt) (r' : R1CS F) (h1 : Phase1.Header)
    (h2 : Header) (h : (processHeader H (some r) phase1File).run s = (.ok (r', h1, h2), s')) (hp : 1 ≤ h1.power.toNat) :
    ∃ k, IsDomain r.nbConstraints k ∧ h2.domain = ((2 ^ k : Nat) : Int) ∧ k ≤ h1.power.toNat := by
  unfold processHeader at h
  obtain ⟨d, s1, hd, h⟩ := Go.bind_eq_ok h
  obtain ⟨x1, s2, hx, h⟩ := Go.bind_eq_ok h
  obtain ⟨u, s3, hcheck, h⟩ := Go.bind_eq_ok h
  obtain ⟨u', s4, hemit, h⟩ := Go.bind_eq_ok h
  simp only [Go.lift_run, Prod.mk.injEq] at hd hx hcheck
  simp only [Go.pure_run, Prod.mk.injEq, Except.ok.injEq] at h
  obtain ⟨⟨-, rfl, rfl⟩, -⟩ := h
  have hc := hcheck.1
  unfold checkPower check at hc
  split at hc
  · rename_i hc'
    rw [decide_eq_true_iff] at hc'
    obtain ⟨k, hk⟩ := isDomain_exists r.nbConstraints
    have hn27 : r.nbConstraints ≤ 2 ^ 27 := by
      by_contra hcon
      obtain ⟨m, hm⟩ := nextPowerofTwo_panic (by omega : 2 ^ 27 < r.nbConstraints)
      rw [hm] at hd
      simp at hd
    have hk27 := hk.least 27 (by omega) hn27
    rw [nextPowerofTwo_eq hk hk27] at hd
    simp only [Except.ok.injEq] at hd
    refine ⟨k, hk, by rw [(circuitHeader_rest r _ _).2.1]; exact hd.1.symm, ?_⟩
    apply hk.least _ hp
    unfold goPow2 at hc'
    split at hc'
    · have : (r.nbConstraints : Int) ≤ ((2 ^ x1.power.toNat : Nat) : Int) := by push_cast; omega
      exact_mod_cast this
    · exact absurd (by omega : -(2 ^ 63) < (r.nbConstraints : Int)) hc'
  · simp at hc

/-- **C21**, the excluded power: a file of power 0 passes the same check with a circuit of one constraint, although the
domain (2) exceeds the number of powers (1). -/
theorem C21_power_zero (H : HeaderCodec) (r : R1CS F) (hr : r.nbConstraints = 1) (n : UInt16) (rest : Bytes) (s : InitSt) :
    ∃ h2 s', (processHeader H (some r) (Phase1.Header.writeTo ⟨0, n⟩ ++ rest)).run s = (.ok (r, ⟨0, n⟩, h2), s') ∧
      h2.domain = 2 := by
  refine ⟨circuitHeader r 1 2, { s with ph2 := s.ph2 ++ H.enc (circuitHeader r 1 2) }, ?_, (circuitHeader_rest r _ _).2.1⟩
  unfold processHeader
  simp only [header_read, hr]
  rfl

/-! ### C28: the counts -/

/-- **C28**, counts: for every circuit and domain the numbers of public, private and committed wires in the header add up to the
number of wires. -/
theorem C28_counts (r : R1CS F) (c d : Int) :
    let h := circuitHeader r c d
    h.pub + h.witness + h.privateCommitted = h.wires ∧ h.wires = r.nbPublic + r.nbSecret + r.nbInternal := by
  unfold circuitHeader
  split <;> simp <;> omega

/-! ### C20: offsets -/

variable {C : Curve F G1 G2 GT} (hC : C.Lawful)
include hC

/-- **C20**: for every well-formed phase 1 file — the shape in which `Initialize`, `Contribute` and `Transform` write it
(`C05_initialize_encode`, `C10_contribute_preserves_history`, `C18_transform`) — of every power `p ≥ 1` and every domain
`2^k ≤ 2^p`: `p1vt` reads `[τ]1, [α]1, [β]1, [τ]2, [β]2`; phase 2 initialisation reads `[α]1`, `[β]1`, `[β]2`, converts the
first `2^k` points of exactly the four sections, and computes Z from the first points of TauG1. -/
theorem C20_offsets (f : P1File G1 G2) (hf : f.WF) (hp : 1 ≤ f.power.toNat) (junk : Bytes) (k : Nat) (hk : k ≤ f.power.toNat)
    (par : Par) (dom : Nat → Lagrange.Domain F) (hd : (dom (2 ^ k)).Lawful k) (n1 : UInt16) (h2 : Header)
    (hh2 : h2.domain = ((2 ^ k : Nat) : Int)) (s : InitSt) :
    defaultContribution C (some (f.encode C ++ junk)) = .ok
      { g1Tau := f.tauG1.getD 1 0, g1Alpha := f.alphaG1.getD 0 0, g1Beta := f.betaG1.getD 0 0, g2Tau := f.tauG2.getD 1 0,
        g2Beta := f.betaG2, pkTau := ⟨0, 0, 0⟩, pkAlpha := ⟨0, 0, 0⟩, pkBeta := ⟨0, 0, 0⟩, hash := [] } ∧
    readPhase1 C (f.encode C ++ junk) f.power = .ok (f.alphaG1.getD 0 0, f.betaG1.getD 0 0, f.betaG2) ∧
    (processLagrange C par dom ⟨f.power, n1⟩ h2 (f.encode C ++ junk)).run s = (.ok (), { s with lag := (
      C.c1.encodeSlice ((List.range (2 ^ k)).map (idft (2 ^ k) (dom (2 ^ k)).gen fun j => f.tauG1.getD j 0)) ++
      (C.c1.encodeSlice ((List.range (2 ^ k)).map (idft (2 ^ k) (dom (2 ^ k)).gen fun j => f.alphaG1.getD j 0)) ++
      (C.c1.encodeSlice ((List.range (2 ^ k)).map (idft (2 ^ k) (dom (2 ^ k)).gen fun j => f.betaG1.getD j 0)) ++
      C.c2.encodeSlice ((List.range (2 ^ k)).map (idft (2 ^ k) (dom (2 ^ k)).gen fun j => f.tauG2.getD j 0))))) }) ∧
    (processDeltaAndZ C h2 (f.encode C ++ junk)).run s = (.ok (), { s with ph2 := s.ph2 ++ (C.c1.bytes C.g1 ++ C.c2.bytes C.g2 ++
      ((List.range (2 ^ k - 1)).map fun j => f.tauG1.getD (bitRev k j + 2 ^ k) 0 - f.tauG1.getD (bitRev k j) 0).flatMap
        C.c1.bytes) }) :=
  ⟨defaultContribution_some hC f hf hp junk, readPhase1_eq hC f hf junk,
    processLagrange_run hC par dom f hf junk k hk hd _ rfl h2 hh2 s, processDeltaAndZ_run hC f hf junk k hk h2 hh2 s⟩

/-! ### C24, C25, C26: what is written for a circuit without commitments -/

omit [DecidableEq G1] [DecidableEq G2] hC in
theorem lagSection_powers {G : Type} [AddCommGroup G] [Module F G] (k : Nat) (d : Lagrange.Domain F) (hd : d.Lawful k) (m τ : F)
    (g : G) (N : Nat) (hN : 2 ^ k ≤ N) (i : Nat) (hi : i < 2 ^ k) :
    lagSection (2 ^ k) d.gen ((List.range N).map fun j => (m * τ ^ j) • g) i
      = (m * (_root_.Lagrange.basis (range (2 ^ k)) (fun i => d.gen ^ i) i).eval τ) • g := by
  have hnF : ((2 ^ k : ℕ) : F) ≠ 0 := by
    intro h
    have := hd.inv
    push_cast at h
    rw [h, mul_zero] at this
    exact zero_ne_one this
  rw [← lagrange_basis_eval (2 ^ k) (Nat.pow_pos (by omega)) d.gen τ hd.root hnF i hi, lagSection, idft]
  have : ∀ j ∈ range (2 ^ k), (d.gen ^ (i * j))⁻¹ • (((List.range N).map fun j => (m * τ ^ j) • g).getD j 0)
      = (m * ((d.gen ^ (i * j))⁻¹ * τ ^ j)) • g := by
    intro j hj
    rw [mem_range] at hj
    have : j < N := by omega
    simp only [List.getD_eq_getElem?_getD, List.getElem?_map, List.getElem?_range this, Option.map_some, Option.getD_some,
      smul_smul]
    congr 1
    ring
  rw [sum_congr rfl this, ← sum_smul, smul_smul, ← mul_sum]
  congr 1
  ring

omit [DecidableEq G1] [DecidableEq G2] hC in
theorem wireSum_powers {G : Type} [AddCommGroup G] [Module F G] (r : R1CS F) (side : R1C → List Term) (k : Nat)
    (hck : r.constraints.length ≤ 2 ^ k) (d : Lagrange.Domain F) (hd : d.Lawful k) (m τ : F) (g : G) (N : Nat) (hN : 2 ^ k ≤ N)
    (w : Nat) :
    wireSum r side (lagSection (2 ^ k) d.gen ((List.range N).map fun j => (m * τ ^ j) • g)) w
      = (m * (qap r (2 ^ k) d.gen side w).eval τ) • g := by
  unfold wireSum qap
  rw [Polynomial.eval_finsetSum, mul_sum, sum_smul]
  apply sum_congr rfl
  intro i hi
  rw [mem_range] at hi
  rw [lagSection_powers k d hd m τ g N hN i (by omega), smul_smul, Polynomial.eval_mul, Polynomial.eval_C]
  congr 1
  ring

/-- **C26**, in terms of the sections: for every valid circuit without commitments and every well-formed phase 1 file that is
large enough, initialisation succeeds; VKK are the combined points of the first `#Public` wires and PKK those of the others, in
wire order; CKK is empty. -/
theorem C26_split (E : InitEnv F) (par : Par) (r : R1CS F) (hr : r.Valid) (hnc : r.NoCommitment) (f : P1File G1 G2) (hf : f.WF)
    (k : Nat) (hk : IsDomain r.constraints.length k) (hk27 : k ≤ 27) (hkp : k ≤ f.power.toNat) (hdom : (E.dom (2 ^ k)).Lawful k)
    (junk oldLag oldEvals : Bytes) :
    let all := (List.range r.wires).map (combined r (2 ^ k) (E.dom (2 ^ k)).gen f)
    initializeFiles C E par (some r) (f.encode C ++ junk) oldLag oldEvals
      = (.ok (), ⟨(initFile C r k f r.nbPublic 0 (all.drop r.nbPublic)).encode C E.header,
          lagBytes C (2 ^ k) (E.dom (2 ^ k)).gen f,
          (initEvals r (2 ^ k) (E.dom (2 ^ k)).gen f (all.take r.nbPublic) [] (E.cmtBytes r.commitment)).encode C⟩) ∧
    all.take r.nbPublic ++ all.drop r.nbPublic = all ∧ (all.take r.nbPublic).length = r.nbPublic ∧
    (all.drop r.nbPublic).length = r.nbSecret + r.nbInternal := by
  intro all
  have hal : all.length = r.wires := by simp [all]
  have hle : r.nbPublic ≤ all.length := by rw [hal, R1CS.wires]; omega
  have hlt : (all.take r.nbPublic).length = r.nbPublic := by rw [List.length_take]; omega
  have hld : (all.drop r.nbPublic).length = r.nbSecret + r.nbInternal := by
    rw [List.length_drop, hal, R1CS.wires]; omega
  refine ⟨?_, List.take_append_drop _ _, hlt, hld⟩
  have his : r.commitment.is = false := by simp [Commitment.is, hnc.1]
  have hfil := filterL_split all (circuitHeader r r.constraints.length ((2 ^ k : Nat) : Int)) r.commitment hnc.2 r.nbPublic
    (r.nbSecret + r.nbInternal) (by simp [circuitHeader, his]) (by simp [circuitHeader, his, hnc.2])
    (by simp [circuitHeader, his, hnc.2]) (by simp [his]) (by rw [hal, R1CS.wires]; omega)
  have := init_run hC E par r hr f hf junk oldLag oldEvals k hkp hk27
    (by rw [hr.count]; exact nextPowerofTwo_eq hk hk27) hk.fits hdom _ _ _ hfil
  rw [this, hlt]
  rfl

omit hC in
theorem Phase2.R1CS.NoCommitment.publicCommitment {r : R1CS F} (h : r.NoCommitment) : r.PublicCommitment :=
  ⟨h.2, fun h' => absurd h.1 h'⟩

omit hC in
theorem Phase2.R1CS.NoCommitment.shared_eq {r : R1CS F} (h : r.NoCommitment) : r.shared = r.nbPublic := by
  simp [R1CS.shared, h.1]

omit hC in
theorem Phase2.R1CS.PublicCommitment.shared_le {r : R1CS F} (h : r.PublicCommitment) : r.shared ≤ r.wires := by
  unfold R1CS.shared
  split
  · unfold R1CS.wires; omega
  · rename_i h'
    have := (h.index h').2
    omega

/-- As `C26_split`, also with a commitment to public wires whose commitment wire follows the public ones. -/
theorem init_split (E : InitEnv F) (par : Par) (r : R1CS F) (hr : r.Valid) (hpc : r.PublicCommitment) (f : P1File G1 G2) (hf : f.WF)
    (k : Nat) (hk : IsDomain r.constraints.length k) (hk27 : k ≤ 27) (hkp : k ≤ f.power.toNat) (hdom : (E.dom (2 ^ k)).Lawful k)
    (junk oldLag oldEvals : Bytes) :
    let all := (List.range r.wires).map (combined r (2 ^ k) (E.dom (2 ^ k)).gen f)
    initializeFiles C E par (some r) (f.encode C ++ junk) oldLag oldEvals
      = (.ok (), ⟨(initFile C r k f r.shared 0 (all.drop r.shared)).encode C E.header,
          lagBytes C (2 ^ k) (E.dom (2 ^ k)).gen f,
          (initEvals r (2 ^ k) (E.dom (2 ^ k)).gen f (all.take r.shared) [] (E.cmtBytes r.commitment)).encode C⟩) := by
  intro all
  have hal : all.length = r.wires := by simp [all]
  have hsh := hpc.shared_le
  have hlt : (all.take r.shared).length = r.shared := by rw [List.length_take]; omega
  have hfil := filterL_split all (circuitHeader r r.constraints.length ((2 ^ k : Nat) : Int)) r.commitment hpc.priv r.shared
    (r.wires - r.shared)
    (by
      unfold circuitHeader R1CS.shared Commitment.is
      by_cases h : r.commitment.committed = [] <;> simp [h])
    (by
      unfold circuitHeader Commitment.is
      unfold R1CS.shared R1CS.wires at *
      by_cases h : r.commitment.committed = []
      · simp [h, hpc.priv]; omega
      · simp [h, hpc.priv] at hsh ⊢; omega)
    (by
      unfold circuitHeader
      split <;> simp [hpc.priv])
    (by
      intro his
      have h : r.commitment.committed ≠ [] := by simpa [Commitment.is] using his
      rw [(hpc.index h).1, R1CS.shared, if_neg h]
      omega)
    (by omega)
  have := init_run hC E par r hr f hf junk oldLag oldEvals k hkp hk27
    (by rw [hr.count]; exact nextPowerofTwo_eq hk hk27) hk.fits hdom _ _ _ hfil
  rw [this, hlt]
  rfl

/-- The evaluation file of circuit `r` for the trapdoor `τ, α, β`, in terms of the QAP polynomials. -/
noncomputable def trapdoorEvals (C : Curve F G1 G2 GT) (r : R1CS F) (n : Nat) (ω τ α β : F) (commitment : Bytes) : Evals G1 G2 where
  alpha1 := α • C.g1
  beta1 := β • C.g1
  beta2 := β • C.g2
  a := (List.range r.wires).map fun w => (qap r n ω R1C.l w).eval τ • C.g1
  b1 := (List.range r.wires).map fun w => (qap r n ω R1C.r w).eval τ • C.g1
  b2 := (List.range r.wires).map fun w => (qap r n ω R1C.r w).eval τ • C.g2
  vkk := (List.range r.shared).map fun w => (β * (qap r n ω R1C.l w).eval τ + α * (qap r n ω R1C.r w).eval τ
    + (qap r n ω R1C.o w).eval τ) • C.g1
  ckk := []
  commitment := commitment

/-- The initial phase 2 file of circuit `r` over the domain of size `2^k` for the trapdoor `τ, α, β`. -/
noncomputable def trapdoorFile (C : Curve F G1 G2 GT) (r : R1CS F) (k : Nat) (ω τ α β : F) : P2File G1 G2 where
  wires := r.wires
  witness := r.wires - r.shared
  pub := r.shared
  privateCommitted := 0
  constraints := r.constraints.length
  domain := 2 ^ k
  delta1 := C.g1
  delta2 := C.g2
  z := (List.range (2 ^ k - 1)).map fun j => (τ ^ bitRev k j * (τ ^ 2 ^ k - 1)) • C.g1
  pkk := (List.range (r.wires - r.shared)).map fun j =>
    (β * (qap r (2 ^ k) ω R1C.l (r.shared + j)).eval τ + α * (qap r (2 ^ k) ω R1C.r (r.shared + j)).eval τ
      + (qap r (2 ^ k) ω R1C.o (r.shared + j)).eval τ) • C.g1
  records := []

/-- the combined point of a wire for an honest phase 1 file -/
theorem combined_powers (r : R1CS F) (k : Nat) (hck : r.constraints.length ≤ 2 ^ k) (d : Lagrange.Domain F) (hd : d.Lawful k)
    (f : P1File G1 G2) (hkp : k ≤ f.power.toNat) (τ α β : F) (hpw : f.Powers C τ α β) (w : Nat) :
    combined r (2 ^ k) d.gen f w = (β * (qap r (2 ^ k) d.gen R1C.l w).eval τ + α * (qap r (2 ^ k) d.gen R1C.r w).eval τ
      + (qap r (2 ^ k) d.gen R1C.o w).eval τ) • C.g1 := by
  have hle : 2 ^ k ≤ 2 ^ f.power.toNat := Nat.pow_le_pow_right (by omega) hkp
  have ht := wireSum_powers r R1C.o k hck d hd 1 τ C.g1 (2 * 2 ^ f.power.toNat - 1) (by omega) w
  simp only [one_mul] at ht
  unfold combined
  rw [hpw.tauG1, hpw.alphaG1, hpw.betaG1, ht, wireSum_powers r R1C.r k hck d hd α τ C.g1 _ hle w,
    wireSum_powers r R1C.l k hck d hd β τ C.g1 _ hle w, ← add_smul, ← add_smul]
  congr 1
  ring

omit [DecidableEq G1] [DecidableEq G2] hC in
/-- the evaluations and Z for an honest phase 1 file -/
theorem honest_sections (r : R1CS F) (k : Nat) (hck : r.constraints.length ≤ 2 ^ k) (d : Lagrange.Domain F) (hd : d.Lawful k)
    (f : P1File G1 G2) (hkp : k ≤ f.power.toNat) (τ α β : F) (hpw : f.Powers C τ α β) :
    (wireSum r R1C.l (lagSection (2 ^ k) d.gen f.tauG1) = fun w => (qap r (2 ^ k) d.gen R1C.l w).eval τ • C.g1) ∧
    (wireSum r R1C.r (lagSection (2 ^ k) d.gen f.tauG1) = fun w => (qap r (2 ^ k) d.gen R1C.r w).eval τ • C.g1) ∧
    (wireSum r R1C.r (lagSection (2 ^ k) d.gen f.tauG2) = fun w => (qap r (2 ^ k) d.gen R1C.r w).eval τ • C.g2) ∧
    zSection k f.tauG1 = (List.range (2 ^ k - 1)).map fun j => (τ ^ bitRev k j * (τ ^ 2 ^ k - 1)) • C.g1 := by
  have hle : 2 ^ k ≤ 2 ^ f.power.toNat := Nat.pow_le_pow_right (by omega) hkp
  have hpos : 0 < 2 ^ f.power.toNat := Nat.pow_pos (by omega)
  refine ⟨?_, ?_, ?_, ?_⟩
  · funext w
    have := wireSum_powers r R1C.l k hck d hd 1 τ C.g1 (2 * 2 ^ f.power.toNat - 1) (by omega) w
    simp only [one_mul] at this
    rw [hpw.tauG1, this]
  · funext w
    have := wireSum_powers r R1C.r k hck d hd 1 τ C.g1 (2 * 2 ^ f.power.toNat - 1) (by omega) w
    simp only [one_mul] at this
    rw [hpw.tauG1, this]
  · funext w
    have := wireSum_powers r R1C.r k hck d hd 1 τ C.g2 (2 ^ f.power.toNat) hle w
    simp only [one_mul] at this
    rw [hpw.tauG2, this]
  · unfold zSection
    apply List.map_congr_left
    intro j hj
    rw [List.mem_range] at hj
    have hb := bitRev_lt k j
    have hne : bitRev k j ≠ 2 ^ k - 1 := by
      intro h
      have := congrArg (bitRev k) h
      rw [bitRev_bitRev _ _ (by omega), bitRev_top] at this
      omega
    have h1 : bitRev k j + 2 ^ k < 2 * 2 ^ f.power.toNat - 1 := by omega
    have h2 : bitRev k j < 2 * 2 ^ f.power.toNat - 1 := by omega
    rw [hpw.tauG1]
    simp only [List.getD_eq_getElem?_getD, List.getElem?_map, List.getElem?_range h1, List.getElem?_range h2, Option.map_some,
      Option.getD_some, ← sub_smul]
    congr 1
    ring

/-- The files written for an honest phase 1 file. -/
theorem init_honest (E : InitEnv F) (par : Par) (r : R1CS F) (hr : r.Valid) (hpc : r.PublicCommitment) (f : P1File G1 G2) (hf : f.WF)
    (τ α β : F) (hpw : f.Powers C τ α β) (k : Nat) (hk : IsDomain r.constraints.length k) (hk27 : k ≤ 27)
    (hkp : k ≤ f.power.toNat) (hdom : (E.dom (2 ^ k)).Lawful k) (junk oldLag oldEvals : Bytes) :
    initializeFiles C E par (some r) (f.encode C ++ junk) oldLag oldEvals
      = (.ok (), ⟨(trapdoorFile C r k (E.dom (2 ^ k)).gen τ α β).encode C E.header, lagBytes C (2 ^ k) (E.dom (2 ^ k)).gen f,
          (trapdoorEvals C r (2 ^ k) (E.dom (2 ^ k)).gen τ α β (E.cmtBytes r.commitment)).encode C⟩) := by
  have hrun := init_split hC E par r hr hpc f hf k hk hk27 hkp hdom junk oldLag oldEvals
  rw [hrun]
  have hle : 2 ^ k ≤ 2 ^ f.power.toNat := Nat.pow_le_pow_right (by omega) hkp
  have hpos : 0 < 2 ^ f.power.toNat := Nat.pow_pos (by omega)
  generalize hω : E.dom (2 ^ k) = d at *
  have hcomb : (List.range r.wires).map (combined r (2 ^ k) d.gen f) = (List.range r.wires).map fun w =>
      (β * (qap r (2 ^ k) d.gen R1C.l w).eval τ + α * (qap r (2 ^ k) d.gen R1C.r w).eval τ
        + (qap r (2 ^ k) d.gen R1C.o w).eval τ) • C.g1 :=
    List.map_congr_left fun w _ => combined_powers hC r k hk.fits d hdom f hkp τ α β hpw w
  obtain ⟨m, hw⟩ : ∃ m, r.wires = r.shared + m := ⟨r.wires - r.shared, by have := hpc.shared_le; omega⟩
  have hm : r.wires - r.shared = m := by omega
  obtain ⟨hl1, hr1, hr2, hz⟩ := honest_sections r k hk.fits d hdom f hkp τ α β hpw
  have hfile : initFile C r k f r.shared 0 (((List.range r.wires).map (combined r (2 ^ k) d.gen f)).drop r.shared)
      = trapdoorFile C r k d.gen τ α β := by
    unfold initFile trapdoorFile
    congr 1
    · simp
    · rw [hcomb, ← List.map_drop, hm, hw, List.range_add, List.drop_left' (by simp), List.map_map]
      rfl
  have hev : initEvals r (2 ^ k) d.gen f (((List.range r.wires).map (combined r (2 ^ k) d.gen f)).take r.shared) []
      (E.cmtBytes r.commitment) = trapdoorEvals C r (2 ^ k) d.gen τ α β (E.cmtBytes r.commitment) := by
    unfold initEvals trapdoorEvals
    congr 1
    · rw [hpw.alphaG1]
      simp [List.getD_eq_getElem?_getD]
    · rw [hpw.betaG1]
      simp [List.getD_eq_getElem?_getD]
    · exact hpw.betaG2
    · rw [hl1]
    · rw [hr1]
    · rw [hr2]
    · rw [hcomb, ← List.map_take, hw, List.range_add, List.take_left' (by simp)]
  rw [hfile, hev]

/-- **C24**: for every valid R1CS without commitments, every honest phase 1 file that is large enough, and any contents of the old
files, initialisation succeeds and the evaluation file is `[α]1, [β]1, [β]2`, then `[a_w(τ)]1`, `[b_w(τ)]1`, `[b_w(τ)]2` for every
wire `w`, then the public points. -/
theorem C24_evaluations (E : InitEnv F) (par : Par) (r : R1CS F) (hr : r.Valid) (hnc : r.NoCommitment) (f : P1File G1 G2)
    (hf : f.WF) (τ α β : F) (hpw : f.Powers C τ α β) (k : Nat) (hk : IsDomain r.constraints.length k) (hk27 : k ≤ 27)
    (hkp : k ≤ f.power.toNat) (hdom : (E.dom (2 ^ k)).Lawful k) (junk oldLag oldEvals : Bytes) :
    ∃ st, initializeFiles C E par (some r) (f.encode C ++ junk) oldLag oldEvals = (.ok (), st) ∧
      st.evals = C.c1.bytes (α • C.g1) ++ C.c1.bytes (β • C.g1) ++ C.c2.bytes (β • C.g2)
        ++ C.c1.encodeSlice ((List.range r.wires).map fun w => (qap r (2 ^ k) (E.dom (2 ^ k)).gen R1C.l w).eval τ • C.g1)
        ++ C.c1.encodeSlice ((List.range r.wires).map fun w => (qap r (2 ^ k) (E.dom (2 ^ k)).gen R1C.r w).eval τ • C.g1)
        ++ C.c2.encodeSlice ((List.range r.wires).map fun w => (qap r (2 ^ k) (E.dom (2 ^ k)).gen R1C.r w).eval τ • C.g2)
        ++ C.c1.encodeSlice ((List.range r.nbPublic).map fun w => (β * (qap r (2 ^ k) (E.dom (2 ^ k)).gen R1C.l w).eval τ
            + α * (qap r (2 ^ k) (E.dom (2 ^ k)).gen R1C.r w).eval τ + (qap r (2 ^ k) (E.dom (2 ^ k)).gen R1C.o w).eval τ) • C.g1)
        ++ C.c1.encodeSlice [] ++ E.cmtBytes r.commitment := by
  refine ⟨_, init_honest hC E par r hr hnc.publicCommitment f hf τ α β hpw k hk hk27 hkp hdom junk oldLag oldEvals, ?_⟩
  simp only [trapdoorEvals, Evals.encode, hnc.shared_eq]

omit [AddCommGroup G1] [Module F G1] [AddCommGroup G2] [Module F G2] [AddCommGroup GT] [Module F GT] [DecidableEq G1]
  [DecidableEq G2] hC in
/-- **C24**, the polynomials: over the domain, `qap … w` takes the value of the coefficient of `w` in constraint `i` at `ω^i`, and 0
at the points beyond the last constraint; its degree is below the size of the domain. So it is the interpolating polynomial. -/
theorem C24_interpolates (r : R1CS F) (side : R1C → List Term) (k : Nat) (hck : r.constraints.length ≤ 2 ^ k)
    (d : Lagrange.Domain F) (hd : d.Lawful k) (w : Nat) :
    (∀ i < r.constraints.length, (qap r (2 ^ k) d.gen side w).eval (d.gen ^ i)
      = lcCoeff r.coefficients (side (r.constraint i)) w) ∧
    (∀ i, r.constraints.length ≤ i → i < 2 ^ k → (qap r (2 ^ k) d.gen side w).eval (d.gen ^ i) = 0) ∧
    (qap r (2 ^ k) d.gen side w).degree < (2 ^ k : Nat) := by
  have hinj : Set.InjOn (fun i => d.gen ^ i) (range (2 ^ k) : Set Nat) := by
    intro a ha b hb hab
    simp only [coe_range, Set.mem_Iio] at ha hb
    exact hd.root.pow_inj ha hb hab
  have hev : ∀ i < 2 ^ k, ∀ j < 2 ^ k, (_root_.Lagrange.basis (range (2 ^ k)) (fun i => d.gen ^ i) j).eval (d.gen ^ i)
      = if i = j then 1 else 0 := by
    intro i hi j hj
    split
    · rename_i h
      subst h
      exact _root_.Lagrange.eval_basis_self hinj (mem_range.mpr hi)
    · rename_i h
      exact _root_.Lagrange.eval_basis_of_ne (v := fun i => d.gen ^ i) (Ne.symm h) (mem_range.mpr hi)
  have heval : ∀ i < 2 ^ k, (qap r (2 ^ k) d.gen side w).eval (d.gen ^ i)
      = ∑ j ∈ range r.constraints.length, if i = j then lcCoeff r.coefficients (side (r.constraint j)) w else 0 := by
    intro i hi
    unfold qap
    rw [Polynomial.eval_finsetSum]
    apply sum_congr rfl
    intro j hj
    rw [mem_range] at hj
    rw [Polynomial.eval_mul, Polynomial.eval_C, hev i hi j (by omega)]
    split <;> simp
  refine ⟨fun i hi => ?_, fun i h1 h2 => ?_, ?_⟩
  · rw [heval i (by omega), sum_ite_eq, if_pos (mem_range.mpr hi)]
  · rw [heval i h2, sum_ite_eq, if_neg (by simpa using h1)]
  · unfold qap
    refine (Polynomial.degree_sum_le _ _).trans_lt ?_
    rw [Finset.sup_lt_iff (by exact_mod_cast WithBot.bot_lt_coe _)]
    intro i hi
    rw [mem_range] at hi
    refine (Polynomial.degree_mul_le _ _).trans_lt ?_
    refine (add_le_of_nonpos_left Polynomial.degree_C_le).trans_lt ?_
    rw [_root_.Lagrange.degree_basis hinj (mem_range.mpr (by omega)), card_range]
    have : 0 < 2 ^ k := Nat.pow_pos (by omega)
    exact_mod_cast (by omega : 2 ^ k - 1 < 2 ^ k)

/-- **C25**: the Z section of the phase 2 file written for an honest phase 1 file has `n - 1` points (`n = 2^k` the domain size),
and holds `[τ^i (τ^n - 1)]1` at position `bitrev(i)` for every `i < n - 1`. -/
theorem C25_z (E : InitEnv F) (par : Par) (r : R1CS F) (hr : r.Valid) (hnc : r.NoCommitment) (f : P1File G1 G2)
    (hf : f.WF) (τ α β : F) (hpw : f.Powers C τ α β) (k : Nat) (hk : IsDomain r.constraints.length k) (hk27 : k ≤ 27)
    (hkp : k ≤ f.power.toNat) (hdom : (E.dom (2 ^ k)).Lawful k) (junk oldLag oldEvals : Bytes) :
    ∃ st p2, initializeFiles C E par (some r) (f.encode C ++ junk) oldLag oldEvals = (.ok (), st) ∧
      st.ph2 = P2File.encode C E.header p2 ∧ p2.WF ∧ p2.records = [] ∧ p2.delta1 = C.g1 ∧ p2.delta2 = C.g2 ∧
      p2.z.length = 2 ^ k - 1 ∧ ∀ i < 2 ^ k - 1, p2.z.getD (bitRev k i) 0 = (τ ^ i * (τ ^ 2 ^ k - 1)) • C.g1 := by
  refine ⟨_, trapdoorFile C r k (E.dom (2 ^ k)).gen τ α β,
    init_honest hC E par r hr hnc.publicCommitment f hf τ α β hpw k hk hk27 hkp hdom junk oldLag oldEvals, rfl, ?_, rfl, rfl, rfl,
    by simp [trapdoorFile], ?_⟩
  · have hw := hr.size
    have hsh := hnc.publicCommitment.shared_le
    have h1 : 2 ^ k ≤ 2 ^ 27 := Nat.pow_le_pow_right (by omega) hk27
    have h2 : 0 < 2 ^ k := Nat.pow_pos (by omega)
    have h3 := hk.fits
    constructor <;> simp only [trapdoorFile, List.length_map, List.length_range, List.length_nil, List.not_mem_nil,
      false_imp_iff, implies_true] <;> omega
  · intro i hi
    have hb := bitRev_lt k i
    have hne : bitRev k i ≠ 2 ^ k - 1 := by
      intro h
      have := congrArg (bitRev k) h
      rw [bitRev_bitRev _ _ (by omega), bitRev_top] at this
      omega
    have h1 : bitRev k i < 2 ^ k - 1 := by omega
    simp only [trapdoorFile, List.getD_eq_getElem?_getD, List.getElem?_map, List.getElem?_range h1, Option.map_some,
      Option.getD_some, bitRev_bitRev _ _ (show i < 2 ^ k by omega)]

/-- **C26**: for every valid circuit without commitments and every honest phase 1 file that is large enough, VKK holds
`[β a_w + α b_w + c_w]1` for the public wires `w < #Public` and PKK those of the remaining wires, in wire order, and
`#Public + #Witness = #Wires`. -/
theorem C26_values (E : InitEnv F) (par : Par) (r : R1CS F) (hr : r.Valid) (hnc : r.NoCommitment) (f : P1File G1 G2)
    (hf : f.WF) (τ α β : F) (hpw : f.Powers C τ α β) (k : Nat) (hk : IsDomain r.constraints.length k) (hk27 : k ≤ 27)
    (hkp : k ≤ f.power.toNat) (hdom : (E.dom (2 ^ k)).Lawful k) (junk oldLag oldEvals : Bytes) :
    ∃ st p2 ev, initializeFiles C E par (some r) (f.encode C ++ junk) oldLag oldEvals = (.ok (), st) ∧
      st.ph2 = P2File.encode C E.header p2 ∧ st.evals = Evals.encode C ev ∧
      ev.vkk ++ p2.pkk = (List.range r.wires).map (fun w => (β * (qap r (2 ^ k) (E.dom (2 ^ k)).gen R1C.l w).eval τ
        + α * (qap r (2 ^ k) (E.dom (2 ^ k)).gen R1C.r w).eval τ + (qap r (2 ^ k) (E.dom (2 ^ k)).gen R1C.o w).eval τ) • C.g1) ∧
      ev.vkk.length = r.nbPublic ∧ p2.pub = r.nbPublic ∧ p2.pkk.length = p2.witness ∧ ev.ckk = [] ∧
      p2.pub + p2.witness = p2.wires ∧ p2.wires = r.wires := by
  refine ⟨_, trapdoorFile C r k (E.dom (2 ^ k)).gen τ α β,
    trapdoorEvals C r (2 ^ k) (E.dom (2 ^ k)).gen τ α β (E.cmtBytes r.commitment),
    init_honest hC E par r hr hnc.publicCommitment f hf τ α β hpw k hk hk27 hkp hdom junk oldLag oldEvals, rfl, rfl, ?_,
    by simp [trapdoorEvals, hnc.shared_eq], hnc.shared_eq, by simp [trapdoorFile], rfl, ?_, rfl⟩
  · have hsh := hnc.publicCommitment.shared_le
    obtain ⟨m, hm⟩ : ∃ m, r.wires = r.shared + m := ⟨r.wires - r.shared, by omega⟩
    simp only [trapdoorFile, trapdoorEvals]
    rw [show r.wires - r.shared = m by omega, hm, List.range_add, List.map_append, List.map_map]
    rfl
  · have hsh := hnc.publicCommitment.shared_le
    simp only [trapdoorFile]; omega

omit [DecidableEq G1] [DecidableEq G2] hC in
/-- the last step only appends -/
theorem processPVCKK_appends (cmtBytes : Commitment → Bytes) (r : R1CS F) (h2 : Header) (s : InitSt) :
    ∃ t1 t2, ((processPVCKK C cmtBytes r h2).run s).2 = ⟨s.ph2 ++ t1, s.lag, s.evals ++ t2⟩ := by
  have nothing : ∃ t1 t2, s = ⟨s.ph2 ++ t1, s.lag, s.evals ++ t2⟩ := ⟨[], [], by simp⟩
  unfold processPVCKK
  rw [Go.bind_ok (a := s.lag) (s' := s) rfl]
  simp only [Go.bind_run, Go.lift_run]
  cases makeLen h2.wires with
  | error e => exact nothing
  | ok w =>
    simp only
    cases ((readLag3 C).run (Rd.buffered 4096 s.lag)).1 with
    | error e => exact nothing
    | ok x =>
      obtain ⟨t, a, b⟩ := x
      simp only [Go.bind_run, Go.lift_run]
      cases accumulateAll r.coefficients t R1C.o 0 r.constraints (List.replicate w 0) with
      | error e => exact nothing
      | ok L =>
        simp only
        cases accumulateAll r.coefficients a R1C.r 0 r.constraints L with
        | error e => exact nothing
        | ok L =>
          simp only
          cases accumulateAll r.coefficients b R1C.l 0 r.constraints L with
          | error e => exact nothing
          | ok L =>
            simp only
            cases filterL L h2 r.commitment with
            | error e => exact nothing
            | ok x =>
              obtain ⟨pkk, vkk, ckk⟩ := x
              exact ⟨C.c1.encodeN pkk, C.c1.encodeSlice vkk ++ (C.c1.encodeSlice ckk ++ cmtBytes r.commitment), by
                simp [Go.bind_run, emitPh2, emitEvals]⟩

/-- **C24**, **C25** for circuits with any commitment (for which the last step may abort, see C27): for every valid R1CS and
every honest phase 1 file that is large enough, the evaluation file starts with `[α]1, [β]1, [β]2` and the points
`[a_w(τ)]1`, `[b_w(τ)]1`, `[b_w(τ)]2` of all wires, and the phase 2 file with the header, `[1]1`, `[1]2`, and Z. -/
theorem C24_C25_any_circuit (E : InitEnv F) (par : Par) (r : R1CS F) (hr : r.Valid) (f : P1File G1 G2)
    (hf : f.WF) (τ α β : F) (hpw : f.Powers C τ α β) (k : Nat) (hk : IsDomain r.constraints.length k) (hk27 : k ≤ 27)
    (hkp : k ≤ f.power.toNat) (hdom : (E.dom (2 ^ k)).Lawful k) (junk oldLag oldEvals : Bytes) :
    ∃ tail tail', (initializeFiles C E par (some r) (f.encode C ++ junk) oldLag oldEvals).2.evals
      = C.c1.bytes (α • C.g1) ++ C.c1.bytes (β • C.g1) ++ C.c2.bytes (β • C.g2)
        ++ C.c1.encodeSlice ((List.range r.wires).map fun w => (qap r (2 ^ k) (E.dom (2 ^ k)).gen R1C.l w).eval τ • C.g1)
        ++ C.c1.encodeSlice ((List.range r.wires).map fun w => (qap r (2 ^ k) (E.dom (2 ^ k)).gen R1C.r w).eval τ • C.g1)
        ++ C.c2.encodeSlice ((List.range r.wires).map fun w => (qap r (2 ^ k) (E.dom (2 ^ k)).gen R1C.r w).eval τ • C.g2)
        ++ tail ∧
      (initializeFiles C E par (some r) (f.encode C ++ junk) oldLag oldEvals).2.ph2
      = E.header.enc (circuitHeader r r.constraints.length ((2 ^ k : Nat) : Int)) ++ (C.c1.bytes C.g1 ++ C.c2.bytes C.g2 ++
        ((List.range (2 ^ k - 1)).map fun j => (τ ^ bitRev k j * (τ ^ 2 ^ k - 1)) • C.g1).flatMap C.c1.bytes) ++ tail' := by
  have hn : 2 ^ k < 2 ^ 32 := Nat.pow_lt_pow_right (by omega) (by omega)
  have hw := circuitHeader_wires r (r.constraints.length : Int) ((2 ^ k : Nat) : Int)
  obtain ⟨hc1, hd1, hz1⟩ := circuitHeader_rest r (r.constraints.length : Int) ((2 ^ k : Nat) : Int)
  unfold initializeFiles initBody
  rw [Go.bind_ok (processHeader_run E.header r hr f hf junk k hkp (by rw [hr.count]; exact nextPowerofTwo_eq hk hk27) hk.fits _)]
  simp only
  rw [Go.bind_ok (processLagrange_run hC par E.dom f hf junk k hkp hdom _ rfl _ hd1 _)]
  rw [Go.bind_ok (processEvaluations_run hC r hr f hf junk (2 ^ k) hn hk.fits (E.dom (2 ^ k)).gen _ rfl _ hd1 hw _ _)]
  rw [Go.bind_ok (processDeltaAndZ_run hC f hf junk k hkp _ hd1 _)]
  obtain ⟨t1, t2, h⟩ := processPVCKK_appends (C := C) E.cmtBytes r (circuitHeader r r.constraints.length ((2 ^ k : Nat) : Int)) _
  rw [h]
  have hpos : 0 < 2 ^ f.power.toNat := Nat.pow_pos (by omega)
  refine ⟨t2, t1, ?_, ?_⟩
  · simp only
    rw [(honest_sections r k hk.fits _ hdom f hkp τ α β hpw).1, (honest_sections r k hk.fits _ hdom f hkp τ α β hpw).2.1,
      (honest_sections r k hk.fits _ hdom f hkp τ α β hpw).2.2.1, hpw.alphaG1, hpw.betaG1, hpw.betaG2]
    simp [List.getD_eq_getElem?_getD]
  · simp only
    have := (honest_sections r k hk.fits _ hdom f hkp τ α β hpw).2.2.2
    rw [this]
    simp

/-! ### C27: circuits with commitments -/

omit [DecidableEq G1] [DecidableEq G2] hC in
theorem accumulateTerms_length {G : Type} [AddCommGroup G] [Module F G] (cs : List F) (srs : List G) (i : Nat) (ts : List Term) :
    ∀ (buff out : List G), accumulateTerms cs srs i ts buff = .ok out → out.length = buff.length := by
  induction ts with
  | nil => intro buff out h; simp only [accumulateTerms, Except.ok.injEq] at h; rw [h]
  | cons t ts ih =>
    intro buff out h
    rw [accumulateTerms] at h
    obtain ⟨a, -, h⟩ := except_bind_eq_ok h
    obtain ⟨b, -, h⟩ := except_bind_eq_ok h
    obtain ⟨c, -, h⟩ := except_bind_eq_ok h
    simpa using ih _ _ h

omit [DecidableEq G1] [DecidableEq G2] hC in
theorem accumulateAll_length {G : Type} [AddCommGroup G] [Module F G] (cs : List F) (srs : List G) (side : R1C → List Term)
    (rs : List R1C) : ∀ (i : Nat) (buff out : List G), accumulateAll cs srs side i rs buff = .ok out → out.length = buff.length := by
  induction rs with
  | nil => intro i buff out h; simp only [accumulateAll, Except.ok.injEq] at h; rw [h]
  | cons c rs ih =>
    intro i buff out h
    rw [accumulateAll] at h
    obtain ⟨a, ha, h⟩ := except_bind_eq_ok h
    rw [ih _ _ _ h, accumulateTerms_length _ _ _ _ _ _ ha]

omit [DecidableEq G1] [DecidableEq G2] hC in
/-- a run that succeeds, on any phase 1 bytes, has split the wires -/
theorem init_ok_filter (E : InitEnv F) (par : Par) (r : R1CS F) (phase1File oldLag oldEvals : Bytes) (st : InitSt)
    (h : initializeFiles C E par (some r) phase1File oldLag oldEvals = (.ok (), st)) :
    ∃ L c d out, L.length = r.wires ∧ filterL (G1 := G1) L (circuitHeader r c d) r.commitment = .ok out := by
  unfold initializeFiles initBody at h
  obtain ⟨⟨r', h1, h2⟩, s1, hh, h⟩ := Go.bind_eq_ok h
  obtain ⟨_, s2, -, h⟩ := Go.bind_eq_ok h
  obtain ⟨_, s3, -, h⟩ := Go.bind_eq_ok h
  obtain ⟨_, s4, -, hlast⟩ := Go.bind_eq_ok h
  clear h
  unfold processHeader at hh
  obtain ⟨d, _, -, hh⟩ := Go.bind_eq_ok hh
  obtain ⟨x1, _, -, hh⟩ := Go.bind_eq_ok hh
  obtain ⟨_, _, -, hh⟩ := Go.bind_eq_ok hh
  obtain ⟨_, _, -, hh⟩ := Go.bind_eq_ok hh
  simp only [Go.pure_run, Prod.mk.injEq, Except.ok.injEq] at hh
  obtain ⟨⟨rfl, rfl, rfl⟩, -⟩ := hh
  unfold processPVCKK at hlast
  obtain ⟨_, _, -, h⟩ := Go.bind_eq_ok hlast
  obtain ⟨w, _, hw, h⟩ := Go.bind_eq_ok h
  obtain ⟨⟨t, a, b⟩, _, -, h⟩ := Go.bind_eq_ok h
  obtain ⟨L1, _, hL1, h⟩ := Go.bind_eq_ok h
  obtain ⟨L2, _, hL2, h⟩ := Go.bind_eq_ok h
  obtain ⟨L3, _, hL3, h⟩ := Go.bind_eq_ok h
  obtain ⟨out, _, hf, h⟩ := Go.bind_eq_ok h
  simp only [Go.lift_run, Prod.mk.injEq] at hw hL1 hL2 hL3 hf
  refine ⟨L3, _, _, out, ?_, hf.1⟩
  rw [accumulateAll_length _ _ _ _ _ _ _ hL3.1, accumulateAll_length _ _ _ _ _ _ _ hL2.1,
    accumulateAll_length _ _ _ _ _ _ _ hL1.1, List.length_replicate]
  have := makeLen_eq_ok hw.1
  rw [circuitHeader_wires] at this
  omega

omit [DecidableEq G1] [DecidableEq G2] hC in
/-- **C27** is false: for every circuit that commits to at least one private wire (gnark lists them in ascending order; wire 0 is
the public constant), whatever the phase 1 file and everything else, initialisation does not succeed — `filterL` indexes the
list of private committed wires by the wire number. -/
theorem C27_private_commitment_aborts (E : InitEnv F) (par : Par) (r : R1CS F) (phase1File oldLag oldEvals : Bytes)
    (pubc priv : List Nat) (hc : r.commitment.committed = pubc ++ priv) (hn : r.commitment.nbPrivateCommitted = priv.length)
    (hne : priv ≠ []) (hsorted : priv.Pairwise (· < ·)) (hrange : ∀ x ∈ priv, 1 ≤ x ∧ x < r.wires) :
    (initializeFiles C E par (some r) phase1File oldLag oldEvals).1 ≠ .ok () := by
  intro hok
  obtain ⟨L, c, d, out, hL, hfil⟩ := init_ok_filter (C := C) E par r phase1File oldLag oldEvals _ (Prod.ext hok rfl)
  have hdrop : r.commitment.committed.drop (r.commitment.committed.length - r.commitment.nbPrivateCommitted) = priv := by
    rw [hc, hn, List.length_append, Nat.add_sub_cancel, List.drop_left]
  have hge : ∀ i < priv.length, i + 1 ≤ priv.getD i 0 := by
    intro i
    induction i with
    | zero =>
      intro hi
      rw [List.getD_eq_getElem _ _ hi]
      exact (hrange _ (List.getElem_mem _)).1
    | succ i ih =>
      intro hi
      have := ih (by omega)
      rw [List.getD_eq_getElem _ _ (by omega)] at this
      rw [List.getD_eq_getElem _ _ hi]
      have := List.pairwise_iff_getElem.mp hsorted i (i + 1) (by omega) hi (by omega)
      omega
  have hpos : 0 < priv.length := List.length_pos_of_ne_nil hne
  have hlt : priv.length < r.wires := by
    have h1 := hge (priv.length - 1) (by omega)
    have h2 : priv.getD (priv.length - 1) 0 < r.wires := by
      rw [List.getD_eq_getElem _ _ (by omega)]
      exact (hrange _ (List.getElem_mem _)).2
    omega
  unfold filterL at hfil
  obtain ⟨w, -, hfil⟩ := except_bind_eq_ok hfil
  obtain ⟨p, -, hfil⟩ := except_bind_eq_ok hfil
  obtain ⟨q, -, hfil⟩ := except_bind_eq_ok hfil
  obtain ⟨m, hm⟩ := filterLoop_private_panics (circuitHeader r c d).pub r.commitment
    (by rw [hc, hn, List.length_append]; omega)
    (by
      rw [hdrop, hn]
      intro i hi
      have := hge i hi
      omega)
    (by omega) L 0 (List.replicate w 0) (List.replicate p 0) (List.replicate q 0) 0 (by omega) (by omega)
  rw [hm] at hfil
  simp at hfil

omit [DecidableEq G1] [DecidableEq G2] hC in
/-- **C27** is false also for circuits that commit to public wires only, if the commitment wire is not the first wire after the public
ones (for instance because the circuit has a secret input): VKK has `#Public + 1` places, which are filled by the public wires
and the wire after them. -/
theorem C27_commitment_index_aborts (E : InitEnv F) (par : Par) (r : R1CS F) (phase1File oldLag oldEvals : Bytes)
    (hcommitted : r.commitment.committed ≠ []) (hpriv : r.commitment.nbPrivateCommitted = 0)
    (hidx : r.nbPublic < r.commitment.commitmentIndex) (hwire : r.commitment.commitmentIndex < r.wires) :
    (initializeFiles C E par (some r) phase1File oldLag oldEvals).1 ≠ .ok () := by
  intro hok
  obtain ⟨L, c, d, out, hL, hfil⟩ := init_ok_filter (C := C) E par r phase1File oldLag oldEvals _ (Prod.ext hok rfl)
  have his : r.commitment.is = true := by simp [Commitment.is, hcommitted]
  have hpub : (circuitHeader r c d).pub = ((r.nbPublic + 1 : Nat) : Int) := by simp [circuitHeader, his]
  unfold filterL at hfil
  rw [hpub] at hfil
  obtain ⟨w, -, hfil⟩ := except_bind_eq_ok hfil
  obtain ⟨p, hp, hfil⟩ := except_bind_eq_ok hfil
  obtain ⟨q, -, hfil⟩ := except_bind_eq_ok hfil
  have hp' : p = r.nbPublic + 1 := by have := makeLen_eq_ok hp; omega
  subst hp'
  obtain ⟨m, hm⟩ := filterLoop_index_panics (r.nbPublic + 1) r.commitment hpriv his (by omega) L 0 (List.replicate w 0)
    (List.replicate (r.nbPublic + 1) 0) (List.replicate q 0) (by simp) (by omega) (by omega)
  rw [Nat.zero_min] at hm
  rw [hm] at hfil
  simp at hfil

omit [DecidableEq G1] [DecidableEq G2] hC in
/-- **C27**, put together: of the circuits as gnark builds them, initialisation succeeds at most for those that commit to public
wires only, and whose commitment wire follows the public ones. -/
theorem C27_only_public_commitment (E : InitEnv F) (par : Par) (r : R1CS F) (hcv : r.ValidCommitment)
    (phase1File oldLag oldEvals : Bytes) (hok : (initializeFiles C E par (some r) phase1File oldLag oldEvals).1 = .ok ()) :
    r.PublicCommitment := by
  obtain ⟨pubc, priv, hc, hn, hs, hrange⟩ := hcv.committed
  have hp : priv = [] := by
    by_contra hne
    exact C27_private_commitment_aborts E par r phase1File oldLag oldEvals pubc priv hc hn hne hs hrange hok
  rw [hp, List.length_nil] at hn
  refine ⟨hn, fun hne => ?_⟩
  obtain ⟨h1, h2⟩ := hcv.index hne
  have h3 : ¬ r.nbPublic < r.commitment.commitmentIndex := fun h3 =>
    C27_commitment_index_aborts E par r phase1File oldLag oldEvals hne hn h3 h2 hok
  omega

/-- **C27**, what remains (`_partial`): a commitment to public wires only, whose commitment wire directly follows the public wires.
Missing: commitments to private wires, and commitment wires at other places — for these the property is false. -/
theorem C27_public_commitment_partial (E : InitEnv F) (par : Par) (r : R1CS F) (hr : r.Valid)
    (hcommitted : r.commitment.committed ≠ []) (hpriv : r.commitment.nbPrivateCommitted = 0)
    (hidx : r.commitment.commitmentIndex = r.nbPublic) (hwire : r.commitment.commitmentIndex < r.wires) (f : P1File G1 G2)
    (hf : f.WF) (k : Nat) (hk : IsDomain r.constraints.length k) (hk27 : k ≤ 27) (hkp : k ≤ f.power.toNat)
    (hdom : (E.dom (2 ^ k)).Lawful k) (junk oldLag oldEvals : Bytes) :
    let all := (List.range r.wires).map (combined r (2 ^ k) (E.dom (2 ^ k)).gen f)
    initializeFiles C E par (some r) (f.encode C ++ junk) oldLag oldEvals
      = (.ok (), ⟨(initFile C r k f (r.nbPublic + 1) 0 (all.drop (r.nbPublic + 1))).encode C E.header,
          lagBytes C (2 ^ k) (E.dom (2 ^ k)).gen f,
          (initEvals r (2 ^ k) (E.dom (2 ^ k)).gen f (all.take (r.nbPublic + 1)) [] (E.cmtBytes r.commitment)).encode C⟩) := by
  intro all
  have hal : all.length = r.wires := by simp [all]
  have hlt : (all.take (r.nbPublic + 1)).length = r.nbPublic + 1 := by rw [List.length_take]; omega
  have his : r.commitment.is = true := by simp [Commitment.is, hcommitted]
  rw [hidx] at hwire
  have hfil := filterL_split all (circuitHeader r r.constraints.length ((2 ^ k : Nat) : Int)) r.commitment hpriv (r.nbPublic + 1)
    (r.wires - (r.nbPublic + 1)) (by simp [circuitHeader, his])
    (by simp only [circuitHeader, his, hpriv, R1CS.wires] at hwire ⊢; simp; omega)
    (by simp [circuitHeader, his, hpriv]) (by intro; omega) (by omega)
  have := init_run hC E par r hr f hf junk oldLag oldEvals k hkp hk27
    (by rw [hr.count]; exact nextPowerofTwo_eq hk hk27) hk.fits hdom _ _ _ hfil
  rw [this, hlt]
  rfl

/-! ### C44: parted constraint systems -/

omit [DecidableEq G1] [DecidableEq G2] hC in
theorem accumulateParted_eq {G : Type} [AddCommGroup G] [Module F G] (cs : List F) (srs : List G) (side : R1C → List Term)
    (get : Nat → Except Fail R1C) (rs : List R1C) : ∀ (i : Nat) (buff : List G),
    (∀ j (h : j < rs.length), get (i + j) = .ok rs[j]) →
    accumulateParted cs srs side get rs.length i buff = accumulateAll cs srs side i rs buff := by
  induction rs with
  | nil => intro i buff _; rfl
  | cons c rs ih =>
    intro i buff h
    have h0 := h 0 (by simp)
    simp only [Nat.add_zero, List.getElem_cons_zero] at h0
    rw [List.length_cons, accumulateParted, accumulateAll, h0]
    simp only [bind, Except.bind]
    cases accumulateTerms cs srs i (side c) buff with
    | error e => rfl
    | ok b =>
      exact ih (i + 1) b fun j hj => by
        have := h (j + 1) (by simpa using hj)
        rw [show i + (j + 1) = i + 1 + j by omega] at this
        simpa using this

omit [AddCommGroup G1] [Module F G1] [AddCommGroup G2] [Module F G2] [AddCommGroup GT] [Module F GT] [DecidableEq G1]
  [DecidableEq G2] hC in
theorem processHeader_parted (H : HeaderCodec) (r : R1CS F) (cs : PartedR1CS F)
    (hh : ∀ c d, circuitHeader cs.base c d = circuitHeader r c d) (phase1File : Bytes) (s : InitSt) :
    (processHeader H (some r) phase1File).run s
      = match (processHeaderParted H cs r.nbConstraints phase1File).run s with
        | (.ok (a, b), s') => (.ok (r, a, b), s')
        | (.error e, s') => (.error e, s') := by
  unfold processHeader processHeaderParted
  simp only [Go.bind_run, Go.lift_run, hh]
  cases nextPowerofTwo (r.nbConstraints : Int) with
  | error e => rfl
  | ok d =>
    simp only
    cases (Phase1.Header.readFrom.run (Rd.file phase1File 0)).1 with
    | error e => rfl
    | ok h1 =>
      simp only
      cases checkPower h1.power (r.nbConstraints : Int) <;> rfl

omit [DecidableEq G1] [DecidableEq G2] hC in
/-- **C44**: if the parted constraint system has the counts, coefficients and commitment of `r` and yields its constraints in order,
and the number of constraints is given correctly, then `InitializeFromPartedR1CS` does what `Initialize` does: same result and
same files, for every phase 1 file — also when it fails or aborts. -/
theorem C44_parted (E : InitEnv F) (par : Par) (r : R1CS F) (cs : PartedR1CS F) (hcount : r.nbConstraints = r.constraints.length)
    (hpub : cs.base.nbPublic = r.nbPublic) (hsec : cs.base.nbSecret = r.nbSecret) (hint : cs.base.nbInternal = r.nbInternal)
    (hcoeff : cs.base.coefficients = r.coefficients) (hcmt : cs.base.commitment = r.commitment)
    (hget : ∀ i (h : i < r.constraints.length), cs.get i = .ok r.constraints[i]) (phase1File oldLag oldEvals : Bytes) :
    initializeParted C E par cs r.nbConstraints phase1File oldLag oldEvals
      = initializeFiles C E par (some r) phase1File oldLag oldEvals := by
  have hh : ∀ c d, circuitHeader cs.base c d = circuitHeader r c d := by
    intro c d
    unfold circuitHeader
    rw [hpub, hsec, hint, hcmt]
  have hacc : ∀ {G : Type} [AddCommGroup G] [Module F G] (srs buff : List G) (side : R1C → List Term),
      accumulateParted cs.base.coefficients srs side cs.get (r.nbConstraints : Int).toNat 0 buff
        = accumulateAll r.coefficients srs side 0 r.constraints buff := by
    intro G _ _ srs buff side
    rw [hcoeff, Int.toNat_natCast, hcount]
    exact accumulateParted_eq _ _ _ _ _ _ _ fun j hj => by rw [Nat.zero_add]; exact hget j hj
  have hE : ∀ h1 h2, processEvaluationsParted C cs r.nbConstraints h1 h2 phase1File
      = processEvaluations C r h1 h2 phase1File := by
    intro h1 h2
    unfold processEvaluationsParted processEvaluations
    simp only [hacc]
  have hP : ∀ h2, processPVCKKParted C E.cmtBytes cs r.nbConstraints h2 = processPVCKK C E.cmtBytes r h2 := by
    intro h2
    unfold processPVCKKParted processPVCKK
    simp only [hacc, hcmt]
  unfold initializeParted initializeFiles initBody
  simp only [hE, hP]
  rw [Go.bind_run, Go.bind_run, processHeader_parted E.header r cs hh]
  cases (processHeaderParted E.header cs r.nbConstraints phase1File).run ⟨[], oldLag, oldEvals⟩ with
  | mk x s => cases x <;> rfl

/-- A circuit with its constraints beyond the first `m` removed. -/
def Phase2.R1CS.takeConstraints (r : R1CS F) (m : Nat) : R1CS F :=
  { r with constraints := r.constraints.take m, nbConstraints := m }

omit [DecidableEq G1] [DecidableEq G2] hC in
/-- **C51** is false: the number of constraints given to `p2np` is not checked against the circuit. Whatever the phase 1 file, with
`m` smaller than the number of constraints the files are those of the circuit that consists of the first `m` constraints:
the keys then accept assignments that violate the others. -/
theorem C51_constraints_dropped (E : InitEnv F) (par : Par) (r : R1CS F) (cs : PartedR1CS F) (m : Nat)
    (hm : m ≤ r.constraints.length)
    (hpub : cs.base.nbPublic = r.nbPublic) (hsec : cs.base.nbSecret = r.nbSecret) (hint : cs.base.nbInternal = r.nbInternal)
    (hcoeff : cs.base.coefficients = r.coefficients) (hcmt : cs.base.commitment = r.commitment)
    (hget : ∀ i (h : i < r.constraints.length), cs.get i = .ok r.constraints[i]) (phase1File oldLag oldEvals : Bytes) :
    initializeParted C E par cs m phase1File oldLag oldEvals
      = initializeFiles C E par (some (r.takeConstraints m)) phase1File oldLag oldEvals := by
  have hl : (r.takeConstraints m).constraints.length = m := by simp [R1CS.takeConstraints, hm]
  refine C44_parted E par (r.takeConstraints m) cs hl.symm hpub hsec hint hcoeff hcmt (fun i hi => ?_) phase1File oldLag oldEvals
  rw [hget i (by rw [hl] at hi; omega)]
  simp [R1CS.takeConstraints]

end

/-! ### a concrete circuit

Wires: 0 the constant, 1 = y public, 2 = x secret, 3 = v internal. Constraints `x·x = v`, `(5v + 2)·1 = y`,
`(x + x - y)·1 = 5 + 5`; satisfied by x = 3, v = 9, y = 13 in the field with 17 elements. -/

namespace Toy

def circuit : R1CS K where
  nbPublic := 2
  nbSecret := 1
  nbInternal := 1
  nbConstraints := 3
  constraints := [⟨[⟨1, 2⟩], [⟨1, 2⟩], [⟨1, 3⟩]⟩, ⟨[⟨4, 3⟩, ⟨2, 0⟩], [⟨1, 0⟩], [⟨1, 1⟩]⟩,
    ⟨[⟨1, 2⟩, ⟨1, 2⟩, ⟨3, 1⟩], [⟨1, 0⟩], [⟨4, 0⟩, ⟨4, 0⟩]⟩]
  coefficients := [0, 1, 2, 16, 5]
  commitment := ⟨[], 0, 0⟩

theorem circuit_valid : circuit.Valid := ⟨by decide, by decide, by decide, by decide⟩

theorem circuit_nc : circuit.NoCommitment := ⟨rfl, rfl⟩

theorem circuit_domain : IsDomain circuit.constraints.length 2 where
  two := by decide
  fits := by decide
  least j h1 h2 := by
    by_contra h
    have : j = 1 := by omega
    subst this
    revert h2
    decide

/-- the phase 1 file of power `p` for the trapdoor `τ, α, β`, without records -/
def srs (p : UInt8) (τ α β : K) : P1File K K where
  power := p
  tauG1 := (List.range (2 * 2 ^ p.toNat - 1)).map fun i => τ ^ i • curve.g1
  alphaG1 := (List.range (2 ^ p.toNat)).map fun i => (α * τ ^ i) • curve.g1
  betaG1 := (List.range (2 ^ p.toNat)).map fun i => (β * τ ^ i) • curve.g1
  tauG2 := (List.range (2 ^ p.toNat)).map fun i => τ ^ i • curve.g2
  betaG2 := β • curve.g2
  records := []

theorem srs_wf (p : UInt8) (hp : p.toNat ≤ 62) (τ α β : K) : (srs p τ α β).WF :=
  ⟨hp, by simp [srs], by simp [srs], by simp [srs], by simp [srs], by simp [srs], by simp [srs]⟩

theorem srs_powers (p : UInt8) (τ α β : K) : (srs p τ α β).Powers curve τ α β := ⟨rfl, rfl, rfl, rfl, rfl⟩

/-- header codec, domains, encoding of the commitment info -/
def env : InitEnv K := ⟨Gob.headerCodec, fun _ => dom4, fun _ => [0xc0]⟩

end Toy

-- a file of power 3 is used with a domain of size 4; τ = 3, α = 5, β = 7
example := C24_evaluations Toy.lawful Toy.env par4 Toy.circuit Toy.circuit_valid Toy.circuit_nc (Toy.srs 3 3 5 7)
  (Toy.srs_wf 3 (by decide) _ _ _) 3 5 7 (Toy.srs_powers 3 3 5 7) 2 Toy.circuit_domain (by decide) (by decide) dom4_lawful
  [9, 9] [1, 2, 3] [4]

example := C24_interpolates Toy.circuit R1C.l 2 (by decide) dom4 dom4_lawful 2

example := C25_z Toy.lawful Toy.env par4 Toy.circuit Toy.circuit_valid Toy.circuit_nc (Toy.srs 3 3 5 7)
  (Toy.srs_wf 3 (by decide) _ _ _) 3 5 7 (Toy.srs_powers 3 3 5 7) 2 Toy.circuit_domain (by decide) (by decide) dom4_lawful
  [9, 9] [1, 2, 3] [4]

example := C26_values Toy.lawful Toy.env par4 Toy.circuit Toy.circuit_valid Toy.circuit_nc (Toy.srs 3 3 5 7)
  (Toy.srs_wf 3 (by decide) _ _ _) 3 5 7 (Toy.srs_powers 3 3 5 7) 2 Toy.circuit_domain (by decide) (by decide) dom4_lawful
  [9, 9] [1, 2, 3] [4]

example := C20_offsets Toy.lawful (Toy.srs 3 3 5 7) (Toy.srs_wf 3 (by decide) _ _ _) (by decide) [1, 2] 2 (by decide) par4
  (fun _ => dom4) dom4_lawful 0 ⟨4, 2, 2, 0, 3, 4, 0⟩ rfl ⟨[], [], []⟩

-- the circuit commits to its secret input: the last step aborts, the earlier ones are as usual
example := C24_C25_any_circuit Toy.lawful Toy.env par4 { Toy.circuit with commitment := ⟨[1, 2], 1, 3⟩ }
  ⟨by decide, by decide, by decide, by decide⟩ (Toy.srs 3 3 5 7)
  (Toy.srs_wf 3 (by decide) _ _ _) 3 5 7 (Toy.srs_powers 3 3 5 7) 2 Toy.circuit_domain (by decide) (by decide) dom4_lawful
  [9, 9] [1, 2, 3] [4]

-- a circuit that commits to its secret input
example := C27_private_commitment_aborts (C := Toy.curve) Toy.env par4
  { Toy.circuit with commitment := ⟨[1, 2], 1, 3⟩ } [] [] [] [1] [2] rfl rfl (by decide) (by decide) (by decide)

-- a circuit that commits to its public input, with a secret input before the commitment wire
example := C27_commitment_index_aborts (C := Toy.curve) Toy.env par4
  { Toy.circuit with commitment := ⟨[1], 0, 3⟩ } [] [] [] (by decide) rfl (by decide) (by decide)

-- the same without a secret input
-- a circuit that commits to its public wire, which initialisation accepts
example := C27_only_public_commitment (C := Toy.curve) Toy.env par4
  { Toy.circuit with nbSecret := 0, nbInternal := 2, commitment := ⟨[1], 0, 2⟩ }
  ⟨⟨[1], [], rfl, rfl, List.Pairwise.nil, by simp⟩, by decide⟩ _ [] [] (congrArg Prod.fst
    (C27_public_commitment_partial Toy.lawful Toy.env par4
      { Toy.circuit with nbSecret := 0, nbInternal := 2, commitment := ⟨[1], 0, 2⟩ } ⟨by decide, by decide, by decide, by decide⟩
      (by decide) rfl rfl (by decide) (Toy.srs 3 3 5 7) (Toy.srs_wf 3 (by decide) _ _ _) 2 Toy.circuit_domain (by decide) (by decide)
      dom4_lawful [] [] []))

example := C27_public_commitment_partial Toy.lawful Toy.env par4
  { Toy.circuit with nbSecret := 0, nbInternal := 2, commitment := ⟨[1], 0, 2⟩ } ⟨by decide, by decide, by decide, by decide⟩
  (by decide) rfl rfl (by decide) (Toy.srs 3 3 5 7) (Toy.srs_wf 3 (by decide) _ _ _) 2 Toy.circuit_domain (by decide) (by decide)
  dom4_lawful [] [] []

example := C28_counts Toy.circuit 3 4

/-- the parted version of the circuit -/
def Toy.parted : PartedR1CS Toy.K := ⟨{ Toy.circuit with constraints := [], nbConstraints := 0 }, fun i => index Toy.circuit.constraints i⟩

theorem Toy.parted_get (i : Nat) (h : i < Toy.circuit.constraints.length) :
    Toy.parted.get i = .ok Toy.circuit.constraints[i] := by
  simp only [Toy.parted, index, List.getElem?_eq_getElem h]

example := C44_parted (C := Toy.curve) Toy.env par4 Toy.circuit Toy.parted rfl rfl rfl rfl rfl rfl Toy.parted_get
  ((Toy.srs 3 3 5 7).encode Toy.curve) [] []

-- the third constraint is dropped
example := C51_constraints_dropped (C := Toy.curve) Toy.env par4 Toy.circuit Toy.parted 2 (by decide) rfl rfl rfl rfl rfl
  Toy.parted_get ((Toy.srs 3 3 5 7).encode Toy.curve) [] []

-- x = 3, v = 9, y = 12 violates the second constraint only: dropping constraints matters
example : (Toy.circuit.takeConstraints 2).constraints ≠ Toy.circuit.constraints := by decide

-- C21: header processing accepts the circuit for a file of power 2
example : ∃ s', (processHeader Gob.headerCodec (some Toy.circuit) ((Toy.srs 2 3 5 7).encode Toy.curve)).run ⟨[], [], []⟩
    = (.ok (Toy.circuit, ⟨2, 0⟩, circuitHeader Toy.circuit 3 4), s') := by
  have := processHeader_run (C := Toy.curve) Gob.headerCodec Toy.circuit Toy.circuit_valid (Toy.srs 2 3 5 7)
    (Toy.srs_wf 2 (by decide) _ _ _) [] 2 (by decide) (nextPowerofTwo_eq Toy.circuit_domain (by decide)) (by decide) ⟨[], [], []⟩
  rw [List.append_nil] at this
  exact ⟨_, this⟩

example := C21_power_zero Gob.headerCodec { Toy.circuit with nbConstraints := 1, constraints := [] } rfl 0 [1, 2, 3] ⟨[], [], []⟩

end ZkSetup
