import Verif.Proofs.FilterExact
import Verif.Props.InitBytes
import Verif.Props.InitCrash
import Mathlib.Data.List.Sort
/-
C87: exactly which circuits the initialisation of phase 2 accepts, for any commitment description, and which wires go where.
-/
set_option linter.unusedSectionVars false

namespace ZkSetup

open Phase2 Cli

section
variable {F : Type}

/-- **C87**, the two sides share out the wires: every wire is one of the first `priv`, or goes to exactly one of the two keys. -/
theorem C87_every_wire (r : R1CS F) (i : Nat) (hi : i < r.wires) :
    (i < r.priv ∧ i ∉ r.verifierWires ∧ i ∉ r.proverWires) ∨ (r.priv ≤ i ∧ i ∈ r.verifierWires ∧ i ∉ r.proverWires) ∨
      (r.priv ≤ i ∧ i ∉ r.verifierWires ∧ i ∈ r.proverWires) := by
  unfold R1CS.verifierWires R1CS.proverWires
  simp only [List.mem_filter, List.mem_range'_1]
  by_cases h : i < r.priv
  · exact Or.inl ⟨h, by omega, by omega⟩
  · cases hv : r.toVerifier i
    · exact Or.inr (Or.inr ⟨by omega, by simp, by simp; omega⟩)
    · exact Or.inr (Or.inl ⟨by omega, by simp; omega, by simp⟩)

theorem filter_range'_sorted (q : Nat → Bool) (a n : Nat) : ((List.range' a n).filter q).Pairwise (· < ·) :=
  List.Pairwise.filter _ (List.pairwise_lt_range' (s := a) (n := n))

/-- **C87**, no private wire declared as committed: the verifying key gets the first `shared` wires, wherever the commitment wire is. If there
is a commitment, that is one wire more than the public ones, and it need not be the commitment wire. -/
theorem C87_layout_public (r : R1CS F) (h : r.CommitmentFits) (h0 : r.priv = 0) :
    r.verifierWires = List.range r.shared ∧ r.proverWires = List.range' r.shared (r.wires - r.shared) := by
  have hroom := h.room
  have hs : r.commitment.committed ≠ [] → r.commitment.commitmentIndex < r.shared ∨ r.wires ≤ r.commitment.commitmentIndex := by
    intro hne
    rcases h.shape with ⟨_, h⟩ | ⟨h, _⟩
    · have : r.shared = r.nbPublic + 1 := by rw [R1CS.shared, if_neg hne]
      have := h hne
      omega
    · omega
  have hv : ∀ i < r.wires, (r.toVerifier i = true ↔ i < r.shared) := by
    intro i hi
    unfold R1CS.toVerifier
    simp only [Bool.or_eq_true, Bool.and_eq_true, decide_eq_true_eq]
    refine ⟨?_, Or.inl⟩
    rintro (h | ⟨a, b⟩)
    · exact h
    · have := hs a
      omega
  constructor
  · refine List.Pairwise.eq_of_mem_iff (filter_range'_sorted _ _ _) List.pairwise_lt_range fun i => ?_
    rw [R1CS.verifierWires, List.mem_filter, List.mem_range'_1, List.mem_range, h0]
    constructor
    · rintro ⟨a, b⟩
      exact (hv i (by omega)).mp b
    · intro a
      exact ⟨by omega, (hv i (by omega)).mpr a⟩
  · refine List.Pairwise.eq_of_mem_iff (filter_range'_sorted _ _ _) (List.pairwise_lt_range' (s := r.shared)) fun i => ?_
    rw [R1CS.proverWires, List.mem_filter, List.mem_range'_1, List.mem_range'_1, h0, Bool.not_eq_true', ← Bool.not_eq_true]
    constructor
    · rintro ⟨a, b⟩
      rw [hv i (by omega)] at b
      omega
    · intro a
      refine ⟨by omega, ?_⟩
      rw [hv i (by omega)]
      omega

/-- **C87**, private wires declared as committed: if that is accepted at all, the verifying key gets the public wires other than the constant
wire 0, and the commitment wire. -/
theorem C87_layout_private (r : R1CS F) (h : r.CommitmentFits) (h0 : r.priv ≠ 0) :
    r.verifierWires = List.range' 1 r.nbPublic ++ [r.commitment.commitmentIndex] := by
  rcases h.shape with ⟨h, _⟩ | ⟨hp, ⟨pubc, hc⟩, h1, h2, h3, h4⟩
  · exact absurd h h0
  have hne : r.commitment.committed ≠ [] := by
    intro h
    rw [h] at hc
    have := congrArg List.length hc
    simp at this
    omega
  have hsh : r.shared = r.nbPublic + 1 := by rw [R1CS.shared, if_neg hne]
  refine List.Pairwise.eq_of_mem_iff (r := (· < ·)) (filter_range'_sorted _ _ _) ?_ fun i => ?_
  · rw [List.pairwise_append]
    refine ⟨List.pairwise_lt_range', List.pairwise_singleton _ _, fun a ha b hb => ?_⟩
    rw [List.mem_range'_1] at ha
    rw [List.mem_singleton] at hb
    omega
  · rw [R1CS.verifierWires, List.mem_filter, List.mem_range'_1, List.mem_append, List.mem_range'_1, List.mem_singleton]
    unfold R1CS.toVerifier
    simp only [Bool.or_eq_true, Bool.and_eq_true, decide_eq_true_eq, hsh]
    constructor
    · rintro ⟨a, b | ⟨-, b⟩⟩
      · omega
      · exact Or.inr b
    · rintro (a | a)
      · exact ⟨by omega, Or.inl (by omega)⟩
      · exact ⟨by omega, Or.inr ⟨hne, a⟩⟩

end

section
variable {F : Type} [Field F]

/-- **C87**, the circuits that gnark makes: a commitment description in gnark's form fits exactly if it is `PublicCommitment` (C27, C57). -/
theorem C87_gnark (r : R1CS F) (hcv : r.ValidCommitment) : r.CommitmentFits ↔ r.PublicCommitment := by
  obtain ⟨pubc, priv, hc, hn, hs, hrange⟩ := hcv.committed
  have hp : r.priv = priv.length := hn
  constructor
  · intro h
    rcases h.shape with ⟨h0, h1⟩ | ⟨h0, ⟨pubc', h1⟩, _⟩
    · refine ⟨h0, fun hne => ?_⟩
      have := hcv.index hne
      have := h1 hne
      omega
    · exfalso
      have e : priv = List.range r.priv := by
        rw [hc] at h1
        exact (List.append_inj' h1 (by rw [List.length_range, hp])).2
      have := (hrange 0 (by rw [e]; simpa using h0)).1
      omega
  · intro h
    have := h.shared_le
    refine ⟨by rw [show r.priv = 0 from h.priv]; omega, Or.inl ⟨h.priv, fun hne => Or.inl (by have := h.index hne; omega)⟩⟩

end

section
variable {F G1 G2 GT : Type} [Field F] [AddCommGroup G1] [Module F G1] [AddCommGroup G2]
  [Module F G2] [AddCommGroup GT] [Module F GT] [DecidableEq G1] [DecidableEq G2]
variable {C : Curve F G1 G2 GT} (hC : C.Lawful)
include hC

/-- the three files for any circuit `r` with domain `2^k` and the parameters `f` -/
def anyFilesOf (C : Curve F G1 G2 GT) (E : InitEnv F) (r : R1CS F) (k : Nat) (f : P1File G1 G2) : InitSt :=
  let pt := combined r (2 ^ k) (E.dom (2 ^ k)).gen f
  ⟨(initFile C r k f r.shared r.priv (r.proverWires.map pt)).encode C E.header, lagBytes C (2 ^ k) (E.dom (2 ^ k)).gen f,
    (initEvals r (2 ^ k) (E.dom (2 ^ k)).gen f (r.verifierWires.map pt) ((List.range r.priv).map pt) (E.cmtBytes r.commitment)).encode C⟩

/-- the run for a circuit that fits, on a well-formed file -/
theorem init_fits (E : InitEnv F) (par : Par) (r : R1CS F) (hr : r.Valid) (hfit : r.CommitmentFits) (f : P1File G1 G2) (hf : f.WF)
    (k : Nat) (hk : IsDomain r.constraints.length k) (hk27 : k ≤ 27) (hkp : k ≤ f.power.toNat) (hdom : (E.dom (2 ^ k)).Lawful k)
    (junk oldLag oldEvals : Bytes) :
    initializeFiles C E par (some r) (f.encode C ++ junk) oldLag oldEvals = (.ok (), anyFilesOf C E r k f) := by
  obtain ⟨hfil, hlen⟩ := (filterL_exact r (combined r (2 ^ k) (E.dom (2 ^ k)).gen f) (r.constraints.length : Int) ((2 ^ k : Nat) : Int)).1 hfit
  rw [init_run hC E par r hr f hf junk oldLag oldEvals k hkp hk27 (by rw [hr.count]; exact nextPowerofTwo_eq hk hk27) hk.fits hdom _ _ _ hfil]
  rw [List.length_map, List.length_map, List.length_range, hlen]
  rfl

omit [DecidableEq G1] [DecidableEq G2] hC in
/-- a success needs a circuit that fits, whatever the phase 1 bytes are -/
theorem init_ok_fits (E : InitEnv F) (par : Par) (r : R1CS F) (hcnt : r.nbConstraints = r.constraints.length) (hsz : r.wires < 2 ^ 32)
    {input oldLag oldEvals : Bytes} (h : (initializeFiles C E par (some r) input oldLag oldEvals).1 = .ok ()) : r.Valid ∧ r.CommitmentFits := by
  have hr : initializeFiles C E par (some r) input oldLag oldEvals = (.ok (), _) := Prod.ext h rfl
  have ht := init_ok_terms E par r _ _ _ _ hr
  refine ⟨⟨hcnt, fun c hc ts hts t h => (ht c hc ts hts t h).1, fun c hc ts hts t h => (ht c hc ts hts t h).2, hsz⟩, ?_⟩
  obtain ⟨L, c, d, out, hL, hfil⟩ := init_ok_filter (C := C) E par r _ _ _ _ hr
  by_contra hn
  obtain ⟨m, hm⟩ := (filterL_exact r (fun i => L.getD i 0) c d).2 hn
  have : (List.range r.wires).map (fun i => L.getD i 0) = L := by
    rw [← hL]
    apply List.ext_getElem
    · simp
    · intro i h1 h2
      rw [List.getElem_map, List.getElem_range, List.getD_eq_getElem _ _ h2]
  rw [this, hfil] at hm
  cases hm

/-- **C87**, `p2n`: for any circuit and any bytes in place of the phase 1 file, it succeeds exactly if all wires and coefficients of the
circuit exist, the commitment description fits, and the bytes supply parameters for its domain; and this is what it writes then. -/
theorem C87_init (E : InitEnv F) (par : Par) (r : R1CS F) (hcnt : r.nbConstraints = r.constraints.length) (hsz : r.wires < 2 ^ 32) (k : Nat)
    (hk : IsDomain r.constraints.length k) (hk27 : k ≤ 27) (hdom : (E.dom (2 ^ k)).Lawful k) (input oldLag oldEvals : Bytes) (s : InitSt) :
    initializeFiles C E par (some r) input oldLag oldEvals = (.ok (), s) ↔
      r.Valid ∧ r.CommitmentFits ∧
        ∃ f : P1File G1 G2, f.ForPower (UInt8.ofNat k) ∧ f.Supplies C r.constraints.length input ∧ s = anyFilesOf C E r k f := by
  have hn : nextPowerofTwo r.nbConstraints = .ok ((2 ^ k : Nat) : Int) := by rw [hcnt]; exact nextPowerofTwo_eq hk hk27
  have key : ∀ f : P1File G1 G2, r.Valid → r.CommitmentFits → f.ForPower (UInt8.ofNat k) → f.Supplies C r.constraints.length input →
      initializeFiles C E par (some r) input oldLag oldEvals = (.ok (), anyFilesOf C E r k f) := by
    intro f hr hfit hf hs
    obtain ⟨hp, e1, e2, e3, e4, hw⟩ := forPower_sizes hk27 hf
    have hs' := supplies_encode hC f hw r.constraints.length (by rw [hp]; exact hk.fits) []
    rw [← hcnt] at hs hs'
    rw [init_same hC E par r hn hdom.card e1 e2 e3 e4 hs hs' oldLag oldEvals]
    exact init_fits hC E par r hr hfit f hw k hk hk27 (by omega) hdom [] oldLag oldEvals
  constructor
  · intro h
    obtain ⟨hr, hfit⟩ := init_ok_fits (C := C) E par r hcnt hsz (congrArg Prod.fst h)
    obtain ⟨f, hf, hs⟩ := init_supplies hC E par r hn hk27 hdom.card h
    rw [hcnt] at hs
    rw [key f hr hfit hf hs] at h
    simp only [Prod.mk.injEq, true_and] at h
    exact ⟨hr, hfit, f, hf, hs, h.symm⟩
  · rintro ⟨hr, hfit, f, hf, hs, rfl⟩
    exact key f hr hfit hf hs

/-- **C87**, `p2np`: the same, if the parted constraint system is `r` cut into parts and the number of constraints is given correctly. -/
theorem C87_parted (E : InitEnv F) (par : Par) (r : R1CS F) (hcnt : r.nbConstraints = r.constraints.length) (hsz : r.wires < 2 ^ 32)
    (cs : PartedR1CS F) (hpub : cs.base.nbPublic = r.nbPublic) (hsec : cs.base.nbSecret = r.nbSecret) (hint : cs.base.nbInternal = r.nbInternal)
    (hcoeff : cs.base.coefficients = r.coefficients) (hcmt : cs.base.commitment = r.commitment)
    (hget : ∀ i (h : i < r.constraints.length), cs.get i = .ok r.constraints[i]) (k : Nat)
    (hk : IsDomain r.constraints.length k) (hk27 : k ≤ 27) (hdom : (E.dom (2 ^ k)).Lawful k) (input oldLag oldEvals : Bytes) (s : InitSt) :
    initializeParted C E par cs r.constraints.length input oldLag oldEvals = (.ok (), s) ↔
      r.Valid ∧ r.CommitmentFits ∧
        ∃ f : P1File G1 G2, f.ForPower (UInt8.ofNat k) ∧ f.Supplies C r.constraints.length input ∧ s = anyFilesOf C E r k f := by
  have := C44_parted (C := C) E par r cs hcnt hpub hsec hint hcoeff hcmt hget input oldLag oldEvals
  rw [hcnt] at this
  rw [this]
  exact C87_init hC E par r hcnt hsz k hk hk27 hdom input oldLag oldEvals s

/-- **C87**, otherwise: if the bytes supply parameters but the circuit does not fit, the program crashes; it never reports the reason. -/
theorem C87_crash [DecidableEq GT] (E : InitEnv F) (par : Par) (r : R1CS F) (hcnt : r.nbConstraints = r.constraints.length) (hsz : r.wires < 2 ^ 32)
    (k : Nat) (hk : IsDomain r.constraints.length k) (hk27 : k ≤ 27) (hdom : (E.dom (2 ^ k)).Lawful k) (f : P1File G1 G2)
    (hf : f.ForPower (UInt8.ofNat k)) (input oldLag oldEvals : Bytes) (hs : f.Supplies C r.constraints.length input) :
    Panics (initializeFiles C E par (some r) input oldLag oldEvals).1 ↔ ¬ (r.Valid ∧ r.CommitmentFits) := by
  constructor
  · rintro ⟨m, hm⟩ ⟨hr, hfit⟩
    have := (C87_init hC E par r hcnt hsz k hk hk27 hdom input oldLag oldEvals _).mpr ⟨hr, hfit, f, hf, hs, rfl⟩
    rw [this] at hm
    cases hm
  · intro hn
    rcases hres : (initializeFiles C E par (some r) input oldLag oldEvals).1 with e | u
    · cases e with
      | err m =>
        obtain ⟨hp, e1, e2, e3, e4, hw⟩ := forPower_sizes hk27 hf
        have hs' := supplies_encode hC f hw r.constraints.length (by rw [hp]; exact hk.fits) []
        rw [← hcnt] at hs hs'
        rw [init_same hC E par r (by rw [hcnt]; exact nextPowerofTwo_eq hk hk27) hdom.card e1 e2 e3 e4 hs hs' oldLag oldEvals] at hres
        exact absurd ⟨m, hres⟩ (init_not_returns hC E par r hcnt f hw k hk hk27 (by omega) hdom [] oldLag oldEvals)
      | panic m => exact ⟨m, rfl⟩
    · exact absurd (init_ok_fits (C := C) E par r hcnt hsz hres) hn

end

section
variable {F G1 G2 GT : Type} [Field F] [AddCommGroup G1] [Module F G1] [AddCommGroup G2]
  [Module F G2] [AddCommGroup GT] [Module F GT] [DecidableEq G1] [DecidableEq G2] [DecidableEq GT]
variable {C : Curve F G1 G2 GT}

/-- **C87**, the command: `p2n` succeeds exactly if the circuit fits and the bytes supply parameters; if they do and the circuit does not fit,
it crashes. -/
theorem C87_p2n (hC : C.Lawful) (E : Env F G1) (d : Draws F) (p1 circ out : String) (fs : FS) (rs input : Bytes) (r : R1CS F)
    (hcnt : r.nbConstraints = r.constraints.length) (hsz : r.wires < 2 ^ 32)
    (k : Nat) (hk : IsDomain r.constraints.length k) (hk27 : k ≤ 27) (hdom : (E.init.dom (2 ^ k)).Lawful k)
    (h1 : fs p1 = some input) (h2 : fs circ = some rs) (hr : E.r1cs rs = some r) (hp : p1 ≠ out) (hc : circ ≠ out) :
    let res := (exec C E d "p2n" [p1, circ, out] fs).1
    let supplied := ∃ f : P1File G1 G2, f.ForPower (UInt8.ofNat k) ∧ f.Supplies C r.constraints.length input
    (res = .ok () ↔ (r.Valid ∧ r.CommitmentFits) ∧ supplied) ∧ (supplied → (Panics res ↔ ¬ (r.Valid ∧ r.CommitmentFits))) := by
  intro res supplied
  have e2 : openFile (fs.set out []) circ = .ok rs := by
    unfold openFile
    rw [set_other _ _ hc, h2]
  have e1 : openFile fs p1 = .ok input := by unfold openFile; rw [h1]
  have hres : res = (initializeFiles C E.init d.par (some r) input (old fs "srs.lag") (old fs "evals")).1 := by
    simp only [res, exec, p2n, arg, List.length_cons, List.length_nil, ne_eq, List.getD_cons_succ, List.getD_cons_zero, e1, e2, hr,
      contentsAfterCreate, hp]
    rfl
  rw [hres]
  constructor
  · constructor
    · intro h
      obtain ⟨a, b, f, c, d, -⟩ := (C87_init hC E.init d.par r hcnt hsz k hk hk27 hdom input _ _ _).mp (Prod.ext h rfl)
      exact ⟨⟨a, b⟩, f, c, d⟩
    · rintro ⟨⟨a, b⟩, f, c, e⟩
      exact congrArg Prod.fst ((C87_init hC E.init d.par r hcnt hsz k hk hk27 hdom input _ _ _).mpr ⟨a, b, f, c, e, rfl⟩)
  · rintro ⟨f, c, e⟩
    exact C87_crash hC E.init d.par r hcnt hsz k hk hk27 hdom f c input _ _ e

end

/-! ### examples -/

namespace Toy

/-- a commitment whose commitment wire is public -/
def publicIndex : R1CS K := { circuit with commitment := ⟨[1], 0, 1⟩ }

/-- a commitment whose commitment wire does not exist -/
def noIndex : R1CS K := { circuit with commitment := ⟨[1], 0, 9⟩ }

/-- the constant wire declared as a private committed wire -/
def wireZero : R1CS K := { circuit with commitment := ⟨[1, 0], 1, 3⟩ }

/-- the same, with a commitment wire that is public -/
def wireZeroBad : R1CS K := { circuit with commitment := ⟨[1, 0], 1, 2⟩ }

theorem publicIndex_fits : publicIndex.CommitmentFits := ⟨by decide, Or.inl ⟨by decide, by decide⟩⟩

theorem noIndex_fits : noIndex.CommitmentFits := ⟨by decide, Or.inl ⟨by decide, by decide⟩⟩

theorem wireZero_fits : wireZero.CommitmentFits :=
  ⟨by decide, Or.inr ⟨by decide, ⟨[1], by decide⟩, by decide, by decide, by decide, by decide⟩⟩

theorem wireZeroBad_not : ¬ wireZeroBad.CommitmentFits := fun h => by
  rcases h.shape with ⟨h, _⟩ | ⟨_, _, _, _, h, _⟩
  · exact absurd h (by decide)
  · exact absurd h (by decide)

theorem wireZero_valid : wireZero.Valid := ⟨by decide, by decide, by decide, by decide⟩

end Toy

-- the wire after the public ones goes to the verifying key although it is private
example : Toy.publicIndex.verifierWires = [0, 1, 2] ∧ Toy.publicIndex.proverWires = [3] := C87_layout_public _ Toy.publicIndex_fits rfl
example : Toy.noIndex.verifierWires = [0, 1, 2] ∧ Toy.noIndex.proverWires = [3] := C87_layout_public _ Toy.noIndex_fits rfl
-- the point of the constant wire is missing in the verifying key
example : Toy.wireZero.verifierWires = [1, 2, 3] := C87_layout_private _ Toy.wireZero_fits (by decide)
example := C87_every_wire Toy.wireZero 0 (by decide)
-- the descriptions are accepted, with the phase 1 file of the toy ceremony; the last one crashes
example : initializeFiles Toy.curve Toy.env par4 (some Toy.wireZero) ((Toy.srs 3 3 5 7).encode Toy.curve ++ [1]) [] []
    = (.ok (), anyFilesOf Toy.curve Toy.env Toy.wireZero 2 (Toy.srs 3 3 5 7)) :=
  init_fits Toy.lawful Toy.env par4 Toy.wireZero Toy.wireZero_valid Toy.wireZero_fits (Toy.srs 3 3 5 7) (Toy.srs_wf 3 (by decide) _ _ _) 2
    Toy.circuit_domain (by decide) (by decide) dom4_lawful [1] [] []
example : ∃ f : P1File Toy.K Toy.K, f.ForPower 2 ∧ f.Supplies Toy.curve 3 ((Toy.srs 3 3 5 7).encode Toy.curve ++ [1]) :=
  have ⟨_, _, f, h1, h2, _⟩ := (C87_init Toy.lawful Toy.env par4 Toy.wireZero rfl (by decide) 2 Toy.circuit_domain (by decide) dom4_lawful
    ((Toy.srs 3 3 5 7).encode Toy.curve ++ [1]) [] [] _).mp (init_fits Toy.lawful Toy.env par4 Toy.wireZero Toy.wireZero_valid Toy.wireZero_fits
      (Toy.srs 3 3 5 7) (Toy.srs_wf 3 (by decide) _ _ _) 2 Toy.circuit_domain (by decide) (by decide) dom4_lawful [1] [] [])
  ⟨f, h1, h2⟩
example (f : P1File Toy.K Toy.K) (h1 : f.ForPower 2) (input : Bytes) (h2 : f.Supplies Toy.curve 3 input) :
    Panics (initializeFiles Toy.curve Toy.env par4 (some Toy.wireZeroBad) input [] []).1 :=
  (C87_crash Toy.lawful Toy.env par4 Toy.wireZeroBad rfl (by decide) 2 Toy.circuit_domain (by decide) dom4_lawful f h1 input [] [] h2).mpr
    fun h => Toy.wireZeroBad_not h.2
-- the circuit of the toy tool has no commitment; the private one of C57 does not fit
example : Toy.circuit.CommitmentFits := (C87_gnark Toy.circuit Toy.circuit_vc).mpr Toy.circuit_nc.publicCommitment
example : ¬ Toy.privateCircuit.CommitmentFits := fun h =>
  absurd ((C87_gnark Toy.privateCircuit Toy.privateCircuit_vc).mp h).priv (by decide)
example := C87_parted Toy.lawful Toy.env par4 Toy.circuit rfl (by decide) Toy.parted rfl rfl rfl rfl rfl Toy.parted_get 2 Toy.circuit_domain (by decide)
  dom4_lawful ((Toy.srs 3 3 5 7).encode Toy.curve) [] []
example (d : Draws Toy.K) := C87_p2n Toy.lawful Toy.cliEnv d "ph1" "r1cs" "ph2"
  (FS.set (FS.set (fun _ => none) "ph1" ((Toy.srs 3 3 5 7).encode Toy.curve ++ [])) "r1cs" [1]) [1] _ Toy.circuit rfl (by decide)
  2 Toy.circuit_domain (by decide) dom4_lawful rfl (by simp [FS.set]) (by simp [Toy.cliEnv]) (by decide) (by decide)

end ZkSetup
