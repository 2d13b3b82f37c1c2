import Verif.Proofs.InitBytes
import Verif.Props.Init
/-
C84: what the initialisation of phase 2 reads in any phase 1 bytes.
-/
set_option linter.unusedSectionVars false

namespace ZkSetup

open Phase2
open Phase1 (wrap64 goPow2)

section
variable {F G1 G2 GT : Type} [Field F] [AddCommGroup G1] [Module F G1] [AddCommGroup G2]
  [Module F G2] [AddCommGroup GT] [Module F GT] [DecidableEq G1] [DecidableEq G2]
variable {C : Curve F G1 G2 GT} (hC : C.Lawful)
include hC

/-- the three files for circuit `r` with domain `2^k` and the parameters `f` -/
def initFilesOf (C : Curve F G1 G2 GT) (E : InitEnv F) (r : R1CS F) (k : Nat) (f : P1File G1 G2) : InitSt :=
  let all := (List.range r.wires).map (combined r (2 ^ k) (E.dom (2 ^ k)).gen f)
  ⟨(initFile C r k f r.shared 0 (all.drop r.shared)).encode C E.header, lagBytes C (2 ^ k) (E.dom (2 ^ k)).gen f,
    (initEvals r (2 ^ k) (E.dom (2 ^ k)).gen f (all.take r.shared) [] (E.cmtBytes r.commitment)).encode C⟩

omit [Field F] [AddCommGroup G1] [Module F G1] [AddCommGroup G2] [Module F G2] [AddCommGroup GT] [Module F GT] [DecidableEq G1]
  [DecidableEq G2] hC in
theorem forPower_sizes {f : P1File G1 G2} {k : Nat} (hk27 : k ≤ 27) (hf : f.ForPower (UInt8.ofNat k)) :
    f.power.toNat = k ∧ f.tauG1.length = 2 * 2 ^ k - 1 ∧ f.alphaG1.length = 2 ^ k ∧ f.betaG1.length = 2 ^ k ∧ f.tauG2.length = 2 ^ k ∧ f.WF := by
  have hk8 : (UInt8.ofNat k).toNat = k := by rw [UInt8.toNat_ofNat']; omega
  have hpk : powersFor (UInt8.ofNat k).toNat = 2 ^ k := by rw [hk8, powersFor, if_pos (by omega)]
  have hp : f.power.toNat = k := by rw [hf.power, hk8]
  have e1 := hf.tauG1
  have e2 := hf.alphaG1
  have e3 := hf.betaG1
  have e4 := hf.tauG2
  rw [hpk] at e1 e2 e3 e4
  exact ⟨hp, e1, e2, e3, e4, by omega, by rw [hp, e1], by rw [hp, e2], by rw [hp, e3], by rw [hp, e4], by rw [hf.records]; simp,
    by rw [hf.records]; simp⟩

/-- **C84**, `p2n`: on any bytes it succeeds exactly if they supply parameters for the domain of the circuit, and then it writes the files for
these parameters. -/
theorem C84_init (E : InitEnv F) (par : Par) (r : R1CS F) (hr : r.Valid) (hpc : r.PublicCommitment) (k : Nat)
    (hk : IsDomain r.constraints.length k) (hk27 : k ≤ 27) (hdom : (E.dom (2 ^ k)).Lawful k) (input oldLag oldEvals : Bytes) (s : InitSt) :
    initializeFiles C E par (some r) input oldLag oldEvals = (.ok (), s) ↔
      ∃ f : P1File G1 G2, f.ForPower (UInt8.ofNat k) ∧ f.Supplies C r.constraints.length input ∧ s = initFilesOf C E r k f := by
  have hn : nextPowerofTwo r.nbConstraints = .ok ((2 ^ k : Nat) : Int) := by rw [hr.count]; exact nextPowerofTwo_eq hk hk27
  have key : ∀ f : P1File G1 G2, f.ForPower (UInt8.ofNat k) → f.Supplies C r.constraints.length input →
      initializeFiles C E par (some r) input oldLag oldEvals = (.ok (), initFilesOf C E r k f) := by
    intro f hf hs
    obtain ⟨hp, e1, e2, e3, e4, hw⟩ := forPower_sizes hk27 hf
    have hs' := supplies_encode hC f hw r.constraints.length (by rw [hp]; exact hk.fits) []
    rw [← hr.count] at hs hs'
    rw [init_same hC E par r hn hdom.card e1 e2 e3 e4 hs hs' oldLag oldEvals]
    exact init_split hC E par r hr hpc f hw k hk hk27 (by omega) hdom [] oldLag oldEvals
  constructor
  · intro h
    obtain ⟨f, hf, hs⟩ := init_supplies hC E par r hn hk27 hdom.card h
    rw [hr.count] at hs
    rw [key f hf hs] at h
    simp only [Prod.mk.injEq, true_and] at h
    exact ⟨f, hf, hs, h.symm⟩
  · rintro ⟨f, hf, hs, rfl⟩
    exact key f hf hs

/-- **C84**, `p2np`: the same, if the parted constraint system is `r` cut into parts and the number of constraints is given correctly. -/
theorem C84_parted (E : InitEnv F) (par : Par) (r : R1CS F) (hr : r.Valid) (hpc : r.PublicCommitment) (cs : PartedR1CS F)
    (hpub : cs.base.nbPublic = r.nbPublic) (hsec : cs.base.nbSecret = r.nbSecret) (hint : cs.base.nbInternal = r.nbInternal)
    (hcoeff : cs.base.coefficients = r.coefficients) (hcmt : cs.base.commitment = r.commitment)
    (hget : ∀ i (h : i < r.constraints.length), cs.get i = .ok r.constraints[i]) (k : Nat)
    (hk : IsDomain r.constraints.length k) (hk27 : k ≤ 27) (hdom : (E.dom (2 ^ k)).Lawful k) (input oldLag oldEvals : Bytes) (s : InitSt) :
    initializeParted C E par cs r.constraints.length input oldLag oldEvals = (.ok (), s) ↔
      ∃ f : P1File G1 G2, f.ForPower (UInt8.ofNat k) ∧ f.Supplies C r.constraints.length input ∧ s = initFilesOf C E r k f := by
  have := C44_parted (C := C) E par r cs hr.count hpub hsec hint hcoeff hcmt hget input oldLag oldEvals
  rw [hr.count] at this
  rw [this]
  exact C84_init hC E par r hr hpc k hk hk27 hdom input oldLag oldEvals s

/-- **C84**, any circuit: also for a circuit that does not fit (wires or coefficients out of range, private commitments) a success needs the
parameters. -/
theorem C84_any (E : InitEnv F) (par : Par) (r : R1CS F) (k : Nat) (hk : IsDomain r.nbConstraints k) (hk27 : k ≤ 27)
    (hdom : (E.dom (2 ^ k)).cardinality = 2 ^ k) (input oldLag oldEvals : Bytes)
    (hno : ¬ ∃ f : P1File G1 G2, f.ForPower (UInt8.ofNat k) ∧ f.Supplies C r.nbConstraints input) :
    (initializeFiles C E par (some r) input oldLag oldEvals).1 ≠ .ok () := by
  intro h
  exact hno (init_supplies hC E par r (nextPowerofTwo_eq hk hk27) hk27 hdom (Prod.ext h rfl))

/-- **C84**, truncated files: the beginning of a phase 1 file is accepted exactly if it contains all parameters; the records are not looked
at, so that they may be missing in part or altogether. The files written are the same. -/
theorem C84_cut (E : InitEnv F) (par : Par) (r : R1CS F) (hr : r.Valid) (hpc : r.PublicCommitment) (f : P1File G1 G2) (hf : f.WF)
    (k : Nat) (hk : IsDomain r.constraints.length k) (hk27 : k ≤ 27) (hkp : k ≤ f.power.toNat) (hdom : (E.dom (2 ^ k)).Lawful k)
    (m : Nat) (oldLag oldEvals : Bytes) :
    let cut := initializeFiles C E par (some r) ((f.encode C).take m) oldLag oldEvals
    let whole := initializeFiles C E par (some r) (f.encode C) oldLag oldEvals
    (192 * 2 ^ f.power.toNat + 35 ≤ m → cut = whole) ∧ (cut.1 = .ok () → 192 * 2 ^ f.power.toNat + 35 ≤ m) := by
  intro cut whole
  have hN : 0 < 2 ^ f.power.toNat := Nat.pow_pos (by omega)
  have hkN : 2 ^ k ≤ 2 ^ f.power.toNat := Nat.pow_le_pow_right (by omega) hkp
  have hn : nextPowerofTwo r.nbConstraints = .ok ((2 ^ k : Nat) : Int) := by rw [hr.count]; exact nextPowerofTwo_eq hk hk27
  have hfit : r.nbConstraints ≤ 2 ^ f.power.toNat := by rw [hr.count]; exact hk.fits.trans hkN
  have hs1 := hC.codec1.size_pos
  have hs2 := hC.codec2.size_pos
  have hpl : (f.params C).length = 192 * 2 ^ f.power.toNat + 32 := by
    unfold P1File.params
    simp only [List.length_append, section1_length hC, section2_length hC, hf.tauG1, hf.alphaG1, hf.betaG1, hf.tauG2, hC.codec2.bytes_length,
      hC.size2]
    omega
  constructor
  · intro hm
    have e : (f.encode C).take m = f.power :: UInt8.ofNat (f.records.length / 256) :: UInt8.ofNat (f.records.length % 256) ::
        (f.params C ++ (f.records.flatMap (recordBytes C)).take (m - 3 - (f.params C).length)) := by
      unfold P1File.encode
      obtain ⟨j, rfl⟩ : ∃ j, m = j + 3 := ⟨m - 3, by omega⟩
      simp only [List.cons_append, List.nil_append, List.take_succ_cons, Nat.add_sub_cancel]
      rw [List.take_append, List.take_of_length_le (by omega)]
    have h1 := supplies_params hC f hf r.nbConstraints hfit (UInt8.ofNat (f.records.length / 256)) (UInt8.ofNat (f.records.length % 256))
      ((f.records.flatMap (recordBytes C)).take (m - 3 - (f.params C).length))
    rw [← e] at h1
    have h2 := supplies_encode hC f hf r.nbConstraints hfit []
    rw [List.append_nil] at h2
    have hl : ∀ {G : Type} {l : List G} {a b : Nat}, l.length = b → a ≤ b → (l.take a).length = a := by
      intro G l a b h h'
      rw [List.length_take]; omega
    exact init_same hC E par r hn hdom.card (hl hf.tauG1 (Nat.sub_le_sub_right (Nat.mul_le_mul_left 2 hkN) 1)) (hl hf.alphaG1 hkN) (hl hf.betaG1 hkN) (hl hf.tauG2 hkN)
      (Supplies.cut h1 (2 ^ k) 0) (Supplies.cut h2 (2 ^ k) 0) oldLag oldEvals
  · intro h
    obtain ⟨g, hg, p, x, y, body, hi, hp, -, s⟩ := init_supplies hC E par r hn hk27 hdom.card (Prod.ext h rfl : cut = (.ok (), cut.2))
    have hl := listed_length hs2 _ _ s.betaG2
    rw [List.length_drop, hC.size2, List.length_take] at hl
    have hpe : p = f.power := by
      have h0 : ((f.encode C).take m)[0]? = some p := by rw [hi]; rfl
      have hm : 0 < m := by
        by_contra hm
        obtain rfl : m = 0 := by omega
        simp at h0
      rw [List.getElem?_take, if_pos hm] at h0
      simpa [P1File.encode] using h0.symm
    subst hpe
    simp only [initStarts, List.length_singleton] at hl
    generalize 2 ^ f.power.toNat = N at *
    omega

/-- **C84**, power 0: a file of power 0 has room for one constraint, but the smallest domain is 2. For a circuit with one constraint the
initialisation then reads on in the following sections: `[α]1` and `[β]1` serve as powers of τ, `[β]1` as `[ατ]1`, the first bytes of the points in G2
as `[βτ]1`, and `[β]2` as `[τ]2`. If those bytes happen to be an encoding of a point, it reports success. -/
theorem C84_power0 (E : InitEnv F) (par : Par) (r : R1CS F) (hr : r.Valid) (hpc : r.PublicCommitment) (hone : r.constraints.length ≤ 1)
    (hdom : (E.dom 2).Lawful 1) (f : P1File G1 G2) (hf : f.WF) (h0 : f.power = 0) (junk oldLag oldEvals : Bytes) (s : InitSt) :
    initializeFiles C E par (some r) (f.encode C ++ junk) oldLag oldEvals = (.ok (), s) ↔
      ∃ x : G1, Listed C.c1 [x] (f.tauG2.flatMap C.c2.bytes ++ (C.c2.bytes f.betaG2 ++ (f.records.flatMap (recordBytes C) ++ junk))) ∧
        s = initFilesOf C E r 1 ⟨1, f.tauG1 ++ (f.alphaG1 ++ f.betaG1), f.alphaG1 ++ f.betaG1, f.betaG1 ++ [x], f.tauG2 ++ [f.betaG2], f.betaG2, []⟩ := by
  have hs1 := hC.codec1.size_pos
  have hs2 := hC.codec2.size_pos
  have hk : IsDomain r.constraints.length 1 := ⟨le_rfl, by omega, fun j hj _ => hj⟩
  have hz : f.power.toNat = 0 := by rw [h0]; rfl
  have l1 : f.tauG1.length = 1 := by rw [hf.tauG1, hz]; rfl
  have l2 : f.alphaG1.length = 1 := by rw [hf.alphaG1, hz]; rfl
  have l3 : f.betaG1.length = 1 := by rw [hf.betaG1, hz]; rfl
  have l4 : f.tauG2.length = 1 := by rw [hf.tauG2, hz]; rfl
  rw [C84_init hC E par r hr hpc 1 hk (by omega) hdom]
  generalize hrest : f.tauG2.flatMap C.c2.bytes ++ (C.c2.bytes f.betaG2 ++ (f.records.flatMap (recordBytes C) ++ junk)) = rest
  -- where the sections begin
  obtain ⟨p0, q0, e0, n0⟩ := P1File.at_tauG1 (C := C) f junk
  have hin : f.encode C ++ junk = header3 f ++ (f.tauG1.flatMap C.c1.bytes ++ (f.alphaG1.flatMap C.c1.bytes ++ (f.betaG1.flatMap C.c1.bytes ++ rest))) := by
    rw [P1File.split, ← hrest]; rfl
  have s1 : ∀ l : List G1, (l.flatMap C.c1.bytes).length = 32 * l.length := fun l => section1_length hC l
  have s2 : ∀ l : List G2, (l.flatMap C.c2.bytes).length = 64 * l.length := fun l => section2_length hC l
  have d0 : (f.encode C ++ junk).drop 3 = (f.tauG1 ++ (f.alphaG1 ++ f.betaG1)).flatMap C.c1.bytes ++ rest := by
    rw [hin, List.drop_left' (show (header3 f).length = 3 from rfl)]; simp
  have d1 : (f.encode C ++ junk).drop 35 = (f.alphaG1 ++ f.betaG1).flatMap C.c1.bytes ++ rest := by
    rw [show (35 : Nat) = 3 + 32 by rfl, ← List.drop_drop, d0, List.flatMap_append, List.append_assoc, List.drop_left' (by rw [s1, l1])]
  have d2 : (f.encode C ++ junk).drop 67 = f.betaG1.flatMap C.c1.bytes ++ rest := by
    rw [show (67 : Nat) = 35 + 32 by rfl, ← List.drop_drop, d1, List.flatMap_append, List.append_assoc, List.drop_left' (by rw [s1, l2])]
  have d3 : (f.encode C ++ junk).drop 99 = (f.tauG2 ++ [f.betaG2]).flatMap C.c2.bytes ++ (f.records.flatMap (recordBytes C) ++ junk) := by
    rw [show (99 : Nat) = 67 + 32 by rfl, ← List.drop_drop, d2, List.drop_left' (by rw [s1, l3]), ← hrest]; simp
  have d4 : (f.encode C ++ junk).drop 163 = [f.betaG2].flatMap C.c2.bytes ++ (f.records.flatMap (recordBytes C) ++ junk) := by
    rw [show (163 : Nat) = 99 + 64 by rfl, ← List.drop_drop, d3, List.flatMap_append, List.append_assoc, List.drop_left' (by rw [s2, l4])]
  constructor
  · rintro ⟨g, hg, ⟨p, x, y, body, hi, -, -, st⟩, rfl⟩
    obtain ⟨-, g1, g2, g3, g4, -⟩ := forPower_sizes (k := 1) (by omega) hg
    have hp : p = 0 := by
      rw [← h0]
      rw [hin] at hi
      simp only [header3, List.cons_append, List.cons.injEq] at hi
      exact hi.1.symm
    subst hp
    obtain ⟨t1, t2, t3, t4, t5⟩ := st
    simp only [initStarts] at t1 t2 t3 t4 t5
    norm_num at t1 t2 t3 t4 t5
    rw [d0] at t1
    rw [d1] at t2
    rw [d2] at t3
    rw [d3] at t4
    rw [d4] at t5
    have u1 := listed_unique hs1 _ _ _ (by simp [g1, l1, l2, l3]) t1 (listed_bytes hC.codec1 _ _)
    have u2 := listed_unique hs1 _ _ _ (by simp [g2, l2, l3]) t2 (listed_bytes hC.codec1 _ _)
    have u4 := listed_unique hs2 _ _ _ (by simp [g4, l4]) t4 (listed_bytes hC.codec2 _ _)
    have u5 := listed_unique hs2 _ _ _ (by simp) t5 (listed_bytes hC.codec2 _ _)
    have u3 : g.betaG1.take 1 = f.betaG1 :=
      listed_unique hs1 _ _ _ (by simp [g3, l3]) (listed_take 1 t3) (listed_bytes hC.codec1 _ _)
    obtain ⟨x, hx⟩ : ∃ x, g.betaG1.drop 1 = [x] := List.length_eq_one_iff.mp (by simp [g3])
    have u3' : g.betaG1 = f.betaG1 ++ [x] := by rw [← u3, ← hx, List.take_append_drop]
    refine ⟨x, ?_, ?_⟩
    · rw [u3'] at t3
      exact (listed_bytes_append hC.codec1 _ _ _).mp t3
    · congr 1
      rcases g with ⟨gp, gt, ga, gb, gt2, gb2, gr⟩
      have e1 := hg.power
      have e2 := hg.records
      simp only at u1 u2 u3' u4 u5 e1 e2
      simp only [List.cons.injEq, and_true] at u5
      rw [u1, u2, u3', u4, u5, e1, e2]
      rfl
  · rintro ⟨x, hx, rfl⟩
    refine ⟨_, ⟨rfl, ?_, ?_, ?_, ?_, rfl⟩, ⟨f.power, _, _, _, by rw [hin]; rfl, by omega, by rw [hz]; exact hone, ?_⟩, rfl⟩
    · simp [l1, l2, l3, powersFor]
    · simp [l2, l3, powersFor]
    · simp [l3, powersFor]
    · simp [l4, powersFor]
    · rw [hz]
      simp only [initStarts]
      norm_num
      refine ⟨?_, ?_, ?_, ?_, ?_⟩ <;> simp only []
      · rw [d0]; exact listed_bytes hC.codec1 _ _
      · rw [d1]; exact listed_bytes hC.codec1 _ _
      · rw [d2]; exact (listed_bytes_append hC.codec1 _ _ _).mpr hx
      · rw [d3]; exact listed_bytes hC.codec2 _ _
      · rw [d4]; exact listed_bytes hC.codec2 _ _

/-- **C84**, powers from 56 on: no file with such a power is accepted, as the last section would begin beyond any 64-bit position. -/
theorem C84_long (E : InitEnv F) (par : Par) (r : R1CS F) (k : Nat) (hk : IsDomain r.nbConstraints k) (hk27 : k ≤ 27)
    (hdom : (E.dom (2 ^ k)).cardinality = 2 ^ k) (p : UInt8) (hp : 56 ≤ p.toNat) (t oldLag oldEvals : Bytes) (hl : t.length < 2 ^ 63) :
    (initializeFiles C E par (some r) (p :: t) oldLag oldEvals).1 ≠ .ok () := by
  apply C84_any hC E par r k hk hk27 hdom
  rintro ⟨f, -, p', x, y, body, hi, hp', -, s⟩
  have hpp : p = p' := by simp only [List.cons.injEq] at hi; exact hi.1
  subst hpp
  have hs2 := hC.codec2.size_pos
  have h := listed_length hs2 _ _ s.betaG2
  rw [List.length_drop, hC.size2] at h
  simp only [initStarts, List.length_cons, List.length_nil] at h
  have : 2 ^ 56 ≤ 2 ^ p.toNat := Nat.pow_le_pow_right (by omega) hp
  omega

end

/-- The positions of the model are unbounded integers. Up to power 55 they are those of 64-bit arithmetic; from 56 to 62 one of the 64-bit
positions is negative, so that the seek fails, and the model refuses the file by `C84_long`. (From 63 on both refuse the file because of the number of
constraints.) -/
theorem C84_positions (p : UInt8) (hp : p.toNat ≤ 62) :
    let s := initStarts p.toNat
    (p.toNat ≤ 55 → ∀ x ∈ [s.alphaG1, s.betaG1, s.tauG2, s.betaG2], wrap64 x = x) ∧
    (56 ≤ p.toNat → ∃ x ∈ [s.alphaG1, s.betaG1, s.tauG2, s.betaG2], wrap64 x < 0) := by
  intro s
  have hmono : ∀ a, a ≤ 62 → p.toNat = a → (a ≤ 55 → ∀ x ∈ [(initStarts a).alphaG1, (initStarts a).betaG1, (initStarts a).tauG2, (initStarts a).betaG2],
      wrap64 x = x) ∧ (56 ≤ a → ∃ x ∈ [(initStarts a).alphaG1, (initStarts a).betaG1, (initStarts a).tauG2, (initStarts a).betaG2], wrap64 x < 0) := by
    intro a ha _
    revert ha
    have : ∀ a : Fin 63, ((a : Nat) ≤ 55 → ∀ x ∈ [(initStarts a).alphaG1, (initStarts a).betaG1, (initStarts a).tauG2, (initStarts a).betaG2],
      wrap64 x = x) ∧ (56 ≤ (a : Nat) → ∃ x ∈ [(initStarts a).alphaG1, (initStarts a).betaG1, (initStarts a).tauG2, (initStarts a).betaG2],
        wrap64 x < 0) := by decide +kernel
    intro ha
    exact this ⟨a, by omega⟩
  exact hmono _ hp rfl

/-! ### concrete cases -/

namespace Toy

/-- `fft.NewDomain(2)` over the field with 17 elements -/
def dom2 : Lagrange.Domain (ZMod 17) :=
  { cardinality := 2, gen := 16, cardInv := 9, twiddlesInv := fun s i => (16 ^ (i * 2 ^ s))⁻¹ }

theorem dom2_lawful : dom2.Lawful 1 where
  card := rfl
  root := by
    rw [IsPrimitiveRoot.iff_orderOf]
    apply orderOf_eq_prime_pow (p := 2) (n := 0) <;> decide
  inv := by decide
  tw _ _ _ _ := rfl

/-- one constraint: `x·x = y` -/
def single : R1CS K where
  nbPublic := 2
  nbSecret := 1
  nbInternal := 0
  nbConstraints := 1
  constraints := [⟨[⟨1, 2⟩], [⟨1, 2⟩], [⟨1, 1⟩]⟩]
  coefficients := [0, 1, 2, 16]
  commitment := ⟨[], 0, 0⟩

theorem single_valid : single.Valid := ⟨by decide, by decide, by decide, by decide⟩

def env2 : InitEnv K := ⟨Gob.headerCodec, fun _ => dom2, fun _ => [0xc0]⟩

end Toy

-- a file of power 3 supplies parameters of domain 4
example : ∃ f : P1File Toy.K Toy.K, f.ForPower 2 ∧ f.Supplies Toy.curve 3 ((Toy.srs 3 3 5 7).encode Toy.curve ++ [1]) ∧
    (initializeFiles Toy.curve Toy.env par4 (some Toy.circuit) ((Toy.srs 3 3 5 7).encode Toy.curve ++ [1]) [] []).2
      = initFilesOf Toy.curve Toy.env Toy.circuit 2 f :=
  (C84_init Toy.lawful Toy.env par4 Toy.circuit Toy.circuit_valid Toy.circuit_nc.publicCommitment 2 Toy.circuit_domain (by decide) dom4_lawful
    _ [] [] _).mp (by
      rw [init_split Toy.lawful Toy.env par4 Toy.circuit Toy.circuit_valid Toy.circuit_nc.publicCommitment (Toy.srs 3 3 5 7)
        (Toy.srs_wf 3 (by decide) _ _ _) 2 Toy.circuit_domain (by decide) (by decide) dom4_lawful])
example := C84_cut Toy.lawful Toy.env par4 Toy.circuit Toy.circuit_valid Toy.circuit_nc.publicCommitment (Toy.srs 3 3 5 7)
  (Toy.srs_wf 3 (by decide) _ _ _) 2 Toy.circuit_domain (by decide) (by decide) dom4_lawful 1571 [] []
-- `p1n 0` and a circuit with one constraint: success
example : (initializeFiles Toy.curve Toy.env2 par4 (some Toy.single) ((P1File.init Toy.curve 0).encode Toy.curve ++ []) [] []).1 = .ok () := by
  have h := (C84_power0 Toy.lawful Toy.env2 par4 Toy.single Toy.single_valid ⟨by simp [Toy.single], by simp [Toy.single]⟩ (by decide)
    Toy.dom2_lawful (P1File.init Toy.curve 0) (init_wf _ _ (by decide)) rfl [] [] [] _).mpr
    ⟨1, ⟨Toy.curve.c1.bytes 1, List.replicate 32 0 ++ Toy.curve.c2.bytes 1, by decide +kernel, decodes_bytes Toy.lawful.codec1 _, trivial⟩, rfl⟩
  rw [h]
example := C84_long Toy.lawful Toy.env2 par4 Toy.single 1 ⟨by decide, by decide, fun _ h _ => h⟩ (by decide) rfl 57 (by decide) [1, 2, 3] [] [] (by decide)
example := C84_positions 54 (by decide)

end ZkSetup
