import Verif.Proofs.Soundness
import Verif.Props.Transcript
import Verif.Spec.Soundness
/-
Soundness of the keys.
-/
set_option linter.unusedSectionVars false

namespace ZkSetup

open Phase2 Keys Finset

section
variable {F G1 G2 GT : Type} [Field F] [DecidableEq F] [AddCommGroup G1] [Module F G1] [AddCommGroup G2]
  [Module F G2] [AddCommGroup GT] [Module F GT] [DecidableEq G1] [DecidableEq G2] [DecidableEq GT]
variable {C : Curve F G1 G2 GT} (hC : C.Lawful)

theorem comb_range {G : Type} [AddCommGroup G] [Module F G] (n : Nat) (y x : Nat → F) (g : G) :
    comb ((List.range n).map fun i => y i • g) x = (∑ i ∈ range n, x i * y i) • g := by
  unfold comb
  rw [List.length_map, List.length_range, msmOf_map, list_sum_range, sum_smul]
  exact sum_congr rfl fun i _ => smul_smul _ _ _

open Polynomial in
/-- `Σ x_i·X^i` -/
noncomputable def ofCoeffs (n : Nat) (x : Nat → F) : F[X] := ∑ i ∈ range n, Polynomial.C (x i) * X ^ i

theorem ofCoeffs_eval (n : Nat) (x : Nat → F) (τ : F) : (ofCoeffs n x).eval τ = ∑ i ∈ range n, x i * τ ^ i := by
  simp [ofCoeffs, Polynomial.eval_finsetSum]

theorem ofCoeffs_degree (n : Nat) (x : Nat → F) : (ofCoeffs n x).natDegree ≤ n - 1 := by
  refine Polynomial.natDegree_sum_le_of_forall_le _ _ fun i hi => (Polynomial.natDegree_C_mul_X_pow_le _ _).trans ?_
  have := mem_range.mp hi
  omega

open Polynomial in
/-- `Σ x_j·p_(s+j)` over `n` wires -/
noncomputable def qapPart (r : R1CS F) (m : Nat) (ω : F) (side : R1C → List Term) (s n : Nat) (x : Nat → F) : F[X] :=
  ∑ j ∈ range n, Polynomial.C (x j) * qap r m ω side (s + j)

theorem qapPart_eval (r : R1CS F) (m : Nat) (ω : F) (side : R1C → List Term) (s n : Nat) (x : Nat → F) (τ : F) :
    (qapPart r m ω side s n x).eval τ = ∑ j ∈ range n, x j * (qap r m ω side (s + j)).eval τ := by
  simp [qapPart, Polynomial.eval_finsetSum]

theorem qapPart_degree (r : R1CS F) (k : Nat) (hck : r.constraints.length ≤ 2 ^ k) (d : Lagrange.Domain F) (hd : d.Lawful k)
    (side : R1C → List Term) (s n : Nat) (x : Nat → F) : (qapPart r (2 ^ k) d.gen side s n x).natDegree ≤ 2 ^ k - 1 := by
  refine Polynomial.natDegree_sum_le_of_forall_le _ _ fun i _ => (Polynomial.natDegree_C_mul_le _ _).trans ?_
  have h := (C24_interpolates r side k hck d hd (s + i)).2.2
  by_cases h0 : qap r (2 ^ k) d.gen side (s + i) = 0
  · rw [h0, Polynomial.natDegree_zero]
    omega
  · have := (Polynomial.natDegree_lt_iff_degree_lt h0).mpr h
    omega

open Polynomial in
/-- the polynomials of a combination -/
noncomputable def Combination1.form (c : Combination1 F) (r : R1CS F) (k : Nat) (ω : F) (N : Nat) : Soundness.Form1 F where
  c0 := ofCoeffs (2 * N - 1) c.tau + qapPart r (2 ^ k) ω R1C.l 0 r.wires c.a + qapPart r (2 ^ k) ω R1C.r 0 r.wires c.b1
    + qapPart r (2 ^ k) ω R1C.o 0 r.shared c.vk
  ca := ofCoeffs N c.alpha + qapPart r (2 ^ k) ω R1C.r 0 r.shared c.vk
  cb := ofCoeffs N c.beta + qapPart r (2 ^ k) ω R1C.l 0 r.shared c.vk
  cd := c.delta
  u := qapPart r (2 ^ k) ω R1C.l r.shared (r.wires - r.shared) c.k
  v := qapPart r (2 ^ k) ω R1C.r r.shared (r.wires - r.shared) c.k
  w := qapPart r (2 ^ k) ω R1C.o r.shared (r.wires - r.shared) c.k
    + (X ^ 2 ^ k - 1) * ofCoeffs (2 ^ k - 1) fun i => c.z (bitRev k i)

noncomputable def Combination2.form (c : Combination2 F) (r : R1CS F) (k : Nat) (ω : F) (N : Nat) : Soundness.Form2 F where
  c0 := ofCoeffs N c.tau + qapPart r (2 ^ k) ω R1C.r 0 r.wires c.b2
  cb := c.beta
  cd := c.delta

/-- a combination of the points for the trapdoor -/
theorem Combination1.point_value (c : Combination1 F) (r : R1CS F) (k : Nat) (ω τ α β δ : F) (f : P1File G1 G2)
    (hpw : f.Powers C τ α β) :
    c.point f (trapdoorPK C r k ω τ α β δ) (trapdoorVK C r k ω τ α β δ)
      = ((c.form r k ω (2 ^ f.power.toNat)).value τ α β δ) • C.g1 := by
  have hA : msmOf (trapdoorPK C r k ω τ α β δ).a (unmarked (trapdoorPK C r k ω τ α β δ).infinityA
      ((List.range (trapdoorPK C r k ω τ α β δ).wires).map c.a))
      = (∑ i ∈ range r.wires, c.a i * (qap r (2 ^ k) ω R1C.l i).eval τ) • C.g1 := by
    rw [← list_sum_range]
    exact msmOf_filter _ _ _ _
  have hB : msmOf (trapdoorPK C r k ω τ α β δ).b1 (unmarked (trapdoorPK C r k ω τ α β δ).infinityB
      ((List.range (trapdoorPK C r k ω τ α β δ).wires).map c.b1))
      = (∑ i ∈ range r.wires, c.b1 i * (qap r (2 ^ k) ω R1C.r i).eval τ) • C.g1 := by
    rw [← list_sum_range]
    exact msmOf_filter _ _ _ _
  have hz : ∑ i ∈ range (2 ^ k - 1), c.z (bitRev k i) * τ ^ i = ∑ j ∈ range (2 ^ k - 1), c.z j * τ ^ bitRev k j := by
    rw [← sum_bitRev k fun i => c.z (bitRev k i) * τ ^ i]
    exact sum_congr rfl fun j hj => by
      rw [mem_range] at hj
      rw [bitRev_bitRev _ _ (by omega)]
  unfold Combination1.point
  rw [hA, hB, hpw.tauG1, hpw.alphaG1, hpw.betaG1]
  have e1 : (trapdoorPK C r k ω τ α β δ).z = (List.range (2 ^ k - 1)).map fun j => (τ ^ bitRev k j * (τ ^ 2 ^ k - 1) / δ) • C.g1 := rfl
  have e2 : (trapdoorPK C r k ω τ α β δ).k = (List.range (r.wires - r.shared)).map fun j =>
    (wireValue r (2 ^ k) ω τ α β (r.shared + j) / δ) • C.g1 := rfl
  have e3 : (trapdoorVK C r k ω τ α β δ).k = (List.range r.shared).map fun w => wireValue r (2 ^ k) ω τ α β w • C.g1 := rfl
  have e4 : (trapdoorPK C r k ω τ α β δ).delta1 = δ • C.g1 := rfl
  rw [e1, e2, e3, e4]
  simp only [comb_range, smul_smul, ← add_smul]
  congr 1
  have w1 : ∑ i ∈ range r.shared, c.vk i * wireValue r (2 ^ k) ω τ α β i
      = β * (∑ i ∈ range r.shared, c.vk i * (qap r (2 ^ k) ω R1C.l i).eval τ)
        + α * (∑ i ∈ range r.shared, c.vk i * (qap r (2 ^ k) ω R1C.r i).eval τ)
        + ∑ i ∈ range r.shared, c.vk i * (qap r (2 ^ k) ω R1C.o i).eval τ := by
    rw [mul_sum, mul_sum, ← sum_add_distrib, ← sum_add_distrib]
    exact sum_congr rfl fun i _ => by unfold wireValue; ring
  have w2 : ∑ j ∈ range (r.wires - r.shared), c.k j * (wireValue r (2 ^ k) ω τ α β (r.shared + j) / δ)
      = (β * (∑ j ∈ range (r.wires - r.shared), c.k j * (qap r (2 ^ k) ω R1C.l (r.shared + j)).eval τ)
        + α * (∑ j ∈ range (r.wires - r.shared), c.k j * (qap r (2 ^ k) ω R1C.r (r.shared + j)).eval τ)
        + ∑ j ∈ range (r.wires - r.shared), c.k j * (qap r (2 ^ k) ω R1C.o (r.shared + j)).eval τ) / δ := by
    rw [mul_sum, mul_sum, ← sum_add_distrib, ← sum_add_distrib, sum_div]
    exact sum_congr rfl fun i _ => by unfold wireValue; ring
  have w3 : ∑ j ∈ range (2 ^ k - 1), c.z j * (τ ^ bitRev k j * (τ ^ 2 ^ k - 1) / δ)
      = (τ ^ 2 ^ k - 1) * (∑ j ∈ range (2 ^ k - 1), c.z j * τ ^ bitRev k j) / δ := by
    rw [mul_sum, sum_div]
    exact sum_congr rfl fun i _ => by ring
  have w4 : ∑ i ∈ range (2 ^ f.power.toNat), c.alpha i * (α * τ ^ i) = α * ∑ i ∈ range (2 ^ f.power.toNat), c.alpha i * τ ^ i := by
    rw [mul_sum]
    exact sum_congr rfl fun i _ => by ring
  have w5 : ∑ i ∈ range (2 ^ f.power.toNat), c.beta i * (β * τ ^ i) = β * ∑ i ∈ range (2 ^ f.power.toNat), c.beta i * τ ^ i := by
    rw [mul_sum]
    exact sum_congr rfl fun i _ => by ring
  rw [w1, w2, w3, w4, w5]
  unfold Soundness.Form1.value Combination1.form
  simp only [Polynomial.eval_add, Polynomial.eval_mul, Polynomial.eval_sub, Polynomial.eval_pow, Polynomial.eval_X,
    Polynomial.eval_one, ofCoeffs_eval, qapPart_eval, hz, Nat.zero_add]
  ring

theorem Combination2.point_value (c : Combination2 F) (r : R1CS F) (k : Nat) (ω τ α β δ : F) (f : P1File G1 G2)
    (hpw : f.Powers C τ α β) :
    c.point f (trapdoorPK C r k ω τ α β δ) = ((c.form r k ω (2 ^ f.power.toNat)).value τ β δ) • C.g2 := by
  have hB : msmOf (trapdoorPK C r k ω τ α β δ).b2 (unmarked (trapdoorPK C r k ω τ α β δ).infinityB
      ((List.range (trapdoorPK C r k ω τ α β δ).wires).map c.b2))
      = (∑ i ∈ range r.wires, c.b2 i * (qap r (2 ^ k) ω R1C.r i).eval τ) • C.g2 := by
    rw [← list_sum_range]
    exact msmOf_filter _ _ _ _
  have e4 : (trapdoorPK C r k ω τ α β δ).delta2 = δ • C.g2 := rfl
  unfold Combination2.point
  rw [hB, hpw.tauG2, hpw.betaG2, e4]
  simp only [comb_range, smul_smul, ← add_smul]
  congr 1
  unfold Soundness.Form2.value Combination2.form
  simp only [Polynomial.eval_add, ofCoeffs_eval, qapPart_eval, Nat.zero_add]
  ring

theorem Combination1.form_bounded (c : Combination1 F) (r : R1CS F) (k : Nat) (hk : IsDomain r.constraints.length k)
    (d : Lagrange.Domain F) (hd : d.Lawful k) (N : Nat) (hN : 2 ^ k ≤ N) : (c.form r k d.gen N).Bounded N := by
  have q := fun side s n x => (qapPart_degree r k hk.fits d hd side s n x)
  have hpos : 0 < 2 ^ k := Nat.pow_pos (by omega)
  refine ⟨?_, ?_, ?_, ?_, ?_, ?_⟩
  · refine Polynomial.natDegree_add_le_of_degree_le (Polynomial.natDegree_add_le_of_degree_le
      (Polynomial.natDegree_add_le_of_degree_le ((ofCoeffs_degree _ _).trans (by omega)) ?_) ?_) ?_
    · exact (q _ _ _ _).trans (by omega)
    · exact (q _ _ _ _).trans (by omega)
    · exact (q _ _ _ _).trans (by omega)
  · exact Polynomial.natDegree_add_le_of_degree_le (ofCoeffs_degree _ _) ((q _ _ _ _).trans (by omega))
  · exact Polynomial.natDegree_add_le_of_degree_le (ofCoeffs_degree _ _) ((q _ _ _ _).trans (by omega))
  · exact (q _ _ _ _).trans (by omega)
  · exact (q _ _ _ _).trans (by omega)
  · refine Polynomial.natDegree_add_le_of_degree_le ((q _ _ _ _).trans (by omega)) ?_
    refine Polynomial.natDegree_mul_le.trans ?_
    have h1 : (Polynomial.X ^ 2 ^ k - 1 : Polynomial F).natDegree = 2 ^ k := Polynomial.natDegree_X_pow_sub_C (r := (1 : F))
    have h2 := ofCoeffs_degree (F := F) (2 ^ k - 1) fun i => c.z (bitRev k i)
    rw [h1]
    omega

/-- the solution of the QAP that the identity gives is the assignment of the prover -/
theorem assignment_of_identity (c : Prover F) (r : R1CS F) (hr : r.Valid) (hsh : r.shared ≤ r.wires) (k : Nat)
    (hk : IsDomain r.constraints.length k) (d : Lagrange.Domain F) (hd : d.Lawful k) (x : Nat → F) (N : Nat)
    (h : Soundness.equation (c.ar.form r k d.gen N) (c.bs.form r k d.gen N) (c.krs.form r k d.gen N)
      (qapPart r (2 ^ k) d.gen R1C.l 0 r.shared x) (qapPart r (2 ^ k) d.gen R1C.r 0 r.shared x)
      (qapPart r (2 ^ k) d.gen R1C.o 0 r.shared x) = 0) : r.Satisfies (c.assignment r x) := by
  have h1 := Soundness.identity _ _ _ _ _ _ h
  have hs : ∀ side, qapSum r (2 ^ k) d.gen side (c.assignment r x) = qapPart r (2 ^ k) d.gen side 0 r.shared x
      + qapPart r (2 ^ k) d.gen side r.shared (r.wires - r.shared) c.krs.k := by
    intro side
    unfold qapSum qapPart
    conv_lhs => rw [← Nat.add_sub_cancel' hsh]
    rw [sum_range_add]
    congr 1
    · refine sum_congr rfl fun i hi => ?_
      unfold Prover.assignment
      rw [if_pos (mem_range.mp hi), Nat.zero_add]
    · refine sum_congr rfl fun i _ => ?_
      unfold Prover.assignment
      rw [if_neg (by omega), Nat.add_sub_cancel_left]
  rw [satisfies_iff_remainder r hr k hk.fits d hd]
  unfold remainder
  rw [Polynomial.modByMonic_eq_zero_iff_dvd (vanishing_monic (2 ^ k) (Nat.pow_pos (by omega)))]
  refine ⟨ofCoeffs (2 ^ k - 1) fun i => c.krs.z (bitRev k i), ?_⟩
  unfold qapProduct
  rw [hs, hs, hs]
  unfold Combination1.form at h1
  simp only at h1
  linear_combination h1

include hC in
/-- **C75**, the keys: let a prover combine the points of the phase 1 file and of the keys with fixed coefficients. If the assignment
that the coefficients contain violates the circuit, the proof verifies for at most `(3·2^p - 2)·m^3` of the `m^4` trapdoors
`τ, α, β, δ` from sets of `m` values each, where `2^p` is the number of powers of `τ` in the phase 1 file. -/
theorem C75_sound (r : R1CS F) (hr : r.Valid) (hsh : r.shared ≤ r.wires) (k : Nat) (hk : IsDomain r.constraints.length k)
    (d : Lagrange.Domain F) (hd : d.Lawful k) (p : Nat) (hkp : k ≤ p) (c : Prover F) (x : Nat → F)
    (hx : ¬ r.Satisfies (c.assignment r x)) (m : Nat) (S : Fin 4 → Finset F) (hS : ∀ i, #(S i) = m) (Z : Finset (F × F × F × F))
    (hZ : ∀ t ∈ Z, (t.1 ∈ S 0 ∧ t.2.1 ∈ S 1 ∧ t.2.2.1 ∈ S 2 ∧ t.2.2.2 ∈ S 3) ∧ t.2.2.2 ≠ 0 ∧
      ∃ f : P1File G1 G2, f.power.toNat = p ∧ f.Powers C t.1 t.2.1 t.2.2.1 ∧
        Verifies C (trapdoorVK C r k d.gen t.1 t.2.1 t.2.2.1 t.2.2.2) ((List.range r.shared).map x)
          (c.proof f (trapdoorPK C r k d.gen t.1 t.2.1 t.2.2.1 t.2.2.2) (trapdoorVK C r k d.gen t.1 t.2.1 t.2.2.1 t.2.2.2))) :
    #Z ≤ (3 * 2 ^ p - 2) * m ^ 3 := by
  have hN : 2 ^ k ≤ 2 ^ p := Nat.pow_le_pow_right (by omega) hkp
  have h2 : 2 ^ 1 ≤ 2 ^ k := Nat.pow_le_pow_right (by omega) hk.two
  have q := fun side => qapPart_degree r k hk.fits d hd side 0 r.shared x
  refine Soundness.count _ (fun h => hx (assignment_of_identity c r hr hsh k hk d hd x (2 ^ p) h)) _ m
    (Soundness.equation_degree _ _ _ _ _ _ (2 ^ p) (by omega) (c.ar.form_bounded r k hk d hd _ hN)
      (Polynomial.natDegree_add_le_of_degree_le (ofCoeffs_degree _ _) ((qapPart_degree r k hk.fits d hd _ _ _ _).trans (by omega)))
      (c.krs.form_bounded r k hk d hd _ hN) ((q _).trans (by omega)) ((q _).trans (by omega)) ((q _).trans (by omega)))
    S hS Z fun t ht => ?_
  obtain ⟨hmem, hδ, f, hp, hpw, hv⟩ := hZ t ht
  refine ⟨hmem, Soundness.eval_equation _ _ _ _ _ _ _ _ _ _ hδ ?_⟩
  generalize t.1 = τ at *
  generalize t.2.1 = α at *
  generalize t.2.2.1 = β at *
  generalize t.2.2.2 = δ at *
  have hV : msmOf (trapdoorVK C r k d.gen τ α β δ).k ((List.range r.shared).map x)
      = (β * (qapPart r (2 ^ k) d.gen R1C.l 0 r.shared x).eval τ + α * (qapPart r (2 ^ k) d.gen R1C.r 0 r.shared x).eval τ
        + (qapPart r (2 ^ k) d.gen R1C.o 0 r.shared x).eval τ) • C.g1 := by
    unfold trapdoorVK
    rw [msmOf_map, list_sum_range]
    simp only [qapPart_eval, mul_sum, ← sum_add_distrib, sum_smul, smul_smul, Nat.zero_add]
    exact sum_congr rfl fun j _ => by unfold wireValue; congr 1; ring
  unfold Verifies Prover.proof at hv
  simp only [Combination1.point_value (C := C) _ r k d.gen τ α β δ f hpw, Combination2.point_value (C := C) _ r k d.gen τ α β δ f hpw,
    hV, hp] at hv
  unfold trapdoorVK at hv
  simp only at hv
  rw [e_smul_smul hC, e_smul_smul hC, hC.smul_left, e_smul_smul hC, ← add_smul, ← add_smul, e_gen_inj hC] at hv
  exact hv

include hC in
/-- **C75**: one honest contributor in each phase is enough for the soundness of the keys. Take any ceremony of both phases in which the
secrets of the contributors are not zero, and single out one contributor of phase 1 and one of phase 2. For every choice of their
secrets `τ, α, β` and `δ ≠ 0` the ceremony gives a phase 1 file `f`, and keys `pk`, `vk` (if the contributions to phase 2 succeed). Let
a prover, who may be all others together, combine the points of `f`, `pk`, `vk` with coefficients of their choice to a proof for the
public values `x`. If the assignment that is found in these coefficients violates the circuit, the proof verifies for at most
`(3·2^p - 2)·m^3` of the `m^4` choices of the secrets from a set of `m` values. -/
theorem C75_one_honest (E : InitEnv F) (K : KeyEnv G1) (hK : K.header = E.header) (hH : E.header.Lawful) (ck : Bytes)
    (hck : K.commitmentKey [] = .ok ck) (b₁ : Nat) (hb₁ : 2 ≤ b₁) (p : UInt8) (hp1 : 1 ≤ p.toNat) (hp : p.toNat ≤ 62)
    (pre₁ post₁ : List (Par × Phase1.Rand F)) (hn₁ : ∀ s ∈ pre₁ ++ post₁, s.2.tau ≠ 0 ∧ s.2.alpha ≠ 0 ∧ s.2.beta ≠ 0)
    (hlen : pre₁.length + post₁.length + 1 < 65536)
    (honest₁ : F × F × F × F → Par × Phase1.Rand F)
    (hh₁ : ∀ t, (honest₁ t).2.tau = t.1 ∧ (honest₁ t).2.alpha = t.2.1 ∧ (honest₁ t).2.beta = t.2.2.1)
    (r : R1CS F) (hr : r.Valid) (hvc : r.ValidCommitment) (hpc : r.PublicCommitment) (k : Nat)
    (hk : IsDomain r.constraints.length k) (hk27 : k ≤ 27) (hkp : k ≤ p.toNat) (hdom : (E.dom (2 ^ k)).Lawful k)
    (par : Par) (oldLag oldEvals : Bytes) (b₂ : Nat) (hb₂ : 0 < b₂)
    (pre₂ post₂ : List (Par × Rand F)) (hn₂ : ∀ s ∈ pre₂ ++ post₂, s.2.delta ≠ 0)
    (honest₂ : F × F × F × F → Par × Rand F) (hh₂ : ∀ t, (honest₂ t).2.delta = t.2.2.2) :
    ∃ (f : F × F × F × F → P1File G1 G2) (st : F × F × F × F → InitSt) (pk : F × F × F × F → ProvingKey G1 G2)
      (vk : F × F × F × F → VerifyKey G1 G2),
      (∀ t, p1Ceremony C b₁ (pre₁ ++ honest₁ t :: post₁) (Phase1.initializeFile C p) = .ok ((f t).encode C)) ∧
      (∀ t, initializeFiles C E par (some r) ((f t).encode C) oldLag oldEvals = (.ok (), st t)) ∧
      (∀ t final, p2Ceremony C E.header b₂ (pre₂ ++ honest₂ t :: post₂) (st t).ph2 = .ok final →
        extractKeys C K final (st t).evals
          = (.ok (), ⟨some ((pk t).encode C (K.domain (2 ^ k))), some ((vk t).encode C ck K.noCommitment)⟩)) ∧
      ∀ (c : Prover F) (x : Nat → F), ¬ r.Satisfies (c.assignment r x) → ∀ (S : Finset F) (Z : Finset (F × F × F × F)),
        Z ⊆ S ×ˢ S ×ˢ S ×ˢ S → (∀ t ∈ Z, t.2.2.2 ≠ 0 ∧
          Verifies C (vk t) ((List.range r.shared).map x) (c.proof (f t) (pk t) (vk t))) →
        #Z ≤ (3 * 2 ^ p.toNat - 2) * #S ^ 3 := by
  let steps₁ := fun t => pre₁ ++ honest₁ t :: post₁
  let steps₂ := fun t => pre₂ ++ honest₂ t :: post₂
  let f : F × F × F × F → P1File G1 G2 := fun t => (P1File.init C p).ceremony C ((steps₁ t).map Prod.snd)
  have hlen₁ : ∀ t, (steps₁ t).length < 65536 := fun t => by simp only [steps₁, List.length_append, List.length_cons]; omega
  have hinv := fun t => ceremony_inv hC ((steps₁ t).map Prod.snd) (P1File.init C p) (init_wf C p hp)
    (init_powers C p).regular (by simpa [P1File.init] using hlen₁ t)
  let a := ((pre₁ ++ post₁).map fun s => s.2.tau).prod
  let b := ((pre₁ ++ post₁).map fun s => s.2.alpha).prod
  let c := ((pre₁ ++ post₁).map fun s => s.2.beta).prod
  let e := ((pre₂ ++ post₂).map fun s => s.2.delta).prod
  have ha : a ≠ 0 := by
    refine List.prod_ne_zero fun h => ?_
    obtain ⟨s, hs, h⟩ := List.mem_map.mp h
    exact (hn₁ s hs).1 h
  have hb : b ≠ 0 := by
    refine List.prod_ne_zero fun h => ?_
    obtain ⟨s, hs, h⟩ := List.mem_map.mp h
    exact (hn₁ s hs).2.1 h
  have hc : c ≠ 0 := by
    refine List.prod_ne_zero fun h => ?_
    obtain ⟨s, hs, h⟩ := List.mem_map.mp h
    exact (hn₁ s hs).2.2 h
  have he : e ≠ 0 := by
    refine List.prod_ne_zero fun h => ?_
    obtain ⟨s, hs, h⟩ := List.mem_map.mp h
    exact hn₂ s hs h
  have hpw : ∀ t, (f t).Powers C (a * t.1) (b * t.2.1) (c * t.2.2.1) := by
    intro t
    have := ceremony_powers (C := C) ((steps₁ t).map Prod.snd) _ _ _ _ (init_powers C p)
    obtain ⟨h1, h2, h3⟩ := hh₁ t
    convert this using 1
    · simp only [a, steps₁, List.map_append, List.map_cons, List.map_map, Function.comp_def, List.prod_append, List.prod_cons, h1]
      ring
    · simp only [b, steps₁, List.map_append, List.map_cons, List.map_map, Function.comp_def, List.prod_append, List.prod_cons, h2]
      ring
    · simp only [c, steps₁, List.map_append, List.map_cons, List.map_map, Function.comp_def, List.prod_append, List.prod_cons, h3]
      ring
  have hδ : ∀ t, deltaProduct ((steps₂ t).map Prod.snd) = e * t.2.2.2 := by
    intro t
    unfold deltaProduct
    simp only [e, steps₂, List.map_append, List.map_cons, List.map_map, Function.comp_def, List.prod_append, List.prod_cons, hh₂ t]
    ring
  have hpower : ∀ t, (f t).power = p := fun t => (hinv t).2.2.1
  have hinit := fun t => init_honest hC E par r hr hpc (f t) (hinv t).1 _ _ _ (hpw t) k hk hk27 (by rw [hpower]; exact hkp) hdom []
    oldLag oldEvals
  simp only [List.append_nil] at hinit
  refine ⟨f, _, fun t => trapdoorPK C r k (E.dom (2 ^ k)).gen (a * t.1) (b * t.2.1) (c * t.2.2.1) (e * t.2.2.2),
    fun t => trapdoorVK C r k (E.dom (2 ^ k)).gen (a * t.1) (b * t.2.1) (c * t.2.2.1) (e * t.2.2.2),
    fun t => initial_ceremony hC b₁ hb₁ p hp1 hp (steps₁ t) (hlen₁ t), hinit, fun t final hcer => ?_, ?_⟩
  · exact C37_C38_extractKeys hC E K hK ck hck b₂ r k _ _ _ _ final _ ⟨hr, hvc, hk, hk27, hdom, hH, hb₂, par, f t, [], oldLag, oldEvals, _,
      steps₂ t, (hinv t).1, hpw t, by rw [hpower]; exact hkp, by rw [List.append_nil]; exact hinit t, hcer, rfl, (hδ t).symm⟩
  · intro cf x hx S Z hZS hZ
    let φ : F × F × F × F → F × F × F × F := fun t => (a * t.1, b * t.2.1, c * t.2.2.1, e * t.2.2.2)
    have hφ : Function.Injective φ := fun t t' h => by
      simp only [φ, Prod.mk.injEq, mul_right_inj' ha, mul_right_inj' hb, mul_right_inj' hc, mul_right_inj' he] at h
      exact Prod.ext h.1 (Prod.ext h.2.1 (Prod.ext h.2.2.1 h.2.2.2))
    rw [← card_image_of_injective Z hφ]
    refine C75_sound hC r hr hpc.shared_le k hk (E.dom (2 ^ k)) hdom p.toNat hkp cf x hx #S
      ![S.image (a * ·), S.image (b * ·), S.image (c * ·), S.image (e * ·)] (fun i => ?_) _ fun t ht => ?_
    · fin_cases i
      · exact card_image_of_injective S (mul_right_injective₀ ha)
      · exact card_image_of_injective S (mul_right_injective₀ hb)
      · exact card_image_of_injective S (mul_right_injective₀ hc)
      · exact card_image_of_injective S (mul_right_injective₀ he)
    · obtain ⟨t, ht', rfl⟩ := mem_image.mp ht
      have hmem := hZS ht'
      simp only [mem_product] at hmem
      obtain ⟨hne, hv⟩ := hZ t ht'
      refine ⟨⟨mem_image_of_mem _ hmem.1, mem_image_of_mem _ hmem.2.1, mem_image_of_mem _ hmem.2.2.1, mem_image_of_mem _ hmem.2.2.2⟩,
        mul_ne_zero he hne, f t, by rw [hpower], hpw t, hv⟩

/-- The honest prover (with randomness 0) as a prover of this kind. -/
noncomputable def honestProver (r : R1CS F) (k : Nat) (ω : F) (w : Nat → F) : Prover F where
  ar := { a := w, alpha := fun i => if i = 0 then 1 else 0 }
  bs := { b2 := w, beta := 1 }
  krs := { k := fun j => w (r.shared + j), z := fun j => (quotient r (2 ^ k) ω w).coeff (bitRev k j) }

include hC in
/-- **C75**, the other direction: for every assignment that satisfies the circuit there is a prover whose coefficients contain the
assignment and whose proof verifies for all trapdoors. So the provers that succeed for more than `(3·2^p - 2)·m^3` trapdoors are, up to the
public values and the assignment, the honest ones. -/
theorem C75_complete (r : R1CS F) (hr : r.Valid) (hsh : r.shared ≤ r.wires) (k : Nat) (hk : IsDomain r.constraints.length k)
    (d : Lagrange.Domain F) (hd : d.Lawful k) (w : Nat → F) (hw : r.Satisfies w) :
    ∃ c : Prover F, c.assignment r w = w ∧ ∀ (τ α β δ : F) (f : P1File G1 G2), δ ≠ 0 → f.Powers C τ α β →
      Verifies C (trapdoorVK C r k d.gen τ α β δ) ((List.range r.shared).map w)
        (c.proof f (trapdoorPK C r k d.gen τ α β δ) (trapdoorVK C r k d.gen τ α β δ)) := by
  refine ⟨honestProver r k d.gen w, ?_, fun τ α β δ f hδ hpw => ?_⟩
  · funext i
    unfold Prover.assignment honestProver
    split
    · rfl
    · exact congrArg w (by omega)
  · have hv := (verifies_iff hC r k d τ α β δ w 0 0 hr hsh hk.two hk.fits hd hδ).mpr (by
      rw [(satisfies_iff_remainder r hr k hk.fits d hd w).mp hw, Polynomial.eval_zero])
    convert hv using 1
    have hpos : 0 < 2 ^ f.power.toNat := Nat.pow_pos (by omega)
    have q0 : ∀ s n side, qapPart r (2 ^ k) d.gen side s n (fun _ => (0 : F)) = 0 := fun s n side => by simp [qapPart]
    have o0 : ∀ n, ofCoeffs n (fun _ => (0 : F)) = 0 := fun n => by simp [ofCoeffs]
    have q1 : ∀ side, qapPart r (2 ^ k) d.gen side 0 r.wires w = qapSum r (2 ^ k) d.gen side w := fun side => by
      simp [qapPart, qapSum]
    have o1 : (ofCoeffs (2 ^ f.power.toNat) fun i => if i = 0 then (1 : F) else 0).eval τ = 1 := by
      rw [ofCoeffs_eval, sum_eq_single 0 (fun b _ hb => by rw [if_neg hb, zero_mul]) (fun h => absurd (mem_range.mpr hpos) h)]
      simp
    have o2 : (ofCoeffs (2 ^ k - 1) fun i => (quotient r (2 ^ k) d.gen w).coeff (bitRev k (bitRev k i))).eval τ
        = (quotient r (2 ^ k) d.gen w).eval τ := by
      rw [ofCoeffs_eval, Polynomial.eval_eq_sum_range' (n := 2 ^ k - 1) (x := τ) (by
        have h1 := quotient_degree r hr k hk.fits d hd w hk.two
        have h2 : 2 ^ 1 ≤ 2 ^ k := Nat.pow_le_pow_right (by omega) hk.two
        by_cases h0 : quotient r (2 ^ k) d.gen w = 0
        · rw [h0, Polynomial.natDegree_zero]
          omega
        · exact (Polynomial.natDegree_lt_iff_degree_lt h0).mpr h1)]
      exact sum_congr rfl fun i hi => by
        have := mem_range.mp hi
        rw [bitRev_bitRev _ _ (by omega)]
    rw [prove_trapdoor r k d τ α β δ w 0 0 hr hk.two hk.fits hd]
    unfold Prover.proof
    rw [Combination1.point_value (C := C) _ r k d.gen τ α β δ f hpw, Combination1.point_value (C := C) _ r k d.gen τ α β δ f hpw,
      Combination2.point_value (C := C) _ r k d.gen τ α β δ f hpw]
    unfold Soundness.Form1.value Soundness.Form2.value Combination1.form Combination2.form honestProver
    simp only [q0, o0, q1, Polynomial.eval_add, Polynomial.eval_mul, Polynomial.eval_sub, Polynomial.eval_pow, Polynomial.eval_X,
      Polynomial.eval_one, Polynomial.eval_zero, o1, o2]
    have hw : ∑ j ∈ range (r.wires - r.shared), w (r.shared + j) * wireValue r (2 ^ k) d.gen τ α β (r.shared + j)
        = β * (qapPart r (2 ^ k) d.gen R1C.l r.shared (r.wires - r.shared) fun j => w (r.shared + j)).eval τ
          + α * (qapPart r (2 ^ k) d.gen R1C.r r.shared (r.wires - r.shared) fun j => w (r.shared + j)).eval τ
          + (qapPart r (2 ^ k) d.gen R1C.o r.shared (r.wires - r.shared) fun j => w (r.shared + j)).eval τ := by
      simp only [qapPart_eval, mul_sum, ← sum_add_distrib]
      exact sum_congr rfl fun i _ => by unfold wireValue; ring
    rw [hw]
    congr 2 <;> ring

include hC in
/-- **C75**, what the bound allows for: a prover who guesses `τ` and `α` has coefficients with which the proof for arbitrary public values `x`
verifies for all `β`, `δ` if the guess is right. The assignment in the coefficients is arbitrary too (`0` on the other wires). -/
theorem C75_guess (r : R1CS F) (k : Nat) (ω : F) (x : Nat → F) (τ α : F) :
    ∃ c : Prover F, (∀ i, r.shared ≤ i → c.assignment r x i = 0) ∧ ∀ (β δ : F) (f : P1File G1 G2), f.Powers C τ α β →
      Verifies C (trapdoorVK C r k ω τ α β δ) ((List.range r.shared).map x)
        (c.proof f (trapdoorPK C r k ω τ α β δ) (trapdoorVK C r k ω τ α β δ)) := by
  have one : ∀ (N : Nat) (y : F), 0 < N → ∀ τ : F, (ofCoeffs N fun i => if i = 0 then y else 0).eval τ = y := by
    intro N y hN τ
    rw [ofCoeffs_eval, sum_eq_single 0 (fun b _ hb => by rw [if_neg hb, zero_mul]) (fun h => absurd (mem_range.mpr hN) h)]
    simp
  have q0 : ∀ s n side, qapPart r (2 ^ k) ω side s n (fun _ => (0 : F)) = 0 := fun s n side => by simp [qapPart]
  have o0 : ∀ n, ofCoeffs n (fun _ => (0 : F)) = 0 := fun n => by simp [ofCoeffs]
  let u := α + ∑ i ∈ Finset.range r.shared, x i * (qap r (2 ^ k) ω R1C.l i).eval τ
  let v := ∑ i ∈ Finset.range r.shared, x i * (α * (qap r (2 ^ k) ω R1C.r i).eval τ + (qap r (2 ^ k) ω R1C.o i).eval τ)
  by_cases hu : u = 0
  · refine ⟨⟨{ tau := fun i => if i = 0 then v else 0 }, { tau := fun i => if i = 0 then 1 else 0 }, {}⟩, fun i hi => ?_,
      fun β δ f hpw => ?_⟩
    · simp [Prover.assignment, Nat.not_lt.mpr hi]
    · have hpos : 0 < 2 ^ f.power.toNat := Nat.pow_pos (by omega)
      convert forge_verifies hC r k ω τ α β δ x 0 using 1
      unfold Prover.proof forge
      rw [Combination1.point_value (C := C) _ r k ω τ α β δ f hpw, Combination1.point_value (C := C) _ r k ω τ α β δ f hpw,
        Combination2.point_value (C := C) _ r k ω τ α β δ f hpw]
      unfold Soundness.Form1.value Soundness.Form2.value Combination1.form Combination2.form
      simp only [q0, o0, one _ _ hpos, one (2 * 2 ^ f.power.toNat - 1) _ (by omega), Polynomial.eval_add, Polynomial.eval_mul,
        Polynomial.eval_zero]
      rw [if_pos hu]
      simp [v]
  · refine ⟨⟨{ tau := fun i => if i = 0 then u else 0 }, { tau := fun i => if i = 0 then v / u else 0, beta := 1 }, {}⟩, fun i hi => ?_,
      fun β δ f hpw => ?_⟩
    · simp [Prover.assignment, Nat.not_lt.mpr hi]
    · have hpos : 0 < 2 ^ f.power.toNat := Nat.pow_pos (by omega)
      convert forge_verifies hC r k ω τ α β δ x 0 using 1
      unfold Prover.proof forge
      rw [Combination1.point_value (C := C) _ r k ω τ α β δ f hpw, Combination1.point_value (C := C) _ r k ω τ α β δ f hpw,
        Combination2.point_value (C := C) _ r k ω τ α β δ f hpw]
      unfold Soundness.Form1.value Soundness.Form2.value Combination1.form Combination2.form
      simp only [q0, o0, one _ _ hpos, one (2 * 2 ^ f.power.toNat - 1) _ (by omega), Polynomial.eval_add, Polynomial.eval_mul,
        Polynomial.eval_zero]
      rw [if_neg hu]
      refine congr (congr (congrArg Proof.mk ?_) ?_) ?_
      · show _ = u • C.g1
        congr 1
        ring
      · show _ = β • C.g2 + (v / u) • C.g2 + (0 / u) • δ • C.g2
        rw [smul_smul, ← add_smul, ← add_smul]
        congr 1
        ring
      · congr 1
        ring

end

/-! ### concrete cases -/

namespace Toy

/-- a prover who uses the powers of `τ`, `[α]1` and some points of the keys -/
def prover : Prover Toy.K := ⟨{ tau := fun i => i + 1, alpha := fun i => if i = 0 then 1 else 0 }, { beta := 1, tau := fun i => 2 * i },
  { k := fun i => 3 * i, z := fun _ => 5, delta := 7 }⟩

theorem prover_violates : ¬ circuit.Satisfies (prover.assignment circuit fun i => i + 1) := by
  unfold Phase2.R1CS.Satisfies
  decide

end Toy

-- the bound is less than the number of trapdoors: 10·17^3 < 17^4
example : (3 * 2 ^ 2 - 2) * Fintype.card Toy.K ^ 3 < Fintype.card Toy.K ^ 4 := by decide

open Classical in
example := C75_one_honest Toy.lawful Toy.env Toy.keyEnv rfl Gob.lawful [0] rfl 5 (by decide) 2 (by decide) (by decide)
  [(Toy.par, Toy.rnd)] [(Toy.par, Toy.rnd')] (by decide) (by decide)
  (fun t => (Toy.par, ⟨t.1, t.2.1, t.2.2.1, 1, 2, 3⟩)) (fun _ => ⟨rfl, rfl, rfl⟩) Toy.circuit Toy.circuit_valid Toy.circuit_vc
  Toy.circuit_nc.publicCommitment 2 Toy.circuit_domain (by decide) (by decide) dom4_lawful Toy.par [] [] 3 (by decide)
  [(Toy.par, Toy.p2rnd)] [] (by decide) (fun t => (Toy.par, ⟨t.2.2.2, 1⟩)) fun _ => rfl

example (Z : Finset (Toy.K × Toy.K × Toy.K × Toy.K)) := C75_sound Toy.lawful Toy.circuit Toy.circuit_valid (by decide) 2 Toy.circuit_domain (Toy.env.dom 4) dom4_lawful 3
  (by decide) Toy.prover _ Toy.prover_violates 17 (fun _ => univ) (fun _ => rfl) Z

example := C75_complete Toy.lawful Toy.circuit Toy.circuit_valid (by decide) 2 Toy.circuit_domain (Toy.env.dom 4) dom4_lawful
  Toy.witness Toy.witness_satisfies

-- the coefficients for the guess `τ = 3`, `α = 5` contain no satisfying assignment
example : ∃ c : Prover Toy.K, ¬ Toy.circuit.Satisfies (c.assignment Toy.circuit fun i => i + 1) ∧
    ∀ β δ : Toy.K, Verifies Toy.curve (trapdoorVK Toy.curve Toy.circuit 2 4 3 5 β δ) ((List.range 2).map fun i : Nat => (i : Toy.K) + 1)
      (c.proof (Toy.srs 3 3 5 β) (trapdoorPK Toy.curve Toy.circuit 2 4 3 5 β δ) (trapdoorVK Toy.curve Toy.circuit 2 4 3 5 β δ)) := by
  obtain ⟨c, h1, h2⟩ := C75_guess Toy.lawful Toy.circuit 2 4 (fun i : Nat => (i : Toy.K) + 1) 3 5
  refine ⟨c, ?_, fun β δ => h2 β δ _ (Toy.srs_powers 3 3 5 β)⟩
  have e : c.assignment Toy.circuit (fun i => (i : Toy.K) + 1) = fun i : Nat => if i < 2 then (i : Toy.K) + 1 else 0 := by
    funext i
    by_cases hi : i < 2
    · rw [if_pos hi]
      unfold Prover.assignment
      rw [if_pos (show i < Toy.circuit.shared from hi)]
    · rw [if_neg hi]
      exact h1 i (show 2 ≤ i by omega)
  rw [e]
  unfold Phase2.R1CS.Satisfies
  decide

end ZkSetup
