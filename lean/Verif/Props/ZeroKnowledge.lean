import Verif.Props.Groth16
/-
C69: proofs made with the extracted keys do not depend on the witness.
-/
set_option linter.unusedSectionVars false

namespace ZkSetup

open Phase2 Keys KeySt
open Phase1 (batchSize)

section
variable {F G1 G2 GT : Type} [Field F] [AddCommGroup G1] [Module F G1] [AddCommGroup G2]
  [Module F G2] [AddCommGroup GT] [Module F GT] [DecidableEq G1] [DecidableEq G2] [DecidableEq GT]
variable {C : Curve F G1 G2 GT} (hC : C.Lawful)
include hC

/-- the third point of a valid proof is determined by the other two -/
theorem krs_unique (vk : VerifyKey G1 G2) (δ : F) (hδ : δ ≠ 0) (hvk : vk.delta2 = δ • C.g2) (xs : List F) (p q : Proof G1 G2)
    (hp : Verifies C vk xs p) (hq : Verifies C vk xs q) (ha : p.ar = q.ar) (hb : p.bs = q.bs) : p = q := by
  unfold Verifies at hp hq
  rw [ha, hb, hq] at hp
  have he := add_left_cancel hp
  obtain ⟨x, hx⟩ := hC.span1 p.krs
  obtain ⟨y, hy⟩ := hC.span1 q.krs
  rw [hvk, hx, hy, e_smul_smul hC, e_smul_smul hC, e_gen_inj hC] at he
  have hxy : x = y := (mul_right_cancel₀ hδ he).symm
  cases p; cases q
  simp only at ha hb hx hy
  rw [ha, hb, hx, hy, hxy]

/-- For every satisfying assignment, each valid proof for its public values is made with exactly one choice of the randomness. -/
theorem prove_covers (r : R1CS F) (hr : r.Valid) (hsh : r.shared ≤ r.wires) (k : Nat) (hk : IsDomain r.constraints.length k)
    (d : Lagrange.Domain F) (hd : d.Lawful k) (τ α β δ : F) (hδ : δ ≠ 0) (w : Nat → F) (hw : r.Satisfies w) (p : Proof G1 G2)
    (hp : Verifies C (trapdoorVK C r k d.gen τ α β δ) ((List.range r.shared).map w) p) :
    ∃! q : F × F, prove (trapdoorPK C r k d.gen τ α β δ) r.shared ((List.range r.wires).map w) (quotientCoeffs r k d.gen w) q.1 q.2
      = p := by
  have hv : ∀ s t, Verifies C (trapdoorVK C r k d.gen τ α β δ) ((List.range r.shared).map w)
      (prove (trapdoorPK C r k d.gen τ α β δ) r.shared ((List.range r.wires).map w) (quotientCoeffs r k d.gen w) s t) := fun s t => by
    rw [verifies_iff hC r k d τ α β δ w s t hr hsh hk.two hk.fits hd hδ,
      (satisfies_iff_remainder r hr k hk.fits d hd w).mp hw, Polynomial.eval_zero]
  have hpt := fun s t => prove_trapdoor (C := C) r k d τ α β δ w s t hr hk.two hk.fits hd
  obtain ⟨a, ha⟩ := hC.span1 p.ar
  obtain ⟨b, hb⟩ := hC.span2 p.bs
  refine ⟨((a - (qapSum r (2 ^ k) d.gen R1C.l w).eval τ - α) / δ, (b - (qapSum r (2 ^ k) d.gen R1C.r w).eval τ - β) / δ), ?_, ?_⟩
  · refine krs_unique hC _ δ hδ rfl _ _ _ (hv _ _) hp ?_ ?_
    · rw [hpt, ha]
      simp only
      congr 1
      field_simp
      ring
    · rw [hpt, hb]
      simp only
      congr 1
      field_simp
      ring
  · rintro ⟨s, t⟩ h
    simp only at h
    have h1 := congrArg Proof.ar h
    have h2 := congrArg Proof.bs h
    rw [hpt] at h1 h2
    simp only at h1 h2
    rw [ha, smul_g1_inj hC] at h1
    rw [hb, smul_g2_inj hC] at h2
    rw [Prod.mk.injEq]
    constructor
    · rw [← h1]; field_simp; ring
    · rw [← h2]; field_simp; ring

/-- **C69**: with the keys of an honest run, each valid proof for the public values of a satisfying assignment is made from that
assignment with exactly one choice of the prover's randomness. So a uniformly random choice gives a uniformly random valid proof,
whichever assignment is used. -/
theorem C69_uniform (E : InitEnv F) (K : KeyEnv G1) (hK : K.header = E.header) (ck : Bytes) (hck : K.commitmentKey [] = .ok ck)
    (b : Nat) (r : R1CS F) (k : Nat) (τ α β δ : F) (hδ : δ ≠ 0) (final evals : Bytes)
    (h : HonestRun C E b r k τ α β δ final evals) :
    ∃ (pk : ProvingKey G1 G2) (vk : VerifyKey G1 G2),
      extractKeys C K final evals = (.ok (), ⟨some (pk.encode C (K.domain (2 ^ k))), some (vk.encode C ck K.noCommitment)⟩) ∧
      ∀ w : Nat → F, r.Satisfies w → ∀ p : Proof G1 G2, Verifies C vk ((List.range r.shared).map w) p ↔
        ∃! q : F × F, prove pk r.shared ((List.range r.wires).map w) (quotientCoeffs r k (E.dom (2 ^ k)).gen w) q.1 q.2 = p := by
  refine ⟨_, _, C37_C38_extractKeys hC E K hK ck hck b r k τ α β δ final evals h, fun w hw p => ⟨fun hp => ?_, ?_⟩⟩
  · exact prove_covers hC r h.valid h.publicCommitment.shared_le k h.domain (E.dom (2 ^ k)) h.root τ α β δ hδ w hw p hp
  · rintro ⟨⟨s, t⟩, rfl, -⟩
    rw [verifies_iff hC r k (E.dom (2 ^ k)) τ α β δ w s t h.valid h.publicCommitment.shared_le h.domain.two h.domain.fits h.root hδ,
      (satisfies_iff_remainder r h.valid k h.domain.fits (E.dom (2 ^ k)) h.root w).mp hw, Polynomial.eval_zero]

/-- **C69**, witnesses: for two satisfying assignments with the same public values, each choice of the randomness for the first
gives the same proof as exactly one choice for the second. -/
theorem C69_indistinguishable (E : InitEnv F) (K : KeyEnv G1) (hK : K.header = E.header) (ck : Bytes)
    (hck : K.commitmentKey [] = .ok ck) (b : Nat) (r : R1CS F) (k : Nat) (τ α β δ : F) (hδ : δ ≠ 0) (final evals : Bytes)
    (h : HonestRun C E b r k τ α β δ final evals) :
    ∃ (pk : ProvingKey G1 G2) (vk : VerifyKey G1 G2),
      extractKeys C K final evals = (.ok (), ⟨some (pk.encode C (K.domain (2 ^ k))), some (vk.encode C ck K.noCommitment)⟩) ∧
      ∀ w w' : Nat → F, r.Satisfies w → r.Satisfies w' → (∀ i < r.shared, w i = w' i) → ∀ s t : F,
        ∃! q : F × F, prove pk r.shared ((List.range r.wires).map w') (quotientCoeffs r k (E.dom (2 ^ k)).gen w') q.1 q.2
          = prove pk r.shared ((List.range r.wires).map w) (quotientCoeffs r k (E.dom (2 ^ k)).gen w) s t := by
  refine ⟨_, _, C37_C38_extractKeys hC E K hK ck hck b r k τ α β δ final evals h, fun w w' hw hw' hpub s t => ?_⟩
  apply prove_covers hC r h.valid h.publicCommitment.shared_le k h.domain (E.dom (2 ^ k)) h.root τ α β δ hδ w' hw'
  have e : (List.range r.shared).map w' = (List.range r.shared).map w :=
    List.map_congr_left fun i hi => (hpub i (List.mem_range.mp hi)).symm
  rw [e, verifies_iff hC r k (E.dom (2 ^ k)) τ α β δ w s t h.valid h.publicCommitment.shared_le h.domain.two h.domain.fits h.root hδ,
    (satisfies_iff_remainder r h.valid k h.domain.fits (E.dom (2 ^ k)) h.root w).mp hw, Polynomial.eval_zero]

/-- **C69**, the zero secret: if some contributor's secret is zero, the first point of a proof does not depend on the randomness. -/
theorem C69_zero_delta (r : R1CS F) (hr : r.Valid) (k : Nat) (hk : IsDomain r.constraints.length k) (d : Lagrange.Domain F)
    (hd : d.Lawful k) (τ α β : F) (w : Nat → F) (s t : F) :
    (prove (trapdoorPK C r k d.gen τ α β 0) r.shared ((List.range r.wires).map w) (quotientCoeffs r k d.gen w) s t).ar
      = ((qapSum r (2 ^ k) d.gen R1C.l w).eval τ + α) • C.g1 := by
  rw [prove_trapdoor (C := C) r k d τ α β 0 w s t hr hk.two hk.fits hd]
  simp

end

/-! ### concrete cases -/

namespace Toy

/-- `circuit` without the constraint that fixes the sign of `x` -/
def square : R1CS K := { circuit with constraints := [⟨[⟨1, 2⟩], [⟨1, 2⟩], [⟨1, 3⟩]⟩, ⟨[⟨4, 3⟩, ⟨2, 0⟩], [⟨1, 0⟩], [⟨1, 1⟩]⟩,
    ⟨[⟨1, 2⟩], [⟨1, 2⟩], [⟨1, 3⟩]⟩] }

theorem square_valid : square.Valid := ⟨by decide, by decide, by decide, by decide⟩

theorem square_nc : square.NoCommitment := ⟨rfl, rfl⟩

/-- the other root: `x = -3` -/
def witness' : Nat → Toy.K := fun i => [1, 13, 14, 9].getD i 0

theorem square_witness : square.Satisfies witness := by
  unfold Phase2.R1CS.Satisfies
  decide

theorem square_witness' : square.Satisfies witness' := by
  unfold Phase2.R1CS.Satisfies
  decide

theorem square_run : ∃ final evals, HonestRun curve env batchSize square 2 3 5 7 (deltaProduct [p2rnd]) final evals := by
  have hi := init_honest lawful env par4 square square_valid square_nc.publicCommitment (srs 3 3 5 7)
    (srs_wf 3 (by decide) _ _ _) 3 5 7 (srs_powers 3 3 5 7) 2 circuit_domain (by decide) (by decide) dom4_lawful [] [] []
  have hwf := trapdoorFile_wf lawful square square_valid square_nc.publicCommitment 2 circuit_domain (by decide) (env.dom (2 ^ 2)).gen 3 5 7
  have hc := C29_first_contribution lawful Gob.lawful par batchSize (by decide) p2rnd _ hwf rfl []
  rw [List.append_nil] at hc
  exact ⟨_, _, square_valid, ⟨⟨[], [], rfl, rfl, List.Pairwise.nil, by simp⟩, fun h => absurd rfl h⟩, circuit_domain, by decide, dom4_lawful,
    Gob.lawful, by decide, par4, srs 3 3 5 7, [], [], [], _, [(par, p2rnd)], srs_wf 3 (by decide) _ _ _, srs_powers 3 3 5 7, by decide, hi,
    by simp only [p2Ceremony]; rw [show env.header = Gob.headerCodec from rfl, hc], rfl, rfl⟩

end Toy

example (final evals : Bytes) (h : HonestRun Toy.curve Toy.env batchSize Toy.square 2 3 5 7 (deltaProduct [Toy.p2rnd]) final evals) :=
  C69_uniform Toy.lawful Toy.env Toy.keyEnv rfl [0] rfl batchSize Toy.square 2 3 5 7 _ (by decide) final evals h

-- the proofs for `x = 3` and for `x = -3` are the same
example (final evals : Bytes) (h : HonestRun Toy.curve Toy.env batchSize Toy.square 2 3 5 7 (deltaProduct [Toy.p2rnd]) final evals) :
    ∃ pk : ProvingKey Toy.K Toy.K, ∀ s t, ∃! q : Toy.K × Toy.K,
      prove pk 2 ((List.range 4).map Toy.witness') (quotientCoeffs Toy.square 2 (Toy.env.dom (2 ^ 2)).gen Toy.witness') q.1 q.2
        = prove pk 2 ((List.range 4).map Toy.witness) (quotientCoeffs Toy.square 2 (Toy.env.dom (2 ^ 2)).gen Toy.witness) s t := by
  obtain ⟨pk, vk, -, hall⟩ := C69_indistinguishable Toy.lawful Toy.env Toy.keyEnv rfl [0] rfl batchSize Toy.square 2 3 5 7 _ (by decide)
    final evals h
  exact ⟨pk, hall _ _ Toy.square_witness Toy.square_witness' (by decide)⟩

example := C69_zero_delta Toy.lawful Toy.square Toy.square_valid 2 Toy.circuit_domain dom4 dom4_lawful 3 5 7 Toy.witness 1 2

end ZkSetup
