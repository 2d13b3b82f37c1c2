import Verif.Props.Keys
import Verif.Proofs.Groth16
/-
C41: the extracted keys make Groth16 complete. C51: what keys from a wrong number of constraints accept.
-/
set_option linter.unusedSectionVars false

namespace ZkSetup

open Phase2 Keys KeySt
open Phase1 (makeLen wrap64 batchSize)

section
variable {F G1 G2 GT : Type} [Field F] [AddCommGroup G1] [Module F G1] [AddCommGroup G2]
  [Module F G2] [AddCommGroup GT] [Module F GT] [DecidableEq G1] [DecidableEq G2] [DecidableEq GT]
variable {C : Curve F G1 G2 GT} (hC : C.Lawful)
include hC

/-- **C41**: for every valid circuit, every honest phase 1 file that is large enough and every sequence of successful contributions
with nonzero secrets, the extracted files hold keys such that for every assignment that satisfies the circuit and all prover
randomness `s`, `t`, the proof made with the proving key satisfies the verification equation of the verifying key. -/
theorem C41_complete (E : InitEnv F) (K : KeyEnv G1) (hK : K.header = E.header) (ck : Bytes) (hck : K.commitmentKey [] = .ok ck)
    (b : Nat) (r : R1CS F) (k : Nat) (τ α β δ : F) (hδ : δ ≠ 0) (final evals : Bytes)
    (h : HonestRun C E b r k τ α β δ final evals) :
    ∃ (pk : ProvingKey G1 G2) (vk : VerifyKey G1 G2),
      extractKeys C K final evals = (.ok (), ⟨some (pk.encode C (K.domain (2 ^ k))), some (vk.encode C ck K.noCommitment)⟩) ∧
      ∀ w : Nat → F, r.Satisfies w → ∀ s t : F, Verifies C vk ((List.range r.shared).map w)
        (prove pk r.shared ((List.range r.wires).map w) (quotientCoeffs r k (E.dom (2 ^ k)).gen w) s t) := by
  refine ⟨_, _, C37_C38_extractKeys hC E K hK ck hck b r k τ α β δ final evals h, fun w hw s t => ?_⟩
  rw [verifies_iff hC r k (E.dom (2 ^ k)) τ α β δ w s t h.valid h.publicCommitment.shared_le h.domain.two h.domain.fits h.root hδ,
    (satisfies_iff_remainder r h.valid k h.domain.fits (E.dom (2 ^ k)) h.root w).mp hw, Polynomial.eval_zero]

/-- **C41**, the other direction: the honest prover's proof for an assignment that violates the circuit is rejected for all but
fewer than `2^k` (the size of the domain) values of `τ`, whatever the other secrets. -/
theorem C41_violating_rejected (r : R1CS F) (hr : r.Valid) (hsh : r.shared ≤ r.wires) (k : Nat)
    (hk : IsDomain r.constraints.length k) (d : Lagrange.Domain F) (hd : d.Lawful k) (w : Nat → F) (hw : ¬ r.Satisfies w)
    (taus : Finset F)
    (h : ∀ τ ∈ taus, ∃ α β δ s t : F, δ ≠ 0 ∧ Verifies C (trapdoorVK C r k d.gen τ α β δ) ((List.range r.shared).map w)
      (prove (trapdoorPK C r k d.gen τ α β δ) r.shared ((List.range r.wires).map w) (quotientCoeffs r k d.gen w) s t)) :
    taus.card < 2 ^ k := by
  by_contra hlt
  apply hw
  rw [satisfies_iff_remainder r hr k hk.fits d hd w]
  refine Polynomial.eq_zero_of_degree_lt_of_eval_finset_eq_zero taus ?_ ?_
  · refine (remainder_degree r w (2 ^ k) (Nat.pow_pos (by omega)) d.gen).trans_le ?_
    exact_mod_cast (by omega : 2 ^ k ≤ taus.card)
  · intro τ hτ
    obtain ⟨α, β, δ, s, t, hδ, hv⟩ := h τ hτ
    exact (verifies_iff hC r k d τ α β δ w s t hr hsh hk.two hk.fits hd hδ).mp hv

/-- **C51** is false, by its consequence: if `p2np` is given a number `m` of constraints smaller than the circuit's and all else is
honest, nothing fails, and the extracted keys accept proofs for assignments that violate the constraints beyond the first `m`. -/
theorem C51_violating_accepted (E : InitEnv F) (K : KeyEnv G1) (hK : K.header = E.header) (hH : E.header.Lawful) (ck : Bytes)
    (hck : K.commitmentKey [] = .ok ck)
    (r : R1CS F) (hr : r.Valid) (hcv : r.ValidCommitment) (cs : PartedR1CS F) (m : Nat) (hm : m ≤ r.constraints.length)
    (hpub : cs.base.nbPublic = r.nbPublic) (hsec : cs.base.nbSecret = r.nbSecret) (hint : cs.base.nbInternal = r.nbInternal)
    (hcoeff : cs.base.coefficients = r.coefficients) (hcmt : cs.base.commitment = r.commitment)
    (hget : ∀ i (h : i < r.constraints.length), cs.get i = .ok r.constraints[i])
    (par : Par) (f : P1File G1 G2) (hf : f.WF) (τ α β : F) (hpw : f.Powers C τ α β) (k : Nat) (hk : IsDomain m k) (hk27 : k ≤ 27)
    (hkp : k ≤ f.power.toNat) (hdom : (E.dom (2 ^ k)).Lawful k) (junk oldLag oldEvals : Bytes) (st : InitSt)
    (hinit : initializeParted C E par cs m (f.encode C ++ junk) oldLag oldEvals = (.ok (), st)) (b : Nat) (hb : 0 < b)
    (steps : List (Par × Rand F)) (hδ : deltaProduct (steps.map Prod.snd) ≠ 0) (final : Bytes)
    (hcer : p2Ceremony C E.header b steps st.ph2 = .ok final) :
    ∃ (pk : ProvingKey G1 G2) (vk : VerifyKey G1 G2),
      extractKeys C K final st.evals = (.ok (), ⟨some (pk.encode C (K.domain (2 ^ k))), some (vk.encode C ck K.noCommitment)⟩) ∧
      ∀ w : Nat → F, (∀ c ∈ r.constraints.take m,
          lcValue r.coefficients w c.l * lcValue r.coefficients w c.r = lcValue r.coefficients w c.o) →
        ∀ s t : F, ∃ hs : List F, Verifies C vk ((List.range r.shared).map w)
          (prove pk r.shared ((List.range r.wires).map w) hs s t) := by
  rw [C51_constraints_dropped E par r cs m hm hpub hsec hint hcoeff hcmt hget] at hinit
  have hl : (r.takeConstraints m).constraints.length = m := by simp [R1CS.takeConstraints, hm]
  have hrun : HonestRun C E b (r.takeConstraints m) k τ α β (deltaProduct (steps.map Prod.snd)) final st.evals :=
    { valid := ⟨hl.symm, fun c hc => hr.wire c (List.mem_of_mem_take hc), fun c hc => hr.coeff c (List.mem_of_mem_take hc), hr.size⟩
      commitment := ⟨hcv.committed, hcv.index⟩
      domain := by rw [hl]; exact hk
      size := hk27
      root := hdom
      header := hH
      batch := hb
      run := ⟨par, f, junk, oldLag, oldEvals, st, steps, hf, hpw, hkp, hinit, hcer, rfl, rfl⟩ }
  obtain ⟨pk, vk, h1, h2⟩ := C41_complete hC E K hK ck hck b _ k τ α β _ hδ final st.evals hrun
  exact ⟨pk, vk, h1, fun w hw s t => ⟨_, h2 w hw s t⟩⟩

end

namespace Toy

/-- an assignment of the toy circuit: `x = 3`, `v = 9`, `y = 13` -/
def witness : Nat → Toy.K := fun i => [1, 13, 3, 9].getD i 0

theorem witness_satisfies : circuit.Satisfies witness := by
  unfold Phase2.R1CS.Satisfies
  decide

/-- an assignment that violates the third constraint only: `x = 0`, `v = 0`, `y = 2` -/
def cheat : Nat → Toy.K := fun i => [1, 2, 0, 0].getD i 0

theorem cheat_violates : ¬ circuit.Satisfies cheat := by
  unfold Phase2.R1CS.Satisfies
  decide

/-- the toy circuit with the constraint `x·1 = y` in front of which it was cut -/
def longer : R1CS Toy.K := { circuit with nbConstraints := 4, constraints := circuit.constraints ++ [⟨[⟨1, 2⟩], [⟨1, 0⟩], [⟨1, 1⟩]⟩] }

theorem longer_violated : ¬ longer.Satisfies witness := by
  unfold Phase2.R1CS.Satisfies
  decide

def longerParted : PartedR1CS Toy.K :=
  ⟨{ longer with constraints := [], nbConstraints := 0 }, fun i => index longer.constraints i⟩

theorem longerParted_get (i : Nat) (h : i < longer.constraints.length) : longerParted.get i = .ok longer.constraints[i] := by
  simp only [longerParted, index, List.getElem?_eq_getElem h]

/-- `p2np` with 3 constraints instead of 4, then one contribution: all succeed -/
theorem longer_run : ∃ st final,
    initializeParted Toy.curve Toy.env par4 longerParted (3 : Nat) ((Toy.srs 3 3 5 7).encode Toy.curve ++ []) [] [] = (.ok (), st) ∧
    p2Ceremony Toy.curve Toy.env.header batchSize [(Toy.par, Toy.p2rnd)] st.ph2 = .ok final := by
  have hv : (longer.takeConstraints 3).Valid := ⟨by decide, by decide, by decide, by decide⟩
  have hpc : (longer.takeConstraints 3).PublicCommitment := ⟨rfl, fun h => absurd rfl h⟩
  have hi := init_honest Toy.lawful Toy.env par4 (longer.takeConstraints 3) hv hpc (Toy.srs 3 3 5 7)
    (Toy.srs_wf 3 (by decide) _ _ _) 3 5 7 (Toy.srs_powers 3 3 5 7) 2 Toy.circuit_domain (by decide) (by decide) dom4_lawful
    [] [] []
  have hwf := trapdoorFile_wf Toy.lawful (longer.takeConstraints 3) hv hpc 2
    Toy.circuit_domain (by decide) (Toy.env.dom (2 ^ 2)).gen 3 5 7
  have hc := C29_first_contribution Toy.lawful Gob.lawful Toy.par batchSize (by decide) Toy.p2rnd _ hwf rfl []
  rw [List.append_nil] at hc
  exact ⟨_, _, (C51_constraints_dropped (C := Toy.curve) Toy.env par4 longer longerParted 3 (by decide) rfl rfl rfl rfl rfl
    longerParted_get _ _ _).trans hi, by simp only [p2Ceremony]; rw [show Toy.env.header = Gob.headerCodec from rfl, hc]⟩

end Toy

example (final evals : Bytes) (h : HonestRun Toy.curve Toy.env batchSize Toy.circuit 2 3 5 7 (deltaProduct [Toy.p2rnd]) final evals) :=
  C41_complete Toy.lawful Toy.env Toy.keyEnv rfl [0] rfl batchSize Toy.circuit 2 3 5 7 _ (by decide) final evals h

example := Toy.witness_satisfies

example := C41_violating_rejected Toy.lawful Toy.circuit Toy.circuit_valid (by decide) 2 Toy.circuit_domain dom4 dom4_lawful Toy.cheat
  Toy.cheat_violates

-- keys for `longer` from a run with 3 instead of 4 constraints accept the assignment of `Toy.longer_violated`
example (st : InitSt) (final : Bytes)
    (h1 : initializeParted Toy.curve Toy.env par4 Toy.longerParted (3 : Nat) ((Toy.srs 3 3 5 7).encode Toy.curve ++ []) [] []
      = (.ok (), st))
    (h2 : p2Ceremony Toy.curve Toy.env.header batchSize [(Toy.par, Toy.p2rnd)] st.ph2 = .ok final) :=
  C51_violating_accepted Toy.lawful Toy.env Toy.keyEnv rfl Gob.lawful [0] rfl Toy.longer ⟨by decide, by decide, by decide, by decide⟩
    ⟨⟨[], [], rfl, rfl, List.Pairwise.nil, by simp⟩, fun h => absurd rfl h⟩ Toy.longerParted 3 (by decide) rfl rfl rfl rfl rfl
    Toy.longerParted_get par4 (Toy.srs 3 3 5 7) (Toy.srs_wf 3 (by decide) _ _ _) 3 5 7 (Toy.srs_powers 3 3 5 7) 2 Toy.circuit_domain
    (by decide) (by decide) dom4_lawful [] [] [] st h1 batchSize (by decide) [(Toy.par, Toy.p2rnd)] (by decide) final h2

end ZkSetup
