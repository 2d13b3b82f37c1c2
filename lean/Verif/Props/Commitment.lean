import Verif.Props.Keys
/-
C60: the verifying key of a circuit that uses a commitment.
-/
set_option linter.unusedSectionVars false

namespace ZkSetup

open Phase2 Keys
open Phase1 (batchSize)

section
variable {F G1 G2 GT : Type} [Field F] [AddCommGroup G1] [Module F G1] [AddCommGroup G2]
  [Module F G2] [AddCommGroup GT] [Module F GT] [DecidableEq G1] [DecidableEq G2] [DecidableEq GT]
variable {C : Curve F G1 G2 GT}

/-- **C60** in full, for one honest run of circuit `r` whose verifying key should be `vk`: the verifying key file ends with the
description of the commitment of `r`. -/
def CarriesCommitment (C : Curve F G1 G2 GT) (E : InitEnv F) (K : KeyEnv G1) (r : R1CS F) (ck : Bytes) (vk : VerifyKey G1 G2)
    (final evals : Bytes) : Prop :=
  extractVK C K final evals = (.ok (), some (vk.encode C ck (E.cmtBytes r.commitment)))

theorem encode_info {vk : VerifyKey G1 G2} {ck x y : Bytes} (h : vk.encode C ck x = vk.encode C ck y) : x = y :=
  List.append_cancel_left h

/-- **C60**, whatever the two input files are: both extractions put the description of "no commitment" at the end of the verifying
key. -/
theorem C60_never_set (K : KeyEnv G1) (ph2 evals : Bytes) :
    (∀ out, extractVK C K ph2 evals = (.ok (), some out) → K.noCommitment <:+ out) ∧
    (∀ out, extractSplitVK C K ph2 evals = (.ok (), some out) → K.noCommitment <:+ out.vk) := by
  constructor <;> intro out h
  · obtain ⟨header, rd, -, hb⟩ := (extract_ok _ _ _ _ _ _).1 h
    obtain ⟨vk, ckk, ck, s', -, -, rfl⟩ := (vkBody_iff _ _ _ _ _ _).1 hb
    exact ⟨_, List.append_assoc _ _ _⟩
  · obtain ⟨header, rd, -, hb⟩ := (extract_ok _ _ _ _ _ _).1 h
    obtain ⟨vk, ckk, ck, s', -, -, rfl⟩ := (splitVkBody_iff _ _ _ _ _ rfl _).1 hb
    exact ⟨_, rfl⟩

/-- **C60** is false for every circuit with a commitment: the evaluation file ends with the description of the commitment, the key
lists a point for the commitment wire besides those of the public wires, but the key does not carry the description. -/
theorem C60_lost (hC : C.Lawful) (E : InitEnv F) (K : KeyEnv G1) (hK : K.header = E.header) (ck : Bytes) (hck : K.commitmentKey [] = .ok ck)
    (b : Nat) (r : R1CS F) (k : Nat) (τ α β δ : F) (final evals : Bytes) (h : HonestRun C E b r k τ α β δ final evals)
    (hr : r.commitment.committed ≠ []) (hcmt : E.cmtBytes r.commitment ≠ K.noCommitment) :
    E.cmtBytes r.commitment <:+ evals ∧
    (trapdoorVK C r k (E.dom (2 ^ k)).gen τ α β δ).k.length = r.nbPublic + 1 ∧
    ¬ CarriesCommitment C E K r ck (trapdoorVK C r k (E.dom (2 ^ k)).gen τ α β δ) final evals := by
  have h2 := C38_verifying_key hC E K hK ck hck b r k τ α β δ final evals h []
  rw [List.append_nil] at h2
  refine ⟨?_, ?_, fun hc => hcmt ?_⟩
  · obtain ⟨-, he, -⟩ := h.files hC
    rw [he]
    exact ⟨_, rfl⟩
  · unfold trapdoorVK R1CS.shared
    simp [hr]
  · unfold CarriesCommitment at hc
    rw [h2] at hc
    simp only [Prod.mk.injEq, Option.some.injEq, true_and] at hc
    exact (encode_info hc).symm

/-- **C60**, what remains: the key of a circuit without commitment carries the right description. -/
theorem C60_no_commitment_partial (hC : C.Lawful) (E : InitEnv F) (K : KeyEnv G1) (hK : K.header = E.header) (ck : Bytes)
    (hck : K.commitmentKey [] = .ok ck) (b : Nat) (r : R1CS F) (k : Nat) (τ α β δ : F) (final evals : Bytes)
    (h : HonestRun C E b r k τ α β δ final evals) (hcmt : E.cmtBytes r.commitment = K.noCommitment) :
    CarriesCommitment C E K r ck (trapdoorVK C r k (E.dom (2 ^ k)).gen τ α β δ) final evals := by
  have h2 := C38_verifying_key hC E K hK ck hck b r k τ α β δ final evals h []
  rw [List.append_nil] at h2
  unfold CarriesCommitment
  rw [h2, hcmt]

end

namespace Toy

/-- the toy circuit with a commitment to its public wire -/
def cmtCircuit : R1CS K := { circuit with nbSecret := 0, nbInternal := 2, commitment := ⟨[1], 0, 2⟩ }

theorem cmtCircuit_valid : cmtCircuit.Valid := ⟨by decide, by decide, by decide, by decide⟩
theorem cmtCircuit_public : cmtCircuit.PublicCommitment := ⟨rfl, fun _ => ⟨rfl, by decide⟩⟩

/-- a description that tells commitments apart -/
def cmtEnv : InitEnv K := { env with cmtBytes := fun c => UInt8.ofNat c.committed.length :: c.committed.map UInt8.ofNat }

/-- extraction with that description -/
def cmtKeyEnv : KeyEnv K := { keyEnv with noCommitment := cmtEnv.cmtBytes ⟨[], 0, 0⟩ }

theorem honest_run (E : InitEnv K) (hE : E.header = Gob.headerCodec) (hd : (E.dom (2 ^ 2)).Lawful 2) (r : R1CS K) (hr : r.Valid)
    (hv : r.ValidCommitment) (hpc : r.PublicCommitment) (hk : IsDomain r.constraints.length 2) :
    ∃ final evals, HonestRun Toy.curve E batchSize r 2 3 5 7 (deltaProduct [Toy.p2rnd]) final evals := by
  have hH : E.header.Lawful := hE ▸ Gob.lawful
  have hwf := trapdoorFile_wf Toy.lawful r hr hpc 2 hk (by decide) (E.dom (2 ^ 2)).gen 3 5 7
  have hc := C29_first_contribution Toy.lawful hH Toy.par batchSize (by decide) Toy.p2rnd _ hwf rfl []
  have hi := init_honest Toy.lawful E par4 r hr hpc (Toy.srs 3 3 5 7)
    (Toy.srs_wf 3 (by decide) _ _ _) 3 5 7 (Toy.srs_powers 3 3 5 7) 2 hk (by decide) (by decide) hd [] [] []
  rw [List.append_nil] at hc
  exact ⟨_, _, hr, hv, hk, by decide, hd, hH, by decide,
    par4, Toy.srs 3 3 5 7, [], [], [], _, [(Toy.par, Toy.p2rnd)], Toy.srs_wf 3 (by decide) _ _ _, Toy.srs_powers 3 3 5 7,
    by decide, hi, by simp only [p2Ceremony]; rw [hc], rfl, rfl⟩

end Toy

-- a ceremony for a circuit that commits to its public wire: the description is lost
example : ∃ final evals, HonestRun Toy.curve Toy.cmtEnv batchSize Toy.cmtCircuit 2 3 5 7 (deltaProduct [Toy.p2rnd]) final evals ∧
    ¬ CarriesCommitment Toy.curve Toy.cmtEnv Toy.cmtKeyEnv Toy.cmtCircuit [0]
      (trapdoorVK Toy.curve Toy.cmtCircuit 2 (Toy.cmtEnv.dom (2 ^ 2)).gen 3 5 7 (deltaProduct [Toy.p2rnd])) final evals := by
  obtain ⟨final, evals, h⟩ := Toy.honest_run Toy.cmtEnv rfl dom4_lawful Toy.cmtCircuit Toy.cmtCircuit_valid
    ⟨⟨[1], [], rfl, rfl, List.Pairwise.nil, by simp⟩, by decide⟩ Toy.cmtCircuit_public Toy.circuit_domain
  exact ⟨final, evals, h, (C60_lost Toy.lawful Toy.cmtEnv Toy.cmtKeyEnv rfl [0] rfl batchSize Toy.cmtCircuit 2 3 5 7 _ final evals h
    (by decide) (by decide)).2.2⟩

-- and one for the circuit without commitment
example : ∃ final evals, HonestRun Toy.curve Toy.cmtEnv batchSize Toy.circuit 2 3 5 7 (deltaProduct [Toy.p2rnd]) final evals ∧
    CarriesCommitment Toy.curve Toy.cmtEnv Toy.cmtKeyEnv Toy.circuit [0]
      (trapdoorVK Toy.curve Toy.circuit 2 (Toy.cmtEnv.dom (2 ^ 2)).gen 3 5 7 (deltaProduct [Toy.p2rnd])) final evals := by
  obtain ⟨final, evals, h⟩ := Toy.honest_run Toy.cmtEnv rfl dom4_lawful Toy.circuit Toy.circuit_valid Toy.circuit_vc
    Toy.circuit_nc.publicCommitment Toy.circuit_domain
  exact ⟨final, evals, h, C60_no_commitment_partial Toy.lawful Toy.cmtEnv Toy.cmtKeyEnv rfl [0] rfl batchSize Toy.circuit 2 3 5 7 _
    final evals h rfl⟩

-- the key of an arbitrary pair of files that can be extracted
example (out : Bytes) (ph2 evals : Bytes) (h : extractVK Toy.curve Toy.keyEnv ph2 evals = (.ok (), some out)) : [7] <:+ out :=
  (C60_never_set Toy.keyEnv ph2 evals).1 out h

end ZkSetup
