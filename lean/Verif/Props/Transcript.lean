import Verif.Spec.Forge
import Verif.Props.Groth16
import Verif.Props.Phase1Sound
import Verif.Props.Phase2Sound
import Verif.Props.Session
/-
C62: whose secrets protect the keys made from accepted files.
-/
set_option linter.unusedSectionVars false

namespace ZkSetup

open Phase2 Keys KeySt
open Phase1 (makeLen wrap64 batchSize)
open Finset (range sum_congr sum_smul sum_add_distrib mul_sum)

section
variable {F G1 G2 GT : Type} [Field F] [AddCommGroup G1] [Module F G1] [AddCommGroup G2]
  [Module F G2] [AddCommGroup GT] [Module F GT] [DecidableEq G1] [DecidableEq G2] [DecidableEq GT]
variable {C : Curve F G1 G2 GT} (hC : C.Lawful)

omit [DecidableEq G1] [DecidableEq G2] [DecidableEq GT] in
theorem takeOver_wf (τ α : F) (f : P1File G1 G2) (hf : f.WF) : (takeOver C τ α f).WF :=
  ⟨hf.power, by simp [takeOver], by simp [takeOver], by simp [takeOver], by simp [takeOver], hf.count, hf.hash⟩

omit [DecidableEq G1] [DecidableEq G2] [DecidableEq GT] in
theorem takeOver_powers (τ α τ₀ α₀ β : F) (f : P1File G1 G2) (hpw : f.Powers C τ₀ α₀ β) : (takeOver C τ α f).Powers C τ α β := by
  have hb : f.betaG1.headD 0 = β • C.g1 := by
    rw [hpw.betaG1]
    have : 0 < 2 ^ f.power.toNat := Nat.pow_pos (by omega)
    generalize 2 ^ f.power.toNat = n at this
    obtain ⟨m, rfl⟩ : ∃ m, n = m + 1 := ⟨n - 1, by omega⟩
    rw [List.range_succ_eq_map]
    simp
  refine ⟨rfl, rfl, ?_, rfl, hpw.betaG2⟩
  simp only [takeOver, hb, smul_smul, mul_comm]

include hC

/-- the forged proof satisfies the verification equation -/
theorem forge_verifies (r : R1CS F) (k : Nat) (ω τ α β δ : F) (x : Nat → F) (c : F) :
    Verifies C (trapdoorVK C r k ω τ α β δ) ((List.range r.shared).map x)
      (forge C r k ω τ α (trapdoorVK C r k ω τ α β δ) x c) := by
  have hV : msmOf (trapdoorVK C r k ω τ α β δ).k ((List.range r.shared).map x)
      = (β * (∑ i ∈ range r.shared, x i * (qap r (2 ^ k) ω R1C.l i).eval τ)
        + ∑ i ∈ range r.shared, x i * (α * (qap r (2 ^ k) ω R1C.r i).eval τ + (qap r (2 ^ k) ω R1C.o i).eval τ)) • C.g1 := by
    unfold trapdoorVK
    rw [msmOf_map, list_sum_range, mul_sum, ← sum_add_distrib, sum_smul]
    refine sum_congr rfl fun j _ => ?_
    rw [smul_smul]
    congr 1
    unfold wireValue
    ring
  unfold Verifies
  rw [hV]
  unfold forge
  simp only [trapdoorVK]
  generalize (∑ i ∈ range r.shared, x i * (qap r (2 ^ k) ω R1C.l i).eval τ) = a
  generalize (∑ i ∈ range r.shared, x i * (α * (qap r (2 ^ k) ω R1C.r i).eval τ + (qap r (2 ^ k) ω R1C.o i).eval τ)) = v
  by_cases hu : α + a = 0
  · rw [if_pos hu]
    simp only
    rw [smul_smul, ← add_smul, e_smul_smul hC, hC.smul_left, hC.smul_left, e_smul_smul hC, ← add_smul, ← add_smul, e_gen_inj hC]
    linear_combination (-β) * hu
  · rw [if_neg hu]
    simp only
    rw [smul_smul, ← add_smul, ← add_smul, e_smul_smul hC, e_smul_smul hC, hC.smul_left, e_smul_smul hC, ← add_smul, ← add_smul,
      e_gen_inj hC]
    field_simp
    ring

/-- **C62**, the attack on phase 1: whoever has an accepted phase 1 file `f`, of whatever contributors, can exchange its parameters
for those of `τ`, `α` of their own choice. The file `takeOver C τ α f` has the same records and is accepted wherever `f` is. -/
theorem C62_takeover (τ α τ₀ α₀ β : F) (f : P1File G1 G2) (hf : f.WF) (hpw : f.Powers C τ₀ α₀ β) :
    (takeOver C τ α f).WF ∧ (takeOver C τ α f).records = f.records ∧ (takeOver C τ α f).Powers C τ α β ∧
    ∀ (par : Par) (b : Nat) (_ : 0 < b) (vr : Phase1.VerifyRand F) (junk : Bytes) (tr : Option Bytes),
      Phase1.verify C par .strict b vr (f.encode C ++ junk) tr = .ok () →
      Phase1.verify C par .strict b vr ((takeOver C τ α f).encode C ++ junk) tr = .ok () :=
  ⟨takeOver_wf τ α f hf, rfl, takeOver_powers τ α τ₀ α₀ β f hpw,
    fun par b hb vr junk tr h => C14_sections_unchecked hC par b hb vr f _ hf (takeOver_wf τ α f hf) rfl rfl junk tr h⟩

/-- **C62** is false: let `f` be any phase 1 file of honest contributors that `p1v` accepts. An outsider chooses `τ`, `α` and
publishes `takeOver C τ α f`. `p1v` accepts it, its records are those of the contributors; `p2n` succeeds with it for every
circuit that fits, and if the contributions to phase 2 succeed and have nonzero secrets, keys are extracted with which honest provers
succeed (so nothing looks wrong). But the outsider, who knows neither any contributor's secret of phase 1 nor any of phase 2, has a
proof for **every** choice of the public values, satisfiable or not, and as many as they like (`c`). -/
theorem C62_false (E : InitEnv F) (K : KeyEnv G1) (hK : K.header = E.header) (hH : E.header.Lawful) (ck : Bytes)
    (hck : K.commitmentKey [] = .ok ck) (f : P1File G1 G2) (hf : f.WF) (τ₀ α₀ β : F) (hpw : f.Powers C τ₀ α₀ β)
    (junk : Bytes) (tr : Option Bytes) (hacc : ∀ par b, 0 < b → ∀ vr, Phase1.verify C par .strict b vr (f.encode C ++ junk) tr = .ok ())
    (τ α : F) (r : R1CS F) (hr : r.Valid) (hvc : r.ValidCommitment) (hpc : r.PublicCommitment) (k : Nat)
    (hk : IsDomain r.constraints.length k) (hk27 : k ≤ 27) (hkp : k ≤ f.power.toNat) (hdom : (E.dom (2 ^ k)).Lawful k) :
    ∃ g : P1File G1 G2, g = takeOver C τ α f ∧ g.records = f.records ∧
      (∀ par b, 0 < b → ∀ vr, Phase1.verify C par .strict b vr (g.encode C ++ junk) tr = .ok ()) ∧
      ∀ (par : Par) (oldLag oldEvals : Bytes), ∃ st,
        initializeFiles C E par (some r) (g.encode C ++ junk) oldLag oldEvals = (.ok (), st) ∧
        ∀ (b : Nat) (_ : 0 < b) (steps : List (Par × Rand F)) (final : Bytes), deltaProduct (steps.map Prod.snd) ≠ 0 →
          p2Ceremony C E.header b steps st.ph2 = .ok final →
          ∃ (pk : ProvingKey G1 G2) (vk : VerifyKey G1 G2),
            extractKeys C K final st.evals = (.ok (), ⟨some (pk.encode C (K.domain (2 ^ k))), some (vk.encode C ck K.noCommitment)⟩) ∧
            (∀ w : Nat → F, r.Satisfies w → ∀ s t : F, Verifies C vk ((List.range r.shared).map w)
              (prove pk r.shared ((List.range r.wires).map w) (quotientCoeffs r k (E.dom (2 ^ k)).gen w) s t)) ∧
            ∀ (x : Nat → F) (c : F), Verifies C vk ((List.range r.shared).map x) (forge C r k (E.dom (2 ^ k)).gen τ α vk x c) := by
  obtain ⟨h1, h2, h3, h4⟩ := C62_takeover hC τ α τ₀ α₀ β f hf hpw
  refine ⟨_, rfl, h2, fun par b hb vr => h4 par b hb vr junk tr (hacc par b hb vr), fun par oldLag oldEvals => ?_⟩
  have hi := init_honest hC E par r hr hpc _ h1 τ α β h3 k hk hk27 hkp hdom junk oldLag oldEvals
  refine ⟨_, hi, fun b hb steps final hδ hcer => ?_⟩
  have hrun : HonestRun C E b r k τ α β (deltaProduct (steps.map Prod.snd)) final _ :=
    { valid := hr, commitment := hvc, domain := hk, size := hk27, root := hdom, header := hH, batch := hb
      run := ⟨par, _, junk, oldLag, oldEvals, _, steps, h1, h3, hkp, hi, hcer, rfl, rfl⟩ }
  refine ⟨_, _, C37_C38_extractKeys hC E K hK ck hck b r k τ α β _ final _ hrun, fun w hw s t => ?_,
    fun x c => forge_verifies hC r k _ τ α β _ x c⟩
  rw [verifies_iff hC r k (E.dom (2 ^ k)) τ α β _ w s t hr hpc.shared_le hk.two hk.fits hdom hδ,
    (satisfies_iff_remainder r hr k hk.fits (E.dom (2 ^ k)) hdom w).mp hw, Polynomial.eval_zero]

/-- **C62** is false for every ceremony: whatever the power and the (nonempty list of) honest contributors of phase 1, the file they
leave can be taken over as in `C62_false`. -/
theorem C62_ceremony_false (E : InitEnv F) (K : KeyEnv G1) (hK : K.header = E.header) (hH : E.header.Lawful) (ck : Bytes)
    (hck : K.commitmentKey [] = .ok ck) (b₁ : Nat) (hb₁ : 2 ≤ b₁) (p : UInt8) (hp1 : 1 ≤ p.toNat) (hp : p.toNat ≤ 62)
    (steps₁ : List (Par × Phase1.Rand F)) (hne : steps₁ ≠ []) (hlen : steps₁.length < 65536)
    (τ α : F) (r : R1CS F) (hr : r.Valid) (hvc : r.ValidCommitment) (hpc : r.PublicCommitment) (k : Nat)
    (hk : IsDomain r.constraints.length k) (hk27 : k ≤ 27) (hkp : k ≤ p.toNat) (hdom : (E.dom (2 ^ k)).Lawful k) :
    ∃ f g : P1File G1 G2, p1Ceremony C b₁ steps₁ (Phase1.initializeFile C p) = .ok (f.encode C) ∧
      g = takeOver C τ α f ∧ g.records = f.records ∧ g.records.length = steps₁.length ∧
      (∀ par b, 0 < b → ∀ vr, Phase1.verify C par .strict b vr (g.encode C) none = .ok ()) ∧
      ∀ (par : Par) (oldLag oldEvals : Bytes), ∃ st,
        initializeFiles C E par (some r) (g.encode C) oldLag oldEvals = (.ok (), st) ∧
        ∀ (b : Nat) (_ : 0 < b) (steps : List (Par × Rand F)) (final : Bytes), deltaProduct (steps.map Prod.snd) ≠ 0 →
          p2Ceremony C E.header b steps st.ph2 = .ok final →
          ∃ (pk : ProvingKey G1 G2) (vk : VerifyKey G1 G2),
            extractKeys C K final st.evals = (.ok (), ⟨some (pk.encode C (K.domain (2 ^ k))), some (vk.encode C ck K.noCommitment)⟩) ∧
            ∀ (x : Nat → F) (c : F), Verifies C vk ((List.range r.shared).map x) (forge C r k (E.dom (2 ^ k)).gen τ α vk x c) := by
  obtain ⟨hwf, -, hpow, hcount⟩ := ceremony_inv hC (steps₁.map Prod.snd) (P1File.init C p) (init_wf C p hp)
    (init_powers C p).regular (by simpa [P1File.init] using hlen)
  have hpw := ceremony_powers (C := C) (steps₁.map Prod.snd) _ _ _ _ (init_powers C p)
  have hcer := initial_ceremony hC b₁ hb₁ p hp1 hp steps₁ hlen
  have hacc : ∀ par b, 0 < b → ∀ vr,
      Phase1.verify C par .strict b vr (((P1File.init C p).ceremony C (steps₁.map Prod.snd)).encode C ++ []) none = .ok () := by
    obtain ⟨out, h1, h2⟩ := C11_honest_accepted hC b₁ hb₁ p hp1 hp steps₁ hne hlen
    rw [hcer, Except.ok.injEq] at h1
    intro par b hb vr
    rw [List.append_nil, h1]
    exact h2 par b hb vr
  generalize hf : (P1File.init C p).ceremony C (steps₁.map Prod.snd) = f at *
  obtain ⟨g, rfl, h1, h2, h3⟩ := C62_false hC E K hK hH ck hck f hwf _ _ _ hpw [] none hacc τ α r hr hvc hpc k hk hk27
    (by rw [hpow]; exact hkp) hdom
  simp only [List.append_nil] at h2 h3
  refine ⟨f, _, hcer, rfl, h1, ?_, h2, fun par oldLag oldEvals => ?_⟩
  · rw [h1, hcount]
    simp [P1File.init]
  · obtain ⟨st, h4, h5⟩ := h3 par oldLag oldEvals
    refine ⟨st, h4, fun b hb steps final hδ h => ?_⟩
    obtain ⟨pk, vk, h6, -, h7⟩ := h5 b hb steps final hδ h
    exact ⟨pk, vk, h6, h7⟩

/-- extraction from a file with the parameters of the trapdoor -/
theorem extractKeys_trapdoor (E : InitEnv F) (K : KeyEnv G1) (hK : K.header = E.header) (hH : E.header.Lawful) (ck : Bytes)
    (hck : K.commitmentKey [] = .ok ck) (r : R1CS F) (hr : r.Valid) (hpc : r.PublicCommitment) (k : Nat)
    (hk : IsDomain r.constraints.length k) (hk27 : k ≤ 27) (τ α β δ : F) (c : Int) (hc1 : -(2 ^ 63) ≤ c) (hc2 : c < 2 ^ 63)
    (rest : Bytes) :
    extractKeys C K (E.header.enc (((trapdoorFile C r k (E.dom (2 ^ k)).gen τ α β).scaleParams δ).headerWith c)
        ++ (((trapdoorFile C r k (E.dom (2 ^ k)).gen τ α β).scaleParams δ).params C ++ rest))
        ((trapdoorEvals C r (2 ^ k) (E.dom (2 ^ k)).gen τ α β (E.cmtBytes r.commitment)).encode C)
      = (.ok (), ⟨some ((trapdoorPK C r k (E.dom (2 ^ k)).gen τ α β δ).encode C (K.domain (2 ^ k))),
          some ((trapdoorVK C r k (E.dom (2 ^ k)).gen τ α β δ).encode C ck K.noCommitment)⟩) := by
  have hwf := trapdoorFile_wf hC r hr hpc k hk hk27 (E.dom (2 ^ k)).gen τ α β
  have hw : r.wires < 2 ^ 32 := hr.size
  have hp : r.shared < 2 ^ 32 := by have := hpc.shared_le; omega
  have h1 := extractPK_starts hC K (by rw [hK]; exact hH) _ (P2File.scaleParams_wf δ _ hwf)
    (show 2 ^ k ≤ 2 ^ 28 from Nat.pow_le_pow_right (by omega) (by omega)) c hc1 hc2
    (trapdoorEvals C r (2 ^ k) (E.dom (2 ^ k)).gen τ α β (E.cmtBytes r.commitment))
    (by simpa [trapdoorEvals] using hw) (by simpa [trapdoorEvals] using hw) (by simpa [trapdoorEvals] using hw) rest []
  rw [hK, provingKeyOf_trapdoor hC, List.append_nil] at h1
  have h2 := (extractVK_starts hC K (by rw [hK]; exact hH) _ (P2File.scaleParams_wf δ _ hwf) c hc1 hc2
    (trapdoorEvals C r (2 ^ k) (E.dom (2 ^ k)).gen τ α β (E.cmtBytes r.commitment)) hw
    (by simp [trapdoorEvals, P2File.scaleParams, trapdoorFile]) (by simp [trapdoorEvals, P2File.scaleParams, trapdoorFile])
    (by simp [trapdoorEvals, P2File.scaleParams, trapdoorFile]) (by simpa [trapdoorEvals] using hp) (by simp [trapdoorEvals])
    ck hck rest []).1
  rw [hK, List.append_nil] at h2
  unfold extractKeys bothKeys
  rw [h1, h2]
  rfl

/-- **C62** (partial): phase 1 is honest (the parameters are powers of `τ, α, β` and `τ` is not a root of unity), phase 2 is
arbitrary: `p` is any structured file that `p2v` has accepted against the file that `p2n` made. Then the records of `p` prove scalars
`xs` one after the other, and either their product `δ` is not 0 and the extracted keys are those of the
trapdoor `τ, α, β, δ`, with which every honest proof verifies, or the verifier was lucky: there is an element of Z or of PKK such that,
whatever the other draws, at most one value of the draw for it makes `p2v` accept.
Missing: phase 1 files of others (see `C62_false`), files that cannot be decoded (`C34_undecodable_accepted`). -/
theorem C62_phase2_partial (E : InitEnv F) (K : KeyEnv G1) (hK : K.header = E.header) (hH : E.header.Lawful) (ck : Bytes)
    (hck : K.commitmentKey [] = .ok ck) (f : P1File G1 G2) (hf : f.WF) (τ α β : F) (hpw : f.Powers C τ α β)
    (r : R1CS F) (hr : r.Valid) (hpc : r.PublicCommitment) (k : Nat)
    (hk : IsDomain r.constraints.length k) (hk27 : k ≤ 27) (hkp : k ≤ f.power.toNat) (hdom : (E.dom (2 ^ k)).Lawful k)
    (hτ : τ ^ 2 ^ k ≠ 1) (par : Par) (junk oldLag oldEvals : Bytes) (st : InitSt)
    (hinit : initializeFiles C E par (some r) (f.encode C ++ junk) oldLag oldEvals = (.ok (), st))
    (p : P2File G1 G2) (hp : p.WF) (hs : p.NoStraddle E.header) (b : Nat) (hb : 0 < b) (vr : VerifyRand F) (junk₁ junk₂ : Bytes)
    (hacc : Phase2.verify C E.header par b vr (p.encode C E.header ++ junk₁) (st.ph2 ++ junk₂) = .ok ()) :
    ∃ xs : List F, Chain2By C C.g1 [] p.records xs ∧
      ((xs.prod ≠ 0 ∧ ∃ (pk : ProvingKey G1 G2) (vk : VerifyKey G1 G2),
          pk = trapdoorPK C r k (E.dom (2 ^ k)).gen τ α β xs.prod ∧ vk = trapdoorVK C r k (E.dom (2 ^ k)).gen τ α β xs.prod ∧
          extractKeys C K (p.encode C E.header ++ junk₁) st.evals
            = (.ok (), ⟨some (pk.encode C (K.domain (2 ^ k))), some (vk.encode C ck K.noCommitment)⟩) ∧
          ∀ w : Nat → F, r.Satisfies w → ∀ s t : F, Verifies C vk ((List.range r.shared).map w)
            (prove pk r.shared ((List.range r.wires).map w) (quotientCoeffs r k (E.dom (2 ^ k)).gen w) s t)) ∨
        (∃ i < p.z.length, ∀ (par₁ par₂ : Par) (vr : VerifyRand F) (x y : F),
          Phase2.verify C E.header par₁ b ⟨setDraw b vr.z i x, vr.pkk⟩ (p.encode C E.header ++ junk₁) (st.ph2 ++ junk₂) = .ok () →
          Phase2.verify C E.header par₂ b ⟨setDraw b vr.z i y, vr.pkk⟩ (p.encode C E.header ++ junk₁) (st.ph2 ++ junk₂) = .ok () →
          x = y) ∨
        (∃ i < p.pkk.length, ∀ (par₁ par₂ : Par) (vr : VerifyRand F) (x y : F),
          Phase2.verify C E.header par₁ b ⟨vr.z, setDraw b vr.pkk i x⟩ (p.encode C E.header ++ junk₁) (st.ph2 ++ junk₂) = .ok () →
          Phase2.verify C E.header par₂ b ⟨vr.z, setDraw b vr.pkk i y⟩ (p.encode C E.header ++ junk₁) (st.ph2 ++ junk₂) = .ok () →
          x = y)) := by
  rw [init_honest hC E par r hr hpc f hf τ α β hpw k hk hk27 hkp hdom junk oldLag oldEvals, Prod.mk.injEq] at hinit
  have hst := hinit.2
  subst hst
  have hwf := trapdoorFile_wf hC r hr hpc k hk hk27 (E.dom (2 ^ k)).gen τ α β
  simp only at hacc ⊢
  have hkeys := extractKeys_trapdoor hC E K hK hH ck hck r hr hpc k hk hk27 τ α β
  generalize ho : trapdoorFile C r k (E.dom (2 ^ k)).gen τ α β = o at hacc hwf hkeys ⊢
  have hd1 : o.delta1 = C.g1 := by rw [← ho]; rfl
  have hd2 : o.delta2 = C.g2 := by rw [← ho]; rfl
  have hg1 : C.g1 ≠ 0 := fun h => by
    have := (smul_g1_zero hC (1 : F))
    rw [h, smul_zero] at this
    exact one_ne_zero (this.mp rfl)
  have hg2 : C.g2 ≠ 0 := fun h => by
    have := (smul_g2_zero hC (1 : F))
    rw [h, smul_zero] at this
    exact one_ne_zero (this.mp rfl)
  obtain ⟨xs, hch, e1, e2⟩ := C32_records hC hH par b hb vr p o hp hwf hs junk₁ junk₂ (by rw [hd1]; exact hg1) hacc
  obtain ⟨-, hsh, -⟩ := (verify2_iff hC hH par b hb vr p o hp hwf hs junk₁ junk₂).mp hacc
  rw [hd1] at hch
  refine ⟨xs, hch, ?_⟩
  by_cases hz : ∃ i < p.z.length, xs.prod • p.z.getD i 0 ≠ o.z.getD i 0
  · obtain ⟨i, hi, hbad⟩ := hz
    exact .inr (.inl ⟨i, hi, fun par₁ par₂ vr x y h1 h2 => C33_z_partial hC hH par₁ par₂ b hb vr p o hp hwf hs junk₁ junk₂
      (by rw [hd2]; exact hg2) xs.prod e2 i hi hbad x y h1 h2⟩)
  by_cases hq : ∃ i < p.pkk.length, xs.prod • p.pkk.getD i 0 ≠ o.pkk.getD i 0
  · obtain ⟨i, hi, hbad⟩ := hq
    exact .inr (.inr ⟨i, hi, fun par₁ par₂ vr x y h1 h2 => C33_pkk_partial hC hH par₁ par₂ b hb vr p o hp hwf hs junk₁ junk₂
      (by rw [hd2]; exact hg2) xs.prod e2 i hi hbad x y h1 h2⟩)
  push Not at hz hq
  have hzl : p.z.length = o.z.length := by rw [hp.z, hwf.z, hsh.2.2.2.2.2]
  have hql : p.pkk.length = o.pkk.length := by rw [hp.pkk, hwf.pkk, hsh.2.1]
  have hn : 2 ≤ 2 ^ k := by
    calc 2 = 2 ^ 1 := rfl
      _ ≤ 2 ^ k := Nat.pow_le_pow_right (by omega) hk.two
  have hδ : xs.prod ≠ 0 := by
    intro h0
    have h := hz 0 (by rw [hp.z, hsh.2.2.2.2.2, ← ho]; show 0 < 2 ^ k - 1; omega)
    rw [h0, zero_smul, ← ho] at h
    simp only [trapdoorFile] at h
    rw [List.getD_eq_getElem _ _ (by rw [List.length_map, List.length_range]; omega)] at h
    simp only [List.getElem_map, List.getElem_range] at h
    have h := (smul_g1_zero hC _).mp h.symm
    have hb0 : bitRev k 0 = 0 := by
      clear * -
      induction k with
      | zero => rfl
      | succ k ih => simp [bitRev, ih]
    rw [hb0, pow_zero, one_mul, sub_eq_zero] at h
    exact hτ h
  refine .inl ⟨hδ, _, _, rfl, rfl, ?_, fun w hw s t => ?_⟩
  · have hsc : ∀ ps qs : List G1, ps.length = qs.length → (∀ i < ps.length, xs.prod • ps.getD i 0 = qs.getD i 0) →
        ps = qs.map (xs.prod⁻¹ • ·) := by
      intro ps qs hl h
      refine List.ext_getElem (by simpa using hl) fun i h1 h2 => ?_
      have h := h i h1
      rw [List.getD_eq_getElem _ _ h1, List.getD_eq_getElem _ _ (by omega)] at h
      rw [List.getElem_map, ← h, smul_smul, inv_mul_cancel₀ hδ, one_smul]
    have hps : p.encode C E.header ++ junk₁ = E.header.enc ((o.scaleParams xs.prod).headerWith p.records.length)
        ++ ((o.scaleParams xs.prod).params C ++ (p.records.flatMap (record2Bytes C) ++ junk₁)) := by
      obtain ⟨s1, s2, s3, s4, s5, s6⟩ := hsh
      simp only [P2File.encode, P2File.headerWith, P2File.header, P2File.params, P2File.scaleParams, s1, s2, s3, s4, s5, s6, e1, e2,
        ← hsc _ _ hzl hz, ← hsc _ _ hql hq, List.append_assoc]
    rw [hps]
    have hcnt := hp.count
    exact hkeys xs.prod _ (by omega) (by omega) _
  · rw [verifies_iff hC r k (E.dom (2 ^ k)) τ α β _ w s t hr hpc.shared_le hk.two hk.fits hdom hδ,
      (satisfies_iff_remainder r hr k hk.fits (E.dom (2 ^ k)) hdom w).mp hw, Polynomial.eval_zero]

end

namespace Toy

/-- the file of two honest contributors of power 3 -/
def published : P1File K K := (P1File.init curve 3).ceremony curve [rnd, rnd']

theorem published_wf : published.WF :=
  (ceremony_inv lawful [rnd, rnd'] (P1File.init curve 3) (init_wf curve 3 (by decide)) (init_powers curve 3).regular (by decide)).1

theorem published_powers : published.Powers curve (3 * 11) (5 * 2) (7 * 13) := by
  have := ceremony_powers (C := curve) [rnd, rnd'] _ _ _ _ (init_powers curve 3)
  simpa [published, rnd, rnd'] using this

theorem published_accepted (par : Par) (b : Nat) (hb : 0 < b) (vr : Phase1.VerifyRand K) :
    Phase1.verify curve par .strict b vr (published.encode curve ++ [1, 2]) none = .ok () :=
  ZkSetup.honest_accepted lawful published published_wf _ ((tracks_genesis 3 (by decide)).ceremony _)
    (by simp [published, P1File.ceremony, P1File.contribute, P1File.update]) par b hb vr none rfl _

/-- one contribution to the file of `p2n` for the toy circuit -/
noncomputable def submitted : P2File K K := (trapdoorFile curve circuit 2 4 3 5 7).ceremony curve [p2rnd]

theorem submitted_facts : submitted.WF ∧ submitted.records.length = 1 ∧
    UpdateOf curve (trapdoorFile curve circuit 2 4 3 5 7) submitted (deltaProduct [p2rnd]) [p2rnd.delta] :=
  ceremony2_facts lawful Gob.lawful _
    (trapdoorFile_wf lawful circuit circuit_valid circuit_nc.publicCommitment 2 circuit_domain (by decide) 4 3 5 7) rfl [p2rnd] (by decide)

theorem submitted_noStraddle : submitted.NoStraddle Gob.headerCodec := noStraddle 3 5 7 1 (by decide)

theorem submitted_accepted : Phase2.verify curve Gob.headerCodec par4 batchSize p2vr
    (submitted.encode curve Gob.headerCodec ++ [1]) ((trapdoorFile curve circuit 2 4 3 5 7).encode curve Gob.headerCodec ++ [2])
      = .ok () :=
  verify2_update lawful Gob.lawful par4 batchSize (by decide) p2vr _ submitted
    (trapdoorFile_wf lawful circuit circuit_valid circuit_nc.publicCommitment 2 circuit_domain (by decide) 4 3 5 7)
    submitted_facts.1 submitted_noStraddle
    (by intro h; have := submitted_facts.2.1; rw [h] at this; simp at this) _ (by decide) _ submitted_facts.2.2 _ _

end Toy

-- the outsider chooses τ = 2, α = 6
example := C62_takeover Toy.lawful 2 6 _ _ _ Toy.published Toy.published_wf Toy.published_powers

example := C62_false Toy.lawful Toy.env Toy.keyEnv rfl Gob.lawful [0] rfl Toy.published Toy.published_wf _ _ _ Toy.published_powers
  [1, 2] none Toy.published_accepted 2 6 Toy.circuit Toy.circuit_valid Toy.circuit_vc Toy.circuit_nc.publicCommitment 2
  Toy.circuit_domain (by decide) (by decide) dom4_lawful

example := C62_ceremony_false Toy.lawful Toy.env Toy.keyEnv rfl Gob.lawful [0] rfl 5 (by decide) 3 (by decide) (by decide)
  [(Toy.par, Toy.rnd), (Toy.par, Toy.rnd')] (by simp) (by decide) 2 6 Toy.circuit Toy.circuit_valid Toy.circuit_vc
  Toy.circuit_nc.publicCommitment 2 Toy.circuit_domain (by decide) (by decide) dom4_lawful

-- contributions to phase 2 after the takeover succeed
example : ∃ final, p2Ceremony Toy.curve Gob.headerCodec batchSize [(Toy.par, Toy.p2rnd)]
    ((trapdoorFile Toy.curve Toy.circuit 2 4 2 6 (7 * 13)).encode Toy.curve Gob.headerCodec) = .ok final := by
  have hc := C29_first_contribution Toy.lawful Gob.lawful Toy.par batchSize (by decide) Toy.p2rnd _
    (trapdoorFile_wf Toy.lawful Toy.circuit Toy.circuit_valid Toy.circuit_nc.publicCommitment 2
      Toy.circuit_domain (by decide) 4 2 6 (7 * 13)) rfl []
  rw [List.append_nil] at hc
  exact ⟨_, by simp only [p2Ceremony]; rw [hc]⟩

example := C62_phase2_partial Toy.lawful Toy.env Toy.keyEnv rfl Gob.lawful [0] rfl (Toy.srs 3 3 5 7) (Toy.srs_wf 3 (by decide) _ _ _)
  3 5 7 (Toy.srs_powers 3 3 5 7) Toy.circuit Toy.circuit_valid Toy.circuit_nc.publicCommitment 2 Toy.circuit_domain (by decide)
  (by decide) dom4_lawful (by decide) par4 [] [] [] _
  (init_honest Toy.lawful Toy.env par4 Toy.circuit Toy.circuit_valid Toy.circuit_nc.publicCommitment (Toy.srs 3 3 5 7)
    (Toy.srs_wf 3 (by decide) _ _ _) 3 5 7 (Toy.srs_powers 3 3 5 7) 2 Toy.circuit_domain (by decide) (by decide) dom4_lawful [] [] [])
  Toy.submitted Toy.submitted_facts.1 Toy.submitted_noStraddle batchSize (by decide) Toy.p2vr [1] [2] Toy.submitted_accepted

end ZkSetup
