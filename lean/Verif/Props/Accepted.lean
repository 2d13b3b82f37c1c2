import Verif.Proofs.Accepted
import Verif.Props.Transcript
import Verif.Props.Encodings
/-
C76: the keys extracted from accepted bytes, whatever the bytes are.
-/
set_option linter.unusedSectionVars false

namespace ZkSetup

open Phase2 Keys Encodings
open Phase1 (wrap64 batchSize)

section
variable {F G1 G2 GT : Type} [Field F] [AddCommGroup G1] [Module F G1] [AddCommGroup G2]
  [Module F G2] [AddCommGroup GT] [Module F GT] [DecidableEq G1] [DecidableEq G2] [DecidableEq GT]
variable {C : Curve F G1 G2 GT} (hC : C.Lawful)
include hC

/-- **C76**, Z: `C33_z_partial` for any bytes whose parameters can be decoded, without a condition on the records or on the encoding
of the points. -/
theorem C76_z {H : HeaderCodec} (hH : H.Lawful) (par par' : Par) (b : Nat) (hb : 0 < b) (vr : VerifyRand F) (input : Bytes)
    (o : P2File G1 G2) (ho : o.WF) (junk : Bytes) (hi : Header) (d1 : G1) (d2 : G2) (z pkk : List G1)
    (hp : HoldsParams C H input hi d1 d2 z pkk) (hg : o.delta2 ≠ 0) (Δ : F) (hΔ : d2 = Δ • o.delta2) (k : Nat) (hk : k < z.length)
    (hbad : Δ • z.getD k 0 ≠ o.z.getD k 0) (x y : F)
    (hx : Phase2.verify C H par b ⟨setDraw b vr.z k x, vr.pkk⟩ input (o.encode C H ++ junk) = .ok ())
    (hy : Phase2.verify C H par' b ⟨setDraw b vr.z k y, vr.pkk⟩ input (o.encode C H ++ junk) = .ok ()) : x = y := by
  obtain ⟨-, -, hl, -, -, hx, -⟩ := verify2_params hC hH par b hb _ input o ho junk hi d1 d2 z pkk hp hx
  obtain ⟨-, -, -, -, -, hy, -⟩ := verify2_params hC hH par' b hb _ input o ho junk hi d1 d2 z pkk hp hy
  rw [hΔ] at hx hy
  exact draw_unique hC b hb vr.z k x y Δ z o.z hk (by omega) _ hg hx hy hbad

/-- **C76**, PKK: as `C76_z`. -/
theorem C76_pkk {H : HeaderCodec} (hH : H.Lawful) (par par' : Par) (b : Nat) (hb : 0 < b) (vr : VerifyRand F) (input : Bytes)
    (o : P2File G1 G2) (ho : o.WF) (junk : Bytes) (hi : Header) (d1 : G1) (d2 : G2) (z pkk : List G1)
    (hp : HoldsParams C H input hi d1 d2 z pkk) (hg : o.delta2 ≠ 0) (Δ : F) (hΔ : d2 = Δ • o.delta2) (k : Nat) (hk : k < pkk.length)
    (hbad : Δ • pkk.getD k 0 ≠ o.pkk.getD k 0) (x y : F)
    (hx : Phase2.verify C H par b ⟨vr.z, setDraw b vr.pkk k x⟩ input (o.encode C H ++ junk) = .ok ())
    (hy : Phase2.verify C H par' b ⟨vr.z, setDraw b vr.pkk k y⟩ input (o.encode C H ++ junk) = .ok ()) : x = y := by
  obtain ⟨-, -, -, hl, -, -, hx, -⟩ := verify2_params hC hH par b hb _ input o ho junk hi d1 d2 z pkk hp hx
  obtain ⟨-, -, -, -, -, -, hy, -⟩ := verify2_params hC hH par' b hb _ input o ho junk hi d1 d2 z pkk hp hy
  rw [hΔ] at hx hy
  exact draw_unique hC b hb vr.pkk k x y Δ pkk o.pkk hk (by omega) _ hg hx hy hbad

/-- **C76**: phase 1 is honest and `input` is any sequence of bytes that `p2v` has accepted against the file of `p2n` and from which
`key` has extracted keys. Then there are records in `input` that prove scalars `xs` one after the other, starting at the generator, and
either there is at least one of them, the product `δ` of the scalars is not 0 and the extracted keys are those of the trapdoor
`τ, α, β, δ`, with which every honest proof verifies; or the verifier was lucky: there is an element of Z or of PKK such that, whatever
the other draws, at most one value of the draw for it makes `p2v` accept. Nothing is assumed about how `input` was made. -/
theorem C76_keys (E : InitEnv F) (K : KeyEnv G1) (hK : K.header = E.header) (hH : E.header.Lawful) (ck : Bytes)
    (hck : K.commitmentKey [] = .ok ck) (f : P1File G1 G2) (hf : f.WF) (τ α β : F) (hpw : f.Powers C τ α β)
    (r : R1CS F) (hr : r.Valid) (hpc : r.PublicCommitment) (k : Nat)
    (hk : IsDomain r.constraints.length k) (hk27 : k ≤ 27) (hkp : k ≤ f.power.toNat) (hdom : (E.dom (2 ^ k)).Lawful k)
    (hτ : τ ^ 2 ^ k ≠ 1) (par : Par) (junk oldLag oldEvals : Bytes) (st : InitSt)
    (hinit : initializeFiles C E par (some r) (f.encode C ++ junk) oldLag oldEvals = (.ok (), st))
    (input : Bytes) (b : Nat) (hb : 0 < b) (vr : VerifyRand F) (junk₂ : Bytes)
    (hacc : Phase2.verify C E.header par b vr input (st.ph2 ++ junk₂) = .ok ())
    (hkey : (extractKeys C K input st.evals).1 = .ok ()) :
    ∃ (rs : List (Contribution G1 G2)) (xs : List F) (rd : Rd) (used : Bytes), input = used ++ rd.rest ∧ RecordsAt C rd rs ∧
      Chain2By C C.g1 [] rs xs ∧
      ((rs ≠ [] ∧ xs.prod ≠ 0 ∧ ∃ (pk : ProvingKey G1 G2) (vk : VerifyKey G1 G2),
          pk = trapdoorPK C r k (E.dom (2 ^ k)).gen τ α β xs.prod ∧ vk = trapdoorVK C r k (E.dom (2 ^ k)).gen τ α β xs.prod ∧
          extractKeys C K input st.evals
            = (.ok (), ⟨some (pk.encode C (K.domain (2 ^ k))), some (vk.encode C ck K.noCommitment)⟩) ∧
          ∀ w : Nat → F, r.Satisfies w → ∀ s t : F, Verifies C vk ((List.range r.shared).map w)
            (prove pk r.shared ((List.range r.wires).map w) (quotientCoeffs r k (E.dom (2 ^ k)).gen w) s t)) ∨
        (∃ i < 2 ^ k - 1, ∀ (par₁ par₂ : Par) (vr : VerifyRand F) (x y : F),
          Phase2.verify C E.header par₁ b ⟨setDraw b vr.z i x, vr.pkk⟩ input (st.ph2 ++ junk₂) = .ok () →
          Phase2.verify C E.header par₂ b ⟨setDraw b vr.z i y, vr.pkk⟩ input (st.ph2 ++ junk₂) = .ok () → x = y) ∨
        (∃ i < r.wires - r.shared, ∀ (par₁ par₂ : Par) (vr : VerifyRand F) (x y : F),
          Phase2.verify C E.header par₁ b ⟨vr.z, setDraw b vr.pkk i x⟩ input (st.ph2 ++ junk₂) = .ok () →
          Phase2.verify C E.header par₂ b ⟨vr.z, setDraw b vr.pkk i y⟩ input (st.ph2 ++ junk₂) = .ok () → x = y)) := by
  rw [init_honest hC E par r hr hpc f hf τ α β hpw k hk hk27 hkp hdom junk oldLag oldEvals, Prod.mk.injEq] at hinit
  have hst := hinit.2
  subst hst
  have hwf := trapdoorFile_wf hC r hr hpc k hk hk27 (E.dom (2 ^ k)).gen τ α β
  simp only at hacc hkey ⊢
  have hkeys := extractKeys_trapdoor hC E K hK hH ck hck r hr hpc k hk hk27 τ α β
  have hzlen : (trapdoorFile C r k (E.dom (2 ^ k)).gen τ α β).z.length = 2 ^ k - 1 := by simp [trapdoorFile]
  have hqlen : (trapdoorFile C r k (E.dom (2 ^ k)).gen τ α β).pkk.length = r.wires - r.shared := by simp [trapdoorFile]
  have hrec0 : (trapdoorFile C r k (E.dom (2 ^ k)).gen τ α β).records = [] := rfl
  generalize ho : trapdoorFile C r k (E.dom (2 ^ k)).gen τ α β = o at hacc hwf hkeys hzlen hqlen hrec0 ⊢
  have hd1 : o.delta1 = C.g1 := by rw [← ho]; rfl
  have hd2 : o.delta2 = C.g2 := by rw [← ho]; rfl
  have hg1 : C.g1 ≠ 0 := fun h => by
    have := (smul_g1_zero hC (1 : F))
    rw [h, smul_zero] at this
    exact one_ne_zero (this.mp rfl)
  have hg2 : C.g2 ≠ 0 := fun h => by
    have := (smul_g2_zero hC (1 : F))
    rw [h, smul_zero] at this
    exact one_ne_zero (this.mp rfl)
  obtain ⟨hi, d1, d2, z, pkk, hp⟩ := extractKeys_params K input _ hkey
  rw [hK] at hp
  obtain ⟨-, hsh, hzl, hql, he, -, -, rs, xs, rd, used, hin, hrec, -, hch, hlast⟩ :=
    verify2_params hC hH par b hb vr input o hwf junk₂ hi d1 d2 z pkk hp hacc
  rw [hd1] at hch
  refine ⟨rs, xs, rd, used, hin, hrec, hch, ?_⟩
  -- the factor between the parameters
  obtain ⟨Δ, hΔ1, hΔ⟩ : ∃ Δ : F, d1 = Δ • C.g1 ∧ (Δ ≠ 0 → rs ≠ [] ∧ Δ = xs.prod) := by
    cases rs with
    | nil => exact ⟨0, by rw [← hlast, zero_smul]; rfl, fun h => absurd rfl h⟩
    | cons c cs =>
      have := (Chain2By.delta _ _ _ _ hch).2
      refine ⟨xs.prod, ?_, fun _ => ⟨by simp, rfl⟩⟩
      rw [← this, ← hlast]
      simp [List.getLast?_cons]
  have hΔ2 : d2 = Δ • o.delta2 := by
    rw [hd1] at he
    exact delta2_of_delta1 hC he hΔ1 hg1
  by_cases hz : ∃ i < z.length, Δ • z.getD i 0 ≠ o.z.getD i 0
  · obtain ⟨i, hi', hbad⟩ := hz
    exact .inr (.inl ⟨i, by omega, fun par₁ par₂ vr x y h1 h2 => C76_z hC hH par₁ par₂ b hb vr input o hwf junk₂ hi d1 d2 z pkk hp
      (by rw [hd2]; exact hg2) Δ hΔ2 i hi' hbad x y h1 h2⟩)
  by_cases hq : ∃ i < pkk.length, Δ • pkk.getD i 0 ≠ o.pkk.getD i 0
  · obtain ⟨i, hi', hbad⟩ := hq
    exact .inr (.inr ⟨i, by omega, fun par₁ par₂ vr x y h1 h2 => C76_pkk hC hH par₁ par₂ b hb vr input o hwf junk₂ hi d1 d2 z pkk hp
      (by rw [hd2]; exact hg2) Δ hΔ2 i hi' hbad x y h1 h2⟩)
  push Not at hz hq
  have hn : 2 ≤ 2 ^ k := by
    calc 2 = 2 ^ 1 := rfl
      _ ≤ 2 ^ k := Nat.pow_le_pow_right (by omega) hk.two
  have hδ : Δ ≠ 0 := by
    intro h0
    have h := hz 0 (by omega)
    rw [h0, zero_smul, ← ho] at h
    simp only [trapdoorFile] at h
    rw [List.getD_eq_getElem _ _ (by rw [List.length_map, List.length_range]; omega)] at h
    simp only [List.getElem_map, List.getElem_range] at h
    have h := (smul_g1_zero hC _).mp h.symm
    have hb0 : bitRev k 0 = 0 := by
      clear * -
      induction k with
      | zero => rfl
      | succ k ih => simp [bitRev, ih]
    rw [hb0, pow_zero, one_mul, sub_eq_zero] at h
    exact hτ h
  obtain ⟨hne, rfl⟩ := hΔ hδ
  refine .inl ⟨hne, hδ, _, _, rfl, rfl, ?_, fun w hw s t => ?_⟩
  · have hsc : ∀ ps qs : List G1, ps.length = qs.length → (∀ i < ps.length, xs.prod • ps.getD i 0 = qs.getD i 0) →
        ps = qs.map (xs.prod⁻¹ • ·) := by
      intro ps qs hl h
      refine List.ext_getElem (by simpa using hl) fun i h1 h2 => ?_
      have h := h i h1
      rw [List.getD_eq_getElem _ _ h1, List.getD_eq_getElem _ _ (by omega)] at h
      rw [List.getElem_map, ← h, smul_smul, inv_mul_cancel₀ hδ, one_smul]
    have hswf := P2File.scaleParams_wf xs.prod _ hwf
    have hz' := hsc _ _ hzl hz
    have hq' := hsc _ _ hql hq
    rw [hΔ1, hΔ2, hz', hq', ← hd1] at hp
    have hcan := P2File.holdsParams hC hH _ hswf []
    have hsame := (extractKeys_by_params hC K (o.scaleParams xs.prod) hswf hi (o.scaleParams xs.prod).header hsh
      (by simp [Header.equal]) input _ ((trapdoorEvals C r (2 ^ k) (E.dom (2 ^ k)).gen τ α β (E.cmtBytes r.commitment)).encode C)
      (by rw [hK]; exact hp) (by rw [hK]; exact hcan)).1
    have hk0 := hkeys xs.prod 0 (by omega) (by omega) []
    have henc : (o.scaleParams xs.prod).encode C E.header ++ [] = E.header.enc ((o.scaleParams xs.prod).headerWith 0)
        ++ ((o.scaleParams xs.prod).params C ++ []) := by
      simp [P2File.encode, P2File.headerWith, P2File.header, P2File.scaleParams, hrec0]
    rw [henc] at hsame
    rw [hsame]
    exact hk0
  · rw [verifies_iff hC r k (E.dom (2 ^ k)) τ α β _ w s t hr hpc.shared_le hk.two hk.fits hdom hδ,
      (satisfies_iff_remainder r hr k hk.fits (E.dom (2 ^ k)) hdom w).mp hw, Polynomial.eval_zero]

end

namespace Toy

/-- the submitted file with `[δ]1` uncompressed, as no command of the tool writes it, and something appended -/
noncomputable def foreign : Bytes := submitted.rawFirst curve Gob.headerCodec ++ [7]

theorem foreign_written : submitted.Written curve Gob.headerCodec foreign := by
  refine p2_written lawful _ _ submitted_facts.1 _ (.inr rfl) _ ?_
  have hwf := trapdoorFile_wf lawful circuit circuit_valid circuit_nc.publicCommitment 2 circuit_domain (by decide) 4 3 5 7
  obtain ⟨e1, e2, e3⟩ := ceremony2_header lawful Gob.headerCodec Gob.lawful _ hwf rfl [p2rnd] (by simp)
  have hh : (trapdoorFile curve circuit 2 4 3 5 7).header = ⟨4, 2, 2, 0, 3, 4, 0⟩ := rfl
  have hz : (trapdoorFile curve circuit 2 4 3 5 7).z.length = 3 := by simp [trapdoorFile]
  have hp : (trapdoorFile curve circuit 2 4 3 5 7).pkk.length = 2 := hwf.pkk.trans rfl
  intro j hj
  rw [submitted_facts.2.1] at hj
  interval_cases j
  unfold submitted
  rw [e1, e2, e3, hh, hz, hp, lawful.codec1.raw_length]
  decide +kernel

theorem foreign_accepted : Phase2.verify curve Gob.headerCodec par4 batchSize p2vr foreign
    ((trapdoorFile curve circuit 2 4 3 5 7).encode curve Gob.headerCodec ++ [2]) = .ok () := by
  have hwf := trapdoorFile_wf lawful circuit circuit_valid circuit_nc.publicCommitment 2 circuit_domain (by decide) 4 3 5 7
  rw [C72_p2_verify_partial lawful Gob.lawful par4 batchSize (by decide) p2vr submitted _ submitted_facts.1 hwf _ _ _ _ foreign_written
    (C72_p2_compressed lawful _ _ submitted_facts.1 submitted_noStraddle [1]) (C72_p2_params_compressed _ _ [2])
    (C72_p2_params_compressed _ _ [2])]
  exact submitted_accepted

theorem foreign_keys : (extractKeys curve keyEnv foreign
    ((trapdoorEvals curve circuit (2 ^ 2) 4 3 5 7 (env.cmtBytes circuit.commitment)).encode curve)).1 = .ok () := by
  have hsame := (C72_keys lawful keyEnv Gob.lawful submitted submitted_facts.1 foreign (submitted.encode curve Gob.headerCodec ++ [1])
    ((trapdoorEvals curve circuit (2 ^ 2) 4 3 5 7 (env.cmtBytes circuit.commitment)).encode curve)
    (P2File.rawFirst_params _ submitted [7]) (C72_p2_params_compressed _ _ [1])).1
  rw [hsame]
  have h := extractKeys_trapdoor lawful env keyEnv rfl Gob.lawful [0] rfl circuit circuit_valid circuit_nc.publicCommitment 2
    circuit_domain (by decide) 3 5 7 p2rnd.delta 1 (by decide) (by decide)
    (submitted.records.flatMap (record2Bytes curve) ++ [1])
  have e : submitted.encode curve Gob.headerCodec ++ [1]
      = Gob.headerCodec.enc (((trapdoorFile curve circuit 2 4 3 5 7).scaleParams p2rnd.delta).headerWith 1)
        ++ (((trapdoorFile curve circuit 2 4 3 5 7).scaleParams p2rnd.delta).params curve
        ++ (submitted.records.flatMap (record2Bytes curve) ++ [1])) := by
    rw [← List.append_assoc, ← List.append_assoc]
    rfl
  have hg : (env.dom (2 ^ 2)).gen = 4 := rfl
  have hh : env.header = Gob.headerCodec := rfl
  rw [hg, hh] at h
  rw [e, h]

end Toy

example : Toy.foreign ≠ Toy.submitted.encode Toy.curve Gob.headerCodec ++ [7] := by
  intro h
  have := congrArg List.length h
  simp only [Toy.foreign, P2File.rawFirst, P2File.encode, P2File.params, List.length_append, Toy.lawful.codec1.raw_length,
    Toy.lawful.codec1.bytes_length] at this
  have := Toy.lawful.size1
  omega

example (y : Toy.K) := C76_z Toy.lawful Gob.lawful Toy.par Toy.par batchSize (by decide) Toy.p2vr _ Toy.p2 Toy.p2_wf [] _ _ _ _ _
  (P2File.holdsParams Toy.lawful Gob.lawful Toy.p2bad Toy.p2bad_wf []) (by decide) 16 (by decide +kernel) 1 (by decide +kernel)
  (by decide +kernel) 0 y Toy.p2bad_accepted

example := C76_keys Toy.lawful Toy.env Toy.keyEnv rfl Gob.lawful [0] rfl (Toy.srs 3 3 5 7) (Toy.srs_wf 3 (by decide) _ _ _)
  3 5 7 (Toy.srs_powers 3 3 5 7) Toy.circuit Toy.circuit_valid Toy.circuit_nc.publicCommitment 2 Toy.circuit_domain (by decide)
  (by decide) dom4_lawful (by decide) par4 [] [] [] _
  (init_honest Toy.lawful Toy.env par4 Toy.circuit Toy.circuit_valid Toy.circuit_nc.publicCommitment (Toy.srs 3 3 5 7)
    (Toy.srs_wf 3 (by decide) _ _ _) 3 5 7 (Toy.srs_powers 3 3 5 7) 2 Toy.circuit_domain (by decide) (by decide) dom4_lawful [] [] [])
  Toy.foreign batchSize (by decide) Toy.p2vr [2] Toy.foreign_accepted Toy.foreign_keys

end ZkSetup
