import Verif.Props.Phase1Sound
/-
C16: what the last hash binds. C13 for arbitrary bytes.
-/
set_option linter.unusedSectionVars false

namespace ZkSetup

open Phase1 Finset

section
variable {F G1 G2 GT : Type} [Field F] [AddCommGroup G1] [Module F G1] [AddCommGroup G2]
  [Module F G2] [AddCommGroup GT] [Module F GT] [DecidableEq G1] [DecidableEq G2] [DecidableEq GT]
variable {C : Curve F G1 G2 GT} (hC : C.Lawful)

/-! ### specification -/

/-- `SX` of at least one of the three proofs is not the identity, i.e. `x ≠ 0` and `s ≠ 0` -/
def Nondegenerate (r : Contribution G1 G2) : Prop := r.pkTau.sx ≠ 0 ∨ r.pkAlpha.sx ≠ 0 ∨ r.pkBeta.sx ≠ 0

/-- The two records exhibit no collision of SHA-256. -/
def NoShaCollision (C : Curve F G1 G2 GT) (r r' : Contribution G1 G2) : Prop :=
  C.sha (recordBody C r) = C.sha (recordBody C r') → recordBody C r = recordBody C r'

/-- The challenges `h` and `h'` exhibit no collision of hash-to-G2 for the three proofs of the record `r`. -/
def NoG2Collision (C : Curve F G1 G2 GT) (r : Contribution G1 G2) (h h' : Bytes) : Prop :=
  ∀ kd ∈ [(r.pkTau, (1 : UInt8)), (r.pkAlpha, 2), (r.pkBeta, 3)],
    C.hashG2 (C.c1.rawBytes kd.1.s ++ C.c1.rawBytes kd.1.sx ++ h) kd.2
      = C.hashG2 (C.c1.rawBytes kd.1.s ++ C.c1.rawBytes kd.1.sx ++ h') kd.2 → h = h'

include hC

theorem recordBody_inj {r r' : Contribution G1 G2} (h : recordBody C r = recordBody C r')
    (hh : r.hash = r'.hash) : r = r' := by
  have e : ∀ x : Contribution G1 G2, recordBytes C { x with hash := List.replicate 32 0 }
      = recordBody C x ++ List.replicate 32 0 := fun x => rfl
  have := recordBytes_inj hC (r := { r with hash := List.replicate 32 0 })
    (r' := { r' with hash := List.replicate 32 0 }) (by simp) (by simp) (by rw [e, e, h])
  obtain ⟨_, _, _, _, _, _, _, _, _⟩ := r
  obtain ⟨_, _, _, _, _, _, _, _, _⟩ := r'
  simp only [Contribution.mk.injEq, and_true] at this hh ⊢
  tauto

/-- two challenges proven by the same nondegenerate key have the same hash point -/
theorem provesScalar_challenge {k : PublicKey G1 G2} {h h' : Bytes} {d : UInt8} {x y : F}
    (hx : ProvesScalar C k h d x) (hy : ProvesScalar C k h' d y) (hne : k.sx ≠ 0) :
    C.hashG2 (C.c1.rawBytes k.s ++ C.c1.rawBytes k.sx ++ h) d
      = C.hashG2 (C.c1.rawBytes k.s ++ C.c1.rawBytes k.sx ++ h') d := by
  have hx0 : x ≠ 0 := by
    rintro rfl
    exact hne (by rw [hx.1, zero_smul])
  have hxy : x = y := by
    have h1 := hx.1.symm.trans hy.1
    obtain ⟨s, hs⟩ := hC.span1 k.s
    rw [hs, smul_smul, smul_smul, smul_g1_inj hC] at h1
    have hs0 : s ≠ 0 := by
      rintro rfl
      exact hne (by rw [hx.1, hs, zero_smul, smul_zero])
    exact mul_right_cancel₀ hs0 h1
  subst hxy
  have h2 := hx.2.symm.trans hy.2
  have := congrArg (fun z => x⁻¹ • z) h2
  simpa only [smul_smul, inv_mul_cancel₀ hx0, one_smul] using this

/-- a nondegenerate record determines the hash it was proven for -/
theorem step_challenge {p p' r : Contribution G1 G2} {τ α β τ' α' β' : F} (h : StepBy C p r τ α β)
    (h' : StepBy C p' r τ' α' β') (hn : Nondegenerate r) (hg : NoG2Collision C r p.hash p'.hash) :
    p.hash = p'.hash := by
  rcases hn with hn | hn | hn
  · exact hg (r.pkTau, 1) (by simp) (provesScalar_challenge hC h.knowTau h'.knowTau hn)
  · exact hg (r.pkAlpha, 2) (by simp) (provesScalar_challenge hC h.knowAlpha h'.knowAlpha hn)
  · exact hg (r.pkBeta, 3) (by simp) (provesScalar_challenge hC h.knowBeta h'.knowBeta hn)

omit hC [DecidableEq G1] [DecidableEq G2] [DecidableEq GT] in
theorem chainOk_snoc (rs : List (Contribution G1 G2)) (prev r : Contribution G1 G2) :
    ChainOk C prev (rs ++ [r]) ↔ ChainOk C prev rs ∧ ∃ τ α β, StepBy C (rs.getLast?.getD prev) r τ α β := by
  induction rs generalizing prev with
  | nil => simp [ChainOk]
  | cons q rs ih =>
    have : (q :: rs).getLast?.getD prev = rs.getLast?.getD q := by
      cases rs <;> simp [List.getLast?_cons]
    rw [this]
    simp only [List.cons_append, ChainOk, ih, and_assoc]

theorem chain_binding (rs rs' : List (Contribution G1 G2)) (prev prev' : Contribution G1 G2)
    (hp : prev.hash = prev'.hash)
    (hl : rs.length = rs'.length) (h : ChainOk C prev rs) (h' : ChainOk C prev' rs')
    (hlast : lastHash rs = lastHash rs') (hnd : ∀ r ∈ rs, Nondegenerate r)
    (hsha : ∀ r ∈ rs, ∀ r' ∈ rs', NoShaCollision C r r')
    (hg2 : ∀ r ∈ rs, ∀ q ∈ rs, ∀ q' ∈ rs', NoG2Collision C r q.hash q'.hash) : rs = rs' := by
  induction rs using List.reverseRecOn generalizing rs' with
  | nil => exact (List.length_eq_zero_iff.mp hl.symm).symm
  | append_singleton rs r ih =>
    cases rs' using List.reverseRecOn with
    | nil => simp at hl
    | append_singleton rs' r' =>
      simp only [lastHash, List.getLast?_append, List.getLast?_singleton, Option.some_or] at hlast
      obtain ⟨hc, τ, α, β, hs⟩ := (chainOk_snoc rs prev r).mp h
      obtain ⟨hc', τ', α', β', hs'⟩ := (chainOk_snoc rs' prev' r').mp h'
      have hrr : r = r' := by
        refine recordBody_inj hC (hsha r (by simp) r' (by simp) ?_) hlast
        rw [← hs.hash, ← hs'.hash, hlast]
      subst hrr
      have hl' : rs.length = rs'.length := by simpa using hl
      have hlh : lastHash rs = lastHash rs' := by
        cases rs using List.reverseRecOn with
        | nil =>
          rw [List.length_eq_zero_iff.mp hl'.symm]
        | append_singleton rs q =>
          cases rs' using List.reverseRecOn with
          | nil => simp at hl'
          | append_singleton rs' q' =>
            have := step_challenge hC hs hs' (hnd r (by simp)) (by
              simp only [List.getLast?_append, List.getLast?_singleton, Option.some_or, Option.getD_some]
              exact hg2 r (by simp) q (by simp) q' (by simp))
            simpa [lastHash] using this
      rw [ih rs' hl' hc hc' hlh (fun x hx => hnd x (by simp [hx]))
        (fun x hx x' hx' => hsha x (by simp [hx]) x' (by simp [hx']))
        (fun x hx q hq q' hq' => hg2 x (by simp [hx]) q (by simp [hq]) q' (by simp [hq']))]

/-- the hash of the record a verification starts from is empty -/
theorem origin_hash (tr : Option Bytes) (prev : Contribution G1 G2) (h : defaultContribution C tr = .ok prev) :
    prev.hash = [] := by
  cases tr with
  | none =>
    simp only [defaultContribution_none, Except.ok.injEq] at h
    subst h; rfl
  | some file =>
    unfold defaultContribution at h
    simp only [except_bind_ok] at h
    obtain ⟨_, _, _, _, _, _, _, _, _, _, _, _, h⟩ := h
    simp only [Except.ok.injEq] at h
    subst h; rfl

/-- **C16** (partial): two accepted files with equally many contributions and the same last hash have the same
contribution records, if the records are nondegenerate and exhibit no collision of the hash functions. The files may
differ in everything else (power, parameters, origins, verifier randomness). Missing for the full C16: the degenerate
records; `C16_degenerate_unbound` shows that it is false for them. -/
theorem C16_history_partial (par par' : Par) (pol pol' : MsmPolicy) (b b' : Nat) (hb : 0 < b) (hb' : 0 < b')
    (vr vr' : VerifyRand F) (f g : P1File G1 G2) (hf : f.WF) (hg : g.WF) (junk junk' : Bytes)
    (tr tr' : Option Bytes)
    (h : verify C par pol b vr (f.encode C ++ junk) tr = .ok ())
    (h' : verify C par' pol' b' vr' (g.encode C ++ junk') tr' = .ok ())
    (hlen : f.records.length = g.records.length) (hlast : lastHash f.records = lastHash g.records)
    (hnd : ∀ r ∈ f.records, Nondegenerate r)
    (hsha : ∀ r ∈ f.records, ∀ r' ∈ g.records, NoShaCollision C r r')
    (hg2 : ∀ r ∈ f.records, ∀ q ∈ f.records, ∀ q' ∈ g.records, NoG2Collision C r q.hash q'.hash) :
    f.records = g.records := by
  obtain ⟨p, h1, h2, _⟩ := (verify_bytes hC par pol b hb vr f hf junk tr).mp h
  obtain ⟨p', h1', h2', _⟩ := (verify_bytes hC par' pol' b' hb' vr' g hg junk' tr').mp h'
  exact chain_binding hC _ _ p p' (by rw [origin_hash hC _ _ h1, origin_hash hC _ _ h1']) hlen h2 h2' hlast hnd
    hsha hg2

omit hC [DecidableEq G1] [DecidableEq G2] [DecidableEq GT] in
/-- the record of a contribution with all secrets and blinding values 0 -/
def zeroRecord (C : Curve F G1 G2 GT) : Contribution G1 G2 :=
  { (Contribution.zero : Contribution G1 G2) with hash := C.sha (recordBody C Contribution.zero) }

omit hC [DecidableEq G1] [DecidableEq G2] [DecidableEq GT] in
/-- an all-identity file with the given records -/
def zeroFile (p : UInt8) (rs : List (Contribution G1 G2)) : P1File G1 G2 :=
  { power := p
    tauG1 := List.replicate (2 * 2 ^ p.toNat - 1) 0
    alphaG1 := List.replicate (2 ^ p.toNat) 0
    betaG1 := List.replicate (2 ^ p.toNat) 0
    tauG2 := List.replicate (2 ^ p.toNat) 0
    betaG2 := 0
    records := rs }

omit hC [DecidableEq G1] [DecidableEq G2] [DecidableEq GT] in
/-- the zero record is an update of every record -/
theorem zeroRecord_step (prev : Contribution G1 G2) : StepBy C prev (zeroRecord C) 0 0 0 := by
  refine ⟨⟨?_, ?_⟩, ⟨?_, ?_⟩, ⟨?_, ?_⟩, ?_, ?_, ?_, ?_, ?_, ?_⟩ <;> simp [zeroRecord, Contribution.zero]
  rfl

omit hC [DecidableEq G1] [DecidableEq G2] [DecidableEq GT] in
theorem combos_replicate_zero {G : Type} [AddCommGroup G] [Module F G] (pol : MsmPolicy) (b : Nat)
    (rnd : Nat → Nat → F) (n : Nat) : combos pol b rnd (List.replicate n (0 : G)) = (0, 0) := by
  cases pol with
  | strict => rfl
  | truncate =>
    have : ∀ s, neighbourSum b rnd s (List.replicate n (0 : G)) = 0 := by
      intro s
      unfold neighbourSum
      apply sum_eq_zero
      intro j _
      rw [replicate_getD]; simp
    simp [combos, this]

omit hC [DecidableEq G1] [DecidableEq G2] [DecidableEq GT] in
theorem zeroFile_sections (pol : MsmPolicy) (b : Nat) (vr : VerifyRand F) (p : UInt8)
    (rs : List (Contribution G1 G2)) (last : Contribution G1 G2) (h : last.g2Beta = 0) :
    SectionsOk C pol b vr (zeroFile p rs) last := by
  constructor <;> simp [zeroFile, combos_replicate_zero, h]

/-- a record that multiplies everything by `x` -/
theorem newRecord_step (x : F) : StepBy C (genesis C)
    (newRecord C ⟨x, 1, 1, 1, 1, 1⟩ [] (x • C.g1) C.g1 C.g1 (x • C.g2) C.g2) x 1 1 := by
  refine ⟨⟨?_, ?_⟩, ⟨?_, ?_⟩, ⟨?_, ?_⟩, ?_, ?_, ?_, ?_, ?_, ?_⟩ <;> simp [newRecord, genesis, proofOf]
  rfl

/-- **C16, negation**: on every lawful curve and whatever the hash functions (so without any collision), for every power
there are two accepted files with two contributions each and the same last hash whose first contributions differ. The
last contribution is the one with all secrets 0: it is not tied to the hash before it. -/
theorem C16_degenerate_unbound (p : UInt8) (hp : p.toNat ≤ 62) :
    ∃ f g : P1File G1 G2, f.WF ∧ g.WF ∧ f.power = p ∧ g.power = p ∧
      f.records.length = 2 ∧ g.records.length = 2 ∧ lastHash f.records = lastHash g.records ∧
      f.records ≠ g.records ∧
      ∀ (par : Par) (pol : MsmPolicy) (b : Nat) (_ : 0 < b) (vr : VerifyRand F),
        verify C par pol b vr (f.encode C) none = .ok () ∧ verify C par pol b vr (g.encode C) none = .ok () := by
  have key : ∀ x : F, ∀ r, r = newRecord C ⟨x, 1, 1, 1, 1, 1⟩ [] (x • C.g1) C.g1 C.g1 (x • C.g2) C.g2 →
      (zeroFile p [r, zeroRecord C]).WF ∧
      ∀ (par : Par) (pol : MsmPolicy) (b : Nat) (_ : 0 < b) (vr : VerifyRand F),
        verify C par pol b vr ((zeroFile p [r, zeroRecord C]).encode C) none = .ok () := by
    rintro x r rfl
    have hwf : (zeroFile p [newRecord C ⟨x, 1, 1, 1, 1, 1⟩ [] (x • C.g1) C.g1 C.g1 (x • C.g2) C.g2,
        zeroRecord C]).WF := by
      refine ⟨hp, by simp [zeroFile], by simp [zeroFile], by simp [zeroFile], by simp [zeroFile],
        by simp [zeroFile], ?_⟩
      simp [zeroFile, zeroRecord, newRecord, hC.sha_length]
    refine ⟨hwf, ?_⟩
    intro par pol b hb vr
    have := verify_bytes hC par pol b hb vr _ hwf [] none
    rw [List.append_nil] at this
    rw [this]
    refine ⟨_, defaultContribution_none, ⟨⟨x, 1, 1, newRecord_step hC x⟩, ⟨0, 0, 0, zeroRecord_step _⟩, trivial⟩, ?_⟩
    exact zeroFile_sections _ _ _ _ _ _ rfl
  obtain ⟨w0, a0⟩ := key 0 _ rfl
  obtain ⟨w1, a1⟩ := key 1 _ rfl
  refine ⟨_, _, w0, w1, rfl, rfl, rfl, rfl, rfl, ?_, fun par pol b hb vr => ⟨a0 par pol b hb vr, a1 par pol b hb vr⟩⟩
  intro h
  have := congrArg (fun l => (l.headD Contribution.zero).g1Tau) h
  simp only [zeroFile, List.headD_cons, newRecord, zero_smul, one_smul] at this
  exact g1_ne hC this.symm

/-! ### C13 for arbitrary bytes -/

/-- **C13** (partial) for arbitrary input bytes, e.g. with uncompressed points, cut off or with trailing bytes: if `Verify`
accepts, the header's number of contributions is the length of a chain of proven updates from the origin, as
in `C13_chain_partial`. -/
theorem C13_any_input_partial (par : Par) (pol : MsmPolicy) (b : Nat) (vr : VerifyRand F) (input : Bytes)
    (tr : Option Bytes) (h : verify C par pol b vr input tr = .ok ()) :
    ∃ prev rs, defaultContribution C tr = .ok prev ∧ ChainOk C prev rs ∧
      rs.length = 256 * (input.getD 1 0).toNat + (input.getD 2 0).toNat := by
  unfold verify at h
  cases hh : Header.readFrom.run (Rd.file input 0) with
  | mk res rd =>
    rw [hh] at h
    cases res with
    | error e => simp at h
    | ok header =>
      simp only at h
      cases hs : (readSections C par pol b vr (goPow2 header.power)).run (Rd.buffered (2 ^ 20) rd.rest) with
      | mk res rd' =>
        rw [hs] at h
        cases res with
        | error e => simp at h
        | ok v =>
          obtain ⟨tau1, alpha1, beta1, tau2, betaG2⟩ := v
          simp only [verifyRest] at h
          rw [except_bind_ok] at h
          obtain ⟨prev, hp, h⟩ := h
          rw [except_bind_ok] at h
          obtain ⟨fin, hl, -⟩ := h
          obtain ⟨rs, h1, h2, -⟩ := verifyLoop_sound hC _ _ _ _ _ hl
          refine ⟨prev, rs, hp, h2, ?_⟩
          rw [h1]
          -- the header
          have hcount : header.contributions.toNat = 256 * (input.getD 1 0).toNat + (input.getD 2 0).toNat := by
            have hval : ∀ x y : UInt8, (getUint16 [x, y]).toNat = 256 * x.toNat + y.toNat := by
              intro x y
              have hx := x.toNat_lt
              have hy := y.toNat_lt
              simp only [getUint16, beValue, List.foldl_cons, List.foldl_nil, UInt16.toNat_ofNat']
              omega
            match input with
            | [] => simp [Header.readFrom, Rd.file, Rd.read, Go.bind_run] at hh
            | [x] => simp [Header.readFrom, Rd.file, Rd.read, Go.bind_run, Rd.adv, Rd.block] at hh
            | [x, y] =>
              simp [Header.readFrom, Rd.file, Rd.read, Go.bind_run, Rd.adv, Rd.block] at hh
              rw [← hh.1]
              simp [hval]
            | x :: y :: z :: rest =>
              simp [Header.readFrom, Rd.file, Rd.read, Go.bind_run, Rd.adv, Rd.block] at hh
              rw [← hh.1]
              simp [hval]
          exact hcount

end

namespace Toy

instance (r r' : Contribution K K) : Decidable (NoShaCollision curve r r') := by
  unfold NoShaCollision; infer_instance

instance (r : Contribution K K) (h h' : Bytes) : Decidable (NoG2Collision curve r h h') := by
  unfold NoG2Collision; infer_instance

instance (r : Contribution K K) : Decidable (Nondegenerate r) := by
  unfold Nondegenerate; infer_instance

/-- the honest file with other parameters: accepted as well, see `C14_sections_unchecked` -/
def honest' : P1File K K :=
  { honest with tauG1 := [1, 2, 3], alphaG1 := [4, 5], betaG1 := [6, 7], tauG2 := [8, 9] }

theorem honest'_wf : honest'.WF :=
  ⟨by decide, by decide, by decide, by decide, by decide, by decide, honest_wf.hash⟩

theorem honest'_accepted : verify curve par .strict batchSize vr (honest'.encode curve ++ [1, 2]) none = .ok () :=
  C14_sections_unchecked lawful par batchSize (by decide) vr honest honest' honest_wf honest'_wf rfl rfl [1, 2] none
    (honest_accepted _ rfl)

end Toy

-- two files with different parameters and two honest, nondegenerate contributions
example := C16_history_partial Toy.lawful Toy.par Toy.par .strict .strict batchSize batchSize (by decide) (by decide)
  Toy.vr Toy.vr Toy.honest Toy.honest' Toy.honest_wf Toy.honest'_wf [1, 2] [1, 2] none none
  (Toy.honest_accepted _ rfl) Toy.honest'_accepted rfl rfl (by decide +kernel) (by decide +kernel) (by decide +kernel)

example := C16_degenerate_unbound Toy.lawful 3 (by decide)

example := C13_any_input_partial Toy.lawful Toy.par .strict batchSize Toy.vr _ none (Toy.honest_accepted _ rfl)

end ZkSetup
