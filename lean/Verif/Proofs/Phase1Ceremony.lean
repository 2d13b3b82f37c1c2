import Verif.Proofs.Phase1Verify
import Verif.Spec.Phase1Ceremony
/-
Ceremonies: histories of contributions.
-/
set_option linter.unusedSectionVars false

namespace ZkSetup

open Phase1 Finset

section
variable {F G1 G2 GT : Type} [Field F] [AddCommGroup G1] [Module F G1] [AddCommGroup G2]
  [Module F G2] [AddCommGroup GT] [Module F GT]

/-- The points a contributor records are the intended ones: see `GoodAt`. Files made of powers are regular. -/
structure P1File.Regular (f : P1File G1 G2) : Prop where
  tauG1 : GoodAt 1 f.tauG1
  alphaG1 : GoodAt 0 f.alphaG1
  betaG1 : GoodAt 0 f.betaG1
  tauG2 : GoodAt 1 f.tauG2

theorem scaled_getD {G : Type} [AddCommGroup G] [Module F G] (m τ : F) (l : List G) (i : Nat) :
    (scaled m τ l).getD i 0 = (m * τ ^ i) • l.getD i 0 := by
  simp only [scaled, List.getD_eq_getElem?_getD, List.getElem?_mapIdx]
  cases l[i]? <;> simp

theorem GoodAt.scaled {G : Type} [AddCommGroup G] [Module F G] {o : Nat} {l : List G} (h : GoodAt o l)
    (m τ : F) : GoodAt o (scaled m τ l) := by
  by_cases hz : m * τ ^ o = 0
  · right
    intro i hi
    rw [scaled_getD]
    have : m * τ ^ i = 0 := by
      obtain ⟨d, rfl⟩ := Nat.exists_eq_add_of_le hi
      rw [pow_add, ← mul_assoc, hz, zero_mul]
    rw [this, zero_smul]
  · rcases h with h | h
    · left
      rw [scaled_getD]
      intro h0
      have := congrArg (fun x => (m * τ ^ o)⁻¹ • x) h0
      simp only [smul_smul, inv_mul_cancel₀ hz, one_smul, smul_zero] at this
      exact h this
    · right
      intro i hi
      rw [scaled_getD, h i hi, smul_zero]

theorem P1File.Regular.update {f : P1File G1 G2} (h : f.Regular) (rnd : Rand F)
    (r : Contribution G1 G2) : (f.update rnd r).Regular where
  tauG1 := h.tauG1.scaled _ _
  alphaG1 := h.alphaG1.scaled _ _
  betaG1 := h.betaG1.scaled _ _
  tauG2 := h.tauG2.scaled _ _

theorem P1File.WF.update {f : P1File G1 G2} (h : f.WF) (rnd : Rand F) (r : Contribution G1 G2)
    (hr : r.hash.length = 32) (hc : f.records.length < 65535) : (f.update rnd r).WF where
  power := h.power
  tauG1 := by simp [P1File.update, h.tauG1]
  alphaG1 := by simp [P1File.update, h.alphaG1]
  betaG1 := by simp [P1File.update, h.betaG1]
  tauG2 := by simp [P1File.update, h.tauG2]
  count := by simp [P1File.update]; omega
  hash := by
    intro r' h'
    simp only [P1File.update, List.mem_append, List.mem_singleton] at h'
    rcases h' with h' | rfl
    · exact h.hash r' h'
    · exact hr

theorem init_wf (C : Curve F G1 G2 GT) (p : UInt8) (hp : p.toNat ≤ 62) : (P1File.init C p).WF where
  power := hp
  tauG1 := by simp [P1File.init]
  alphaG1 := by simp [P1File.init]
  betaG1 := by simp [P1File.init]
  tauG2 := by simp [P1File.init]
  count := by simp [P1File.init]
  hash := by simp [P1File.init]

theorem range_map_getD {G : Type} [AddCommGroup G] (n i : Nat) (f : Nat → G) :
    ((List.range n).map f).getD i 0 = if i < n then f i else 0 := by
  rw [List.getD_eq_getElem?_getD, List.getElem?_map]
  by_cases h : i < n
  · rw [List.getElem?_range h, if_pos h]; rfl
  · rw [List.getElem?_eq_none (by simpa using h), if_neg h]; rfl

/-- powers of `τ` are regular -/
theorem goodAt_powers {G : Type} [AddCommGroup G] [Module F G] (n o : Nat) (m τ : F) (g : G) :
    GoodAt o ((List.range n).map fun i => (m * τ ^ i) • g) := by
  by_cases h : ((List.range n).map fun i => (m * τ ^ i) • g).getD o 0 = 0
  · right
    intro i hi
    rw [range_map_getD] at h ⊢
    split
    · rename_i hin
      rw [if_pos (by omega)] at h
      obtain ⟨d, rfl⟩ := Nat.exists_eq_add_of_le hi
      rw [pow_add, ← mul_assoc, mul_comm, mul_smul, h, smul_zero]
    · rfl
  · exact .inl h

theorem P1File.Powers.regular {C : Curve F G1 G2 GT} {f : P1File G1 G2} {τ α β : F}
    (h : f.Powers C τ α β) : f.Regular where
  tauG1 := by rw [h.tauG1]; simpa using goodAt_powers (2 * 2 ^ f.power.toNat - 1) 1 (1 : F) τ C.g1
  alphaG1 := by rw [h.alphaG1]; exact goodAt_powers _ 0 α τ C.g1
  betaG1 := by rw [h.betaG1]; exact goodAt_powers _ 0 β τ C.g1
  tauG2 := by rw [h.tauG2]; simpa using goodAt_powers (2 ^ f.power.toNat) 1 (1 : F) τ C.g2

theorem scaled_powers {G : Type} [AddCommGroup G] [Module F G] (n : Nat) (m m' τ τ' : F) (g : G) :
    scaled m' τ' ((List.range n).map fun i => (m * τ ^ i) • g)
      = (List.range n).map fun i => ((m * m') * (τ * τ') ^ i) • g := by
  unfold scaled
  apply List.ext_getElem?
  intro i
  simp only [List.getElem?_mapIdx, List.getElem?_map]
  by_cases h : i < n
  · rw [List.getElem?_range h]
    simp only [Option.map_some, smul_smul, Option.some.injEq]
    congr 1
    rw [mul_pow]; ring
  · rw [List.getElem?_eq_none (by simpa using h)]
    rfl

theorem init_powers (C : Curve F G1 G2 GT) (p : UInt8) : (P1File.init C p).Powers C 1 1 1 where
  tauG1 := by simp [P1File.init, List.map_const']
  alphaG1 := by simp [P1File.init, List.map_const']
  betaG1 := by simp [P1File.init, List.map_const']
  tauG2 := by simp [P1File.init, List.map_const']
  betaG2 := by simp [P1File.init]

theorem P1File.Powers.update {C : Curve F G1 G2 GT} {f : P1File G1 G2} {τ α β : F}
    (h : f.Powers C τ α β) (rnd : Rand F) (r : Contribution G1 G2) :
    (f.update rnd r).Powers C (τ * rnd.tau) (α * rnd.alpha) (β * rnd.beta) where
  tauG1 := by
    have := scaled_powers (2 * 2 ^ f.power.toNat - 1) 1 1 τ rnd.tau C.g1
    simp only [one_mul] at this
    simp only [P1File.update]
    rw [h.tauG1, this]
  alphaG1 := by
    simp only [P1File.update]
    rw [h.alphaG1, scaled_powers]
  betaG1 := by
    simp only [P1File.update]
    rw [h.betaG1, scaled_powers]
  tauG2 := by
    have := scaled_powers (2 ^ f.power.toNat) 1 1 τ rnd.tau C.g2
    simp only [one_mul] at this
    simp only [P1File.update]
    rw [h.tauG2, this]
  betaG2 := by
    simp only [P1File.update]
    rw [h.betaG2, smul_smul, mul_comm]

end

section
variable {F G1 G2 GT : Type} [Field F] [AddCommGroup G1] [Module F G1] [AddCommGroup G2]
  [Module F G2] [AddCommGroup GT] [Module F GT] [DecidableEq G1] [DecidableEq G2]
variable {C : Curve F G1 G2 GT} (hC : C.Lawful)
include hC

theorem newRecord_hash_length (rnd : Rand F) (ch : Bytes) (t1 a1 b1 : G1) (t2 b2 : G2) :
    (newRecord C rnd ch t1 a1 b1 t2 b2).hash.length = 32 := hC.sha_length _

theorem P1File.WF.contribute {f : P1File G1 G2} (hf : f.WF) (rnd : Rand F)
    (hc : f.records.length < 65535) : (f.contribute C rnd).WF :=
  hf.update rnd _ (newRecord_hash_length hC ..) hc

/-- One contribution to a well-formed regular file. -/
theorem contribute_regular (par : Par) (b : Nat) (hb : 2 ≤ b) (rnd : Rand F) (f : P1File G1 G2) (hf : f.WF)
    (hr : f.Regular) (hp : 1 ≤ f.power.toNat) (hc : f.records.length < 65535) (junk : Bytes) :
    contribute C par b rnd (f.encode C ++ junk)
      = (.ok (lastHash (f.contribute C rnd).records), (f.contribute C rnd).encode C) := by
  obtain ⟨t1, a1, b1, t2, h, h1, h2, h3, h4⟩ := contribute_bytes hC par b hb rnd f hf hp
  replace h := h junk
  rw [h1 (hr.tauG1.scaled _ _), h2 (hr.alphaG1.scaled _ _), h3 (hr.betaG1.scaled _ _),
    h4 (hr.tauG2.scaled _ _)] at h
  rw [h]
  congr 1
  · simp [P1File.contribute, P1File.update, lastHash]
  · rw [header_encode _ _ (by omega)]
    simp [P1File.encode, P1File.contribute, P1File.update, P1File.params]

theorem ceremony_inv (rnds : List (Rand F)) : ∀ (f : P1File G1 G2), f.WF → f.Regular →
    f.records.length + rnds.length < 65536 →
    (f.ceremony C rnds).WF ∧ (f.ceremony C rnds).Regular ∧ (f.ceremony C rnds).power = f.power ∧
      (f.ceremony C rnds).records.length = f.records.length + rnds.length := by
  induction rnds with
  | nil => intro f hf hr _; exact ⟨hf, hr, rfl, rfl⟩
  | cons rnd rnds ih =>
    intro f hf hr hc
    simp only [List.length_cons] at hc
    obtain ⟨h1, h2, h3, h4⟩ := ih (f.contribute C rnd) (hf.contribute hC rnd (by omega)) (hr.update _ _)
      (by simp [P1File.contribute, P1File.update]; omega)
    refine ⟨h1, h2, h3, ?_⟩
    rw [show f.ceremony C (rnd :: rnds) = (f.contribute C rnd).ceremony C rnds from rfl, h4]
    simp [P1File.contribute, P1File.update]; omega

/-- A ceremony run with the commands is the ceremony on structured files. -/
theorem p1Ceremony_bytes (b : Nat) (hb : 2 ≤ b) (steps : List (Par × Rand F)) : ∀ (f : P1File G1 G2), f.WF →
    f.Regular → 1 ≤ f.power.toNat → f.records.length + steps.length < 65536 →
    p1Ceremony C b steps (f.encode C) = .ok ((f.ceremony C (steps.map Prod.snd)).encode C) := by
  induction steps with
  | nil => intros; rfl
  | cons st steps ih =>
    obtain ⟨par, rnd⟩ := st
    intro f hf hr hp hc
    simp only [List.length_cons] at hc
    have := contribute_regular hC par b hb rnd f hf hr hp (by omega) []
    rw [List.append_nil] at this
    simp only [p1Ceremony, this]
    rw [ih _ (hf.contribute hC rnd (by omega)) (hr.update _ _) hp
      (by simp [P1File.contribute, P1File.update]; omega)]
    rfl

omit hC [DecidableEq G1] [DecidableEq G2] in
theorem ceremony_powers (rnds : List (Rand F)) : ∀ (f : P1File G1 G2) (τ α β : F), f.Powers C τ α β →
    (f.ceremony C rnds).Powers C (τ * (rnds.map Rand.tau).prod) (α * (rnds.map Rand.alpha).prod)
      (β * (rnds.map Rand.beta).prod) := by
  induction rnds with
  | nil => intro f τ α β h; simpa [P1File.ceremony] using h
  | cons rnd rnds ih =>
    intro f τ α β h
    have := ih (f.contribute C rnd) _ _ _ (h.update rnd _)
    simp only [List.map_cons, List.prod_cons]
    rw [← mul_assoc, ← mul_assoc, ← mul_assoc]
    exact this

/-! ### honest chains -/

omit hC [DecidableEq G1] [DecidableEq G2] in
theorem chainOk_append (rs : List (Contribution G1 G2)) (r : Contribution G1 G2) : ∀ prev,
    ChainOk C prev (rs ++ [r]) ↔
      ChainOk C prev rs ∧ ∃ τ α β, StepBy C (rs.getLast?.getD prev) r τ α β := by
  induction rs with
  | nil => intro prev; simp [ChainOk]
  | cons r' rs ih =>
    intro prev
    simp only [List.cons_append, ChainOk, ih r', and_assoc]
    have : (r' :: rs).getLast?.getD prev = rs.getLast?.getD r' := by
      cases rs <;> simp [List.getLast?_cons]
    rw [this]

omit [DecidableEq G1] [DecidableEq G2] hC in
theorem provesScalar_proofOf (x s : F) (ch : Bytes) (dst : UInt8) :
    ProvesScalar C (proofOf C x s ch dst) ch dst x := by
  simp [ProvesScalar, proofOf, smul_smul]

/-- The records are a chain from `prev`, and the last one (or `prev`) holds the file's current points. -/
structure P1File.Tracks (C : Curve F G1 G2 GT) (prev : Contribution G1 G2) (f : P1File G1 G2) : Prop where
  chain : ChainOk C prev f.records
  hash : (f.records.getLast?.getD prev).hash = lastHash f.records
  g1Tau : (f.records.getLast?.getD prev).g1Tau = f.tauG1.getD 1 0
  g1Alpha : (f.records.getLast?.getD prev).g1Alpha = f.alphaG1.getD 0 0
  g1Beta : (f.records.getLast?.getD prev).g1Beta = f.betaG1.getD 0 0
  g2Tau : (f.records.getLast?.getD prev).g2Tau = f.tauG2.getD 1 0
  g2Beta : (f.records.getLast?.getD prev).g2Beta = f.betaG2

omit [DecidableEq G1] [DecidableEq G2] hC in
theorem P1File.Tracks.contribute {prev : Contribution G1 G2} {f : P1File G1 G2} (h : f.Tracks C prev)
    (rnd : Rand F) : (f.contribute C rnd).Tracks C prev := by
  have hl : (f.contribute C rnd).records.getLast?.getD prev = newRecord C rnd (lastHash f.records)
    ((scaled 1 rnd.tau f.tauG1).getD 1 0) ((scaled rnd.alpha rnd.tau f.alphaG1).getD 0 0)
    ((scaled rnd.beta rnd.tau f.betaG1).getD 0 0) ((scaled 1 rnd.tau f.tauG2).getD 1 0)
    (rnd.beta • f.betaG2) := by simp [P1File.contribute, P1File.update]
  constructor
  · simp only [P1File.contribute, P1File.update]
    rw [chainOk_append]
    refine ⟨h.chain, rnd.tau, rnd.alpha, rnd.beta, ?_⟩
    constructor
    · rw [h.hash]; exact provesScalar_proofOf ..
    · rw [h.hash]; exact provesScalar_proofOf ..
    · rw [h.hash]; exact provesScalar_proofOf ..
    · rw [h.g1Tau]; simp only [newRecord, scaled_getD, pow_one, pow_zero, mul_one, one_mul]
    · rw [h.g1Alpha]; simp only [newRecord, scaled_getD, pow_one, pow_zero, mul_one, one_mul]
    · rw [h.g1Beta]; simp only [newRecord, scaled_getD, pow_one, pow_zero, mul_one, one_mul]
    · intro _; rw [h.g2Tau]; simp only [newRecord, scaled_getD, pow_one, one_mul]
    · intro _; rw [h.g2Beta]; simp [newRecord]
    · rfl
  · simp [P1File.contribute, P1File.update, lastHash]
  · rw [hl]; rfl
  · rw [hl]; rfl
  · rw [hl]; rfl
  · rw [hl]; rfl
  · rw [hl]; rfl

omit [DecidableEq G1] [DecidableEq G2] hC in
theorem P1File.Tracks.ceremony {prev : Contribution G1 G2} (rnds : List (Rand F)) : ∀ {f : P1File G1 G2},
    f.Tracks C prev → (f.ceremony C rnds).Tracks C prev := by
  induction rnds with
  | nil => intro f h; exact h
  | cons rnd rnds ih => intro f h; exact ih (h.contribute rnd)

end
end ZkSetup
