import Verif.Proofs.Phase2Verify
import Verif.Spec.Phase2Ceremony
/-
Phase 2 ceremonies.
-/
set_option linter.unusedSectionVars false

namespace ZkSetup

open Phase2 Finset

section
variable {F G1 G2 GT : Type} [Field F] [AddCommGroup G1] [Module F G1] [AddCommGroup G2]
  [Module F G2] [AddCommGroup GT] [Module F GT] [DecidableEq G1] [DecidableEq G2] [DecidableEq GT]

theorem lastHash2_append (rs : List (Contribution G1 G2)) (r : Contribution G1 G2) : lastHash2 (rs ++ [r]) = r.hash := by
  simp [lastHash2]

/-- appending to a chain -/
theorem Chain2By.append {C : Curve F G1 G2 GT} (rs : List (Contribution G1 G2)) :
    ∀ (d : G1) (h : Bytes) (xs : List F) (r : Contribution G1 G2) (x : F), Chain2By C d h rs xs →
    Step2By C ((rs.getLast?.map (·.delta)).getD d) ((rs.getLast?.map (·.hash)).getD h) r x →
    Chain2By C d h (rs ++ [r]) (xs ++ [x]) := by
  induction rs with
  | nil =>
    intro d h xs r x hc hs
    cases xs with
    | nil => exact ⟨hs, trivial⟩
    | cons _ _ => exact hc.elim
  | cons a rs ih =>
    intro d h xs r x hc hs
    cases xs with
    | nil => exact hc.elim
    | cons y xs =>
      refine ⟨hc.1, ih _ _ _ _ _ hc.2 ?_⟩
      cases rs with
      | nil => simpa using hs
      | cons b rs => simpa [List.getLast?_cons] using hs

/-- what the chain says about the deltas -/
theorem Chain2By.delta {C : Curve F G1 G2 GT} (rs : List (Contribution G1 G2)) :
    ∀ (d : G1) (h : Bytes) (xs : List F), Chain2By C d h rs xs →
    xs.length = rs.length ∧ (rs.getLast?.map (·.delta)).getD d = xs.prod • d := by
  induction rs with
  | nil =>
    intro d h xs hc
    cases xs with
    | nil => simp
    | cons _ _ => exact hc.elim
  | cons a rs ih =>
    intro d h xs hc
    cases xs with
    | nil => exact hc.elim
    | cons y xs =>
      obtain ⟨h1, h2⟩ := ih _ _ _ hc.2
      refine ⟨by simp [h1], ?_⟩
      have : ((a :: rs).getLast?.map (·.delta)).getD d = (rs.getLast?.map (·.delta)).getD a.delta := by
        cases rs with
        | nil => simp
        | cons b rs => simp [List.getLast?_cons]
      rw [this, h2, hc.1.delta, smul_smul, List.prod_cons, mul_comm]

variable {C : Curve F G1 G2 GT} (hC : C.Lawful)
include hC

theorem contribute2_wf (f : P2File G1 G2) (hf : f.WF) (rnd : Rand F) (hc : f.records.length + 1 < 2 ^ 63 - 1) :
    (f.contribute C rnd).WF where
  wires := hf.wires
  pub := hf.pub
  privateCommitted := hf.privateCommitted
  constraints := hf.constraints
  domain := hf.domain
  witness := hf.witness
  domain_pos := hf.domain_pos
  z := by simpa [P2File.contribute] using hf.z
  pkk := by simpa [P2File.contribute] using hf.pkk
  count := by simpa [P2File.contribute] using hc
  hash := by
    intro r hr
    simp only [P2File.contribute, List.mem_append, List.mem_singleton] at hr
    rcases hr with hr | rfl
    · exact hf.hash r hr
    · exact hC.sha_length _

omit hC in
/-- the new record is a proven update -/
theorem newRecord2_step (rnd : Rand F) (ch : Bytes) (d : G1) :
    Step2By C d ch (newRecord2 C rnd ch (rnd.delta • d)) rnd.delta where
  sx := by simp [newRecord2, proofOf, mul_smul]
  spx := by simp [newRecord2, proofOf]
  delta := rfl
  hash := by simp [newRecord2, record2Body]

/-- A file is the result of updating `o` by `x`. -/
structure UpdateOf (C : Curve F G1 G2 GT) (o f : P2File G1 G2) (x : F) (xs : List F) : Prop where
  shape : P2File.SameShape f o
  delta1 : f.delta1 = x • o.delta1
  delta2 : f.delta2 = x • o.delta2
  z : f.z = o.z.map (x⁻¹ • ·)
  pkk : f.pkk = o.pkk.map (x⁻¹ • ·)
  chain : Chain2By C o.delta1 [] f.records xs
  last : (f.records.getLast?.map (·.delta)).getD o.delta1 = f.delta1

omit hC in
theorem UpdateOf.contribute {o f : P2File G1 G2} {x : F} {xs : List F} (h : UpdateOf C o f x xs) (rnd : Rand F) :
    UpdateOf C o (f.contribute C rnd) (rnd.delta * x) (xs ++ [rnd.delta]) where
  shape := h.shape
  delta1 := by simp [P2File.contribute, h.delta1, mul_smul]
  delta2 := by simp [P2File.contribute, h.delta2, mul_smul]
  z := by simp [P2File.contribute, h.z, smul_smul, mul_comm]
  pkk := by simp [P2File.contribute, h.pkk, smul_smul, mul_comm]
  chain := by
    simp only [P2File.contribute]
    apply Chain2By.append _ _ _ _ _ _ h.chain
    have hl : (f.records.getLast?.map (·.hash)).getD [] = lastHash2 f.records := by
      unfold lastHash2
      cases f.records.getLast? <;> rfl
    rw [h.last, hl]
    exact newRecord2_step rnd _ _
  last := by simp [P2File.contribute, newRecord2]

omit hC in
theorem UpdateOf.refl (o : P2File G1 G2) (h : o.records = []) : UpdateOf C o o 1 [] where
  shape := ⟨rfl, rfl, rfl, rfl, rfl, rfl⟩
  delta1 := by simp
  delta2 := by simp
  z := by simp
  pkk := by simp
  chain := by rw [h]; trivial
  last := by rw [h]; rfl

theorem ceremony2_inv (rnds : List (Rand F)) : ∀ (o f : P2File G1 G2) (x : F) (xs : List F), f.WF →
    f.records.length + rnds.length < 2 ^ 63 - 1 → UpdateOf C o f x xs →
    (f.ceremony C rnds).WF ∧ (f.ceremony C rnds).records.length = f.records.length + rnds.length ∧
      UpdateOf C o (f.ceremony C rnds) (x * deltaProduct rnds) (xs ++ rnds.map (·.delta)) := by
  induction rnds with
  | nil => intro o f x xs hf _ hu; exact ⟨hf, rfl, by simpa [P2File.ceremony, deltaProduct] using hu⟩
  | cons rnd rnds ih =>
    intro o f x xs hf hc hu
    simp only [List.length_cons] at hc
    obtain ⟨h1, h2, h3⟩ := ih o (f.contribute C rnd) _ _ (contribute2_wf hC f hf rnd (by omega))
      (by simp [P2File.contribute]; omega) (hu.contribute rnd)
    refine ⟨h1, ?_, ?_⟩
    · simp only [P2File.ceremony, List.foldl_cons] at h2 ⊢
      rw [h2]; simp [P2File.contribute]; omega
    · simp only [P2File.ceremony, List.foldl_cons, deltaProduct, List.map_cons, List.prod_cons] at h3 ⊢
      rw [show x * (rnd.delta * (rnds.map (·.delta)).prod) = rnd.delta * x * (rnds.map (·.delta)).prod by ring]
      simpa using h3

/-- the files of a ceremony on bytes -/
theorem p2Ceremony_bytes {H : HeaderCodec} (hH : H.Lawful) (b : Nat) (hb : 0 < b) (steps : List (Par × Rand F)) :
    ∀ (f : P2File G1 G2), f.WF → f.records.length + steps.length < 2 ^ 63 - 1 →
    (∀ k < steps.length, (f.ceremony C ((steps.map Prod.snd).take k)).NoStraddle H) →
    p2Ceremony C H b steps (f.encode C H) = .ok ((f.ceremony C (steps.map Prod.snd)).encode C H) := by
  induction steps with
  | nil => intro f _ _ _; rfl
  | cons s steps ih =>
    obtain ⟨par, rnd⟩ := s
    intro f hf hc hs
    simp only [List.length_cons] at hc
    have h0 := contribute2_spec hC hH par b hb rnd f hf (by simpa [P2File.ceremony] using hs 0 (by simp)) []
    rw [List.append_nil] at h0
    unfold p2Ceremony
    rw [h0]
    simp only [List.map_cons, P2File.ceremony, List.foldl_cons]
    refine ih _ (contribute2_wf hC f hf rnd (by omega)) (by simp [P2File.contribute]; omega) ?_
    intro k hk
    simpa [P2File.ceremony] using hs (k + 1) (by simpa using hk)

omit hC in
theorem batchSum_map (b : Nat) (rnd : Nat → Nat → F) (x : F) (ps : List G1) :
    batchSum b rnd (ps.map (x • ·)) = x • batchSum b rnd ps := by
  unfold batchSum
  rw [Finset.smul_sum, List.length_map]
  apply sum_congr rfl
  intro k hk
  have hk := mem_range.mp hk
  rw [smul_comm]
  congr 1
  simp [List.getD_eq_getElem?_getD, hk]

/-- the verifier accepts updates by a nonzero scalar -/
theorem verify2_update {H : HeaderCodec} (hH : H.Lawful) (par : Par) (b : Nat) (hb : 0 < b) (vr : VerifyRand F)
    (o f : P2File G1 G2) (ho : o.WF) (hf : f.WF) (hs : f.NoStraddle H) (hr : f.records ≠ []) (x : F) (hx : x ≠ 0)
    (xs : List F) (hu : UpdateOf C o f x xs) (ys ys' : Bytes) :
    Phase2.verify C H par b vr (f.encode C H ++ ys) (o.encode C H ++ ys') = .ok () := by
  rw [verify2_iff hC hH par b hb vr f o hf ho hs]
  refine ⟨hr, hu.shape, ?_, ?_, ?_, ⟨xs, hu.chain⟩, ?_⟩
  · rw [hu.delta1, hu.delta2, hC.smul_left, hC.smul_right]
  · rw [hu.z, batchSum_map, hu.delta2, hC.smul_left, hC.smul_right, smul_smul, inv_mul_cancel₀ hx, one_smul]
  · rw [hu.pkk, batchSum_map, hu.delta2, hC.smul_left, hC.smul_right, smul_smul, inv_mul_cancel₀ hx, one_smul]
  · intro r h
    have := hu.last
    rw [h] at this
    exact this

theorem deltaProduct_ne {rnds : List (Rand F)} (h : ∀ r ∈ rnds, r.delta ≠ 0) : deltaProduct rnds ≠ 0 := by
  unfold deltaProduct
  rw [Ne, List.prod_eq_zero_iff]
  simpa using h

end
end ZkSetup
