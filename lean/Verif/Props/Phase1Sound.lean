import Verif.Props.Phase1
import Mathlib.Algebra.BigOperators.Group.List.Lemmas
import Mathlib.Data.Fintype.Card
/-
What acceptance by `phase1.Verify` implies, and what it does not: C11 (second part), C13, C14, C15, C42, C49, C50.
-/
set_option linter.unusedSectionVars false

namespace ZkSetup

open Phase1 Finset

section
variable {F G1 G2 GT : Type} [Field F] [AddCommGroup G1] [Module F G1] [AddCommGroup G2]
  [Module F G2] [AddCommGroup GT] [Module F GT] [DecidableEq G1] [DecidableEq G2] [DecidableEq GT]
variable {C : Curve F G1 G2 GT} (hC : C.Lawful)

/-! ### C13 -/

/-- The last record of a chain, in terms of the start: products of the scalars. -/
theorem chain_product (rs : List (Contribution G1 G2)) : ∀ prev, ChainOk C prev rs →
    ∃ ts : List (F × F × F), ts.length = rs.length ∧
      (rs.getLast?.getD prev).g1Tau = (ts.map fun t => t.1).prod • prev.g1Tau ∧
      (rs.getLast?.getD prev).g1Alpha = (ts.map fun t => t.2.1).prod • prev.g1Alpha ∧
      (rs.getLast?.getD prev).g1Beta = (ts.map fun t => t.2.2).prod • prev.g1Beta ∧
      ((∀ r ∈ rs, r.pkTau.s ≠ 0) →
        (rs.getLast?.getD prev).g2Tau = (ts.map fun t => t.1).prod • prev.g2Tau) ∧
      ((∀ r ∈ rs, r.pkBeta.s ≠ 0) →
        (rs.getLast?.getD prev).g2Beta = (ts.map fun t => t.2.2).prod • prev.g2Beta) := by
  induction rs with
  | nil => intro prev _; exact ⟨[], rfl, by simp, by simp, by simp, by simp, by simp⟩
  | cons r rs ih =>
    rintro prev ⟨⟨τ, α, β, hs⟩, hrest⟩
    obtain ⟨ts, hl, h1, h2, h3, h4, h5⟩ := ih r hrest
    have hlast : (r :: rs).getLast?.getD prev = rs.getLast?.getD r := by
      cases rs <;> simp [List.getLast?_cons]
    refine ⟨(τ, α, β) :: ts, by simp [hl], ?_, ?_, ?_, ?_, ?_⟩
    · rw [hlast, h1, hs.g1Tau, smul_smul]; simp [mul_comm]
    · rw [hlast, h2, hs.g1Alpha, smul_smul]; simp [mul_comm]
    · rw [hlast, h3, hs.g1Beta, smul_smul]; simp [mul_comm]
    · intro h
      rw [hlast, h4 (fun r' h' => h r' (by simp [h'])), hs.g2Tau (h r (by simp)), smul_smul]
      simp [mul_comm]
    · intro h
      rw [hlast, h5 (fun r' h' => h r' (by simp [h'])), hs.g2Beta (h r (by simp)), smul_smul]
      simp [mul_comm]

include hC

/-- **C13** (partial): for every file of the documented shape, points and records arbitrary, acceptance implies that
every record is an update of the one before it (`StepBy`): scalars `τ, α, β` proven for the previous hash, `τ·`,
`α·`, `β·` in G1, and the record's hash is right. Missing for the full C13: the G2 points are tied to the same
scalar only if the record's blinding point `S` is not the identity; `C13_g2_unbound` shows that this is
needed. -/
theorem C13_chain_partial (par : Par) (pol : MsmPolicy) (b : Nat) (hb : 0 < b) (vr : VerifyRand F)
    (f : P1File G1 G2) (hf : f.WF) (junk : Bytes) (tr : Option Bytes)
    (h : verify C par pol b vr (f.encode C ++ junk) tr = .ok ()) :
    ∃ prev, defaultContribution C tr = .ok prev ∧ ChainOk C prev f.records ∧
      f.betaG2 = (f.records.getLast?.getD Contribution.zero).g2Beta := by
  obtain ⟨prev, h1, h2, h3⟩ := (verify_bytes hC par pol b hb vr f hf junk tr).mp h
  exact ⟨prev, h1, h2, h3.betaG2⟩

/-- the scalars of a step are determined by the record: they are the ones of its proofs of knowledge -/
theorem C13_scalars_unique (prev cur : Contribution G1 G2) (τ α β τ' α' β' : F)
    (h : StepBy C prev cur τ α β) (h' : StepBy C prev cur τ' α' β') : τ = τ' ∧ α = α' ∧ β = β' :=
  ⟨h.knowTau.unique hC h'.knowTau, h.knowAlpha.unique hC h'.knowAlpha, h.knowBeta.unique hC h'.knowBeta⟩

/-- **C13** (partial) over the whole chain from the generators: if every record has `S ≠ 0`, there are `τ, α, β` such
that the last record holds `[τ]1, [α]1, [β]1, [τ]2, [β]2`, and the file's `[β]2` is that one. -/
theorem C13_final_partial (par : Par) (pol : MsmPolicy) (b : Nat) (hb : 0 < b) (vr : VerifyRand F)
    (f : P1File G1 G2) (hf : f.WF) (junk : Bytes) (last : Contribution G1 G2)
    (hlast : f.records.getLast? = some last)
    (hS : ∀ r ∈ f.records, r.pkTau.s ≠ 0 ∧ r.pkBeta.s ≠ 0)
    (h : verify C par pol b vr (f.encode C ++ junk) none = .ok ()) :
    ∃ τ α β : F, last.g1Tau = τ • C.g1 ∧ last.g1Alpha = α • C.g1 ∧ last.g1Beta = β • C.g1 ∧
      last.g2Tau = τ • C.g2 ∧ last.g2Beta = β • C.g2 ∧ f.betaG2 = β • C.g2 := by
  obtain ⟨prev, h1, h2, h3⟩ := C13_chain_partial hC par pol b hb vr f hf junk none h
  simp only [defaultContribution_none, Except.ok.injEq] at h1
  subst h1
  obtain ⟨ts, _, e1, e2, e3, e4, e5⟩ := chain_product f.records _ h2
  rw [hlast] at e1 e2 e3 e4 e5 h3
  refine ⟨_, _, _, e1, e2, e3, e4 fun r hr => (hS r hr).1, e5 fun r hr => (hS r hr).2, ?_⟩
  rw [h3]
  exact e5 fun r hr => (hS r hr).2

omit hC [DecidableEq G1] [DecidableEq G2] [DecidableEq GT] in
theorem neighbourSum_geom {G : Type} [AddCommGroup G] [Module F G] (b : Nat) (rnd : Nat → Nat → F) (t : F)
    (ps : List G) (h : ∀ j, j + 1 < ps.length → ps.getD (j + 1) 0 = t • ps.getD j 0) :
    neighbourSum b rnd 1 ps = t • neighbourSum b rnd 0 ps := by
  unfold neighbourSum
  rw [smul_sum]
  apply sum_congr rfl
  intro j hj
  have hj := mem_range.mp hj
  split
  · simp
  · rw [h j (by omega), smul_comm]; simp

omit hC [DecidableEq G1] [DecidableEq G2] [DecidableEq GT] in
theorem combos_geom {G : Type} [AddCommGroup G] [Module F G] (pol : MsmPolicy) (b : Nat)
    (rnd : Nat → Nat → F) (m t : F) (g : G) (n : Nat) :
    (combos pol b rnd ((List.range n).map fun i => (m * t ^ i) • g)).2
      = t • (combos pol b rnd ((List.range n).map fun i => (m * t ^ i) • g)).1 := by
  cases pol with
  | strict => simp [combos]
  | truncate =>
    apply neighbourSum_geom
    intro j hj
    simp only [List.length_map, List.length_range] at hj
    rw [range_map_getD, range_map_getD, if_pos hj, if_pos (by omega), smul_smul, pow_succ]
    congr 1; ring

/-- the record of the counterexample: `S = SX = 0` for `τ`, so that the G2 point is free -/
def freeRecord (C : Curve F G1 G2 GT) (t1 t2 : F) : Contribution G1 G2 :=
  let r : Contribution G1 G2 :=
    { g1Tau := t1 • C.g1, g1Alpha := C.g1, g1Beta := C.g1, g2Tau := t2 • C.g2, g2Beta := C.g2
      pkTau := proofOf C t1 0 [] 1, pkAlpha := proofOf C 1 1 [] 2, pkBeta := proofOf C 1 1 [] 3, hash := [] }
  { r with hash := C.sha (recordBody C r) }

/-- the file of the counterexample: in G1 the powers of `t2`, in G2 those of `t1⁻¹` -/
def freeFile (C : Curve F G1 G2 GT) (p : UInt8) (t1 t2 : F) : P1File G1 G2 :=
  { power := p
    tauG1 := (List.range (2 * 2 ^ p.toNat - 1)).map fun i => (1 * t2 ^ i) • C.g1
    alphaG1 := (List.range (2 ^ p.toNat)).map fun i => (1 * t2 ^ i) • C.g1
    betaG1 := (List.range (2 ^ p.toNat)).map fun i => (1 * t2 ^ i) • C.g1
    tauG2 := (List.range (2 ^ p.toNat)).map fun i => (1 * t1⁻¹ ^ i) • C.g2
    betaG2 := C.g2
    records := [freeRecord C t1 t2] }

/-- **C13, negation**: on every lawful curve and for all scalars `t1 ≠ 0`, `t2`, there is an accepted file with one
contribution whose G1 update is `t1` and whose G2 update is `t2`. It is accepted for every behaviour of `MultiExp`
and all verifier randomness. -/
theorem C13_g2_unbound (p : UInt8) (hp : p.toNat ≤ 62) (t1 t2 : F) (ht : t1 ≠ 0) :
    (freeFile C p t1 t2).WF ∧
    (∀ (par : Par) (pol : MsmPolicy) (b : Nat) (_ : 0 < b) (vr : VerifyRand F),
      verify C par pol b vr ((freeFile C p t1 t2).encode C) none = .ok ()) ∧
    ∀ r ∈ (freeFile C p t1 t2).records, r.g1Tau = t1 • C.g1 ∧ r.g2Tau = t2 • C.g2 := by
  have hwf : (freeFile C p t1 t2).WF := by
    refine ⟨hp, ?_, ?_, ?_, ?_, ?_, ?_⟩
    · simp [freeFile]
    · simp [freeFile]
    · simp [freeFile]
    · simp [freeFile]
    · simp [freeFile]
    · simp [freeFile, freeRecord, hC.sha_length]
  refine ⟨hwf, ?_, ?_⟩
  · intro par pol b hb vr
    have := (verify_bytes hC par pol b hb vr _ hwf [] none).mpr ?_
    · simpa using this
    refine ⟨genesis C, rfl, ⟨⟨t1, 1, 1, ?_⟩, trivial⟩, ?_⟩
    · constructor
      · exact provesScalar_proofOf ..
      · exact provesScalar_proofOf ..
      · exact provesScalar_proofOf ..
      · rfl
      · simp [freeRecord, genesis]
      · simp [freeRecord, genesis]
      · intro h; exact absurd (by simp [freeRecord, proofOf]) h
      · intro _; simp [freeRecord, genesis]
      · rfl
    · have hl : (freeFile C p t1 t2).records.getLast?.getD Contribution.zero = freeRecord C t1 t2 := rfl
      rw [hl]
      constructor
      · intro t h
        rw [show (freeRecord C t1 t2).g2Tau = t2 • C.g2 from rfl, smul_g2_inj hC] at h
        subst h
        exact combos_geom ..
      · intro t h
        rw [show (freeRecord C t1 t2).g2Tau = t2 • C.g2 from rfl, smul_g2_inj hC] at h
        subst h
        exact combos_geom ..
      · intro t h
        rw [show (freeRecord C t1 t2).g2Tau = t2 • C.g2 from rfl, smul_g2_inj hC] at h
        subst h
        exact combos_geom ..
      · intro t h
        rw [show (freeRecord C t1 t2).g1Tau = t1 • C.g1 from rfl, smul_g1_inj hC] at h
        subst h
        have := combos_geom pol b vr.tau2 1 t1⁻¹ C.g2 (2 ^ p.toNat)
        simp only [freeFile]
        rw [this, smul_smul, mul_inv_cancel₀ ht, one_smul]
      · rfl
  · intro r hr
    simp only [freeFile, List.mem_singleton] at hr
    subst hr
    exact ⟨rfl, rfl⟩

/-! ### C14 -/

/-- **C14, negation**: with `MultiExp` as gnark-crypto documents it, the parameter sections are not checked at all: in an
accepted file every section may be replaced by arbitrary points and the file stays accepted. -/
theorem C14_sections_unchecked (par : Par) (b : Nat) (hb : 0 < b) (vr : VerifyRand F) (f g : P1File G1 G2)
    (hf : f.WF) (hg : g.WF) (hrec : g.records = f.records) (hbeta : g.betaG2 = f.betaG2) (junk : Bytes)
    (tr : Option Bytes) (h : verify C par .strict b vr (f.encode C ++ junk) tr = .ok ()) :
    verify C par .strict b vr (g.encode C ++ junk) tr = .ok () := by
  obtain ⟨prev, h1, h2, h3⟩ := (verify_bytes hC par .strict b hb vr f hf junk tr).mp h
  rw [verify_bytes hC par .strict b hb vr g hg]
  refine ⟨prev, h1, by rw [hrec]; exact h2, ?_⟩
  rw [sectionsOk_strict, hbeta, hrec]
  exact h3.betaG2

/-- **C14, negation**, concrete form: for every lawful curve and power there is a file accepted for every behaviour of
`MultiExp` and all verifier randomness that is not made of the powers of any `τ, α, β` (if the field has an
element other than 0, 1, -1). -/
theorem C14_false (p : UInt8) (hp : p.toNat ≤ 62) (hp1 : 1 ≤ p.toNat) (t : F) (ht0 : t ≠ 0) (ht : t * t ≠ 1) :
    ∃ f : P1File G1 G2, f.WF ∧ f.power = p ∧
      (∀ (par : Par) (pol : MsmPolicy) (b : Nat) (_ : 0 < b) (vr : VerifyRand F),
        verify C par pol b vr (f.encode C) none = .ok ()) ∧
      ¬ ∃ τ α β : F, f.Powers C τ α β := by
  obtain ⟨h1, h2, _⟩ := C13_g2_unbound hC p hp t t ht0
  refine ⟨freeFile C p t t, h1, rfl, h2, ?_⟩
  rintro ⟨τ, α, β, hpow⟩
  have hN2 : 2 ≤ 2 ^ p.toNat := by
    calc 2 = 2 ^ 1 := rfl
      _ ≤ 2 ^ p.toNat := Nat.pow_le_pow_right (by omega) hp1
  have e1 := congrArg (fun l => l.getD 1 0) hpow.tauG1
  have e2 := congrArg (fun l => l.getD 1 0) hpow.tauG2
  simp only [freeFile, range_map_getD] at e1 e2
  rw [if_pos (by omega), if_pos (by omega), smul_g1_inj hC] at e1
  rw [if_pos (by omega), if_pos (by omega), smul_g2_inj hC] at e2
  simp only [one_mul, pow_one] at e1 e2
  rw [← e1] at e2
  apply ht
  conv => lhs; arg 1; rw [← e2]
  exact inv_mul_cancel₀ ht0

omit hC [DecidableEq G1] [DecidableEq G2] [DecidableEq GT] in
/-- the verifier's random values with the coefficient of the `j`-th pair of neighbours replaced by `x` -/
def setRnd (b : Nat) (rnd : Nat → Nat → F) (j : Nat) (x : F) : Nat → Nat → F :=
  Function.update rnd (j / b) (Function.update (rnd (j / b)) (j % b) x)

omit hC [DecidableEq G1] [DecidableEq G2] [DecidableEq GT] in
/-- a random combination that is affine in one of the random values -/
theorem neighbourSum_update {G : Type} [AddCommGroup G] [Module F G] (b : Nat) (hb : 0 < b)
    (rnd : Nat → Nat → F) (s : Nat) (ps : List G) (j : Nat) (hj : j + 1 < ps.length) (hjb : (j + 1) % b ≠ 0)
    (x : F) :
    neighbourSum b (setRnd b rnd j x) s ps
      = x • ps.getD (j + s) 0 +
        ∑ i ∈ (range (ps.length - 1)).erase j,
          if (i + 1) % b = 0 then 0 else rnd (i / b) (i % b) • ps.getD (i + s) 0 := by
  unfold neighbourSum setRnd
  rw [← add_sum_erase _ _ (mem_range.mpr (by omega : j < ps.length - 1))]
  congr 1
  · rw [if_neg hjb]; simp
  · apply sum_congr rfl
    intro i hi
    have hij : i ≠ j := (mem_erase.mp hi).1
    split
    · rfl
    · congr 1
      by_cases h1 : i / b = j / b
      · rw [h1, Function.update_self, Function.update_of_ne]
        intro h2
        apply hij
        rw [← Nat.div_add_mod i b, ← Nat.div_add_mod j b, h1, h2]
      · rw [Function.update_of_ne h1]

omit hC [DecidableEq G1] [DecidableEq G2] [DecidableEq GT] in
/-- If two neighbours in one batch do not have ratio `t`, at most one value of their random coefficient passes. -/
theorem combos_unique {G : Type} [AddCommGroup G] [Module F G] (b : Nat) (hb : 0 < b)
    (rnd : Nat → Nat → F) (ps : List G) (j : Nat) (hj : j + 1 < ps.length) (hjb : (j + 1) % b ≠ 0)
    (t x y : F) (hbad : ps.getD (j + 1) 0 ≠ t • ps.getD j 0)
    (hx : (combos .truncate b (setRnd b rnd j x) ps).2
      = t • (combos .truncate b (setRnd b rnd j x) ps).1)
    (hy : (combos .truncate b (setRnd b rnd j y) ps).2
      = t • (combos .truncate b (setRnd b rnd j y) ps).1) :
    x = y := by
  simp only [combos, neighbourSum_update b hb rnd _ ps j hj hjb, add_zero] at hx hy
  by_contra hne
  have h2 : (x - y) • (ps.getD (j + 1) 0 - t • ps.getD j 0) = 0 := by
    linear_combination (norm := module) hx - hy
  have h4 := congrArg (fun v => (x - y)⁻¹ • v) h2
  simp only [smul_smul, inv_mul_cancel₀ (sub_ne_zero.mpr hne), one_smul, smul_zero] at h4
  exact hbad (sub_eq_zero.mp h4)

/-- **C14** (partial), assuming a `MultiExp` that uses the common prefix of its arguments: if two neighbours of the
TauG1 section that lie in the same batch do not have the ratio of the last record's `τ`, then, whatever all other random
values are, at most one value of the coefficient `r_j` makes the verifier accept (probability at most `1/|F|`).
Missing for the full C14: it does not hold with the documented `MultiExp` (`C14_sections_unchecked`), neighbours in
different batches are never compared, the first elements are not compared with the records, and TauG2 is compared
with the inverse ratio (`C11_truncate_rejects`). -/
theorem C14_tauG1_partial (par : Par) (b : Nat) (hb : 0 < b) (vr : VerifyRand F)
    (f : P1File G1 G2) (hf : f.WF) (junk : Bytes) (tr : Option Bytes) (t : F)
    (ht : (f.records.getLast?.getD Contribution.zero).g2Tau = t • C.g2)
    (j : Nat) (hj : j + 1 < f.tauG1.length) (hjb : (j + 1) % b ≠ 0)
    (hbad : f.tauG1.getD (j + 1) 0 ≠ t • f.tauG1.getD j 0) (x y : F)
    (hx : verify C par .truncate b { vr with
      tau1 := setRnd b vr.tau1 j x } (f.encode C ++ junk) tr = .ok ())
    (hy : verify C par .truncate b { vr with
      tau1 := setRnd b vr.tau1 j y } (f.encode C ++ junk) tr = .ok ()) : x = y := by
  obtain ⟨_, _, _, h1⟩ := (verify_bytes hC par _ b hb _ f hf junk tr).mp hx
  obtain ⟨_, _, _, h2⟩ := (verify_bytes hC par _ b hb _ f hf junk tr).mp hy
  exact combos_unique b hb vr.tau1 f.tauG1 j hj hjb t x y hbad (h1.tauG1 t ht) (h2.tauG1 t ht)

/-- **C14** (partial), AlphaG1 section -/
theorem C14_alphaG1_partial (par : Par) (b : Nat) (hb : 0 < b) (vr : VerifyRand F)
    (f : P1File G1 G2) (hf : f.WF) (junk : Bytes) (tr : Option Bytes) (t : F)
    (ht : (f.records.getLast?.getD Contribution.zero).g2Tau = t • C.g2)
    (j : Nat) (hj : j + 1 < f.alphaG1.length) (hjb : (j + 1) % b ≠ 0)
    (hbad : f.alphaG1.getD (j + 1) 0 ≠ t • f.alphaG1.getD j 0) (x y : F)
    (hx : verify C par .truncate b { vr with
      alpha1 := setRnd b vr.alpha1 j x } (f.encode C ++ junk) tr = .ok ())
    (hy : verify C par .truncate b { vr with
      alpha1 := setRnd b vr.alpha1 j y } (f.encode C ++ junk) tr = .ok ()) : x = y := by
  obtain ⟨_, _, _, h1⟩ := (verify_bytes hC par _ b hb _ f hf junk tr).mp hx
  obtain ⟨_, _, _, h2⟩ := (verify_bytes hC par _ b hb _ f hf junk tr).mp hy
  exact combos_unique b hb vr.alpha1 f.alphaG1 j hj hjb t x y hbad (h1.alphaG1 t ht) (h2.alphaG1 t ht)

/-- **C14** (partial), BetaG1 section -/
theorem C14_betaG1_partial (par : Par) (b : Nat) (hb : 0 < b) (vr : VerifyRand F)
    (f : P1File G1 G2) (hf : f.WF) (junk : Bytes) (tr : Option Bytes) (t : F)
    (ht : (f.records.getLast?.getD Contribution.zero).g2Tau = t • C.g2)
    (j : Nat) (hj : j + 1 < f.betaG1.length) (hjb : (j + 1) % b ≠ 0)
    (hbad : f.betaG1.getD (j + 1) 0 ≠ t • f.betaG1.getD j 0) (x y : F)
    (hx : verify C par .truncate b { vr with
      beta1 := setRnd b vr.beta1 j x } (f.encode C ++ junk) tr = .ok ())
    (hy : verify C par .truncate b { vr with
      beta1 := setRnd b vr.beta1 j y } (f.encode C ++ junk) tr = .ok ()) : x = y := by
  obtain ⟨_, _, _, h1⟩ := (verify_bytes hC par _ b hb _ f hf junk tr).mp hx
  obtain ⟨_, _, _, h2⟩ := (verify_bytes hC par _ b hb _ f hf junk tr).mp hy
  exact combos_unique b hb vr.beta1 f.betaG1 j hj hjb t x y hbad (h1.betaG1 t ht) (h2.betaG1 t ht)

/-- **C11/C14**: with a `MultiExp` that uses the common prefix, the TauG2 check compares with the inverse ratio: an
honest file with `τ² ≠ 1` and a nonzero first random coefficient is rejected. So the four consistency checks are only
passed by honest files because `MultiExp` fails. -/
theorem C11_truncate_rejects (par : Par) (b : Nat) (hb : 2 ≤ b) (vr : VerifyRand F)
    (f : P1File G1 G2) (hf : f.WF) (hp1 : f.power.toNat = 1) (junk : Bytes) (tr : Option Bytes) (τ α β : F)
    (hpow : f.Powers C τ α β) (last : Contribution G1 G2) (hlast : f.records.getLast? = some last)
    (hg1 : last.g1Tau = τ • C.g1) (hτ : τ * τ ≠ 1) (hr : vr.tau2 0 0 ≠ 0) :
    verify C par .truncate b vr (f.encode C ++ junk) tr ≠ .ok () := by
  intro h
  obtain ⟨_, _, _, h1⟩ := (verify_bytes hC par _ b (by omega) _ f hf junk tr).mp h
  rw [hlast] at h1
  have h2 := h1.tauG2 τ hg1
  have hl : f.tauG2 = [C.g2, τ • C.g2] := by
    rw [hpow.tauG2, hp1]
    simp [List.range_succ]
  simp only [combos] at h2
  rw [neighbourSum_last b _ _ _ (by rw [hl]; simpa using hb), neighbourSum_last b _ _ _ (by rw [hl]; simpa using hb),
    hl] at h2
  simp only [List.length_cons, List.length_nil, Nat.zero_add, Nat.reduceAdd, Nat.reduceSub, range_one,
    sum_singleton, List.getD_cons_succ, List.getD_cons_zero, smul_smul] at h2
  rw [smul_g2_inj hC] at h2
  apply hτ
  have : (τ * τ - 1) * vr.tau2 0 0 = 0 := by linear_combination h2
  rcases mul_eq_zero.mp this with h | h
  · exact sub_eq_zero.mp h
  · exact absurd h hr

/-! ### C15 -/

/-- **C15** (partial): a file without contributions is rejected unless its `[β]2` is the identity. The full statement is
false, see `C15_identity_file_accepted`. -/
theorem C15_no_contributions_partial (par : Par) (pol : MsmPolicy) (b : Nat) (hb : 0 < b) (vr : VerifyRand F)
    (f : P1File G1 G2) (hf : f.WF) (junk : Bytes) (tr : Option Bytes) (hrec : f.records = [])
    (hbeta : f.betaG2 ≠ 0) : verify C par pol b vr (f.encode C ++ junk) tr ≠ .ok () := by
  intro h
  obtain ⟨_, _, _, h1⟩ := (verify_bytes hC par pol b hb vr f hf junk tr).mp h
  have := h1.betaG2
  rw [hrec] at this
  exact hbeta this

/-- in particular a freshly initialised file is rejected -/
theorem C15_initial_rejected (par : Par) (pol : MsmPolicy) (b : Nat) (hb : 0 < b) (vr : VerifyRand F)
    (p : UInt8) (hp : p.toNat ≤ 62) (tr : Option Bytes) :
    verify C par pol b vr (initializeFile C p) tr ≠ .ok () := by
  have := C15_no_contributions_partial hC par pol b hb vr (P1File.init C p) (init_wf C p hp) [] tr rfl (g2_ne hC)
  rwa [List.append_nil, ← C05_initialize_encode hC p hp] at this

/-- **C15, negation**: the file of power `p` with all points the identity and no contributions is accepted. -/
theorem C15_identity_file_accepted (p : UInt8) (hp : p.toNat ≤ 62) :
    ∃ f : P1File G1 G2, f.WF ∧ f.power = p ∧ f.records = [] ∧
      ∀ (par : Par) (pol : MsmPolicy) (b : Nat) (_ : 0 < b) (vr : VerifyRand F),
        verify C par pol b vr (f.encode C) none = .ok () := by
  refine ⟨⟨p, List.replicate (2 * 2 ^ p.toNat - 1) 0, List.replicate (2 ^ p.toNat) 0,
    List.replicate (2 ^ p.toNat) 0, List.replicate (2 ^ p.toNat) 0, 0, []⟩,
    ⟨hp, by simp, by simp, by simp, by simp, by simp, by simp⟩, rfl, rfl, ?_⟩
  intro par pol b hb vr
  have hz : ∀ {G : Type} [AddCommGroup G] [Module F G] (rnd : Nat → Nat → F) (n : Nat),
      combos pol b rnd (List.replicate n (0 : G)) = (0, 0) := by
    intro G _ _ rnd n
    cases pol with
    | strict => rfl
    | truncate =>
      have : ∀ s, neighbourSum b rnd s (List.replicate n (0 : G)) = 0 := by
        intro s
        apply sum_eq_zero
        intro j _
        rw [replicate_getD]; simp
      simp [combos, this]
  have := (verify_bytes hC par pol b hb vr (⟨p, List.replicate (2 * 2 ^ p.toNat - 1) 0, List.replicate (2 ^ p.toNat) 0,
    List.replicate (2 ^ p.toNat) 0, List.replicate (2 ^ p.toNat) 0, 0, []⟩ : P1File G1 G2)
    ⟨hp, by simp, by simp, by simp, by simp, by simp, by simp⟩ [] none).mpr ⟨genesis C, rfl, trivial, ?_⟩
  · simpa using this
  · constructor <;> simp [hz, Contribution.zero]

/-! ### C50, C42 -/

/-- **C50** (partial): if an accepted file's last record has no identity point, no contributor used a zero secret. The
full statement is false, see `C50_zero_secret_accepted`. -/
theorem C50_nonzero_partial (par : Par) (pol : MsmPolicy) (b : Nat) (hb : 0 < b) (vr : VerifyRand F)
    (f : P1File G1 G2) (hf : f.WF) (junk : Bytes) (tr : Option Bytes) (last : Contribution G1 G2)
    (hlast : f.records.getLast? = some last)
    (h1 : last.g1Tau ≠ 0) (h2 : last.g1Alpha ≠ 0) (h3 : last.g1Beta ≠ 0)
    (h : verify C par pol b vr (f.encode C ++ junk) tr = .ok ()) :
    ∀ r ∈ f.records, r.g1Tau ≠ 0 ∧ r.g1Alpha ≠ 0 ∧ r.g1Beta ≠ 0 := by
  obtain ⟨prev, _, hc, _⟩ := C13_chain_partial hC par pol b hb vr f hf junk tr h
  generalize f.records = rs at *
  clear * - h1 h2 h3 hlast hc
  induction rs generalizing prev with
  | nil => simp
  | cons r rs ih =>
    obtain ⟨_, hrest⟩ := hc
    intro r' hr'
    rcases List.mem_cons.mp hr' with rfl | hr'
    · -- the last record is a multiple of this one
      obtain ⟨ts, _, e1, e2, e3, _, _⟩ := chain_product rs r' hrest
      have hl : rs.getLast?.getD r' = last := by
        have : (r' :: rs).getLast?.getD r' = rs.getLast?.getD r' := by
          cases rs <;> simp [List.getLast?_cons]
        rw [← this, hlast]; rfl
      rw [hl] at e1 e2 e3
      refine ⟨?_, ?_, ?_⟩
      · intro h0; rw [h0, smul_zero] at e1; exact h1 e1
      · intro h0; rw [h0, smul_zero] at e2; exact h2 e2
      · intro h0; rw [h0, smul_zero] at e3; exact h3 e3
    · cases rs with
      | nil => simp at hr'
      | cons a rs' =>
        exact ih r (by rw [← hlast]; simp [List.getLast?_cons]) hrest r' hr'

/-- **C50, negation**: a contributor who uses `τ = 0` turns every ceremony into an accepted file whose `τ` is 0:
all powers from `[τ]1` on are the identity. -/
theorem C50_zero_secret_accepted (b : Nat) (hb : 2 ≤ b) (p : UInt8) (hp1 : 1 ≤ p.toNat) (hp : p.toNat ≤ 62)
    (steps : List (Par × Rand F)) (hk : steps.length < 65536) (hz : ∃ s ∈ steps, s.2.tau = 0) :
    ∃ f : P1File G1 G2, p1Ceremony C b steps (initializeFile C p) = .ok (f.encode C) ∧
      (∀ (par : Par) (b' : Nat) (_ : 0 < b') (vr : VerifyRand F),
        verify C par .strict b' vr (f.encode C) none = .ok ()) ∧
      f.Powers C 0 (steps.map fun s => s.2.alpha).prod (steps.map fun s => s.2.beta).prod := by
  obtain ⟨s, hs, hs0⟩ := hz
  obtain ⟨f, h1, _, _, h2⟩ := C09_ceremony_powers hC b hb p hp1 hp steps hk
  obtain ⟨out, h3, h4⟩ := C11_honest_accepted hC b hb p hp1 hp steps (List.ne_nil_of_mem hs) hk
  rw [h1] at h3
  cases h3
  refine ⟨f, h1, h4, ?_⟩
  have : (steps.map fun s => s.2.tau).prod = 0 := List.prod_eq_zero (List.mem_map.mpr ⟨s, hs, hs0⟩)
  rwa [this] at h2

/-- the honest contributor's draws with the secrets replaced by `x` -/
def withSecrets (r : Rand F) (x : F × F × F) : Rand F := { r with tau := x.1, alpha := x.2.1, beta := x.2.2 }

/-- **C42** (partial: the other contributors' secrets must be nonzero): whatever they are, every target `(τ, α, β)` is the
final secret of the ceremony for exactly one choice of the honest contributor's secrets. So uniform honest secrets make
the final ones uniform. Without "nonzero" it is false: `C42_zero_secret_wins`. -/
theorem C42_one_honest_partial (b : Nat) (hb : 2 ≤ b) (p : UInt8) (hp1 : 1 ≤ p.toNat) (hp : p.toNat ≤ 62)
    (before after : List (Par × Rand F)) (me : Par × Rand F)
    (hk : before.length + after.length + 1 < 65536)
    (hne : ∀ s ∈ before ++ after, s.2.tau ≠ 0 ∧ s.2.alpha ≠ 0 ∧ s.2.beta ≠ 0) (target : F × F × F) :
    ∃! x : F × F × F, ∃ f : P1File G1 G2,
      p1Ceremony C b (before ++ [(me.1, withSecrets me.2 x)] ++ after) (initializeFile C p)
        = .ok (f.encode C) ∧ f.WF ∧ f.Powers C target.1 target.2.1 target.2.2 := by
  have hN2 : 2 ≤ 2 ^ p.toNat := by
    calc 2 = 2 ^ 1 := rfl
      _ ≤ 2 ^ p.toNat := Nat.pow_le_pow_right (by omega) hp1
  have hprod : ∀ (g : Rand F → F) (l : List (Par × Rand F)), (∀ s ∈ l, g s.2 ≠ 0) →
      (l.map fun s => g s.2).prod ≠ 0 := by
    intro g l h
    rw [Ne, List.prod_eq_zero_iff]
    intro h'
    obtain ⟨s, hs, h0⟩ := List.mem_map.mp h'
    exact h s hs h0
  have a1 := hprod Rand.tau before fun s hs => (hne s (by simp [hs])).1
  have a2 := hprod Rand.alpha before fun s hs => (hne s (by simp [hs])).2.1
  have a3 := hprod Rand.beta before fun s hs => (hne s (by simp [hs])).2.2
  have b1 := hprod Rand.tau after fun s hs => (hne s (by simp [hs])).1
  have b2 := hprod Rand.alpha after fun s hs => (hne s (by simp [hs])).2.1
  have b3 := hprod Rand.beta after fun s hs => (hne s (by simp [hs])).2.2
  generalize hA1 : (before.map fun s => s.2.tau).prod = A1 at a1
  generalize hA2 : (before.map fun s => s.2.alpha).prod = A2 at a2
  generalize hA3 : (before.map fun s => s.2.beta).prod = A3 at a3
  generalize hB1 : (after.map fun s => s.2.tau).prod = B1 at b1
  generalize hB2 : (after.map fun s => s.2.alpha).prod = B2 at b2
  generalize hB3 : (after.map fun s => s.2.beta).prod = B3 at b3
  have key : ∀ x : F × F × F, ∃ f : P1File G1 G2,
      p1Ceremony C b (before ++ [(me.1, withSecrets me.2 x)] ++ after) (initializeFile C p)
        = .ok (f.encode C) ∧ f.WF ∧ f.power = p ∧
        f.Powers C (A1 * x.1 * B1) (A2 * x.2.1 * B2) (A3 * x.2.2 * B3) := by
    intro x
    obtain ⟨f, h1, h2, h3, h4⟩ := C09_ceremony_powers hC b hb p hp1 hp
      (before ++ [(me.1, withSecrets me.2 x)] ++ after) (by simp; omega)
    refine ⟨f, h1, h2, h3, ?_⟩
    simp only [List.map_append, List.prod_append, hA1, hA2, hA3, hB1, hB2, hB3, List.map_cons, List.map_nil,
      List.prod_cons, List.prod_nil, mul_one, withSecrets] at h4
    exact h4
  refine ⟨(A1⁻¹ * target.1 * B1⁻¹, A2⁻¹ * target.2.1 * B2⁻¹, A3⁻¹ * target.2.2 * B3⁻¹), ?_, ?_⟩
  · obtain ⟨f, h1, h2, _, h4⟩ := key (A1⁻¹ * target.1 * B1⁻¹, A2⁻¹ * target.2.1 * B2⁻¹, A3⁻¹ * target.2.2 * B3⁻¹)
    have e1 : A1 * (A1⁻¹ * target.1 * B1⁻¹) * B1 = target.1 := by field_simp
    have e2 : A2 * (A2⁻¹ * target.2.1 * B2⁻¹) * B2 = target.2.1 := by field_simp
    have e3 : A3 * (A3⁻¹ * target.2.2 * B3⁻¹) * B3 = target.2.2 := by field_simp
    simp only [e1, e2, e3] at h4
    exact ⟨f, h1, h2, h4⟩
  · rintro y ⟨f, h1, h2, h4⟩
    obtain ⟨f', g1, g2, g3, g4⟩ := key y
    rw [h1] at g1
    have he : f = f' := encode_inj hC h2 g2 (by simpa using g1)
    subst he
    have t1 := congrArg (fun l => l.getD 1 0) (h4.tauG1.symm.trans g4.tauG1)
    have t2 := congrArg (fun l => l.getD 0 0) (h4.alphaG1.symm.trans g4.alphaG1)
    have t3 := congrArg (fun l => l.getD 0 0) (h4.betaG1.symm.trans g4.betaG1)
    simp only [range_map_getD, g3] at t1 t2 t3
    rw [if_pos (by omega), if_pos (by omega), smul_g1_inj hC, pow_one, pow_one] at t1
    rw [if_pos (by omega), if_pos (by omega), smul_g1_inj hC, pow_zero, pow_zero, mul_one, mul_one] at t2
    rw [if_pos (by omega), if_pos (by omega), smul_g1_inj hC, pow_zero, pow_zero, mul_one, mul_one] at t3
    ext
    · rw [t1]; field_simp
    · rw [t2]; field_simp
    · rw [t3]; field_simp

/-- **C42, negation** of the version without "nonzero": if one other contributor uses `τ = 0`, then whatever the honest
contributor draws, the ceremony is accepted and its final `τ` is 0. -/
theorem C42_zero_secret_wins (b : Nat) (hb : 2 ≤ b) (p : UInt8) (hp1 : 1 ≤ p.toNat) (hp : p.toNat ≤ 62)
    (before after : List (Par × Rand F)) (me : Par × Rand F) (hk : before.length + after.length + 1 < 65536)
    (hz : ∃ s ∈ before ++ after, s.2.tau = 0) :
    ∃ f : P1File G1 G2, p1Ceremony C b (before ++ [me] ++ after) (initializeFile C p) = .ok (f.encode C) ∧
      (∀ (par : Par) (b' : Nat) (_ : 0 < b') (vr : VerifyRand F),
        verify C par .strict b' vr (f.encode C) none = .ok ()) ∧
      ∃ α β, f.Powers C 0 α β := by
  obtain ⟨s, hs, h0⟩ := hz
  obtain ⟨f, h1, h2, h3⟩ := C50_zero_secret_accepted hC b hb p hp1 hp (before ++ [me] ++ after)
    (by simp; omega) ⟨s, by simp only [List.mem_append] at hs ⊢; tauto, h0⟩
  exact ⟨f, h1, h2, _, _, h3⟩

/-! ### C49 -/

/-- **C49**, phase 1 verification: bytes after the declared records do not change the verdict. -/
theorem C49_verify_suffix (par : Par) (pol : MsmPolicy) (b : Nat) (hb : 0 < b) (vr : VerifyRand F)
    (f : P1File G1 G2) (hf : f.WF) (tr : Option Bytes) (junk : Bytes) :
    verify C par pol b vr (f.encode C ++ junk) tr = .ok () ↔ verify C par pol b vr (f.encode C) tr = .ok () := by
  have h := verify_bytes hC par pol b hb vr f hf [] tr
  rw [List.append_nil] at h
  rw [verify_bytes hC par pol b hb vr f hf junk tr, h]

/-- **C49**, phase 1 contribution: bytes after the declared records do not change the result or the output file. -/
theorem C49_contribute_suffix (par : Par) (b : Nat) (hb : 2 ≤ b) (rnd : Rand F) (f : P1File G1 G2) (hf : f.WF)
    (hp : 1 ≤ f.power.toNat) (junk : Bytes) :
    contribute C par b rnd (f.encode C ++ junk) = contribute C par b rnd (f.encode C) := by
  obtain ⟨t1, a1, b1, t2, h, -⟩ := contribute_bytes hC par b hb rnd f hf hp
  have h' := h []
  rw [List.append_nil] at h'
  rw [h junk, h']

end

/-! ### concrete cases -/

namespace Toy

/-- verifier randomness -/
def vr : VerifyRand K := ⟨fun t i => t + i + 1, fun t i => t + i + 2, fun t i => t + i + 3, fun t i => t + i + 4⟩

/-- an honest file of power 1 with two contributions -/
def honest : P1File K K := (P1File.init curve 1).ceremony curve [rnd, rnd']

theorem honest_wf : honest.WF :=
  (ceremony_inv lawful [rnd, rnd'] (P1File.init curve 1) (init_wf curve 1 (by decide))
    (init_powers curve 1).regular (by decide)).1

theorem honest_tracks : honest.Tracks curve (genesis curve) := (tracks_genesis 1 (by decide)).ceremony _

theorem honest_accepted (pol : MsmPolicy) (h : pol = .strict) :
    verify curve par pol batchSize vr (honest.encode curve ++ [1, 2]) none = .ok () := by
  subst h
  exact ZkSetup.honest_accepted lawful honest honest_wf _ honest_tracks (by simp [honest, P1File.ceremony,
    P1File.contribute, P1File.update]) par batchSize (by decide) vr none rfl _

end Toy

example := C13_chain_partial Toy.lawful Toy.par .strict batchSize (by decide) Toy.vr Toy.honest Toy.honest_wf
  [1, 2] none (Toy.honest_accepted _ rfl)

example := C13_scalars_unique Toy.lawful

example := C13_final_partial Toy.lawful Toy.par .strict batchSize (by decide) Toy.vr Toy.honest Toy.honest_wf
  [1, 2] (Toy.honest.records.getLastD Contribution.zero) (by decide +kernel) (by decide +kernel) (Toy.honest_accepted _ rfl)

example := C13_g2_unbound Toy.lawful 3 (by decide) 2 5 (by decide)

-- arbitrary points in all sections
example := C14_sections_unchecked Toy.lawful Toy.par batchSize (by decide) Toy.vr Toy.honest
  { Toy.honest with tauG1 := [1, 2, 3], alphaG1 := [4, 5], betaG1 := [6, 7], tauG2 := [8, 9] } Toy.honest_wf
  ⟨by decide, by decide, by decide, by decide, by decide, by decide, Toy.honest_wf.hash⟩ rfl rfl [1, 2] none
  (Toy.honest_accepted _ rfl)

example := C14_false Toy.lawful 1 (by decide) (by decide) 2 (by decide) (by decide)

/-- a file in which the second pair of neighbours of each G1 section has the wrong ratio -/
def Toy.badFile : P1File Toy.K Toy.K :=
  { freeFile Toy.curve 2 2 5 with
    tauG1 := [1, 5, 3, 15, 7, 1, 5], alphaG1 := [1, 5, 3, 15], betaG1 := [2, 10, 3, 15] }

theorem Toy.badFile_wf : Toy.badFile.WF :=
  ⟨by decide, by decide, by decide, by decide, by decide, by decide, by
    simp [Toy.badFile, freeFile, freeRecord, Toy.lawful.sha_length]⟩

example := C14_tauG1_partial Toy.lawful Toy.par 4 (by decide) Toy.vr Toy.badFile Toy.badFile_wf [] none 5 rfl
  1 (by decide) (by decide) (by decide)
example := C14_alphaG1_partial Toy.lawful Toy.par 4 (by decide) Toy.vr Toy.badFile Toy.badFile_wf [] none 5 rfl
  1 (by decide) (by decide) (by decide)
example := C14_betaG1_partial Toy.lawful Toy.par 4 (by decide) Toy.vr Toy.badFile Toy.badFile_wf [] none 5 rfl
  1 (by decide) (by decide) (by decide)

-- τ = 3·11 = 16 has square 1 in the toy field, so one contribution with τ = 3
example := C11_truncate_rejects Toy.lawful Toy.par batchSize (by decide) Toy.vr
  ((P1File.init Toy.curve 1).contribute Toy.curve Toy.rnd)
  ((init_wf Toy.curve 1 (by decide)).contribute Toy.lawful _ (by decide)) rfl [] none
  (1 * 3) (1 * 5) (1 * 7) ((init_powers Toy.curve 1).update Toy.rnd _) _ rfl (by decide +kernel) (by decide) (by decide)

example := C15_no_contributions_partial Toy.lawful Toy.par .truncate batchSize (by decide) Toy.vr Toy.transformed
  ⟨by decide, by decide, by decide, by decide, by decide, by decide, by simp [Toy.transformed]⟩ [] none rfl (by decide)
example := C15_initial_rejected Toy.lawful Toy.par .strict batchSize (by decide) Toy.vr 3 (by decide) none
example := C15_identity_file_accepted Toy.lawful 3 (by decide)

example := C50_nonzero_partial Toy.lawful Toy.par .strict batchSize (by decide) Toy.vr Toy.honest Toy.honest_wf
  [1, 2] none (Toy.honest.records.getLastD Contribution.zero) (by decide +kernel) (by decide +kernel)
  (by decide +kernel) (by decide +kernel) (Toy.honest_accepted _ rfl)

example := C50_zero_secret_accepted Toy.lawful batchSize (by decide) 1 (by decide) (by decide)
  [(Toy.par, Toy.rnd), (Toy.par, { Toy.rnd' with tau := 0 })] (by decide)
  ⟨_, List.mem_cons_of_mem _ (List.mem_singleton.mpr rfl), rfl⟩

example := C42_one_honest_partial Toy.lawful batchSize (by decide) 1 (by decide) (by decide)
  [(Toy.par, Toy.rnd)] [(Toy.par, Toy.rnd')] (Toy.par, Toy.rnd) (by decide)
  (by simp; decide) (2, 3, 4)

example := C42_zero_secret_wins Toy.lawful batchSize (by decide) 1 (by decide) (by decide)
  [(Toy.par, { Toy.rnd with tau := 0 })] [] (Toy.par, Toy.rnd') (by decide) ⟨_, List.mem_singleton.mpr rfl, rfl⟩

example := C49_verify_suffix Toy.lawful Toy.par .strict batchSize (by decide) Toy.vr Toy.honest Toy.honest_wf none [5]
example := C49_contribute_suffix Toy.lawful Toy.par batchSize (by decide) Toy.rnd Toy.honest Toy.honest_wf (by decide) [5]

end ZkSetup
