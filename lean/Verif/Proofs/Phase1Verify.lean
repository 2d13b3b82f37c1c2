import Verif.Proofs.Phase1Contribute
import Verif.Proofs.Pairing
import Verif.Spec.Phase1Verify
import Mathlib.Algebra.BigOperators.Intervals
import Mathlib.Tactic.LinearCombination
/-
`phase1.Verify` decides the conditions of `Spec/Phase1Verify`.
-/
set_option linter.unusedSectionVars false

namespace ZkSetup

open Phase1 Finset

section
variable {F G1 G2 GT : Type} [Field F] [AddCommGroup G1] [Module F G1] [AddCommGroup G2]
  [Module F G2] [AddCommGroup GT] [Module F GT] [DecidableEq G1] [DecidableEq G2] [DecidableEq GT]

theorem check_ok {b : Bool} {m : String} : check b m = .ok () ↔ b = true := by
  unfold check; cases b <;> simp

theorem except_bind_ok {ε α β : Type} {x : Except ε α} {f : α → Except ε β} {v : β} :
    (x >>= f) = .ok v ↔ ∃ a, x = .ok a ∧ f a = .ok v := by
  cases x with
  | error e => simp [bind, Except.bind]
  | ok a => simp [bind, Except.bind]

theorem except_seq_ok {ε β : Type} {x : Except ε Unit} {f : Except ε β} {v : β} :
    (x >>= fun _ => f) = .ok v ↔ x = .ok () ∧ f = .ok v := by
  cases x with
  | error e => simp [bind, Except.bind]
  | ok a => simp [bind, Except.bind]

variable {C : Curve F G1 G2 GT} (hC : C.Lawful)
include hC

/-- the knowledge check -/
theorem knowledge_iff (k : PublicKey G1 G2) (ch : Bytes) (dst : UInt8) :
    C.sameRatio k.s k.sx k.spx (C.genSP k.s k.sx ch dst) = true
      ↔ ∃ x : F, ProvesScalar C k ch dst x := by
  rw [sameRatio_iff hC]
  unfold ProvesScalar Curve.genSP
  have hne := hC.hash_ne (C.c1.rawBytes k.s ++ C.c1.rawBytes k.sx ++ ch) dst
  generalize C.hashG2 (C.c1.rawBytes k.s ++ C.c1.rawBytes k.sx ++ ch) dst = H at *
  obtain ⟨h, rfl⟩ := hC.span2 H
  obtain ⟨s, hs⟩ := hC.span1 k.s
  obtain ⟨t, ht⟩ := hC.span1 k.sx
  obtain ⟨w, hw⟩ := hC.span2 k.spx
  have hh : h ≠ 0 := fun h0 => hne (by rw [h0, zero_smul])
  rw [hs, ht, hw, e_eq_smul hC]
  constructor
  · intro heq
    refine ⟨w * h⁻¹, ?_, ?_⟩
    · rw [smul_smul, smul_g1_inj hC]
      field_simp
      linear_combination -heq
    · rw [smul_smul, smul_g2_inj hC]
      field_simp
  · rintro ⟨x, h1, h2⟩
    rw [smul_smul, smul_g1_inj hC] at h1
    rw [smul_smul, smul_g2_inj hC] at h2
    rw [h1, h2]; ring

/-- the scalar of a proof of knowledge is unique -/
theorem ProvesScalar.unique {k : PublicKey G1 G2} {ch : Bytes} {dst : UInt8} {x y : F}
    (hx : ProvesScalar C k ch dst x) (hy : ProvesScalar C k ch dst y) : x = y := by
  have h := hx.2.symm.trans hy.2
  have hne := hC.hash_ne (C.c1.rawBytes k.s ++ C.c1.rawBytes k.sx ++ ch) dst
  generalize C.hashG2 (C.c1.rawBytes k.s ++ C.c1.rawBytes k.sx ++ ch) dst = H at *
  obtain ⟨h', rfl⟩ := hC.span2 H
  rw [smul_smul, smul_smul, smul_g2_inj hC] at h
  have hh : h' ≠ 0 := fun h0 => hne (by rw [h0, zero_smul])
  exact mul_right_cancel₀ hh h

/-- the G1 update check, given the proof of knowledge -/
theorem update1_iff {k : PublicKey G1 G2} {ch : Bytes} {dst : UInt8} {x : F}
    (hx : ProvesScalar C k ch dst x) (cur prev : G1) :
    C.sameRatio cur prev (C.genSP k.s k.sx ch dst) k.spx = true ↔ cur = x • prev := by
  rw [sameRatio_iff hC, hx.2]
  unfold Curve.genSP
  have hne := hC.hash_ne (C.c1.rawBytes k.s ++ C.c1.rawBytes k.sx ++ ch) dst
  generalize C.hashG2 (C.c1.rawBytes k.s ++ C.c1.rawBytes k.sx ++ ch) dst = H at *
  obtain ⟨h, rfl⟩ := hC.span2 H
  obtain ⟨c, rfl⟩ := hC.span1 cur
  obtain ⟨p, rfl⟩ := hC.span1 prev
  have hh : h ≠ 0 := fun h0 => hne (by rw [h0, zero_smul])
  rw [smul_smul, smul_smul, e_eq_smul hC, smul_g1_inj hC]
  constructor
  · intro heq
    apply mul_right_cancel₀ hh
    rw [heq]; ring
  · rintro rfl; ring

/-- the G2 update check -/
theorem update2_iff {k : PublicKey G1 G2} {ch : Bytes} {dst : UInt8} {x : F}
    (hx : ProvesScalar C k ch dst x) (cur prev : G2) :
    C.sameRatio k.s k.sx cur prev = true ↔ (k.s ≠ 0 → cur = x • prev) := by
  rw [sameRatio_iff hC, hx.1]
  obtain ⟨s, hs⟩ := hC.span1 k.s
  obtain ⟨c, rfl⟩ := hC.span2 cur
  obtain ⟨p, rfl⟩ := hC.span2 prev
  rw [hs, smul_smul, smul_smul, e_eq_smul hC, smul_g2_inj hC]
  have : s • C.g1 ≠ 0 ↔ s ≠ 0 := not_congr (smul_g1_eq_zero hC)
  rw [this]
  constructor
  · intro heq hs0
    apply mul_left_cancel₀ hs0
    rw [heq]; ring
  · intro h
    by_cases hs0 : s = 0
    · simp [hs0]
    · rw [h hs0]; ring

/-- `verifyContribution` decides whether the record is a proven update. -/
theorem verifyContribution_iff (cur prev : Contribution G1 G2) :
    verifyContribution C cur prev = .ok () ↔ ∃ τ α β, StepBy C prev cur τ α β := by
  unfold verifyContribution
  simp only [except_seq_ok, check_ok, knowledge_iff hC, decide_eq_true_iff, computeHash_eq]
  constructor
  · rintro ⟨⟨τ, hτ⟩, ⟨α, hα⟩, ⟨β, hβ⟩, h4, h5, h6, h7, h8, h9⟩
    rw [update1_iff hC hτ] at h4
    rw [update1_iff hC hα] at h5
    rw [update1_iff hC hβ] at h6
    rw [update2_iff hC hτ] at h7
    rw [update2_iff hC hβ] at h8
    exact ⟨τ, α, β, hτ, hα, hβ, h4, h5, h6, h7, h8, h9⟩
  · rintro ⟨τ, α, β, h⟩
    refine ⟨⟨τ, h.knowTau⟩, ⟨α, h.knowAlpha⟩, ⟨β, h.knowBeta⟩, ?_, ?_, ?_, ?_, ?_, h.hash⟩
    · rw [update1_iff hC h.knowTau]; exact h.g1Tau
    · rw [update1_iff hC h.knowAlpha]; exact h.g1Alpha
    · rw [update1_iff hC h.knowBeta]; exact h.g1Beta
    · rw [update2_iff hC h.knowTau]; exact h.g2Tau
    · rw [update2_iff hC h.knowBeta]; exact h.g2Beta

omit hC in
theorem verifyLoop_succ (n : Nat) (cur prev : Contribution G1 G2) (rd : Rd) (fin : Contribution G1 G2) :
    verifyLoop C (n + 1) cur prev rd = .ok fin ↔
      verifyContribution C ((Contribution.readFrom C).run (cur, rd)).2.1 prev = .ok () ∧
      isSpoiled ((Contribution.readFrom C).run (cur, rd)).1 = false ∧
      verifyLoop C n ((Contribution.readFrom C).run (cur, rd)).2.1 ((Contribution.readFrom C).run (cur, rd)).2.1
        ((Contribution.readFrom C).run (cur, rd)).2.2 = .ok fin := by
  simp only [verifyLoop]
  rw [except_seq_ok, except_seq_ok, check_ok, Bool.not_eq_true']

/-- the verification loop on arbitrary input -/
theorem verifyLoop_sound (n : Nat) : ∀ (cur prev : Contribution G1 G2) (rd : Rd) (fin : Contribution G1 G2),
    verifyLoop C n cur prev rd = .ok fin →
    ∃ rs : List (Contribution G1 G2), rs.length = n ∧ ChainOk C prev rs ∧ fin = rs.getLast?.getD cur := by
  induction n with
  | zero =>
    intro cur prev rd fin h
    refine ⟨[], rfl, trivial, ?_⟩
    simp only [verifyLoop, Except.ok.injEq] at h
    simp [h]
  | succ n ih =>
    intro cur prev rd fin h
    rw [verifyLoop_succ] at h
    obtain ⟨rs, h1, h2, h3⟩ := ih _ _ _ _ h.2.2
    refine ⟨_ :: rs, by simp [h1], ⟨(verifyContribution_iff hC _ _).mp h.1, h2⟩, ?_⟩
    rw [h3]
    cases rs with
    | nil => rfl
    | cons r rs => simp [List.getLast?_eq_getLast_of_ne_nil]

/-- the verification loop on well-formed records -/
theorem verifyLoop_records (rs : List (Contribution G1 G2)) (hr : ∀ r ∈ rs, r.hash.length = 32) :
    ∀ (cur prev fin : Contribution G1 G2) (cap pos : Nat) (_ : cap = 0 ∨ (32 ∣ cap ∧ 32 ∣ pos)) (ys : Bytes),
    verifyLoop C rs.length cur prev ⟨cap, pos, rs.flatMap (recordBytes C) ++ ys⟩ = .ok fin
      ↔ ChainOk C prev rs ∧ fin = rs.getLast?.getD cur := by
  induction rs with
  | nil =>
    intro cur prev fin cap pos _ ys
    simp [verifyLoop, ChainOk, eq_comm]
  | cons r rs ih =>
    intro cur prev fin cap pos hal ys
    simp only [List.length_cons, List.flatMap_cons, List.append_assoc, verifyLoop_succ]
    rw [record_read hC r cur cap pos _ (hr r (by simp)) hal]
    simp only [isSpoiled, true_and]
    rw [verifyContribution_iff hC, ih (fun r' h => hr r' (by simp [h])) r r fin cap _ (by
      rcases hal with h | ⟨h1, h2⟩
      · exact .inl h
      · exact .inr ⟨h1, by omega⟩) ys]
    have : (r :: rs).getLast?.getD cur = rs.getLast?.getD r := by
      cases rs with
      | nil => rfl
      | cons r' rs => simp [List.getLast?_eq_getLast_of_ne_nil]
    rw [this]
    simp only [ChainOk, and_assoc]

omit hC

/-! ### The random combinations -/

section comb
variable {G : Type} [AddCommGroup G] [Module F G]

theorem zipWith_sum (r : Nat → F) (R : Nat) (ps : List G) (h : ps.length ≤ R) :
    (List.zipWith (fun r p => r • p) ((List.range R).map r) ps).sum
      = ∑ j ∈ range ps.length, r j • ps.getD j 0 := by
  induction ps using List.reverseRecOn generalizing R with
  | nil => simp
  | append_singleton ps p ih =>
    have hl : ps.length < R := by simp at h; omega
    have hR : (List.range R).map r
        = (List.range ps.length).map r ++ (List.range' ps.length (R - ps.length)).map r := by
      rw [← List.map_append, List.range_eq_range', List.range_eq_range']
      congr 1
      have := @List.range'_append_1 0 ps.length (R - ps.length)
      rw [Nat.zero_add] at this
      rw [this]; congr 1; omega
    rw [hR, List.zipWith_append (by simp), List.sum_append]
    rw [ih ps.length le_rfl]
    obtain ⟨d, hd⟩ : ∃ d, R - ps.length = d + 1 := ⟨R - ps.length - 1, by omega⟩
    rw [hd, List.range'_succ]
    simp only [List.map_cons, List.zipWith_cons_cons, List.zipWith_nil_right, List.sum_cons, List.sum_nil,
      add_zero, List.length_append, List.length_singleton, sum_range_succ]
    congr 1
    · apply sum_congr rfl
      intro j hj
      have := mem_range.mp hj
      congr 1
      rw [List.getD_append _ _ _ _ this]
    · congr 1
      rw [List.getD_append_right _ _ _ _ le_rfl]
      simp

theorem neighbourSum_shift (b : Nat) (hb : 0 < b) (rnd : Nat → Nat → F) (t s : Nat) (ps : List G)
    (hn : b < ps.length) :
    neighbourSum b (fun u i => rnd (t + u) i) s ps
      = (∑ j ∈ range (b - 1), rnd t j • ps.getD (j + s) 0)
        + neighbourSum b (fun u i => rnd (t + 1 + u) i) s (ps.drop b) := by
  unfold neighbourSum
  have hl : ps.length - 1 = b + ((ps.drop b).length - 1) := by simp; omega
  rw [hl, sum_range_add]
  congr 1
  · obtain ⟨b', rfl⟩ : ∃ b', b = b' + 1 := ⟨b - 1, by omega⟩
    rw [sum_range_succ, Nat.add_sub_cancel]
    simp only [Nat.mod_self, if_true, add_zero]
    apply sum_congr rfl
    intro j hj
    have hj := mem_range.mp hj
    have h1 : (j + 1) % (b' + 1) = j + 1 := Nat.mod_eq_of_lt (by omega)
    have h2 : j / (b' + 1) = 0 := Nat.div_eq_of_lt (by omega)
    have h3 : j % (b' + 1) = j := Nat.mod_eq_of_lt (by omega)
    rw [h1, h2, h3]
    simp
  · apply sum_congr rfl
    intro j _
    have h1 : (b + j + 1) % b = (j + 1) % b := by rw [Nat.add_assoc, Nat.add_mod_left]
    have h2 : (b + j) / b = 1 + j / b := by rw [Nat.add_div_left _ hb, Nat.add_comm]
    have h3 : (b + j) % b = j % b := Nat.add_mod_left _ _
    rw [h1, h2, h3]
    simp only [List.getD_eq_getElem?_getD, List.getElem?_drop, Nat.add_assoc]

theorem neighbourSum_last (b : Nat) (rnd : Nat → Nat → F) (s : Nat) (ps : List G) (hn : ps.length ≤ b) :
    neighbourSum b rnd s ps = ∑ j ∈ range (ps.length - 1), rnd 0 j • ps.getD (j + s) 0 := by
  unfold neighbourSum
  apply sum_congr rfl
  intro j hj
  have hj := mem_range.mp hj
  have h1 : (j + 1) % b = j + 1 := Nat.mod_eq_of_lt (by omega)
  have h2 : j / b = 0 := Nat.div_eq_of_lt (by omega)
  have h3 : j % b = j := Nat.mod_eq_of_lt (by omega)
  rw [h1, h2, h3]
  simp

theorem linCombLoop_spec {c : Codec G} (hc : c.Lawful) (par : Par) (pol : MsmPolicy) (b : Nat)
    (hb : 0 < b) (rnd : Nat → Nat → F) (cap : Nat) (ys : Bytes) (n : Nat) :
    ∀ (ps : List G), ps.length = n → ∀ (t : Nat) (buff : List G) (r : List F), min n b ≤ r.length →
      ∀ (L1 L2 tmp1 tmp2 : G), (pol = .strict → tmp1 = 0 ∧ tmp2 = 0) → ∀ (pos : Nat),
      (linCombLoop c par pol b rnd n t buff r L1 L2 tmp1 tmp2).run ⟨cap, pos, c.encodeN ps ++ ys⟩
        = (.ok (L1 + (combos pol b (fun u i => rnd (t + u) i) ps).1,
              L2 + (combos pol b (fun u i => rnd (t + u) i) ps).2),
            ⟨cap, pos + c.size * n, ys⟩) := by
  induction n using Nat.strong_induction_on with
  | _ n ih =>
    intro ps hn t buff r hr L1 L2 tmp1 tmp2 htmp pos
    rw [linCombLoop]
    by_cases h0 : 0 < n ∧ 0 < b
    swap
    · have hn0 : n = 0 := by omega
      subst hn0
      rw [dif_neg h0]
      have : ps = [] := List.length_eq_zero_iff.mp hn
      subst this
      cases pol <;> simp [combos, neighbourSum, Codec.encodeN]
    · rw [dif_pos h0]
      generalize hrc : min n b = rc at *
      have hrc0 : 0 < rc := by omega
      have hrcn : rc ≤ n := by omega
      have htl : (ps.take rc).length = rc := by simp; omega
      have hdl : (ps.drop rc).length = n - rc := by simp; omega
      have hdec := Codec.decodeN_encodeN hc cap pos (ps.take rc) (c.encodeN (ps.drop rc) ++ ys)
      rw [htl] at hdec
      have hin : c.encodeN ps ++ ys = c.encodeN (ps.take rc) ++ (c.encodeN (ps.drop rc) ++ ys) := by
        rw [← List.append_assoc, ← encodeN_append, List.take_append_drop]
      rw [hin, Go.bind_ok hdec]
      simp only []
      rw [C02_randomize]
      have hb1 : (ps.take rc ++ buff.drop rc).take (rc - 1) = ps.take (rc - 1) := by
        rw [List.take_append_of_le_length (by omega), List.take_take]
        congr 1; omega
      have hb2 : ((ps.take rc ++ buff.drop rc).take rc).drop 1 = (ps.take rc).drop 1 := by
        rw [List.take_left' htl]
      rw [hb1, hb2]
      have hpos : pos + c.size * rc + c.size * (n - rc) = pos + c.size * n := by
        rw [Nat.add_assoc, ← Nat.mul_add]; congr 2; omega
      have hl1 : (ps.take (rc - 1)).length = rc - 1 := by simp; omega
      have hl2 : ((ps.take rc).drop 1).length = rc - 1 := by simp; omega
      cases pol with
      | strict =>
        obtain ⟨rfl, rfl⟩ := htmp rfl
        have hm1 : multiExp .strict (ps.take (rc - 1)) ((List.range r.length).map (rnd t)) = none := by
          unfold multiExp
          rw [if_pos ⟨by simp only [hl1, List.length_map, List.length_range]; omega, rfl⟩]
        have hm2 : multiExp .strict ((ps.take rc).drop 1) ((List.range r.length).map (rnd t)) = none := by
          unfold multiExp
          rw [if_pos ⟨by simp only [hl2, List.length_map, List.length_range]; omega, rfl⟩]
        rw [hm1, hm2]
        simp only [Option.getD_none]
        rw [ih (n - rc) (by omega) (ps.drop rc) hdl _ _ _ (by simp; omega) _ _ _ _ (fun _ => ⟨rfl, rfl⟩),
          hpos]
        simp [combos]
      | truncate =>
        have hm1 : multiExp .truncate (ps.take (rc - 1)) ((List.range r.length).map (rnd t))
            = some (∑ j ∈ range (rc - 1), rnd t j • ps.getD j 0) := by
          unfold multiExp
          rw [if_neg (by simp), zipWith_sum _ _ _ (by omega), hl1]
          congr 1
          apply sum_congr rfl
          intro j hj
          have hj := mem_range.mp hj
          simp only [List.getD_eq_getElem?_getD, List.getElem?_take]
          simp [hj]
        have hm2 : multiExp .truncate ((ps.take rc).drop 1) ((List.range r.length).map (rnd t))
            = some (∑ j ∈ range (rc - 1), rnd t j • ps.getD (j + 1) 0) := by
          unfold multiExp
          rw [if_neg (by simp), zipWith_sum _ _ _ (by omega), hl2]
          congr 1
          apply sum_congr rfl
          intro j hj
          have hj := mem_range.mp hj
          have : 1 + j < rc := by omega
          simp only [List.getD_eq_getElem?_getD, List.getElem?_drop, List.getElem?_take, if_pos this]
          rw [Nat.add_comm]
        rw [hm1, hm2]
        simp only [Option.getD_some]
        rw [ih (n - rc) (by omega) (ps.drop rc) hdl _ _ _ (by simp; omega) _ _ _ _ (by simp), hpos]
        by_cases hlast : n ≤ b
        · have : rc = n := by omega
          subst this
          have hd : ps.drop rc = [] := by rw [← hn]; simp
          simp only [combos, hd]
          rw [neighbourSum_last b _ 0 ps (by omega), neighbourSum_last b _ 1 ps (by omega), hn]
          simp [neighbourSum]
        · have : rc = b := by omega
          subst this
          simp only [combos]
          rw [neighbourSum_shift rc hb rnd t 0 ps (by omega), neighbourSum_shift rc hb rnd t 1 ps (by omega)]
          simp only [add_assoc, add_zero]

theorem linearCombination_spec {c : Codec G} (hc : c.Lawful) (par : Par) (pol : MsmPolicy) (b : Nat)
    (hb : 0 < b) (rnd : Nat → Nat → F) (N : Int) (ps : List G) (hN : N = ps.length) (cap pos : Nat)
    (ys : Bytes) :
    (linearCombination c par pol b rnd N).run ⟨cap, pos, ps.flatMap c.bytes ++ ys⟩
      = (.ok (combos pol b rnd ps), ⟨cap, pos + c.size * ps.length, ys⟩) := by
  subst hN
  unfold linearCombination
  rw [makeLen_min, Go.bind_ok (Go.lift_run _ _)]
  have := linCombLoop_spec hc par pol b hb rnd cap ys ps.length ps rfl 0
    (List.replicate (min ps.length b) 0) (List.replicate (min ps.length b) 0) (by simp) 0 0 0 0 (by simp) pos
  rw [Codec.encodeN] at this
  simpa using this

end comb

include hC

theorem ratio1_iff (L1 L2 : G1) (T : G2) :
    C.sameRatio L1 L2 T C.g2 = true ↔ ∀ t : F, T = t • C.g2 → L2 = t • L1 := by
  rw [sameRatio_iff hC]
  obtain ⟨a, rfl⟩ := hC.span1 L1
  obtain ⟨c, rfl⟩ := hC.span1 L2
  obtain ⟨t, rfl⟩ := hC.span2 T
  have := e_eq_smul hC a t c 1
  rw [one_smul] at this
  rw [this]
  simp only [smul_g2_inj hC, smul_smul, smul_g1_inj hC]
  constructor
  · rintro h t' rfl; rw [mul_comm t a, h, mul_one]
  · intro h; rw [h t rfl]; ring

theorem ratio2_iff (L1 L2 : G2) (T : G1) :
    C.sameRatio C.g1 T L1 L2 = true ↔ ∀ t : F, T = t • C.g1 → t • L2 = L1 := by
  rw [sameRatio_iff hC]
  obtain ⟨a, rfl⟩ := hC.span2 L1
  obtain ⟨c, rfl⟩ := hC.span2 L2
  obtain ⟨t, rfl⟩ := hC.span1 T
  have := e_eq_smul hC 1 a t c
  rw [one_smul] at this
  rw [this]
  simp only [smul_g1_inj hC, smul_smul, smul_g2_inj hC]
  constructor
  · rintro h t' rfl; rw [← h, one_mul]
  · intro h; rw [h t rfl, one_mul]

theorem readSections_spec (par : Par) (pol : MsmPolicy) (b : Nat) (hb : 0 < b) (vr : VerifyRand F)
    (f : P1File G1 G2) (hf : f.WF) (cap : Nat) (ys : Bytes) :
    (readSections C par pol b vr (goPow2 f.power)).run ⟨cap, 0, f.tauG1.flatMap C.c1.bytes
      ++ (f.alphaG1.flatMap C.c1.bytes ++ (f.betaG1.flatMap C.c1.bytes
      ++ (f.tauG2.flatMap C.c2.bytes ++ (C.c2.bytes f.betaG2 ++ ys))))⟩
    = (.ok (combos pol b vr.tau1 f.tauG1, combos pol b vr.alpha1 f.alphaG1, combos pol b vr.beta1 f.betaG1,
        combos pol b vr.tau2 f.tauG2, f.betaG2),
      ⟨cap, 32 * f.tauG1.length + 32 * f.alphaG1.length + 32 * f.betaG1.length + 64 * f.tauG2.length + 64,
        ys⟩) := by
  unfold readSections
  rw [Go.bind_ok (linearCombination_spec hC.codec1 par pol b hb vr.tau1 _ f.tauG1
    (by rw [wrap_tau hf.power, hf.tauG1]) _ _ _)]
  rw [Go.bind_ok (linearCombination_spec hC.codec1 par pol b hb vr.alpha1 _ f.alphaG1
    (by rw [goPow2_eq hf.power, hf.alphaG1]) _ _ _)]
  rw [Go.bind_ok (linearCombination_spec hC.codec1 par pol b hb vr.beta1 _ f.betaG1
    (by rw [goPow2_eq hf.power, hf.betaG1]) _ _ _)]
  rw [Go.bind_ok (linearCombination_spec hC.codec2 par pol b hb vr.tau2 _ f.tauG2
    (by rw [goPow2_eq hf.power, hf.tauG2]) _ _ _)]
  rw [Go.bind_ok (Codec.decode_bytes hC.codec2 _ _ _ _), hC.size1, hC.size2]
  simp

/-- `Verify` on a well-formed file followed by arbitrary bytes. -/
theorem verify_bytes (par : Par) (pol : MsmPolicy) (b : Nat) (hb : 0 < b) (vr : VerifyRand F)
    (f : P1File G1 G2) (hf : f.WF) (junk : Bytes) (tr : Option Bytes) :
    verify C par pol b vr (f.encode C ++ junk) tr = .ok () ↔
      ∃ prev, defaultContribution C tr = .ok prev ∧ ChainOk C prev f.records ∧
        SectionsOk C pol b vr f (f.records.getLast?.getD Contribution.zero) := by
  have hcnt := hf.count
  have henc : f.encode C ++ junk = Header.writeTo ⟨f.power, UInt16.ofNat f.records.length⟩
      ++ (f.tauG1.flatMap C.c1.bytes ++ (f.alphaG1.flatMap C.c1.bytes ++ (f.betaG1.flatMap C.c1.bytes
      ++ (f.tauG2.flatMap C.c2.bytes ++ (C.c2.bytes f.betaG2
      ++ (f.records.flatMap (recordBytes C) ++ junk)))))) := by
    rw [header_encode _ _ hcnt]
    simp [P1File.encode, P1File.params]
  unfold verify
  rw [henc, header_read]
  simp only []
  unfold Rd.buffered
  rw [readSections_spec hC par pol b hb vr f hf]
  unfold verifyRest
  simp only []
  rw [except_bind_ok]
  have hn : (UInt16.ofNat f.records.length).toNat = f.records.length := by simp; omega
  simp only [hn]
  constructor
  · rintro ⟨prev, h1, h2⟩
    rw [except_bind_ok] at h2
    obtain ⟨fin, h3, h4⟩ := h2
    rw [verifyLoop_records hC f.records hf.hash _ _ _ _ _ (.inr ⟨by decide, by omega⟩)] at h3
    obtain ⟨h3, rfl⟩ := h3
    simp only [except_seq_ok, check_ok, decide_eq_true_iff, ratio1_iff hC, ratio2_iff hC] at h4
    exact ⟨prev, h1, h3, h4.1, h4.2.1, h4.2.2.1, h4.2.2.2.1, h4.2.2.2.2⟩
  · rintro ⟨prev, h1, h2, h3⟩
    refine ⟨prev, h1, ?_⟩
    rw [except_bind_ok]
    refine ⟨_, (verifyLoop_records hC f.records hf.hash _ _ _ _ _ (.inr ⟨by decide, by omega⟩) _).mpr ⟨h2, rfl⟩, ?_⟩
    simp only [except_seq_ok, check_ok, decide_eq_true_iff, ratio1_iff hC, ratio2_iff hC]
    exact ⟨h3.tauG1, h3.alphaG1, h3.betaG1, h3.tauG2, h3.betaG2⟩

end
end ZkSetup
