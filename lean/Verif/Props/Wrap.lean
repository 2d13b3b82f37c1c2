import Verif.Props.Origin
import Verif.Props.Phase1History
import Verif.Props.Session
import Verif.Props.Panic
/-
C79: phase 1 ceremonies of any length. The counter in the header has 16 bits; after every 65536 contributions the records start afresh.
-/
set_option linter.unusedSectionVars false

namespace ZkSetup
open Phase1

section
variable {F G1 G2 GT : Type} [Field F] [AddCommGroup G1] [Module F G1] [AddCommGroup G2]
  [Module F G2] [AddCommGroup GT] [Module F GT] [DecidableEq G1] [DecidableEq G2] [DecidableEq GT]
variable {C : Curve F G1 G2 GT}

omit [AddCommGroup GT] [Module F GT] [DecidableEq GT] in
/-- a ceremony in two parts -/
theorem p1Ceremony_append (b : Nat) (l l' : List (Par × Rand F)) : ∀ (x y : Bytes), p1Ceremony C b l x = .ok y →
    p1Ceremony C b (l ++ l') x = p1Ceremony C b l' y := by
  induction l with
  | nil => intro x y h; simp only [p1Ceremony, Except.ok.injEq] at h; rw [← h]; rfl
  | cons a l ih =>
    intro x y h
    simp only [List.cons_append, p1Ceremony] at h ⊢
    split
    · rename_i h'; rw [h'] at h; exact ih _ _ h
    · rename_i h'; rw [h'] at h; simp at h

variable (hC : C.Lawful)
include hC

/-- the first contribution drops what follows the last record counted -/
theorem p1Ceremony_junk (b : Nat) (hb : 2 ≤ b) (steps : List (Par × Rand F)) (hne : steps ≠ []) (f : P1File G1 G2) (hf : f.WF)
    (hr : f.Regular) (hp : 1 ≤ f.power.toNat) (hk : f.records.length + steps.length < 65536) (junk : Bytes) :
    p1Ceremony C b steps (f.encode C ++ junk) = .ok ((f.ceremony C (steps.map Prod.snd)).encode C) := by
  rw [← p1Ceremony_bytes hC b hb steps f hf hr hp hk]
  obtain ⟨⟨par, rnd⟩, rest, rfl⟩ := List.exists_cons_of_ne_nil hne
  simp only [List.length_cons] at hk
  have h1 := contribute_regular hC par b hb rnd f hf hr hp (by omega) junk
  have h2 := contribute_regular hC par b hb rnd f hf hr hp (by omega) []
  rw [List.append_nil] at h2
  simp only [p1Ceremony, h1, h2]

/-- the products of the secrets of some contributors -/
def tauOf (steps : List (Par × Rand F)) : F := (steps.map (·.2.tau)).prod
@[inherit_doc tauOf] def alphaOf (steps : List (Par × Rand F)) : F := (steps.map (·.2.alpha)).prod
@[inherit_doc tauOf] def betaOf (steps : List (Par × Rand F)) : F := (steps.map (·.2.beta)).prod

/-- 65536 contributions to a file without records: none is recorded any more -/
theorem epoch (b : Nat) (hb : 2 ≤ b) (steps : List (Par × Rand F)) (hk : steps.length = 65536) (t : P1File G1 G2) (ht : t.WF)
    (hp : 1 ≤ t.power.toNat) (hrec : t.records = []) (τ α β : F) (hpow : t.Powers C τ α β) (junk : Bytes) :
    ∃ (t' : P1File G1 G2) (junk' : Bytes), p1Ceremony C b steps (t.encode C ++ junk) = .ok (t'.encode C ++ junk') ∧ t'.WF ∧
      t'.power = t.power ∧ t'.records = [] ∧ t'.Powers C (τ * tauOf steps) (α * alphaOf steps) (β * betaOf steps) ∧
      junk'.length = 640 * 65536 := by
  obtain ⟨init, last, rfl⟩ : ∃ init last, steps = init ++ [last] := by
    rcases List.eq_nil_or_concat steps with h | ⟨i, l, h⟩
    · rw [h] at hk; simp at hk
    · exact ⟨i, l, by simpa using h⟩
  have hk' : init.length = 65535 := by simpa using hk
  have hlt : t.records.length + init.length < 65536 := by simp [hrec, hk']
  obtain ⟨hwf, hreg, hpw, hlen⟩ := ceremony_inv hC (init.map Prod.snd) t ht hpow.regular (by simpa using hlt)
  have hcer := p1Ceremony_junk hC b hb init (by rintro rfl; simp at hk') t ht hpow.regular hp hlt junk
  have hpow' := ceremony_powers (init.map Prod.snd) t τ α β hpow
  have hlen' : (t.ceremony C (init.map Prod.snd)).records.length = 65535 := by simp [hlen, hrec, hk']
  generalize t.ceremony C (init.map Prod.snd) = f at *
  obtain ⟨hash, out, hc1, hout⟩ := wrap_step hC b hb f hwf (by rw [hpw]; exact hp) hreg hlen' last.1 last.2
  refine ⟨{ f.contribute C last.2 with records := [] }, (f.contribute C last.2).records.flatMap (recordBytes C), ?_, ?_, hpw, rfl, ?_, ?_⟩
  · rw [p1Ceremony_append b init [last] _ _ hcer]
    simp only [p1Ceremony, hc1, hout]
  · refine ⟨hwf.power, ?_, ?_, ?_, ?_, by simp, by simp⟩
    · simp [P1File.contribute, P1File.update, hwf.tauG1]
    · simp [P1File.contribute, P1File.update, hwf.alphaG1]
    · simp [P1File.contribute, P1File.update, hwf.betaG1]
    · simp [P1File.contribute, P1File.update, hwf.tauG2]
  · have := ceremony_powers [last.2] f _ _ _ hpow'
    simp only [List.map_map, List.map_cons, List.map_nil, List.prod_cons, List.prod_nil, mul_one, mul_assoc] at this
    simp only [tauOf, alphaOf, betaOf, List.map_append, List.prod_append, List.map_cons, List.map_nil, List.prod_cons, List.prod_nil, mul_one]
    exact ⟨this.tauG1, this.alphaG1, this.betaG1, this.tauG2, this.betaG2⟩
  · have hh : ∀ r ∈ (f.contribute C last.2).records, r.hash.length = 32 := by
      intro r hr
      simp only [P1File.contribute, P1File.update, List.mem_append, List.mem_singleton] at hr
      rcases hr with hr | rfl
      · exact hwf.hash r hr
      · exact newRecord_hash_length hC ..
    have hl : (f.contribute C last.2).records.length = 65536 := by simp [P1File.contribute, P1File.update, hlen']
    have : ∀ rs : List (Contribution G1 G2), (∀ r ∈ rs, r.hash.length = 32) → (rs.flatMap (recordBytes C)).length = 640 * rs.length := by
      intro rs
      induction rs with
      | nil => intro _; rfl
      | cons r rs ih =>
        intro h
        rw [List.flatMap_cons, List.length_append, ih (fun r hr => h r (by simp [hr])), recordBytes_length hC r (h r (by simp)), List.length_cons]
        omega
    rw [this _ hh, hl]

/-- **C79**: any number `k` of contributions to a file without records. All of them succeed. The file then holds the powers for the secrets
of all of them; its records are those of the last `k mod 65536` of them, chained as if these had started from the file `t'` they found. If
their number is 0, the last 65536 records still follow, uncounted. -/
theorem C79_ceremony (b : Nat) (hb : 2 ≤ b) (t : P1File G1 G2) (ht : t.WF) (hp : 1 ≤ t.power.toNat) (hrec : t.records = []) (τ α β : F)
    (hpow : t.Powers C τ α β) (steps : List (Par × Rand F)) (junk : Bytes) :
    ∃ (t' : P1File G1 G2) (junk' : Bytes),
      p1Ceremony C b steps (t.encode C ++ junk)
        = .ok ((t'.ceremony C ((steps.drop (65536 * (steps.length / 65536))).map Prod.snd)).encode C ++ junk') ∧
      t'.WF ∧ t'.power = t.power ∧ t'.records = [] ∧
      t'.Powers C (τ * tauOf (steps.take (65536 * (steps.length / 65536)))) (α * alphaOf (steps.take (65536 * (steps.length / 65536))))
        (β * betaOf (steps.take (65536 * (steps.length / 65536)))) ∧
      junk'.length = if steps.length % 65536 ≠ 0 then 0 else if steps = [] then junk.length else 640 * 65536 := by
  induction hn : steps.length using Nat.strong_induction_on generalizing steps t τ α β junk with
  | _ n ih =>
    subst hn
    by_cases hlt : steps.length < 65536
    · rw [Nat.div_eq_of_lt hlt, Nat.mod_eq_of_lt hlt]
      simp only [Nat.mul_zero, List.drop_zero, List.take_zero]
      by_cases hne : steps = []
      · subst hne
        refine ⟨t, junk, rfl, ht, rfl, hrec, ?_, rfl⟩
        simpa [tauOf, alphaOf, betaOf] using hpow
      · refine ⟨t, [], ?_, ht, rfl, hrec, ?_, ?_⟩
        · rw [List.append_nil]
          exact p1Ceremony_junk hC b hb steps hne t ht hpow.regular hp (by rw [hrec]; simpa using hlt) junk
        · simpa [tauOf, alphaOf, betaOf] using hpow
        · rw [if_pos (by simpa using hne), List.length_nil]
    · obtain ⟨t1, j1, h1, hw1, hp1, hr1, hpow1, hj1⟩ := epoch hC b hb (steps.take 65536) (by rw [List.length_take]; omega) t ht hp hrec τ α β
        hpow junk
      have hl : (steps.drop 65536).length = steps.length - 65536 := List.length_drop
      obtain ⟨t2, j2, h2, hw2, hp2, hr2, hpow2, hj2⟩ := ih (steps.drop 65536).length (by omega) t1 hw1 (by rw [hp1]; exact hp) hr1 _ _ _ hpow1
        (steps.drop 65536) j1 rfl
      have hq : steps.length / 65536 = (steps.drop 65536).length / 65536 + 1 := by omega
      have hm : steps.length % 65536 = (steps.drop 65536).length % 65536 := by omega
      have htake : steps.take (65536 * (steps.length / 65536))
          = steps.take 65536 ++ (steps.drop 65536).take (65536 * ((steps.drop 65536).length / 65536)) := by
        rw [hq, Nat.mul_add, Nat.mul_one, Nat.add_comm, List.take_add]
      have hdrop : steps.drop (65536 * (steps.length / 65536)) = (steps.drop 65536).drop (65536 * ((steps.drop 65536).length / 65536)) := by
        rw [hq, Nat.mul_add, Nat.mul_one, Nat.add_comm, List.drop_drop]
      refine ⟨t2, j2, ?_, hw2, by rw [hp2, hp1], hr2, ?_, ?_⟩
      · conv_lhs => rw [← List.take_append_drop 65536 steps, p1Ceremony_append b _ _ _ _ h1]
        rw [h2, hdrop]
      · rw [htake]
        simpa only [tauOf, alphaOf, betaOf, List.map_append, List.prod_append, mul_assoc] using hpow2
      · rw [hj2, hm]
        by_cases h0 : (steps.drop 65536).length % 65536 ≠ 0
        · rw [if_pos h0, if_pos h0]
        · rw [if_neg h0, if_neg h0, hj1]
          rw [if_neg (show ¬ steps = [] by rintro rfl; simp at hlt)]
          split <;> rfl

omit hC in
/-- everything drawn by a contributor differs from 0 -/
def NonzeroDraws (r : Rand F) : Prop := r.tau ≠ 0 ∧ r.alpha ≠ 0 ∧ r.beta ≠ 0 ∧ r.sTau ≠ 0 ∧ r.sAlpha ≠ 0 ∧ r.sBeta ≠ 0

omit hC [DecidableEq G1] [DecidableEq G2] [DecidableEq GT] in
theorem prod_ne_zero_of {l : List (Par × Rand F)} {x : Rand F → F} (h : ∀ s ∈ l, x s.2 ≠ 0) : (l.map fun s => x s.2).prod ≠ 0 := by
  induction l with
  | nil => simp
  | cons a l ih =>
    rw [List.map_cons, List.prod_cons]
    exact mul_ne_zero (h a (by simp)) (ih fun s hs => h s (by simp [hs]))

/-- **C79**: which of these files are accepted. Exactly those where some records are counted and the secrets contributed before them cancel
out: with fewer than 65536 contributions all but the empty ceremony, with more practically none. -/
theorem C79_accepted (b : Nat) (hb : 2 ≤ b) (t : P1File G1 G2) (ht : t.WF) (hp : 1 ≤ t.power.toNat) (hrec : t.records = []) (τ α β : F)
    (hpow : t.Powers C τ α β) (hτ : τ ≠ 0) (hα : α ≠ 0) (hβ : β ≠ 0) (steps : List (Par × Rand F)) (hd : ∀ s ∈ steps, NonzeroDraws s.2)
    (junk : Bytes) (tr : Option Bytes) (htr : defaultContribution C tr = .ok (originOf t)) :
    ∃ out, p1Ceremony C b steps (t.encode C ++ junk) = .ok out ∧ ∀ (par : Par) (b' : Nat) (_ : 0 < b') (vr : VerifyRand F),
      (verify C par .strict b' vr out tr = .ok () ↔
        steps.length % 65536 ≠ 0 ∧ ((steps.take (65536 * (steps.length / 65536))).map (·.2.tau)).prod = 1 ∧
          ((steps.take (65536 * (steps.length / 65536))).map (·.2.alpha)).prod = 1 ∧
          ((steps.take (65536 * (steps.length / 65536))).map (·.2.beta)).prod = 1) := by
  obtain ⟨t', j, h, hw, hpw, hr, hpow', -⟩ := C79_ceremony hC b hb t ht hp hrec τ α β hpow steps junk
  refine ⟨_, h, fun par b' hb' vr => ?_⟩
  have hdrop : (steps.drop (65536 * (steps.length / 65536))).length = steps.length % 65536 := by rw [List.length_drop]; omega
  have htake : ∀ s ∈ steps.take (65536 * (steps.length / 65536)), NonzeroDraws s.2 := fun s hs => hd s (List.mem_of_mem_take hs)
  have hlast : ∀ s ∈ steps.drop (65536 * (steps.length / 65536)), NonzeroDraws s.2 := fun s hs => hd s (List.mem_of_mem_drop hs)
  change _ ↔ _ ∧ tauOf _ = 1 ∧ alphaOf _ = 1 ∧ betaOf _ = 1
  have n3 : betaOf (steps.take (65536 * (steps.length / 65536))) ≠ 0 := prod_ne_zero_of fun s hs => (htake s hs).2.2.1
  generalize steps.take (65536 * (steps.length / 65536)) = first at *
  generalize steps.drop (65536 * (steps.length / 65536)) = rest at *
  rw [← hdrop]
  obtain ⟨hwf, -, -, hlen⟩ := ceremony_inv hC (rest.map Prod.snd) t' hw hpow'.regular (by rw [hr]; simp; omega)
  have hN : 2 ≤ 2 ^ t.power.toNat := by
    calc 2 = 2 ^ 1 := rfl
      _ ≤ _ := Nat.pow_le_pow_right (by omega) hp
  -- the points of a file of powers that are looked at
  have o1 : ∀ (x : P1File G1 G2) (a b c : F), x.Powers C a b c → x.power = t.power →
      originOf x = {
        g1Tau := a • C.g1, g1Alpha := b • C.g1, g1Beta := c • C.g1, g2Tau := a • C.g2, g2Beta := c • C.g2
        pkTau := ⟨0, 0, 0⟩, pkAlpha := ⟨0, 0, 0⟩, pkBeta := ⟨0, 0, 0⟩, hash := [] } := by
    intro x a b c hx hxp
    simp only [originOf, hx.tauG1, hx.alphaG1, hx.betaG1, hx.tauG2, hx.betaG2, hxp]
    have e1 : 1 < 2 * 2 ^ t.power.toNat - 1 := by omega
    have e2 : 1 < 2 ^ t.power.toNat := by omega
    have e3 : 0 < 2 ^ t.power.toNat := by omega
    simp [List.getD, e1, e2, e3]
  cases rest with
  | nil =>
    constructor
    · intro hv
      exfalso
      rw [verify_bytes hC par .strict b' hb' vr _ hwf j tr] at hv
      obtain ⟨-, -, -, hs⟩ := hv
      have hb2 := hs.betaG2
      have e : (t'.ceremony C (([] : List (Par × Rand F)).map Prod.snd)) = t' := rfl
      rw [e, hr] at hb2
      simp only [List.getLast?_nil, Option.getD_none] at hb2
      rw [hpow'.betaG2] at hb2
      exact (mul_ne_zero hβ n3) ((smul_g2_eq_zero hC).mp hb2)
    · rintro ⟨h0, -⟩
      exact absurd rfl h0
  | cons s rest =>
    have hp' : 1 ≤ t'.power.toNat := by rw [hpw]; exact hp
    have hne : (t'.ceremony C ((s :: rest).map Prod.snd)).records ≠ [] := by
      intro h0
      rw [h0, hr] at hlen
      simp at hlen
    constructor
    · intro hv
      refine ⟨by simp, ?_⟩
      have hv' := honest_accepted hC _ hwf (originOf t') ((tracks_origin t' hr).ceremony _) hne par b' hb' vr
        (some (t'.encode C ++ [])) (defaultContribution_some hC t' hw hp' []) j
      obtain ⟨more, hm⟩ := ceremony_records hC (rest.map Prod.snd) (t'.contribute C s.2)
      have hhead : (t'.ceremony C ((s :: rest).map Prod.snd)).records.head? = some (newRecord C s.2 (lastHash t'.records)
          ((scaled 1 s.2.tau t'.tauG1).getD 1 0) ((scaled s.2.alpha s.2.tau t'.alphaG1).getD 0 0)
          ((scaled s.2.beta s.2.tau t'.betaG1).getD 0 0) ((scaled 1 s.2.tau t'.tauG2).getD 1 0) (s.2.beta • t'.betaG2)) := by
        rw [show t'.ceremony C ((s :: rest).map Prod.snd) = (t'.contribute C s.2).ceremony C (rest.map Prod.snd) from rfl, hm]
        simp [P1File.contribute, P1File.update, hr]
      obtain ⟨p, p', hp1, hp2, k1, k2, k3⟩ := C66_phase1_partial hC par par .strict .strict b' b' hb' hb' vr vr _ hwf _ hhead j tr _ hv hv'
      rw [htr, Except.ok.injEq] at hp1
      rw [defaultContribution_some hC t' hw hp' [], Except.ok.injEq] at hp2
      subst hp1 hp2
      obtain ⟨d1, d2, d3, d4, d5, d6⟩ := hlast s (by simp)
      rw [o1 t _ _ _ hpow rfl, o1 t' _ _ _ hpow' hpw] at k1 k2 k3
      have x1 := (k1 (by simpa [newRecord, proofOf, smul_g1_eq_zero hC] using ⟨d1, d4⟩)).1
      have x2 := k2 (by simpa [newRecord, proofOf, smul_g1_eq_zero hC] using ⟨d2, d5⟩)
      have x3 := (k3 (by simpa [newRecord, proofOf, smul_g1_eq_zero hC] using ⟨d3, d6⟩)).1
      simp only [smul_g1_inj hC] at x1 x2 x3
      exact ⟨(mul_eq_left₀ hτ).mp x1.symm, (mul_eq_left₀ hα).mp x2.symm, (mul_eq_left₀ hβ).mp x3.symm⟩
    · rintro ⟨-, e1, e2, e3⟩
      rw [e1, e2, e3, mul_one, mul_one, mul_one] at hpow'
      refine honest_accepted hC _ hwf (originOf t') ((tracks_origin t' hr).ceremony _) hne par b' hb' vr tr ?_ j
      rw [htr, o1 t _ _ _ hpow rfl, o1 t' _ _ _ hpow' hpw]

omit hC [DecidableEq GT] in
theorem originOf_init (p : UInt8) (hp : 1 ≤ p.toNat) : originOf (P1File.init C p) = genesis C := by
  have hN : 2 ≤ 2 ^ p.toNat := by
    calc 2 = 2 ^ 1 := rfl
      _ ≤ _ := Nat.pow_le_pow_right (by omega) hp
  have e1 : 1 < 2 * 2 ^ p.toNat - 1 := by omega
  have e2 : 1 < 2 ^ p.toNat := by omega
  simp [originOf, P1File.init, genesis, List.getD, e1, e2]

/-- **C79** for ceremonies that start with `p1n` -/
theorem C79_initial (b : Nat) (hb : 2 ≤ b) (p : UInt8) (hp1 : 1 ≤ p.toNat) (hp : p.toNat ≤ 62) (steps : List (Par × Rand F))
    (hd : ∀ s ∈ steps, NonzeroDraws s.2) :
    ∃ (f : P1File G1 G2) (junk : Bytes), p1Ceremony C b steps (initializeFile C p) = .ok (f.encode C ++ junk) ∧ f.WF ∧ f.power = p ∧
      f.records.length = steps.length % 65536 ∧
      junk.length = (if steps.length % 65536 ≠ 0 ∨ steps = [] then 0 else 640 * 65536) ∧
      f.Powers C (steps.map (·.2.tau)).prod (steps.map (·.2.alpha)).prod (steps.map (·.2.beta)).prod ∧
      ∀ (par : Par) (b' : Nat) (_ : 0 < b') (vr : VerifyRand F),
        (verify C par .strict b' vr (f.encode C ++ junk) none = .ok () ↔
          steps.length % 65536 ≠ 0 ∧ ((steps.take (65536 * (steps.length / 65536))).map (·.2.tau)).prod = 1 ∧
            ((steps.take (65536 * (steps.length / 65536))).map (·.2.alpha)).prod = 1 ∧
            ((steps.take (65536 * (steps.length / 65536))).map (·.2.beta)).prod = 1) := by
  obtain ⟨t', j, h, hw, hpw, hr, hpow', hj⟩ := C79_ceremony hC b hb (P1File.init C p) (init_wf C p hp) hp1 rfl 1 1 1 (init_powers C p) steps []
  obtain ⟨out, h', hacc⟩ := C79_accepted hC b hb (P1File.init C p) (init_wf C p hp) hp1 rfl 1 1 1 (init_powers C p) one_ne_zero one_ne_zero
    one_ne_zero steps hd [] none (by rw [originOf_init p hp1]; rfl)
  rw [List.append_nil, ← C05_initialize_encode hC p hp] at h h'
  rw [h, Except.ok.injEq] at h'
  subst h'
  have hdrop : (steps.drop (65536 * (steps.length / 65536))).length = steps.length % 65536 := by rw [List.length_drop]; omega
  obtain ⟨hwf, -, hpp, hlen⟩ := ceremony_inv hC ((steps.drop (65536 * (steps.length / 65536))).map Prod.snd) t' hw hpow'.regular
    (by rw [hr]; simp; omega)
  refine ⟨_, j, h, hwf, by rw [hpp, hpw]; rfl, by rw [hlen, hr, List.length_map, hdrop]; simp, ?_, ?_, hacc⟩
  · rw [hj]
    by_cases h1 : steps.length % 65536 = 0 <;> by_cases h2 : steps = [] <;> simp [h1, h2]
  · have := ceremony_powers ((steps.drop (65536 * (steps.length / 65536))).map Prod.snd) t' _ _ _ hpow'
    simp only [one_mul, tauOf, alphaOf, betaOf, List.map_map, Function.comp_def, ← List.prod_append, ← List.map_append,
      List.take_append_drop] at this
    exact this

open Cli in
/-- **C52**, phase 1, any number of contributions (nothing drawn is 0): `p1n` with a power from 1 to 26 and every `p1c` succeed and the last
file holds the powers for all secrets; `p1v` accepts it exactly if the number of contributions is no multiple of 65536 and the secrets of the
contributions before the last multiple cancel out. -/
theorem C52_phase1_exact (E : Env F G1) (hpol : E.pol = .strict) (hb : 2 ≤ E.batch) (s : String) (n : Nat) (hs : Denotes s n) (hn1 : 1 ≤ n)
    (hn : n ≤ 26) (first : String) (d dv : Draws F) (steps : List (Draws F × String)) (hd : ∀ s ∈ steps, NonzeroDraws s.1.contribute1)
    (hno : NoOverwrite first (steps.map Prod.snd)) (fs : FS) :
    ∃ (fs' : FS) (f : P1File G1 G2) (junk : Bytes), session C E (⟨d, "p1n", [s, first]⟩ :: relay "p1c" first steps) fs = .ok fs' ∧
      fs' (lastFile first steps) = some (f.encode C ++ junk) ∧ f.WF ∧ f.power.toNat = n ∧ f.records.length = steps.length % 65536 ∧
      f.Powers C (steps.map fun s => s.1.contribute1.tau).prod (steps.map fun s => s.1.contribute1.alpha).prod
        (steps.map fun s => s.1.contribute1.beta).prod ∧
      (session C E (⟨d, "p1n", [s, first]⟩ :: relay "p1c" first steps ++ [⟨dv, "p1v", [lastFile first steps]⟩]) fs = .ok fs' ↔
        steps.length % 65536 ≠ 0 ∧
          ((steps.take (65536 * (steps.length / 65536))).map fun s => s.1.contribute1.tau).prod = 1 ∧
          ((steps.take (65536 * (steps.length / 65536))).map fun s => s.1.contribute1.alpha).prod = 1 ∧
          ((steps.take (65536 * (steps.length / 65536))).map fun s => s.1.contribute1.beta).prod = 1) := by
  have hp : (UInt8.ofNat n).toNat = n := by simp; omega
  have hbyte : toByte (n : Int) = UInt8.ofNat n := by
    unfold toByte
    rw [show ((n : Int) % 256).toNat = n by omega]
  have e1 : exec C E d "p1n" [s, first] fs = (.ok (), fs.set first (Phase1.initializeFile C (UInt8.ofNat n))) := by
    rw [← hbyte]; exact p1n_run s first n hs (by omega) (by omega) fs
  obtain ⟨f, junk, hc, hwf, hpow, hlen, -, hpw, hacc⟩ := C79_initial hC E.batch hb (UInt8.ofNat n) (by omega) (by omega)
    (steps.map fun s => (s.1.par, s.1.contribute1)) (by
      intro x hx
      obtain ⟨y, hy, rfl⟩ := List.mem_map.mp hx
      exact hd y hy)
  simp only [List.length_map, List.map_map, ← List.map_take, Function.comp_def] at hlen hpw hacc
  obtain ⟨fs', h1, h2, h3⟩ := relay_p1c E steps first (fs.set first (Phase1.initializeFile C (UInt8.ofNat n))) _ _ (set_self _ _ _)
    hno hc
  have h1' : session C E (⟨d, "p1n", [s, first]⟩ :: relay "p1c" first steps) fs = .ok fs' := by rw [session_cons E e1, h1]
  refine ⟨fs', f, junk, h1', h2, hwf, by rw [hpow, hp], hlen, hpw, ?_⟩
  rw [session_append E _ _ _ _ h1', ← hacc dv.par E.batch (by omega) dv.verify1]
  have hex : exec C E dv "p1v" [lastFile first steps] fs'
      = (Phase1.verify C dv.par E.pol E.batch dv.verify1 (f.encode C ++ junk) none, fs') := by
    simp [exec, p1v, p1Verify, openFile, openTransformed, arg, h2]
    rfl
  simp only [session, hex, hpol]
  cases Phase1.verify C dv.par .strict E.batch dv.verify1 (f.encode C ++ junk) none <;> simp

open Cli in
/-- **C52, negation** for power 0 (also for −193 to −1 and other negative numbers, which `p1n` accepts as well): `p1n` succeeds, and the first `p1c` crashes,
whatever is to come afterwards. -/
theorem C52_power_zero (E : Env F G1) (hb : 2 ≤ E.batch) (s : String) (i : Int) (hs : Denotes s i) (h1 : -(2 ^ 63) ≤ i) (h2 : i ≤ 26)
    (hbad : i % 256 = 0 ∨ 63 ≤ i % 256) (first : String) (d : Draws F) (steps : List (Draws F × String)) (hne : steps ≠ [])
    (hno : NoOverwrite first (steps.map Prod.snd)) (more : List (Command F)) (fs : FS) :
    Panics (session C E (⟨d, "p1n", [s, first]⟩ :: relay "p1c" first steps ++ more) fs) := by
  obtain ⟨⟨d1, out⟩, rest, rfl⟩ := List.exists_cons_of_ne_nil hne
  obtain ⟨fs', e1, m, hm⟩ := C57_p1n_then_p1c hC E hb d d1 s first out i hs h1 h2 hbad hno.1 fs
  refine ⟨m, ?_⟩
  rw [List.cons_append, session_cons E e1]
  simp only [relay, List.cons_append, session]
  generalize exec C E d1 "p1c" [first, out] fs' = x at hm
  obtain ⟨x1, x2⟩ := x
  simp only at hm
  subst hm
  rfl

end

/-! ### concrete instances -/

namespace Toy

/-- 65535 contributors with the same draws and one with others -/
def crowd : List (Par × Rand K) := List.replicate 65535 (par, rnd) ++ [(par, rnd')]

theorem draws_nonzero : NonzeroDraws rnd ∧ NonzeroDraws rnd' := by
  constructor <;> exact ⟨by decide, by decide, by decide, by decide, by decide, by decide⟩

theorem crowd_nonzero : ∀ s ∈ crowd, NonzeroDraws s.2 := by
  intro s hs
  simp only [crowd, List.mem_append, List.mem_replicate, List.mem_singleton] at hs
  rcases hs with ⟨-, rfl⟩ | rfl
  · exact draws_nonzero.1
  · exact draws_nonzero.2

theorem crowd_length : crowd.length = 65536 := by
  rw [crowd, List.length_append, List.length_replicate]; rfl

end Toy

/-- 65536 contributions succeed and are rejected -/
example : ∃ out, p1Ceremony Toy.curve batchSize Toy.crowd (initializeFile Toy.curve 1) = .ok out ∧
    verify Toy.curve Toy.par .strict batchSize Toy.vr out none ≠ .ok () := by
  obtain ⟨f, junk, h, -, -, -, -, -, hacc⟩ := C79_initial Toy.lawful batchSize (by decide) 1 (by decide) (by decide) Toy.crowd Toy.crowd_nonzero
  refine ⟨_, h, fun hv => ?_⟩
  have := ((hacc Toy.par batchSize (by decide) Toy.vr).mp hv).1
  rw [Toy.crowd_length] at this
  exact this rfl

/-- so are 65537 of them: 3^65535 · 11 is not 1 modulo 17 -/
example : ∃ (f : P1File Toy.K Toy.K) (junk : Bytes), p1Ceremony Toy.curve batchSize (Toy.crowd ++ [(Toy.par, Toy.rnd)]) (initializeFile Toy.curve 1) = .ok (f.encode Toy.curve ++ junk) ∧
    f.records.length = 1 ∧ verify Toy.curve Toy.par .strict batchSize Toy.vr (f.encode Toy.curve ++ junk) none ≠ .ok () := by
  have hl : (Toy.crowd ++ [(Toy.par, Toy.rnd)]).length = 65537 := by rw [List.length_append, Toy.crowd_length]; rfl
  obtain ⟨f, junk, h, -, -, hr, -, -, hacc⟩ := C79_initial Toy.lawful batchSize (by decide) 1 (by decide) (by decide)
    (Toy.crowd ++ [(Toy.par, Toy.rnd)]) (by
      intro s hs
      rcases List.mem_append.mp hs with hs | hs
      · exact Toy.crowd_nonzero s hs
      · rw [List.mem_singleton.mp hs]; exact Toy.draws_nonzero.1)
  refine ⟨f, junk, h, by rw [hr, hl], fun hv => ?_⟩
  have := ((hacc Toy.par batchSize (by decide) Toy.vr).mp hv).2.1
  rw [hl, show 65536 * (65537 / 65536) = Toy.crowd.length by rw [Toy.crowd_length], List.take_left] at this
  simp only [Toy.crowd, List.map_append, List.map_replicate, List.prod_append, List.prod_replicate, List.map_cons, List.map_nil, List.prod_cons,
    List.prod_nil, mul_one] at this
  revert this
  have h3 : (Toy.rnd.tau) ^ 65535 = (Toy.rnd.tau ^ 16) ^ 4095 * Toy.rnd.tau ^ 15 := by rw [← pow_mul, ← pow_add]
  rw [show ((Toy.par, Toy.rnd).2.tau) = Toy.rnd.tau from rfl, h3, show Toy.rnd.tau ^ 16 = 1 by decide, one_pow]
  decide

/-- but 65537 equal contributions are accepted in the toy group, whose orders divide 65536 -/
example : ∃ out, p1Ceremony Toy.curve batchSize (List.replicate 65537 (Toy.par, Toy.rnd)) (initializeFile Toy.curve 1) = .ok out ∧
    verify Toy.curve Toy.par .strict batchSize Toy.vr out none = .ok () := by
  obtain ⟨f, junk, h, -, -, -, -, -, hacc⟩ := C79_initial Toy.lawful batchSize (by decide) 1 (by decide) (by decide)
    (List.replicate 65537 (Toy.par, Toy.rnd)) (by
      intro s hs
      rw [(List.mem_replicate.mp hs).2]; exact Toy.draws_nonzero.1)
  refine ⟨_, h, (hacc Toy.par batchSize (by decide) Toy.vr).mpr ?_⟩
  simp only [List.length_replicate, List.take_replicate, List.map_replicate, List.prod_replicate]
  have h16 : ∀ x : Toy.K, x ^ 16 = 1 → x ^ 65536 = 1 := fun x hx => by
    rw [show 65536 = 16 * 4096 from rfl, pow_mul, hx, one_pow]
  exact ⟨by decide, h16 _ (by decide), h16 _ (by decide), h16 _ (by decide)⟩

example := C52_phase1_exact Toy.lawful Toy.cliEnv rfl (by decide) "3" 3 (Toy.denotes rfl) (by decide) (by decide) "0.ph1"
  Toy.draws Toy.draws [(Toy.draws, "1.ph1"), (Toy.draws', "2.ph1")] (by
    intro s hs
    simp only [List.mem_cons, List.not_mem_nil, or_false] at hs
    rcases hs with rfl | rfl
    all_goals exact ⟨by decide, by decide, by decide, by decide, by decide, by decide⟩) (by simp [NoOverwrite]) Toy.circuitOnly

example := C52_power_zero Toy.lawful Toy.cliEnv (by decide) "0" 0 (Toy.denotes rfl) (by decide) (by decide) (.inl rfl) "0.ph1"
  Toy.draws [(Toy.draws, "1.ph1")] (by simp) (by simp [NoOverwrite]) [] Toy.circuitOnly

end ZkSetup
