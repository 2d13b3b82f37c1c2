import Verif.Props.Phase2Sound
import Verif.Props.Continue
/-
C66: the file a ceremony started from.
-/
set_option linter.unusedSectionVars false

namespace ZkSetup

open Phase1

section
variable {F G1 G2 GT : Type} [Field F] [AddCommGroup G1] [Module F G1] [AddCommGroup G2]
  [Module F G2] [AddCommGroup GT] [Module F GT] [DecidableEq G1] [DecidableEq G2] [DecidableEq GT]
variable {C : Curve F G1 G2 GT} (hC : C.Lawful)
include hC

/-- the scalar of a key that is not degenerate -/
theorem scalar_unique {k : PublicKey G1 G2} {x y : F} (hx : k.sx = x • k.s) (hy : k.sx = y • k.s) (hne : k.sx ≠ 0) : x = y ∧ x ≠ 0 := by
  have hx0 : x ≠ 0 := by
    rintro rfl
    exact hne (by rw [hx, zero_smul])
  refine ⟨?_, hx0⟩
  have h1 := hx.symm.trans hy
  obtain ⟨s, hs⟩ := hC.span1 k.s
  rw [hs, smul_smul, smul_smul, smul_g1_inj hC] at h1
  have hs0 : s ≠ 0 := by
    rintro rfl
    exact hne (by rw [hx, hs, zero_smul, smul_zero])
  exact mul_right_cancel₀ hs0 h1

/-! ### Phase 2 -/

/-- **C66**, phase 2 (partial): if the same file is accepted against two origins and the proof in its first record is not degenerate, then
the origins agree in shape and in `[δ]1`. -/
theorem C66_phase2_partial {H : Phase2.HeaderCodec} (hH : H.Lawful) (par par' : Par) (b : Nat) (hb : 0 < b) (vr vr' : Phase2.VerifyRand F)
    (f o o' : P2File G1 G2) (hf : f.WF) (ho : o.WF) (ho' : o'.WF) (hs : f.NoStraddle H) (r : Phase2.Contribution G1 G2)
    (hr : f.records.head? = some r) (hnd : r.pk.sx ≠ 0) (junk junk1 junk2 : Bytes)
    (h : Phase2.verify C H par b vr (f.encode C H ++ junk) (o.encode C H ++ junk1) = .ok ())
    (h' : Phase2.verify C H par' b vr' (f.encode C H ++ junk) (o'.encode C H ++ junk2) = .ok ()) :
    o.SameShape o' ∧ o.delta1 = o'.delta1 := by
  rw [verify2_iff hC hH par b hb vr f o hf ho hs] at h
  rw [verify2_iff hC hH par' b hb vr' f o' hf ho' hs] at h'
  obtain ⟨-, hsh, -, -, -, ⟨xs, hx⟩, -⟩ := h
  obtain ⟨-, hsh', -, -, -, ⟨ys, hy⟩, -⟩ := h'
  obtain ⟨a1, a2, a3, a4, a5, a6⟩ := hsh
  obtain ⟨b1, b2, b3, b4, b5, b6⟩ := hsh'
  refine ⟨⟨a1.symm.trans b1, a2.symm.trans b2, a3.symm.trans b3, a4.symm.trans b4, a5.symm.trans b5, a6.symm.trans b6⟩, ?_⟩
  cases hrec : f.records with
  | nil => rw [hrec] at hr; cases hr
  | cons r0 rs =>
    rw [hrec] at hr hx hy
    simp only [List.head?_cons, Option.some.injEq] at hr
    subst hr
    cases xs with
    | nil => exact hx.elim
    | cons x xs =>
      cases ys with
      | nil => exact hy.elim
      | cons y ys =>
        obtain ⟨rfl, hx0⟩ := scalar_unique hC hx.1.sx hy.1.sx hnd
        exact smul_cancel hC hx0 (hx.1.delta.symm.trans hy.1.delta)

/-- **C66**, phase 2: a file that is accepted against its origin is rejected against every file with another `[δ]1`; in particular against
an intermediate file of the ceremony, unless the secrets up to it multiply to 1. -/
theorem C66_intermediate_partial {H : Phase2.HeaderCodec} (hH : H.Lawful) (par par' : Par) (b : Nat) (hb : 0 < b) (vr vr' : Phase2.VerifyRand F)
    (f o : P2File G1 G2) (hf : f.WF) (ho : o.WF) (hs : f.NoStraddle H) (r : Phase2.Contribution G1 G2)
    (hr : f.records.head? = some r) (hnd : r.pk.sx ≠ 0) (rnds : List (Phase2.Rand F)) (hc : rnds.length < 2 ^ 63 - 1) (h0 : o.records = [])
    (hd : o.delta1 = C.g1) (hp : deltaProduct rnds ≠ 1) (junk junk1 junk2 : Bytes)
    (h : Phase2.verify C H par b vr (f.encode C H ++ junk) (o.encode C H ++ junk1) = .ok ()) :
    Phase2.verify C H par' b vr' (f.encode C H ++ junk) ((o.ceremony C rnds).encode C H ++ junk2) ≠ .ok () := by
  intro h'
  obtain ⟨hw, -, hu⟩ := ceremony2_facts hC hH o ho h0 rnds hc
  have := (C66_phase2_partial hC hH par par' b hb vr vr' f o _ hf ho hw hs r hr hnd junk junk1 junk2 h h').2
  rw [hu.delta1, hd] at this
  have h1 : (1 : F) • C.g1 = deltaProduct rnds • C.g1 := by rw [one_smul]; exact this
  rw [smul_g1_inj hC] at h1
  exact hp h1.symm

/-- **C66**, phase 2 (partial): two initial files that differ in a point of Z. Against one of them at most one of the values that the verifier
can draw for that point leads to acceptance. -/
theorem C66_phase2_z_partial [Fintype F] {H : Phase2.HeaderCodec} (hH : H.Lawful) (par : Par) (b : Nat) (hb : 0 < b)
    (vr : Phase2.VerifyRand F) (f o o' : P2File G1 G2) (hf : f.WF) (ho : o.WF) (ho' : o'.WF) (hs : f.NoStraddle H)
    (hd : o.delta2 = C.g2) (hd' : o'.delta2 = C.g2) (k : Nat) (hk : k < f.z.length) (hne : o.z.getD k 0 ≠ o'.z.getD k 0)
    (junk junk1 junk2 : Bytes) (acc acc' : F → Prop) [DecidablePred acc] [DecidablePred acc']
    (hacc : ∀ x, acc x ↔ Phase2.verify C H par b ⟨setDraw b vr.z k x, vr.pkk⟩ (f.encode C H ++ junk) (o.encode C H ++ junk1) = .ok ())
    (hacc' : ∀ x, acc' x ↔ Phase2.verify C H par b ⟨setDraw b vr.z k x, vr.pkk⟩ (f.encode C H ++ junk) (o'.encode C H ++ junk2) = .ok ()) :
    (Finset.univ.filter acc).card ≤ 1 ∨ (Finset.univ.filter acc').card ≤ 1 := by
  obtain ⟨Δ, hΔ⟩ := hC.span2 f.delta2
  have hg2 : C.g2 ≠ 0 := g2_ne hC
  by_cases hbad : Δ • f.z.getD k 0 = o.z.getD k 0
  · right
    rw [Finset.card_le_one]
    intro x hx y hy
    simp only [Finset.mem_filter, Finset.mem_univ, true_and, hacc'] at hx hy
    exact C33_z_partial hC hH par par b hb vr f o' hf ho' hs junk junk2 (by rw [hd']; exact hg2) Δ (by rw [hd', hΔ]) k hk
      (fun e => hne (hbad.symm.trans e)) x y hx hy
  · left
    rw [Finset.card_le_one]
    intro x hx y hy
    simp only [Finset.mem_filter, Finset.mem_univ, true_and, hacc] at hx hy
    exact C33_z_partial hC hH par par b hb vr f o hf ho hs junk junk1 (by rw [hd]; exact hg2) Δ (by rw [hd, hΔ]) k hk hbad x y hx hy

/-- **C66**, phase 2 (partial): the same for PKK. -/
theorem C66_phase2_pkk_partial [Fintype F] {H : Phase2.HeaderCodec} (hH : H.Lawful) (par : Par) (b : Nat) (hb : 0 < b)
    (vr : Phase2.VerifyRand F) (f o o' : P2File G1 G2) (hf : f.WF) (ho : o.WF) (ho' : o'.WF) (hs : f.NoStraddle H)
    (hd : o.delta2 = C.g2) (hd' : o'.delta2 = C.g2) (k : Nat) (hk : k < f.pkk.length) (hne : o.pkk.getD k 0 ≠ o'.pkk.getD k 0)
    (junk junk1 junk2 : Bytes) (acc acc' : F → Prop) [DecidablePred acc] [DecidablePred acc']
    (hacc : ∀ x, acc x ↔ Phase2.verify C H par b ⟨vr.z, setDraw b vr.pkk k x⟩ (f.encode C H ++ junk) (o.encode C H ++ junk1) = .ok ())
    (hacc' : ∀ x, acc' x ↔ Phase2.verify C H par b ⟨vr.z, setDraw b vr.pkk k x⟩ (f.encode C H ++ junk) (o'.encode C H ++ junk2) = .ok ()) :
    (Finset.univ.filter acc).card ≤ 1 ∨ (Finset.univ.filter acc').card ≤ 1 := by
  obtain ⟨Δ, hΔ⟩ := hC.span2 f.delta2
  have hg2 : C.g2 ≠ 0 := g2_ne hC
  by_cases hbad : Δ • f.pkk.getD k 0 = o.pkk.getD k 0
  · right
    rw [Finset.card_le_one]
    intro x hx y hy
    simp only [Finset.mem_filter, Finset.mem_univ, true_and, hacc'] at hx hy
    exact C33_pkk_partial hC hH par par b hb vr f o' hf ho' hs junk junk2 (by rw [hd']; exact hg2) Δ (by rw [hd', hΔ]) k hk
      (fun e => hne (hbad.symm.trans e)) x y hx hy
  · left
    rw [Finset.card_le_one]
    intro x hx y hy
    simp only [Finset.mem_filter, Finset.mem_univ, true_and, hacc] at hx hy
    exact C33_pkk_partial hC hH par par b hb vr f o hf ho hs junk junk1 (by rw [hd]; exact hg2) Δ (by rw [hd, hΔ]) k hk hbad x y hx hy

/-! ### Phase 1 -/

/-- **C66**, phase 1 (partial): if the same file is accepted by `p1vt` with two transformed files (or by `p1v` and `p1vt`), and a
proof in its first record is not degenerate, then the two have the same points of that secret. -/
theorem C66_phase1_partial (par par' : Par) (pol pol' : MsmPolicy) (b b' : Nat) (hb : 0 < b) (hb' : 0 < b') (vr vr' : VerifyRand F)
    (f : P1File G1 G2) (hf : f.WF) (r : Contribution G1 G2) (hr : f.records.head? = some r) (junk : Bytes) (tr tr' : Option Bytes)
    (h : verify C par pol b vr (f.encode C ++ junk) tr = .ok ()) (h' : verify C par' pol' b' vr' (f.encode C ++ junk) tr' = .ok ()) :
    ∃ t t' : Contribution G1 G2, defaultContribution C tr = .ok t ∧ defaultContribution C tr' = .ok t' ∧
      (r.pkTau.sx ≠ 0 → t.g1Tau = t'.g1Tau ∧ t.g2Tau = t'.g2Tau) ∧ (r.pkAlpha.sx ≠ 0 → t.g1Alpha = t'.g1Alpha) ∧
      (r.pkBeta.sx ≠ 0 → t.g1Beta = t'.g1Beta ∧ t.g2Beta = t'.g2Beta) := by
  obtain ⟨t, ht, hc, -⟩ := C13_chain_partial hC par pol b hb vr f hf junk tr h
  obtain ⟨t', ht', hc', -⟩ := C13_chain_partial hC par' pol' b' hb' vr' f hf junk tr' h'
  refine ⟨t, t', ht, ht', ?_⟩
  cases hrec : f.records with
  | nil => rw [hrec] at hr; cases hr
  | cons r0 rs =>
    rw [hrec] at hr hc hc'
    simp only [List.head?_cons, Option.some.injEq] at hr
    subst hr
    obtain ⟨⟨τ, α, β, hst⟩, -⟩ := hc
    obtain ⟨⟨τ', α', β', hst'⟩, -⟩ := hc'
    refine ⟨fun hne => ?_, fun hne => ?_, fun hne => ?_⟩
    · obtain ⟨rfl, h0⟩ := scalar_unique hC hst.knowTau.1 hst'.knowTau.1 hne
      have hs : r0.pkTau.s ≠ 0 := fun e => hne (by rw [hst.knowTau.1, e, smul_zero])
      exact ⟨smul_cancel hC h0 (hst.g1Tau.symm.trans hst'.g1Tau), smul_cancel hC h0 ((hst.g2Tau hs).symm.trans (hst'.g2Tau hs))⟩
    · obtain ⟨rfl, h0⟩ := scalar_unique hC hst.knowAlpha.1 hst'.knowAlpha.1 hne
      exact smul_cancel hC h0 (hst.g1Alpha.symm.trans hst'.g1Alpha)
    · obtain ⟨rfl, h0⟩ := scalar_unique hC hst.knowBeta.1 hst'.knowBeta.1 hne
      have hs : r0.pkBeta.s ≠ 0 := fun e => hne (by rw [hst.knowBeta.1, e, smul_zero])
      exact ⟨smul_cancel hC h0 (hst.g1Beta.symm.trans hst'.g1Beta), smul_cancel hC h0 ((hst.g2Beta hs).symm.trans (hst'.g2Beta hs))⟩

/-- **C66**, phase 1, negation: `p1vt` looks at five points of the transformed file only. Whatever its power and all its other
points are, the outcome is the same. -/
theorem C66_phase1_false (par : Par) (pol : MsmPolicy) (b : Nat) (vr : VerifyRand F) (input : Bytes) (t t' : P1File G1 G2) (ht : t.WF)
    (ht' : t'.WF) (hp : 1 ≤ t.power.toNat) (hp' : 1 ≤ t'.power.toNat) (h1 : t.tauG1.getD 1 0 = t'.tauG1.getD 1 0)
    (h2 : t.alphaG1.getD 0 0 = t'.alphaG1.getD 0 0) (h3 : t.betaG1.getD 0 0 = t'.betaG1.getD 0 0)
    (h4 : t.tauG2.getD 1 0 = t'.tauG2.getD 1 0) (h5 : t.betaG2 = t'.betaG2) (junk junk' : Bytes) :
    verify C par pol b vr input (some (t.encode C ++ junk)) = verify C par pol b vr input (some (t'.encode C ++ junk')) := by
  have e : defaultContribution C (some (t.encode C ++ junk)) = defaultContribution C (some (t'.encode C ++ junk')) := by
    rw [defaultContribution_some hC t ht hp, defaultContribution_some hC t' ht' hp']
    simp only [originOf, h1, h2, h3, h4, h5]
  unfold verify verifyRest
  rw [e]

end

/-! ### concrete cases -/

namespace Toy

/-- an initial file that differs from `p2` in one point of Z -/
def p2other : P2File K K := { p2 with z := p2.z.set 1 (p2.z.getD 1 0 + 1) }

theorem p2other_wf : p2other.WF where
  wires := p2_wf.wires
  pub := p2_wf.pub
  privateCommitted := p2_wf.privateCommitted
  constraints := p2_wf.constraints
  domain := p2_wf.domain
  witness := p2_wf.witness
  domain_pos := p2_wf.domain_pos
  z := by simpa [p2other] using p2_wf.z
  pkk := p2_wf.pkk
  count := p2_wf.count
  hash := p2_wf.hash

/-- an initial file that differs from `p2` in one point of PKK -/
def p2other' : P2File K K := { p2 with pkk := p2.pkk.set 0 (p2.pkk.getD 0 0 + 1) }

theorem p2other'_wf : p2other'.WF where
  wires := p2_wf.wires
  pub := p2_wf.pub
  privateCommitted := p2_wf.privateCommitted
  constraints := p2_wf.constraints
  domain := p2_wf.domain
  witness := p2_wf.witness
  domain_pos := p2_wf.domain_pos
  z := p2_wf.z
  pkk := by simpa [p2other'] using p2_wf.pkk
  count := p2_wf.count
  hash := p2_wf.hash

/-- the file of a ceremony on `p2` is accepted against the other file if the draw for the point is 0 -/
theorem p2other_accepted : Phase2.verify curve Gob.headerCodec par batchSize ⟨setDraw batchSize p2vr.z 1 0, p2vr.pkk⟩
    (p2final.encode curve Gob.headerCodec ++ []) (p2other.encode curve Gob.headerCodec ++ [1]) = .ok () := by
  have h := (verify2_iff lawful Gob.lawful par batchSize (by decide) p2vr p2final p2 p2final_wf p2_wf p2final_noStraddle
    [] []).mp (p2final_accepted [] [])
  rw [verify2_iff lawful Gob.lawful par batchSize (by decide) _ p2final p2other p2final_wf p2other_wf p2final_noStraddle [] [1]]
  exact ⟨h.1, h.2.1, h.2.2.1, by decide +kernel, h.2.2.2.2.1, h.2.2.2.2.2.1, h.2.2.2.2.2.2⟩

/-- a file of power 2 that starts like a new ceremony and goes on with arbitrary points -/
def garbage : P1File K K :=
  { power := 2, tauG1 := [4, 1, 0, 0, 9, 9, 9], alphaG1 := [1, 8, 8, 8], betaG1 := [1, 0, 0, 0], tauG2 := [3, 1, 0, 5], betaG2 := 1
    records := [] }

theorem garbage_wf : garbage.WF :=
  ⟨by decide, by decide, by decide, by decide, by decide, by decide, by simp [garbage]⟩

/-- the file of an ordinary ceremony is accepted by `p1vt` with the arbitrary file -/
theorem garbage_accepted : verify curve par .strict batchSize vr (honest.encode curve ++ [1, 2]) (some (garbage.encode curve ++ [7])) = .ok () :=
  ZkSetup.honest_accepted lawful honest honest_wf _ honest_tracks (by simp [honest, P1File.ceremony,
    P1File.contribute, P1File.update]) par batchSize (by decide) vr _
    ((defaultContribution_some lawful garbage garbage_wf (by decide) [7]).trans (congrArg _ (by decide +kernel))) _

end Toy

example := C66_phase2_partial Toy.lawful Gob.lawful Toy.par Toy.par batchSize (by decide) Toy.p2vr _ Toy.p2final Toy.p2 Toy.p2other
  Toy.p2final_wf Toy.p2_wf Toy.p2other_wf Toy.p2final_noStraddle (Toy.p2final.records.headD Phase2.Contribution.zero)
  (by decide +kernel) (by decide +kernel) [] [] [1] (Toy.p2final_accepted _ _) Toy.p2other_accepted

example := C66_intermediate_partial Toy.lawful Gob.lawful Toy.par Toy.par batchSize (by decide) Toy.p2vr Toy.p2vr Toy.p2final Toy.p2
  Toy.p2final_wf Toy.p2_wf Toy.p2final_noStraddle (Toy.p2final.records.headD Phase2.Contribution.zero)
  (by decide +kernel) (by decide +kernel) [Toy.p2rnd] (by decide) rfl (by decide +kernel) (by decide +kernel) [] [] [1]
  (Toy.p2final_accepted _ _)

open Classical in
example := C66_phase2_z_partial Toy.lawful Gob.lawful Toy.par batchSize (by decide) Toy.p2vr Toy.p2final Toy.p2 Toy.p2other
  Toy.p2final_wf Toy.p2_wf Toy.p2other_wf Toy.p2final_noStraddle (by decide +kernel) (by decide +kernel) 1 (by decide +kernel)
  (by decide +kernel) [] [] [1] _ _ (fun _ => Iff.rfl) (fun _ => Iff.rfl)

open Classical in
example := C66_phase2_pkk_partial Toy.lawful Gob.lawful Toy.par batchSize (by decide) Toy.p2vr Toy.p2final Toy.p2 Toy.p2other'
  Toy.p2final_wf Toy.p2_wf Toy.p2other'_wf Toy.p2final_noStraddle (by decide +kernel) (by decide +kernel) 0 (by decide +kernel)
  (by decide +kernel) [] [] [1] _ _ (fun _ => Iff.rfl) (fun _ => Iff.rfl)

example := C66_phase1_partial Toy.lawful Toy.par Toy.par .strict .strict batchSize batchSize (by decide) (by decide) Toy.vr Toy.vr
  Toy.honest Toy.honest_wf (Toy.honest.records.headD Contribution.zero) (by decide +kernel) [1, 2] none _ (Toy.honest_accepted _ rfl)
  Toy.garbage_accepted

example := C66_phase1_false Toy.lawful Toy.par .strict batchSize Toy.vr (Toy.honest.encode Toy.curve) (P1File.init Toy.curve 1)
  Toy.garbage (init_wf Toy.curve 1 (by decide)) Toy.garbage_wf (by decide) (by decide) (by decide +kernel) (by decide +kernel)
  (by decide +kernel) (by decide +kernel) (by decide +kernel) [] [7]

end ZkSetup
