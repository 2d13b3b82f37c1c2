import Verif.Props.Console
import Verif.Props.Phase2Sound

/-!
C59: what the printed hashes pin down. The coordinator keeps the hashes printed by `p1v`, `p2v`; every contributor attests the hash printed
by `p1c`, `p2c` (`/repo/README.md`, "Security Note").
-/
set_option linter.unusedSectionVars false

namespace ZkSetup
open Console

section
variable {F G1 G2 GT : Type} [Field F] [AddCommGroup G1] [Module F G1] [AddCommGroup G2] [Module F G2] [AddCommGroup GT] [Module F GT]
variable [DecidableEq G1] [DecidableEq G2] [DecidableEq GT]
variable {C : Curve F G1 G2 GT} (hC : C.Lawful)

theorem chainOk_split (rs rs' : List (Phase1.Contribution G1 G2)) : ∀ prev,
    ChainOk C prev (rs ++ rs') ↔ ChainOk C prev rs ∧ ChainOk C (rs.getLast?.getD prev) rs' := by
  induction rs with
  | nil => intro prev; simp [ChainOk]
  | cons q rs ih =>
    intro prev
    have : (q :: rs).getLast?.getD prev = rs.getLast?.getD q := by
      cases rs <;> simp [List.getLast?_cons]
    rw [this]
    simp only [List.cons_append, ChainOk, ih, and_assoc]

theorem chain2_split (rs rs' : List (Phase2.Contribution G1 G2)) : ∀ (d : G1) (h : Bytes) (xs : List F), Chain2By C d h (rs ++ rs') xs →
    ∃ ys zs, Chain2By C d h rs ys ∧ Chain2By C ((rs.getLast?.map (·.delta)).getD d) ((rs.getLast?.map (·.hash)).getD h) rs' zs := by
  induction rs with
  | nil => intro d h xs hc; exact ⟨[], xs, trivial, hc⟩
  | cons a rs ih =>
    intro d h xs hc
    cases xs with
    | nil => exact hc.elim
    | cons y xs =>
      obtain ⟨ys, zs, h1, h2⟩ := ih _ _ _ hc.2
      refine ⟨y :: ys, zs, ⟨hc.1, h1⟩, ?_⟩
      cases rs with
      | nil => simpa using h2
      | cons b rs => simpa [List.getLast?_cons] using h2

include hC

/-- As `chain_binding`, for lists of any lengths. -/
theorem chain_binding_any (rs rs' : List (Phase1.Contribution G1 G2)) (prev prev' : Phase1.Contribution G1 G2)
    (hp : prev.hash = []) (hp' : prev'.hash = []) (h : ChainOk C prev rs) (h' : ChainOk C prev' rs')
    (hlast : lastHash rs = lastHash rs') (hnd : ∀ r ∈ rs, Nondegenerate r)
    (hsha : ∀ r ∈ rs, ∀ r' ∈ rs', NoShaCollision C r r')
    (hg2 : ∀ r ∈ rs, ∀ x ∈ [] :: rs.map (·.hash), ∀ x' ∈ [] :: rs'.map (·.hash), NoG2Collision C r x x') : rs = rs' := by
  have hne : ∀ (p r : Phase1.Contribution G1 G2) (τ α β : F), StepBy C p r τ α β → r.hash ≠ [] := by
    intro p r τ α β hs e
    have := hC.sha_length (recordBody C r)
    rw [← hs.hash, e] at this
    cases this
  have hget : ∀ (l : List (Phase1.Contribution G1 G2)) (p : Phase1.Contribution G1 G2), p.hash = [] → (l.getLast?.getD p).hash = lastHash l := by
    intro l p hp
    unfold lastHash
    cases l.getLast? <;> simp [hp]
  have hmem : ∀ l : List (Phase1.Contribution G1 G2), lastHash l ∈ [] :: l.map (·.hash) := by
    intro l
    cases l using List.reverseRecOn <;> simp [lastHash]
  induction rs using List.reverseRecOn generalizing rs' with
  | nil =>
    cases rs' using List.reverseRecOn with
    | nil => rfl
    | append_singleton rs' r' =>
      simp only [lastHash, List.getLast?_append, List.getLast?_singleton, Option.some_or, List.getLast?_nil] at hlast
      obtain ⟨-, τ', α', β', hs'⟩ := (chainOk_snoc rs' prev' r').mp h'
      exact (hne _ _ _ _ _ hs' hlast.symm).elim
  | append_singleton rs r ih =>
    obtain ⟨hc, τ, α, β, hs⟩ := (chainOk_snoc rs prev r).mp h
    cases rs' using List.reverseRecOn with
    | nil =>
      simp only [lastHash, List.getLast?_append, List.getLast?_singleton, Option.some_or, List.getLast?_nil] at hlast
      exact (hne _ _ _ _ _ hs hlast).elim
    | append_singleton rs' r' =>
      simp only [lastHash, List.getLast?_append, List.getLast?_singleton, Option.some_or] at hlast
      obtain ⟨hc', τ', α', β', hs'⟩ := (chainOk_snoc rs' prev' r').mp h'
      have hrr : r = r' := by
        refine recordBody_inj hC (hsha r (by simp) r' (by simp) ?_) hlast
        rw [← hs.hash, ← hs'.hash, hlast]
      subst hrr
      have mono : ∀ (l : List (Phase1.Contribution G1 G2)) x, x ∈ [] :: l.map (·.hash) → x ∈ [] :: (l ++ [r]).map (·.hash) := by
        intro l x hx
        simp only [List.map_append, List.mem_cons, List.mem_append] at hx ⊢
        tauto
      have hlh : lastHash rs = lastHash rs' := by
        have := step_challenge hC hs hs' (hnd r (by simp)) (by
          rw [hget _ _ hp, hget _ _ hp']
          exact hg2 r (by simp) _ (mono _ _ (hmem rs)) _ (mono _ _ (hmem rs')))
        rwa [hget _ _ hp, hget _ _ hp'] at this
      rw [ih rs' hc hc' hlh (fun x hx => hnd x (by simp [hx]))
        (fun x hx x' hx' => hsha x (by simp [hx]) x' (by simp [hx']))
        (fun y hy x hx x' hx' => hg2 y (by simp [hy]) x (mono _ _ hx) x' (mono _ _ hx'))]

/-- As `chain2_binding`, for lists of any lengths. -/
theorem chain2_binding_any (rs : List (Phase2.Contribution G1 G2)) : ∀ (rs' : List (Phase2.Contribution G1 G2)) (d d' : G1) (xs xs' : List F),
    Chain2By C d [] rs xs → Chain2By C d' [] rs' xs' → lastHash2 rs = lastHash2 rs' → (∀ r ∈ rs, r.pk.sx ≠ 0) →
    (∀ r ∈ rs, ∀ r' ∈ rs', NoShaCollision2 C r r') →
    (∀ r ∈ rs, ∀ x ∈ [] :: rs.map (·.hash), ∀ x' ∈ [] :: rs'.map (·.hash), NoG2Collision2 C r x x') → rs = rs' := by
  have hne : ∀ (d : G1) (p : Bytes) (r : Phase2.Contribution G1 G2) (x : F), Step2By C d p r x → r.hash ≠ [] := by
    intro d p r x hs e
    have := hC.sha_length (record2Body C r)
    rw [← hs.hash, e] at this
    cases this
  have hget : ∀ l : List (Phase2.Contribution G1 G2), (l.getLast?.map (·.hash)).getD [] = lastHash2 l := by
    intro l
    unfold lastHash2
    cases l.getLast? <;> rfl
  have hmem : ∀ l : List (Phase2.Contribution G1 G2), lastHash2 l ∈ [] :: l.map (·.hash) := by
    intro l
    cases l using List.reverseRecOn <;> simp [lastHash2]
  induction rs using List.reverseRecOn with
  | nil =>
    intro rs' d d' xs xs' hc hc' hlast _ _ _
    cases rs' using List.reverseRecOn with
    | nil => rfl
    | append_singleton rs' r' =>
      rw [lastHash2_append] at hlast
      obtain ⟨ys', x', -, h2'⟩ := chain2_snoc _ _ _ _ _ hc'
      exact (hne _ _ _ _ h2' hlast.symm).elim
  | append_singleton rs r ih =>
    intro rs' d d' xs xs' hc hc' hlast hnd hsha hg2
    obtain ⟨ys, x, h1, h2⟩ := chain2_snoc _ _ _ _ _ hc
    cases rs' using List.reverseRecOn with
    | nil =>
      rw [lastHash2_append] at hlast
      exact (hne _ _ _ _ h2 hlast).elim
    | append_singleton rs' r' =>
      simp only [lastHash2_append] at hlast
      obtain ⟨ys', x', h1', h2'⟩ := chain2_snoc _ _ _ _ _ hc'
      have hrr : r = r' := by
        refine record2Body_inj hC (hsha r (by simp) r' (by simp) ?_) hlast
        rw [← h2.hash, ← h2'.hash, hlast]
      subst hrr
      have mono : ∀ (l : List (Phase2.Contribution G1 G2)) x, x ∈ [] :: l.map (·.hash) → x ∈ [] :: (l ++ [r]).map (·.hash) := by
        intro l x hx
        simp only [List.map_append, List.mem_cons, List.mem_append] at hx ⊢
        tauto
      rw [hget] at h2 h2'
      have hlh : lastHash2 rs = lastHash2 rs' :=
        hg2 r (by simp) _ (mono _ _ (hmem rs)) _ (mono _ _ (hmem rs'))
          (provesScalar_challenge hC (k := r.pk) ⟨h2.sx, h2.spx⟩ ⟨h2'.sx, h2'.spx⟩ (hnd r (by simp)))
      rw [ih rs' d d' ys ys' h1 h1' hlh (fun x hx => hnd x (by simp [hx]))
        (fun x hx x' hx' => hsha x (by simp [hx]) x' (by simp [hx']))
        (fun y hy x hx x' hx' => hg2 y (by simp [hy]) x (mono _ _ hx) x' (mono _ _ hx'))]

/-! ### phase 1 -/

/-- **C16** for histories of any lengths (partial: the records must be nondegenerate): the last hash also determines the number of contributions. -/
theorem C16_any_length_partial (par par' : Par) (pol pol' : Phase1.MsmPolicy) (b b' : Nat) (hb : 0 < b) (hb' : 0 < b')
    (vr vr' : Phase1.VerifyRand F) (f g : P1File G1 G2) (hf : f.WF) (hg : g.WF) (junk junk' : Bytes) (tr tr' : Option Bytes)
    (h : Phase1.verify C par pol b vr (f.encode C ++ junk) tr = .ok ())
    (h' : Phase1.verify C par' pol' b' vr' (g.encode C ++ junk') tr' = .ok ())
    (hlast : lastHash f.records = lastHash g.records) (hnd : ∀ r ∈ f.records, Nondegenerate r)
    (hsha : ∀ r ∈ f.records, ∀ r' ∈ g.records, NoShaCollision C r r')
    (hg2 : ∀ r ∈ f.records, ∀ x ∈ [] :: f.records.map (·.hash), ∀ x' ∈ [] :: g.records.map (·.hash), NoG2Collision C r x x') :
    f.records = g.records := by
  obtain ⟨p, h1, h2, _⟩ := (verify_bytes hC par pol b hb vr f hf junk tr).mp h
  obtain ⟨p', h1', h2', _⟩ := (verify_bytes hC par' pol' b' hb' vr' g hg junk' tr').mp h'
  exact chain_binding_any hC _ _ p p' (origin_hash hC _ _ h1) (origin_hash hC _ _ h1') h2 h2' hlast hnd hsha hg2

/-- what an accepting run of the verifier shows: the chain, and all its hashes printed -/
theorem p1_accepted {par : Par} {pol : Phase1.MsmPolicy} {b : Nat} (hb : 0 < b) {vr : Phase1.VerifyRand F} {f : P1File G1 G2} (hf : f.WF)
    {junk : Bytes} {tr : Option Bytes} {lines : List String} (h : p1Verify C par pol b vr (f.encode C ++ junk) tr = (.ok (), lines)) :
    (∃ prev, Phase1.defaultContribution C tr = .ok prev ∧ prev.hash = [] ∧ ChainOk C prev f.records) ∧
      trackedHashes lines = f.records.map (fun r => some r.hash) := by
  refine ⟨?_, (C58_p1_verify hC par pol b hb vr f hf junk tr _ _ h).2 rfl⟩
  have hv := (C58_same_programs C Gob.headerCodec par pol b ⟨0, 0, 0, 0, 0, 0⟩ vr ⟨0, 0⟩ ⟨fun _ _ => 0, fun _ _ => 0⟩ (f.encode C ++ junk) [] tr).2.1
  rw [h] at hv
  obtain ⟨p, h1, h2, _⟩ := (verify_bytes hC par pol b hb vr f hf junk tr).mp hv.symm
  exact ⟨p, h1, origin_hash hC _ _ h1, h2⟩

/-- **C59**, phase 1, the coordinator's record. The coordinator has verified the file `f` and kept the printed hashes. If a later file `g` is
accepted and the printed hashes begin with the kept ones, then all contributions of `f` are in `g`, unchanged and at the same places (no
collision of SHA-256 among their records). -/
theorem C59_phase1_kept (par par' : Par) (pol pol' : Phase1.MsmPolicy) (b b' : Nat) (hb : 0 < b) (hb' : 0 < b') (vr vr' : Phase1.VerifyRand F)
    (f g : P1File G1 G2) (hf : f.WF) (hg : g.WF) (junk junk' : Bytes) (tr tr' : Option Bytes) (lines lines' : List String)
    (h : p1Verify C par pol b vr (f.encode C ++ junk) tr = (.ok (), lines))
    (h' : p1Verify C par' pol' b' vr' (g.encode C ++ junk') tr' = (.ok (), lines'))
    (hkept : trackedHashes lines <+: trackedHashes lines')
    (hsha : ∀ r ∈ f.records, ∀ r' ∈ g.records, NoShaCollision C r r') : f.records <+: g.records := by
  obtain ⟨⟨p, -, -, hc⟩, ht⟩ := p1_accepted hC hb hf h
  obtain ⟨⟨p', -, -, hc'⟩, ht'⟩ := p1_accepted hC hb' hg h'
  rw [ht, ht'] at hkept
  have k1 := chainOk_hash _ _ hc
  have k2 := chainOk_hash _ _ hc'
  clear h h' ht ht' hc hc' hf hg
  revert hkept hsha k1 k2
  generalize f.records = rs
  generalize g.records = rs'
  intro hkept hsha k1 k2
  induction rs generalizing rs' with
  | nil => exact List.nil_prefix
  | cons r rs ih =>
    cases rs' with
    | nil => simp at hkept
    | cons r' rs' =>
      simp only [List.map_cons, List.cons_prefix_cons, Option.some.injEq] at hkept
      have e : r = r' := by
        refine recordBody_inj hC (hsha r (by simp) r' (by simp) ?_) hkept.1
        rw [← k1 r (by simp), ← k2 r' (by simp), hkept.1]
      subst e
      exact List.cons_prefix_cons.mpr ⟨rfl, ih rs' hkept.2 (fun x hx x' hx' => hsha x (by simp [hx]) x' (by simp [hx']))
        (fun x hx => k1 x (by simp [hx])) (fun x hx => k2 x (by simp [hx]))⟩

/-- **C59**, phase 1, nothing replaced before an attested contribution (partial: the records up to it must be nondegenerate). `f` is an
accepted file whose last printed hash has been attested. If a file `g` is accepted and the attested hash is among those printed, wherever it
stands, then all contributions of `f` are in `g`, unchanged and at the same places. Missing: degenerate records; `C16_degenerate_unbound`
shows that it is false for them. -/
theorem C59_phase1_attested_partial (par par' : Par) (pol pol' : Phase1.MsmPolicy) (b b' : Nat) (hb : 0 < b) (hb' : 0 < b')
    (vr vr' : Phase1.VerifyRand F) (f g : P1File G1 G2) (hf : f.WF) (hg : g.WF) (junk junk' : Bytes) (tr tr' : Option Bytes)
    (lines lines' : List String) (h : p1Verify C par pol b vr (f.encode C ++ junk) tr = (.ok (), lines))
    (h' : p1Verify C par' pol' b' vr' (g.encode C ++ junk') tr' = (.ok (), lines'))
    (attested : Bytes) (hlast : (trackedHashes lines).getLast? = some (some attested)) (hin : some attested ∈ trackedHashes lines')
    (hnd : ∀ r ∈ f.records, Nondegenerate r)
    (hsha : ∀ r ∈ f.records, ∀ r' ∈ g.records, NoShaCollision C r r')
    (hg2 : ∀ r ∈ f.records, ∀ x ∈ [] :: f.records.map (·.hash), ∀ x' ∈ [] :: g.records.map (·.hash), NoG2Collision C r x x') :
    f.records <+: g.records := by
  obtain ⟨⟨p, -, hp, hc⟩, ht⟩ := p1_accepted hC hb hf h
  obtain ⟨⟨p', -, hp', hc'⟩, ht'⟩ := p1_accepted hC hb' hg h'
  rw [ht, List.getLast?_map] at hlast
  rw [ht', List.mem_map] at hin
  obtain ⟨r', hr', he'⟩ := hin
  obtain ⟨pre, post, hsplit⟩ := List.append_of_mem hr'
  have e2 : g.records = (pre ++ [r']) ++ post := by simp [hsplit]
  rw [e2] at hc' hsha hg2 ⊢
  have hcc := ((chainOk_split (pre ++ [r']) post p').mp hc').1
  have hl : lastHash f.records = lastHash (pre ++ [r']) := by
    unfold lastHash
    cases hx : f.records.getLast? with
    | none => rw [hx] at hlast; simp at hlast
    | some r =>
      rw [hx] at hlast
      simp only [Option.map_some, Option.some.injEq] at hlast he'
      simp [hlast, he']
  have := chain_binding_any hC f.records (pre ++ [r']) p p' hp hp' hc hcc hl hnd
    (fun r hr r' hr' => hsha r hr r' (List.mem_append_left _ hr'))
    (fun r hr x hx x' hx' => hg2 r hr x hx x' (by
      rw [List.map_append]
      exact List.mem_cons.mpr ((List.mem_cons.mp hx').imp_right (List.mem_append_left _))))
  rw [this]
  exact List.prefix_append _ _

theorem factor_unique {x y s : F} {k : PublicKey G1 G2} {h h' : Bytes} {d : UInt8} (hk : k = proofOf C y s h d) (hs : s ≠ 0)
    (hp : ProvesScalar C k h' d x) : x = y := by
  subst hk
  have := hp.1
  simp only [proofOf, smul_smul, smul_g1_inj hC] at this
  exact (mul_right_cancel₀ hs this).symm

/-- **C59**, phase 1, a contributor's secret is in. A contributor has run `p1c` on a file `f`, accepted or not, and attests the printed hash.
If any file `g` is accepted and the attested hash is among those printed, wherever it stands, then `g` contains a step that multiplies τ, α and β
by exactly the contributor's secrets. (The blinding scalars are nonzero; no other record of `g` has the attested SHA-256.) -/
theorem C59_phase1_secret_included (par par' : Par) (pol : Phase1.MsmPolicy) (b b' : Nat) (hb : 2 ≤ b) (hb' : 0 < b') (rnd : Phase1.Rand F)
    (vr : Phase1.VerifyRand F) (f g : P1File G1 G2) (hf : f.WF) (hpow : 1 ≤ f.power.toNat) (hcnt : f.records.length < 65535) (hg : g.WF)
    (junk junk' : Bytes) (tr : Option Bytes) (out : Bytes) (l lines : List String)
    (h : p1Contribute C par b rnd (f.encode C ++ junk) = (.ok (), out, l))
    (h' : p1Verify C par' pol b' vr (g.encode C ++ junk') tr = (.ok (), lines))
    (attested : Bytes) (hatt : attestedHashes l = [some attested]) (hin : some attested ∈ trackedHashes lines)
    (hs : rnd.sTau ≠ 0 ∧ rnd.sAlpha ≠ 0 ∧ rnd.sBeta ≠ 0)
    (hsha : ∀ r ∈ g.records, C.sha (recordBody C r) = attested → ∃ pre, out = pre ++ recordBody C r ++ attested) :
    ∃ first before r after, Phase1.defaultContribution C tr = .ok first ∧ g.records = before ++ r :: after ∧ r.hash = attested ∧
      StepBy C (before.getLast?.getD first) r rnd.tau rnd.alpha rnd.beta := by
  obtain ⟨⟨p', hd', -, hc'⟩, ht'⟩ := p1_accepted hC hb' hg h'
  have hk := chainOk_hash _ _ hc'
  obtain ⟨q, r0, e1, -, -, e2, e3, e4, e5, e6, -⟩ := C10_contribute_preserves_history hC par b hb rnd f hf hpow hcnt
  obtain ⟨⟨-, hout⟩, -⟩ := C58_same_programs C Gob.headerCodec par pol b rnd vr ⟨0, 0⟩ ⟨fun _ _ => 0, fun _ _ => 0⟩ (f.encode C ++ junk) [] tr
  rw [h, e1 junk] at hout
  obtain ⟨⟨⟨pre, body, k1, k2, k3⟩, -⟩, -⟩ := (C58_p1_contribute hC par b rnd _ _ _ _ h).imp_left fun f => f rfl
  rw [hatt, List.cons.injEq, Option.some.injEq] at k3
  rw [ht', List.mem_map] at hin
  obtain ⟨r, hr, he⟩ := hin
  rw [Option.some.injEq] at he
  obtain ⟨pre', hpre'⟩ := hsha r hr (by rw [← hk r hr, he])
  have hl608 := recordBody_length hC r
  have hl608' := recordBody_length hC r0
  have hbody : recordBody C r = recordBody C r0 := by
    have x1 : ∃ x, q.encode C = x ++ recordBody C r0 ++ r0.hash := by
      refine ⟨?_, ?_⟩
      rotate_left
      · unfold P1File.encode
        rw [e2]
        simp only [List.flatMap_append, List.flatMap_cons, List.flatMap_nil, List.append_nil, recordBytes]
        simp only [← List.append_assoc]
        rfl
    obtain ⟨x, hx⟩ := x1
    have hq : out = q.encode C := hout
    rw [hq, hx] at hpre'
    have y1 : r0.hash.length = 32 := by rw [e6]; exact hC.sha_length _
    have y2 : attested.length = 32 := by rw [k3.1]; exact hC.sha_length _
    have z := List.append_inj' hpre' (by rw [y1, y2])
    exact (List.append_inj' z.1 (by rw [hl608, hl608'])).2.symm
  have hrr : r = r0 := recordBody_inj hC hbody (by rw [hk r hr, e6, hbody])
  obtain ⟨before, after, hsplit⟩ := List.append_of_mem hr
  refine ⟨p', before, r, after, hd', hsplit, he, ?_⟩
  rw [hsplit, chainOk_split] at hc'
  obtain ⟨τ, α, β, hstep⟩ := hc'.2.1
  subst hrr
  have f1 := factor_unique hC e3 hs.1 hstep.knowTau
  have f2 := factor_unique hC e4 hs.2.1 hstep.knowAlpha
  have f3 := factor_unique hC e5 hs.2.2 hstep.knowBeta
  subst f1 f2 f3
  exact hstep

/-- **C59**, negation, phase 1: the printed hashes do not pin down the parameters. For every accepted file there is an accepted file of the same
power with the same printed hashes and another parameter. -/
theorem C59_phase1_points_not_pinned (f : P1File G1 G2) (hf : f.WF) (hreg : f.Regular) (hp : 1 ≤ f.power.toNat)
    (last : Phase1.Contribution G1 G2) (hlast : f.records.getLast? = some last) (tr : Option Bytes)
    (par : Par) (b : Nat) (hb : 2 ≤ b) (vr : Phase1.VerifyRand F) (lines : List String)
    (h : p1Verify C par .strict b vr (f.encode C) tr = (.ok (), lines)) (p : G1) (h0 : p ≠ 0) (hne : p ≠ last.g1Tau) :
    ∃ g : P1File G1 G2, g.WF ∧ g.power = f.power ∧ g.tauG1 = f.tauG1.set 1 p ∧
      ∀ (par : Par) (vr : Phase1.VerifyRand F), ∃ lines', p1Verify C par .strict b vr (g.encode C) tr = (.ok (), lines') ∧
        trackedHashes lines' = trackedHashes lines := by
  have same := fun par vr (i : Bytes) => (C58_same_programs C Gob.headerCodec par .strict b ⟨0, 0, 0, 0, 0, 0⟩ vr ⟨0, 0⟩
    ⟨fun _ _ => 0, fun _ _ => 0⟩ i [] tr).2.1
  have hv : Phase1.verify C par .strict b vr (f.encode C) tr = .ok () := by rw [← same, h]
  obtain ⟨g, rfl, hacc, -⟩ := C56_phase1_poisoned hC f hf hreg hp last hlast tr par b hb vr hv p h0 hne
  have hgwf : P1File.WF { f with tauG1 := f.tauG1.set 1 p } :=
    { hf with tauG1 := by simpa using hf.tauG1 }
  refine ⟨_, hgwf, rfl, rfl, fun par' vr' => ?_⟩
  have hres := hacc par' vr'
  rw [← same] at hres
  cases hx : p1Verify C par' .strict b vr' (P1File.encode C { f with tauG1 := f.tauG1.set 1 p }) tr with
  | mk r lines' =>
    rw [hx] at hres
    subst hres
    refine ⟨lines', rfl, ?_⟩
    rw [← List.append_nil (P1File.encode C _)] at hx h
    rw [(p1_accepted hC (by omega) hgwf hx).2, (p1_accepted hC (by omega) hf h).2]

/-! ### phase 2 -/

section
variable {H : Phase2.HeaderCodec} (hH : H.Lawful)
include hH

/-- **C35** for histories of any lengths (partial: `SX ≠ 0`, no hash across a buffer boundary): the last hash also determines the number of
contributions. -/
theorem C35_any_length_partial (par par' : Par) (b b' : Nat) (hb : 0 < b) (hb' : 0 < b') (vr vr' : Phase2.VerifyRand F)
    (f g o o' : P2File G1 G2) (hf : f.WF) (hg : g.WF) (ho : o.WF) (ho' : o'.WF) (hs : f.NoStraddle H) (hs' : g.NoStraddle H)
    (j1 j2 j3 j4 : Bytes)
    (h : Phase2.verify C H par b vr (f.encode C H ++ j1) (o.encode C H ++ j2) = .ok ())
    (h' : Phase2.verify C H par' b' vr' (g.encode C H ++ j3) (o'.encode C H ++ j4) = .ok ())
    (hlast : lastHash2 f.records = lastHash2 g.records) (hnd : ∀ r ∈ f.records, r.pk.sx ≠ 0)
    (hsha : ∀ r ∈ f.records, ∀ r' ∈ g.records, NoShaCollision2 C r r')
    (hg2 : ∀ r ∈ f.records, ∀ x ∈ [] :: f.records.map (·.hash), ∀ x' ∈ [] :: g.records.map (·.hash), NoG2Collision2 C r x x') :
    f.records = g.records := by
  obtain ⟨-, -, -, -, -, ⟨xs, hx⟩, -⟩ := (verify2_iff hC hH par b hb vr f o hf ho hs j1 j2).mp h
  obtain ⟨-, -, -, -, -, ⟨xs', hx'⟩, -⟩ := (verify2_iff hC hH par' b' hb' vr' g o' hg ho' hs' j3 j4).mp h'
  exact chain2_binding_any hC _ _ _ _ _ _ hx hx' hlast hnd hsha hg2

/-- what an accepting run of the verifier shows: the chain, and all its hashes printed -/
theorem p2_accepted {par : Par} {b : Nat} (hb : 0 < b) {vr : Phase2.VerifyRand F} {f o : P2File G1 G2} (hf : f.WF) (ho : o.WF)
    (hs : f.NoStraddle H) {junk junk' : Bytes} {lines : List String}
    (h : p2Verify C H par b vr (f.encode C H ++ junk) (o.encode C H ++ junk') = (.ok (), lines)) :
    (∃ xs, Chain2By C o.delta1 [] f.records xs) ∧ trackedHashes lines = f.records.map (fun r => some r.hash) := by
  refine ⟨?_, (C58_p2_verify hC hH par b hb vr f o hf ho hs junk junk' _ _ h).2 rfl⟩
  have hv := (C58_same_programs C H par .strict b ⟨0, 0, 0, 0, 0, 0⟩ ⟨fun _ _ => 0, fun _ _ => 0, fun _ _ => 0, fun _ _ => 0⟩ ⟨0, 0⟩ vr
    (f.encode C H ++ junk) (o.encode C H ++ junk') none).2.2.2
  rw [h] at hv
  exact ((verify2_iff hC hH par b hb vr f o hf ho hs junk junk').mp hv.symm).2.2.2.2.2.1

/-- **C59**, phase 2, the coordinator's record, as in phase 1 (no hash across a buffer boundary in `f` and `g`). -/
theorem C59_phase2_kept (par par' : Par) (b b' : Nat) (hb : 0 < b) (hb' : 0 < b') (vr vr' : Phase2.VerifyRand F)
    (f g o o' : P2File G1 G2) (hf : f.WF) (hg : g.WF) (ho : o.WF) (ho' : o'.WF) (hs : f.NoStraddle H) (hs' : g.NoStraddle H)
    (j1 j2 j3 j4 : Bytes) (lines lines' : List String)
    (h : p2Verify C H par b vr (f.encode C H ++ j1) (o.encode C H ++ j2) = (.ok (), lines))
    (h' : p2Verify C H par' b' vr' (g.encode C H ++ j3) (o'.encode C H ++ j4) = (.ok (), lines'))
    (hkept : trackedHashes lines <+: trackedHashes lines')
    (hsha : ∀ r ∈ f.records, ∀ r' ∈ g.records, NoShaCollision2 C r r') : f.records <+: g.records := by
  obtain ⟨⟨xs, hc⟩, ht⟩ := p2_accepted hC hH hb hf ho hs h
  obtain ⟨⟨xs', hc'⟩, ht'⟩ := p2_accepted hC hH hb' hg ho' hs' h'
  rw [ht, ht'] at hkept
  have k1 := chain2_hash _ _ _ _ hc
  have k2 := chain2_hash _ _ _ _ hc'
  clear h h' ht ht' hc hc' hf hg hs hs'
  revert hkept hsha k1 k2
  generalize f.records = rs
  generalize g.records = rs'
  intro hkept hsha k1 k2
  induction rs generalizing rs' with
  | nil => exact List.nil_prefix
  | cons r rs ih =>
    cases rs' with
    | nil => simp at hkept
    | cons r' rs' =>
      simp only [List.map_cons, List.cons_prefix_cons, Option.some.injEq] at hkept
      have e : r = r' := by
        refine record2Body_inj hC (hsha r (by simp) r' (by simp) ?_) hkept.1
        rw [← k1 r (by simp), ← k2 r' (by simp), hkept.1]
      subst e
      exact List.cons_prefix_cons.mpr ⟨rfl, ih rs' hkept.2 (fun x hx x' hx' => hsha x (by simp [hx]) x' (by simp [hx']))
        (fun x hx => k1 x (by simp [hx])) (fun x hx => k2 x (by simp [hx]))⟩

/-- **C59**, phase 2, nothing replaced before an attested contribution (partial: `SX ≠ 0` in the records up to it, no hash across a buffer
boundary), as in phase 1. Missing: records with `SX = 0`; `C35_degenerate_unbound` shows that it is false for them. -/
theorem C59_phase2_attested_partial (par par' : Par) (b b' : Nat) (hb : 0 < b) (hb' : 0 < b') (vr vr' : Phase2.VerifyRand F)
    (f g o o' : P2File G1 G2) (hf : f.WF) (hg : g.WF) (ho : o.WF) (ho' : o'.WF) (hs : f.NoStraddle H) (hs' : g.NoStraddle H)
    (j1 j2 j3 j4 : Bytes) (lines lines' : List String)
    (h : p2Verify C H par b vr (f.encode C H ++ j1) (o.encode C H ++ j2) = (.ok (), lines))
    (h' : p2Verify C H par' b' vr' (g.encode C H ++ j3) (o'.encode C H ++ j4) = (.ok (), lines'))
    (attested : Bytes) (hlast : (trackedHashes lines).getLast? = some (some attested)) (hin : some attested ∈ trackedHashes lines')
    (hnd : ∀ r ∈ f.records, r.pk.sx ≠ 0)
    (hsha : ∀ r ∈ f.records, ∀ r' ∈ g.records, NoShaCollision2 C r r')
    (hg2 : ∀ r ∈ f.records, ∀ x ∈ [] :: f.records.map (·.hash), ∀ x' ∈ [] :: g.records.map (·.hash), NoG2Collision2 C r x x') :
    f.records <+: g.records := by
  obtain ⟨⟨xs, hc⟩, ht⟩ := p2_accepted hC hH hb hf ho hs h
  obtain ⟨⟨xs', hc'⟩, ht'⟩ := p2_accepted hC hH hb' hg ho' hs' h'
  rw [ht, List.getLast?_map] at hlast
  rw [ht', List.mem_map] at hin
  obtain ⟨r', hr', he'⟩ := hin
  obtain ⟨pre, post, hsplit⟩ := List.append_of_mem hr'
  have e2 : g.records = (pre ++ [r']) ++ post := by simp [hsplit]
  rw [e2] at hc' hsha hg2 ⊢
  obtain ⟨ys, zs, hcc, -⟩ := chain2_split (pre ++ [r']) post _ _ _ hc'
  have hl : lastHash2 f.records = lastHash2 (pre ++ [r']) := by
    unfold lastHash2
    cases hx : f.records.getLast? with
    | none => rw [hx] at hlast; simp at hlast
    | some r =>
      rw [hx] at hlast
      simp only [Option.map_some, Option.some.injEq] at hlast he'
      simp [hlast, he']
  have := chain2_binding_any hC f.records (pre ++ [r']) _ _ _ _ hc hcc hl hnd
    (fun r hr r' hr' => hsha r hr r' (List.mem_append_left _ hr'))
    (fun r hr x hx x' hx' => hg2 r hr x hx x' (by
      rw [List.map_append]
      exact List.mem_cons.mpr ((List.mem_cons.mp hx').imp_right (List.mem_append_left _))))
  rw [this]
  exact List.prefix_append _ _

/-- **C59**, phase 2, a contributor's secret is in, as in phase 1: the file contains a step that multiplies δ by exactly the contributor's
secret (no hash across a buffer boundary in the files read). -/
theorem C59_phase2_secret_included (par par' : Par) (b b' : Nat) (hb : 0 < b) (hb' : 0 < b') (rnd : Phase2.Rand F)
    (vr : Phase2.VerifyRand F) (f g o : P2File G1 G2) (hf : f.WF) (hg : g.WF) (ho : o.WF) (hs : f.NoStraddle H) (hs' : g.NoStraddle H)
    (j1 j2 j3 : Bytes) (out : Bytes) (l lines : List String)
    (h : p2Contribute C H par b rnd (f.encode C H ++ j1) = (.ok (), out, l))
    (h' : p2Verify C H par' b' vr (g.encode C H ++ j2) (o.encode C H ++ j3) = (.ok (), lines))
    (attested : Bytes) (hatt : attestedHashes l = [some attested]) (hin : some attested ∈ trackedHashes lines)
    (hblind : rnd.s ≠ 0)
    (hsha : ∀ r ∈ g.records, C.sha (record2Body C r) = attested → ∃ pre, out = pre ++ record2Body C r ++ attested) :
    ∃ before r after, g.records = before ++ r :: after ∧ r.hash = attested ∧
      Step2By C ((before.getLast?.map (·.delta)).getD o.delta1) (lastHash2 before) r rnd.delta := by
  obtain ⟨⟨xs', hc'⟩, ht'⟩ := p2_accepted hC hH hb' hg ho hs' h'
  have hk := chain2_hash _ _ _ _ hc'
  have hrec : ∃ r0, r0 = newRecord2 C rnd (lastHash2 f.records) (rnd.delta • f.delta1) := ⟨_, rfl⟩
  obtain ⟨r0, hr0⟩ := hrec
  have e6 : r0.hash = C.sha (record2Body C r0) := by rw [hr0]; rfl
  have e3 : r0.pk = proofOf C rnd.delta rnd.s (lastHash2 f.records) 1 := by rw [hr0]; rfl
  obtain ⟨-, -, ⟨-, hout⟩, -⟩ := C58_same_programs C H par .strict b ⟨0, 0, 0, 0, 0, 0⟩ ⟨fun _ _ => 0, fun _ _ => 0, fun _ _ => 0, fun _ _ => 0⟩
    rnd vr (f.encode C H ++ j1) [] none
  rw [h, contribute2_spec hC hH par b hb rnd f hf hs j1] at hout
  obtain ⟨⟨⟨pre, body, k1, k2, k3⟩, -⟩, -⟩ := (C58_p2_contribute hC H par b rnd _ _ _ _ h).imp_left fun f => f rfl
  rw [hatt, List.cons.injEq, Option.some.injEq] at k3
  rw [ht', List.mem_map] at hin
  obtain ⟨r, hr, he⟩ := hin
  rw [Option.some.injEq] at he
  obtain ⟨pre', hpre'⟩ := hsha r hr (by rw [← hk r hr, he])
  have hl := record2Body_length hC r
  have hl' := record2Body_length hC r0
  have hbody : record2Body C r = record2Body C r0 := by
    have x1 : ∃ x, (f.contribute C rnd).encode C H = x ++ record2Body C r0 ++ r0.hash := by
      refine ⟨?_, ?_⟩
      rotate_left
      · unfold P2File.encode
        rw [show (f.contribute C rnd).records = f.records ++ [r0] by rw [hr0]; rfl]
        simp only [List.flatMap_append, List.flatMap_cons, List.flatMap_nil, List.append_nil, record2Bytes]
        simp only [← List.append_assoc]
        rfl
    obtain ⟨x, hx⟩ := x1
    have hq : out = (f.contribute C rnd).encode C H := hout
    rw [hq, hx] at hpre'
    have y1 : r0.hash.length = 32 := by rw [e6]; exact hC.sha_length _
    have y2 : attested.length = 32 := by rw [k3.1]; exact hC.sha_length _
    have z := List.append_inj' hpre' (by rw [y1, y2])
    exact (List.append_inj' z.1 (by rw [hl, hl'])).2.symm
  have hrr : r = r0 := record2Body_inj hC hbody (by rw [hk r hr, e6, hbody])
  obtain ⟨before, after, hsplit⟩ := List.append_of_mem hr
  refine ⟨before, r, after, hsplit, he, ?_⟩
  rw [hsplit] at hc'
  obtain ⟨ys, zs, -, hstep⟩ := chain2_split _ _ _ _ _ hc'
  have hh : (before.getLast?.map (·.hash)).getD [] = lastHash2 before := by
    unfold lastHash2
    cases before.getLast? <;> rfl
  rw [hh] at hstep
  clear hr0
  subst hrr
  cases zs with
  | nil => exact hstep.elim
  | cons z zs =>
    have f1 := factor_unique hC e3 hblind ⟨hstep.1.sx, hstep.1.spx⟩
    subst f1
    exact hstep.1

end
end

/-! ### concrete cases -/

section
variable {F G1 G2 GT : Type} [Field F] [AddCommGroup G1] [Module F G1] [AddCommGroup G2] [Module F G2] [AddCommGroup GT] [Module F GT]
variable [DecidableEq G1] [DecidableEq G2] [DecidableEq GT]
variable {C : Curve F G1 G2 GT}

theorem p1Verify_of {par : Par} {pol : Phase1.MsmPolicy} {b : Nat} {vr : Phase1.VerifyRand F} {input : Bytes} {tr : Option Bytes}
    (h : Phase1.verify C par pol b vr input tr = .ok ()) :
    p1Verify C par pol b vr input tr = (.ok (), (p1Verify C par pol b vr input tr).2) :=
  Prod.ext ((C58_same_programs C Gob.headerCodec par pol b ⟨0, 0, 0, 0, 0, 0⟩ vr ⟨0, 0⟩ ⟨fun _ _ => 0, fun _ _ => 0⟩ input [] tr).2.1.trans h) rfl

theorem p1Contribute_of {par : Par} {b : Nat} {rnd : Phase1.Rand F} {input out hash : Bytes}
    (h : Phase1.contribute C par b rnd input = (.ok hash, out)) :
    p1Contribute C par b rnd input = (.ok (), out, (p1Contribute C par b rnd input).2.2) := by
  obtain ⟨⟨h1, h2⟩, -⟩ := C58_same_programs C Gob.headerCodec par .strict b rnd ⟨fun _ _ => 0, fun _ _ => 0, fun _ _ => 0, fun _ _ => 0⟩ ⟨0, 0⟩
    ⟨fun _ _ => 0, fun _ _ => 0⟩ input [] none
  rw [h] at h1 h2
  exact Prod.ext h1 (Prod.ext h2 rfl)

theorem p2Verify_of {H : Phase2.HeaderCodec} {par : Par} {b : Nat} {vr : Phase2.VerifyRand F} {input origin : Bytes}
    (h : Phase2.verify C H par b vr input origin = .ok ()) :
    p2Verify C H par b vr input origin = (.ok (), (p2Verify C H par b vr input origin).2) :=
  Prod.ext ((C58_same_programs C H par .strict b ⟨0, 0, 0, 0, 0, 0⟩ ⟨fun _ _ => 0, fun _ _ => 0, fun _ _ => 0, fun _ _ => 0⟩ ⟨0, 0⟩ vr input
    origin none).2.2.2.trans h) rfl

theorem p2Contribute_of {H : Phase2.HeaderCodec} {par : Par} {b : Nat} {rnd : Phase2.Rand F} {input out hash : Bytes}
    (h : Phase2.contribute C H par b rnd input = (.ok hash, out)) :
    p2Contribute C H par b rnd input = (.ok (), out, (p2Contribute C H par b rnd input).2.2) := by
  obtain ⟨-, -, ⟨h1, h2⟩, -⟩ := C58_same_programs C H par .strict b ⟨0, 0, 0, 0, 0, 0⟩ ⟨fun _ _ => 0, fun _ _ => 0, fun _ _ => 0, fun _ _ => 0⟩ rnd
    ⟨fun _ _ => 0, fun _ _ => 0⟩ input [] none
  rw [h] at h1 h2
  exact Prod.ext h1 (Prod.ext h2 rfl)

end

namespace Toy

theorem one_accepted : Phase1.verify curve par .strict Phase1.batchSize vr (one.encode curve ++ [7]) none = .ok () :=
  ZkSetup.honest_accepted lawful one one_wf _ ((tracks_genesis 1 (by decide)).ceremony [rnd]) (by decide +kernel) par Phase1.batchSize (by decide)
    vr none rfl [7]

/-- what the verification of the first contribution prints -/
def oneLines : List String := (p1Verify curve par .strict Phase1.batchSize vr (one.encode curve ++ [7]) none).2

/-- what the verification of both contributions prints -/
def cleanLines : List String := (p1Verify curve par .strict Phase1.batchSize vr (clean.encode curve ++ []) none).2

theorem clean_accepted' : Phase1.verify curve par .strict Phase1.batchSize vr (clean.encode curve ++ []) none = .ok () := by
  rw [List.append_nil]; exact clean_accepted

theorem oneLines_hashes : trackedHashes oneLines = one.records.map (fun r => some r.hash) :=
  (p1_accepted lawful (by decide) one_wf (p1Verify_of one_accepted)).2

theorem cleanLines_hashes : trackedHashes cleanLines = clean.records.map (fun r => some r.hash) :=
  (p1_accepted lawful (by decide) clean_wf (p1Verify_of clean_accepted')).2

/-- what the first contributor sees -/
def ownLines : List String := (p1Contribute curve par Phase1.batchSize rnd ((P1File.init curve 1).encode curve ++ [])).2.2

theorem first_contribution : ∃ hash, Phase1.contribute curve par Phase1.batchSize rnd ((P1File.init curve 1).encode curve ++ []) =
    (.ok hash, one.encode curve) :=
  ⟨_, contribute_regular lawful par Phase1.batchSize (by decide) rnd (P1File.init curve 1) (init_wf curve 1 (by decide))
    (init_powers curve 1).regular (by decide) (by decide) []⟩

theorem ownLines_hash : attestedHashes ownLines = [some (lastHash one.records)] := by
  obtain ⟨hash, h⟩ := first_contribution
  obtain ⟨⟨⟨pre, body, k1, k2, k3⟩, -⟩, -⟩ := (C58_p1_contribute lawful par Phase1.batchSize rnd _ _ _ _ (p1Contribute_of h)).imp_left
    fun f => f rfl
  refine k3.trans ?_
  have x : curve.sha body = (one.encode curve).drop ((one.encode curve).length - 32) := by
    have hl := lawful.sha_length body
    rw [k1, List.length_append, hl, Nat.add_sub_cancel, List.drop_left]
  rw [x]
  decide +kernel

end Toy

open Phase1 (batchSize)

-- one of two contributions verified and kept, then both
example := C59_phase1_kept Toy.lawful Toy.par Toy.par .strict .strict batchSize batchSize (by decide) (by decide) Toy.vr Toy.vr Toy.one
  Toy.clean Toy.one_wf Toy.clean_wf [7] [] none none Toy.oneLines Toy.cleanLines (p1Verify_of Toy.one_accepted)
  (p1Verify_of Toy.clean_accepted') (by rw [Toy.oneLines_hashes, Toy.cleanLines_hashes]; decide +kernel) (by decide +kernel)

example := C59_phase1_attested_partial Toy.lawful Toy.par Toy.par .strict .strict batchSize batchSize (by decide) (by decide) Toy.vr Toy.vr
  Toy.one Toy.clean Toy.one_wf Toy.clean_wf [7] [] none none Toy.oneLines Toy.cleanLines (p1Verify_of Toy.one_accepted)
  (p1Verify_of Toy.clean_accepted') (lastHash Toy.one.records) (by rw [Toy.oneLines_hashes]; decide +kernel)
  (by rw [Toy.cleanLines_hashes]; decide +kernel) (by decide +kernel) (by decide +kernel) (by decide +kernel)

-- the first of two contributors finds their hash in the output for the final file
example : ∃ first before r after, Phase1.defaultContribution Toy.curve none = .ok first ∧ Toy.clean.records = before ++ r :: after ∧
    r.hash = lastHash Toy.one.records ∧
    StepBy Toy.curve (before.getLast?.getD first) r Toy.rnd.tau Toy.rnd.alpha Toy.rnd.beta := by
  obtain ⟨hash, h⟩ := Toy.first_contribution
  exact C59_phase1_secret_included Toy.lawful Toy.par Toy.par .strict batchSize batchSize (by decide) (by decide) Toy.rnd Toy.vr
    (P1File.init Toy.curve 1) Toy.clean (init_wf Toy.curve 1 (by decide)) (by decide) (by decide) Toy.clean_wf [] [] none _ Toy.ownLines
    Toy.cleanLines (p1Contribute_of h) (p1Verify_of Toy.clean_accepted') _ Toy.ownLines_hash
    (by rw [Toy.cleanLines_hashes]; decide +kernel) (by decide +kernel)
    (fun r hr e => ⟨(Toy.one.encode Toy.curve).take ((Toy.one.encode Toy.curve).length - 640), by
      revert r; decide +kernel⟩)

example := C59_phase1_points_not_pinned Toy.lawful Toy.clean Toy.clean_wf
  ⟨.inl (by decide +kernel), .inl (by decide +kernel), .inl (by decide +kernel), .inl (by decide +kernel)⟩
  (by decide +kernel) (Toy.clean.records.getLastD Phase1.Contribution.zero) (by decide +kernel) none Toy.par batchSize (by decide)
  Toy.vr _ (p1Verify_of Toy.clean_accepted) 2 (by decide) (by decide +kernel)

namespace Toy

/-- the file after the first contribution -/
def p2one : P2File K K := p2.ceremony curve [p2rnd]

theorem p2one_facts : p2one.WF ∧ p2one.records.length = 1 ∧ UpdateOf curve p2 p2one (deltaProduct [p2rnd]) [p2rnd.delta] :=
  ceremony2_facts lawful Gob.lawful p2 p2_wf rfl [p2rnd] (by decide)

theorem p2one_noStraddle : p2one.NoStraddle Gob.headerCodec := by decide +kernel

theorem p2one_accepted (junk junk' : Bytes) : Phase2.verify curve Gob.headerCodec par Phase1.batchSize p2vr
    (p2one.encode curve Gob.headerCodec ++ junk) (p2.encode curve Gob.headerCodec ++ junk') = .ok () :=
  verify2_update lawful Gob.lawful par Phase1.batchSize (by decide) p2vr p2 p2one p2_wf p2one_facts.1 p2one_noStraddle
    (by intro h; have := p2one_facts.2.1; rw [h] at this; simp at this) _ (by decide) _ p2one_facts.2.2 junk junk'

/-- what the verification of the first contribution prints -/
def p2oneLines : List String := (p2Verify curve Gob.headerCodec par Phase1.batchSize p2vr (p2one.encode curve Gob.headerCodec ++ [])
  (p2.encode curve Gob.headerCodec ++ [])).2

/-- what the verification of both contributions prints -/
def p2finalLines : List String := (p2Verify curve Gob.headerCodec par Phase1.batchSize p2vr (p2final.encode curve Gob.headerCodec ++ [])
  (p2.encode curve Gob.headerCodec ++ [])).2

theorem p2oneLines_hashes : trackedHashes p2oneLines = p2one.records.map (fun r => some r.hash) :=
  (p2_accepted lawful Gob.lawful (by decide) p2one_facts.1 p2_wf p2one_noStraddle (p2Verify_of (p2one_accepted [] []))).2

theorem p2finalLines_hashes : trackedHashes p2finalLines = p2final.records.map (fun r => some r.hash) :=
  (p2_accepted lawful Gob.lawful (by decide) p2final_wf p2_wf p2final_noStraddle (p2Verify_of (p2final_accepted [] []))).2

/-- what the first contributor sees -/
def p2ownLines : List String := (p2Contribute curve Gob.headerCodec par Phase1.batchSize p2rnd (p2.encode curve Gob.headerCodec ++ [])).2.2

theorem p2first : Phase2.contribute curve Gob.headerCodec par Phase1.batchSize p2rnd (p2.encode curve Gob.headerCodec ++ []) =
    (.ok (lastHash2 p2one.records), p2one.encode curve Gob.headerCodec) :=
  C29_first_contribution lawful Gob.lawful par Phase1.batchSize (by decide) p2rnd p2 p2_wf rfl []

theorem p2ownLines_hash : attestedHashes p2ownLines = [some (lastHash2 p2one.records)] := by
  obtain ⟨⟨⟨pre, body, k1, k2, k3⟩, -⟩, -⟩ := (C58_p2_contribute lawful Gob.headerCodec par Phase1.batchSize p2rnd _ _ _ _
    (p2Contribute_of p2first)).imp_left fun f => f rfl
  refine k3.trans ?_
  have x : curve.sha body = (p2one.encode curve Gob.headerCodec).drop ((p2one.encode curve Gob.headerCodec).length - 32) := by
    have hl := lawful.sha_length body
    rw [k1, List.length_append, hl, Nat.add_sub_cancel, List.drop_left]
  rw [x]
  decide +kernel

end Toy

example := C59_phase2_kept Toy.lawful Gob.lawful Toy.par Toy.par batchSize batchSize (by decide) (by decide) Toy.p2vr Toy.p2vr Toy.p2one
  Toy.p2final Toy.p2 Toy.p2 Toy.p2one_facts.1 Toy.p2final_wf Toy.p2_wf Toy.p2_wf Toy.p2one_noStraddle Toy.p2final_noStraddle [] [] [] []
  Toy.p2oneLines Toy.p2finalLines (p2Verify_of (Toy.p2one_accepted [] [])) (p2Verify_of (Toy.p2final_accepted [] []))
  (by rw [Toy.p2oneLines_hashes, Toy.p2finalLines_hashes]; decide +kernel) (by decide +kernel)

example := C59_phase2_attested_partial Toy.lawful Gob.lawful Toy.par Toy.par batchSize batchSize (by decide) (by decide) Toy.p2vr Toy.p2vr
  Toy.p2one Toy.p2final Toy.p2 Toy.p2 Toy.p2one_facts.1 Toy.p2final_wf Toy.p2_wf Toy.p2_wf Toy.p2one_noStraddle Toy.p2final_noStraddle [] [] [] []
  Toy.p2oneLines Toy.p2finalLines (p2Verify_of (Toy.p2one_accepted [] [])) (p2Verify_of (Toy.p2final_accepted [] []))
  (lastHash2 Toy.p2one.records) (by rw [Toy.p2oneLines_hashes]; decide +kernel) (by rw [Toy.p2finalLines_hashes]; decide +kernel)
  (by decide +kernel) (by decide +kernel) (by decide +kernel)

-- the first of two contributors finds their hash in the output for the final file
example : ∃ before r after, Toy.p2final.records = before ++ r :: after ∧ r.hash = lastHash2 Toy.p2one.records ∧
    Step2By Toy.curve ((before.getLast?.map (·.delta)).getD Toy.p2.delta1) (lastHash2 before) r Toy.p2rnd.delta := by
  have h := p2Contribute_of Toy.p2first
  have h' := p2Verify_of (Toy.p2final_accepted [] [])
  refine C59_phase2_secret_included Toy.lawful Gob.lawful Toy.par Toy.par batchSize batchSize (by decide) (by decide) Toy.p2rnd Toy.p2vr
    Toy.p2 Toy.p2final Toy.p2 Toy.p2_wf Toy.p2final_wf Toy.p2_wf (by decide +kernel) Toy.p2final_noStraddle [] [] [] _ Toy.p2ownLines
    Toy.p2finalLines h h' _ Toy.p2ownLines_hash ?_ ?_ ?_
  · rw [Toy.p2finalLines_hashes]; decide +kernel
  · decide +kernel
  · intro r hr e
    refine ⟨(Toy.p2one.encode Toy.curve Gob.headerCodec).take ((Toy.p2one.encode Toy.curve Gob.headerCodec).length - 192), ?_⟩
    revert r
    decide +kernel

example := C16_any_length_partial Toy.lawful Toy.par Toy.par .strict .strict batchSize batchSize (by decide) (by decide) Toy.vr Toy.vr
  Toy.clean Toy.clean Toy.clean_wf Toy.clean_wf [] [] none none Toy.clean_accepted' Toy.clean_accepted' rfl (by decide +kernel)
  (by decide +kernel) (by decide +kernel)

example := C35_any_length_partial Toy.lawful Gob.lawful Toy.par Toy.par batchSize batchSize (by decide) (by decide) Toy.p2vr Toy.p2vr
  Toy.p2final Toy.p2final Toy.p2 Toy.p2 Toy.p2final_wf Toy.p2final_wf Toy.p2_wf Toy.p2_wf Toy.p2final_noStraddle Toy.p2final_noStraddle
  [] [] [1] [] (Toy.p2final_accepted _ _) (Toy.p2final_accepted _ _) rfl (by decide +kernel) (by decide +kernel) (by decide +kernel)

/-- **C58**, `p1n`: the power announced is the first byte of the file written, and the number of constraints announced is `2^power`. -/
theorem C58_p1_initialize {F G1 G2 GT : Type} [Field F] [AddCommGroup G1] [Module F G1] [AddCommGroup G2] [Module F G2] [AddCommGroup GT]
    [Module F GT] [DecidableEq G1] [DecidableEq G2] [DecidableEq GT] {C : Curve F G1 G2 GT} (hC : C.Lawful) (p : UInt8) (hp : p.toNat ≤ 62) :
    (initializeOut p).head? = some ("Power " ++ toString p.toNat ++ " supports up to " ++ toString (2 ^ p.toNat) ++ " constraints") ∧
      (Phase1.initializeFile C p).head? = some p := by
  refine ⟨?_, ?_⟩
  · unfold initializeOut
    rw [goPow2_eq hp]
    rfl
  · rw [C05_initialize_encode hC p hp]
    rfl

example := C58_p1_initialize Toy.lawful 26 (by decide)

/-! ### concrete cases for C58 -/

-- a failing contribution: too few bytes
example := C58_p1_contribute Toy.lawful Toy.par batchSize Toy.rnd [1, 0, 0] _ _ _ rfl
example : (p1Contribute Toy.curve Toy.par batchSize Toy.rnd [1, 0, 0]).1 ≠ .ok () := by decide +kernel
example := C58_p1_verify Toy.lawful Toy.par .strict batchSize (by decide) Toy.vr Toy.one Toy.one_wf [7] none _ _ (p1Verify_of Toy.one_accepted)
example := C58_p1_verify_any Toy.lawful Toy.par .strict batchSize Toy.vr _ none _ (p1Verify_of Toy.one_accepted)
example : ReportsVerified Toy.oneLines :=
  (C58_p1_report Toy.curve Toy.par .strict batchSize Toy.vr _ none).mpr Toy.one_accepted
example := C58_p2_verify Toy.lawful Gob.lawful Toy.par batchSize (by decide) Toy.p2vr Toy.p2final Toy.p2 Toy.p2final_wf Toy.p2_wf
  Toy.p2final_noStraddle [] [] _ _ (p2Verify_of (Toy.p2final_accepted [] []))
example := C58_p2_verify_any Toy.lawful Gob.headerCodec Toy.par batchSize Toy.p2vr _ _ _ (p2Verify_of (Toy.p2final_accepted [] []))
example : ReportsVerified Toy.p2finalLines :=
  (C58_p2_report Toy.curve Gob.headerCodec Toy.par batchSize Toy.p2vr _ _).mpr (Toy.p2final_accepted [] [])
-- an origin without contributions is not accepted against itself, and the output does not say so
example : ¬ ReportsVerified (p2Verify Toy.curve Gob.headerCodec Toy.par batchSize Toy.p2vr (Toy.p2.encode Toy.curve Gob.headerCodec)
    (Toy.p2.encode Toy.curve Gob.headerCodec)).2 := by
  rw [C58_p2_report]
  decide +kernel

end ZkSetup
