import Verif.Props.AnyContribute
import Verif.Props.Phase2Undecodable
/-
C86: two contributions made to the same file. The printed hashes of at most one of them can be among those of an accepted file.
-/
set_option linter.unusedSectionVars false

namespace ZkSetup
open Console

section
variable {F G1 G2 GT : Type} [Field F] [AddCommGroup G1] [Module F G1] [AddCommGroup G2] [Module F G2] [AddCommGroup GT] [Module F GT]
variable [DecidableEq G1] [DecidableEq G2] [DecidableEq GT]
variable {C : Curve F G1 G2 GT} (hC : C.Lawful)
include hC

/-- two records of a chain whose proofs answer the same challenge are the same record -/
theorem chain_fork (rs : List (Phase1.Contribution G1 G2)) (prev : Phase1.Contribution G1 G2) (hp : prev.hash = []) (hc : ChainOk C prev rs)
    (h : Bytes) (hnd : ∀ r ∈ rs, Nondegenerate r) (hsha : ∀ r ∈ rs, ∀ r' ∈ rs, NoShaCollision C r r')
    (hg2 : ∀ r ∈ rs, ∀ x ∈ h :: [] :: rs.map (·.hash), ∀ x' ∈ h :: [] :: rs.map (·.hash), NoG2Collision C r x x')
    (r r' : Phase1.Contribution G1 G2) (hr : r ∈ rs) (hr' : r' ∈ rs)
    (hk : ∃ τ α β, ProvesScalar C r.pkTau h 1 τ ∧ ProvesScalar C r.pkAlpha h 2 α ∧ ProvesScalar C r.pkBeta h 3 β)
    (hk' : ∃ τ α β, ProvesScalar C r'.pkTau h 1 τ ∧ ProvesScalar C r'.pkAlpha h 2 α ∧ ProvesScalar C r'.pkBeta h 3 β) : r = r' := by
  have hmem : ∀ pre post : List (Phase1.Contribution G1 G2), rs = pre ++ post → lastHash pre ∈ h :: [] :: rs.map (·.hash) := by
    rintro pre post rfl
    cases pre using List.reverseRecOn <;> simp [lastHash]
  have key : ∀ q ∈ rs, (∃ τ α β, ProvesScalar C q.pkTau h 1 τ ∧ ProvesScalar C q.pkAlpha h 2 α ∧ ProvesScalar C q.pkBeta h 3 β) →
      ∃ pre post, rs = pre ++ q :: post ∧ lastHash pre = h ∧ ChainOk C prev pre := by
    rintro q hq ⟨τ, α, β, k1, k2, k3⟩
    obtain ⟨pre, post, e⟩ := List.append_of_mem hq
    refine ⟨pre, post, e, ?_, ?_⟩
    · have hl := hmem pre _ e
      rw [e] at hc
      obtain ⟨-, ⟨τ', α', β', hs⟩, -⟩ := (chainOk_split pre (q :: post) prev).mp hc
      have hh : (pre.getLast?.getD prev).hash = lastHash pre := by
        unfold lastHash
        cases pre.getLast? <;> simp [hp]
      have g := hg2 q hq _ hl h (by simp)
      rcases hnd q hq with n | n | n
      · exact g (q.pkTau, 1) (by simp) (provesScalar_challenge hC (hh ▸ hs.knowTau) k1 n)
      · exact g (q.pkAlpha, 2) (by simp) (provesScalar_challenge hC (hh ▸ hs.knowAlpha) k2 n)
      · exact g (q.pkBeta, 3) (by simp) (provesScalar_challenge hC (hh ▸ hs.knowBeta) k3 n)
    · rw [e] at hc
      exact ((chainOk_split pre (q :: post) prev).mp hc).1
  obtain ⟨pre, post, e, hl, hcp⟩ := key r hr hk
  obtain ⟨pre', post', e', hl', hcp'⟩ := key r' hr' hk'
  have hin : ∀ x ∈ pre, x ∈ rs := fun x hx => by rw [e]; simp [hx]
  have hin' : ∀ x ∈ pre', x ∈ rs := fun x hx => by rw [e']; simp [hx]
  have hinh : ∀ (l : List (Phase1.Contribution G1 G2)), (∀ x ∈ l, x ∈ rs) → ∀ x ∈ [] :: l.map (·.hash), x ∈ h :: [] :: rs.map (·.hash) := by
    intro l hl x hx
    simp only [List.mem_cons, List.mem_map] at hx ⊢
    rcases hx with rfl | ⟨y, hy, rfl⟩
    · simp
    · exact .inr (.inr ⟨y, hl y hy, rfl⟩)
  have hpp : pre = pre' := chain_binding_any hC pre pre' prev prev hp hp hcp hcp' (hl.trans hl'.symm) (fun x hx => hnd x (hin x hx))
    (fun x hx y hy => hsha x (hin x hx) y (hin' y hy))
    (fun x hx y hy y' hy' => hg2 x (hin x hx) y (hinh pre hin y hy) y' (hinh pre' hin' y' hy'))
  subst hpp
  rw [e] at e'
  exact (List.cons.inj (List.append_cancel_left e')).1

/-- the record of a contribution is the only one with the attested hash -/
theorem attested_record (par : Par) (b : Nat) (hb : 2 ≤ b) (rnd : Phase1.Rand F) (f : P1File G1 G2) (hf : f.WF) (hpow : 1 ≤ f.power.toNat)
    (input : Bytes) (hin : f.ReadIn C input) (a out : Bytes) (h : Phase1.contribute C par b rnd input = (.ok a, out))
    (r : Phase1.Contribution G1 G2) (hr : r.hash = C.sha (recordBody C r)) (ha : r.hash = a)
    (hsha : C.sha (recordBody C r) = a → ∃ pre, out = pre ++ recordBody C r ++ a) :
    r.pkTau = proofOf C rnd.tau rnd.sTau (lastHash f.records) 1 ∧ r.pkAlpha = proofOf C rnd.alpha rnd.sAlpha (lastHash f.records) 2 ∧
      r.pkBeta = proofOf C rnd.beta rnd.sBeta (lastHash f.records) 3 := by
  obtain ⟨t1, a1, b1, t2, e, -⟩ := contribute_bytes hC par b hb rnd f hf hpow
  replace e := e []
  rw [List.append_nil, ← C80_p1c_same hC par b hb rnd f hf hpow input hin, h, Prod.mk.injEq, Except.ok.injEq] at e
  obtain ⟨e1, e2⟩ := e
  obtain ⟨pre, hpre⟩ := hsha (by rw [← hr, ha])
  rw [e2, recordBytes, ← List.append_assoc] at hpre
  have z := List.append_inj' hpre (by rw [e1])
  have hb' := (List.append_inj' z.1 (by rw [recordBody_length hC, recordBody_length hC])).2
  have := recordBody_inj hC hb'.symm (by rw [ha, e1])
  subst this
  exact ⟨rfl, rfl, rfl⟩

/-- **C86**, phase 1 (partial: the records of the accepted file must be nondegenerate). Two contributors have run `p1c`, each on bytes that end
in the same last hash, in particular both on the same file, and the printed hashes are different. If one of them is among those printed for an
accepted file, the other one is not: of two different contributions to the same file at most one can be in a ceremony. (No collision of SHA-256
or of hash-to-G2.)
Missing: degenerate records; `C86_phase1_fork` shows that it is false for them. -/
theorem C86_phase1_partial (par par' par'' : Par) (pol : Phase1.MsmPolicy) (b b' b'' : Nat) (hb : 2 ≤ b) (hb' : 2 ≤ b') (hb'' : 0 < b'')
    (rnd rnd' : Phase1.Rand F) (vr : Phase1.VerifyRand F) (f f' g : P1File G1 G2) (hf : f.WF) (hf' : f'.WF) (hg : g.WF)
    (hpow : 1 ≤ f.power.toNat) (hpow' : 1 ≤ f'.power.toNat) (input input' junk : Bytes) (hin : f.ReadIn C input) (hin' : f'.ReadIn C input')
    (hlast : lastHash f.records = lastHash f'.records) (tr : Option Bytes) (a a' out out' : Bytes) (lines : List String)
    (h : Phase1.contribute C par b rnd input = (.ok a, out)) (h' : Phase1.contribute C par' b' rnd' input' = (.ok a', out'))
    (hv : p1Verify C par'' pol b'' vr (g.encode C ++ junk) tr = (.ok (), lines))
    (hne : a ≠ a') (ha : some a ∈ trackedHashes lines)
    (hnd : ∀ r ∈ g.records, Nondegenerate r) (hsha : ∀ r ∈ g.records, ∀ r' ∈ g.records, NoShaCollision C r r')
    (hs1 : ∀ r ∈ g.records, C.sha (recordBody C r) = a → ∃ pre, out = pre ++ recordBody C r ++ a)
    (hs2 : ∀ r ∈ g.records, C.sha (recordBody C r) = a' → ∃ pre, out' = pre ++ recordBody C r ++ a')
    (hg2 : ∀ r ∈ g.records, ∀ x ∈ lastHash f.records :: [] :: g.records.map (·.hash),
      ∀ x' ∈ lastHash f.records :: [] :: g.records.map (·.hash), NoG2Collision C r x x') : some a' ∉ trackedHashes lines := by
  intro ha'
  refine hne ?_
  obtain ⟨⟨p, -, hp, hc⟩, ht⟩ := p1_accepted hC hb'' hg hv
  have hk := chainOk_hash _ _ hc
  rw [ht, List.mem_map] at ha ha'
  obtain ⟨r, hr, he⟩ := ha
  obtain ⟨r', hr', he'⟩ := ha'
  rw [Option.some.injEq] at he he'
  obtain ⟨k1, k2, k3⟩ := attested_record hC par b hb rnd f hf hpow input hin a out h r (hk r hr) he (hs1 r hr)
  obtain ⟨k1', k2', k3'⟩ := attested_record hC par' b' hb' rnd' f' hf' hpow' input' hin' a' out' h' r' (hk r' hr') he' (hs2 r' hr')
  rw [← hlast] at k1' k2' k3'
  have := chain_fork hC g.records p hp hc (lastHash f.records) hnd hsha hg2 r r' hr hr'
    ⟨rnd.tau, rnd.alpha, rnd.beta, by rw [k1]; exact provesScalar_proofOf .., by rw [k2]; exact provesScalar_proofOf ..,
      by rw [k3]; exact provesScalar_proofOf ..⟩
    ⟨rnd'.tau, rnd'.alpha, rnd'.beta, by rw [k1']; exact provesScalar_proofOf .., by rw [k2']; exact provesScalar_proofOf ..,
      by rw [k3']; exact provesScalar_proofOf ..⟩
  rw [← he, ← he', this]

/-- **C86, negation, phase 1**: whatever the hash functions and whatever the first contributor draws (with `τ ≠ 0`), a second contribution
made to the same initial file, with all values 0, can be in the same accepted file: both hashes are printed, and the two contributions are
different. -/
theorem C86_phase1_fork (par par' : Par) (b b' : Nat) (hb : 2 ≤ b) (hb' : 2 ≤ b') (p : UInt8) (hp1 : 1 ≤ p.toNat) (hp : p.toNat ≤ 62)
    (rnd : Phase1.Rand F) (hτ : rnd.tau ≠ 0) :
    ∃ (a a' out out' : Bytes) (r r' : Phase1.Contribution G1 G2) (g : P1File G1 G2),
      Phase1.contribute C par b rnd (Phase1.initializeFile C p) = (.ok a, out) ∧
      Phase1.contribute C par' b' ⟨0, 0, 0, 0, 0, 0⟩ (Phase1.initializeFile C p) = (.ok a', out') ∧
      g.WF ∧ g.records = [r, r'] ∧ a = C.sha (recordBody C r) ∧ a' = C.sha (recordBody C r') ∧ recordBody C r ≠ recordBody C r' ∧
      ∀ (par'' : Par) (b'' : Nat) (_ : 0 < b'') (vr : Phase1.VerifyRand F), ∃ lines,
        p1Verify C par'' .strict b'' vr (g.encode C) none = (.ok (), lines) ∧ trackedHashes lines = [some a, some a'] := by
  obtain ⟨z, hz⟩ : ∃ z : Phase1.Rand F, z = ⟨0, 0, 0, 0, 0, 0⟩ := ⟨_, rfl⟩
  have zero_record : ∀ f : P1File G1 G2, (f.contribute C z).records = f.records ++ [zeroRecord C] := by
    intro f
    have get0 : ∀ {G : Type} [AddCommGroup G] [Module F G] (ps : List G) (i : Nat) (m : F), (m = 0 ∨ i ≠ 0) →
        (scaled m (0 : F) ps).getD i 0 = 0 := by
      intro G _ _ ps i m hm
      have : (m * 0 ^ i : F) = 0 := by
        rcases hm with rfl | hi
        · simp
        · simp [hi]
      rw [scaled, List.getD_eq_getElem?_getD, List.getElem?_mapIdx]
      cases ps[i]? <;> simp [this]
    have hpf : ∀ d : UInt8, proofOf C (0 : F) 0 (lastHash f.records) d = ⟨0, 0, 0⟩ := by
      intro d; simp [proofOf]
    subst hz
    simp only [P1File.contribute, P1File.update, newRecord, zero_smul, hpf]
    rw [get0 _ 1 1 (by simp), get0 _ 0 0 (by simp), get0 _ 0 0 (by simp), get0 _ 1 1 (by simp)]
    rfl
  have hw := init_wf C p hp
  have hreg := (init_powers C p).regular
  have e1 := contribute_regular hC par b hb rnd (P1File.init C p) hw hreg hp1 (by simp [P1File.init]) []
  have e2 := contribute_regular hC par' b' hb' z (P1File.init C p) hw hreg hp1 (by simp [P1File.init]) []
  rw [List.append_nil, ← C05_initialize_encode hC p hp] at e1 e2
  obtain ⟨hgw, -, -, -⟩ := ceremony_inv hC [rnd, z] (P1File.init C p) hw hreg (by simp [P1File.init])
  have hgt := (tracks_genesis (C := C) p hp1).ceremony [rnd, z]
  obtain ⟨r, hr⟩ : ∃ r, ((P1File.init C p).contribute C rnd).records = [r] ∧ r.hash = C.sha (recordBody C r) ∧ r.g1Tau = rnd.tau • C.g1 := by
    refine ⟨_, rfl, rfl, ?_⟩
    have hl : 1 < 2 * 2 ^ p.toNat - 1 := by
      have : 2 ^ 1 ≤ 2 ^ p.toNat := Nat.pow_le_pow_right (by omega) hp1
      omega
    show (scaled 1 rnd.tau (P1File.init C p).tauG1).getD 1 0 = _
    simp [scaled, P1File.init, List.getD_eq_getElem?_getD, List.getElem?_mapIdx, List.getElem?_replicate, hl]
  obtain ⟨hr, hrh, hrt⟩ := hr
  have hrec : ((P1File.init C p).ceremony C [rnd, z]).records = [r, zeroRecord C] := by
    rw [P1File.ceremony, List.foldl_cons, List.foldl_cons, List.foldl_nil, zero_record, hr]
    rfl
  have ha : lastHash ((P1File.init C p).contribute C rnd).records = C.sha (recordBody C r) := by
    rw [hr]; exact hrh
  have ha' : lastHash ((P1File.init C p).contribute C z).records = C.sha (recordBody C (zeroRecord C)) := by
    rw [zero_record]; rfl
  rw [ha] at e1
  rw [ha'] at e2
  rw [hz] at e2
  refine ⟨_, _, _, _, r, zeroRecord C, _, e1, e2, hgw, hrec, rfl, rfl, ?_, ?_⟩
  · intro h
    have := recordBody_inj hC (r := { r with hash := [] }) (r' := { zeroRecord C with hash := [] }) h rfl
    have := congrArg Phase1.Contribution.g1Tau this
    simp only [hrt, zeroRecord, Phase1.Contribution.zero] at this
    rw [← zero_smul F C.g1, smul_g1_inj hC] at this
    exact hτ this
  · intro par'' b'' hb'' vr
    have hv := honest_accepted hC _ hgw (genesis C) hgt (by rw [hrec]; simp) par'' b'' hb'' vr none rfl []
    have hv' := p1Verify_of hv
    have ht := (p1_accepted hC hb'' hgw hv').2
    rw [hrec] at ht
    rw [List.append_nil] at hv' ht
    refine ⟨_, hv', ?_⟩
    rw [ht, ← hrh]
    rfl

end

/-! ### phase 2 -/

section
open Phase2
variable {F G1 G2 GT : Type} [Field F] [AddCommGroup G1] [Module F G1] [AddCommGroup G2] [Module F G2] [AddCommGroup GT] [Module F GT]
variable [DecidableEq G1] [DecidableEq G2] [DecidableEq GT]
variable {C : Curve F G1 G2 GT} (hC : C.Lawful)
include hC

/-- two records of a chain whose proofs answer the same challenge are the same record -/
theorem chain2_fork (rs : List (Contribution G1 G2)) (d : G1) (xs : List F) (hc : Chain2By C d [] rs xs) (h : Bytes)
    (hnd : ∀ r ∈ rs, r.pk.sx ≠ 0) (hsha : ∀ r ∈ rs, ∀ r' ∈ rs, NoShaCollision2 C r r')
    (hg2 : ∀ r ∈ rs, ∀ x ∈ h :: [] :: rs.map (·.hash), ∀ x' ∈ h :: [] :: rs.map (·.hash), NoG2Collision2 C r x x')
    (r r' : Contribution G1 G2) (hr : r ∈ rs) (hr' : r' ∈ rs)
    (hk : ∃ x, ProvesScalar C r.pk h 1 x) (hk' : ∃ x, ProvesScalar C r'.pk h 1 x) : r = r' := by
  have hmem : ∀ pre post : List (Contribution G1 G2), rs = pre ++ post → lastHash2 pre ∈ h :: [] :: rs.map (·.hash) := by
    rintro pre post rfl
    cases pre using List.reverseRecOn <;> simp [lastHash2]
  have key : ∀ q ∈ rs, (∃ x, ProvesScalar C q.pk h 1 x) →
      ∃ pre post ys, rs = pre ++ q :: post ∧ lastHash2 pre = h ∧ Chain2By C d [] pre ys := by
    rintro q hq ⟨x, k⟩
    obtain ⟨pre, post, e⟩ := List.append_of_mem hq
    have hl := hmem pre _ e
    rw [e] at hc
    obtain ⟨ys, zs, c1, c2⟩ := chain2_split pre (q :: post) _ _ _ hc
    refine ⟨pre, post, ys, e, ?_, c1⟩
    have hh : (pre.getLast?.map (·.hash)).getD [] = lastHash2 pre := by
      unfold lastHash2
      cases pre.getLast? <;> rfl
    rw [hh] at c2
    cases zs with
    | nil => exact c2.elim
    | cons z zs => exact hg2 q hq _ hl h (by simp) (provesScalar_challenge hC ⟨c2.1.sx, c2.1.spx⟩ k (hnd q hq))
  obtain ⟨pre, post, ys, e, hl, hcp⟩ := key r hr hk
  obtain ⟨pre', post', ys', e', hl', hcp'⟩ := key r' hr' hk'
  have hin : ∀ x ∈ pre, x ∈ rs := fun x hx => by rw [e]; simp [hx]
  have hin' : ∀ x ∈ pre', x ∈ rs := fun x hx => by rw [e']; simp [hx]
  have hinh : ∀ (l : List (Contribution G1 G2)), (∀ x ∈ l, x ∈ rs) → ∀ x ∈ [] :: l.map (·.hash), x ∈ h :: [] :: rs.map (·.hash) := by
    intro l hl x hx
    simp only [List.mem_cons, List.mem_map] at hx ⊢
    rcases hx with rfl | ⟨y, hy, rfl⟩
    · simp
    · exact .inr (.inr ⟨y, hl y hy, rfl⟩)
  have hpp : pre = pre' := chain2_binding_any hC pre pre' d d ys ys' hcp hcp' (hl.trans hl'.symm) (fun x hx => hnd x (hin x hx))
    (fun x hx y hy => hsha x (hin x hx) y (hin' y hy))
    (fun x hx y hy y' hy' => hg2 x (hin x hx) y (hinh pre hin y hy) y' (hinh pre' hin' y' hy'))
  subst hpp
  rw [e] at e'
  exact (List.cons.inj (List.append_cancel_left e')).1

variable {H : HeaderCodec} (hH : H.Lawful)
include hH

/-- the record of a contribution is the only one with the attested hash -/
theorem attested_record2 (par : Par) (b : Nat) (hb : 0 < b) (rnd : Rand F) (f : P2File G1 G2) (hd : Header)
    (input : Bytes) (hin : f.ReadIn C H hd input) (a out : Bytes) (h : Phase2.contribute C H par b rnd input = (.ok a, out))
    (r : Contribution G1 G2) (hr : r.hash = C.sha (record2Body C r)) (ha : r.hash = a)
    (hsha : C.sha (record2Body C r) = a → ∃ pre, out = pre ++ record2Body C r ++ a) :
    r.pk = proofOf C rnd.delta rnd.s (lastHash2 f.records) 1 := by
  have e := C80_p2c_writes hC hH par b hb rnd f hd input hin
  rw [h, Prod.mk.injEq, Except.ok.injEq] at e
  obtain ⟨e1, e2⟩ := e
  obtain ⟨pre, hpre⟩ := hsha (by rw [← hr, ha])
  have hx : (f.contribute C rnd).records = f.records ++ [newRecord2 C rnd (lastHash2 f.records) (rnd.delta • f.delta1)] := rfl
  rw [hx, lastHash2_append] at e1
  rw [e2, hx, List.flatMap_append, List.flatMap_cons, List.flatMap_nil, List.append_nil, record2Bytes, ← List.append_assoc,
    ← List.append_assoc] at hpre
  have z := List.append_inj' hpre (by rw [e1])
  have hb' := (List.append_inj' z.1 (by rw [record2Body_length hC, record2Body_length hC])).2
  have := record2Body_inj hC hb'.symm (by rw [ha, e1])
  subst this
  rfl

/-- **C86**, phase 2 (partial: `SX ≠ 0` in the records of the accepted bytes), for any accepted bytes, also with hashes across a buffer
boundary; `rs` are the records read. Missing: records with `SX = 0`; `C86_phase2_fork` shows that it is false for them. -/
theorem C86_phase2_partial (par par' par'' : Par) (b b' b'' : Nat) (hb : 0 < b) (hb' : 0 < b') (hb'' : 0 < b'')
    (rnd rnd' : Rand F) (vr : VerifyRand F) (f f' o : P2File G1 G2) (hd hd' : Header) (ho : o.WF)
    (input input' final junk : Bytes) (hin : f.ReadIn C H hd input) (hin' : f'.ReadIn C H hd' input')
    (hlast : lastHash2 f.records = lastHash2 f'.records) (a a' out out' : Bytes) (lines : List String)
    (h : Phase2.contribute C H par b rnd input = (.ok a, out)) (h' : Phase2.contribute C H par' b' rnd' input' = (.ok a', out'))
    (hv : p2Verify C H par'' b'' vr final (o.encode C H ++ junk) = (.ok (), lines))
    (hne : a ≠ a') (ha : some a ∈ trackedHashes lines)
    (rs : List (Contribution G1 G2)) (hrs : HasRecords C H final rs)
    (hnd : ∀ r ∈ rs, r.pk.sx ≠ 0) (hsha : ∀ r ∈ rs, ∀ r' ∈ rs, NoShaCollision2 C r r')
    (hs1 : ∀ r ∈ rs, C.sha (record2Body C r) = a → ∃ pre, out = pre ++ record2Body C r ++ a)
    (hs2 : ∀ r ∈ rs, C.sha (record2Body C r) = a' → ∃ pre, out' = pre ++ record2Body C r ++ a')
    (hg2 : ∀ r ∈ rs, ∀ x ∈ lastHash2 f.records :: [] :: rs.map (·.hash),
      ∀ x' ∈ lastHash2 f.records :: [] :: rs.map (·.hash), NoG2Collision2 C r x x') : some a' ∉ trackedHashes lines := by
  intro ha'
  refine hne ?_
  obtain ⟨⟨xs, hc⟩, ht⟩ := p2_accepted_bytes hC hH hb'' ho hv hrs
  have hk := chain2_hash _ _ _ _ hc
  rw [ht, List.mem_map] at ha ha'
  obtain ⟨r, hr, he⟩ := ha
  obtain ⟨r', hr', he'⟩ := ha'
  rw [Option.some.injEq] at he he'
  have k := attested_record2 hC hH par b hb rnd f hd input hin a out h r (hk r hr) he (hs1 r hr)
  have k' := attested_record2 hC hH par' b' hb' rnd' f' hd' input' hin' a' out' h' r' (hk r' hr') he' (hs2 r' hr')
  rw [← hlast] at k'
  have := chain2_fork hC rs _ xs hc (lastHash2 f.records) hnd hsha hg2 r r' hr hr'
    ⟨rnd.delta, by rw [k]; exact provesScalar_proofOf ..⟩ ⟨rnd'.delta, by rw [k']; exact provesScalar_proofOf ..⟩
  rw [← he, ← he', this]

omit hH in
/-- the record of a contribution with `δ = 0` is a step after anything -/
theorem zeroDelta_step (x s : F) (ch ch' : Bytes) (d d' : G1) (hx : x = 0) :
    Step2By C d' ch' (newRecord2 C ⟨x, s⟩ ch (x • d)) 0 := by
  subst hx
  refine ⟨?_, ?_, ?_, ?_⟩ <;> simp [newRecord2, proofOf, record2Body]

/-- **C86, negation, phase 2**: whatever the hash functions, against every initial file with nonempty Z and PKK, whatever the first contributor
draws (with `δ ≠ 0`), a second contribution made to the same initial file with `δ = 0` can be in the same accepted bytes, although the two are
different. (The accepted bytes are those of C34, with a point that does not decode; the condition on positions is that of `P2File.NoStraddle`
for two records.) -/
theorem C86_phase2_fork {bad : Bytes} (hbad : BadPoint C.c1 bad) (o : P2File G1 G2) (ho : o.WF) (h0 : o.records = []) (hg : o.delta1 ≠ 0)
    (hz : o.z ≠ []) (hk : o.pkk ≠ [])
    (hs : ∀ j < 2, ((H.enc { o.header with contributions := 2 }).length + 32 + 64 + 32 * o.z.length + 32 * o.pkk.length
      + 192 * j + 160) % 4096 + 32 ≤ 4096)
    (par par' : Par) (b b' : Nat) (hb : 0 < b) (hb' : 0 < b') (rnd : Rand F) (hd : rnd.delta ≠ 0) (s : F) :
    ∃ (a a' out out' : Bytes) (zs ks : List G1) (r r' : Contribution G1 G2),
      Phase2.contribute C H par b rnd (o.encode C H) = (.ok a, out) ∧
      Phase2.contribute C H par' b' ⟨0, s⟩ (o.encode C H) = (.ok a', out') ∧
      r.hash = a ∧ r'.hash = a' ∧ a = C.sha (record2Body C r) ∧ a' = C.sha (record2Body C r') ∧ record2Body C r ≠ record2Body C r' ∧
      ∀ (par'' : Par) (b'' : Nat) (_ : 0 < b'') (vr : VerifyRand F),
        Phase2.verify C H par'' b'' vr (undecodable C H { o.header with contributions := 2 } 0 0 zs ks bad
          (record2Bytes C r ++ record2Bytes C r')) (o.encode C H) = .ok () := by
  have e1 := C29_first_contribution hC hH par b hb rnd o ho h0 []
  have e2 := C29_first_contribution hC hH par' b' hb' ⟨0, s⟩ o ho h0 []
  rw [List.append_nil] at e1 e2
  have l1 : ∀ rnd : Rand F, lastHash2 (o.contribute C rnd).records = (newRecord2 C rnd [] (rnd.delta • o.delta1)).hash := by
    intro rnd
    simp [P2File.contribute, h0, lastHash2]
  rw [l1] at e1 e2
  refine ⟨_, _, _, _, List.replicate (o.z.length - 1) 0, List.replicate (o.pkk.length - 1) 0, _, _, e1, e2, rfl, rfl, rfl, rfl, ?_, ?_⟩
  · intro h
    have := record2Body_inj hC (r := { newRecord2 C rnd [] (rnd.delta • o.delta1) with hash := [] })
      (r' := { newRecord2 C ⟨0, s⟩ [] ((0 : F) • o.delta1) with hash := [] }) h rfl
    have := congrArg Contribution.delta this
    simp only [newRecord2, zero_smul] at this
    obtain ⟨y, hy⟩ := hC.span1 o.delta1
    rw [hy, smul_smul, ← zero_smul F C.g1, smul_g1_inj hC] at this
    rcases mul_eq_zero.mp this with h | h
    · exact hd h
    · exact hg (by rw [hy, h, zero_smul])
  · intro par b hb vr
    have hr : ({ o.header with contributions := 2 } : Header).InRange := by
      have := P2File.header_inRange hC hH ho
      exact ⟨this.1, this.2, this.3, this.4, this.5, this.6, by constructor <;> norm_num⟩
    have he : ({ o.header with contributions := 2 } : Header).equal o.header = true := by
      rw [Header.equal, decide_eq_true_iff]; simp
    have hzl := List.length_pos_iff.mpr hz
    have hkl := List.length_pos_iff.mpr hk
    obtain ⟨r, er⟩ : ∃ r, r = newRecord2 C rnd [] (rnd.delta • o.delta1) := ⟨_, rfl⟩
    obtain ⟨r', er'⟩ : ∃ r', r' = newRecord2 C ⟨0, s⟩ [] ((0 : F) • o.delta1) := ⟨_, rfl⟩
    have hy : Step2By C o.delta1 [] r rnd.delta := by rw [er]; exact newRecord2_step rnd [] o.delta1
    have hy' : ∀ d h, Step2By C d h r' 0 := fun d h => by rw [er']; exact zeroDelta_step hC 0 s [] h o.delta1 d rfl
    have hl1 : r.hash.length = 32 := by rw [er]; exact hC.sha_length _
    have hl2 : r'.hash.length = 32 := by rw [er']; exact hC.sha_length _
    rw [← er, ← er']
    have := verify2_undecodable hC hH hbad par b hb vr o ho _ hr (by simp) he 0 0
      (by rw [e_zero_right hC, e_zero_left hC]) (List.replicate (o.z.length - 1) 0) (List.replicate (o.pkk.length - 1) 0)
      (by simp; omega) (by simp; omega) (record2Bytes C r ++ record2Bytes C r') []
    rw [List.append_nil] at this
    rw [this]
    have hl := (verifyLoop2_iff hC [r, r'] Contribution.zero o.delta1 [] 4096
      ((H.enc { o.header with contributions := 2 }).length + 32 + 64 + 32 * o.z.length + 32 * o.pkk.length) []
      (by
        intro q hq
        simp only [List.mem_cons, List.not_mem_nil, or_false] at hq
        rcases hq with rfl | rfl
        · exact hl1
        · exact hl2) (fun j hj => .inr (hs j hj))).1 ⟨[rnd.delta, 0], hy, hy' _ _, trivial⟩
    simp only [List.flatMap_cons, List.flatMap_nil, List.append_nil] at hl
    exact ⟨_, _, hl, by rw [er']; simp [newRecord2]⟩

end

/-! ### concrete cases -/

open Phase1 (batchSize)

namespace Toy

theorem init_readIn : (P1File.init curve 1).ReadIn curve ((P1File.init curve 1).encode curve) := by
  have := C80_p1_written lawful _ (init_wf curve 1 (by decide)) _ (C72_p1_compressed (C := curve) _ (init_wf curve 1 (by decide)) [])
  rwa [List.append_nil] at this

/-- the file of a second contributor who also starts from the initial file -/
def forked : P1File K K := (P1File.init curve 1).contribute curve rnd'

theorem contributed (r : Phase1.Rand K) : Phase1.contribute curve par Phase1.batchSize r ((P1File.init curve 1).encode curve) =
    (.ok (lastHash ((P1File.init curve 1).contribute curve r).records), ((P1File.init curve 1).contribute curve r).encode curve) := by
  have := contribute_regular lawful par Phase1.batchSize (by decide) r (P1File.init curve 1) (init_wf curve 1 (by decide))
    (init_powers curve 1).regular (by decide) (by decide) []
  rwa [List.append_nil] at this

theorem p2contributed (r : Phase2.Rand K) : Phase2.contribute curve Gob.headerCodec par Phase1.batchSize r (p2.encode curve Gob.headerCodec) =
    (.ok (lastHash2 (p2.contribute curve r).records), (p2.contribute curve r).encode curve Gob.headerCodec) := by
  have := C29_first_contribution lawful Gob.lawful par Phase1.batchSize (by decide) r p2 p2_wf rfl []
  rwa [List.append_nil] at this

end Toy

-- two contributors start from the initial file; the ceremony goes on with the first one, so the hash of the second one is not printed
example : some (lastHash Toy.forked.records) ∉ trackedHashes Toy.cleanLines :=
  C86_phase1_partial Toy.lawful Toy.par Toy.par Toy.par .strict batchSize batchSize batchSize (by decide) (by decide) (by decide)
    Toy.rnd Toy.rnd' Toy.vr (P1File.init Toy.curve 1) (P1File.init Toy.curve 1) Toy.clean (init_wf Toy.curve 1 (by decide))
    (init_wf Toy.curve 1 (by decide)) Toy.clean_wf (by decide) (by decide) _ _ [] Toy.init_readIn Toy.init_readIn rfl none _ _ _ _ Toy.cleanLines
    (Toy.contributed Toy.rnd) (Toy.contributed Toy.rnd')
    (p1Verify_of Toy.clean_accepted') (by decide +kernel) (by rw [Toy.cleanLines_hashes]; decide +kernel)
    (by decide +kernel) (by decide +kernel)
    (fun r hr e => ⟨(Toy.one.encode Toy.curve).take ((Toy.one.encode Toy.curve).length - 640), by revert r; decide +kernel⟩)
    (fun r hr e => ⟨[], by revert r; decide +kernel⟩)
    (by decide +kernel)

example : some (lastHash2 (Toy.p2.contribute Toy.curve ⟨5, 7⟩).records) ∉ trackedHashes Toy.p2finalLines := by
  have hin : Toy.p2.ReadIn Toy.curve Gob.headerCodec Toy.p2.header (Toy.p2.encode Toy.curve Gob.headerCodec) := by
    have := C80_p2_written Toy.lawful Gob.lawful _ Toy.p2_wf _ (p2_written Toy.lawful Gob.headerCodec Toy.p2 Toy.p2_wf _ (.inl rfl) []
      (by decide +kernel))
    simpa [P2File.encode, P2File.params] using this
  refine C86_phase2_partial Toy.lawful Gob.lawful Toy.par Toy.par Toy.par batchSize batchSize batchSize (by decide) (by decide) (by decide)
    Toy.p2rnd ⟨5, 7⟩ Toy.p2vr Toy.p2 Toy.p2 Toy.p2 _ _ Toy.p2_wf _ _ _ [] hin hin rfl _ _ _ _ Toy.p2finalLines
    (Toy.p2contributed Toy.p2rnd) (Toy.p2contributed ⟨5, 7⟩) (p2Verify_of (Toy.p2final_accepted [] [])) (by decide +kernel)
    (by rw [Toy.p2finalLines_hashes]; decide +kernel) Toy.p2final.records (Toy.p2final_records []) (by decide +kernel) (by decide +kernel)
    (fun r hr e => ⟨(Toy.p2one.encode Toy.curve Gob.headerCodec).take ((Toy.p2one.encode Toy.curve Gob.headerCodec).length - 192), by
      revert r; decide +kernel⟩)
    (fun r hr e => ⟨[], by revert r; decide +kernel⟩)
    (by decide +kernel)

example := C86_phase1_fork Toy.lawful Toy.par Toy.par batchSize batchSize (by decide) (by decide) 2 (by decide) (by decide) Toy.rnd (by decide)

example := C86_phase2_fork Toy.lawful Gob.lawful Toy.bad_bad Toy.p2 Toy.p2_wf rfl (by decide) (by decide) (by decide) (by decide +kernel)
  Toy.par Toy.par batchSize batchSize (by decide) (by decide) Toy.p2rnd (by decide) 3

end ZkSetup
