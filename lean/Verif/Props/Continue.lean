import Verif.Props.Phase1Sound
import Verif.Props.Phase2Undecodable
/-
C56: an honest contribution to an accepted file yields an accepted file.
-/
set_option linter.unusedSectionVars false

namespace ZkSetup

/-- The file's `[τ]1, [α]1, [β]1, [τ]2` are the ones of `last` (positions 1, 0, 0, 1 of the sections). -/
structure P1File.HoldsPointsOf {G1 G2 : Type} [Zero G1] [Zero G2] (f : P1File G1 G2)
    (last : Phase1.Contribution G1 G2) : Prop where
  g1Tau : f.tauG1.getD 1 0 = last.g1Tau
  g1Alpha : f.alphaG1.getD 0 0 = last.g1Alpha
  g1Beta : f.betaG1.getD 0 0 = last.g1Beta
  g2Tau : f.tauG2.getD 1 0 = last.g2Tau

section
open Phase1
variable {F G1 G2 GT : Type} [Field F] [AddCommGroup G1] [Module F G1] [AddCommGroup G2]
  [Module F G2] [AddCommGroup GT] [Module F GT] [DecidableEq G1] [DecidableEq G2] [DecidableEq GT]

/-- the drawn secrets and blinding scalars are not zero, as of every honest contributor except with negligible probability -/
structure Phase1.Rand.Nonzero (rnd : Rand F) : Prop where
  tau : rnd.tau ≠ 0
  alpha : rnd.alpha ≠ 0
  beta : rnd.beta ≠ 0
  sTau : rnd.sTau ≠ 0

variable {C : Curve F G1 G2 GT} (hC : C.Lawful)
include hC

theorem smul_cancel {G : Type} [AddCommGroup G] [Module F G] {x : F} (hx : x ≠ 0) {p q : G} (h : x • p = x • q) : p = q := by
  have := congrArg (x⁻¹ • ·) h
  simpa only [smul_smul, inv_mul_cancel₀ hx, one_smul] using this

/-- the new record is a valid step from the last one exactly if that one holds the file's points -/
theorem contribute_step_iff (f : P1File G1 G2) (last : Contribution G1 G2) (hlast : f.records.getLast? = some last)
    (hb : f.betaG2 = last.g2Beta) (rnd : Rand F) (hr : rnd.Nonzero) :
    (∃ τ α β, StepBy C last (newRecord C rnd (lastHash f.records)
      ((scaled 1 rnd.tau f.tauG1).getD 1 0) ((scaled rnd.alpha rnd.tau f.alphaG1).getD 0 0)
      ((scaled rnd.beta rnd.tau f.betaG1).getD 0 0) ((scaled 1 rnd.tau f.tauG2).getD 1 0)
      (rnd.beta • f.betaG2)) τ α β) ↔ f.HoldsPointsOf last := by
  have hh : lastHash f.records = last.hash := by simp [lastHash, hlast]
  rw [hh]
  simp only [scaled_getD, pow_one, pow_zero, mul_one, one_mul]
  constructor
  · rintro ⟨τ, α, β, h⟩
    have e1 := h.knowTau.unique hC (provesScalar_proofOf rnd.tau rnd.sTau last.hash 1)
    have e2 := h.knowAlpha.unique hC (provesScalar_proofOf rnd.alpha rnd.sAlpha last.hash 2)
    have e3 := h.knowBeta.unique hC (provesScalar_proofOf rnd.beta rnd.sBeta last.hash 3)
    subst e1 e2 e3
    refine ⟨smul_cancel hC hr.tau h.g1Tau, smul_cancel hC hr.alpha h.g1Alpha, smul_cancel hC hr.beta h.g1Beta,
      smul_cancel hC hr.tau (h.g2Tau ?_)⟩
    show rnd.sTau • C.g1 ≠ 0
    rw [Ne, smul_g1_eq_zero hC]
    exact hr.sTau
  · intro h
    refine ⟨rnd.tau, rnd.alpha, rnd.beta, provesScalar_proofOf .., provesScalar_proofOf .., provesScalar_proofOf ..,
      ?_, ?_, ?_, fun _ => ?_, fun _ => ?_, rfl⟩
    · simp only [newRecord, h.g1Tau]
    · simp only [newRecord, h.g1Alpha]
    · simp only [newRecord, h.g1Beta]
    · simp only [newRecord, h.g2Tau]
    · simp only [newRecord, hb]

/-- **C56**, phase 1, exactly: an honest contribution to an accepted file always succeeds, and the new file is accepted
exactly if the points at the start of the sections are the ones of the last record, which `Verify` has not checked. -/
theorem C56_phase1_exact (par par' : Par) (b b' : Nat) (hb : 2 ≤ b) (hb' : 0 < b') (rnd : Rand F) (hr : rnd.Nonzero)
    (vr vr' : VerifyRand F) (f : P1File G1 G2) (hf : f.WF) (hreg : f.Regular) (hp : 1 ≤ f.power.toNat)
    (hc : f.records.length < 65535) (last : Contribution G1 G2) (hlast : f.records.getLast? = some last)
    (junk : Bytes) (tr : Option Bytes)
    (h : verify C par .strict b vr (f.encode C ++ junk) tr = .ok ()) :
    ∃ hash out, contribute C par b rnd (f.encode C ++ junk) = (.ok hash, out) ∧
      (verify C par' .strict b' vr' out tr = .ok () ↔ f.HoldsPointsOf last) := by
  obtain ⟨prev, h1, h2, h3⟩ := (verify_bytes hC par .strict b (by omega) vr f hf junk tr).mp h
  refine ⟨_, _, contribute_regular hC par b hb rnd f hf hreg hp hc junk, ?_⟩
  rw [hlast] at h3
  have := verify_bytes hC par' .strict b' hb' vr' _ (hf.contribute hC rnd hc) [] tr
  rw [List.append_nil] at this
  rw [this, ← contribute_step_iff hC f last hlast h3.betaG2 rnd hr]
  constructor
  · rintro ⟨prev', k1, k2, -⟩
    simp only [P1File.contribute, P1File.update] at k2
    rw [chainOk_append, hlast] at k2
    exact k2.2
  · intro k
    refine ⟨prev, h1, ?_, ?_⟩
    · simp only [P1File.contribute, P1File.update]
      rw [chainOk_append, hlast]
      exact ⟨h2, k⟩
    · rw [sectionsOk_strict]
      simp [P1File.contribute, P1File.update, newRecord]

/-- **C56** (partial), phase 1: if the points at the start of the sections are the ones of the last record, then every
contribution (of any secrets) keeps the file acceptable. Missing: `Verify` does not check the hypothesis
`HoldsPointsOf`, see `C56_phase1_poisoned`. -/
theorem C56_phase1_partial (par par' : Par) (b b' : Nat) (hb : 2 ≤ b) (hb' : 0 < b') (rnd : Rand F)
    (vr vr' : VerifyRand F) (f : P1File G1 G2) (hf : f.WF) (hreg : f.Regular) (hp : 1 ≤ f.power.toNat)
    (hc : f.records.length < 65535) (last : Contribution G1 G2) (hlast : f.records.getLast? = some last)
    (hpts : f.HoldsPointsOf last) (junk : Bytes) (tr : Option Bytes)
    (h : verify C par .strict b vr (f.encode C ++ junk) tr = .ok ()) :
    ∃ hash out, contribute C par b rnd (f.encode C ++ junk) = (.ok hash, out) ∧
      verify C par' .strict b' vr' out tr = .ok () := by
  obtain ⟨prev, h1, h2, h3⟩ := (verify_bytes hC par .strict b (by omega) vr f hf junk tr).mp h
  refine ⟨_, _, contribute_regular hC par b hb rnd f hf hreg hp hc junk, ?_⟩
  rw [hlast] at h3
  have ht : f.Tracks C prev := by
    refine ⟨h2, ?_, ?_, ?_, ?_, ?_, ?_⟩ <;> simp only [hlast, Option.getD_some]
    · simp [lastHash, hlast]
    · exact hpts.g1Tau.symm
    · exact hpts.g1Alpha.symm
    · exact hpts.g1Beta.symm
    · exact hpts.g2Tau.symm
    · exact h3.betaG2.symm
  have := honest_accepted hC _ (hf.contribute hC rnd hc) prev (ht.contribute rnd)
    (by simp [P1File.contribute, P1File.update]) par' b' hb' vr' tr h1 []
  rwa [List.append_nil] at this

/-- a chain stays broken -/
theorem chain_broken (rs : List (Contribution G1 G2)) (last r : Contribution G1 G2) (hlast : rs.getLast? = some last)
    (hbad : ¬ ∃ τ α β, StepBy C last r τ α β) (more : List (Contribution G1 G2)) (prev : Contribution G1 G2) :
    ¬ ChainOk C prev (rs ++ r :: more) := by
  induction rs generalizing prev with
  | nil => simp at hlast
  | cons x rs ih =>
    rintro ⟨-, h⟩
    cases rs with
    | nil =>
      simp only [List.getLast?_singleton, Option.some.injEq] at hlast
      subst hlast
      exact hbad h.1
    | cons y rs => exact ih (by simpa [List.getLast?_cons] using hlast) _ h

theorem ceremony_records (rnds : List (Rand F)) : ∀ f : P1File G1 G2,
    ∃ more, (f.ceremony C rnds).records = f.records ++ more := by
  induction rnds with
  | nil => intro f; exact ⟨[], by simp [P1File.ceremony]⟩
  | cons rnd rnds ih =>
    intro f
    obtain ⟨more, h⟩ := ih (f.contribute C rnd)
    rw [show f.ceremony C (rnd :: rnds) = (f.contribute C rnd).ceremony C rnds from rfl, h]
    simp only [P1File.contribute, P1File.update, List.append_assoc]
    exact ⟨_, rfl⟩

/-- **C56, negation**, phase 1: the last contributor (or whoever hands on the file) replaces `[τ]1` in the sections of an
accepted file by any other nonzero point. The file is still accepted, so nobody notices; but after that every ceremony
in which the next contributor is honest succeeds and ends with a file that is rejected, for good. -/
theorem C56_phase1_poisoned (f : P1File G1 G2) (hf : f.WF) (hreg : f.Regular) (hp : 1 ≤ f.power.toNat)
    (last : Contribution G1 G2) (hlast : f.records.getLast? = some last) (tr : Option Bytes)
    (par : Par) (b : Nat) (hb : 2 ≤ b) (vr : VerifyRand F)
    (h : verify C par .strict b vr (f.encode C) tr = .ok ()) (p : G1) (h0 : p ≠ 0) (hne : p ≠ last.g1Tau) :
    ∃ g : P1File G1 G2, g = { f with tauG1 := f.tauG1.set 1 p } ∧
      (∀ (par : Par) (vr : VerifyRand F), verify C par .strict b vr (g.encode C) tr = .ok ()) ∧
      ∀ (first : Par × Rand F) (steps : List (Par × Rand F)), first.2.Nonzero →
        f.records.length + steps.length + 1 < 65536 →
        ∃ out, p1Ceremony C b (first :: steps) (g.encode C) = .ok out ∧
          ∀ (par : Par) (vr : VerifyRand F), verify C par .strict b vr out tr ≠ .ok () := by
  have hN : 2 ≤ 2 ^ f.power.toNat := by
    calc 2 = 2 ^ 1 := rfl
      _ ≤ 2 ^ f.power.toNat := Nat.pow_le_pow_right (by omega) hp
  have hl1 : 1 < f.tauG1.length := by rw [hf.tauG1]; omega
  have hg1 : (f.tauG1.set 1 p).getD 1 0 = p := by
    rw [List.getD_eq_getElem?_getD, List.getElem?_set_self hl1]; rfl
  obtain ⟨prev, h1, h2, h3⟩ := (verify_bytes hC par .strict b (by omega) vr f hf [] tr).mp
    (by rwa [List.append_nil])
  rw [hlast] at h3
  refine ⟨_, rfl, ?_, ?_⟩
  · have hwf : ({ f with tauG1 := f.tauG1.set 1 p } : P1File G1 G2).WF :=
      ⟨hf.power, by simp [hf.tauG1], hf.alphaG1, hf.betaG1, hf.tauG2, hf.count, hf.hash⟩
    intro par vr
    have := verify_bytes hC par .strict b (by omega) vr _ hwf [] tr
    rw [List.append_nil] at this
    rw [this]
    refine ⟨prev, h1, h2, ?_⟩
    rw [sectionsOk_strict]
    simpa [hlast] using h3.betaG2
  · intro first steps hnz hk
    have hwf : ({ f with tauG1 := f.tauG1.set 1 p } : P1File G1 G2).WF :=
      ⟨hf.power, by simp [hf.tauG1], hf.alphaG1, hf.betaG1, hf.tauG2, hf.count, hf.hash⟩
    have hreg' : ({ f with tauG1 := f.tauG1.set 1 p } : P1File G1 G2).Regular :=
      ⟨.inl (by simpa only [hg1] using h0), hreg.alphaG1, hreg.betaG1, hreg.tauG2⟩
    have hbeta : ({ f with tauG1 := f.tauG1.set 1 p } : P1File G1 G2).betaG2 = last.g2Beta := h3.betaG2
    have hlast' : ({ f with tauG1 := f.tauG1.set 1 p } : P1File G1 G2).records.getLast? = some last := hlast
    have hbad : ¬ ({ f with tauG1 := f.tauG1.set 1 p } : P1File G1 G2).HoldsPointsOf last := by
      intro k
      exact hne (by rw [← k.g1Tau]; exact hg1.symm)
    have hlen : ({ f with tauG1 := f.tauG1.set 1 p } : P1File G1 G2).records.length = f.records.length := rfl
    have hpw : ({ f with tauG1 := f.tauG1.set 1 p } : P1File G1 G2).power = f.power := rfl
    generalize ({ f with tauG1 := f.tauG1.set 1 p } : P1File G1 G2) = g at *
    have hstep := (not_congr (contribute_step_iff hC g last hlast' hbeta first.2 hnz)).mpr hbad
    have hinv := ceremony_inv hC ((first :: steps).map Prod.snd) g hwf hreg' (by simp; omega)
    refine ⟨_, p1Ceremony_bytes hC b hb (first :: steps) g hwf hreg' (by rw [hpw]; exact hp) (by simp; omega), ?_⟩
    intro par vr hacc
    have := verify_bytes hC par .strict b (by omega) vr _ hinv.1 [] tr
    rw [List.append_nil] at this
    obtain ⟨prev', -, k, -⟩ := this.mp hacc
    obtain ⟨more, hm⟩ := ceremony_records hC (steps.map Prod.snd) (g.contribute C first.2)
    rw [List.map_cons, show g.ceremony C (first.2 :: steps.map Prod.snd)
      = (g.contribute C first.2).ceremony C (steps.map Prod.snd) from rfl, hm] at k
    simp only [P1File.contribute, P1File.update, List.append_assoc, List.singleton_append] at k
    exact chain_broken hC g.records last _ hlast' hstep more prev' k

end

section
open Phase2
variable {F G1 G2 GT : Type} [Field F] [AddCommGroup G1] [Module F G1] [AddCommGroup G2]
  [Module F G2] [AddCommGroup GT] [Module F GT] [DecidableEq G1] [DecidableEq G2] [DecidableEq GT]

/-- the chain without its last record -/
theorem chain2_append_iff {C : Curve F G1 G2 GT} (rs : List (Contribution G1 G2)) (r : Contribution G1 G2) :
    ∀ (d : G1) (h : Bytes), (∃ xs, Chain2By C d h (rs ++ [r]) xs) ↔ (∃ xs, Chain2By C d h rs xs) ∧
      ∃ x, Step2By C ((rs.getLast?.map (·.delta)).getD d) ((rs.getLast?.map (·.hash)).getD h) r x := by
  induction rs with
  | nil =>
    intro d h
    constructor
    · rintro ⟨xs, hx⟩
      cases xs with
      | nil => exact hx.elim
      | cons x xs => exact ⟨⟨[], trivial⟩, x, hx.1⟩
    · rintro ⟨-, x, hx⟩
      exact ⟨[x], hx, trivial⟩
  | cons a rs ih =>
    intro d h
    have e1 : ((a :: rs).getLast?.map (·.delta)).getD d = (rs.getLast?.map (·.delta)).getD a.delta := by
      cases rs <;> simp [List.getLast?_cons]
    have e2 : ((a :: rs).getLast?.map (·.hash)).getD h = (rs.getLast?.map (·.hash)).getD a.hash := by
      cases rs <;> simp [List.getLast?_cons]
    rw [e1, e2]
    constructor
    · rintro ⟨xs, hx⟩
      cases xs with
      | nil => exact hx.elim
      | cons x xs =>
        obtain ⟨⟨ys, hy⟩, h3⟩ := (ih a.delta a.hash).mp ⟨xs, hx.2⟩
        exact ⟨⟨x :: ys, hx.1, hy⟩, h3⟩
    · rintro ⟨⟨xs, hx⟩, h3⟩
      cases xs with
      | nil => exact hx.elim
      | cons x xs =>
        obtain ⟨ys, hy⟩ := (ih a.delta a.hash).mpr ⟨⟨xs, hx.2⟩, h3⟩
        exact ⟨x :: ys, hx.1, hy⟩

variable {C : Curve F G1 G2 GT} (hC : C.Lawful) {H : HeaderCodec} (hH : H.Lawful)
include hC hH

omit hH in
/-- What a verification demands of a file with contributions holds after a contribution exactly if it did before. -/
theorem contribute2_conditions (b : Nat) (vr : VerifyRand F) (rnd : Rand F) (hd : rnd.delta ≠ 0) (f o : P2File G1 G2) (hne : f.records ≠ []) :
    ((f.contribute C rnd).records ≠ [] ∧ P2File.SameShape (f.contribute C rnd) o ∧ C.e o.delta1 (f.contribute C rnd).delta2 = C.e (f.contribute C rnd).delta1 o.delta2 ∧
      C.e (batchSum b vr.z (f.contribute C rnd).z) (f.contribute C rnd).delta2 = C.e (batchSum b vr.z o.z) o.delta2 ∧
      C.e (batchSum b vr.pkk (f.contribute C rnd).pkk) (f.contribute C rnd).delta2 = C.e (batchSum b vr.pkk o.pkk) o.delta2 ∧
      (∃ xs, Chain2By C o.delta1 [] (f.contribute C rnd).records xs) ∧ (∀ r, (f.contribute C rnd).records.getLast? = some r → r.delta = (f.contribute C rnd).delta1)) ↔
    (f.records ≠ [] ∧ P2File.SameShape f o ∧ C.e o.delta1 f.delta2 = C.e f.delta1 o.delta2 ∧
      C.e (batchSum b vr.z f.z) f.delta2 = C.e (batchSum b vr.z o.z) o.delta2 ∧
      C.e (batchSum b vr.pkk f.pkk) f.delta2 = C.e (batchSum b vr.pkk o.pkk) o.delta2 ∧
      (∃ xs, Chain2By C o.delta1 [] f.records xs) ∧ (∀ r, f.records.getLast? = some r → r.delta = f.delta1)) := by
  obtain ⟨last, hlast⟩ : ∃ r, f.records.getLast? = some r := ⟨_, List.getLast?_eq_some_getLast hne⟩
  have hlh : lastHash2 f.records = last.hash := by simp [lastHash2, hlast]
  have hpair : ∀ s : G1, C.e (rnd.delta⁻¹ • s) (rnd.delta • f.delta2) = C.e s f.delta2 := by
    intro s
    rw [hC.smul_left, hC.smul_right, smul_smul, inv_mul_cancel₀ hd, one_smul]
  have hsh : P2File.SameShape (f.contribute C rnd) o ↔ P2File.SameShape f o := Iff.rfl
  have hsm : ∀ (d : G2) (q : GT), (rnd.delta • C.e o.delta1 d = rnd.delta • q) ↔ C.e o.delta1 d = q := by
    intro d q
    refine ⟨fun h => ?_, fun h => by rw [h]⟩
    have := congrArg (rnd.delta⁻¹ • ·) h
    simpa only [smul_smul, inv_mul_cancel₀ hd, one_smul] using this
  rw [hsh]
  simp only [P2File.contribute, batchSum_map, hpair, chain2_append_iff, hlast, Option.map_some, Option.getD_some, hlh,
    List.getLast?_append, List.getLast?_singleton, Option.some_or, Option.some.injEq, ne_eq, hne, not_false_eq_true,
    List.append_eq_nil_iff, List.cons_ne_nil, and_false, hC.smul_left, hC.smul_right, hsm]
  constructor
  · rintro ⟨-, k1, k2, k3, k4, ⟨k5, x, k6⟩, -⟩
    refine ⟨trivial, k1, k2, k3, k4, k5, ?_⟩
    rintro r rfl
    have hp1 : ProvesScalar C (newRecord2 C rnd last.hash (rnd.delta • f.delta1)).pk last.hash 1 x := ⟨k6.sx, k6.spx⟩
    have hx := hp1.unique hC (provesScalar_proofOf rnd.delta rnd.s last.hash 1)
    subst hx
    have := k6.delta
    simp only [newRecord2] at this
    have := congrArg (rnd.delta⁻¹ • ·) this
    simp only [smul_smul, inv_mul_cancel₀ hd, one_smul] at this
    exact this.symm
  · rintro ⟨-, k1, k2, k3, k4, k5, k6⟩
    refine ⟨trivial, k1, k2, k3, k4, ⟨k5, rnd.delta, ?_⟩, ?_⟩
    · rw [k6 last rfl]
      exact newRecord2_step rnd _ _
    · rintro r rfl
      rfl

/-- **C56** (partial), phase 2, and its converse: a contribution with `δ ≠ 0` to a file with contributions succeeds, and for
the same verifier randomness the new file is accepted exactly if the old one is: honest contributions neither break nor repair
a file. Partial: files whose Z or PKK do not decode (`C56_phase2_blocked`), and files with a hash across a buffer boundary
(finding F5), are excluded by the hypotheses. -/
theorem C56_phase2_partial (par par' : Par) (b b' : Nat) (hb : 0 < b) (hb' : 0 < b') (rnd : Rand F) (hd : rnd.delta ≠ 0)
    (f o : P2File G1 G2) (hf : f.WF) (ho : o.WF) (hs : f.NoStraddle H) (hs' : (f.contribute C rnd).NoStraddle H)
    (hne : f.records ≠ []) (hc : f.records.length + 1 < 2 ^ 63 - 1) (junk junk' : Bytes) :
    ∃ hash out, Phase2.contribute C H par b rnd (f.encode C H ++ junk) = (.ok hash, out) ∧
      ∀ vr : VerifyRand F, (Phase2.verify C H par' b' vr out (o.encode C H ++ junk') = .ok () ↔
        Phase2.verify C H par' b' vr (f.encode C H ++ junk) (o.encode C H ++ junk') = .ok ()) := by
  refine ⟨_, _, contribute2_spec hC hH par b hb rnd f hf hs junk, fun vr => ?_⟩
  have h1 := verify2_iff hC hH par' b' hb' vr _ o (contribute2_wf hC f hf rnd hc) ho hs' [] junk'
  rw [List.append_nil] at h1
  rw [h1, verify2_iff hC hH par' b' hb' vr f o hf ho hs]
  exact contribute2_conditions hC b' vr rnd hd f o hne

/-- scaling stops with an error at the point that does not decode -/
theorem scale2Loop_bad {bad : Bytes} (hbad : BadPoint C.c1 bad) (par : Par) (b : Nat) (hb : 0 < b) (x : F) (n : Nat) :
    ∀ (pts : List G1), pts.length = n → ∀ (cap pos : Nat) (ys out : Bytes),
    ∃ m s, (Phase2.scaleLoop C par b x (n + 1)).run ⟨⟨cap, pos, pts.flatMap C.c1.bytes ++ (bad ++ ys)⟩, out⟩
      = (.error (.err m), s) := by
  induction n using Nat.strong_induction_on with
  | _ n ih =>
    intro pts hn cap pos ys out
    rw [Phase2.scaleLoop, dif_pos ⟨by omega, hb⟩]
    by_cases hnb : n + 1 ≤ b
    · obtain ⟨e, he⟩ := decodeN_bad hC hbad pts cap pos ys
      rw [hn] at he
      have : (IOSt.onRd (C.c1.decodeN (min (n + 1) b))).run ⟨⟨cap, pos, pts.flatMap C.c1.bytes ++ (bad ++ ys)⟩, out⟩
          = (.error (.err e), ⟨⟨cap, pos + 32 * (n + 1), ys⟩, out⟩) := by
        rw [Nat.min_eq_left hnb]
        simp only [IOSt.onRd, he]
      simp only
      rw [Go.bind_error this]
      exact ⟨_, _, rfl⟩
    · have hmin : min (n + 1) b = b := by omega
      have hpt : (pts.take b).length = b := by simp; omega
      have hi := Codec.decodeN_encodeN hC.codec1 cap pos (pts.take b) ((pts.drop b).flatMap C.c1.bytes ++ (bad ++ ys))
      rw [hpt] at hi
      have e1 : pts.flatMap C.c1.bytes ++ (bad ++ ys)
          = C.c1.encodeN (pts.take b) ++ ((pts.drop b).flatMap C.c1.bytes ++ (bad ++ ys)) := by
        rw [Codec.encodeN, ← List.append_assoc (List.flatMap _ (pts.take b)), ← List.flatMap_append, List.take_append_drop]
      rw [e1]
      simp only [hmin]
      rw [Go.bind_ok (IOSt.onRd_ok hi), Go.bind_ok (IOSt.emit_run _ _), show n + 1 - b = n - b + 1 by omega]
      exact ih (n - b) (by omega) (pts.drop b) (by simp; omega) _ _ _ _

/-- **C56, negation**, phase 2: every accepted file with nonempty Z and PKK can be turned into one that is still accepted, by
every verifier, but to which nobody can contribute: `Contribute` fails for all secrets (compare `C34_undecodable_accepted`). -/
theorem C56_phase2_blocked {bad : Bytes} (hbad : BadPoint C.c1 bad) (par : Par) (b : Nat)
    (hb : 0 < b) (vr : VerifyRand F) (f o : P2File G1 G2) (hf : f.WF) (ho : o.WF)
    (hs : f.NoStraddle H) (zs ks : List G1) (hzs : zs.length + 1 = f.z.length) (hks : ks.length + 1 = f.pkk.length)
    (h : Phase2.verify C H par b vr (f.encode C H) (o.encode C H) = .ok ()) :
    ∃ g : Bytes, g.length = (f.encode C H).length ∧
      (∀ (par' : Par) (b' : Nat) (_ : 0 < b') (vr' : VerifyRand F),
        Phase2.verify C H par' b' vr' g (o.encode C H) = .ok ()) ∧
      ∀ (par' : Par) (b' : Nat) (_ : 0 < b') (rnd : Rand F), ∃ m, (Phase2.contribute C H par' b' rnd g).1 = .error (.err m) := by
  refine ⟨undecodable C H f.header f.delta1 f.delta2 zs ks bad (f.records.flatMap (record2Bytes C)), ?_, ?_, ?_⟩
  · have hl : ∀ ps : List G1, (ps.flatMap C.c1.bytes).length = 32 * ps.length := by
      intro ps
      have := Codec.encodeN_length hC.codec1 ps
      rwa [Codec.encodeN, hC.size1] at this
    simp only [undecodable, P2File.encode, P2File.params, List.length_append, hl, hbad.length]
    omega
  · intro par' b' hb' vr'
    have := C34_undecodable_accepted hC hH hbad par par' b b' hb hb' vr vr' f o hf ho hs [] [] zs ks hzs hks
      (by rwa [List.append_nil, List.append_nil])
    rwa [List.append_nil, List.append_nil] at this
  · intro par' b' hb' rnd
    have hdom := hf.domain
    have hdp := hf.domain_pos
    have hz := hf.z
    have hw3 : Phase1.wrap64 (f.header.increment.domain - 1) = ((zs.length + 1 : Nat) : Int) := by
      rw [show f.header.increment.domain = (f.domain : Int) from rfl, wrap64_eq] <;> omega
    obtain ⟨m, s, hm⟩ := scale2Loop_bad hC hH hbad par' b' hb' rnd.delta⁻¹ zs.length zs rfl 4096
      (0 + (H.enc f.header).length + C.c1.size + C.c2.size) (ks.flatMap C.c1.bytes ++ (bad ++ f.records.flatMap (record2Bytes C)))
      ([] ++ H.enc f.header.increment ++ C.c1.bytes (rnd.delta • f.delta1) ++ C.c2.bytes (rnd.delta • f.delta2))
    have hsc : (scale C par' b' ((zs.length + 1 : Nat) : Int) rnd.delta⁻¹).run
        ⟨⟨4096, 0 + (H.enc f.header).length + C.c1.size + C.c2.size, zs.flatMap C.c1.bytes ++ (bad ++
          (ks.flatMap C.c1.bytes ++ (bad ++ f.records.flatMap (record2Bytes C))))⟩,
          [] ++ H.enc f.header.increment ++ C.c1.bytes (rnd.delta • f.delta1) ++ C.c2.bytes (rnd.delta • f.delta2)⟩
        = (.error (.err m), s) := by
      unfold scale
      rw [Go.bind_ok (by rw [makeLen_min]; rfl), Int.toNat_natCast]
      exact hm
    have hdec := hH.dec_enc f.header (P2File.header_inRange hC hH hf) 4096 0 (C.c1.bytes f.delta1 ++ (C.c2.bytes f.delta2
      ++ (zs.flatMap C.c1.bytes ++ (bad ++ (ks.flatMap C.c1.bytes ++ (bad ++ f.records.flatMap (record2Bytes C)))))))
    refine ⟨m, ?_⟩
    unfold Phase2.contribute contributeBody Header.read undecodable
    simp only [List.append_assoc]
    rw [show Rd.buffered 4096 (H.enc f.header ++ (C.c1.bytes f.delta1 ++ (C.c2.bytes f.delta2
      ++ (zs.flatMap C.c1.bytes ++ (bad ++ (ks.flatMap C.c1.bytes ++ (bad ++ f.records.flatMap (record2Bytes C))))))))
      = ⟨4096, 0, _⟩ from rfl]
    rw [Go.bind_ok (IOSt.onRd_ok hdec)]
    unfold contributeWith Header.write
    rw [Go.bind_ok (IOSt.emit_run _ _)]
    rw [Go.bind_ok (scalePoint_spec hC.codec1 _ _ _ _ _ _)]
    rw [Go.bind_ok (scalePoint_spec hC.codec2 _ _ _ _ _ _)]
    rw [hw3, Go.bind_error hsc]

end

section
open Phase1

theorem Toy.honest_regular : Toy.honest.Regular :=
  ⟨.inl (by decide +kernel), .inl (by decide +kernel), .inl (by decide +kernel), .inl (by decide +kernel)⟩

theorem Toy.rnd_nonzero : Toy.rnd.Nonzero := ⟨by decide, by decide, by decide, by decide⟩

example := C56_phase1_exact Toy.lawful Toy.par Toy.par batchSize 1 (by decide) (by decide) Toy.rnd Toy.rnd_nonzero
  Toy.vr Toy.vr Toy.honest Toy.honest_wf Toy.honest_regular (by decide +kernel) (by decide +kernel)
  (Toy.honest.records.getLastD Contribution.zero) (by decide +kernel) [1, 2] none (Toy.honest_accepted _ rfl)

example := C56_phase1_partial Toy.lawful Toy.par Toy.par batchSize 1 (by decide) (by decide) Toy.rnd
  Toy.vr Toy.vr Toy.honest Toy.honest_wf Toy.honest_regular (by decide +kernel) (by decide +kernel)
  (Toy.honest.records.getLastD Contribution.zero) (by decide +kernel)
  ⟨by decide +kernel, by decide +kernel, by decide +kernel, by decide +kernel⟩ [1, 2] none (Toy.honest_accepted _ rfl)

example := C56_phase1_poisoned Toy.lawful Toy.clean Toy.clean_wf
  ⟨.inl (by decide +kernel), .inl (by decide +kernel), .inl (by decide +kernel), .inl (by decide +kernel)⟩
  (by decide +kernel) (Toy.clean.records.getLastD Contribution.zero) (by decide +kernel) none Toy.par batchSize (by decide)
  Toy.vr Toy.clean_accepted 2 (by decide) (by decide +kernel)

end

section
open Phase2

theorem Toy.p2final_accepted' : Phase2.verify Toy.curve Gob.headerCodec Toy.par Phase1.batchSize Toy.p2vr
    (Toy.p2final.encode Toy.curve Gob.headerCodec) (Toy.p2.encode Toy.curve Gob.headerCodec) = .ok () := by
  have := Toy.p2final_accepted [] []
  rwa [List.append_nil, List.append_nil] at this

example := C56_phase2_partial Toy.lawful Gob.lawful Toy.par Toy.par Phase1.batchSize 2 (by decide) (by decide) Toy.p2rnd (by decide)
  Toy.p2final Toy.p2 Toy.p2final_wf Toy.p2_wf Toy.p2final_noStraddle (by decide +kernel) (by decide +kernel)
  (by decide +kernel) [1] [2, 3]

example := C56_phase2_blocked Toy.lawful Gob.lawful Toy.bad_bad Toy.par Phase1.batchSize (by decide)
  Toy.p2vr Toy.p2final Toy.p2 Toy.p2final_wf Toy.p2_wf Toy.p2final_noStraddle [1, 2] [3, 4]
  (by decide +kernel) (by decide +kernel) Toy.p2final_accepted'

end

end ZkSetup
