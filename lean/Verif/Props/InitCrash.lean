import Verif.Props.Panic
import Verif.Props.Invocation
/-
C57, exact conditions for the crashes of `p2n`; C74 in sessions.
-/
set_option linter.unusedSectionVars false

namespace ZkSetup
open Phase2 Phase1 Cli

/-- neither a value nor a panic: an error was returned -/
def Returns {α : Type} (r : Except Fail α) : Prop := ∃ m, r = .error (.err m)

theorem not_returns_ok {α : Type} (a : α) : ¬ Returns (.ok a : Except Fail α) := by rintro ⟨m, h⟩; cases h

theorem not_returns_panic {α : Type} (m : String) : ¬ Returns (.error (.panic m) : Except Fail α) := by rintro ⟨m, h⟩; cases h

theorem not_returns_bind {α β : Type} {x : Except Fail α} {f : α → Except Fail β} (hx : ¬ Returns x) (hf : ∀ a, x = .ok a → ¬ Returns (f a)) :
    ¬ Returns (x >>= f) := by
  cases x with
  | ok a => exact hf a rfl
  | error e =>
    cases e with
    | err m => exact absurd ⟨m, rfl⟩ hx
    | panic m => exact not_returns_panic m

theorem not_returns_lift {σ α β : Type} {x : Except Fail α} {f : α → Go σ β} {s : σ} (hx : ¬ Returns x)
    (hf : ∀ a, x = .ok a → ¬ Returns ((f a).run s).1) : ¬ Returns ((Go.lift x >>= f).run s).1 := by
  cases x with
  | ok a => rw [Go.bind_ok (Go.lift_run _ _)]; exact hf a rfl
  | error e =>
    rw [Go.bind_error (Go.lift_run _ _)]
    cases e with
    | err m => exact absurd ⟨m, rfl⟩ hx
    | panic m => exact not_returns_panic m

theorem index_not_returns {α : Type} (xs : List α) (i : Nat) : ¬ Returns (index xs i) := by
  unfold index
  split
  · exact not_returns_ok _
  · exact not_returns_panic _

theorem setIndex_not_returns {α : Type} (xs : List α) (i : Nat) (x : α) : ¬ Returns (setIndex xs i x) := by
  unfold setIndex
  split
  · exact not_returns_ok _
  · exact not_returns_panic _

theorem makeLen_not_returns (n : Int) : ¬ Returns (makeLen n) := by
  unfold makeLen
  split
  · exact not_returns_panic _
  · exact not_returns_ok _

section
variable {F G : Type} [Field F] [AddCommGroup G] [Module F G]

theorem accumulate_not_returns (cs : List F) (x : G) (t : Term) (v : G) : ¬ Returns (accumulate cs x t v) := by
  unfold accumulate
  repeat' split
  all_goals first
    | exact not_returns_ok _
    | exact not_returns_bind (index_not_returns _ _) fun _ _ => not_returns_ok _

theorem accumulateTerms_not_returns (cs : List F) (srs : List G) (i : Nat) (ts : List Term) :
    ∀ buff : List G, ¬ Returns (accumulateTerms cs srs i ts buff) := by
  induction ts with
  | nil => intro buff; exact not_returns_ok _
  | cons t ts ih =>
    intro buff
    exact not_returns_bind (index_not_returns _ _) fun _ _ => not_returns_bind (index_not_returns _ _) fun _ _ =>
      not_returns_bind (accumulate_not_returns _ _ _ _) fun _ _ => ih _

theorem accumulateAll_not_returns (cs : List F) (srs : List G) (side : R1C → List Term) (rs : List R1C) :
    ∀ (i : Nat) (buff : List G), ¬ Returns (accumulateAll cs srs side i rs buff) := by
  induction rs with
  | nil => intro i buff; exact not_returns_ok _
  | cons c rs ih =>
    intro i buff
    exact not_returns_bind (accumulateTerms_not_returns _ _ _ _ _) fun _ _ => ih _ _

theorem index_eq_ok {α : Type} {xs : List α} {i : Nat} {x : α} (h : index xs i = .ok x) : i < xs.length := by
  unfold index at h
  split at h
  · rename_i e; exact (List.getElem?_eq_some_iff.mp e).1
  · cases h

theorem accumulate_ok {cs : List F} {x : G} {t : Term} {v y : G} (h : accumulate cs x t v = .ok y) : t.coeff < 4 ∨ t.coeff < cs.length := by
  by_cases h4 : t.coeff < 4
  · exact .inl h4
  · unfold accumulate at h
    rw [if_neg (by omega), if_neg (by omega), if_neg (by omega), if_neg (by omega)] at h
    obtain ⟨c, hc, -⟩ := except_bind_eq_ok h
    exact .inr (index_eq_ok hc)

theorem accumulateTerms_ok (cs : List F) (srs : List G) (i : Nat) (ts : List Term) :
    ∀ (buff out : List G), accumulateTerms cs srs i ts buff = .ok out →
      ∀ t ∈ ts, t.wire < buff.length ∧ (t.coeff < 4 ∨ t.coeff < cs.length) := by
  induction ts with
  | nil => intro buff out _ t ht; simp at ht
  | cons t ts ih =>
    intro buff out h t' ht'
    rw [accumulateTerms] at h
    obtain ⟨a, ha, h⟩ := except_bind_eq_ok h
    obtain ⟨b, -, h⟩ := except_bind_eq_ok h
    obtain ⟨c, hc, h⟩ := except_bind_eq_ok h
    rcases List.mem_cons.mp ht' with rfl | ht'
    · exact ⟨index_eq_ok ha, accumulate_ok hc⟩
    · simpa using ih _ _ h t' ht'

theorem accumulateAll_ok (cs : List F) (srs : List G) (side : R1C → List Term) (rs : List R1C) :
    ∀ (i : Nat) (buff out : List G), accumulateAll cs srs side i rs buff = .ok out →
      ∀ c ∈ rs, ∀ t ∈ side c, t.wire < buff.length ∧ (t.coeff < 4 ∨ t.coeff < cs.length) := by
  induction rs with
  | nil => intro i buff out _ c hc; simp at hc
  | cons c rs ih =>
    intro i buff out h c' hc'
    rw [accumulateAll] at h
    obtain ⟨a, ha, h⟩ := except_bind_eq_ok h
    rcases List.mem_cons.mp hc' with rfl | hc'
    · exact accumulateTerms_ok _ _ _ _ _ _ ha
    · rw [← accumulateTerms_length _ _ _ _ _ _ ha]
      exact ih _ _ _ h c' hc'

end

theorem filterLoop_not_returns {G1 : Type} (pub : Int) (cmt : Commitment) (xs : List G1) :
    ∀ (i : Nat) (pkk vkk ckk : List G1) (vI cI : Nat), ¬ Returns (filterLoop pub cmt i xs pkk vkk ckk vI cI) := by
  induction xs with
  | nil => intro i pkk vkk ckk vI cI; exact not_returns_ok _
  | cons x xs ih =>
    intro i pkk vkk ckk vI cI
    rw [filterLoop]
    refine not_returns_bind ?_ fun b _ => ?_
    · unfold isCommittedPrivate
      split
      · split
        · exact not_returns_panic _
        · exact not_returns_bind (index_not_returns _ _) fun _ _ => not_returns_ok _
      · exact not_returns_ok _
    · split
      · exact not_returns_bind (setIndex_not_returns _ _ _) fun _ _ => ih _ _ _ _ _ _
      · split
        · exact not_returns_bind (setIndex_not_returns _ _ _) fun _ _ => ih _ _ _ _ _ _
        · exact not_returns_bind (setIndex_not_returns _ _ _) fun _ _ => ih _ _ _ _ _ _

theorem filterL_not_returns {G1 : Type} [AddCommGroup G1] (L : List G1) (h : Phase2.Header) (cmt : Commitment) : ¬ Returns (filterL L h cmt) :=
  not_returns_bind (makeLen_not_returns _) fun _ _ => not_returns_bind (makeLen_not_returns _) fun _ _ =>
    not_returns_bind (makeLen_not_returns _) fun _ _ => filterLoop_not_returns _ _ _ _ _ _ _ _ _

section
variable {F G1 G2 GT : Type} [Field F] [AddCommGroup G1] [Module F G1] [AddCommGroup G2]
  [Module F G2] [AddCommGroup GT] [Module F GT] [DecidableEq G1] [DecidableEq G2]
variable {C : Curve F G1 G2 GT} (hC : C.Lawful)
include hC

omit hC in
/-- `processHeader_run` for circuits that refer to wires they do not have -/
theorem processHeader_counts (H : HeaderCodec) (r : R1CS F) (hr : r.nbConstraints = r.constraints.length) (f : P1File G1 G2) (hf : f.WF)
    (junk : Bytes) (k : Nat) (hk : k ≤ f.power.toNat) (hd : nextPowerofTwo r.nbConstraints = .ok ((2 ^ k : Nat) : Int))
    (hck : r.constraints.length ≤ 2 ^ k) (s : InitSt) :
    (processHeader H (some r) (f.encode C ++ junk)).run s
      = (.ok (r, ⟨f.power, UInt16.ofNat f.records.length⟩, circuitHeader r r.constraints.length ((2 ^ k : Nat) : Int)),
        { s with ph2 := s.ph2 ++ H.enc (circuitHeader r r.constraints.length ((2 ^ k : Nat) : Int)) }) := by
  have hle : 2 ^ k ≤ 2 ^ f.power.toNat := Nat.pow_le_pow_right (by omega) hk
  have hcp : checkPower f.power (r.nbConstraints : Int) = .ok () := by
    unfold checkPower check
    rw [if_pos]
    rw [decide_eq_true_iff, goPow2_eq hf.power, hr]
    have : ((2 ^ f.power.toNat : Nat) : Int) = (2 : Int) ^ f.power.toNat := by push_cast; rfl
    omega
  unfold processHeader
  simp only [hd, header_read_p1 f hf junk]
  rw [Go.bind_ok (Go.lift_run _ _), Go.bind_ok (Go.lift_run _ _)]
  simp only [hcp]
  rw [Go.bind_ok (Go.lift_run _ _), Go.bind_ok (a := ()) (s' := { s with ph2 := s.ph2 ++ H.enc (circuitHeader r r.constraints.length ((2 ^ k : Nat) : Int)) })
    (by rw [hr]; rfl)]
  rw [hr]
  rfl

theorem processEvaluations_not_returns (r : R1CS F) (f : P1File G1 G2) (hf : f.WF) (junk : Bytes) (n : Nat)
    (hn : n < 2 ^ 32) (ω : F) (h1 : Phase1.Header) (hh1 : h1.power = f.power) (h2 : Phase2.Header)
    (hd : h2.domain = (n : Int)) (ph2 evals : Bytes) :
    ¬ Returns ((processEvaluations C r h1 h2 (f.encode C ++ junk)).run ⟨ph2, lagBytes C n ω f, evals⟩).1 := by
  unfold processEvaluations
  rw [Go.bind_ok (a := lagBytes C n ω f) (s' := ⟨ph2, lagBytes C n ω f, evals⟩) rfl]
  rw [Go.bind_ok (a := ()) (s' := ⟨ph2, lagBytes C n ω f, []⟩) rfl]
  rw [hh1, readPhase1_eq hC f hf junk, Go.bind_ok (Go.lift_run _ _)]
  simp only [hd, readTauLag_eq hC n hn ω f]
  rw [Go.bind_ok rfl, Go.bind_ok rfl, Go.bind_ok rfl, Go.bind_ok (Go.lift_run _ _)]
  refine not_returns_lift (makeLen_not_returns _) fun w _ => ?_
  refine not_returns_lift (accumulateAll_not_returns _ _ _ _ _ _) fun _ _ => ?_
  rw [Go.bind_ok rfl]
  refine not_returns_lift (accumulateAll_not_returns _ _ _ _ _ _) fun _ _ => ?_
  rw [Go.bind_ok rfl, Go.bind_ok (Go.lift_run _ _)]
  refine not_returns_lift (accumulateAll_not_returns _ _ _ _ _ _) fun _ _ => not_returns_ok _

theorem processPVCKK_not_returns (cmtBytes : Commitment → Bytes) (r : R1CS F) (f : P1File G1 G2) (n : Nat)
    (hn : n < 2 ^ 32) (ω : F) (h2 : Phase2.Header) (ph2 evals : Bytes) :
    ¬ Returns ((processPVCKK C cmtBytes r h2).run ⟨ph2, lagBytes C n ω f, evals⟩).1 := by
  unfold processPVCKK
  rw [Go.bind_ok (a := lagBytes C n ω f) (s' := ⟨ph2, lagBytes C n ω f, evals⟩) rfl]
  refine not_returns_lift (makeLen_not_returns _) fun w _ => ?_
  rw [readLag3_eq hC n hn, Go.bind_ok (Go.lift_run _ _)]
  refine not_returns_lift (accumulateAll_not_returns _ _ _ _ _ _) fun _ _ => ?_
  refine not_returns_lift (accumulateAll_not_returns _ _ _ _ _ _) fun _ _ => ?_
  refine not_returns_lift (accumulateAll_not_returns _ _ _ _ _ _) fun _ _ => ?_
  exact not_returns_lift (filterL_not_returns _ _ _) fun _ _ => not_returns_ok _

omit hC [DecidableEq G1] [DecidableEq G2] in
/-- a run that succeeds, on any phase 1 bytes, found every wire and every coefficient -/
theorem init_ok_terms (E : InitEnv F) (par : Par) (r : R1CS F) (phase1File oldLag oldEvals : Bytes) (st : InitSt)
    (h : initializeFiles C E par (some r) phase1File oldLag oldEvals = (.ok (), st)) :
    ∀ c ∈ r.constraints, ∀ ts ∈ [c.l, c.r, c.o], ∀ t ∈ ts, t.wire < r.wires ∧ (t.coeff < 4 ∨ t.coeff < r.coefficients.length) := by
  unfold initializeFiles initBody at h
  obtain ⟨⟨r', h1, h2⟩, s1, hh, h⟩ := Go.bind_eq_ok h
  obtain ⟨_, s2, -, h⟩ := Go.bind_eq_ok h
  obtain ⟨_, s3, -, h⟩ := Go.bind_eq_ok h
  obtain ⟨_, s4, -, hlast⟩ := Go.bind_eq_ok h
  clear h
  unfold processHeader at hh
  obtain ⟨d, _, -, hh⟩ := Go.bind_eq_ok hh
  obtain ⟨x1, _, -, hh⟩ := Go.bind_eq_ok hh
  obtain ⟨_, _, -, hh⟩ := Go.bind_eq_ok hh
  obtain ⟨_, _, -, hh⟩ := Go.bind_eq_ok hh
  simp only [Go.pure_run, Prod.mk.injEq, Except.ok.injEq] at hh
  obtain ⟨⟨rfl, rfl, rfl⟩, -⟩ := hh
  unfold processPVCKK at hlast
  obtain ⟨_, _, -, h⟩ := Go.bind_eq_ok hlast
  obtain ⟨w, _, hw, h⟩ := Go.bind_eq_ok h
  obtain ⟨⟨t, a, b⟩, _, -, h⟩ := Go.bind_eq_ok h
  obtain ⟨L1, _, hL1, h⟩ := Go.bind_eq_ok h
  obtain ⟨L2, _, hL2, h⟩ := Go.bind_eq_ok h
  obtain ⟨L3, _, hL3, h⟩ := Go.bind_eq_ok h
  simp only [Go.lift_run, Prod.mk.injEq] at hw hL1 hL2 hL3
  have hwl : w = r.wires := by
    have := makeLen_eq_ok hw.1
    rw [circuitHeader_wires] at this
    omega
  have l1 : L1.length = w := by rw [accumulateAll_length _ _ _ _ _ _ _ hL1.1, List.length_replicate]
  have l2 : L2.length = w := by rw [accumulateAll_length _ _ _ _ _ _ _ hL2.1, l1]
  have o1 := accumulateAll_ok _ _ _ _ _ _ _ hL1.1
  have o2 := accumulateAll_ok _ _ _ _ _ _ _ hL2.1
  have o3 := accumulateAll_ok _ _ _ _ _ _ _ hL3.1
  rw [List.length_replicate, hwl] at o1
  rw [l1, hwl] at o2
  rw [l2, hwl] at o3
  intro c hc ts hts
  simp only [List.mem_cons, List.not_mem_nil, or_false] at hts
  rcases hts with rfl | rfl | rfl
  · exact o3 c hc
  · exact o2 c hc
  · exact o1 c hc

/-- on a well-formed phase 1 file of sufficient power no error is returned, whatever the circuit is -/
theorem init_not_returns [DecidableEq GT] (E : InitEnv F) (par : Par) (r : R1CS F) (hcnt : r.nbConstraints = r.constraints.length)
    (f : P1File G1 G2) (hf : f.WF) (k : Nat) (hk : IsDomain r.constraints.length k) (hk27 : k ≤ 27)
    (hkp : k ≤ f.power.toNat) (hdom : (E.dom (2 ^ k)).Lawful k) (junk oldLag oldEvals : Bytes) :
    ¬ Returns (initializeFiles C E par (some r) (f.encode C ++ junk) oldLag oldEvals).1 := by
  have hn : 2 ^ k < 2 ^ 32 := Nat.pow_lt_pow_right (by omega) (by omega)
  obtain ⟨hc1, hd1, hz1⟩ := circuitHeader_rest r (r.constraints.length : Int) ((2 ^ k : Nat) : Int)
  unfold initializeFiles initBody
  rw [Go.bind_ok (processHeader_counts E.header r hcnt f hf junk k hkp (by rw [hcnt]; exact nextPowerofTwo_eq hk hk27) hk.fits _)]
  simp only
  rw [Go.bind_ok (processLagrange_run hC par E.dom f hf junk k hkp hdom _ rfl _ hd1 _)]
  have h3 := processEvaluations_not_returns hC r f hf junk (2 ^ k) hn (E.dom (2 ^ k)).gen ⟨f.power, UInt16.ofNat f.records.length⟩ rfl _ hd1
    ([] ++ E.header.enc (circuitHeader r r.constraints.length ((2 ^ k : Nat) : Int))) oldEvals
  have kl := (processEvaluations_keepsLag C r ⟨f.power, UInt16.ofNat f.records.length⟩
    (circuitHeader r r.constraints.length ((2 ^ k : Nat) : Int)) (f.encode C ++ junk)).run
    ⟨[] ++ E.header.enc (circuitHeader r r.constraints.length ((2 ^ k : Nat) : Int)), lagBytes C (2 ^ k) (E.dom (2 ^ k)).gen f, oldEvals⟩
  rcases e3 : (processEvaluations C r ⟨f.power, UInt16.ofNat f.records.length⟩
    (circuitHeader r r.constraints.length ((2 ^ k : Nat) : Int)) (f.encode C ++ junk)).run
    ⟨[] ++ E.header.enc (circuitHeader r r.constraints.length ((2 ^ k : Nat) : Int)), lagBytes C (2 ^ k) (E.dom (2 ^ k)).gen f, oldEvals⟩
    with ⟨x, s3⟩
  rw [e3] at h3 kl
  cases x with
  | error e =>
    rw [Go.bind_error e3]
    exact fun ⟨m, hm⟩ => h3 ⟨m, by cases hm; rfl⟩
  | ok u =>
    rw [Go.bind_ok e3, Go.bind_ok (processDeltaAndZ_run hC f hf junk k hkp _ hd1 _)]
    obtain ⟨p3, l3, e3⟩ := s3
    simp only at kl
    subst kl
    exact processPVCKK_not_returns hC E.cmtBytes r f (2 ^ k) hn (E.dom (2 ^ k)).gen _ _ _

/-- **C57**, phase 2 initialisation with a well-formed phase 1 file of sufficient power: `Initialize` never returns an error. It succeeds
if the circuit is supported, and crashes if not: if a constraint refers to a wire or coefficient that does not exist, if a private wire
is committed to, or if the commitment wire does not follow the public ones. -/
theorem C57_initialize_exact [DecidableEq GT] (E : InitEnv F) (par : Par) (r : R1CS F) (hcnt : r.nbConstraints = r.constraints.length) (hsz : r.wires < 2 ^ 32)
    (hcv : r.ValidCommitment) (f : P1File G1 G2) (hf : f.WF) (k : Nat) (hk : IsDomain r.constraints.length k) (hk27 : k ≤ 27)
    (hkp : k ≤ f.power.toNat) (hdom : (E.dom (2 ^ k)).Lawful k) (junk oldLag oldEvals : Bytes) :
    let res := (initializeFiles C E par (some r) (f.encode C ++ junk) oldLag oldEvals).1
    (res = .ok () ↔ r.Supported) ∧ (Panics res ↔ ¬ r.Supported) := by
  intro res
  have h27 : r.constraints.length ≤ 2 ^ 27 := hk.fits.trans (Nat.pow_le_pow_right (by omega) hk27)
  have hret : ¬ Returns res := init_not_returns hC E par r hcnt f hf k hk hk27 hkp hdom junk oldLag oldEvals
  have hok : res = .ok () ↔ r.Supported := by
    constructor
    · intro h
      have hr : initializeFiles C E par (some r) (f.encode C ++ junk) oldLag oldEvals = (.ok (), _) := Prod.ext h rfl
      have ht := init_ok_terms E par r _ _ _ _ hr
      exact ⟨⟨hcnt, fun c hc ts hts t h => (ht c hc ts hts t h).1, fun c hc ts hts t h => (ht c hc ts hts t h).2, hsz⟩,
        C27_only_public_commitment E par r hcv _ _ _ h, h27⟩
    · intro h
      change (initializeFiles C E par (some r) (f.encode C ++ junk) oldLag oldEvals).1 = _
      rw [init_split hC E par r h.valid h.commitment f hf k hk hk27 hkp hdom]
  refine ⟨hok, fun hp hs => ?_, fun hs => ?_⟩
  · rw [hok.mpr hs] at hp
    exact not_panics_ok _ hp
  · rcases hres : res with e | u
    · cases e with
      | err m => exact absurd ⟨m, hres⟩ hret
      | panic m => exact ⟨m, rfl⟩
    · exact absurd (hok.mp hres) hs

omit hC [DecidableEq G1] [DecidableEq G2] in
/-- **C57**: a circuit with more than `2^27` constraints crashes `Initialize`, whatever the phase 1 file is; nothing has been written. -/
theorem C57_too_many_constraints (E : InitEnv F) (par : Par) (r : R1CS F) (h : 2 ^ 27 < r.nbConstraints) (phase1File oldLag oldEvals : Bytes) :
    ∃ m, initializeFiles C E par (some r) phase1File oldLag oldEvals = (.error (.panic m), ⟨[], oldLag, oldEvals⟩) := by
  obtain ⟨m, hm⟩ := nextPowerofTwo_panic h
  refine ⟨m, ?_⟩
  unfold initializeFiles initBody processHeader
  simp only [hm]
  rfl

end

section
variable {F G1 G2 GT : Type} [Field F] [AddCommGroup G1] [Module F G1] [AddCommGroup G2]
  [Module F G2] [AddCommGroup GT] [Module F GT] [DecidableEq G1] [DecidableEq G2] [DecidableEq GT]
variable {C : Curve F G1 G2 GT}

open Cli

/-- **C57**, the command: `p2n` on a well-formed phase 1 file of sufficient power succeeds exactly for supported circuits, and crashes for
all others. -/
theorem C57_p2n_exact (hC : C.Lawful) (E : Env F G1) (d : Draws F) (p1 circ out : String) (fs : FS) (rs junk : Bytes) (r : R1CS F)
    (hcnt : r.nbConstraints = r.constraints.length) (hsz : r.wires < 2 ^ 32) (hcv : r.ValidCommitment) (f : P1File G1 G2) (hf : f.WF)
    (k : Nat) (hk : IsDomain r.constraints.length k) (hk27 : k ≤ 27) (hkp : k ≤ f.power.toNat) (hdom : (E.init.dom (2 ^ k)).Lawful k)
    (h1 : fs p1 = some (f.encode C ++ junk)) (h2 : fs circ = some rs) (hr : E.r1cs rs = some r) (hp : p1 ≠ out) (hc : circ ≠ out) :
    let res := (exec C E d "p2n" [p1, circ, out] fs).1
    (res = .ok () ↔ r.Supported) ∧ (Panics res ↔ ¬ r.Supported) := by
  have key := fun l e => C57_initialize_exact hC E.init d.par r hcnt hsz hcv f hf k hk hk27 hkp hdom junk l e
  have e2 : openFile (fs.set out []) circ = .ok rs := by
    unfold openFile
    rw [set_other _ _ hc, h2]
  have e1 : openFile fs p1 = .ok (f.encode C ++ junk) := by unfold openFile; rw [h1]
  simp only [exec, p2n, arg, List.length_cons, List.length_nil, ne_eq, List.getD_cons_succ, List.getD_cons_zero, e1, e2, hr,
    contentsAfterCreate, hp]
  exact key _ _

/-- **C74** in a session: what a mistyped name of the circuit destroys stays destroyed; the later commands find an empty file. -/
theorem C74_session_false (E : Env F G1) (d : Draws F) (phase1 r1cs out : String) (fs : FS) (bs : Bytes) (h1 : fs phase1 = some bs)
    (h2 : fs r1cs = none) (h3 : r1cs ≠ out) (later : List (Command F)) (hl : ∀ c ∈ later, out ∉ outputs c.name c.args) :
    execAll C E (⟨d, "p2n", [phase1, r1cs, out]⟩ :: later) fs out = some [] := by
  obtain ⟨e, he⟩ := C74_p2n_false C E d phase1 r1cs out fs bs h1 h2 h3
  unfold execAll
  rw [execAll_frame E later out hl, he]
  simp [FS.set]

end

/-! ### examples -/

namespace Toy

/-- a constraint that refers to wire 9 of 4 -/
def brokenCircuit : R1CS K := { circuit with constraints := [⟨[⟨1, 9⟩], [⟨1, 1⟩], [⟨1, 2⟩]⟩, ⟨[], [], []⟩, ⟨[], [], []⟩] }

/-- a circuit that commits to a private wire -/
def privateCircuit : R1CS K := { circuit with commitment := ⟨[1, 2], 1, 3⟩ }

theorem brokenCircuit_unsupported : ¬ brokenCircuit.Supported := fun h => by
  have := h.valid.wire ⟨[⟨1, 9⟩], [⟨1, 1⟩], [⟨1, 2⟩]⟩ (by simp [brokenCircuit]) [⟨1, 9⟩] (by simp) ⟨1, 9⟩ (by simp)
  exact absurd this (by decide)

theorem privateCircuit_unsupported : ¬ privateCircuit.Supported := fun h => absurd h.commitment.priv (by decide)

theorem brokenCircuit_vc : brokenCircuit.ValidCommitment := ⟨⟨[], [], rfl, rfl, List.Pairwise.nil, by simp⟩, fun h => absurd rfl h⟩

theorem privateCircuit_vc : privateCircuit.ValidCommitment :=
  ⟨⟨[1], [2], rfl, rfl, List.pairwise_singleton _ _, by decide⟩, fun _ => ⟨by decide, by decide⟩⟩

end Toy

-- a reference to a wire that does not exist, and a commitment to a private wire: both crash, on the same phase 1 file
example : Panics (initializeFiles Toy.curve Toy.env Toy.par (some Toy.brokenCircuit) ((Toy.srs 3 3 5 7).encode Toy.curve ++ []) [] []).1 :=
  (C57_initialize_exact Toy.lawful Toy.env Toy.par Toy.brokenCircuit rfl (by decide) Toy.brokenCircuit_vc (Toy.srs 3 3 5 7)
    (Toy.srs_wf 3 (by decide) _ _ _) 2 Toy.circuit_domain (by decide) (by decide) dom4_lawful [] [] []).2.mpr Toy.brokenCircuit_unsupported
example : Panics (initializeFiles Toy.curve Toy.env Toy.par (some Toy.privateCircuit) ((Toy.srs 3 3 5 7).encode Toy.curve ++ []) [] []).1 :=
  (C57_initialize_exact Toy.lawful Toy.env Toy.par Toy.privateCircuit rfl (by decide) Toy.privateCircuit_vc (Toy.srs 3 3 5 7)
    (Toy.srs_wf 3 (by decide) _ _ _) 2 Toy.circuit_domain (by decide) (by decide) dom4_lawful [] [] []).2.mpr Toy.privateCircuit_unsupported
example := C57_too_many_constraints (C := Toy.curve) Toy.env Toy.par { Toy.circuit with nbConstraints := 2 ^ 27 + 1 } (by decide) [1, 2] [3] [4]

-- the command with the circuit of the toy tool
example (d : Draws Toy.K) := C57_p2n_exact Toy.lawful Toy.cliEnv d "ph1" "r1cs" "ph2"
  (FS.set (FS.set (fun _ => none) "ph1" ((Toy.srs 3 3 5 7).encode Toy.curve ++ [])) "r1cs" [1]) [1] [] Toy.circuit rfl (by decide)
  Toy.circuit_vc (Toy.srs 3 3 5 7) (Toy.srs_wf 3 (by decide) _ _ _) 2 Toy.circuit_domain (by decide) (by decide) dom4_lawful
  (by simp [FS.set]) (by simp [FS.set]) (by simp [Toy.cliEnv]) (by decide) (by decide)

-- after the failure the contributor goes on with `p2c`, which reads the empty file
example (d d' : Draws Toy.K) := C74_session_false (C := Toy.curve) Toy.cliEnv d "ph1" "r1sc" "ph2"
  (FS.set (FS.set (fun _ => none) "ph1" [1]) "ph2" [5, 6, 7]) [1] (by simp [FS.set]) (by simp [FS.set]) (by decide)
  [⟨d', "p2c", ["ph2", "ph3"]⟩] (by simp [outputs])

end ZkSetup
