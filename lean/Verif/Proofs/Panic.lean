import Verif.Model.Cli
import Verif.Model.Gob
import Verif.Proofs.Phase2Verify
import Verif.Proofs.InitRun
import Verif.Proofs.Gob
import Verif.Spec.Panic
/-
Which programs can panic. Helpers for `Verif/Props/Panic.lean`.
-/
set_option linter.unusedSectionVars false

namespace ZkSetup

theorem not_panics_ok {α : Type} (a : α) : ¬ Panics (.ok a : Except Fail α) := fun ⟨_, h⟩ => by cases h
theorem not_panics_err {α : Type} (m : String) : ¬ Panics (.error (.err m) : Except Fail α) := fun ⟨_, h⟩ => by cases h
theorem panics_panic {α : Type} (m : String) : Panics (.error (.panic m) : Except Fail α) := ⟨m, rfl⟩

theorem panics_error {α β : Type} {e : Fail} (h : Panics (.error e : Except Fail α)) : Panics (.error e : Except Fail β) := by
  obtain ⟨m, h⟩ := h
  cases h
  exact ⟨m, rfl⟩

theorem except_panics_bind {α β : Type} {x : Except Fail α} {f : α → Except Fail β} :
    Panics (x >>= f) ↔ Panics x ∨ ∃ a, x = .ok a ∧ Panics (f a) := by
  cases x with
  | ok a => exact ⟨fun h => .inr ⟨a, rfl, h⟩, fun h => h.elim (fun h => (not_panics_ok _ h).elim) fun ⟨_, h, h'⟩ => by cases h; exact h'⟩
  | error e => exact ⟨fun h => .inl (panics_error h), fun h => h.elim panics_error fun ⟨_, h, _⟩ => by cases h⟩

theorem except_no_panic {α β : Type} {x : Except Fail α} {f : α → Except Fail β} (hx : ¬ Panics x) (hf : ∀ a, ¬ Panics (f a)) :
    ¬ Panics (x >>= f) := by
  rw [except_panics_bind]
  rintro (h | ⟨a, -, h⟩)
  · exact hx h
  · exact hf a h

namespace Go
variable {σ α β : Type}

theorem panics_bind {x : Go σ α} {f : α → Go σ β} {s : σ} :
    Panics ((x >>= f).run s).1 ↔ Panics (x.run s).1 ∨ ∃ a s', x.run s = (.ok a, s') ∧ Panics ((f a).run s').1 := by
  cases h : x.run s with
  | mk r s' =>
    cases r with
    | ok a =>
      rw [bind_ok h]
      exact ⟨fun h => .inr ⟨a, s', rfl, h⟩, fun h => h.elim (fun h => (not_panics_ok _ h).elim)
        fun ⟨_, _, h, h'⟩ => by cases h; exact h'⟩
    | error e =>
      rw [bind_error h]
      exact ⟨fun h => .inl (panics_error h), fun h => h.elim panics_error fun ⟨_, _, h, _⟩ => by cases h⟩

/-- never panics -/
structure Safe (x : Go σ α) : Prop where
  run : ∀ s, ¬ Panics (x.run s).1

theorem Safe.bind {x : Go σ α} {f : α → Go σ β} (hx : x.Safe) (hf : ∀ a, (f a).Safe) : (x >>= f).Safe := by
  refine ⟨fun s => ?_⟩
  rw [panics_bind]
  rintro (h | ⟨a, s', -, h⟩)
  · exact hx.run s h
  · exact (hf a).run s' h

theorem Safe.pure (a : α) : (Pure.pure a : Go σ α).Safe := ⟨fun _ => not_panics_ok a⟩
theorem Safe.err (m : String) : (Go.fail (.err m) : Go σ α).Safe := ⟨fun _ => not_panics_err m⟩
theorem Safe.lift {r : Except Fail α} (h : ¬ Panics r) : (Go.lift r : Go σ α).Safe := ⟨fun _ => h⟩
theorem Safe.ite {p : Prop} [Decidable p] {x y : Go σ α} (hx : x.Safe) (hy : y.Safe) : (if p then x else y).Safe := by
  split <;> assumption

/-- after a first part that does not panic -/
theorem panics_after {x : Go σ α} {f : α → Go σ β} (hx : x.Safe) {s : σ} :
    Panics ((x >>= f).run s).1 ↔ ∃ a s', x.run s = (.ok a, s') ∧ Panics ((f a).run s').1 := by
  rw [panics_bind]
  exact ⟨fun h => h.resolve_left (hx.run s), .inr⟩

/-- a last part that does not panic -/
theorem panics_before {x : Go σ α} {f : α → Go σ β} (hf : ∀ a, (f a).Safe) {s : σ} :
    Panics ((x >>= f).run s).1 ↔ Panics (x.run s).1 := by
  rw [panics_bind]
  exact ⟨fun h => h.elim id fun ⟨a, s', _, h⟩ => ((hf a).run s' h).elim, .inl⟩

end Go

open Go

/-- the next statement does not panic -/
macro "np " t:term : tactic => `(tactic| (refine Safe.bind ?_ ?_ <;> [exact $t; intro _]))

theorem Rd.read_noPanic (k : Nat) : (Rd.read k).Safe := by
  refine ⟨fun r => ?_⟩
  simp only [Rd.read]
  split
  · exact not_panics_err _
  · exact not_panics_ok _

theorem Rd.readFull_noPanic (k : Nat) : (Rd.readFull k).Safe := by
  refine ⟨fun r => ?_⟩
  simp only [Rd.readFull]
  split
  · exact not_panics_ok _
  · exact not_panics_err _

theorem Codec.set_noPanic {G : Type} (c : Codec G) (b : Bytes) : (c.set b).Safe := by
  unfold Codec.set
  split
  · exact .pure _
  · exact .err _

theorem Codec.decode_noPanic {G : Type} (c : Codec G) : c.decode.Safe :=
  .bind (Rd.readFull_noPanic _) fun _ => .ite (c.set_noPanic _) (.bind (Rd.readFull_noPanic _) fun _ => c.set_noPanic _)

theorem Codec.decodeN_noPanic {G : Type} (c : Codec G) : ∀ n, (c.decodeN n).Safe
  | 0 => .pure _
  | n + 1 => .bind c.decode_noPanic fun _ => .bind (c.decodeN_noPanic n) fun _ => .pure _

theorem Codec.decodeSlice_noPanic {G : Type} (c : Codec G) : c.decodeSlice.Safe :=
  .bind (Rd.readFull_noPanic _) fun _ => c.decodeN_noPanic _

theorem IOSt.onRd_noPanic {α : Type} {x : Go Rd α} (h : x.Safe) : (IOSt.onRd x).Safe := ⟨fun s => h.run s.rd⟩
theorem IOSt.emit_noPanic (bs : Bytes) : (IOSt.emit bs).Safe := ⟨fun _ => not_panics_ok _⟩

theorem makeLen_panics (n : Int) : Panics (Phase1.makeLen n) ↔ n < 0 := by
  unfold Phase1.makeLen
  split
  · exact ⟨fun _ => ‹_›, fun _ => panics_panic _⟩
  · exact ⟨fun h => (not_panics_ok _ h).elim, fun h => (‹¬ _› h).elim⟩

theorem check_noPanic (c : Bool) (m : String) : ¬ Panics (Phase1.check c m) := by
  unfold Phase1.check
  split
  · exact not_panics_ok _
  · exact not_panics_err _

section
variable {F G1 G2 GT : Type} [Field F] [AddCommGroup G1] [Module F G1] [AddCommGroup G2]
  [Module F G2] [AddCommGroup GT] [Module F GT] [DecidableEq G1] [DecidableEq G2] [DecidableEq GT]

/-! ### phase 1 -/

theorem header_noPanic : Phase1.Header.readFrom.Safe :=
  .bind (Rd.read_noPanic _) fun _ => .bind (Rd.read_noPanic _) fun _ => .pure _

theorem linCombLoop_noPanic {G : Type} [AddCommGroup G] [Module F G] (c : Codec G) (par : Par) (pol : Phase1.MsmPolicy)
    (b : Nat) (rnd : Nat → Nat → F) (n : Nat) : ∀ (t : Nat) (buff : List G) (r : List F) (L1 L2 T1 T2 : G),
    (Phase1.linCombLoop c par pol b rnd n t buff r L1 L2 T1 T2).Safe := by
  induction n using Nat.strong_induction_on with
  | _ n ih =>
    intro t buff r L1 L2 T1 T2
    unfold Phase1.linCombLoop
    split
    · exact .bind (c.decodeN_noPanic _) fun _ => ih _ (by omega) _ _ _ _ _ _ _
    · exact .pure _

theorem linearCombination_panics {G : Type} [AddCommGroup G] [Module F G] (c : Codec G) (par : Par) (pol : Phase1.MsmPolicy)
    (b : Nat) (rnd : Nat → Nat → F) (N : Int) (s : Rd) :
    Panics ((Phase1.linearCombination c par pol b rnd N).run s).1 ↔ N < 0 := by
  unfold Phase1.linearCombination
  rw [panics_before fun _ => linCombLoop_noPanic _ _ _ _ _ _ _ _ _ _ _ _ _]
  show Panics (Phase1.makeLen _) ↔ _
  rw [makeLen_panics]
  omega

theorem linearCombination_noPanic {G : Type} [AddCommGroup G] [Module F G] (c : Codec G) (par : Par) (pol : Phase1.MsmPolicy)
    (b : Nat) (rnd : Nat → Nat → F) (N : Int) (h : 0 ≤ N) : (Phase1.linearCombination c par pol b rnd N).Safe := by
  refine ⟨fun s => ?_⟩
  rw [linearCombination_panics]
  omega

theorem verifyContribution_noPanic (C : Curve F G1 G2 GT) (c p : Phase1.Contribution G1 G2) :
    ¬ Panics (Phase1.verifyContribution C c p) := by
  unfold Phase1.verifyContribution
  refine except_no_panic (check_noPanic _ _) fun _ => ?_
  refine except_no_panic (check_noPanic _ _) fun _ => ?_
  refine except_no_panic (check_noPanic _ _) fun _ => ?_
  refine except_no_panic (check_noPanic _ _) fun _ => ?_
  refine except_no_panic (check_noPanic _ _) fun _ => ?_
  refine except_no_panic (check_noPanic _ _) fun _ => ?_
  refine except_no_panic (check_noPanic _ _) fun _ => ?_
  refine except_no_panic (check_noPanic _ _) fun _ => ?_
  exact check_noPanic _ _

theorem verifyLoop_noPanic (C : Curve F G1 G2 GT) (n : Nat) : ∀ (c p : Phase1.Contribution G1 G2) (rd : Rd),
    ¬ Panics (Phase1.verifyLoop C n c p rd) := by
  induction n with
  | zero => exact fun _ _ _ => not_panics_ok _
  | succ n ih => exact fun _ _ _ => except_no_panic (verifyContribution_noPanic _ _ _) fun _ =>
    except_no_panic (check_noPanic _ _) fun _ => ih _ _ _

theorem seekDecode_noPanic {G : Type} (c : Codec G) (file : Bytes) (pos : Int) : ¬ Panics (Phase1.seekDecode c file pos) := by
  unfold Phase1.seekDecode
  split
  · exact not_panics_err _
  · exact c.decode_noPanic.run _

theorem defaultContribution_noPanic (C : Curve F G1 G2 GT) (tr : Option Bytes) : ¬ Panics (Phase1.defaultContribution C tr) := by
  unfold Phase1.defaultContribution
  cases tr with
  | none => exact not_panics_ok _
  | some file =>
    refine except_no_panic (header_noPanic.run _) fun _ => ?_
    refine except_no_panic (seekDecode_noPanic _ _ _) fun _ => ?_
    refine except_no_panic (seekDecode_noPanic _ _ _) fun _ => ?_
    refine except_no_panic (seekDecode_noPanic _ _ _) fun _ => ?_
    refine except_no_panic (seekDecode_noPanic _ _ _) fun _ => ?_
    refine except_no_panic (seekDecode_noPanic _ _ _) fun _ => ?_
    exact not_panics_ok _

theorem verifyRest_noPanic (C : Curve F G1 G2 GT) (tr : Option Bytes) (n : Nat) (rd : Rd) (a b c : G1 × G1) (d : G2 × G2) (e : G2) :
    ¬ Panics (Phase1.verifyRest C tr n rd a b c d e) := by
  unfold Phase1.verifyRest
  refine except_no_panic (defaultContribution_noPanic _ _) fun _ => ?_
  refine except_no_panic (verifyLoop_noPanic _ _ _ _ _) fun _ => ?_
  refine except_no_panic (check_noPanic _ _) fun _ => ?_
  refine except_no_panic (check_noPanic _ _) fun _ => ?_
  refine except_no_panic (check_noPanic _ _) fun _ => ?_
  refine except_no_panic (check_noPanic _ _) fun _ => ?_
  exact check_noPanic _ _

theorem wrap64_goPow2 (p : UInt8) : Phase1.wrap64 (2 * Phase1.goPow2 p - 1) < 0 ↔ 63 ≤ p.toNat := by
  unfold Phase1.goPow2
  split
  · rename_i h
    have : (2 : Int) ^ p.toNat ≤ 2 ^ 62 := by exact_mod_cast Nat.pow_le_pow_right (by omega) h
    have h0 : (0 : Int) < 2 ^ p.toNat := by positivity
    rw [wrap64_eq (by omega) (by omega)]
    omega
  · exact ⟨fun _ => by omega, fun _ => by decide⟩

theorem goPow2_neg (p : UInt8) : Phase1.goPow2 p < 0 ↔ 63 ≤ p.toNat := by
  unfold Phase1.goPow2
  split
  · rename_i h
    have h0 : (0 : Int) < 2 ^ p.toNat := by positivity
    omega
  · exact ⟨fun _ => by omega, fun _ => by decide⟩

theorem readSections_panics (C : Curve F G1 G2 GT) (par : Par) (pol : Phase1.MsmPolicy) (b : Nat) (vr : Phase1.VerifyRand F)
    (p : UInt8) (rd : Rd) : Panics ((Phase1.readSections C par pol b vr (Phase1.goPow2 p)).run rd).1 ↔ 63 ≤ p.toNat := by
  unfold Phase1.readSections
  by_cases h : 63 ≤ p.toNat
  · refine iff_of_true ?_ h
    rw [panics_bind]
    exact .inl ((linearCombination_panics ..).mpr ((wrap64_goPow2 p).mpr h))
  · refine iff_of_false ?_ h
    have h1 := mt (wrap64_goPow2 p).mp h
    have h2 := mt (goPow2_neg p).mp h
    refine Safe.run ?_ _
    np (linearCombination_noPanic _ _ _ _ _ _ (by omega))
    np (linearCombination_noPanic _ _ _ _ _ _ (by omega))
    np (linearCombination_noPanic _ _ _ _ _ _ (by omega))
    np (linearCombination_noPanic _ _ _ _ _ _ (by omega))
    exact .bind (C.c2.decode_noPanic) fun _ => .pure _

theorem keepFirst_noPanic {G : Type} [AddCommGroup G] [DecidableEq G] (p : G) (c : Option G) (h : c.isSome) :
    (Phase1.keepFirst p c).Safe := by
  unfold Phase1.keepFirst
  split
  · cases c with
    | none => simp at h
    | some q => exact .pure _
  · exact .pure _

/-- if the buffer is long enough for the element that is picked -/
theorem scale1Loop_noPanic {G : Type} [AddCommGroup G] [Module F G] [DecidableEq G] (c : Codec G) (par : Par) (b : Nat) (tau : F)
    (mu : Option F) (first : List G → Option G) (L : Nat) (hfirst : ∀ l : List G, l.length = L → (first l).isSome) (n : Nat) :
    min n b ≤ L → ∀ (buff : List G) (sp : F) (fp : G), buff.length = L →
    (Phase1.scaleLoop c par b tau mu first n buff sp fp).Safe := by
  induction n using Nat.strong_induction_on with
  | _ n ih =>
    intro hn buff sp fp hbuff
    refine ⟨fun s => ?_⟩
    unfold Phase1.scaleLoop
    split
    · rename_i h
      rw [panics_after (IOSt.onRd_noPanic (c.decodeN_noPanic _))]
      rintro ⟨pts, s', hd, hp⟩
      have hpts : pts.length = min n b := by
        have : (c.decodeN (min n b)).run s.rd = (.ok pts, s'.rd) := by
          simp only [IOSt.onRd, Prod.mk.injEq] at hd
          exact Prod.ext hd.1 (congrArg IOSt.rd hd.2)
        exact decodeN_length _ _ _ _ _ this
      revert hp
      refine Safe.run ?_ _
      np (IOSt.emit_noPanic _)
      refine Safe.bind (keepFirst_noPanic _ _ (hfirst _ ?_)) fun _ => ih _ (by omega) (by omega) _ _ _ ?_
      all_goals
        rw [Par.mapIdx_eq', List.length_mapIdx, List.length_append, List.length_drop, hpts]
        omega
    · exact not_panics_ok _

theorem copyContributions_noPanic (C : Curve F G1 G2 GT) (n : Nat) : ∀ c, (Phase1.copyContributions C n c).Safe := by
  induction n with
  | zero => exact fun _ => .pure _
  | succ n ih =>
    intro c
    unfold Phase1.copyContributions
    refine Safe.bind ?_ fun _ => .bind (IOSt.emit_noPanic _) fun _ => ih _
    have hf : ∀ {α κ : Type} (dec : Go Rd α) (upd : α → κ → κ), dec.Safe → (Phase1.readField dec upd).Safe := by
      intro α κ dec upd h
      refine ⟨fun s => ?_⟩
      simp only [Phase1.readField]
      have := h.run s.2
      cases hr : dec.run s.2 with
      | mk r rd =>
        rw [hr] at this
        cases r with
        | ok a => exact not_panics_ok _
        | error e => exact fun k => this (panics_error k)
    have hp : ∀ {G κ : Type} (c : Codec G) (get : κ → G) (upd : G → κ → κ), (Phase1.readPoint c get upd).Safe := by
      intro G κ c get upd
      refine ⟨fun s => ?_⟩
      simp only [Phase1.readPoint]
      have := c.decode_noPanic.run s.2
      cases hr : c.decode.run s.2 with
      | mk r rd =>
        rw [hr] at this
        cases r with
        | ok a => exact not_panics_ok _
        | error e =>
          simp only
          split
          · exact not_panics_err _
          · exact fun k => this (panics_error k)
    have h1 : (Phase1.Contribution.readFrom C).Safe := by
      unfold Phase1.Contribution.readFrom
      refine .bind (hp C.c1 _ _) fun _ => .bind (hp C.c1 _ _) fun _ =>
        .bind (hp C.c1 _ _) fun _ => .bind (hp C.c2 _ _) fun _ =>
        .bind (hp C.c2 _ _) fun _ => .bind (hp C.c1 _ _) fun _ =>
        .bind (hp C.c1 _ _) fun _ => .bind (hp C.c2 _ _) fun _ =>
        .bind (hp C.c1 _ _) fun _ => .bind (hp C.c1 _ _) fun _ =>
        .bind (hp C.c2 _ _) fun _ => .bind (hp C.c1 _ _) fun _ =>
        .bind (hp C.c1 _ _) fun _ => .bind (hp C.c2 _ _) fun _ =>
        .bind ⟨fun _ => not_panics_ok _⟩ fun _ => hf _ _ (.bind (Rd.read_noPanic _) fun _ => .pure _)
    refine ⟨fun s => ?_⟩
    have := h1.run (c, s.rd)
    dsimp only
    revert this
    cases (Phase1.Contribution.readFrom C).run (c, s.rd) with
    | mk r t =>
      cases r with
      | ok a => exact fun _ => not_panics_ok _
      | error e => exact fun h k => h (panics_error k)

theorem scaleG1_panics_neg (C : Curve F G1 G2 GT) (par : Par) (b : Nat) (N : Int) (hN : N < 0) (tau : F) (mu : Option F) (s : IOSt) :
    Panics ((Phase1.scaleG1 C par b N tau mu).run s).1 := by
  unfold Phase1.scaleG1
  rw [panics_bind]
  refine .inl ?_
  show Panics (Phase1.makeLen _)
  rw [makeLen_panics]
  omega

theorem scaleG1_none_noPanic (C : Curve F G1 G2 GT) (par : Par) (b : Nat) (hb : 2 ≤ b) (N : Int) (hN : 2 ≤ N) (tau : F) :
    (Phase1.scaleG1 C par b N tau none).Safe := by
  refine ⟨fun s => ?_⟩
  unfold Phase1.scaleG1
  rw [Go.bind_ok (by rw [Go.lift_run]; unfold Phase1.makeLen; rw [if_neg (by omega)])]
  exact (scale1Loop_noPanic _ _ _ _ _ _ (min N b).toNat (fun l hl => by simp; omega) _ (by omega) _ _ _ (by simp)).run s

theorem scaleG1_some_noPanic (C : Curve F G1 G2 GT) (par : Par) (b : Nat) (hb : 2 ≤ b) (N : Int) (hN : 1 ≤ N) (tau m : F) :
    (Phase1.scaleG1 C par b N tau (some m)).Safe := by
  refine ⟨fun s => ?_⟩
  unfold Phase1.scaleG1
  rw [Go.bind_ok (by rw [Go.lift_run]; unfold Phase1.makeLen; rw [if_neg (by omega)])]
  exact (scale1Loop_noPanic _ _ _ _ _ _ (min N b).toNat (fun l hl => by simp; omega) _ (by omega) _ _ _ (by simp)).run s

theorem scaleG2_noPanic (C : Curve F G1 G2 GT) (par : Par) (b : Nat) (hb : 2 ≤ b) (N : Int) (hN : 2 ≤ N) (tau : F) :
    (Phase1.scaleG2 C par b N tau).Safe := by
  refine ⟨fun s => ?_⟩
  unfold Phase1.scaleG2
  rw [Go.bind_ok (by rw [Go.lift_run]; unfold Phase1.makeLen; rw [if_neg (by omega)])]
  exact (scale1Loop_noPanic _ _ _ _ _ _ (min N b).toNat (fun l hl => by simp; omega) _ (by omega) _ _ _ (by simp)).run s

/-- one element: `buff[1]` does not exist -/
theorem scaleG1_one (C : Curve F G1 G2 GT) (par : Par) (b : Nat) (hb : 2 ≤ b) (tau : F) (s : IOSt) :
    Panics ((Phase1.scaleG1 C par b 1 tau none).run s).1 ↔ ∃ q, (C.c1.decode.run s.rd).1 = .ok q := by
  unfold Phase1.scaleG1
  rw [Go.bind_ok (by rw [Go.lift_run]; unfold Phase1.makeLen; rw [if_neg (by omega)])]
  unfold Phase1.scaleLoop
  rw [dif_pos ⟨by decide, by omega⟩]
  have hm : min (1 : Int).toNat b = 1 := by simp; omega
  have hm' : (min (1 : Int) b).toNat = 1 := by omega
  simp only [hm, hm']
  rw [panics_after (IOSt.onRd_noPanic (C.c1.decodeN_noPanic _))]
  have hdec : ∀ rd, (C.c1.decodeN 1).run rd = match C.c1.decode.run rd with
      | (.ok a, s') => (.ok [a], s')
      | (.error e, s') => (.error e, s') := by
    intro rd
    simp only [Codec.decodeN, Go.bind_run]
    cases C.c1.decode.run rd with
    | mk r s' => cases r <;> rfl
  constructor
  · rintro ⟨pts, s', h, -⟩
    simp only [IOSt.onRd, hdec] at h
    revert h
    cases C.c1.decode.run s.rd with
    | mk r s' =>
      cases r with
      | ok a => exact fun _ => ⟨a, rfl⟩
      | error e => intro h; cases h
  · rintro ⟨q, hq⟩
    refine ⟨[q], { s with rd := (C.c1.decode.run s.rd).2 }, ?_, ?_⟩
    · simp only [IOSt.onRd, hdec]
      revert hq
      cases C.c1.decode.run s.rd with
      | mk r s' => rintro rfl; rfl
    · rw [panics_after (IOSt.emit_noPanic _)]
      refine ⟨(), _, IOSt.emit_run _ _, ?_⟩
      rw [panics_bind]
      refine .inl ?_
      have : (par.mapIdx 1 (fun i p => (Phase1.applyMultiplicand par none (Phase1.powers 1 tau 1)).getD i 0 • p)
          ([q] ++ List.drop 1 (List.replicate 1 (0 : G1))))[1]? = none := by
        rw [Par.mapIdx_eq']
        rfl
      rw [this, Phase1.keepFirst, if_pos rfl]
      exact panics_panic _

/-- which headers make the scaling of phase 1 panic -/
theorem contributeBody_panics (C : Curve F G1 G2 GT) (par : Par) (b : Nat) (hb : 2 ≤ b) (rnd : Phase1.Rand F) (h : Phase1.Header)
    (s : IOSt) : Panics ((Phase1.contributeBody C par b rnd h).run s).1 ↔
      63 ≤ h.power.toNat ∨ h.power = 0 ∧ ∃ q, (C.c1.decode.run s.rd).1 = .ok q := by
  unfold Phase1.contributeBody
  rw [Go.bind_ok (IOSt.emit_run _ _)]
  by_cases hbig : 63 ≤ h.power.toNat
  · refine iff_of_true ?_ (.inl hbig)
    rw [panics_bind]
    exact .inl (scaleG1_panics_neg _ _ _ _ ((wrap64_goPow2 _).mpr hbig) _ _ _)
  · have h1 := mt (wrap64_goPow2 h.power).mp hbig
    have h2 : Phase1.goPow2 h.power = 2 ^ h.power.toNat := by
      unfold Phase1.goPow2; rw [if_pos (by omega)]
    by_cases h0 : h.power = 0
    · have hw : Phase1.wrap64 (2 * Phase1.goPow2 h.power - 1) = 1 := by rw [h0]; decide
      rw [hw, panics_bind, scaleG1_one C par b hb]
      constructor
      · rintro (h | ⟨a, s', hok, -⟩)
        · exact .inr ⟨h0, h⟩
        · -- it panics or fails, but does not succeed
          exfalso
          have hp := mt (scaleG1_one C par b hb rnd.tau _).mpr (by rw [hok]; exact not_panics_ok _)
          unfold Phase1.scaleG1 at hok
          rw [Go.bind_ok (by rw [Go.lift_run]; unfold Phase1.makeLen; rw [if_neg (by omega)])] at hok
          unfold Phase1.scaleLoop at hok
          rw [dif_pos ⟨by decide, by omega⟩] at hok
          obtain ⟨pts, s'', hd, -⟩ := Go.bind_eq_ok hok
          have hm : min (1 : Int).toNat b = 1 := by simp; omega
          rw [hm] at hd
          simp only [IOSt.onRd, Codec.decodeN, Go.bind_run] at hd
          revert hd hp
          simp only
          cases C.c1.decode.run s.rd with
          | mk r s' =>
            cases r with
            | ok a => exact fun hp _ => hp ⟨a, rfl⟩
            | error e => intro _ hd; cases hd
      · rintro (h | ⟨-, h⟩)
        · omega
        · exact .inl h
    · refine iff_of_false ?_ (by rintro (h | h); exact hbig h; exact h0 h.1)
      have hpos : 1 ≤ h.power.toNat := by
        by_contra hc
        exact h0 (UInt8.toNat_inj.mp (by simp; omega))
      have hN : (2 : Int) ≤ 2 ^ h.power.toNat := by
        calc (2 : Int) = 2 ^ 1 := rfl
          _ ≤ 2 ^ h.power.toNat := by exact_mod_cast Nat.pow_le_pow_right (by omega) hpos
      have hle : (2 : Int) ^ h.power.toNat ≤ 2 ^ 62 := by exact_mod_cast Nat.pow_le_pow_right (by omega) (by omega)
      have hw : 2 ≤ Phase1.wrap64 (2 * Phase1.goPow2 h.power - 1) := by
        rw [h2, wrap64_eq (by omega) (by omega)]; omega
      rw [h2] at hw ⊢
      refine Safe.run ?_ _
      np (scaleG1_none_noPanic _ _ _ hb _ hw _)
      np (scaleG1_some_noPanic _ _ _ hb _ (by omega) _ _)
      np (scaleG1_some_noPanic _ _ _ hb _ (by omega) _ _)
      np (scaleG2_noPanic _ _ _ hb _ hN _)
      np (IOSt.onRd_noPanic C.c2.decode_noPanic)
      np (IOSt.emit_noPanic _)
      np (copyContributions_noPanic _ _ _)
      exact .bind (IOSt.emit_noPanic _) fun _ => .pure _

/-! ### transformation -/

theorem transformLoop_noPanic {G : Type} (c : Codec G) (n : Nat) : ∀ (rd : Rd) (out : Bytes),
    ¬ Panics (Phase1.transformPoints.loop c n rd out).1 := by
  induction n with
  | zero => exact fun _ _ => not_panics_ok _
  | succ n ih =>
    intro rd out
    have := c.decode_noPanic.run rd
    unfold Phase1.transformPoints.loop
    split
    · exact ih _ _
    · rename_i h
      rw [h] at this
      exact fun k => this (panics_error k)

theorem transformPoints_noPanic {G : Type} (c : Codec G) (input : Bytes) (pos : Int) (n : Nat) :
    ¬ Panics (Phase1.transformPoints c input pos n).1 := by
  unfold Phase1.transformPoints
  split
  · exact not_panics_err _
  · exact transformLoop_noPanic _ _ _ _

theorem transform_noPanic (C : Curve F G1 G2 GT) (p q : UInt8) (input : Bytes) : ¬ Panics (Phase1.transform C p q input).1 := by
  have h1 : ∀ pos n e o, Phase1.transformPoints C.c1 input pos n = (.error e, o) → ¬ Panics (.error e : Except Fail Unit) := by
    intro pos n e o h k
    have := transformPoints_noPanic C.c1 input pos n
    rw [h] at this
    exact this (panics_error k)
  have h2 : ∀ pos n e o, Phase1.transformPoints C.c2 input pos n = (.error e, o) → ¬ Panics (.error e : Except Fail Unit) := by
    intro pos n e o h k
    have := transformPoints_noPanic C.c2 input pos n
    rw [h] at this
    exact this (panics_error k)
  unfold Phase1.transform
  dsimp only
  split
  · exact h1 _ _ _ _ ‹_›
  · split
    · exact h1 _ _ _ _ ‹_›
    · split
      · exact h1 _ _ _ _ ‹_›
      · split
        · exact h2 _ _ _ _ ‹_›
        · split
          · exact h2 _ _ _ _ ‹_›
          · exact not_panics_ok _

/-! ### phase 2 -/

theorem header2_noPanic {H : Phase2.HeaderCodec} (hH : H.Lawful) : (Phase2.Header.read H).Safe := by
  refine ⟨fun r => ?_⟩
  rintro ⟨m, h⟩
  exact hH.dec_total r (H.dec.run r).2 m (Prod.ext h rfl)

theorem onInput_noPanic {α : Type} {x : Go Rd α} (h : x.Safe) : (Phase2.onInput x).Safe := ⟨fun s => h.run s.1⟩
theorem onOrigin_noPanic {α : Type} {x : Go Rd α} (h : x.Safe) : (Phase2.onOrigin x).Safe := ⟨fun s => h.run s.2⟩

theorem readFrom2_noPanic (C : Curve F G1 G2 GT) : (Phase2.Contribution.readFrom C).Safe :=
  .bind C.c1.decode_noPanic fun _ => .bind C.c1.decode_noPanic fun _ => .bind C.c1.decode_noPanic fun _ =>
    .bind C.c2.decode_noPanic fun _ => .bind (.bind (Rd.read_noPanic _) fun _ => .pure _) fun _ => .pure _

theorem scale2Loop_noPanic (C : Curve F G1 G2 GT) (par : Par) (b : Nat) (delta : F) (n : Nat) :
    (Phase2.scaleLoop C par b delta n).Safe := by
  induction n using Nat.strong_induction_on with
  | _ n ih =>
    unfold Phase2.scaleLoop
    split
    · exact .bind (IOSt.onRd_noPanic (C.c1.decodeN_noPanic _)) fun _ => .bind (IOSt.emit_noPanic _) fun _ => ih _ (by omega)
    · exact .pure _

theorem scale2_panics (C : Curve F G1 G2 GT) (par : Par) (b : Nat) (N : Int) (delta : F) (s : IOSt) :
    Panics ((Phase2.scale C par b N delta).run s).1 ↔ N < 0 := by
  unfold Phase2.scale
  rw [panics_before fun _ => scale2Loop_noPanic _ _ _ _ _]
  show Panics (Phase1.makeLen _) ↔ _
  rw [makeLen_panics]
  omega

theorem scale2_noPanic (C : Curve F G1 G2 GT) (par : Par) (b : Nat) (N : Int) (hN : 0 ≤ N) (delta : F) :
    (Phase2.scale C par b N delta).Safe := by
  refine ⟨fun s => ?_⟩
  rw [scale2_panics]
  omega

theorem scalePoint_noPanic {G : Type} [AddCommGroup G] [Module F G] (c : Codec G) (x : F) : (Phase2.scalePoint c x).Safe :=
  .bind (IOSt.onRd_noPanic c.decode_noPanic) fun _ => .bind (IOSt.emit_noPanic _) fun _ => .pure _

theorem copy2_noPanic (C : Curve F G1 G2 GT) (n : Nat) : ∀ c, (Phase2.copyContributions C n c).Safe := by
  induction n with
  | zero => exact fun _ => .pure _
  | succ n ih =>
    exact fun _ => .bind (IOSt.onRd_noPanic (readFrom2_noPanic C)) fun _ => .bind (IOSt.emit_noPanic _) fun _ => ih _

theorem contributeWith_noPanic (C : Curve F G1 G2 GT) (H : Phase2.HeaderCodec) (par : Par) (b : Nat) (rnd : Phase2.Rand F)
    (h : Phase2.Header) (hd : 0 ≤ Phase1.wrap64 (h.domain - 1)) (hw : 0 ≤ h.witness) : (Phase2.contributeWith C H par b rnd h).Safe := by
  unfold Phase2.contributeWith
  np (IOSt.emit_noPanic _)
  np (scalePoint_noPanic _ _)
  np (scalePoint_noPanic _ _)
  np (scale2_noPanic _ _ _ _ hd _)
  np (scale2_noPanic _ _ _ _ hw _)
  np (copy2_noPanic _ _ _)
  exact .bind (IOSt.emit_noPanic _) fun _ => .pure _

theorem msm_noPanic {σ : Type} (ps : List G1) (xs : List F) : (Phase2.msm ps xs : Go σ G1).Safe := by
  unfold Phase2.msm
  split
  · exact .pure _
  · exact .err _

theorem aggregateLoop_noPanic (C : Curve F G1 G2 GT) (par : Par) (b : Nat) (rnd : Nat → Nat → F) (n : Nat) :
    ∀ (t : Nat) (r : List F) (i o : G1), (Phase2.aggregateLoop C par b rnd n t r i o).Safe := by
  induction n using Nat.strong_induction_on with
  | _ n ih =>
    intro t r i o
    unfold Phase2.aggregateLoop
    split
    · exact .bind (onInput_noPanic (C.c1.decodeN_noPanic _)) fun _ => .bind (msm_noPanic _ _) fun _ =>
        .bind (onOrigin_noPanic (C.c1.decodeN_noPanic _)) fun _ => .bind (msm_noPanic _ _) fun _ => ih _ (by omega) _ _ _ _
    · exact .pure _

theorem aggregate_noPanic (C : Curve F G1 G2 GT) (par : Par) (b : Nat) (rnd : Nat → Nat → F) (N : Int) (hN : 0 ≤ N) :
    (Phase2.aggregate C par b rnd N).Safe := by
  unfold Phase2.aggregate
  np (.lift (by rw [makeLen_panics]; omega))
  np (.lift (by rw [makeLen_panics]; omega))
  exact aggregateLoop_noPanic _ _ _ _ _ _ _ _ _

theorem verifyParameter_noPanic (C : Curve F G1 G2 GT) (par : Par) (b : Nat) (rnd : Nat → Nat → F) (d g : G2) (N : Int) (hN : 0 ≤ N)
    (field : String) : (Phase2.verifyParameter C par b rnd d g N field).Safe := by
  refine ⟨fun s => ?_⟩
  have := (aggregate_noPanic C par b rnd N hN).run s
  unfold Phase2.verifyParameter
  dsimp only
  split
  · exact check_noPanic _ _
  · exact not_panics_ok _
  · rename_i h
    rw [h] at this
    exact (this (panics_panic _)).elim

theorem verifyContribution2_noPanic (C : Curve F G1 G2 GT) (c : Phase2.Contribution G1 G2) (d : G1) (h : Bytes) :
    ¬ Panics (Phase2.verifyContribution C c d h) := by
  unfold Phase2.verifyContribution
  refine except_no_panic (check_noPanic _ _) fun _ => ?_
  refine except_no_panic (check_noPanic _ _) fun _ => ?_
  exact check_noPanic _ _

theorem verifyLoop2_noPanic (C : Curve F G1 G2 GT) (n : Nat) : ∀ c d h, (Phase2.verifyLoop C n c d h).Safe := by
  induction n with
  | zero => exact fun _ _ _ => .pure _
  | succ n ih =>
    exact fun _ _ _ => .bind (readFrom2_noPanic C) fun _ => .bind (.lift (verifyContribution2_noPanic _ _ _ _)) fun _ => ih _ _ _

theorem liftCheck_ok {α : Type} {c : Bool} {m : String} {s s' : α} {a : Unit} (h : (Go.lift (Phase1.check c m) : Go α Unit).run s = (.ok a, s')) :
    c = true := by
  rw [Go.lift_run] at h
  unfold Phase1.check at h
  split at h
  · assumption
  · cases h

/-- phase 2 verification panics only if both headers are read, agree, and carry a bad domain or witness count -/
theorem verifyBody_panics (C : Curve F G1 G2 GT) {H : Phase2.HeaderCodec} (hH : H.Lawful) (par : Par) (b : Nat)
    (vr : Phase2.VerifyRand F) (i o : Rd) (hp : Panics ((Phase2.verifyBody C H par b vr).run (i, o)).1) :
    ∃ h h', (H.dec.run i).1 = .ok h ∧ (H.dec.run o).1 = .ok h' ∧ h.equal h' = true ∧
      (Phase1.wrap64 (h.domain - 1) < 0 ∨ h.witness < 0) := by
  unfold Phase2.verifyBody at hp
  rw [panics_after (onInput_noPanic (header2_noPanic hH))] at hp
  obtain ⟨h, s1, e1, hp⟩ := hp
  rw [panics_after (onOrigin_noPanic (header2_noPanic hH))] at hp
  obtain ⟨h', s2, e2, hp⟩ := hp
  rw [panics_after (.lift (check_noPanic _ _))] at hp
  obtain ⟨_, s3, e3, hp⟩ := hp
  rw [panics_after (.lift (check_noPanic _ _))] at hp
  obtain ⟨_, s4, e4, hp⟩ := hp
  have hs1 : s1.2 = o := by
    have := congrArg (·.2.2) e1
    exact this.symm
  refine ⟨h, h', congrArg Prod.fst e1, ?_, liftCheck_ok e4, ?_⟩
  · have := congrArg Prod.fst e2
    rw [← hs1]
    exact this
  · by_contra hc
    push Not at hc
    revert hp
    refine Safe.run ?_ _
    np (onOrigin_noPanic C.c1.decode_noPanic)
    np (onOrigin_noPanic C.c2.decode_noPanic)
    np (onInput_noPanic C.c1.decode_noPanic)
    np (onInput_noPanic C.c2.decode_noPanic)
    np (.lift (check_noPanic _ _))
    np (verifyParameter_noPanic _ _ _ _ _ _ _ hc.1 _)
    np (verifyParameter_noPanic _ _ _ _ _ _ _ hc.2 _)
    np (onInput_noPanic (verifyLoop2_noPanic _ _ _ _ _))
    exact .lift (check_noPanic _ _)

/-! ### keys -/

theorem onPh2_noPanic {O α : Type} {x : Go Rd α} (h : x.Safe) : (Keys.KeySt.onPh2 x : Go (Keys.KeySt O) α).Safe := ⟨fun s => h.run s.ph2⟩
theorem onEvals_noPanic {O α : Type} {x : Go Rd α} (h : x.Safe) : (Keys.KeySt.onEvals x : Go (Keys.KeySt O) α).Safe :=
  ⟨fun s => h.run s.evals⟩
theorem write_noPanic {O : Type} (f : O → O) : (Keys.KeySt.write f).Safe := ⟨fun _ => not_panics_ok _⟩

theorem toUint64_small {n : Int} (h : 0 ≤ n) (h' : n ≤ 2 ^ 28) : Keys.toUint64 n ≤ 2 ^ 28 := by
  unfold Keys.toUint64
  omega

theorem pkBody_noPanic (C : Curve F G1 G2 GT) (E : Keys.KeyEnv G1) (h : Phase2.Header) (hd : 1 ≤ h.domain) (hd' : h.domain ≤ 2 ^ 28)
    (hw : 0 ≤ h.witness) : (Keys.pkBody C E h).Safe := by
  unfold Keys.pkBody
  np (.lift (by
    unfold Keys.domainBytes
    rw [if_neg (by have := toUint64_small (by omega) hd'; omega)]
    exact not_panics_ok _))
  np (write_noPanic _)
  np (onEvals_noPanic C.c1.decode_noPanic)
  np (write_noPanic _)
  np (onEvals_noPanic C.c1.decode_noPanic)
  np (write_noPanic _)
  np (onPh2_noPanic C.c1.decode_noPanic)
  np (write_noPanic _)
  np (onEvals_noPanic C.c2.decode_noPanic)
  np (onPh2_noPanic C.c2.decode_noPanic)
  np (onEvals_noPanic C.c1.decodeSlice_noPanic)
  np (write_noPanic _)
  np (onEvals_noPanic C.c1.decodeSlice_noPanic)
  np (write_noPanic _)
  np (.lift (by rw [makeLen_panics]; omega))
  np (onPh2_noPanic (C.c1.decodeN_noPanic _))
  np (write_noPanic _)
  np (.lift (by rw [makeLen_panics]; omega))
  np (onPh2_noPanic (C.c1.decodeN_noPanic _))
  np (write_noPanic _)
  np (write_noPanic _)
  np (write_noPanic _)
  np (onEvals_noPanic C.c2.decodeSlice_noPanic)
  np (write_noPanic _)
  np (write_noPanic _)
  np (write_noPanic _)
  np (write_noPanic _)
  np (write_noPanic _)
  exact write_noPanic _

theorem splitPkBody_noPanic (C : Curve F G1 G2 GT) (h : Phase2.Header) (hd : 1 ≤ h.domain) (hw : 0 ≤ h.witness) :
    (Keys.splitPkBody C h).Safe := by
  unfold Keys.splitPkBody
  np (write_noPanic _)
  np (onEvals_noPanic C.c1.decode_noPanic)
  np (write_noPanic _)
  np (onEvals_noPanic C.c1.decode_noPanic)
  np (write_noPanic _)
  np (onPh2_noPanic C.c1.decode_noPanic)
  np (write_noPanic _)
  np (onEvals_noPanic C.c2.decode_noPanic)
  np (onPh2_noPanic C.c2.decode_noPanic)
  np (onEvals_noPanic C.c1.decodeSlice_noPanic)
  np (write_noPanic _)
  np (onEvals_noPanic C.c1.decodeSlice_noPanic)
  np (write_noPanic _)
  np (.lift (by rw [makeLen_panics]; omega))
  np (onPh2_noPanic (C.c1.decodeN_noPanic _))
  np (write_noPanic _)
  np (.lift (by rw [makeLen_panics]; omega))
  np (onPh2_noPanic (C.c1.decodeN_noPanic _))
  np (write_noPanic _)
  np (write_noPanic _)
  np (write_noPanic _)
  np (onEvals_noPanic C.c2.decodeSlice_noPanic)
  np (write_noPanic _)
  np (write_noPanic _)
  np (write_noPanic _)
  np (write_noPanic _)
  np (write_noPanic _)
  exact write_noPanic _

theorem readVK_noPanic {O : Type} (C : Curve F G1 G2 GT) (E : Keys.KeyEnv G1) (hE : ∀ l, ¬ Panics (E.commitmentKey l))
    (evals : Bytes) (h : Phase2.Header) : (Keys.readVK C E evals h : Go (Keys.KeySt O) _).Safe := by
  unfold Keys.readVK
  np (onEvals_noPanic C.c1.decode_noPanic)
  np (onEvals_noPanic C.c1.decode_noPanic)
  np (onEvals_noPanic C.c2.decode_noPanic)
  np (onPh2_noPanic C.c1.decode_noPanic)
  np (onPh2_noPanic C.c2.decode_noPanic)
  refine Safe.bind ⟨fun s => ?_⟩ fun _ => ?_
  · simp only [Keys.seekEvals]
    split
    · exact not_panics_ok _
    · exact not_panics_err _
  np (onEvals_noPanic C.c1.decodeSlice_noPanic)
  np (onEvals_noPanic C.c1.decodeSlice_noPanic)
  np (.lift (hE _))
  exact .pure _

theorem extract_noPanic {O : Type} {H : Phase2.HeaderCodec} (hH : H.Lawful) (ph2 evals : Bytes) (empty : O)
    (body : Phase2.Header → Go (Keys.KeySt O) Unit)
    (hb : ∀ h, (H.dec.run (Rd.buffered 4096 ph2)).1 = .ok h → (body h).Safe) :
    ¬ Panics (Keys.extract H ph2 evals empty body).1 := by
  have hr := (header2_noPanic hH).run (Rd.buffered 4096 ph2)
  unfold Keys.extract
  split
  · rename_i h
    rw [h] at hr
    exact fun k => hr (panics_error k)
  · rename_i h
    exact (hb _ (congrArg Prod.fst h)).run _

end
end ZkSetup
