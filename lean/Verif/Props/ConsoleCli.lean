import Verif.Model.ConsoleCli
import Verif.Props.Counts
import Verif.Props.Session
import Verif.Props.Transform
set_option linter.unusedSectionVars false

/-! C63: what the commands report on standard output. -/
namespace ZkSetup
open Console Cli

/-! ### programs that print a line whenever they succeed -/

/-- `x` has printed `l` whenever it succeeds -/
def Console.Ends {σ α : Type} (l : String) (x : Go (St σ) α) : Prop := ∀ s, (∃ a, (x.run s).1 = .ok a) → l ∈ (x.run s).2.out

namespace Console
variable {σ α β : Type} {l : String}

theorem Ends.println : Ends l (println l : Go (St σ) Unit) := fun s _ => by simp

theorem Ends.bind {x : Go (St σ) α} {k : α → Go (St σ) β} (hk : ∀ a, Ends l (k a)) : Ends l (x >>= k) := by
  intro s
  rw [Go.bind_run]
  cases hx : x.run s with
  | mk r s' =>
    cases r with
    | ok a => exact hk a s'
    | error e => rintro ⟨a, ha⟩; cases ha

/-- A program that prints its last line on success only. -/
theorem reports {x : Go (St σ) Unit} (he : Ends l x) (hm : MuteErr l x) (st : σ) :
    l ∈ (x.run ⟨st, []⟩).2.out ↔ (x.run ⟨st, []⟩).1 = .ok () := by
  refine ⟨fun h => ?_, fun h => he _ ⟨(), h⟩⟩
  cases hr : (x.run ⟨st, []⟩).1 with
  | ok u => rfl
  | error e =>
    have := hm _ e hr
    rw [← mem_linesWith, this] at h
    cases h

theorem Mute.printlns {p : String} {ls : List String} (h : ∀ l ∈ ls, p.toList.isPrefixOf l.toList = false) :
    Mute p (printlns ls : Go (St σ) Unit) := by
  intro s
  have : ls.filter (fun l => p.toList.isPrefixOf l.toList) = [] := by
    rw [List.filter_eq_nil_iff]; intro l hl; rw [h l hl]; simp
  rw [show ((Console.printlns ls).run s).2.out = s.out ++ ls from rfl, linesWith_append, linesWith, linesWith, this, List.append_nil]

end Console

section
variable {F G1 G2 GT : Type} [Field F] [AddCommGroup G1] [Module F G1] [AddCommGroup G2] [Module F G2] [AddCommGroup GT] [Module F GT]
variable [DecidableEq G1] [DecidableEq G2] [DecidableEq GT]

/-! ### Transform -/

theorem transform_same (C : Curve F G1 G2 GT) (inPower outPower : UInt8) (input : Bytes) :
    (Console.transform C inPower outPower input).1 = (Phase1.transform C inPower outPower input).1 ∧
    (Console.transform C inPower outPower input).2.1 = (Phase1.transform C inPower outPower input).2 := by
  unfold Console.transform Console.transformBody Phase1.transform
  simp only [Go.bind_run, println_run, quiet_run, transformSection]
  generalize Phase1.transformPoints C.c1 input _ _ = t1
  generalize Phase1.transformPoints C.c1 input _ _ = t2
  generalize Phase1.transformPoints C.c1 input _ _ = t3
  generalize Phase1.transformPoints C.c2 input _ _ = t4
  generalize Phase1.transformPoints C.c2 input _ _ = t5
  obtain ⟨_ | _, o1⟩ := t1 <;> obtain ⟨_ | _, o2⟩ := t2 <;> obtain ⟨_ | _, o3⟩ := t3 <;> obtain ⟨_ | _, o4⟩ := t4 <;>
    obtain ⟨_ | _, o5⟩ := t5 <;> exact ⟨rfl, rfl⟩

/-! ### initialisation of phase 2 -/

theorem Console.Like.printing {σ α : Type} (x : Go σ α) (ls : α → List String) :
    Like (Console.quiet x >>= fun a => Console.printlns (ls a) >>= fun _ => Pure.pure a) x id := by
  intro s
  rw [Go.bind_run, quiet_run]
  cases (x.run s.st).1 <;> exact ⟨rfl, rfl⟩

theorem processHeader_like (H : Phase2.HeaderCodec) (r1cs : Option (Phase2.R1CS F)) (phase1File : Bytes) :
    Like (Console.processHeader H r1cs phase1File) (Phase2.processHeader H r1cs phase1File) id := .println (.printing _ _)

theorem processHeaderParted_like (H : Phase2.HeaderCodec) (cs : Phase2.PartedR1CS F) (nbCons : Int) (phase1File : Bytes) :
    Like (Console.processHeaderParted H cs nbCons phase1File) (Phase2.processHeaderParted H cs nbCons phase1File) id :=
  .println (.printing _ _)

theorem processLagrange_like (C : Curve F G1 G2 GT) (par : Par) (dom : Nat → Lagrange.Domain F) (h1 : Phase1.Header)
    (h2 : Phase2.Header) (phase1File : Bytes) :
    Like (Console.processLagrange C par dom h1 h2 phase1File) (Phase2.processLagrange C par dom h1 h2 phase1File) id := by
  unfold Console.processLagrange Phase2.processLagrange
  exact .println (.bind (.quiet _) fun _ => .println (.bind (.quiet _) fun _ => .bind (.quiet _) fun _ => .println (.bind (.quiet _) fun _ =>
    .bind (.quiet _) fun _ => .println (.bind (.quiet _) fun _ => .bind (.quiet _) fun _ => .println (.bind (.quiet _) fun _ => .quiet _)))))

theorem initBody_like (C : Curve F G1 G2 GT) (E : Phase2.InitEnv F) (par : Par) (r1cs : Option (Phase2.R1CS F)) (phase1File : Bytes) :
    Like (Console.initBody C E par r1cs phase1File) (Phase2.initBody C E par r1cs phase1File) id := by
  unfold Console.initBody Phase2.initBody
  exact .bind (processHeader_like _ _ _) fun ⟨r, h1, h2⟩ => .bind (processLagrange_like C par E.dom h1 h2 phase1File) fun _ =>
    .println (.bind (.quiet _) fun _ => .println (.bind (.quiet _) fun _ => .println (.last _ _)))

/-- `Phase2.initializeParted` as a program -/
theorem initPartedBody_like (C : Curve F G1 G2 GT) (E : Phase2.InitEnv F) (par : Par) (cs : Phase2.PartedR1CS F) (nbCons : Int)
    (phase1File : Bytes) (lag evals : Bytes) :
    ((Console.initPartedBody C E par cs nbCons phase1File).run ⟨⟨[], lag, evals⟩, []⟩).1
      = (Phase2.initializeParted C E par cs nbCons phase1File lag evals).1 ∧
    ((Console.initPartedBody C E par cs nbCons phase1File).run ⟨⟨[], lag, evals⟩, []⟩).2.st
      = (Phase2.initializeParted C E par cs nbCons phase1File lag evals).2 := by
  have h : Like (Console.initPartedBody C E par cs nbCons phase1File) (do
      let (header1, header2) ← Phase2.processHeaderParted E.header cs nbCons phase1File
      Phase2.processLagrange C par E.dom header1 header2 phase1File
      Phase2.processEvaluationsParted C cs nbCons header1 header2 phase1File
      Phase2.processDeltaAndZ C header2 phase1File
      Phase2.processPVCKKParted C E.cmtBytes cs nbCons header2) id := by
    unfold Console.initPartedBody
    exact .println (.bind (processHeaderParted_like _ _ _ _) fun ⟨h1, h2⟩ => .bind (processLagrange_like C par E.dom h1 h2 phase1File) fun _ =>
      .println (.bind (.quiet _) fun _ => .println (.bind (.quiet _) fun _ => .println (.last _ _))))
  have := h ⟨⟨[], lag, evals⟩, []⟩
  refine ⟨this.1.trans ?_, this.2⟩
  unfold Phase2.initializeParted
  dsimp only
  generalize ((do
      let (header1, header2) ← Phase2.processHeaderParted E.header cs nbCons phase1File
      Phase2.processLagrange C par E.dom header1 header2 phase1File
      Phase2.processEvaluationsParted C cs nbCons header1 header2 phase1File
      Phase2.processDeltaAndZ C header2 phase1File
      Phase2.processPVCKKParted C E.cmtBytes cs nbCons header2 : Go Phase2.InitSt Unit).run ⟨[], lag, evals⟩).1 = x
  cases x <;> rfl

/-! the reports -/

theorem circuitInfo_mute (h : Phase2.Header) : ∀ l ∈ circuitInfo h, "Phase 2 has been initialized successfully".toList.isPrefixOf l.toList = false := by
  intro l hl
  simp only [circuitInfo, List.mem_cons, List.not_mem_nil, or_false] at hl
  rcases hl with rfl | rfl | rfl | rfl | rfl <;> (simp only [String.toList_append]; rfl)

theorem processLagrange_mute (C : Curve F G1 G2 GT) (par : Par) (dom : Nat → Lagrange.Domain F) (h1 : Phase1.Header)
    (h2 : Phase2.Header) (phase1File : Bytes) :
    Mute "Phase 2 has been initialized successfully" (Console.processLagrange C par dom h1 h2 phase1File) := by
  unfold Console.processLagrange
  exact .bind (.println (by decide)) fun _ => .bind (.quiet _ _) fun _ => .bind (.println (by decide)) fun _ => .bind (.quiet _ _) fun _ =>
    .bind (.quiet _ _) fun _ => .bind (.println (by decide)) fun _ => .bind (.quiet _ _) fun _ => .bind (.quiet _ _) fun _ =>
    .bind (.println (by decide)) fun _ => .bind (.quiet _ _) fun _ => .bind (.quiet _ _) fun _ => .bind (.println (by decide)) fun _ =>
    .bind (.quiet _ _) fun _ => .quiet _ _

theorem initBody_reports (C : Curve F G1 G2 GT) (E : Phase2.InitEnv F) (par : Par) (r1cs : Option (Phase2.R1CS F)) (phase1File : Bytes)
    (st : Phase2.InitSt) :
    "Phase 2 has been initialized successfully" ∈ ((Console.initBody C E par r1cs phase1File).run ⟨st, []⟩).2.out ↔
      ((Console.initBody C E par r1cs phase1File).run ⟨st, []⟩).1 = .ok () := by
  refine reports ?_ ?_ st
  · unfold Console.initBody
    exact .bind fun ⟨_, _, _⟩ => .bind fun _ => .bind fun _ => .bind fun _ => .bind fun _ => .bind fun _ => .bind fun _ => .bind fun _ => .println
  · unfold Console.initBody Console.processHeader
    refine .bind (.bind (.println (by decide)) fun _ => .bind (.quiet _ _) fun x => .bind (.printlns (circuitInfo_mute _)) fun _ => .pure _ _)
      fun ⟨r, h1, h2⟩ => .bind (processLagrange_mute C par E.dom h1 h2 phase1File) fun _ => ?_
    mute

theorem initPartedBody_reports (C : Curve F G1 G2 GT) (E : Phase2.InitEnv F) (par : Par) (cs : Phase2.PartedR1CS F) (nbCons : Int)
    (phase1File : Bytes) (st : Phase2.InitSt) :
    "Phase 2 has been initialized successfully" ∈ ((Console.initPartedBody C E par cs nbCons phase1File).run ⟨st, []⟩).2.out ↔
      ((Console.initPartedBody C E par cs nbCons phase1File).run ⟨st, []⟩).1 = .ok () := by
  refine reports ?_ ?_ st
  · unfold Console.initPartedBody
    exact .bind fun _ => .bind fun ⟨_, _⟩ => .bind fun _ => .bind fun _ => .bind fun _ => .bind fun _ => .bind fun _ => .bind fun _ =>
      .bind fun _ => .println
  · unfold Console.initPartedBody Console.processHeaderParted
    refine .bind (.println (by decide)) fun _ => .bind (.bind (.println (by decide)) fun _ => .bind (.quiet _ _) fun x =>
      .bind (.printlns (circuitInfo_mute _)) fun _ => .pure _ _)
      fun ⟨h1, h2⟩ => .bind (processLagrange_mute C par E.dom h1 h2 phase1File) fun _ => ?_
    mute

/-! ### the commands -/

/-- the same success and the same files -/
def Console.Agrees (x : Except Fail Unit × FS × List String) (y : Except Fail Unit × FS) : Prop :=
  (x.1 = .ok () ↔ y.1 = .ok ()) ∧ x.2.1 = y.2

theorem Console.Agrees.of_eq {x : Except Fail Unit × FS × List String} {y : Except Fail Unit × FS} (h1 : x.1 = y.1) (h2 : x.2.1 = y.2) :
    Agrees x y := ⟨by rw [h1], h2⟩

theorem p1n_agrees (C : Curve F G1 G2 GT) (args : List String) (fs : FS) : Agrees (Console.p1n C args fs) (Cli.p1n C args fs) := by
  unfold Console.p1n Cli.p1n
  split
  · exact .of_eq rfl rfl
  · cases atoi (arg args 0) with
    | error e => exact .of_eq rfl rfl
    | ok power => dsimp only; split <;> exact .of_eq rfl rfl

theorem p1c_agrees (C : Curve F G1 G2 GT) (b : Nat) (par : Par) (rnd : Phase1.Rand F) (args : List String) (fs : FS) :
    Agrees (Console.p1c C b par rnd args fs) (Cli.p1c C b par rnd args fs) := by
  unfold Console.p1c Cli.p1c
  split
  · exact .of_eq rfl rfl
  · cases openFile fs (arg args 0) with
    | error e => exact .of_eq rfl rfl
    | ok bs =>
      have h := (C58_same_programs C Gob.headerCodec par .strict b rnd ⟨fun _ _ => 0, fun _ _ => 0, fun _ _ => 0, fun _ _ => 0⟩ ⟨0, 0⟩
        ⟨fun _ _ => 0, fun _ _ => 0⟩ (contentsAfterCreate (arg args 0) (arg args 1) bs) [] none).1
      exact .of_eq h.1 (by dsimp only; rw [h.2])

theorem p2c_agrees (C : Curve F G1 G2 GT) (E : Cli.Env F G1) (par : Par) (rnd : Phase2.Rand F) (args : List String) (fs : FS) :
    Agrees (Console.p2c C E par rnd args fs) (Cli.p2c C E par rnd args fs) := by
  unfold Console.p2c Cli.p2c
  split
  · exact .of_eq rfl rfl
  · cases openFile fs (arg args 0) with
    | error e => exact .of_eq rfl rfl
    | ok bs =>
      have h := (C58_same_programs C E.init.header par .strict E.batch ⟨0, 0, 0, 0, 0, 0⟩ ⟨fun _ _ => 0, fun _ _ => 0, fun _ _ => 0, fun _ _ => 0⟩
        rnd ⟨fun _ _ => 0, fun _ _ => 0⟩ (contentsAfterCreate (arg args 0) (arg args 1) bs) [] none).2.2.1
      exact .of_eq h.1 (by dsimp only; rw [h.2])

theorem p1t_agrees (C : Curve F G1 G2 GT) (args : List String) (fs : FS) : Agrees (Console.p1t C args fs) (Cli.p1t C args fs) := by
  unfold Console.p1t Cli.p1t
  split
  · exact .of_eq rfl rfl
  · cases atoi (arg args 2) with
    | error e => exact .of_eq rfl rfl
    | ok i =>
      dsimp only
      cases atoi (arg args 3) with
      | error e => exact .of_eq rfl rfl
      | ok o =>
        dsimp only
        unfold Console.p1tRun Cli.p1tRun
        split
        · exact .of_eq rfl rfl
        · cases openFile fs (arg args 0) with
          | error e => exact .of_eq rfl rfl
          | ok bs => exact .of_eq (transform_same C _ _ _).1 (by dsimp only; rw [(transform_same C _ _ _).2])

/-- an empty transformed file is rejected after the sections have been read -/
theorem p1Verify_empty (C : Curve F G1 G2 GT) (par : Par) (pol : Phase1.MsmPolicy) (b : Nat) (vr : Phase1.VerifyRand F) (input : Bytes) :
    Phase1.verify C par pol b vr input (some []) ≠ .ok () := by
  intro h
  obtain ⟨e, he⟩ : ∃ e, Phase1.defaultContribution C (some []) = .error e := ⟨_, rfl⟩
  unfold Phase1.verify at h
  split at h
  · cases h
  · split at h
    · cases h
    · unfold Phase1.verifyRest at h
      rw [he] at h
      cases h

theorem p1Verify_agrees (C : Curve F G1 G2 GT) (b : Nat) (pol : Phase1.MsmPolicy) (par : Par) (vr : Phase1.VerifyRand F) (inp tr : String) (fs : FS) :
    Agrees (Console.p1VerifyFiles C b pol par vr inp tr fs) (Cli.p1Verify C b pol par vr inp tr fs, fs) := by
  unfold Console.p1VerifyFiles Cli.p1Verify
  cases openFile fs inp with
  | error e => exact .of_eq rfl rfl
  | ok bs =>
    have h := fun t => (C58_same_programs C Gob.headerCodec par pol b ⟨0, 0, 0, 0, 0, 0⟩ vr ⟨0, 0⟩
        ⟨fun _ _ => 0, fun _ _ => 0⟩ bs [] t).2.1
    refine ⟨?_, rfl⟩
    dsimp only
    rw [h]
    unfold transformedContents openTransformed openFile old
    by_cases ht : tr = ""
    · rw [if_pos ht, if_pos ht]; exact Iff.rfl
    · rw [if_neg ht, if_neg ht]
      cases fs tr with
      | some t => exact Iff.rfl
      | none => exact ⟨fun h => absurd h (p1Verify_empty C par pol b vr bs), fun h => by cases h⟩

theorem p2v_agrees (C : Curve F G1 G2 GT) (E : Cli.Env F G1) (par : Par) (vr : Phase2.VerifyRand F) (args : List String) (fs : FS) :
    Agrees (Console.p2v C E par vr args fs) (Cli.p2v C E par vr args fs) := by
  unfold Console.p2v Cli.p2v Cli.p2Verify
  split
  · exact .of_eq rfl rfl
  · cases openFile fs (arg args 0) with
    | error e => exact .of_eq rfl rfl
    | ok bs =>
      dsimp only
      cases openFile fs (arg args 1) with
      | error e => exact .of_eq rfl rfl
      | ok org => exact .of_eq ((C58_same_programs C E.init.header par .strict E.batch ⟨0, 0, 0, 0, 0, 0⟩
          ⟨fun _ _ => 0, fun _ _ => 0, fun _ _ => 0, fun _ _ => 0⟩ ⟨0, 0⟩ vr bs org none).2.2.2) rfl

theorem p2n_agrees (C : Curve F G1 G2 GT) (E : Cli.Env F G1) (par : Par) (args : List String) (fs : FS) :
    Agrees (Console.p2n C E par args fs) (Cli.p2n C E par args fs) := by
  unfold Console.p2n Cli.p2n
  split
  · exact .of_eq rfl rfl
  · cases openFile fs (arg args 0) with
    | error e => exact .of_eq rfl rfl
    | ok bs =>
      dsimp only
      cases openFile (fs.set (arg args 2) []) (arg args 1) with
      | error e => exact .of_eq rfl rfl
      | ok cs =>
        have h := initBody_like C E.init par (E.r1cs cs) (contentsAfterCreate (arg args 0) (arg args 2) bs)
          ⟨⟨[], old fs "srs.lag", old fs "evals"⟩, []⟩
        refine .of_eq (h.1.trans ?_) (by dsimp only; rw [h.2]; rfl)
        unfold Phase2.initializeFiles
        dsimp only
        cases ((Phase2.initBody C E.init par (E.r1cs cs) (contentsAfterCreate (arg args 0) (arg args 2) bs)).run
          ⟨[], old fs "srs.lag", old fs "evals"⟩).1 <;> rfl

theorem p2np_agrees (C : Curve F G1 G2 GT) (E : Cli.Env F G1) (par : Par) (args : List String) (fs : FS) :
    Agrees (Console.p2np C E par args fs) (Cli.p2np C E par args fs) := by
  unfold Console.p2np Cli.p2np
  split
  · exact .of_eq rfl rfl
  · cases atoi (arg args 3) with
    | error e => exact .of_eq rfl rfl
    | ok a =>
      dsimp only
      cases atoi (arg args 4) with
      | error e => exact .of_eq rfl rfl
      | ok b =>
        dsimp only
        cases atoi (arg args 5) with
        | error e => exact .of_eq rfl rfl
        | ok c =>
          dsimp only
          unfold Console.p2npRun Cli.p2npRun
          cases openFile fs (arg args 0) with
          | error e => exact .of_eq rfl rfl
          | ok bs =>
            have h := initPartedBody_like C E.init par (E.parted (fs.set (arg args 2) []) (arg args 1) b c) a
              (contentsAfterCreate (arg args 0) (arg args 2) bs) (old fs "srs.lag") (old fs "evals")
            exact .of_eq h.1 (by dsimp only; rw [h.2])

theorem extractBoth_agrees (first second : FS → Except Fail Unit × FS) (fs : FS) :
    Agrees (extractBoth first second fs) (inOrder first second fs) := by
  unfold extractBoth inOrder
  obtain ⟨_ | _, fs1⟩ := first fs
  · exact .of_eq rfl rfl
  · dsimp only
    obtain ⟨_ | _, fs2⟩ := second fs1 <;> exact .of_eq rfl rfl

theorem sol_agrees (E : Cli.Env F G1) (args : List String) (fs : FS) : Agrees (Console.sol E args fs) (Cli.sol E args fs) := by
  unfold Console.sol Cli.sol
  split
  · exact .of_eq rfl rfl
  · dsimp only
    cases (fs (arg args 0 ++ ".vk.save")).bind E.solidity <;> exact .of_eq rfl rfl

/-- **C63**, the programs with output are those of the other theorems: every command succeeds in the same cases and leaves the
same files. -/
theorem C63_same_programs (C : Curve F G1 G2 GT) (E : Cli.Env F G1) (d : Cli.Draws F) (command : String) (args : List String) (fs : FS) :
    ((Console.exec C E d command args fs).1 = .ok () ↔ (Cli.exec C E d command args fs).1 = .ok ()) ∧
    (Console.exec C E d command args fs).2.1 = (Cli.exec C E d command args fs).2 := by
  show Agrees _ _
  unfold Console.exec Cli.exec
  split
  · exact p1n_agrees _ _ _
  · exact p1c_agrees _ _ _ _ _ _
  · unfold Console.p1v Cli.p1v
    split
    · exact .of_eq rfl rfl
    · exact p1Verify_agrees _ _ _ _ _ _ _ _
  · exact p1t_agrees _ _ _
  · unfold Console.p1vt Cli.p1vt
    split
    · exact .of_eq rfl rfl
    · exact p1Verify_agrees _ _ _ _ _ _ _ _
  · exact p2n_agrees _ _ _ _ _
  · exact p2np_agrees _ _ _ _ _
  · exact p2c_agrees _ _ _ _ _ _
  · exact p2v_agrees _ _ _ _ _ _
  · unfold Console.key Cli.key
    split
    · exact .of_eq rfl rfl
    · exact extractBoth_agrees _ _ _
  · unfold Console.keys Cli.keys
    split
    · exact .of_eq rfl rfl
    · exact extractBoth_agrees _ _ _
  · exact sol_agrees _ _ _
  · split <;> first | contradiction | exact .of_eq rfl rfl

/-! ### the reports of the commands -/

theorem not_mem_silent (l : String) (r : Except Fail Unit) (fs : FS) : l ∉ (silent r fs).2.2 := by simp [silent]

theorem p1n_reports (C : Curve F G1 G2 GT) (args : List String) (fs : FS) :
    "Initialization has been completed successfully" ∈ (Console.p1n C args fs).2.2 ↔ (Console.p1n C args fs).1 = .ok () := by
  unfold Console.p1n
  split
  · simp [Console.badArgs, silent]
  · cases atoi (arg args 0) with
    | error e => simp [silent]
    | ok power =>
      dsimp only
      split
      · simp [silent]
      · simp [initializeOut]

theorem p1c_reports {C : Curve F G1 G2 GT} (hC : C.Lawful) (b : Nat) (par : Par) (rnd : Phase1.Rand F) (args : List String) (fs : FS) :
    "Contirbution has been successful!" ∈ (Console.p1c C b par rnd args fs).2.2 ↔ (Console.p1c C b par rnd args fs).1 = .ok () := by
  unfold Console.p1c
  split
  · simp [Console.badArgs, silent]
  · cases openFile fs (arg args 0) with
    | error e => simp [silent]
    | ok bs =>
      have h := C58_p1_contribute hC par b rnd (contentsAfterCreate (arg args 0) (arg args 1) bs) _ _ _ rfl
      exact ⟨fun hl => by_contra fun he => (h.2 he).2 hl, fun he => (h.1 he).2⟩

theorem p2c_reports {C : Curve F G1 G2 GT} (hC : C.Lawful) (E : Cli.Env F G1) (par : Par) (rnd : Phase2.Rand F) (args : List String) (fs : FS) :
    "Contirbution has been successful!" ∈ (Console.p2c C E par rnd args fs).2.2 ↔ (Console.p2c C E par rnd args fs).1 = .ok () := by
  unfold Console.p2c
  split
  · simp [Console.badArgs, silent]
  · cases openFile fs (arg args 0) with
    | error e => simp [silent]
    | ok bs =>
      have h := C58_p2_contribute hC E.init.header par E.batch rnd (contentsAfterCreate (arg args 0) (arg args 1) bs) _ _ _ rfl
      exact ⟨fun hl => by_contra fun he => (h.2 he).2 hl, fun he => (h.1 he).2⟩

theorem p1Verify_reports (C : Curve F G1 G2 GT) (b : Nat) (pol : Phase1.MsmPolicy) (par : Par) (vr : Phase1.VerifyRand F) (inp tr : String) (fs : FS) :
    "Contributions verification has been successful" ∈ (Console.p1VerifyFiles C b pol par vr inp tr fs).2.2 ↔
      (Console.p1VerifyFiles C b pol par vr inp tr fs).1 = .ok () := by
  unfold Console.p1VerifyFiles
  cases openFile fs inp with
  | error e => simp [silent]
  | ok bs =>
    dsimp only
    rw [(C58_same_programs C Gob.headerCodec par pol b ⟨0, 0, 0, 0, 0, 0⟩ vr ⟨0, 0⟩ ⟨fun _ _ => 0, fun _ _ => 0⟩ bs [] _).2.1]
    exact C58_p1_report C par pol b vr bs _

theorem p2v_reports (C : Curve F G1 G2 GT) (E : Cli.Env F G1) (par : Par) (vr : Phase2.VerifyRand F) (args : List String) (fs : FS) :
    "Contributions verification has been successful" ∈ (Console.p2v C E par vr args fs).2.2 ↔ (Console.p2v C E par vr args fs).1 = .ok () := by
  unfold Console.p2v
  split
  · simp [Console.badArgs, silent]
  · cases openFile fs (arg args 0) with
    | error e => simp [silent]
    | ok bs =>
      dsimp only
      cases openFile fs (arg args 1) with
      | error e => simp [silent]
      | ok org =>
        dsimp only
        rw [(C58_same_programs C E.init.header par .strict E.batch ⟨0, 0, 0, 0, 0, 0⟩
          ⟨fun _ _ => 0, fun _ _ => 0, fun _ _ => 0, fun _ _ => 0⟩ ⟨0, 0⟩ vr bs org none).2.2.2]
        exact C58_p2_report C E.init.header par E.batch vr bs org

theorem p2n_reports (C : Curve F G1 G2 GT) (E : Cli.Env F G1) (par : Par) (args : List String) (fs : FS) :
    "Phase 2 has been initialized successfully" ∈ (Console.p2n C E par args fs).2.2 ↔ (Console.p2n C E par args fs).1 = .ok () := by
  unfold Console.p2n
  split
  · simp [Console.badArgs, silent]
  · cases openFile fs (arg args 0) with
    | error e => simp [silent]
    | ok bs =>
      dsimp only
      cases openFile (fs.set (arg args 2) []) (arg args 1) with
      | error e => simp
      | ok cs => exact initBody_reports _ _ _ _ _ _

theorem p2np_reports (C : Curve F G1 G2 GT) (E : Cli.Env F G1) (par : Par) (args : List String) (fs : FS) :
    "Phase 2 has been initialized successfully" ∈ (Console.p2np C E par args fs).2.2 ↔ (Console.p2np C E par args fs).1 = .ok () := by
  unfold Console.p2np
  split
  · simp [Console.badArgs, silent]
  · cases atoi (arg args 3) with
    | error e => simp [silent]
    | ok a =>
      dsimp only
      cases atoi (arg args 4) with
      | error e => simp [silent]
      | ok b =>
        dsimp only
        cases atoi (arg args 5) with
        | error e => simp [silent]
        | ok c =>
          dsimp only
          unfold Console.p2npRun
          cases openFile fs (arg args 0) with
          | error e => simp [silent]
          | ok bs => exact initPartedBody_reports _ _ _ _ _ _ _

theorem extractBoth_reports (first second : FS → Except Fail Unit × FS) (fs : FS) :
    "Keys have been extracted successfully" ∈ (extractBoth first second fs).2.2 ↔ (extractBoth first second fs).1 = .ok () := by
  unfold extractBoth
  obtain ⟨_ | _, fs1⟩ := first fs
  · simp
  · dsimp only
    obtain ⟨_ | _, fs2⟩ := second fs1 <;> simp

theorem sol_reports (E : Cli.Env F G1) (session : String) (fs : FS) :
    session ++ ".sol has been extracted successfully" ∈ (Console.sol E [session] fs).2.2 ↔ (Console.sol E [session] fs).1 = .ok () := by
  have e : session ++ ".sol" ++ " has been extracted successfully" = session ++ ".sol has been extracted successfully" := by
    rw [String.append_assoc, show (".sol" ++ " has been extracted successfully" : String) = ".sol has been extracted successfully" by decide]
  unfold Console.sol
  rw [if_neg (by simp)]
  simp only [arg, List.getD_cons_zero]
  cases (fs (session ++ ".vk.save")).bind E.solidity with
  | none =>
    simp only [List.mem_singleton, reduceCtorEq, iff_false]
    intro h
    have := congrArg (fun s : String => s.toList.length) h
    simp only [String.toList_append, List.length_append] at this
    revert this
    rw [show ".sol has been extracted successfully".toList.length = 36 by decide, show ".sol".toList.length = 4 by decide,
      show "Exporting ".toList.length = 10 by decide]
    omega
  | some text => simp [e]

/-- **C63**: a command prints its line of success if and only if it succeeds (exit code 0). This covers every command but `p1t`, which
has no such line. -/
theorem C63_success_partial {C : Curve F G1 G2 GT} (hC : C.Lawful) (E : Cli.Env F G1) (d : Cli.Draws F) (command : String)
    (args : List String) (fs : FS) (line : String) (hl : successLine command args = some line) :
    line ∈ (Console.exec C E d command args fs).2.2 ↔ (Cli.exec C E d command args fs).1 = .ok () := by
  rw [← (C63_same_programs C E d command args fs).1]
  unfold successLine at hl
  split at hl <;> try (cases hl)
  · exact p1n_reports _ _ _
  · exact p1c_reports hC _ _ _ _ _
  · exact p2c_reports hC _ _ _ _ _
  · show _ ∈ (Console.p1v _ _ _ _ _ _ _).2.2 ↔ (Console.p1v _ _ _ _ _ _ _).1 = _
    unfold Console.p1v
    split
    · simp [Console.badArgs, silent]
    · exact p1Verify_reports _ _ _ _ _ _ _ _
  · show _ ∈ (Console.p1vt _ _ _ _ _ _ _).2.2 ↔ (Console.p1vt _ _ _ _ _ _ _).1 = _
    unfold Console.p1vt
    split
    · simp [Console.badArgs, silent]
    · exact p1Verify_reports _ _ _ _ _ _ _ _
  · exact p2v_reports _ _ _ _ _ _
  · exact p2n_reports _ _ _ _ _
  · exact p2np_reports _ _ _ _ _
  · show _ ∈ (Console.key _ _ _ _).2.2 ↔ (Console.key _ _ _ _).1 = _
    unfold Console.key
    split
    · simp [Console.badArgs, silent]
    · exact extractBoth_reports _ _ _
  · show _ ∈ (Console.keys _ _ _ _).2.2 ↔ (Console.keys _ _ _ _).1 = _
    unfold Console.keys
    split
    · simp [Console.badArgs, silent]
    · exact extractBoth_reports _ _ _
  · exact sol_reports _ _ _

/-! ### p1t -/

/-- what `p1t` prints -/
def transformLines : List String :=
  ["Transforming TauG1", "Transforming AlphaG1", "Transforming BetaG1", "Transforming TauG2", "Transforming BetaG2"]

theorem transform_lines (C : Curve F G1 G2 GT) (inPower outPower : UInt8) (input : Bytes) :
    (Console.transform C inPower outPower input).2.2 <+: transformLines ∧
      ((Console.transform C inPower outPower input).1 = .ok () → (Console.transform C inPower outPower input).2.2 = transformLines) := by
  unfold Console.transform Console.transformBody
  simp only [Go.bind_run, println_run, quiet_run, transformSection]
  generalize Phase1.transformPoints C.c1 input _ _ = t1
  generalize Phase1.transformPoints C.c1 input _ _ = t2
  generalize Phase1.transformPoints C.c1 input _ _ = t3
  generalize Phase1.transformPoints C.c2 input _ _ = t4
  generalize Phase1.transformPoints C.c2 input _ _ = t5
  obtain ⟨_ | _, o1⟩ := t1 <;> obtain ⟨_ | _, o2⟩ := t2 <;> obtain ⟨_ | _, o3⟩ := t3 <;> obtain ⟨_ | _, o4⟩ := t4 <;>
    obtain ⟨_ | _, o5⟩ := t5 <;> simp [Except.map, transformLines]

/-- **C63**, `p1t` has no line of success: it prints the names of the sections as it begins them, all five if it succeeds. -/
theorem C63_p1t_lines (C : Curve F G1 G2 GT) (E : Cli.Env F G1) (d : Cli.Draws F) (args : List String) (fs : FS) :
    (Console.exec C E d "p1t" args fs).2.2 <+: transformLines ∧
      ((Cli.exec C E d "p1t" args fs).1 = .ok () → (Console.exec C E d "p1t" args fs).2.2 = transformLines) := by
  rw [← (C63_same_programs C E d "p1t" args fs).1]
  show (Console.p1t C args fs).2.2 <+: _ ∧ ((Console.p1t C args fs).1 = _ → (Console.p1t C args fs).2.2 = _)
  unfold Console.p1t
  split
  · simp [Console.badArgs, silent]
  · cases atoi (arg args 2) with
    | error e => simp [silent]
    | ok i =>
      dsimp only
      cases atoi (arg args 3) with
      | error e => simp [silent]
      | ok o =>
        dsimp only
        unfold Console.p1tRun
        split
        · simp [silent]
        · cases openFile fs (arg args 0) with
          | error e => simp [silent]
          | ok bs => exact transform_lines C _ _ _

/-! ### the figures of the circuit -/

/-- `x` only appends to the phase 2 file -/
def Phase2.Grows {α : Type} (x : Go Phase2.InitSt α) : Prop := ∀ s, s.ph2 <+: (x.run s).2.ph2

section
variable {α β : Type}

theorem Phase2.Grows.bind {x : Go InitSt α} {k : α → Go InitSt β} (h : Grows x) (hk : ∀ a, Grows (k a)) : Grows (x >>= k) := by
  intro s
  have hs := h s
  rw [Go.bind_run]
  cases hx : x.run s with
  | mk r s' =>
    rw [hx] at hs
    cases r with
    | ok a => exact hs.trans (hk a s')
    | error e => exact hs

theorem Phase2.Grows.lift (x : Except Fail α) : Grows (Go.lift x) := fun _ => List.prefix_refl _
theorem Phase2.Grows.emitPh2 (bs : Bytes) : Grows (emitPh2 bs) := fun s => List.prefix_append _ _
theorem Phase2.Grows.emitLag (bs : Bytes) : Grows (emitLag bs) := fun _ => List.prefix_refl _
theorem Phase2.Grows.emitEvals (bs : Bytes) : Grows (emitEvals bs) := fun _ => List.prefix_refl _
theorem Phase2.Grows.createLag : Grows createLag := fun _ => List.prefix_refl _
theorem Phase2.Grows.createEvals : Grows createEvals := fun _ => List.prefix_refl _
theorem Phase2.Grows.openLag : Grows openLag := fun _ => List.prefix_refl _
end

macro "grows" : tactic => `(tactic| repeat' first
  | exact Phase2.Grows.lift _
  | exact Phase2.Grows.emitPh2 _
  | exact Phase2.Grows.emitLag _
  | exact Phase2.Grows.emitEvals _
  | exact Phase2.Grows.createLag
  | exact Phase2.Grows.createEvals
  | exact Phase2.Grows.openLag
  | refine Phase2.Grows.bind ?_ fun _ => ?_)

theorem processLagrange_grows (C : Curve F G1 G2 GT) (par : Par) (dom : Nat → Lagrange.Domain F) (h1 : Phase1.Header) (h2 : Phase2.Header)
    (f : Bytes) : Phase2.Grows (Phase2.processLagrange C par dom h1 h2 f) := by
  unfold Phase2.processLagrange; grows

theorem processEvaluations_grows (C : Curve F G1 G2 GT) (r : Phase2.R1CS F) (h1 : Phase1.Header) (h2 : Phase2.Header)
    (f : Bytes) : Phase2.Grows (Phase2.processEvaluations C r h1 h2 f) := by
  unfold Phase2.processEvaluations; grows

theorem processEvaluationsParted_grows (C : Curve F G1 G2 GT) (cs : Phase2.PartedR1CS F) (n : Int) (h1 : Phase1.Header) (h2 : Phase2.Header)
    (f : Bytes) : Phase2.Grows (Phase2.processEvaluationsParted C cs n h1 h2 f) := by
  unfold Phase2.processEvaluationsParted; grows

theorem processDeltaAndZ_grows (C : Curve F G1 G2 GT) (h2 : Phase2.Header) (f : Bytes) : Phase2.Grows (Phase2.processDeltaAndZ C h2 f) := by
  unfold Phase2.processDeltaAndZ; grows

theorem processPVCKK_grows (C : Curve F G1 G2 GT) (cb : Phase2.Commitment → Bytes) (r : Phase2.R1CS F) (h2 : Phase2.Header) :
    Phase2.Grows (Phase2.processPVCKK C cb r h2) := by
  unfold Phase2.processPVCKK; grows

theorem processPVCKKParted_grows (C : Curve F G1 G2 GT) (cb : Phase2.Commitment → Bytes) (cs : Phase2.PartedR1CS F) (n : Int) (h2 : Phase2.Header) :
    Phase2.Grows (Phase2.processPVCKKParted C cb cs n h2) := by
  unfold Phase2.processPVCKKParted; grows

theorem figure_of (p w : String) (hp : p.toList.getLast? = some '=') (hw : ∀ c ∈ w.toList, c ≠ '=') : behindEquals (p ++ w) = w := by
  unfold behindEquals
  obtain ⟨q, hq⟩ : ∃ q, p.toList = q ++ ['='] := by
    obtain ⟨q, hq⟩ := List.getLast?_eq_some_iff.mp hp
    exact ⟨q, hq⟩
  rw [String.toList_append, hq, List.reverse_append, List.reverse_append]
  rw [List.takeWhile_append_of_pos (by intro c hc; simpa using hw c (List.mem_reverse.mp hc))]
  simp

theorem circuitFigures_info (out : List String) (h : Phase2.Header) (e : out.filter signed = circuitInfo h) :
    circuitFigures out
      = [toString h.constraints, toString h.wires, toString h.pub, toString h.witness, toString h.privateCommitted] := by
  have hw : ∀ i : Int, ∀ c ∈ (toString i).toList, c ≠ '=' := by
    intro i c hc
    rcases int_chars i c hc with h | h
    · exact digit_ne c '=' h (by decide)
    · rw [h]; decide
  unfold circuitFigures
  rw [show (out.filter fun l => l.toList.contains '#') = _ from e]
  simp only [circuitInfo, List.map_cons, List.map_nil, List.cons.injEq, and_true]
  exact ⟨figure_of _ _ (by decide) (hw _), figure_of _ _ (by decide) (hw _), figure_of _ _ (by decide) (hw _),
    figure_of _ _ (by decide) (hw _), figure_of _ _ (by decide) (hw _)⟩

theorem circuitInfo_signed (h : Phase2.Header) : (circuitInfo h).filter signed = circuitInfo h := by
  rw [List.filter_eq_self]
  intro l hl
  simp only [circuitInfo, List.mem_cons, List.not_mem_nil, or_false] at hl
  unfold signed
  rw [List.contains_iff_mem]
  rcases hl with rfl | rfl | rfl | rfl | rfl <;>
    (rw [String.toList_append]; exact List.mem_append_left _ (by decide))

theorem nextPowerofTwo_range (n : Int) (d : Int) (h : Phase2.nextPowerofTwo n = .ok d) : 0 ≤ d ∧ d < 2 ^ 63 := by
  suffices hs : ∀ (fuel : Nat) (res : Int), 0 ≤ res → Phase2.nextPowerofTwoLoop n fuel res = .ok d → 0 ≤ d ∧ d ≤ res * 2 ^ fuel by
    have := hs 27 2 (by omega) h
    constructor
    · exact this.1
    · have h2 := this.2; norm_num at h2 ⊢; omega
  intro fuel
  induction fuel with
  | zero => intro res _ h; cases h
  | succ fuel ih =>
    intro res hr h
    unfold Phase2.nextPowerofTwoLoop at h
    have hp : (0 : Int) < 2 ^ fuel := by positivity
    split at h
    · cases h
      refine ⟨hr, ?_⟩
      rw [pow_succ]
      nlinarith
    · have := ih (res * 2) (by omega) h
      refine ⟨this.1, this.2.trans (le_of_eq (by rw [pow_succ]; ring))⟩

/-- the figures of a circuit are moderate -/
def Phase2.R1CS.Moderate (r : R1CS F) : Prop := r.nbPublic + r.nbSecret + r.nbInternal + r.commitment.nbPrivateCommitted < 2 ^ 62

theorem circuitHeader_inRange (r : Phase2.R1CS F) (hr : r.Moderate) (n d : Int) (hn : -(2 ^ 63) ≤ n ∧ n < 2 ^ 63) (hd : 0 ≤ d ∧ d < 2 ^ 63) :
    (Phase2.circuitHeader r n d).InRange := by
  unfold Phase2.R1CS.Moderate at hr
  unfold Phase2.circuitHeader
  dsimp only
  split <;> constructor <;> dsimp only <;> omega

theorem processLagrange_hush (C : Curve F G1 G2 GT) (par : Par) (dom : Nat → Lagrange.Domain F) (h1 : Phase1.Header)
    (h2 : Phase2.Header) (phase1File : Bytes) : Hush signed (Console.processLagrange C par dom h1 h2 phase1File) := by
  unfold Console.processLagrange
  exact .bind (.println (by decide)) fun _ => .bind (.quiet _) fun _ => .bind (.println (by decide)) fun _ => .bind (.quiet _) fun _ =>
    .bind (.quiet _) fun _ => .bind (.println (by decide)) fun _ => .bind (.quiet _) fun _ => .bind (.quiet _) fun _ =>
    .bind (.println (by decide)) fun _ => .bind (.quiet _) fun _ => .bind (.quiet _) fun _ => .bind (.println (by decide)) fun _ =>
    .bind (.quiet _) fun _ => .quiet _

/-- what has been printed and written once the header has been processed -/
theorem figures_after {α : Type} {x : Go Phase2.InitSt α} {hd : α → Phase2.Header} {k : α → Go (St Phase2.InitSt) Unit}
    {k' : α → Go Phase2.InitSt Unit} (hl : ∀ a, Like (k a) (k' a) id) (hg : ∀ a, Phase2.Grows (k' a)) (hh : ∀ a, Hush signed (k a))
    (out : List String) (ho : out.filter signed = []) (st : Phase2.InitSt) :
    ((((quiet x >>= fun a => printlns (circuitInfo (hd a)) >>= fun _ => pure a) >>= k).run ⟨st, out⟩).2.out.filter signed = [] ∧
      ∃ e, (((quiet x >>= fun a => printlns (circuitInfo (hd a)) >>= fun _ => pure a) >>= k).run ⟨st, out⟩).1 = .error e) ∨
    ∃ a st', x.run st = (.ok a, st') ∧
      (((quiet x >>= fun a => printlns (circuitInfo (hd a)) >>= fun _ => pure a) >>= k).run ⟨st, out⟩).2.out.filter signed = circuitInfo (hd a) ∧
      st'.ph2 <+: (((quiet x >>= fun a => printlns (circuitInfo (hd a)) >>= fun _ => pure a) >>= k).run ⟨st, out⟩).2.st.ph2 := by
  cases hx : x.run st with
  | mk r st' =>
    cases r with
    | error e =>
      left
      have : (quiet x >>= fun a => printlns (circuitInfo (hd a)) >>= fun _ => pure a).run ⟨st, out⟩ = (.error e, ⟨st', out⟩) := by
        rw [Go.bind_run, quiet_run, hx]
      rw [Go.bind_error this]
      exact ⟨ho, e, rfl⟩
    | ok a =>
      right
      have : (quiet x >>= fun a => printlns (circuitInfo (hd a)) >>= fun _ => pure a).run ⟨st, out⟩
          = (.ok a, ⟨st', out ++ circuitInfo (hd a)⟩) := by
        rw [Go.bind_run, quiet_run, hx]; rfl
      rw [Go.bind_ok this]
      refine ⟨a, st', rfl, ?_, ?_⟩
      · rw [hh a, List.filter_append, ho, circuitInfo_signed, List.nil_append]
      · rw [(hl a _).2]; exact hg a st'

theorem go_bind_assoc {σ α β γ : Type} (x : Go σ α) (f : α → Go σ β) (g : β → Go σ γ) :
    (x >>= f) >>= g = x >>= fun a => f a >>= g := by
  have h : ((x >>= f) >>= g).run = (x >>= fun a => f a >>= g).run := by
    funext s
    rw [Go.bind_run, Go.bind_run, Go.bind_run]
    cases hx : x.run s with
    | mk r s' => cases r <;> simp [Go.bind_run]
  exact congrArg Go.mk h

theorem processHeader_ok {H : Phase2.HeaderCodec} {r1cs : Option (Phase2.R1CS F)} {f : Bytes} {st st' : Phase2.InitSt}
    {x : Phase2.R1CS F × Phase1.Header × Phase2.Header} (h : (Phase2.processHeader H r1cs f).run st = (.ok x, st')) :
    ∃ r d, r1cs = some r ∧ Phase2.nextPowerofTwo r.nbConstraints = .ok d ∧ x.2.2 = Phase2.circuitHeader r r.nbConstraints d ∧
      Phase2.checkPower x.2.1.power r.nbConstraints = .ok () ∧ st'.ph2 = st.ph2 ++ H.enc x.2.2 := by
  unfold Phase2.processHeader at h
  split at h
  · cases h
  · rename_i r
    obtain ⟨d, s1, hd, h⟩ := Go.bind_eq_ok h
    obtain ⟨x1, s2, hx, h⟩ := Go.bind_eq_ok h
    obtain ⟨u, s3, hcheck, h⟩ := Go.bind_eq_ok h
    obtain ⟨u', s4, hemit, h⟩ := Go.bind_eq_ok h
    simp only [Go.lift_run, Prod.mk.injEq] at hd hx hcheck
    obtain ⟨hd, rfl⟩ := hd
    obtain ⟨hx, rfl⟩ := hx
    obtain ⟨hcheck, rfl⟩ := hcheck
    cases hemit
    cases h
    exact ⟨r, d, rfl, hd, rfl, hcheck, rfl⟩

theorem processHeaderParted_ok {H : Phase2.HeaderCodec} {cs : Phase2.PartedR1CS F} {n : Int} {f : Bytes} {st st' : Phase2.InitSt}
    {x : Phase1.Header × Phase2.Header} (h : (Phase2.processHeaderParted H cs n f).run st = (.ok x, st')) :
    ∃ d, Phase2.nextPowerofTwo n = .ok d ∧ x.2 = Phase2.circuitHeader cs.base n d ∧ st'.ph2 = st.ph2 ++ H.enc x.2 := by
  unfold Phase2.processHeaderParted at h
  obtain ⟨d, s1, hd, h⟩ := Go.bind_eq_ok h
  obtain ⟨x1, s2, hx, h⟩ := Go.bind_eq_ok h
  obtain ⟨u, s3, hcheck, h⟩ := Go.bind_eq_ok h
  obtain ⟨u', s4, hemit, h⟩ := Go.bind_eq_ok h
  simp only [Go.lift_run, Prod.mk.injEq] at hd hx hcheck
  obtain ⟨hd, rfl⟩ := hd
  obtain ⟨hx, rfl⟩ := hx
  obtain ⟨hcheck, rfl⟩ := hcheck
  cases hemit
  cases h
  exact ⟨d, hd, rfl, rfl⟩

/-- the figures printed by a command are those of the header of the file `out` -/
def Console.StatesFigures (H : Phase2.HeaderCodec) (x : Except Fail Unit × FS × List String) (out : String) : Prop :=
  (circuitFigures x.2.2 = [] ∧ x.1 ≠ .ok ()) ∨
  ∃ bytes hd rd, x.2.1 out = some bytes ∧ (Phase2.Header.read H).run (Rd.buffered 4096 bytes) = (.ok hd, rd) ∧
    List.Forall₂ Denotes (circuitFigures x.2.2) [hd.constraints, hd.wires, hd.pub, hd.witness, hd.privateCommitted]

theorem saveInit_out (fs : FS) (out : String) (st : Phase2.InitSt) (h1 : out ≠ "srs.lag") (h2 : out ≠ "evals") :
    saveInit fs out st out = some st.ph2 := by
  simp [saveInit, FS.set, h1, h2]

theorem statesFigures_of {H : Phase2.HeaderCodec} (hH : H.Lawful) {r : Except Fail Unit} {fs : FS} {lines : List String} {st : Phase2.InitSt}
    {out : String} {hd : Phase2.Header} (hr : hd.InRange) (ho1 : out ≠ "srs.lag") (ho2 : out ≠ "evals")
    (hl : lines.filter signed = circuitInfo hd) (hp : H.enc hd <+: st.ph2) : StatesFigures H (r, saveInit fs out st, lines) out := by
  right
  obtain ⟨rest, hrest⟩ := hp
  refine ⟨st.ph2, hd, ⟨4096, 0 + (H.enc hd).length, rest⟩, saveInit_out fs out st ho1 ho2, ?_, ?_⟩
  · rw [← hrest]; exact hH.dec_enc hd hr 4096 0 rest
  · dsimp only
    rw [circuitFigures_info lines hd hl]
    exact .cons (denotes_int _) (.cons (denotes_int _) (.cons (denotes_int _) (.cons (denotes_int _) (.cons (denotes_int _) .nil))))

theorem circuitFigures_nil {lines : List String} (h : lines.filter signed = []) : circuitFigures lines = [] := by
  unfold circuitFigures
  rw [show (lines.filter fun l => l.toList.contains '#') = _ from h]; rfl

/-- **C63**, `p1n`: the power that it prints is the one in the first byte of the file that it leaves, and the number of constraints is that
power of two; beyond 62 (which only a negative argument leads to) it is -2^63. -/
theorem C63_p1n_figures (C : Curve F G1 G2 GT) (E : Cli.Env F G1) (d : Cli.Draws F) (power out : String) (fs fs' : FS) (lines : List String)
    (h : Console.exec C E d "p1n" [power, out] fs = (.ok (), fs', lines)) :
    ∃ (p : UInt8) (rest : Bytes), fs' out = some (p :: rest) ∧
      lines.head? = some ("Power " ++ toString p.toNat ++ " supports up to "
        ++ (if p.toNat ≤ 62 then toString (2 ^ p.toNat) else "-9223372036854775808") ++ " constraints") := by
  replace h : Console.p1n C [power, out] fs = (.ok (), fs', lines) := h
  unfold Console.p1n at h
  rw [if_neg (by simp)] at h
  simp only [arg, List.getD_cons_zero, List.getD_cons_succ] at h
  cases ha : atoi power with
  | error e => rw [ha] at h; simp [silent] at h
  | ok i =>
    rw [ha] at h
    dsimp only at h
    split at h
    · simp [silent] at h
    · simp only [Prod.mk.injEq, true_and] at h
      obtain ⟨rfl, rfl⟩ := h
      refine ⟨toByte i, _, set_self _ _ _, ?_⟩
      unfold initializeOut
      split
      · rename_i hp
        rw [goPow2_eq hp]; rfl
      · rename_i hp
        rw [show Phase1.goPow2 (toByte i) = -(2 ^ 63) from if_neg hp]; rfl

/-- **C63**, `p2n`: the figures that it prints as those of the circuit are those in the header of the phase 2 file that it leaves; it
prints none only if it fails. -/
theorem C63_p2n_figures (C : Curve F G1 G2 GT) (E : Cli.Env F G1) (hH : E.init.header.Lawful) (d : Cli.Draws F) (inp cs out : String) (fs : FS)
    (hm : ∀ bs r, E.r1cs bs = some r → r.Moderate ∧ r.nbConstraints < 2 ^ 62) (ho1 : out ≠ "srs.lag") (ho2 : out ≠ "evals") :
    StatesFigures E.init.header (Console.exec C E d "p2n" [inp, cs, out] fs) out := by
  show StatesFigures E.init.header (Console.p2n C E d.par [inp, cs, out] fs) out
  unfold Console.p2n
  rw [if_neg (by simp)]
  simp only [arg, List.getD_cons_zero, List.getD_cons_succ]
  cases openFile fs inp with
  | error e => exact .inl ⟨rfl, by simp [silent]⟩
  | ok bs =>
    dsimp only
    cases openFile (fs.set out []) cs with
    | error e => exact .inl ⟨rfl, by simp⟩
    | ok c =>
      dsimp only
      have hh : Console.initBody C E.init d.par (E.r1cs c) (contentsAfterCreate inp out bs)
          = println "Processing the headers ..." >>= fun _ => ((quiet (Phase2.processHeader E.init.header (E.r1cs c)
            (contentsAfterCreate inp out bs)) >>= fun a => printlns (circuitInfo a.2.2) >>= fun _ => pure a) >>= fun x => do
              Console.processLagrange C d.par E.init.dom x.2.1 x.2.2 (contentsAfterCreate inp out bs)
              println "Processing evaluation of [A]₁, [B]₁, [B]₂"
              quiet (Phase2.processEvaluations C x.1 x.2.1 x.2.2 (contentsAfterCreate inp out bs))
              println "Processing Delta and Z"
              quiet (Phase2.processDeltaAndZ C x.2.2 (contentsAfterCreate inp out bs))
              println "Processing PKK, VKK, and CKK"
              quiet (Phase2.processPVCKK C E.init.cmtBytes x.1 x.2.2)
              println "Phase 2 has been initialized successfully") := by
        unfold Console.initBody Console.processHeader
        exact go_bind_assoc _ _ _
      rw [hh, Go.bind_ok (println_run _ _)]
      have key := figures_after (x := Phase2.processHeader E.init.header (E.r1cs c) (contentsAfterCreate inp out bs)) (hd := fun a => a.2.2)
        (k := fun x => do
              Console.processLagrange C d.par E.init.dom x.2.1 x.2.2 (contentsAfterCreate inp out bs)
              println "Processing evaluation of [A]₁, [B]₁, [B]₂"
              quiet (Phase2.processEvaluations C x.1 x.2.1 x.2.2 (contentsAfterCreate inp out bs))
              println "Processing Delta and Z"
              quiet (Phase2.processDeltaAndZ C x.2.2 (contentsAfterCreate inp out bs))
              println "Processing PKK, VKK, and CKK"
              quiet (Phase2.processPVCKK C E.init.cmtBytes x.1 x.2.2)
              println "Phase 2 has been initialized successfully")
        (fun x => .bind (processLagrange_like C d.par E.init.dom x.2.1 x.2.2 _) fun _ =>
          .println (.bind (.quiet _) fun _ => .println (.bind (.quiet _) fun _ => .println (.last _ _))))
        (fun x => .bind (processLagrange_grows _ _ _ _ _ _) fun _ => .bind (processEvaluations_grows _ _ _ _ _) fun _ =>
          .bind (processDeltaAndZ_grows _ _ _) fun _ => processPVCKK_grows _ _ _ _)
        (fun x => .bind (processLagrange_hush _ _ _ _ _ _) fun _ => .bind (.println (by decide)) fun _ => .bind (.quiet _) fun _ =>
          .bind (.println (by decide)) fun _ => .bind (.quiet _) fun _ => .bind (.println (by decide)) fun _ => .bind (.quiet _) fun _ =>
          .println (by decide))
        ["Processing the headers ..."] (by decide) ⟨[], old fs "srs.lag", old fs "evals"⟩
      rcases key with ⟨h1, e, h2⟩ | ⟨a, st', h1, h2, h3⟩
      · exact .inl ⟨circuitFigures_nil h1, fun h => by have := h2.symm.trans h; cases this⟩
      · obtain ⟨r, dm, hr, hdm, ha, -, hph⟩ := processHeader_ok h1
        refine statesFigures_of hH (hd := a.2.2) ?_ ho1 ho2 h2 (by rw [hph] at h3; exact h3)
        rw [ha]
        have := hm _ _ hr
        exact circuitHeader_inRange r this.1 _ _ (by omega) (nextPowerofTwo_range _ _ hdm)

theorem atoi_range {s : String} {i : Int} (h : atoi s = .ok i) : -(2 ^ 63) ≤ i ∧ i < 2 ^ 63 := by
  unfold atoi at h
  split at h
  · split at h
    · cases h; assumption
    · cases h
  · cases h

/-- **C63**, `p2np`: the same. -/
theorem C63_p2np_figures (C : Curve F G1 G2 GT) (E : Cli.Env F G1) (hH : E.init.header.Lawful) (d : Cli.Draws F)
    (inp session out n₁ n₂ n₃ : String) (fs : FS) (hm : ∀ fs s i j, (E.parted fs s i j).base.Moderate)
    (ho1 : out ≠ "srs.lag") (ho2 : out ≠ "evals") :
    StatesFigures E.init.header (Console.exec C E d "p2np" [inp, session, out, n₁, n₂, n₃] fs) out := by
  show StatesFigures E.init.header (Console.p2np C E d.par [inp, session, out, n₁, n₂, n₃] fs) out
  unfold Console.p2np
  rw [if_neg (by simp)]
  simp only [arg, List.getD_cons_zero, List.getD_cons_succ]
  cases hn : atoi n₁ with
  | error e => exact .inl ⟨rfl, by simp [silent]⟩
  | ok nbCons =>
    dsimp only
    cases atoi n₂ with
    | error e => exact .inl ⟨rfl, by simp [silent]⟩
    | ok nbR1C =>
      dsimp only
      cases atoi n₃ with
      | error e => exact .inl ⟨rfl, by simp [silent]⟩
      | ok batchSize =>
        dsimp only
        unfold Console.p2npRun
        cases openFile fs inp with
        | error e => exact .inl ⟨rfl, by simp [silent]⟩
        | ok bs =>
          dsimp only
          generalize hcs : E.parted (fs.set out []) session nbR1C batchSize = cs
          have hmod : cs.base.Moderate := hcs ▸ hm _ _ _ _
          have hh : Console.initPartedBody C E.init d.par cs nbCons (contentsAfterCreate inp out bs)
              = println "Reading R1CS..." >>= fun _ => println "Processing the headers ..." >>= fun _ =>
                ((quiet (Phase2.processHeaderParted E.init.header cs nbCons (contentsAfterCreate inp out bs)) >>=
                  fun a => printlns (circuitInfo a.2) >>= fun _ => pure a) >>= fun x => do
                  Console.processLagrange C d.par E.init.dom x.1 x.2 (contentsAfterCreate inp out bs)
                  println "Processing evaluation of [A]₁, [B]₁, [B]₂"
                  quiet (Phase2.processEvaluationsParted C cs nbCons x.1 x.2 (contentsAfterCreate inp out bs))
                  println "Processing Delta and Z"
                  quiet (Phase2.processDeltaAndZ C x.2 (contentsAfterCreate inp out bs))
                  println "Processing PKK, VKK, and CKK"
                  quiet (Phase2.processPVCKKParted C E.init.cmtBytes cs nbCons x.2)
                  println "Phase 2 has been initialized successfully") := by
            unfold Console.initPartedBody Console.processHeaderParted
            exact congrArg (println "Reading R1CS..." >>= ·) (funext fun _ => go_bind_assoc _ _ _)
          rw [hh, Go.bind_ok (println_run _ _), Go.bind_ok (println_run _ _)]
          have key := figures_after (x := Phase2.processHeaderParted E.init.header cs nbCons (contentsAfterCreate inp out bs))
            (hd := fun a => a.2)
            (k := fun x => do
                  Console.processLagrange C d.par E.init.dom x.1 x.2 (contentsAfterCreate inp out bs)
                  println "Processing evaluation of [A]₁, [B]₁, [B]₂"
                  quiet (Phase2.processEvaluationsParted C cs nbCons x.1 x.2 (contentsAfterCreate inp out bs))
                  println "Processing Delta and Z"
                  quiet (Phase2.processDeltaAndZ C x.2 (contentsAfterCreate inp out bs))
                  println "Processing PKK, VKK, and CKK"
                  quiet (Phase2.processPVCKKParted C E.init.cmtBytes cs nbCons x.2)
                  println "Phase 2 has been initialized successfully")
            (fun x => .bind (processLagrange_like C d.par E.init.dom x.1 x.2 _) fun _ =>
              .println (.bind (.quiet _) fun _ => .println (.bind (.quiet _) fun _ => .println (.last _ _))))
            (fun x => .bind (processLagrange_grows _ _ _ _ _ _) fun _ => .bind (processEvaluationsParted_grows _ _ _ _ _ _) fun _ =>
              .bind (processDeltaAndZ_grows _ _ _) fun _ => processPVCKKParted_grows _ _ _ _ _)
            (fun x => .bind (processLagrange_hush _ _ _ _ _ _) fun _ => .bind (.println (by decide)) fun _ => .bind (.quiet _) fun _ =>
              .bind (.println (by decide)) fun _ => .bind (.quiet _) fun _ => .bind (.println (by decide)) fun _ => .bind (.quiet _) fun _ =>
              .println (by decide))
            ["Reading R1CS...", "Processing the headers ..."] (by decide) ⟨[], old fs "srs.lag", old fs "evals"⟩
          rcases key with ⟨h1, e, h2⟩ | ⟨a, st', h1, h2, h3⟩
          · exact .inl ⟨circuitFigures_nil h1, fun h => by have := h2.symm.trans h; cases this⟩
          · obtain ⟨dm, hdm, ha, hph⟩ := processHeaderParted_ok h1
            refine statesFigures_of hH (hd := a.2) ?_ ho1 ho2 h2 (by rw [hph] at h3; exact h3)
            rw [ha]
            exact circuitHeader_inRange cs.base hmod _ _ (atoi_range hn) (nextPowerofTwo_range _ _ hdm)

end

/-! ### concrete cases -/

namespace Toy

/-- a response file of power 2, whole or without its last byte -/
def responseFiles (whole : Bool) : FS := fun p =>
  if p = "response" then some (if whole then response.encode curve else (response.encode curve).dropLast) else none

end Toy

/-- **C63** does not hold for `p1t`: the lines that it prints for a response file and for one without its last byte are the same, but
it succeeds with the first only. (What tells them apart is the exit code, and the message of `log.Fatal` on standard error.) -/
theorem C63_p1t_false : ∃ (fs fs' : FS) (args : List String),
    (Console.exec Toy.curve Toy.cliEnv Toy.draws "p1t" args fs).2.2 = (Console.exec Toy.curve Toy.cliEnv Toy.draws "p1t" args fs').2.2 ∧
    (Cli.exec Toy.curve Toy.cliEnv Toy.draws "p1t" args fs).1 = .ok () ∧
    (Cli.exec Toy.curve Toy.cliEnv Toy.draws "p1t" args fs').1 ≠ .ok () := by
  refine ⟨Toy.responseFiles true, Toy.responseFiles false, ["response", "out", "2", "1"], ?_, ?_, ?_⟩
  · decide +kernel
  · decide +kernel
  · decide +kernel

example := C63_success_partial Toy.lawful Toy.cliEnv Toy.draws "p2n" ["srs", "one", "ph2"] Toy.files _ rfl

/-- the output of a successful `p2n` -/
example : (Console.exec Toy.curve Toy.cliEnv Toy.draws "p2n" ["srs", "one", "ph2"] Toy.files).2.2
    = ["Processing the headers ...", "Circuit Info: #Constraints:=3", "#Wires:=4", "#Public:=2", "#Witness:=2",
  "#PrivateCommitted:=0", "Converting to Lagrange basis ...", "Converting TauG1", "Converting AlphaTauG1",
  "Converting BetaTauG1", "Converting TauG2", "Processing evaluation of [A]₁, [B]₁, [B]₂", "Processing Delta and Z",
  "Processing PKK, VKK, and CKK", "Phase 2 has been initialized successfully"] := by decide +kernel

example : circuitFigures (Console.exec Toy.curve Toy.cliEnv Toy.draws "p2n" ["srs", "one", "ph2"] Toy.files).2.2 = ["3", "4", "2", "2", "0"] := by
  decide +kernel

/-- `p2np` with more constraints than there are -/
example : circuitFigures (Console.exec Toy.curve Toy.cliEnv Toy.draws "p2np" ["srs", "s", "ph2", "4", "4", "2"] Toy.files).2.2
    = ["4", "4", "2", "2", "0"] ∧
    (Cli.exec Toy.curve Toy.cliEnv Toy.draws "p2np" ["srs", "s", "ph2", "4", "4", "2"] Toy.files).1 ≠ .ok () := by
  constructor <;> decide +kernel

example := C63_p2n_figures Toy.curve Toy.cliEnv Gob.lawful Toy.draws "srs" "one" "ph2" Toy.files (by
  intro bs r h
  simp only [Toy.cliEnv] at h
  split at h
  · cases h; unfold Phase2.R1CS.Moderate; decide
  · split at h
    · cases h; unfold Phase2.R1CS.Moderate; decide
    · cases h) (by decide) (by decide)

example := C63_p2np_figures Toy.curve Toy.cliEnv Gob.lawful Toy.draws "srs" "s" "ph2" "3" "3" "2" Toy.files
  (fun _ _ _ _ => show 2 + 0 + 2 + 0 < 2 ^ 62 by decide) (by decide) (by decide)

example : (Console.exec Toy.curve Toy.cliEnv Toy.draws "p1n" ["1", "out"] Toy.files).1 = .ok () ∧
    (Console.exec Toy.curve Toy.cliEnv Toy.draws "p1n" ["1", "out"] Toy.files).2.2.head? = some "Power 1 supports up to 2 constraints" ∧
    (Console.exec Toy.curve Toy.cliEnv Toy.draws "p1n" ["-1", "out"] Toy.files).2.2.head?
      = some "Power 255 supports up to -9223372036854775808 constraints" := by
  refine ⟨?_, ?_, ?_⟩ <;> decide +kernel

example := C63_p1n_figures Toy.curve Toy.cliEnv Toy.draws "-1" "out" Toy.files _ _ rfl

example := C63_p1t_lines Toy.curve Toy.cliEnv Toy.draws ["response", "out", "2", "1"] (Toy.responseFiles true)

example := C63_success_partial Toy.lawful Toy.cliEnv Toy.draws "sol" ["x"] (fun _ => some [1]) _ rfl

end ZkSetup
