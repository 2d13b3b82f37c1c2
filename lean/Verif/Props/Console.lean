import Verif.Proofs.Console
import Verif.Props.Continue

/-!
C58: the hashes that the commands print; C59: what they pin down.
-/
set_option linter.unusedSectionVars false

namespace ZkSetup
open Console

section
variable {F G1 G2 GT : Type} [Field F] [AddCommGroup G1] [Module F G1] [AddCommGroup G2] [Module F G2] [AddCommGroup GT] [Module F GT]
variable [DecidableEq G1] [DecidableEq G2] [DecidableEq GT]

/-- The programs with output are those of the other theorems: same results, same files. -/
theorem C58_same_programs (C : Curve F G1 G2 GT) (H : Phase2.HeaderCodec) (par : Par) (pol : Phase1.MsmPolicy) (b : Nat)
    (r1 : Phase1.Rand F) (v1 : Phase1.VerifyRand F) (r2 : Phase2.Rand F) (v2 : Phase2.VerifyRand F) (input origin : Bytes) (tr : Option Bytes) :
    ((p1Contribute C par b r1 input).1 = (Phase1.contribute C par b r1 input).1.map (fun _ => ()) ∧
      (p1Contribute C par b r1 input).2.1 = (Phase1.contribute C par b r1 input).2) ∧
    (p1Verify C par pol b v1 input tr).1 = Phase1.verify C par pol b v1 input tr ∧
    ((p2Contribute C H par b r2 input).1 = (Phase2.contribute C H par b r2 input).1.map (fun _ => ()) ∧
      (p2Contribute C H par b r2 input).2.1 = (Phase2.contribute C H par b r2 input).2) ∧
    (p2Verify C H par b v2 input origin).1 = Phase2.verify C H par b v2 input origin := by
  refine ⟨?_, ?_, ?_, ?_⟩
  · unfold p1Contribute Phase1.contribute
    cases hh : Phase1.Header.readFrom.run (Rd.file input 0) with
    | mk r rd =>
      cases r with
      | error e => exact ⟨rfl, rfl⟩
      | ok header =>
        have := p1ContributeBody_like C par b r1 header ⟨⟨Rd.buffered 4096 rd.rest, []⟩, []⟩
        exact ⟨this.1, congrArg IOSt.out this.2⟩
  · unfold p1Verify Phase1.verify
    cases hh : Phase1.Header.readFrom.run (Rd.file input 0) with
    | mk r rd =>
      cases r with
      | error e => rfl
      | ok header =>
        dsimp only
        have h := p1ReadSections_like C par pol b v1 (Phase1.goPow2 header.power) ⟨Rd.buffered (2 ^ 20) rd.rest,
          ["Power := " ++ toString header.power.toNat ++ " and  #Contributions := " ++ toString header.contributions.toNat]⟩
        dsimp only at h
        cases hx : (Phase1.readSections C par pol b v1 (Phase1.goPow2 header.power)).run (Rd.buffered (2 ^ 20) rd.rest) with
        | mk r rd' =>
          cases hy : (p1ReadSections C par pol b v1 (Phase1.goPow2 header.power)).run ⟨Rd.buffered (2 ^ 20) rd.rest,
            ["Power := " ++ toString header.power.toNat ++ " and  #Contributions := " ++ toString header.contributions.toNat]⟩ with
          | mk r' s =>
            rw [hx, hy] at h
            obtain ⟨h1, h2⟩ := h
            dsimp only at h1 h2
            subst h1
            subst h2
            cases r with
            | error e => rfl
            | ok v =>
              have := (p1VerifyRest_like C tr header.contributions.toNat s.st v.1 v.2.1 v.2.2.1 v.2.2.2.1 v.2.2.2.2 ⟨(), s.out⟩).1
              refine this.trans ?_
              show Except.map id (Phase1.verifyRest C tr _ s.st v.1 v.2.1 v.2.2.1 v.2.2.2.1 v.2.2.2.2) = Phase1.verifyRest C tr _ s.st _ _ _ _ _
              cases Phase1.verifyRest C tr header.contributions.toNat s.st v.1 v.2.1 v.2.2.1 v.2.2.2.1 v.2.2.2.2 <;> rfl
  · have := p2ContributeBody_like C H par b r2 ⟨⟨Rd.buffered 4096 input, []⟩, []⟩
    exact ⟨this.1, congrArg IOSt.out this.2⟩
  · have := (p2VerifyBody_like C H par b v2 ⟨(Rd.buffered 4096 input, Rd.buffered 4096 origin), []⟩).1
    refine this.trans ?_
    show Except.map id (Phase2.verify C H par b v2 input origin) = _
    cases Phase2.verify C H par b v2 input origin <;> rfl

/-! ### C58: contributions -/

theorem attested_of_lines {out : List String} {h : Bytes} (e : linesWith "Contribution Hash" out = [ownHashLine h]) :
    attestedHashes out = [some h] := by
  unfold attestedHashes
  rw [e]
  simp [ownHashLine_read]

/-- **C58**, phase 1 contribution, whatever the input bytes. If it succeeds, it says so and prints exactly one hash to attest: the hash of
the record that ends the output file, which is in its last 32 bytes. If it fails, it prints no hash and does not say that it was successful. -/
theorem C58_p1_contribute {C : Curve F G1 G2 GT} (hC : C.Lawful) (par : Par) (b : Nat) (rnd : Phase1.Rand F) (input out : Bytes)
    (r : Except Fail Unit) (lines : List String) (h : p1Contribute C par b rnd input = (r, out, lines)) :
    (r = .ok () → (∃ pre body, out = pre ++ body ++ C.sha body ∧ body.length = 608 ∧ attestedHashes lines = [some (C.sha body)]) ∧
      ReportsContributed lines) ∧
    (r ≠ .ok () → attestedHashes lines = [] ∧ ¬ ReportsContributed lines) := by
  unfold p1Contribute at h
  cases hh : Phase1.Header.readFrom.run (Rd.file input 0) with
  | mk hr rd =>
    rw [hh] at h
    cases hr with
    | error e =>
      simp only [Prod.mk.injEq] at h
      obtain ⟨rfl, rfl, rfl⟩ := h
      exact ⟨fun h => (by cases h), fun _ => ⟨rfl, by simp [ReportsContributed]⟩⟩
    | ok header =>
      dsimp only at h
      cases hx : (p1ContributeBody C par b rnd header).run ⟨⟨Rd.buffered 4096 rd.rest, []⟩, []⟩ with
      | mk r' s =>
        rw [hx] at h
        simp only [Prod.mk.injEq] at h
        obtain ⟨rfl, rfl, rfl⟩ := h
        refine ⟨?_, ?_⟩
        · rintro rfl
          obtain ⟨c, pre, h1, h2, h3, h4⟩ := p1ContributeBody_ok hx
          refine ⟨⟨pre, recordBody C c, ?_, recordBody_length hC c, ?_⟩, h4⟩
          · rw [h1, ← h2, List.append_assoc]; rfl
          · rw [← h2]; exact attested_of_lines h3
        · intro hne
          cases r' with
          | ok u => exact absurd rfl hne
          | error e =>
            have m1 := p1ContributeBody_muteErr C par b rnd header "Contribution Hash" power_line (.inl rfl) _ e (congrArg Prod.fst hx)
            have m2 := p1ContributeBody_muteErr C par b rnd header "Contirbution has been successful!" (fun n m => by
              simp only [String.toList_append, List.append_assoc]; rfl) (.inr rfl) _ e (congrArg Prod.fst hx)
            rw [hx] at m1 m2
            refine ⟨by unfold attestedHashes; rw [m1]; rfl, fun hrep => ?_⟩
            have := (mem_linesWith _ _).mpr hrep
            rw [m2] at this
            cases this

/-- **C58**, phase 2 contribution, whatever the input bytes: the same, with records of 192 bytes. -/
theorem C58_p2_contribute {C : Curve F G1 G2 GT} (hC : C.Lawful) (H : Phase2.HeaderCodec) (par : Par) (b : Nat) (rnd : Phase2.Rand F)
    (input out : Bytes) (r : Except Fail Unit) (lines : List String) (h : p2Contribute C H par b rnd input = (r, out, lines)) :
    (r = .ok () → (∃ pre body, out = pre ++ body ++ C.sha body ∧ body.length = 160 ∧ attestedHashes lines = [some (C.sha body)]) ∧
      ReportsContributed lines) ∧
    (r ≠ .ok () → attestedHashes lines = [] ∧ ¬ ReportsContributed lines) := by
  unfold p2Contribute at h
  cases hx : (p2ContributeBody C H par b rnd).run ⟨⟨Rd.buffered 4096 input, []⟩, []⟩ with
  | mk r' s =>
    rw [hx] at h
    simp only [Prod.mk.injEq] at h
    obtain ⟨rfl, rfl, rfl⟩ := h
    refine ⟨?_, ?_⟩
    · rintro rfl
      obtain ⟨c, pre, h1, h2, h3, h4⟩ := p2ContributeBody_ok hx
      refine ⟨⟨pre, record2Body C c, ?_, record2Body_length hC c, ?_⟩, h4⟩
      · rw [h1, ← h2, List.append_assoc]; rfl
      · rw [← h2]; exact attested_of_lines h3
    · intro hne
      cases r' with
      | ok u => exact absurd rfl hne
      | error e =>
        have m1 := p2ContributeBody_muteErr C H par b rnd "Contribution Hash" count_line (.inl rfl) _ e (congrArg Prod.fst hx)
        have m2 := p2ContributeBody_muteErr C H par b rnd "Contirbution has been successful!" (fun n => by
          simp only [String.toList_append]; rfl) (.inr rfl) _ e (congrArg Prod.fst hx)
        rw [hx] at m1 m2
        refine ⟨by unfold attestedHashes; rw [m1]; rfl, fun hrep => ?_⟩
        have := (mem_linesWith _ _).mpr hrep
        rw [m2] at this
        cases this

/-! ### C58: verification -/

/-- the line of success -/
abbrev verified : String := "Contributions verification has been successful"

theorem p1VerifyLoop_mute (C : Curve F G1 G2 GT) (n : Nat) : ∀ (i : Nat) (cur prev : Phase1.Contribution G1 G2) (rd : Rd),
    Mute verified (p1VerifyLoop C n i cur prev rd) := by
  induction n with
  | zero => intro i cur prev rd; exact .pure _ _
  | succ n ih =>
    intro i cur prev rd
    exact .bind (.println (hashLine_starts_not _ _ _ _ (by decide))) fun _ => .bind (.quiet _ _) fun _ =>
      .bind (.quiet _ _) fun _ => ih _ _ _ _

theorem p2VerifyLoop_mute (C : Curve F G1 G2 GT) (n : Nat) : ∀ (i : Nat) (c : Phase2.Contribution G1 G2) (d : G1) (h : Bytes),
    Mute verified (p2VerifyLoop C n i c d h) := by
  induction n with
  | zero => intro i c d h; exact .pure _ _
  | succ n ih =>
    intro i c d h
    exact .bind (.quiet _ _) fun _ => .bind (.println (hashLine_starts_not _ _ _ _ (by decide))) fun _ => .bind (.quiet _ _) fun _ =>
      ih _ _ _ _

theorem p1ReadSections_mute (C : Curve F G1 G2 GT) (par : Par) (pol : Phase1.MsmPolicy) (b : Nat) (vr : Phase1.VerifyRand F) (N : Int) :
    Mute verified (p1ReadSections C par pol b vr N) ∧ Mute verifying (p1ReadSections C par pol b vr N) := by
  unfold p1ReadSections
  constructor <;> mute

theorem p1VerifyRest_muteErr (C : Curve F G1 G2 GT) (tr : Option Bytes) (count : Nat) (rd : Rd) (tau1 alpha1 beta1 : G1 × G1)
    (tau2 : G2 × G2) (betaG2 : G2) : MuteErr verified (p1VerifyRest C tr count rd tau1 alpha1 beta1 tau2 betaG2) := by
  unfold p1VerifyRest
  refine .bind (.quiet _ _) fun _ => .bind (p1VerifyLoop_mute C _ _ _ _ _) fun _ => ?_
  mute

theorem p2VerifyBody_muteErr (C : Curve F G1 G2 GT) (H : Phase2.HeaderCodec) (par : Par) (b : Nat) (vr : Phase2.VerifyRand F) :
    MuteErr verified (p2VerifyBody C H par b vr) := by
  unfold p2VerifyBody
  refine .bind (.quiet _ _) fun _ => .bind (.quiet _ _) fun _ => .bind (.quiet _ _) fun _ => .bind (.quiet _ _) fun _ => .bind (.quiet _ _) fun _ =>
    .bind (.quiet _ _) fun _ => .bind (.quiet _ _) fun _ => .bind (.quiet _ _) fun _ => .bind (.quiet _ _) fun _ => .bind (.println (by decide)) fun _ =>
    .bind (.quiet _ _) fun _ => .bind (.println (by decide)) fun _ => .bind (.quiet _ _) fun _ => .bind (.println ?_) fun _ =>
    .bind (p2VerifyLoop_mute C _ _ _ _ _) fun _ => ?_
  · simp only [String.toList_append]; rfl
  · mute

/-- a run whose last step prints the line of success -/
theorem last_line {σ α : Type} {x : Go σ α} {l : String} {s s' : St σ}
    (h : (quiet x >>= fun _ => println l).run s = (.ok (), s')) : l ∈ s'.out := by
  obtain ⟨a, s1, -, h⟩ := Go.bind_eq_ok h
  simp only [println_run, Prod.mk.injEq, true_and] at h
  rw [← h]; simp

/-- The verification of phase 1 as one run behind the header. -/
theorem p1Verify_split (C : Curve F G1 G2 GT) (par : Par) (pol : Phase1.MsmPolicy) (b : Nat) (vr : Phase1.VerifyRand F)
    (input : Bytes) (tr : Option Bytes) (r : Except Fail Unit) (lines : List String) (h : p1Verify C par pol b vr input tr = (r, lines)) :
    ((∃ e, r = .error e) ∧ linesWith verified lines = [] ∧ linesWith verifying lines = []) ∨
    ∃ (header : Phase1.Header) (rd : Rd) (v : (G1 × G1) × (G1 × G1) × (G1 × G1) × (G2 × G2) × G2) (s : St Rd),
      Phase1.Header.readFrom.run (Rd.file input 0) = (.ok header, rd) ∧
      (Phase1.readSections C par pol b vr (Phase1.goPow2 header.power)).run (Rd.buffered (2 ^ 20) rd.rest) = (.ok v, s.st) ∧
      linesWith verified s.out = [] ∧ linesWith verifying s.out = [] ∧
      ∃ s', (p1VerifyRest C tr header.contributions.toNat s.st v.1 v.2.1 v.2.2.1 v.2.2.2.1 v.2.2.2.2).run ⟨(), s.out⟩ = (r, s') ∧
        s'.out = lines := by
  unfold p1Verify at h
  cases hh : Phase1.Header.readFrom.run (Rd.file input 0) with
  | mk hr rd =>
    rw [hh] at h
    cases hr with
    | error e =>
      simp only [Prod.mk.injEq] at h
      obtain ⟨rfl, rfl⟩ := h
      exact .inl ⟨⟨e, rfl⟩, rfl, rfl⟩
    | ok header =>
      dsimp only at h
      generalize hfirst : "Power := " ++ toString header.power.toNat ++ " and  #Contributions := " ++ toString header.contributions.toNat
        = first at h
      have hf1 : linesWith verified [first] = [] := by
        rw [← hfirst, linesWith, List.filter_cons_of_neg, List.filter_nil]
        simp only [String.toList_append, List.append_assoc]; exact Bool.false_ne_true
      have hf2 : linesWith verifying [first] = [] := by
        rw [← hfirst, linesWith, List.filter_cons_of_neg, List.filter_nil]
        simp only [String.toList_append, List.append_assoc]; exact Bool.false_ne_true
      have m := p1ReadSections_mute C par pol b vr (Phase1.goPow2 header.power)
      have m1 := m.1 ⟨Rd.buffered (2 ^ 20) rd.rest, [first]⟩
      have m2 := m.2 ⟨Rd.buffered (2 ^ 20) rd.rest, [first]⟩
      have hlike := p1ReadSections_like C par pol b vr (Phase1.goPow2 header.power) ⟨Rd.buffered (2 ^ 20) rd.rest, [first]⟩
      cases hx : (p1ReadSections C par pol b vr (Phase1.goPow2 header.power)).run ⟨Rd.buffered (2 ^ 20) rd.rest, [first]⟩ with
      | mk r' s =>
        rw [hx] at h m1 m2 hlike
        rw [hf1] at m1
        rw [hf2] at m2
        cases r' with
        | error e =>
          simp only [Prod.mk.injEq] at h
          obtain ⟨rfl, rfl⟩ := h
          exact .inl ⟨⟨e, rfl⟩, m1, m2⟩
        | ok v =>
          refine .inr ⟨header, rd, v, s, rfl, ?_, m1, m2, ?_⟩
          · obtain ⟨l1, l2⟩ := hlike
            dsimp only at l1 l2
            cases hy : (Phase1.readSections C par pol b vr (Phase1.goPow2 header.power)).run (Rd.buffered (2 ^ 20) rd.rest) with
            | mk r'' rd'' =>
              rw [hy] at l1 l2
              cases r'' with
              | error e => cases l1
              | ok w => cases l1; rw [l2]; rfl
          · simp only [Prod.mk.injEq] at h
            exact ⟨_, Prod.ext h.1 rfl, h.2⟩

/-- **C58**, phase 1 verification, whatever the files: it reports success exactly if it accepts. -/
theorem C58_p1_report (C : Curve F G1 G2 GT) (par : Par) (pol : Phase1.MsmPolicy) (b : Nat) (vr : Phase1.VerifyRand F) (input : Bytes)
    (tr : Option Bytes) : ReportsVerified (p1Verify C par pol b vr input tr).2 ↔ Phase1.verify C par pol b vr input tr = .ok () := by
  rw [← (C58_same_programs C Gob.headerCodec par pol b ⟨0, 0, 0, 0, 0, 0⟩ vr ⟨0, 0⟩ ⟨fun _ _ => 0, fun _ _ => 0⟩ input [] tr).2.1]
  cases hp : p1Verify C par pol b vr input tr with
  | mk r lines =>
    rcases p1Verify_split C par pol b vr input tr r lines hp with ⟨⟨e, rfl⟩, h1, h2⟩ | ⟨header, rd, v, s, -, -, h1, -, s', h3, rfl⟩
    · refine ⟨fun h => ?_, fun h => by cases h⟩
      have := (mem_linesWith _ _).mpr h
      rw [h1] at this; cases this
    · constructor
      · intro h
        cases r with
        | ok u => rfl
        | error e =>
          have m := p1VerifyRest_muteErr C tr header.contributions.toNat s.st v.1 v.2.1 v.2.2.1 v.2.2.2.1 v.2.2.2.2 ⟨(), s.out⟩ e (congrArg Prod.fst h3)
          rw [h3] at m
          have := (mem_linesWith _ _).mpr h
          dsimp only at m
          rw [m, h1] at this; cases this
      · rintro rfl
        unfold p1VerifyRest at h3
        obtain ⟨_, _, -, h3⟩ := Go.bind_eq_ok h3
        obtain ⟨_, _, -, h3⟩ := Go.bind_eq_ok h3
        obtain ⟨_, _, -, h3⟩ := Go.bind_eq_ok h3
        obtain ⟨_, _, -, h3⟩ := Go.bind_eq_ok h3
        obtain ⟨_, _, -, h3⟩ := Go.bind_eq_ok h3
        obtain ⟨_, _, -, h3⟩ := Go.bind_eq_ok h3
        obtain ⟨_, _, -, h3⟩ := Go.bind_eq_ok h3
        obtain ⟨_, _, -, h3⟩ := Go.bind_eq_ok h3
        obtain ⟨_, _, -, h3⟩ := Go.bind_eq_ok h3
        obtain ⟨_, _, -, h3⟩ := Go.bind_eq_ok h3
        obtain ⟨_, _, -, h3⟩ := Go.bind_eq_ok h3
        exact last_line h3

/-- **C58**, phase 2 verification, whatever the files: it reports success exactly if it accepts. -/
theorem C58_p2_report (C : Curve F G1 G2 GT) (H : Phase2.HeaderCodec) (par : Par) (b : Nat) (vr : Phase2.VerifyRand F) (input origin : Bytes) :
    ReportsVerified (p2Verify C H par b vr input origin).2 ↔ Phase2.verify C H par b vr input origin = .ok () := by
  rw [← (C58_same_programs C H par .strict b ⟨0, 0, 0, 0, 0, 0⟩ ⟨fun _ _ => 0, fun _ _ => 0, fun _ _ => 0, fun _ _ => 0⟩ ⟨0, 0⟩ vr input
    origin none).2.2.2]
  unfold p2Verify
  cases hp : (p2VerifyBody C H par b vr).run ⟨(Rd.buffered 4096 input, Rd.buffered 4096 origin), []⟩ with
  | mk r s' =>
    dsimp only
    constructor
    · intro h
      cases r with
      | ok u => rfl
      | error e =>
        have m := p2VerifyBody_muteErr C H par b vr _ e (congrArg Prod.fst hp)
        rw [hp] at m
        have := (mem_linesWith _ _).mpr h
        dsimp only at m
        rw [m] at this; cases this
    · rintro rfl
      unfold p2VerifyBody at hp
      iterate 16 obtain ⟨_, _, -, hp⟩ := Go.bind_eq_ok hp
      exact last_line hp

theorem p1VerifyRest_upto {C : Curve F G1 G2 GT} (tr : Option Bytes) (count : Nat) (rd : Rd) (tau1 alpha1 beta1 : G1 × G1)
    (tau2 : G2 × G2) (betaG2 : G2) (L : List String) (out : List String)
    (h : ∀ prev, Upto L (p1VerifyLoop C count 0 Phase1.Contribution.zero prev rd) ⟨(), out⟩) :
    Upto L (p1VerifyRest C tr count rd tau1 alpha1 beta1 tau2 betaG2) ⟨(), out⟩ := by
  unfold p1VerifyRest
  refine .quiet fun prev _ _ => .then (h prev) fun _ => ?_
  mute

theorem tracked_upto {out : List String} {hs : List Bytes} {m : Nat} (h : linesWith verifying out = (hashLines 0 hs).take m) :
    trackedHashes out = (hs.map some).take m := by
  unfold trackedHashes
  rw [h, List.map_take, hashLines_read]

/-- **C58**, phase 1 verification of a file with these records, whatever its points and whatever follows: the hashes printed are those of
the records from the first on, all of them if the file is accepted. -/
theorem C58_p1_verify {C : Curve F G1 G2 GT} (hC : C.Lawful) (par : Par) (pol : Phase1.MsmPolicy) (b : Nat) (hb : 0 < b)
    (vr : Phase1.VerifyRand F) (f : P1File G1 G2) (hf : f.WF) (junk : Bytes) (tr : Option Bytes) (r : Except Fail Unit) (lines : List String)
    (h : p1Verify C par pol b vr (f.encode C ++ junk) tr = (r, lines)) :
    trackedHashes lines <+: f.records.map (fun r => some r.hash) ∧
      (r = .ok () → trackedHashes lines = f.records.map (fun r => some r.hash)) := by
  have hcnt := hf.count
  have henc : f.encode C ++ junk = Phase1.Header.writeTo ⟨f.power, UInt16.ofNat f.records.length⟩
      ++ (f.tauG1.flatMap C.c1.bytes ++ (f.alphaG1.flatMap C.c1.bytes ++ (f.betaG1.flatMap C.c1.bytes
      ++ (f.tauG2.flatMap C.c2.bytes ++ (C.c2.bytes f.betaG2
      ++ (f.records.flatMap (recordBytes C) ++ junk)))))) := by
    rw [header_encode _ _ hcnt]
    simp [P1File.encode, P1File.params]
  have hn : (UInt16.ofNat f.records.length).toNat = f.records.length := by simp; omega
  rcases p1Verify_split C par pol b vr _ tr r lines h with ⟨⟨e, rfl⟩, h1, h2⟩ | ⟨header, rd, v, s, h1, h2, -, h3, s', h4, rfl⟩
  · have : trackedHashes lines = [] := by unfold trackedHashes; rw [h2]; rfl
    rw [this]
    exact ⟨List.nil_prefix, fun h => by cases h⟩
  · rw [henc, header_read] at h1
    simp only [Prod.mk.injEq, Except.ok.injEq] at h1
    obtain ⟨rfl, rfl⟩ := h1
    dsimp only at h2
    unfold Rd.buffered at h2
    rw [readSections_spec hC par pol b hb vr f hf] at h2
    simp only [Prod.mk.injEq, Except.ok.injEq] at h2
    obtain ⟨rfl, h2⟩ := h2
    have hu := p1VerifyRest_upto (C := C) tr f.records.length s.st (combos pol b vr.tau1 f.tauG1) (combos pol b vr.alpha1 f.alphaG1)
      (combos pol b vr.beta1 f.betaG1) (combos pol b vr.tau2 f.tauG2) f.betaG2 (hashLines 0 (f.records.map (·.hash))) s.out (fun prev => by
        rw [← h2]
        exact p1VerifyLoop_upto hC f.records hf.hash _ _ _ _ _ (.inr ⟨by decide, by omega⟩) _ _)
    dsimp only at h4
    rw [hn] at h4
    unfold Upto at hu
    rw [h4] at hu
    obtain ⟨m, hu1, hu2⟩ := hu
    rw [show linesWith verifying s.out = [] from h3, List.nil_append] at hu1
    have ht := tracked_upto hu1
    rw [List.map_map] at ht
    rw [ht]
    refine ⟨List.take_prefix _ _, ?_⟩
    rintro rfl
    have := hu2 () rfl
    rw [hashLines_length, List.length_map] at this
    rw [List.take_of_length_le (by simpa using this)]
    rfl

theorem mute_run {σ α : Type} {p : String} {x : Go (St σ) α} {s s' : St σ} {r : Except Fail α} (hm : Mute p x) (h : x.run s = (r, s')) :
    linesWith p s'.out = linesWith p s.out := by
  have := hm s
  rwa [h] at this

theorem chainOk_hash {C : Curve F G1 G2 GT} (rs : List (Phase1.Contribution G1 G2)) : ∀ (prev : Phase1.Contribution G1 G2), ChainOk C prev rs →
    ∀ r ∈ rs, r.hash = C.sha (recordBody C r) := by
  induction rs with
  | nil => intro _ _ r hr; cases hr
  | cons a rs ih =>
    intro prev h r hr
    rcases List.mem_cons.mp hr with rfl | hr
    · obtain ⟨_, _, _, hs⟩ := h.1; exact hs.hash
    · exact ih _ h.2 r hr

theorem chain2_hash {C : Curve F G1 G2 GT} (rs : List (Phase2.Contribution G1 G2)) : ∀ (d : G1) (h : Bytes) (xs : List F), Chain2By C d h rs xs →
    ∀ r ∈ rs, r.hash = C.sha (record2Body C r) := by
  induction rs with
  | nil => intro _ _ _ _ r hr; cases hr
  | cons a rs ih =>
    intro d h xs hch r hr
    cases xs with
    | nil => exact hch.elim
    | cons x xs =>
      rcases List.mem_cons.mp hr with rfl | hr
      · exact hch.1.hash
      · exact ih _ _ _ hch.2 r hr

/-- **C58**, phase 1 verification of arbitrary bytes: if it accepts, then there is a chain of records, each with the right hash and an
update of the one before it, whose hashes are those printed. -/
theorem C58_p1_verify_any {C : Curve F G1 G2 GT} (hC : C.Lawful) (par : Par) (pol : Phase1.MsmPolicy) (b : Nat)
    (vr : Phase1.VerifyRand F) (input : Bytes) (tr : Option Bytes) (lines : List String)
    (h : p1Verify C par pol b vr input tr = (.ok (), lines)) :
    ∃ prev rs, Phase1.defaultContribution C tr = .ok prev ∧ ChainOk C prev rs ∧
      trackedHashes lines = rs.map (fun r => some (C.sha (recordBody C r))) := by
  rcases p1Verify_split C par pol b vr _ tr _ lines h with ⟨⟨e, he⟩, -⟩ | ⟨header, rd, v, s, h1, h2, -, h3, s', h4, rfl⟩
  · cases he
  · unfold p1VerifyRest at h4
    obtain ⟨prev, s1, e1, h4⟩ := Go.bind_eq_ok h4
    rw [quiet_run] at e1
    simp only [Go.lift_run, Prod.mk.injEq] at e1
    obtain ⟨e1, rfl⟩ := e1
    obtain ⟨fin, s2, e2, h4⟩ := Go.bind_eq_ok h4
    obtain ⟨rs, -, hch, hl⟩ := p1VerifyLoop_sound hC _ _ _ _ _ _ _ _ e2
    refine ⟨prev, rs, e1, hch, ?_⟩
    have m := mute_run (p := verifying) (by mute) h4
    rw [hl, h3, List.nil_append] at m
    have ht := tracked_upto (m := rs.length) (out := s'.out) (hs := rs.map (·.hash)) (by
      rw [m, List.take_of_length_le (by simp [hashLines_length])])
    rw [ht, List.take_of_length_le (by simp), List.map_map]
    refine List.map_congr_left fun r hr => ?_
    simp [← chainOk_hash rs prev hch r hr]

/-- **C58**, phase 2 verification of a file with these records, none of them with its hash across a boundary of the read buffer: the hashes
printed are those of the records from the first on, all of them if the file is accepted. -/
theorem C58_p2_verify {C : Curve F G1 G2 GT} (hC : C.Lawful) {H : Phase2.HeaderCodec} (hH : H.Lawful) (par : Par) (b : Nat) (hb : 0 < b)
    (vr : Phase2.VerifyRand F) (f o : P2File G1 G2) (hf : f.WF) (ho : o.WF) (hs : f.NoStraddle H) (junk junk' : Bytes)
    (r : Except Fail Unit) (lines : List String) (h : p2Verify C H par b vr (f.encode C H ++ junk) (o.encode C H ++ junk') = (r, lines)) :
    trackedHashes lines <+: f.records.map (fun r => some r.hash) ∧
      (r = .ok () → trackedHashes lines = f.records.map (fun r => some r.hash)) := by
  have hu : Upto (hashLines 0 (f.records.map (·.hash))) (p2VerifyBody C H par b vr)
      ⟨(Rd.buffered 4096 (f.encode C H ++ junk), Rd.buffered 4096 (o.encode C H ++ junk')), []⟩ := by
    obtain ⟨r1, r2, r3, r4, h1, h2, h3, h4, h5⟩ := P2File.readers hC hH hf 4096 junk
    obtain ⟨q1, q2, q3, q4, k1, k2, k3, k4, k5⟩ := P2File.readers hC hH ho 4096 junk'
    unfold p2VerifyBody Phase2.Header.read
    refine .ok (onInput_ok h1) (.ok (onOrigin_ok k1) (.quiet fun _ st e => .quiet fun _ st' e' => ?_))
    simp only [Go.lift_run, Prod.mk.injEq] at e e'
    obtain ⟨-, rfl⟩ := e
    obtain ⟨hsh, rfl⟩ := e'
    rw [check_ok, header_equal_iff] at hsh
    have hzl : o.z.length = f.z.length := by rw [hf.z, ho.z, hsh.2.2.2.2.2]
    have hkl : o.pkk.length = f.pkk.length := by rw [hf.pkk, ho.pkk, hsh.2.1]
    rw [hzl] at k4
    rw [hkl] at k5
    have hw3 : Phase1.wrap64 (f.header.domain - 1) = (f.z.length : Int) := by
      have := hf.z
      have := hf.domain
      have := hf.domain_pos
      clear hs
      rw [wrap64_eq] <;> simp only [P2File.header] <;> omega
    have hw4 : f.header.witness = (f.pkk.length : Int) := by
      simp [P2File.header, hf.pkk]
    have hn : f.header.contributions.toNat = f.records.length := by simp [P2File.header]
    refine .ok (onOrigin_ok k2) (.ok (onOrigin_ok k3) (.ok (onInput_ok h2) (.ok (onInput_ok h3) (.quiet fun _ st e => ?_))))
    simp only [Go.lift_run, Prod.mk.injEq] at e
    obtain ⟨-, rfl⟩ := e
    rw [hw3, hw4, hn]
    refine .println (by decide) (.quiet fun _ st e => ?_)
    rw [verifyParameter_ok C par b hb vr.z _ _ _ "Z" _ _ _ _ _ _ h4 k4, Prod.mk.injEq] at e
    obtain ⟨-, rfl⟩ := e
    refine .println (by decide) (.quiet fun _ st e => ?_)
    rw [verifyParameter_ok C par b hb vr.pkk _ _ _ "PKK" _ _ _ _ _ _ h5 k5, Prod.mk.injEq] at e
    obtain ⟨-, rfl⟩ := e
    refine .println (by simp only [String.toList_append]; rfl) (.then (p2VerifyLoop_upto hC f.records _ _ _ _ _ _ _ _ _ hf.hash
      fun j hj => .inr (hs j hj)) fun _ => ?_)
    mute
  unfold p2Verify at h
  simp only [Prod.mk.injEq] at h
  obtain ⟨rfl, rfl⟩ := h
  obtain ⟨m, hu1, hu2⟩ := hu
  rw [show linesWith verifying [] = [] from rfl, List.nil_append] at hu1
  have ht := tracked_upto hu1
  rw [List.map_map] at ht
  rw [ht]
  refine ⟨List.take_prefix _ _, ?_⟩
  intro hok
  have := hu2 () hok
  rw [hashLines_length, List.length_map] at this
  rw [List.take_of_length_le (by simpa using this)]
  rfl

/-- **C58**, phase 2 verification of arbitrary bytes: if it accepts, then there is a chain of records, each with the right hash and an
update of the one before it, whose hashes are those printed. -/
theorem C58_p2_verify_any {C : Curve F G1 G2 GT} (hC : C.Lawful) (H : Phase2.HeaderCodec) (par : Par) (b : Nat)
    (vr : Phase2.VerifyRand F) (input origin : Bytes) (lines : List String)
    (h : p2Verify C H par b vr input origin = (.ok (), lines)) :
    ∃ (d : G1) (rs : List (Phase2.Contribution G1 G2)) (xs : List F), Chain2By C d [] rs xs ∧
      trackedHashes lines = rs.map (fun r => some (C.sha (record2Body C r))) := by
  unfold p2Verify at h
  simp only [Prod.mk.injEq] at h
  obtain ⟨h, hl⟩ := h
  generalize e : (p2VerifyBody C H par b vr).run ⟨(Rd.buffered 4096 input, Rd.buffered 4096 origin), []⟩ = o at h hl
  obtain ⟨r, s'⟩ := o
  simp only at h hl
  subst h hl
  have h4 := e
  clear e
  unfold p2VerifyBody at h4
  obtain ⟨x0, s0, l0, h4⟩ := bind_lines (p := verifying) (Mute.quiet _ _) h4
  obtain ⟨x1, s1, l1, h4⟩ := bind_lines (p := verifying) (Mute.quiet _ _) h4
  obtain ⟨x2, s2, l2, h4⟩ := bind_lines (p := verifying) (Mute.quiet _ _) h4
  obtain ⟨x3, s3, l3, h4⟩ := bind_lines (p := verifying) (Mute.quiet _ _) h4
  obtain ⟨x4, s4, l4, h4⟩ := bind_lines (p := verifying) (Mute.quiet _ _) h4
  obtain ⟨x5, s5, l5, h4⟩ := bind_lines (p := verifying) (Mute.quiet _ _) h4
  obtain ⟨x6, s6, l6, h4⟩ := bind_lines (p := verifying) (Mute.quiet _ _) h4
  obtain ⟨x7, s7, l7, h4⟩ := bind_lines (p := verifying) (Mute.quiet _ _) h4
  obtain ⟨x8, s8, l8, h4⟩ := bind_lines (p := verifying) (Mute.quiet _ _) h4
  obtain ⟨x9, s9, l9, h4⟩ := bind_lines (p := verifying) (Mute.println (by decide)) h4
  obtain ⟨x10, s10, l10, h4⟩ := bind_lines (p := verifying) (Mute.quiet _ _) h4
  obtain ⟨x11, s11, l11, h4⟩ := bind_lines (p := verifying) (Mute.println (by decide)) h4
  obtain ⟨x12, s12, l12, h4⟩ := bind_lines (p := verifying) (Mute.quiet _ _) h4
  obtain ⟨x13, s13, l13, h4⟩ := bind_lines (p := verifying) (Mute.println (by simp only [String.toList_append]; rfl)) h4
  obtain ⟨fin, t, e2, h4⟩ := Go.bind_eq_ok h4
  obtain ⟨rs, xs, -, hch, -, hl⟩ := p2VerifyLoop_sound hC _ _ _ _ _ _ _ _ e2
  refine ⟨_, rs, xs, hch, ?_⟩
  have m := mute_run (p := verifying) (by mute) h4
  rw [hl, l13, l12, l11, l10, l9, l8, l7, l6, l5, l4, l3, l2, l1, l0, show linesWith verifying [] = [] from rfl, List.nil_append] at m
  have ht := tracked_upto (m := rs.length) (out := s'.out) (hs := rs.map (·.hash)) (by
    rw [m, List.take_of_length_le (by simp [hashLines_length])])
  rw [ht, List.take_of_length_le (by simp), List.map_map]
  refine List.map_congr_left fun r hr => ?_
  simp [← chain2_hash rs _ _ _ hch r hr]

end
end ZkSetup
