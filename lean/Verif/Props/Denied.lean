import Verif.Model.Denied
import Verif.Props.MeanwhileKeys
import Verif.Props.Alias
/-
C94: a command that cannot create one of its output files fails with an error and leaves all files as they were.
False for the commands with several outputs, which destroy the others first, and `sol` crashes.
-/
set_option linter.unusedSectionVars false

namespace ZkSetup

open Phase2 Cli Keys

/-- `x`, for which only some files can be created, respects this: if the outputs can be created it does the same as `y`, it succeeds only
if they can, and it changes no file that cannot be created. -/
structure Respects (may : String → Bool) (outs : List String) (x y : FS → Except Fail Unit × FS) : Prop where
  allowed : (∀ q ∈ outs, may q = true) → ∀ fs, x fs = y fs
  success : ∀ fs, (x fs).1 = .ok () → ∀ q ∈ outs, may q = true
  keeps : ∀ fs q, may q = false → (x fs).2 q = fs q

section
variable {may : String → Bool} {outs : List String}

/-- the same at one state of the files -/
structure RespectsAt (may : String → Bool) (outs : List String) (x y : Except Fail Unit × FS) (fs : FS) : Prop where
  allowed : (∀ q ∈ outs, may q = true) → x = y
  success : x.1 = .ok () → ∀ q ∈ outs, may q = true
  keeps : ∀ q, may q = false → x.2 q = fs q

theorem Respects.of {x y : FS → Except Fail Unit × FS} (h : ∀ fs, RespectsAt may outs (x fs) (y fs) fs) : Respects may outs x y :=
  ⟨fun ha fs => (h fs).allowed ha, fun fs => (h fs).success, fun fs => (h fs).keeps⟩

theorem Respects.at {x y : FS → Except Fail Unit × FS} (h : Respects may outs x y) (fs : FS) : RespectsAt may outs (x fs) (y fs) fs :=
  ⟨fun ha => h.allowed ha fs, h.success fs, h.keeps fs⟩

theorem RespectsAt.fail (e : Fail) (fs : FS) : RespectsAt may outs (.error e, fs) (.error e, fs) fs :=
  ⟨fun _ => rfl, fun h => by simp at h, fun _ _ => rfl⟩

theorem RespectsAt.none (x : Except Fail Unit) (fs : FS) : RespectsAt may [] (x, fs) (x, fs) fs :=
  ⟨fun _ => rfl, fun _ q hq => by simp at hq, fun _ _ => rfl⟩

/-- one file is created, and only this file is written -/
theorem RespectsAt.one {out : String} {fs : FS} {x : Except Fail Unit × FS} (h : ∀ q, q ≠ out → x.2 q = fs q) :
    RespectsAt may [out] (creating may out fs x) x fs := by
  unfold creating
  refine ⟨fun ha => if_pos (ha out (by simp)), fun hs q hq => ?_, fun q hq => ?_⟩
  · rw [List.mem_singleton] at hq
    subst hq
    by_contra hm
    rw [if_neg hm] at hs
    simp at hs
  · split
    · rename_i hm
      exact h q fun he => by rw [he, hm] at hq; simp at hq
    · rfl

theorem Respects.inOrder {outs' : List String} {x y x' y' : FS → Except Fail Unit × FS} (h : Respects may outs x y)
    (h' : Respects may outs' x' y') : Respects may (outs ++ outs') (inOrder x x') (inOrder y y') := by
  unfold Cli.inOrder
  refine ⟨fun ha fs => ?_, fun fs hs q hq => ?_, fun fs q hq => ?_⟩
  · rw [h.allowed (fun q hq => ha q (by simp [hq])) fs, funext (h'.allowed fun q hq => ha q (by simp [hq]))]
  · have h1 := h.success fs
    rcases hx : x fs with ⟨_ | u, fs'⟩
    · rw [hx] at hs
      simp at hs
    · rw [hx] at hs h1
      rcases List.mem_append.mp hq with hq | hq
      · exact h1 rfl q hq
      · exact h'.success fs' hs q hq
  · have h1 := h.keeps fs q hq
    rcases hx : x fs with ⟨_ | u, fs'⟩
    · rw [hx] at h1
      exact h1
    · rw [hx] at h1
      exact (h'.keeps fs' q hq).trans h1

/-- one step of a program on `NamedSt`: files that cannot be created are kept, and after a success `P` holds -/
def StepsMay (may : String → Bool) (fs : FS) (P : Prop) {α : Type} (x : Go NamedSt α) : Prop :=
  ∀ t : NamedSt, (∀ q, may q = false → t.fs q = fs q) →
    (∀ q, may q = false → (x.run t).2.fs q = fs q) ∧ ∀ a, (x.run t).1 = .ok a → P

theorem StepsMay.bind {fs : FS} {P Q : Prop} {α β : Type} {x : Go NamedSt α} {f : α → Go NamedSt β} (hx : StepsMay may fs P x)
    (hf : ∀ a, P → StepsMay may fs Q (f a)) : StepsMay may fs Q (x >>= f) := by
  intro t h
  obtain ⟨h1, h2⟩ := hx t h
  rcases hr : x.run t with ⟨r, t'⟩
  rw [hr] at h1 h2
  cases r with
  | error e =>
    rw [Go.bind_error hr]
    exact ⟨h1, fun a ha => by simp at ha⟩
  | ok a =>
    rw [Go.bind_ok hr]
    exact hf a (h2 a rfl) t' h1

theorem StepsMay.lift {fs : FS} {α : Type} (r : Except Fail α) : StepsMay may fs True (Go.lift r) := fun _ h => ⟨h, fun _ _ => trivial⟩

theorem StepsMay.still {fs : FS} {α : Type} {x : Go NamedSt α} (h : ∀ t, (x.run t).2 = t) : StepsMay may fs True x :=
  fun t ht => ⟨by rw [h]; exact ht, fun _ _ => trivial⟩

theorem StepsMay.weaken {fs : FS} {P Q : Prop} {α : Type} {x : Go NamedSt α} (h : StepsMay may fs P x) (hq : P → Q) : StepsMay may fs Q x :=
  fun t ht => ⟨(h t ht).1, fun a ha => hq ((h t ht).2 a ha)⟩

theorem StepsMay.emit {fs : FS} {out : String} (ho : may out = true) (b : Bytes) : StepsMay may fs True (NamedSt.emitPh2 out b) :=
  fun t h => ⟨fun q hq => (set_other _ _ fun he => by rw [he, ho] at hq; simp at hq).trans (h q hq), fun _ _ => trivial⟩

theorem StepsMay.append {fs : FS} {p : String} (hp : may p = true) (b : Bytes) : StepsMay may fs True (NamedSt.append p b) :=
  fun t h => ⟨fun q hq => (set_other _ _ fun he => by rw [he, hp] at hq; simp at hq).trans (h q hq), fun _ _ => trivial⟩

theorem StepsMay.create {fs : FS} (p : String) : StepsMay may fs (may p = true) (NamedSt.createMay may p) := by
  intro t h
  unfold NamedSt.createMay
  dsimp only
  split
  · rename_i hp
    exact ⟨fun q hq => (set_other _ _ fun he => by rw [he, hp] at hq; simp at hq).trans (h q hq), fun _ _ => hp⟩
  · exact ⟨h, fun a ha => by simp at ha⟩

end

section
variable {F G1 G2 GT : Type} [Field F] [AddCommGroup G1] [Module F G1] [AddCommGroup G2]
  [Module F G2] [AddCommGroup GT] [Module F GT] [DecidableEq G1] [DecidableEq G2] [DecidableEq GT]
variable {C : Curve F G1 G2 GT} {may : String → Bool}

theorem mayInit_steps (fs : FS) (E : InitEnv F) (par : Par) {inp out : String} (load : FS → Except Fail (Loaded F G1 G2))
    (ho : may out = true) : StepsMay may fs (may "srs.lag" = true ∧ may "evals" = true) (initOn (mayInit may inp out load) C E par) := by
  have a1 : ∀ b, StepsMay may fs True (NamedSt.emitPh2 out b) := fun b => StepsMay.emit ho b
  have a4 : ∀ p, StepsMay may fs True (NamedSt.contents p) := fun p => StepsMay.still fun _ => rfl
  have a5 : StepsMay may fs True (mayInit may inp out load).load := StepsMay.still fun _ => rfl
  have al : ∀ {α : Type} (r : Except Fail α), StepsMay may fs True (Go.lift r) := fun r => StepsMay.lift r
  unfold initOn
  refine StepsMay.bind (P := True) ?_ fun _ _ => StepsMay.bind (P := may "srs.lag" = true) ?_ fun _ h3 =>
    StepsMay.bind (P := may "evals" = true) ?_ fun _ h4 => StepsMay.bind (P := True) ?_ fun _ _ => StepsMay.weaken (P := True) ?_ fun _ => ⟨h3, h4⟩
  · unfold processHeaderOn
    exact a5.bind fun _ _ => (al _).bind fun _ _ => (a4 _).bind fun _ _ => (al _).bind fun _ _ => (al _).bind fun _ _ =>
      (a1 _).bind fun _ _ => StepsMay.still fun _ => rfl
  · unfold processLagrangeOn
    refine (StepsMay.create "srs.lag").bind fun _ h3 => ?_
    have a3 : ∀ b, StepsMay may fs True (NamedSt.append "srs.lag" b) := fun b => StepsMay.append h3 b
    refine StepsMay.weaken (P := True) ?_ fun _ => h3
    exact (a4 _).bind fun _ _ => (al _).bind fun _ _ => (a3 _).bind fun _ _ => (a4 _).bind fun _ _ =>
      (al _).bind fun _ _ => (a3 _).bind fun _ _ => (a4 _).bind fun _ _ => (al _).bind fun _ _ => (a3 _).bind fun _ _ =>
      (a4 _).bind fun _ _ => (al _).bind fun _ _ => a3 _
  · unfold processEvaluationsOn
    refine (a4 _).bind fun _ _ => (StepsMay.create "evals").bind fun _ h4 => ?_
    have a3 : ∀ b, StepsMay may fs True (NamedSt.append "evals" b) := fun b => StepsMay.append h4 b
    refine StepsMay.weaken (P := True) ?_ fun _ => h4
    exact (a4 _).bind fun _ _ => (al _).bind fun _ _ => (a3 _).bind fun _ _ =>
      (a3 _).bind fun _ _ => (a3 _).bind fun _ _ => a5.bind fun _ _ => (al _).bind fun _ _ => (al _).bind fun _ _ =>
      (al _).bind fun _ _ => (a3 _).bind fun _ _ => (al _).bind fun _ _ => (a3 _).bind fun _ _ => (al _).bind fun _ _ =>
      (al _).bind fun _ _ => a3 _
  · unfold processDeltaAndZOn
    exact (a4 _).bind fun _ _ => (a1 _).bind fun _ _ => (a1 _).bind fun _ _ => (al _).bind fun _ _ => (al _).bind fun _ _ => a1 _
  · have a3 : ∀ b, StepsMay may fs True (NamedSt.append "evals" b) := fun b => StepsMay.append h4 b
    unfold processPVCKKOn
    exact a5.bind fun _ _ => (a4 _).bind fun _ _ => (al _).bind fun _ _ => (al _).bind fun _ _ => (al _).bind fun _ _ =>
      (al _).bind fun _ _ => (al _).bind fun _ _ => (al _).bind fun _ _ =>
      (a1 _).bind fun _ _ => (a3 _).bind fun _ _ => (a3 _).bind fun _ _ => (a3 _).bind fun _ _ => a1 _

theorem initMay_respects (E : Env F G1) (par : Par) (inp out : String) (load : FS → Except Fail (Loaded F G1 G2)) (fs : FS) :
    RespectsAt may [out, "srs.lag", "evals"] (initMay C may E par inp out load fs) (initNamed C E par inp out load fs) fs := by
  unfold initMay initNamed
  cases openFile fs inp with
  | error e => exact RespectsAt.fail e fs
  | ok bs =>
    dsimp only
    unfold creating
    by_cases ho : may out = true
    · rw [if_pos ho]
      have h := mayInit_steps (C := C) (may := may) fs E.init par (inp := inp) load ho ⟨fs.set out [], 0⟩
        fun q hq => set_other _ _ fun he => by rw [he, ho] at hq; simp at hq
      refine ⟨fun ha => ?_, fun hs q hq => ?_, h.1⟩
      · have e : mayInit may inp out load = namedInit inp out load := by
          have : ∀ p, may p = true → NamedSt.createMay may p = NamedSt.create p := by
            intro p hp
            unfold NamedSt.createMay NamedSt.create
            simp [hp]
          unfold mayInit namedInit
          rw [this _ (ha "srs.lag" (by simp)), this _ (ha "evals" (by simp))]
        rw [e]
      · obtain ⟨h3, h4⟩ := h.2 () hs
        simp only [List.mem_cons, List.not_mem_nil, or_false] at hq
        rcases hq with rfl | rfl | rfl
        exacts [ho, h3, h4]
    · rw [if_neg ho]
      exact ⟨fun ha => absurd (ha out (by simp)) ho, fun hs => by simp at hs, fun _ _ => rfl⟩

/-- a command as it is when every file can be created -/
def execFree (C : Curve F G1 G2 GT) (E : Env F G1) (d : Draws F) (command : String) (args : List String) (fs : FS) : Except Fail Unit × FS :=
  if command = "p2n" then p2nAny C E d.par args fs
  else if command = "p2np" then p2npAny C E d.par args fs
  else exec C E d command args fs

theorem withFilesMay_respects {O : Type} {outs : List String} (ph2 : String) (body : Bytes → Bytes → Except Fail Unit × Option O)
    (create : FS → Except Fail Unit → O → Except Fail Unit × FS) (save : FS → O → FS)
    (h : ∀ fs a b o, (body a b).2 = some o → RespectsAt may outs (create fs (body a b).1 o) ((body a b).1, save fs o) fs)
    (hb : ∀ a b, (body a b).1 = .ok () → ∃ o, (body a b).2 = some o) :
    Respects may outs (withFilesMay ph2 body create) (withFiles ph2 body save) := by
  refine Respects.of fun fs => ?_
  unfold withFilesMay withFiles
  cases openFile fs ph2 with
  | error e => exact RespectsAt.fail e fs
  | ok a =>
    cases openFile fs "evals" with
    | error e => exact RespectsAt.fail e fs
    | ok b =>
      dsimp only
      have h' := h fs a b
      have hb' := hb a b
      revert h' hb'
      generalize body a b = r
      obtain ⟨r, o⟩ := r
      intro h' hb'
      cases o with
      | some o => exact h' o rfl
      | none =>
        cases r with
        | error e => exact RespectsAt.fail e fs
        | ok u =>
          obtain ⟨o, ho⟩ := hb' rfl
          simp at ho

theorem creatingAll_respects {names : List String} {x : Except Fail Unit × FS} {fs : FS} (h : ∀ q, q ∉ names → x.2 q = fs q) :
    RespectsAt may names (creatingAll may names fs x) x fs := by
  have key : ∀ (names : List String) (fs : FS), ((∀ q ∈ names, may q = true) → creatingAll may names fs x = x) ∧
      ((∃ q ∈ names, may q = false) → (creatingAll may names fs x).1 = .error denied ∧
        ∀ q, may q = false → (creatingAll may names fs x).2 q = fs q) := by
    intro names
    induction names with
    | nil => exact fun fs => ⟨fun _ => rfl, fun ⟨q, hq, _⟩ => by simp at hq⟩
    | cons p ps ih =>
      intro fs
      unfold creatingAll creating
      by_cases hp : may p = true
      · rw [if_pos hp]
        refine ⟨fun ha => (ih _).1 fun q hq => ha q (by simp [hq]), fun ⟨q, hq, hm⟩ => ?_⟩
        have hq' : q ∈ ps := by
          rcases List.mem_cons.mp hq with rfl | hq
          · rw [hp] at hm; simp at hm
          · exact hq
        obtain ⟨i1, i2⟩ := (ih (fs.set p [])).2 ⟨q, hq', hm⟩
        exact ⟨i1, fun q hq => (i2 q hq).trans (set_other _ _ fun he => by rw [he, hp] at hq; simp at hq)⟩
      · rw [if_neg hp]
        exact ⟨fun ha => absurd (ha p (by simp)) hp, fun _ => ⟨rfl, fun _ _ => rfl⟩⟩
  obtain ⟨k1, k2⟩ := key names fs
  by_cases hall : ∀ q ∈ names, may q = true
  · rw [k1 hall]
    exact ⟨fun _ => rfl, fun _ => hall, fun q hq => h q fun hn => by rw [hall q hn] at hq; simp at hq⟩
  · have hex : ∃ q ∈ names, may q = false := by
      push Not at hall
      simpa using hall
    obtain ⟨i1, i2⟩ := k2 hex
    exact ⟨fun ha => absurd ha hall, fun hs => by rw [i1] at hs; simp at hs, i2⟩

omit [DecidableEq GT] in
theorem splitVk_commitmentKey (E : KeyEnv G1) (ph2 evals : Bytes) (o : SplitVK) (h : extractSplitVK C E ph2 evals = (.ok (), some o)) :
    ∃ b, o.commitmentKey = some b := by
  unfold extractSplitVK at h
  obtain ⟨hd, r, -, s', hb, rfl⟩ := (extract_ok _ _ _ _ _ _).mp h
  unfold splitVkBody at hb
  obtain ⟨vk, s1, -, hb1⟩ := Go.bind_eq_ok hb
  obtain ⟨_, s2, -, hb2⟩ := Go.bind_eq_ok hb1
  have e : _ = s' := congrArg Prod.snd hb2
  rw [← e]
  exact ⟨_, rfl⟩

theorem creatingSplitVK_respects (session : String) (fs : FS) (r : Except Fail Unit) (o : SplitVK) (hr : r = .ok () → ∃ b, o.commitmentKey = some b) :
    RespectsAt may [session ++ ".vk.save", session ++ ".pk.CommitmentKey.save"] (creatingSplitVK may session fs r o) (r, saveSplitVK session fs o)
      fs := by
  unfold creatingSplitVK creating saveSplitVK
  by_cases h1 : may (session ++ ".vk.save") = true
  · rw [if_pos h1]
    have n1 : ∀ q, may q = false → q ≠ session ++ ".vk.save" := fun q hq he => by rw [he, h1] at hq; simp at hq
    cases ho : o.commitmentKey with
    | none =>
      dsimp only
      refine ⟨fun _ => rfl, fun hs => ?_, fun q hq => set_other _ _ (n1 q hq)⟩
      obtain ⟨b, hb⟩ := hr hs
      rw [ho] at hb
      simp at hb
    | some b =>
      dsimp only
      by_cases h2 : may (session ++ ".pk.CommitmentKey.save") = true
      · rw [if_pos h2]
        refine ⟨fun _ => rfl, fun _ q hq => ?_, fun q hq => ?_⟩
        · simp only [List.mem_cons, List.not_mem_nil, or_false] at hq
          rcases hq with rfl | rfl
          exacts [h1, h2]
        · exact (set_other _ _ fun he => by rw [he, h2] at hq; simp at hq).trans (set_other _ _ (n1 q hq))
      · rw [if_neg h2]
        exact ⟨fun ha => absurd (ha _ (by simp)) h2, fun hs => by simp at hs, fun q hq => set_other _ _ (n1 q hq)⟩
  · rw [if_neg h1]
    exact ⟨fun ha => absurd (ha _ (by simp)) h1, fun hs => by simp at hs, fun _ _ => rfl⟩

/-- All three parts of C94 that hold, for every command. -/
theorem execMay_respects (E : Env F G1) (d : Draws F) (command : String) (args : List String) (fs : FS) :
    RespectsAt may (outputs command args) (execMay C may E d command args fs) (execFree C E d command args fs) fs := by
  have frame := fun q hq => C45_frame_partial (C := C) E d command args fs q hq
  unfold execMay
  split
  · have e : execFree C E d "p1n" args fs = p1n C args fs := rfl
    rw [e]
    change ∀ q, q ∉ _ → (p1n C args fs).2 q = _ at frame
    unfold p1nMay
    split
    · rw [p1n, if_pos (by assumption)]
      exact RespectsAt.fail _ fs
    · rename_i hl
      obtain ⟨a, b, rfl⟩ := length_two (not_not.mp hl)
      cases ha : atoi (arg [a, b] 0) with
      | error e =>
        rw [p1n, if_neg hl, ha]
        exact RespectsAt.fail _ fs
      | ok power =>
        dsimp only
        split
        · rw [p1n, if_neg hl, ha]
          dsimp only
          rw [if_pos (by assumption)]
          exact RespectsAt.fail _ fs
        · exact RespectsAt.one fun q hq => frame q (by simpa [outputs] using hq)
  · have e : execFree C E d "p1c" args fs = p1c C E.batch d.par d.contribute1 args fs := rfl
    rw [e]
    change ∀ q, q ∉ _ → (p1c C E.batch d.par d.contribute1 args fs).2 q = _ at frame
    unfold p1cMay
    split
    · rw [p1c, if_pos (by assumption)]
      exact RespectsAt.fail _ fs
    · rename_i hl
      obtain ⟨a, b, rfl⟩ := length_two (not_not.mp hl)
      cases ha : openFile fs (arg [a, b] 0) with
      | error e =>
        rw [p1c, if_neg hl, ha]
        exact RespectsAt.fail _ fs
      | ok bs => exact RespectsAt.one fun q hq => frame q (by simpa [outputs] using hq)
  · have e : execFree C E d "p1t" args fs = p1t C args fs := rfl
    rw [e]
    change ∀ q, q ∉ _ → (p1t C args fs).2 q = _ at frame
    unfold p1tMay
    split
    · rw [p1t, if_pos (by assumption)]
      exact RespectsAt.fail _ fs
    · rename_i hl
      obtain ⟨a, b, c, d', rfl⟩ := length_four (not_not.mp hl)
      unfold p1t at frame ⊢
      rw [if_neg hl] at frame ⊢
      cases h2 : atoi (arg [a, b, c, d'] 2) with
      | error e => exact RespectsAt.fail _ fs
      | ok i =>
        cases h3 : atoi (arg [a, b, c, d'] 3) with
        | error e => exact RespectsAt.fail _ fs
        | ok o =>
          rw [h2, h3] at frame
          dsimp only at frame ⊢
          split
          · rw [p1tRun, if_pos (by assumption)]
            exact RespectsAt.fail _ fs
          · rename_i hio
            cases ho : openFile fs (arg [a, b, c, d'] 0) with
            | error e =>
              rw [p1tRun, if_neg hio, ho]
              exact RespectsAt.fail _ fs
            | ok bs => exact RespectsAt.one fun q hq => frame q (by simpa [outputs] using hq)
  · have e : execFree C E d "p2n" args fs = p2nAny C E d.par args fs := rfl
    rw [e]
    unfold p2nMay p2nAny
    split
    · exact RespectsAt.fail _ fs
    · rename_i hl
      obtain ⟨a, b, c, rfl⟩ := List.length_eq_three.mp (not_not.mp hl)
      exact initMay_respects E d.par a c _ fs
  · have e : execFree C E d "p2np" args fs = p2npAny C E d.par args fs := rfl
    rw [e]
    unfold p2npMay p2npAny
    split
    · exact RespectsAt.fail _ fs
    · rename_i hl
      obtain ⟨a, b, c, d', x, f, rfl⟩ := length_six (not_not.mp hl)
      cases atoi (arg [a, b, c, d', x, f] 3) with
      | error e => exact RespectsAt.fail _ fs
      | ok x1 =>
      cases atoi (arg [a, b, c, d', x, f] 4) with
      | error e => exact RespectsAt.fail _ fs
      | ok x2 =>
      cases atoi (arg [a, b, c, d', x, f] 5) with
      | error e => exact RespectsAt.fail _ fs
      | ok x3 => exact initMay_respects E d.par a c _ fs
  · have e : execFree C E d "p2c" args fs = p2c C E d.par d.contribute2 args fs := rfl
    rw [e]
    change ∀ q, q ∉ _ → (p2c C E d.par d.contribute2 args fs).2 q = _ at frame
    unfold p2cMay
    split
    · rw [p2c, if_pos (by assumption)]
      exact RespectsAt.fail _ fs
    · rename_i hl
      obtain ⟨a, b, rfl⟩ := length_two (not_not.mp hl)
      cases ha : openFile fs (arg [a, b] 0) with
      | error e =>
        rw [p2c, if_neg hl, ha]
        exact RespectsAt.fail _ fs
      | ok bs => exact RespectsAt.one fun q hq => frame q (by simpa [outputs] using hq)
  · have e : execFree C E d "key" args fs = key C E args fs := rfl
    rw [e]
    unfold keyMay key
    split
    · exact RespectsAt.fail _ fs
    · rename_i hl
      obtain ⟨a, rfl⟩ := List.length_eq_one_iff.mp (not_not.mp hl)
      have h1 : Respects may ["pk"] (withFilesMay (arg [a] 0) (Keys.extractPK C E.keys) fun fs r o => creating may "pk" fs (r, fs.set "pk" o))
          (withFiles (arg [a] 0) (Keys.extractPK C E.keys) fun fs o => fs.set "pk" o) :=
        withFilesMay_respects _ _ _ _ (fun fs x y o _ => RespectsAt.one fun q hq => set_other _ _ hq) fun x y h =>
          (extract_some _ _ _ _ _ h).imp fun _ h => by rw [extractPK, h]
      have h2 : Respects may ["vk"] (withFilesMay (arg [a] 0) (Keys.extractVK C E.keys) fun fs r o => creating may "vk" fs (r, fs.set "vk" o))
          (withFiles (arg [a] 0) (Keys.extractVK C E.keys) fun fs o => fs.set "vk" o) :=
        withFilesMay_respects _ _ _ _ (fun fs x y o _ => RespectsAt.one fun q hq => set_other _ _ hq) fun x y h =>
          (extract_some _ _ _ _ _ h).imp fun _ h => by rw [extractVK, h]
      exact (h1.inOrder h2).at fs
  · have e : execFree C E d "keys" args fs = Cli.keys C E args fs := rfl
    rw [e]
    unfold keysMay Cli.keys
    split
    · exact RespectsAt.fail _ fs
    · rename_i hl
      obtain ⟨a, b, rfl⟩ := length_two (not_not.mp hl)
      have h1 : Respects may (splitNames b) (withFilesMay (arg [a, b] 0) (Keys.extractSplitPK C E.keys) fun fs r o =>
            creatingAll may (splitNames (arg [a, b] 1)) fs (r, saveSplitPK (arg [a, b] 1) fs o))
          (withFiles (arg [a, b] 0) (Keys.extractSplitPK C E.keys) (saveSplitPK (arg [a, b] 1))) := by
        refine withFilesMay_respects _ _ _ _ (fun fs x y o _ => creatingAll_respects fun q hq => ?_) fun x y h =>
          (extract_some _ _ _ _ _ h).imp fun _ h => by rw [extractSplitPK, h]
        simp only [splitNames, List.map_cons, List.map_nil, List.mem_cons, List.not_mem_nil, or_false, not_or] at hq
        obtain ⟨h1, h2, h3, h4, h5, h6⟩ := hq
        dsimp only
        unfold saveSplitPK
        simp only [arg, List.getD_cons_succ, List.getD_cons_zero]
        rw [set_other _ _ h6, set_other _ _ h5, set_other _ _ h4, set_other _ _ h3, set_other _ _ h2, set_other _ _ h1]
      have h2 : Respects may [b ++ ".vk.save", b ++ ".pk.CommitmentKey.save"]
          (withFilesMay (arg [a, b] 0) (Keys.extractSplitVK C E.keys) (creatingSplitVK may (arg [a, b] 1)))
          (withFiles (arg [a, b] 0) (Keys.extractSplitVK C E.keys) (saveSplitVK (arg [a, b] 1))) :=
        withFilesMay_respects _ _ _ _ (fun fs x y o ho => creatingSplitVK_respects b fs _ o fun hr =>
            splitVk_commitmentKey E.keys x y o (Prod.ext hr ho)) fun x y h =>
          (extract_some _ _ _ _ _ h).imp fun _ h => by rw [extractSplitVK, h]
      exact (h1.inOrder h2).at fs
  · have e : execFree C E d "sol" args fs = sol E args fs := rfl
    rw [e]
    change ∀ q, q ∉ _ → (sol E args fs).2 q = _ at frame
    unfold solMay
    split
    · rw [sol, if_pos (by assumption)]
      exact RespectsAt.fail _ fs
    · rename_i hl
      obtain ⟨a, rfl⟩ := List.length_eq_one_iff.mp (not_not.mp hl)
      cases ha : (fs (arg [a] 0 ++ ".vk.save")).bind E.solidity with
      | none =>
        rw [sol, if_neg hl, ha]
        exact RespectsAt.fail _ fs
      | some text =>
        dsimp only
        by_cases hm : may (arg [a] 0 ++ ".sol") = true
        · rw [if_pos hm]
          refine ⟨fun _ => rfl, fun _ q hq => ?_, fun q hq => frame q fun h => ?_⟩
          · rw [List.mem_singleton.mp hq]
            exact hm
          · rw [List.mem_singleton.mp h] at hq
            exact absurd (hm.symm.trans hq) (by simp)
        · rw [if_neg hm]
          exact ⟨fun h => absurd (h _ (by simp [outputs, arg])) hm, fun hs => by simp at hs, fun _ _ => rfl⟩
  · rename_i c1 c2 c3 c4 c5 c6 c7 c8 c9
    have e : execFree C E d command args fs = exec C E d command args fs := by
      unfold execFree
      rw [if_neg c4, if_neg c5]
    have ho : outputs command args = [] := by
      unfold outputs
      split <;> simp_all
    rw [e, ho]
    rw [ho] at frame
    exact ⟨fun _ => rfl, fun _ q hq => absurd hq List.not_mem_nil, fun q _ => frame q List.not_mem_nil⟩

/-- **C94** success means that every output could be created. -/
theorem C94_success (E : Env F G1) (d : Draws F) (command : String) (args : List String) (fs : FS)
    (h : (execMay C may E d command args fs).1 = .ok ()) : ∀ q ∈ outputs command args, may q = true :=
  (execMay_respects E d command args fs).success h

/-- **C94** no command changes a file that it cannot create. -/
theorem C94_protected (E : Env F G1) (d : Draws F) (command : String) (args : List String) (fs : FS) (q : String) (hq : may q = false) :
    (execMay C may E d command args fs).2 q = fs q :=
  (execMay_respects E d command args fs).keeps q hq

/-- If the outputs can be created, it does not matter that others cannot. -/
theorem C94_allowed (E : Env F G1) (d : Draws F) (command : String) (args : List String) (fs : FS)
    (h : ∀ q ∈ outputs command args, may q = true) : execMay C may E d command args fs = execFree C E d command args fs :=
  (execMay_respects E d command args fs).allowed h

/-- A sequence of commands never changes a file that cannot be created. -/
theorem C94_session (E : Env F G1) (calls : List (Command F)) (fs : FS) (q : String) (hq : may q = false) :
    (calls.foldl (fun fs c => (execMay C may E c.draws c.name c.args fs).2) fs) q = fs q := by
  induction calls generalizing fs with
  | nil => rfl
  | cons c cs ih => exact (ih _).trans (C94_protected E c.draws c.name c.args fs q hq)

/-- **C94** for the commands with one output, except `sol`: if it cannot be created, they fail with an error and nothing is changed. -/
theorem C94_unchanged_partial (E : Env F G1) (d : Draws F) (command : String) (hc : command ∈ ["p1n", "p1c", "p1t", "p2c"]) (args : List String)
    (fs : FS) (q : String) (hq : q ∈ outputs command args) (hm : may q = false) :
    ∃ m, execMay C may E d command args fs = (.error (.err m), fs) := by
  have atoiErr : ∀ {s : String} {e : Fail}, atoi s = .error e → ∃ m, e = .err m := by
    intro s e h
    unfold atoi at h
    split at h
    · split at h
      · simp at h
      · exact ⟨_, (Except.error.inj h).symm⟩
    · exact ⟨_, (Except.error.inj h).symm⟩
  have openErr : ∀ {s : String} {e : Fail}, openFile fs s = .error e → ∃ m, e = .err m := by
    intro s e h
    unfold openFile at h
    split at h
    · simp at h
    · exact ⟨_, (Except.error.inj h).symm⟩
  simp only [List.mem_cons, List.not_mem_nil, or_false] at hc
  rcases hc with rfl | rfl | rfl | rfl
  · change ∃ m, p1nMay C may args fs = _
    unfold p1nMay
    split
    · exact ⟨_, rfl⟩
    · rename_i hl
      obtain ⟨a, b, rfl⟩ := length_two (not_not.mp hl)
      obtain rfl := List.mem_singleton.mp hq
      cases ha : atoi (arg [a, q] 0) with
      | error e =>
        obtain ⟨m, rfl⟩ := atoiErr ha
        exact ⟨m, rfl⟩
      | ok power =>
        dsimp only
        split
        · exact ⟨_, rfl⟩
        · exact ⟨_, if_neg (by rw [show arg [a, q] 1 = q from rfl, hm]; simp)⟩
  · change ∃ m, p1cMay C may E.batch d.par d.contribute1 args fs = _
    unfold p1cMay
    split
    · exact ⟨_, rfl⟩
    · rename_i hl
      obtain ⟨a, b, rfl⟩ := length_two (not_not.mp hl)
      obtain rfl := List.mem_singleton.mp hq
      cases ha : openFile fs (arg [a, q] 0) with
      | error e =>
        obtain ⟨m, rfl⟩ := openErr ha
        exact ⟨m, rfl⟩
      | ok bs => exact ⟨_, if_neg (by rw [show arg [a, q] 1 = q from rfl, hm]; simp)⟩
  · change ∃ m, p1tMay C may args fs = _
    unfold p1tMay
    split
    · exact ⟨_, rfl⟩
    · rename_i hl
      obtain ⟨a, b, c, d', rfl⟩ := length_four (not_not.mp hl)
      obtain rfl := List.mem_singleton.mp hq
      cases h2 : atoi (arg [a, q, c, d'] 2) with
      | error e =>
        obtain ⟨m, rfl⟩ := atoiErr h2
        exact ⟨m, rfl⟩
      | ok i =>
        cases h3 : atoi (arg [a, q, c, d'] 3) with
        | error e =>
          obtain ⟨m, rfl⟩ := atoiErr h3
          exact ⟨m, rfl⟩
        | ok o =>
          dsimp only
          split
          · exact ⟨_, rfl⟩
          · cases ho : openFile fs (arg [a, q, c, d'] 0) with
            | error e =>
              obtain ⟨m, rfl⟩ := openErr ho
              exact ⟨m, rfl⟩
            | ok bs => exact ⟨_, if_neg (by rw [show arg [a, q, c, d'] 1 = q from rfl, hm]; simp)⟩
  · change ∃ m, p2cMay C may E d.par d.contribute2 args fs = _
    unfold p2cMay
    split
    · exact ⟨_, rfl⟩
    · rename_i hl
      obtain ⟨a, b, rfl⟩ := length_two (not_not.mp hl)
      obtain rfl := List.mem_singleton.mp hq
      cases ha : openFile fs (arg [a, q] 0) with
      | error e =>
        obtain ⟨m, rfl⟩ := openErr ha
        exact ⟨m, rfl⟩
      | ok bs => exact ⟨_, if_neg (by rw [show arg [a, q] 1 = q from rfl, hm]; simp)⟩

/-- `sol` changes nothing either, but if the verifying key can be read it crashes. -/
theorem C94_sol (E : Env F G1) (d : Draws F) (session : String) (fs : FS) (hm : may (session ++ ".sol") = false) :
    (execMay C may E d "sol" [session] fs).2 = fs ∧ ∃ m, (execMay C may E d "sol" [session] fs).1 = .error (.panic m) := by
  change (solMay may E [session] fs).2 = fs ∧ ∃ m, (solMay may E [session] fs).1 = _
  unfold solMay
  rw [if_neg (by simp), show arg [session] 0 = session from rfl]
  cases (fs (session ++ ".vk.save")).bind E.solidity with
  | none => exact ⟨rfl, _, rfl⟩
  | some text =>
    dsimp only
    rw [if_neg (by rw [hm]; simp)]
    exact ⟨rfl, _, rfl⟩

/-- If only `vk` cannot be created, a `key` that would succeed leaves the new `pk` beside the old `vk`. -/
theorem C94_key (E : Env F G1) (d : Draws F) (path : String) (fs : FS) (ph2 evals pk vk : Bytes) (h1 : fs path = some ph2)
    (h2 : fs "evals" = some evals) (hpath : path ≠ "pk") (hpk : extractPK C E.keys ph2 evals = (.ok (), some pk))
    (hvk : extractVK C E.keys ph2 evals = (.ok (), some vk)) (m1 : may "pk" = true) (m2 : may "vk" = false) :
    execMay C may E d "key" [path] fs = (.error denied, fs.set "pk" pk) := by
  change keyMay C may E [path] fs = _
  simp only [keyMay, inOrder, withFilesMay, openFile, arg, List.getD_cons_zero, h1, h2, hpk, set_other _ _ hpath,
    set_other _ _ (show "evals" ≠ "pk" by decide), hvk, creating, m1, m2, if_true]
  rfl

/-- If only `.pk.CommitmentKey.save` cannot be created, a `keys` that would succeed fails with all other files complete. -/
theorem C94_keys (E : Env F G1) (d : Draws F) (path session : String) (fs : FS) (ph2 evals : Bytes) (pk : SplitPK) (vk : SplitVK)
    (h1 : fs path = some ph2) (h2 : fs "evals" = some evals) (hpath : path ∉ splitNames session)
    (hpk : extractSplitPK C E.keys ph2 evals = (.ok (), some pk)) (hvk : extractSplitVK C E.keys ph2 evals = (.ok (), some vk))
    (hm : ∀ q, may q = false ↔ q = session ++ ".pk.CommitmentKey.save") :
    execMay C may E d "keys" [path, session] fs = (.error denied, (saveSplitPK session fs pk).set (session ++ ".vk.save") vk.vk) := by
  change keysMay C may E [path, session] fs = _
  have m0 : ∀ {a : String}, a ≠ ".pk.CommitmentKey.save" → may (session ++ a) = true := by
    intro a ha
    rw [← Bool.not_eq_false, hm]
    exact session_ne session ha
  have hall : creatingAll may (splitNames session) fs (.ok (), saveSplitPK session fs pk) = (.ok (), saveSplitPK session fs pk) := by
    refine (creatingAll_respects (may := may) (names := splitNames session) fun q hq => splitPK_elsewhere _ _ _ _ hq).allowed fun q hq => ?_
    simp only [splitNames, List.map_cons, List.map_nil, List.mem_cons, List.not_mem_nil, or_false] at hq
    rcases hq with rfl | rfl | rfl | rfl | rfl | rfl <;> exact m0 (by decide)
  have hev : saveSplitPK session fs pk "evals" = some evals := by
    refine (splitPK_elsewhere _ _ _ _ ?_).trans h2
    simp only [List.map_cons, List.map_nil, List.mem_cons, List.not_mem_nil, or_false, not_or]
    exact ⟨evals_ne _ (by decide), evals_ne _ (by decide), evals_ne _ (by decide), evals_ne _ (by decide), evals_ne _ (by decide),
      evals_ne _ (by decide)⟩
  have hp : saveSplitPK session fs pk path = some ph2 := (splitPK_elsewhere _ _ _ _ hpath).trans h1
  obtain ⟨b, hb⟩ := splitVk_commitmentKey E.keys ph2 evals vk hvk
  unfold keysMay
  rw [if_neg (by simp)]
  simp only [arg, List.getD_cons_zero, List.getD_cons_succ, inOrder, withFilesMay, openFile, h1, h2, hpk, hall, hp, hev, hvk, creatingSplitVK, hb,
    creating, m0 (a := ".vk.save") (by decide), (hm _).mpr rfl, if_true]
  rfl

/-- what a program can do to the phase 2 file: from `I` it comes to `J`, whether it succeeds or not -/
def Moves (I J : NamedSt → Prop) {α : Type} (x : Go NamedSt α) : Prop := ∀ t, I t → J (x.run t).2

theorem Moves.before {I J : NamedSt → Prop} (hIJ : ∀ t, I t → J t) {α β : Type} {x : Go NamedSt α} {f : α → Go NamedSt β} (hx : Stays I x)
    (hf : ∀ a, Moves I J (f a)) : Moves I J (x >>= f) := by
  intro t h
  have h' := hx t h
  rcases hr : x.run t with ⟨r, t'⟩
  rw [hr] at h'
  cases r with
  | error e =>
    rw [Go.bind_error hr]
    exact hIJ _ h'
  | ok a =>
    rw [Go.bind_ok hr]
    exact hf a t' h'

theorem Moves.after {I J : NamedSt → Prop} {α β : Type} {x : Go NamedSt α} {f : α → Go NamedSt β} (hx : Moves I J x)
    (hf : ∀ a, Stays J (f a)) : Moves I J (x >>= f) := by
  intro t h
  have h' := hx t h
  rcases hr : x.run t with ⟨r, t'⟩
  rw [hr] at h'
  cases r with
  | error e =>
    rw [Go.bind_error hr]
    exact h'
  | ok a =>
    rw [Go.bind_ok hr]
    exact hf a t' h'

/-- **C94** `p2n` when only `evals` cannot be created, for any files: of the phase 2 file there is nothing left but, at most, a new
header. -/
theorem C94_p2n_lost (E : Env F G1) (d : Draws F) (inp cs out : String) (fs : FS) (bs : Bytes) (hi : fs inp = some bs) (ho : out ≠ "srs.lag")
    (hm : ∀ q, may q = false ↔ q = "evals") (hoe : out ≠ "evals") :
    (execMay C may E d "p2n" [inp, cs, out] fs).1 ≠ .ok () ∧
      ((execMay C may E d "p2n" [inp, cs, out] fs).2 out = some [] ∨
        ∃ h, (execMay C may E d "p2n" [inp, cs, out] fs).2 out = some (E.init.header.enc h)) := by
  refine ⟨fun h => ?_, ?_⟩
  · have := C94_success E d "p2n" [inp, cs, out] fs h "evals" (by simp [outputs])
    rw [(hm "evals").mpr rfl] at this
    simp at this
  change (p2nMay C may E d.par [inp, cs, out] fs).2 out = some [] ∨ ∃ h, (p2nMay C may E d.par [inp, cs, out] fs).2 out = _
  have hmo : may out = true := by
    rw [← Bool.not_eq_false, hm]
    exact hoe
  have e1 : p2nMay C may E d.par [inp, cs, out] fs = initMay C may E d.par inp out (loadR1CS E cs) fs := rfl
  rw [e1]
  unfold initMay openFile
  rw [hi]
  dsimp only
  unfold creating
  rw [if_pos hmo]
  dsimp only
  let I : NamedSt → Prop := fun t => t.fs out = some [] ∧ t.off = 0
  let J : NamedSt → Prop := fun t => t.fs out = some [] ∨ ∃ h, t.fs out = some (E.init.header.enc h)
  have hIJ : ∀ t, I t → J t := fun t h => .inl h.1
  have still : ∀ {K : NamedSt → Prop} {α : Type} {x : Go NamedSt α}, (∀ t, (x.run t).2 = t) → Stays K x := fun h t ht => by rw [h]; exact ht
  have main : Moves I J (initOn (mayInit may inp out (loadR1CS E cs)) C E.init d.par) := by
    unfold initOn
    refine Moves.after ?_ fun _ => Stays.bind ?_ fun _ => ?_
    · unfold processHeaderOn
      refine Moves.before hIJ (still fun _ => rfl) fun r => Moves.before hIJ (Stays.lift _) fun dm => Moves.before hIJ (still fun _ => rfl) fun _ =>
        Moves.before hIJ (Stays.lift _) fun _ => Moves.before hIJ (Stays.lift _) fun _ => Moves.after ?_ fun _ => fun _ h => h
      rintro t ⟨h1, h2⟩
      change (t.fs.set out _) out = _ ∨ ∃ h, (t.fs.set out _) out = _
      rw [set_self, h2]
      unfold old
      rw [h1]
      unfold writeAt
      split
      · exact .inl rfl
      · refine .inr ⟨circuitHeader r.base r.nb dm, congrArg some ?_⟩
        simp [Phase2.Header.write]
    · have a3 : ∀ b, Stays J (NamedSt.append "srs.lag" b) := fun b t h => by
        change (t.fs.set "srs.lag" _) out = _ ∨ ∃ h, (t.fs.set "srs.lag" _) out = _
        rw [set_other _ _ ho]
        exact h
      have a2 : Stays J (NamedSt.createMay may "srs.lag") := fun t h => by
        unfold NamedSt.createMay
        dsimp only
        split
        · change (t.fs.set "srs.lag" _) out = _ ∨ ∃ h, (t.fs.set "srs.lag" _) out = _
          rw [set_other _ _ ho]
          exact h
        · exact h
      have a4 : ∀ p, Stays J (NamedSt.contents p) := fun p => still fun _ => rfl
      unfold processLagrangeOn
      exact a2.bind fun _ => (a4 _).bind fun _ => (Stays.lift _).bind fun _ => (a3 _).bind fun _ => (a4 _).bind fun _ =>
        (Stays.lift _).bind fun _ => (a3 _).bind fun _ => (a4 _).bind fun _ => (Stays.lift _).bind fun _ => (a3 _).bind fun _ =>
        (a4 _).bind fun _ => (Stays.lift _).bind fun _ => a3 _
    · intro t h
      have hd : (NamedSt.createMay may "evals").run t = (.error denied, t) := by
        unfold NamedSt.createMay
        dsimp only
        rw [if_neg (by rw [(hm _).mpr rfl]; simp)]
      have hev : ∀ h1 h2, (processEvaluationsOn (mayInit may inp out (loadR1CS E cs)) C h1 h2).run t = (.error denied, t) := by
        intro h1 h2
        unfold processEvaluationsOn
        rw [Go.bind_ok (a := old t.fs "srs.lag") (s' := t) rfl]
        exact Go.bind_error hd
      rw [Go.bind_error (hev _ _)]
      exact h
  exact main _ ⟨set_self _ _ _, rfl⟩

end

namespace Toy

/-- every file but one can be created -/
def allBut (p : String) (q : String) : Bool := q != p

/-- the toy files after `p2n srs one ph2` and `key ph2` -/
def done : FS := (execAll curve cliEnv [⟨draws, "p2n", ["srs", "one", "ph2"]⟩, ⟨draws, "key", ["ph2"]⟩, ⟨draws, "keys", ["ph2", "s"]⟩] files)

/-- one command on these files, when one file cannot be created -/
def without (p : String) (name : String) (args : List String) : Except Fail Unit × FS := execMay curve (allBut p) cliEnv draws name args done

end Toy

/-- **C94** is false: `p2n` fails because `evals` cannot be created, and the phase 2 file of that name and `srs.lag` are lost; `keys` fails
because its fourth file cannot be created, and the first three are empty afterwards; `sol` crashes. -/
theorem C94_false :
    (Toy.isOk (Toy.without "evals" "p2n" ["srs", "two", "ph2"]) = false ∧ (Toy.without "evals" "p2n" ["srs", "two", "ph2"]).2 "ph2" ≠ Toy.done "ph2") ∧
    (Toy.isOk (Toy.without "s.pk.Z.save" "keys" ["ph2", "s"]) = false ∧ Toy.done "s.pk.A.save" ≠ some [] ∧
      (Toy.without "s.pk.Z.save" "keys" ["ph2", "s"]).2 "s.pk.A.save" = some []) ∧
    ∃ m, (Toy.without "s.sol" "sol" ["s"]).1 = .error (.panic m) :=
  ⟨by decide +kernel, by decide +kernel, (C94_sol Toy.cliEnv Toy.draws "s" Toy.done (by decide)).2⟩

/-- the hypotheses of the theorems: an output that can be created, and one that cannot -/
example : Toy.isOk (Toy.without "elsewhere" "p2c" ["ph2", "next"]) = true := by decide +kernel

example : ∀ q ∈ outputs "p2c" ["ph2", "next"], Toy.allBut "elsewhere" q = true :=
  C94_success (C := Toy.curve) Toy.cliEnv Toy.draws "p2c" ["ph2", "next"] Toy.done (by
    have h : Toy.isOk (Toy.without "elsewhere" "p2c" ["ph2", "next"]) = true := by decide +kernel
    revert h
    unfold Toy.isOk Toy.without
    split <;> simp_all)

example : ∃ m, Toy.without "next" "p2c" ["ph2", "next"] = (.error (.err m), Toy.done) :=
  C94_unchanged_partial Toy.cliEnv Toy.draws "p2c" (by simp) ["ph2", "next"] Toy.done "next" (by simp [outputs]) (by decide)

example : Toy.without "elsewhere" "p2n" ["srs", "two", "ph2"] = execFree Toy.curve Toy.cliEnv Toy.draws "p2n" ["srs", "two", "ph2"] Toy.done :=
  C94_allowed (C := Toy.curve) (may := Toy.allBut "elsewhere") Toy.cliEnv Toy.draws "p2n" ["srs", "two", "ph2"] Toy.done (by decide)

example : (Toy.without "evals" "p2n" ["srs", "two", "ph2"]).2 "evals" = Toy.done "evals" := by
  unfold Toy.without
  exact C94_protected (C := Toy.curve) (may := Toy.allBut "evals") Toy.cliEnv Toy.draws "p2n" ["srs", "two", "ph2"] Toy.done "evals" (by decide)

/-- the hypotheses of `C94_key` -/
example : Toy.done "ph2" = some (old Toy.done "ph2") ∧ Toy.done "evals" = some (old Toy.done "evals") ∧
    (extractPK Toy.curve Toy.cliEnv.keys (old Toy.done "ph2") (old Toy.done "evals")).2 = some (old Toy.done "pk") ∧
    Toy.isOk ((extractPK Toy.curve Toy.cliEnv.keys (old Toy.done "ph2") (old Toy.done "evals")).1, Toy.done) = true ∧
    Toy.isOk ((extractVK Toy.curve Toy.cliEnv.keys (old Toy.done "ph2") (old Toy.done "evals")).1, Toy.done) = true ∧
    Toy.allBut "vk" "pk" = true ∧ Toy.allBut "vk" "vk" = false ∧ Toy.isOk (Toy.without "vk" "key" ["ph2"]) = false := by decide +kernel

theorem Toy.allBut_false (p q : String) : Toy.allBut p q = false ↔ q = p := by simp [Toy.allBut]

example : (Toy.without "evals" "p2n" ["srs", "two", "ph2"]).2 "ph2" = some [] ∨
    ∃ h, (Toy.without "evals" "p2n" ["srs", "two", "ph2"]).2 "ph2" = some (Toy.cliEnv.init.header.enc h) := by
  have h1 : Toy.done "srs" = some (old Toy.done "srs") := by decide +kernel
  unfold Toy.without
  exact (C94_p2n_lost (C := Toy.curve) (may := Toy.allBut "evals") Toy.cliEnv Toy.draws "srs" "two" "ph2" Toy.done _ h1 (by decide)
    (Toy.allBut_false _) (by decide)).2

/-- `C94_keys` on the toy files -/
example (pk : SplitPK) (vk : SplitVK)
    (h1 : extractSplitPK Toy.curve Toy.cliEnv.keys (old Toy.done "ph2") (old Toy.done "evals") = (.ok (), some pk))
    (h2 : extractSplitVK Toy.curve Toy.cliEnv.keys (old Toy.done "ph2") (old Toy.done "evals") = (.ok (), some vk)) :
    Toy.without "s.pk.CommitmentKey.save" "keys" ["ph2", "s"] = (.error denied, (saveSplitPK "s" Toy.done pk).set "s.vk.save" vk.vk) := by
  have e1 : Toy.done "ph2" = some (old Toy.done "ph2") := by decide +kernel
  have e2 : Toy.done "evals" = some (old Toy.done "evals") := by decide +kernel
  unfold Toy.without
  exact C94_keys (C := Toy.curve) (may := Toy.allBut "s.pk.CommitmentKey.save") Toy.cliEnv Toy.draws "ph2" "s" Toy.done _ _ pk vk e1 e2
    (by decide) h1 h2 (Toy.allBut_false _)

/-- where both extractions succeed -/
example : Toy.isOk ((extractSplitPK Toy.curve Toy.cliEnv.keys (old Toy.done "ph2") (old Toy.done "evals")).1, Toy.done) = true ∧
    Toy.isOk ((extractSplitVK Toy.curve Toy.cliEnv.keys (old Toy.done "ph2") (old Toy.done "evals")).1, Toy.done) = true := by decide +kernel

end ZkSetup
