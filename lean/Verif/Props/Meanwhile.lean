import Verif.Model.Meanwhile
import Verif.Props.AliasInit
/-
C92: a `p2n` is not affected by commands for other files that run in the same directory at the same time.
False: another `p2n` writes `srs.lag`, and the first one goes on with it and reports success.
-/
set_option linter.unusedSectionVars false

namespace ZkSetup

open Phase2 Cli
open Phase1 (makeLen goPow2)

/-- what the others do leaves the files of the list alone -/
def LeavesAlone (g : Nat → FS → FS) (files : List String) : Prop := ∀ n fs q, q ∈ files → g n fs q = fs q

/-- the same contents of the files of the list, and the same position -/
structure SameOn (files : List String) (s : NamedSt) (t : BusySt) : Prop where
  files : ∀ q ∈ files, t.st.fs q = s.fs q
  off : t.st.off = s.off

/-- what the others make of the files in `n` steps -/
def others (g : Nat → FS → FS) : Nat → FS → FS
  | 0, fs => fs
  | n + 1, fs => g n (others g n fs)

section
variable {F G1 G2 GT : Type} [Field F] [AddCommGroup G1] [Module F G1] [AddCommGroup G2]
  [Module F G2] [AddCommGroup GT] [Module F GT]
variable {C : Curve F G1 G2 GT} {files : List String} {g : Nat → FS → FS}

theorem SameOn.disturb (hg : LeavesAlone g files) {α : Type} {x : Go NamedSt α}
    (hx : ∀ s t : NamedSt, (∀ q ∈ files, t.fs q = s.fs q) → t.off = s.off →
      (x.run t).1 = (x.run s).1 ∧ (∀ q ∈ files, (x.run t).2.fs q = (x.run s).2.fs q) ∧ (x.run t).2.off = (x.run s).2.off) :
    Alike (SameOn files) (SameOn files) (SameOn files) x (disturb g x) := by
  intro s t h
  obtain ⟨h1, h2, h3⟩ := hx s { t.st with fs := g t.time t.st.fs } (fun q hq => (hg _ _ q hq).trans (h.files q hq)) h.off
  exact ⟨h1, fun _ => ⟨h2, h3⟩, fun _ => ⟨h2, h3⟩⟩

theorem SameOn.old {s t : FS} (h : ∀ q ∈ files, t q = s q) {p : String} (hp : p ∈ files) : Cli.old t p = Cli.old s p := by
  simp only [Cli.old]
  rw [h p hp]

theorem SameOn.set {s t : FS} (h : ∀ q ∈ files, t q = s q) (p : String) (b : Bytes) : ∀ q ∈ files, t.set p b q = s.set p b q := by
  intro q hq
  simp only [FS.set]
  split
  · rfl
  · exact h q hq

theorem SameOn.emitPh2 (hg : LeavesAlone g files) {out : String} (ho : out ∈ files) (b : Bytes) :
    Alike (SameOn files) (SameOn files) (SameOn files) (NamedSt.emitPh2 out b) (Cli.disturb g (NamedSt.emitPh2 out b)) := by
  refine SameOn.disturb hg fun s t h1 h2 => ⟨rfl, ?_, ?_⟩
  · simp only [NamedSt.emitPh2]
    rw [SameOn.old h1 ho, h2]
    exact SameOn.set h1 _ _
  · simp only [NamedSt.emitPh2]
    rw [h2]

theorem SameOn.create (hg : LeavesAlone g files) (path : String) :
    Alike (SameOn files) (SameOn files) (SameOn files) (NamedSt.create path) (Cli.disturb g (NamedSt.create path)) :=
  SameOn.disturb hg fun _ _ h1 h2 => ⟨rfl, SameOn.set h1 _ _, h2⟩

theorem SameOn.append (hg : LeavesAlone g files) {path : String} (hp : path ∈ files) (b : Bytes) :
    Alike (SameOn files) (SameOn files) (SameOn files) (NamedSt.append path b) (Cli.disturb g (NamedSt.append path b)) := by
  refine SameOn.disturb hg fun s t h1 h2 => ⟨rfl, ?_, h2⟩
  simp only [NamedSt.append]
  rw [SameOn.old h1 hp]
  exact SameOn.set h1 _ _

theorem SameOn.contents (hg : LeavesAlone g files) {path : String} (hp : path ∈ files) :
    Alike (SameOn files) (SameOn files) (SameOn files) (NamedSt.contents path) (Cli.disturb g (NamedSt.contents path)) := by
  refine SameOn.disturb hg fun s t h1 h2 => ⟨?_, h1, h2⟩
  simp only [NamedSt.contents]
  rw [SameOn.old h1 hp]

theorem SameOn.init (hg : LeavesAlone g files) (E : InitEnv F) (par : Par) {inp out : String} (load : FS → Except Fail (Loaded F G1 G2))
    (hl : ∀ s t : FS, (∀ q ∈ files, t q = s q) → load t = load s) (h1 : inp ∈ files) (h2 : out ∈ files) (h3 : "srs.lag" ∈ files)
    (h4 : "evals" ∈ files) : Alike (SameOn files) (SameOn files) (SameOn files) (initOn (namedInit inp out load) C E par)
      (initOn (busyInit g inp out load) C E par) := by
  have hT : ∀ s t, SameOn files s t → SameOn files s t := fun _ _ h => h
  have hload : Alike (SameOn files) (SameOn files) (SameOn files) (namedInit inp out load).load (busyInit g inp out load).load :=
    SameOn.disturb hg fun s t q1 q2 => ⟨hl s.fs t.fs q1, q1, q2⟩
  unfold initOn
  exact (processHeader_alike hT E.header hload (SameOn.contents hg h1) (SameOn.emitPh2 hg h2)).bind fun _ =>
    (processLagrange_alike hT C par E.dom _ _ (SameOn.create hg _) (SameOn.contents hg h1) (SameOn.append hg h3)).bind fun _ =>
    (processEvaluations_alike hT C _ _ (SameOn.contents hg h3) (SameOn.create hg _) (SameOn.contents hg h1) (SameOn.append hg h4) hload).bind
      fun _ =>
    (processDeltaAndZ_alike hT C _ (SameOn.contents hg h1) (SameOn.emitPh2 hg h2)).bind fun _ =>
    processPVCKK_alike hT C E.cmtBytes _ hload (SameOn.contents hg h3) fun a b c d =>
      (SameOn.emitPh2 hg h2 _).bind fun _ => (SameOn.append hg h4 _).bind fun _ => (SameOn.append hg h4 _).bind fun _ =>
      (SameOn.append hg h4 _).bind fun _ => SameOn.emitPh2 hg h2 _

/-- the files that `p2n` reads and writes -/
def usedFiles (inp cs out : String) : List String := [inp, cs, out, "srs.lag", "evals"]

/-- **C92** if the others leave alone the files that `p2n` uses, of which two have fixed names: the result and these files are the same as
without them. -/
theorem C92_p2n_partial (E : Env F G1) (par : Par) (inp cs out : String) (hg : LeavesAlone g (usedFiles inp cs out)) (fs : FS) :
    (p2nBusy C E par g [inp, cs, out] fs).1 = (p2nAny C E par [inp, cs, out] fs).1 ∧
      ∀ q ∈ usedFiles inp cs out, (p2nBusy C E par g [inp, cs, out] fs).2.1 q = (p2nAny C E par [inp, cs, out] fs).2 q := by
  have e1 : p2nBusy C E par g [inp, cs, out] fs = initBusy C E par g inp out (loadR1CS E cs) fs := rfl
  have e2 : p2nAny C E par [inp, cs, out] fs = initNamed C E par inp out (loadR1CS E cs) fs := rfl
  rw [e1, e2]
  unfold initBusy initNamed
  cases openFile fs inp with
  | error e => exact ⟨rfl, fun _ _ => rfl⟩
  | ok b =>
    have hl : ∀ s t : FS, (∀ q ∈ usedFiles inp cs out, t q = s q) →
        (loadR1CS E cs t : Except Fail (Loaded F G1 G2)) = loadR1CS E cs s := by
      intro s t h
      simp only [loadR1CS, openFile]
      rw [h cs (by simp [usedFiles])]
    have h := SameOn.init (C := C) hg E.init par (inp := inp) (out := out) (loadR1CS E cs) hl (by simp [usedFiles]) (by simp [usedFiles])
      (by simp [usedFiles]) (by simp [usedFiles]) ⟨fs.set out [], 0⟩ ⟨⟨fs.set out [], 0⟩, 0⟩ ⟨fun _ _ => rfl, rfl⟩
    refine ⟨h.1, ?_⟩
    cases hx : ((initOn (namedInit inp out (loadR1CS E cs)) C E.init par).run ⟨fs.set out [], 0⟩).1 with
    | ok a => exact (h.2.1 ⟨a, hx⟩).files
    | error e => exact (h.2.2 ⟨e, hx⟩).files

/-- the files that `p2np` reads and writes, apart from those of the session -/
def usedFilesParted (inp out : String) : List String := [inp, out, "srs.lag", "evals"]

/-- **C92** for `p2np`; that the others leave alone the files of the session is part of the model. -/
theorem C92_p2np_partial (E : Env F G1) (par : Par) (inp session out n m b : String) (hg : LeavesAlone g (usedFilesParted inp out)) (fs : FS) :
    (p2npBusy C E par g [inp, session, out, n, m, b] fs).1 = (p2npAny C E par [inp, session, out, n, m, b] fs).1 ∧
      ∀ q ∈ usedFilesParted inp out,
        (p2npBusy C E par g [inp, session, out, n, m, b] fs).2.1 q = (p2npAny C E par [inp, session, out, n, m, b] fs).2 q := by
  have ei : arg [inp, session, out, n, m, b] 0 = inp := rfl
  have eo : arg [inp, session, out, n, m, b] 2 = out := rfl
  unfold p2npBusy p2npAny
  rw [if_neg (by simp), if_neg (by simp), ei, eo]
  cases atoi (arg [inp, session, out, n, m, b] 3) with
  | error e => exact ⟨rfl, fun _ _ => rfl⟩
  | ok x1 =>
  cases atoi (arg [inp, session, out, n, m, b] 4) with
  | error e => exact ⟨rfl, fun _ _ => rfl⟩
  | ok x2 =>
  cases atoi (arg [inp, session, out, n, m, b] 5) with
  | error e => exact ⟨rfl, fun _ _ => rfl⟩
  | ok x3 =>
  unfold initBusy initNamed
  cases openFile fs inp with
  | error e => exact ⟨rfl, fun _ _ => rfl⟩
  | ok bs =>
    dsimp only
    generalize hld : (fun _ => Except.ok (.ofParted (E.parted (fs.set out []) (arg [inp, session, out, n, m, b] 1) x2 x3) x1) :
      FS → Except Fail (Loaded F G1 G2)) = load
    have h := SameOn.init (C := C) hg E.init par (inp := inp) (out := out) load (fun _ _ _ => by rw [← hld]) (by simp [usedFilesParted])
      (by simp [usedFilesParted]) (by simp [usedFilesParted]) (by simp [usedFilesParted]) ⟨fs.set out [], 0⟩ ⟨⟨fs.set out [], 0⟩, 0⟩
      ⟨fun _ _ => rfl, rfl⟩
    refine ⟨h.1, ?_⟩
    cases hx : ((initOn (namedInit inp out load) C E.init par).run ⟨fs.set out [], 0⟩).1 with
    | ok a => exact (h.2.1 ⟨a, hx⟩).files
    | error e => exact (h.2.2 ⟨e, hx⟩).files

/-- With a wrong number of arguments both fail at once. -/
theorem C92_args (E : Env F G1) (par : Par) (args : List String) (fs : FS) :
    (args.length ≠ 3 → p2nBusy C E par g args fs = ((p2nAny C E par args fs).1, fs, 0)) ∧
    (args.length ≠ 6 → p2npBusy C E par g args fs = ((p2npAny C E par args fs).1, fs, 0)) := by
  refine ⟨fun h => ?_, fun h => ?_⟩
  · rw [p2nBusy, p2nAny, if_pos h, if_pos h]; rfl
  · rw [p2npBusy, p2npAny, if_pos h, if_pos h]; rfl

/-- the others do not look at the files of the list (for what they write elsewhere) -/
def Ignores (g : Nat → FS → FS) (files : List String) : Prop :=
  ∀ n fs fs', (∀ q, q ∉ files → fs q = fs' q) → ∀ q, q ∉ files → g n fs q = g n fs' q

/-- the program keeps the property of the state, whether it succeeds or not -/
def Stays {σ α : Type} (I : σ → Prop) (x : Go σ α) : Prop := ∀ t, I t → I (x.run t).2

theorem Stays.bind {σ α β : Type} {I : σ → Prop} {x : Go σ α} {f : α → Go σ β} (hx : Stays I x) (hf : ∀ a, Stays I (f a)) : Stays I (x >>= f) := by
  intro t h
  rcases hr : x.run t with ⟨r, t'⟩
  have h' := hx t h
  rw [hr] at h'
  cases r with
  | error e =>
    rw [Go.bind_error hr]
    exact h'
  | ok a =>
    rw [Go.bind_ok hr]
    exact hf a t' h'

theorem Stays.lift {σ α : Type} {I : σ → Prop} (r : Except Fail α) : Stays I (Go.lift r) := fun _ h => h

/-- outside the list the files are as the others alone would have made them -/
def AsOthers (g : Nat → FS → FS) (files : List String) (fs : FS) (t : BusySt) : Prop := ∀ q, q ∉ files → t.st.fs q = others g t.time fs q

theorem AsOthers.disturb {α : Type} {x : Go NamedSt α} {fs : FS} (hg : Ignores g files)
    (hx : ∀ (s : NamedSt) q, q ∉ files → (x.run s).2.fs q = s.fs q) : Stays (AsOthers g files fs) (Cli.disturb g x) := by
  intro t h q hq
  exact (hx _ q hq).trans (hg _ _ _ h q hq)

theorem AsOthers.init {fs : FS} (hg : Ignores g files) (E : InitEnv F) (par : Par) {inp out : String} (load : FS → Except Fail (Loaded F G1 G2))
    (h2 : out ∈ files) (h3 : "srs.lag" ∈ files) (h4 : "evals" ∈ files) :
    Stays (AsOthers g files fs) (initOn (busyInit g inp out load) C E par) := by
  have hne : ∀ {p q : String}, p ∈ files → q ∉ files → q ≠ p := fun h1 h2 h => h2 (h ▸ h1)
  have a1 : ∀ b, Stays (AsOthers g files fs) (Cli.disturb g (NamedSt.emitPh2 out b)) := fun b =>
    AsOthers.disturb hg fun s q hq => set_other _ _ (hne h2 hq)
  have a2 : ∀ {p}, p ∈ files → Stays (AsOthers g files fs) (Cli.disturb g (NamedSt.create p)) := fun hp =>
    AsOthers.disturb hg fun s q hq => set_other _ _ (hne hp hq)
  have a3 : ∀ {p}, p ∈ files → ∀ b, Stays (AsOthers g files fs) (Cli.disturb g (NamedSt.append p b)) := fun hp b =>
    AsOthers.disturb hg fun s q hq => set_other _ _ (hne hp hq)
  have a4 : ∀ p, Stays (AsOthers g files fs) (Cli.disturb g (NamedSt.contents p)) := fun p => AsOthers.disturb hg fun s q hq => rfl
  have a5 : Stays (AsOthers g files fs) (busyInit g inp out load).load := AsOthers.disturb hg fun s q hq => rfl
  unfold initOn
  refine Stays.bind ?_ fun _ => Stays.bind ?_ fun _ => Stays.bind ?_ fun _ => Stays.bind ?_ fun _ => ?_
  · unfold processHeaderOn
    exact a5.bind fun _ => (Stays.lift _).bind fun _ => (a4 _).bind fun _ => (Stays.lift _).bind fun _ => (Stays.lift _).bind fun _ =>
      (a1 _).bind fun _ => fun _ h => h
  · unfold processLagrangeOn
    exact (a2 h3).bind fun _ => (a4 _).bind fun _ => (Stays.lift _).bind fun _ => (a3 h3 _).bind fun _ => (a4 _).bind fun _ =>
      (Stays.lift _).bind fun _ => (a3 h3 _).bind fun _ => (a4 _).bind fun _ => (Stays.lift _).bind fun _ => (a3 h3 _).bind fun _ =>
      (a4 _).bind fun _ => (Stays.lift _).bind fun _ => a3 h3 _
  · unfold processEvaluationsOn
    exact (a4 _).bind fun _ => (a2 h4).bind fun _ => (a4 _).bind fun _ => (Stays.lift _).bind fun _ => (a3 h4 _).bind fun _ =>
      (a3 h4 _).bind fun _ => (a3 h4 _).bind fun _ => a5.bind fun _ => (Stays.lift _).bind fun _ => (Stays.lift _).bind fun _ =>
      (Stays.lift _).bind fun _ => (a3 h4 _).bind fun _ => (Stays.lift _).bind fun _ => (a3 h4 _).bind fun _ => (Stays.lift _).bind fun _ =>
      (Stays.lift _).bind fun _ => a3 h4 _
  · unfold processDeltaAndZOn
    exact (a4 _).bind fun _ => (a1 _).bind fun _ => (a1 _).bind fun _ => (Stays.lift _).bind fun _ => (Stays.lift _).bind fun _ => a1 _
  · unfold processPVCKKOn
    exact a5.bind fun _ => (a4 _).bind fun _ => (Stays.lift _).bind fun _ => (Stays.lift _).bind fun _ => (Stays.lift _).bind fun _ =>
      (Stays.lift _).bind fun _ => (Stays.lift _).bind fun _ => (Stays.lift _).bind fun _ =>
      (a1 _).bind fun _ => (a3 h4 _).bind fun _ => (a3 h4 _).bind fun _ => (a3 h4 _).bind fun _ => a1 _

/-- **C92**, the other way round: others that do not look at the files `p2n` writes do what they would have done without it. -/
theorem C92_others (E : Env F G1) (par : Par) (inp cs out : String) (hg : Ignores g [out, "srs.lag", "evals"]) (fs : FS) (q : String)
    (hq : q ∉ [out, "srs.lag", "evals"]) :
    (p2nBusy C E par g [inp, cs, out] fs).2.1 q = others g (p2nBusy C E par g [inp, cs, out] fs).2.2 fs q := by
  have e1 : p2nBusy C E par g [inp, cs, out] fs = initBusy C E par g inp out (loadR1CS E cs) fs := rfl
  rw [e1]
  unfold initBusy
  cases openFile fs inp with
  | error e => rfl
  | ok b =>
    exact AsOthers.init (C := C) hg E.init par (inp := inp) (out := out) (loadR1CS E cs) (by simp) (by simp) (by simp) ⟨⟨fs.set out [], 0⟩, 0⟩
      (fun q hq => set_other _ _ fun h => hq (by simp [h])) q hq

/-- **C92**, the other way round, for `p2np` -/
theorem C92_parted_others (E : Env F G1) (par : Par) (inp session out n m b : String) (hg : Ignores g [out, "srs.lag", "evals"]) (fs : FS)
    (q : String) (hq : q ∉ [out, "srs.lag", "evals"]) :
    (p2npBusy C E par g [inp, session, out, n, m, b] fs).2.1 q = others g (p2npBusy C E par g [inp, session, out, n, m, b] fs).2.2 fs q := by
  have ei : arg [inp, session, out, n, m, b] 0 = inp := rfl
  have eo : arg [inp, session, out, n, m, b] 2 = out := rfl
  unfold p2npBusy
  rw [if_neg (by simp), ei, eo]
  cases atoi (arg [inp, session, out, n, m, b] 3) with
  | error e => rfl
  | ok x1 =>
  cases atoi (arg [inp, session, out, n, m, b] 4) with
  | error e => rfl
  | ok x2 =>
  cases atoi (arg [inp, session, out, n, m, b] 5) with
  | error e => rfl
  | ok x3 =>
  unfold initBusy
  cases openFile fs inp with
  | error e => rfl
  | ok bs =>
    exact AsOthers.init (C := C) hg E.init par (inp := inp) (out := out) _ (by simp) (by simp) (by simp) ⟨⟨fs.set out [], 0⟩, 0⟩
      (fun q hq => set_other _ _ fun h => hq (by simp [h])) q hq

variable [DecidableEq G1] [DecidableEq G2] [DecidableEq GT]

/-- **C92** for other commands of the tool, any number of them at any time, none of which writes a file that `p2n` uses. In particular
none of them is `p2n` or `p2np`. -/
theorem C92_commands_partial (E : Env F G1) (par : Par) (inp cs out : String) (calls : Nat → List (Command F))
    (hc : ∀ n, ∀ c ∈ calls n, ∀ q ∈ usedFiles inp cs out, q ∉ outputs c.name c.args) (fs : FS) :
    (p2nBusy C E par (fun n => execAll C E (calls n)) [inp, cs, out] fs).1 = (p2nAny C E par [inp, cs, out] fs).1 ∧
      ∀ q ∈ usedFiles inp cs out, (p2nBusy C E par (fun n => execAll C E (calls n)) [inp, cs, out] fs).2.1 q =
        (p2nAny C E par [inp, cs, out] fs).2 q :=
  C92_p2n_partial E par inp cs out (fun n _ q hq => execAll_frame E (calls n) q (fun c h => hc n c h q hq) _) fs

end

namespace Toy

/-- the toy files and a second phase 1 file -/
def files2 : FS := files.set "srs2" ((srs 3 3 5 7).encode curve)

/-- another `p2n` between the end of `processLagrange` and the beginning of `processEvaluations` -/
def secondCall (n : Nat) : List (Command K) := if n = 12 then [⟨draws, "p2n", ["srs2", "one", "other"]⟩] else []

/-- the first `p2n` with the second one in between, and alone -/
def both : Except Fail Unit × FS × Nat := p2nBusy curve cliEnv draws.par (fun n => execAll curve cliEnv (secondCall n)) ["srs", "one", "ph2"] files2
def alone : Except Fail Unit × FS := p2nAny curve cliEnv draws.par ["srs", "one", "ph2"] files2

end Toy

/-- **C92** is false: `p2n srs one ph2` and `p2n srs2 one other` at the same time. The first succeeds, but its phase 2 file and the
evaluations are not those of `srs`. -/
theorem C92_false : Toy.isOk (Toy.both.1, Toy.both.2.1) = true ∧ Toy.isOk Toy.alone = true ∧ Toy.both.2.1 "ph2" ≠ Toy.alone.2 "ph2" ∧
    Toy.both.2.1 "evals" ≠ Toy.alone.2 "evals" := by decide +kernel

/-- What the first `p2n` leaves is a mixture: header, [δ]₁, [δ]₂ and Z (326 bytes) come from `srs`, PKK comes from `srs2`. -/
theorem C92_mixture : (old Toy.both.2.1 "ph2").take 326 = (old Toy.alone.2 "ph2").take 326 ∧
    (old Toy.both.2.1 "ph2").drop 326 = (old Toy.both.2.1 "other").drop 326 ∧
    (old Toy.both.2.1 "ph2").take 326 ≠ (old Toy.both.2.1 "other").take 326 ∧
    (old Toy.both.2.1 "ph2").drop 326 ≠ (old Toy.alone.2 "ph2").drop 326 := by decide +kernel

/-- while `p2n` runs, someone makes a phase 1 file, and someone verifies one -/
example (n : Nat) : (p2nBusy Toy.curve Toy.cliEnv Toy.draws.par
    (fun m => execAll Toy.curve Toy.cliEnv (if m = n then [⟨Toy.draws, "p1n", ["2", "new"]⟩, ⟨Toy.draws, "p1v", ["new"]⟩] else []))
      ["srs", "one", "ph2"] Toy.files2).1 = Toy.alone.1 := by
  refine (C92_commands_partial Toy.cliEnv Toy.draws.par "srs" "one" "ph2" _ (fun m c hc q hq => ?_) Toy.files2).1
  simp only [usedFiles, List.mem_cons, List.not_mem_nil, or_false] at hq
  split at hc
  · simp only [List.mem_cons, List.not_mem_nil, or_false] at hc
    rcases hc with rfl | rfl
    · rcases hq with rfl | rfl | rfl | rfl | rfl <;> simp [outputs]
    · simp [outputs]
  · simp at hc

/-- someone appends a byte to a file of their own before each operation -/
def Toy.logging (_ : Nat) (fs : FS) : FS := fs.set "log" (old fs "log" ++ [7])

example : (p2nBusy Toy.curve Toy.cliEnv Toy.draws.par Toy.logging ["srs", "one", "ph2"] Toy.files2).2.1 "ph2" =
    (p2nAny Toy.curve Toy.cliEnv Toy.draws.par ["srs", "one", "ph2"] Toy.files2).2 "ph2" := by
  refine (C92_p2n_partial (C := Toy.curve) (g := Toy.logging) Toy.cliEnv Toy.draws.par "srs" "one" "ph2" (fun n fs q hq => set_other _ _ ?_)
    Toy.files2).2 "ph2" (by simp [usedFiles])
  simp only [usedFiles, List.mem_cons, List.not_mem_nil, or_false] at hq
  rcases hq with rfl | rfl | rfl | rfl | rfl <;> decide

/-- the same for `p2np` -/
example : (p2npBusy Toy.curve Toy.cliEnv Toy.draws.par Toy.logging ["srs", "s", "ph2", "3", "3", "2"] Toy.files).2.1 "ph2" =
    (p2npAny Toy.curve Toy.cliEnv Toy.draws.par ["srs", "s", "ph2", "3", "3", "2"] Toy.files).2 "ph2" := by
  refine (C92_p2np_partial (C := Toy.curve) (g := Toy.logging) Toy.cliEnv Toy.draws.par "srs" "s" "ph2" "3" "3" "2"
    (fun n fs q hq => set_other _ _ ?_) Toy.files).2 "ph2" (by simp [usedFilesParted])
  simp only [usedFilesParted, List.mem_cons, List.not_mem_nil, or_false] at hq
  rcases hq with rfl | rfl | rfl | rfl <;> decide

/-- their file is as if they had been alone -/
example : (p2nBusy Toy.curve Toy.cliEnv Toy.draws.par Toy.logging ["srs", "one", "ph2"] Toy.files2).2.1 "log" =
    others Toy.logging (p2nBusy Toy.curve Toy.cliEnv Toy.draws.par Toy.logging ["srs", "one", "ph2"] Toy.files2).2.2 Toy.files2 "log" := by
  refine C92_others (C := Toy.curve) (g := Toy.logging) Toy.cliEnv Toy.draws.par "srs" "one" "ph2" (fun n fs fs' h q hq => ?_) Toy.files2
    "log" (by decide)
  simp only [Toy.logging, FS.set]
  split
  · simp only [old]
    rw [h "log" (by decide)]
  · exact h q hq

/-- there are 33 operations -/
example : old (p2nBusy Toy.curve Toy.cliEnv Toy.draws.par Toy.logging ["srs", "one", "ph2"] Toy.files2).2.1 "log" = List.replicate 33 7 := by
  decide +kernel

end ZkSetup
