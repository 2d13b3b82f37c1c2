import Verif.Proofs.Machine
import Verif.Spec.Repeat
import Verif.Props.Cli
/-
C73: what the commands compute can be computed again on another machine, from the same files.
-/
set_option linter.unusedSectionVars false

namespace ZkSetup

open Cli Phase2

namespace Repeat

/-! ### The old contents of `srs.lag` and `evals` -/

/-- the program neither reads nor writes `srs.lag` and `evals` -/
def OnlyPh2 {α : Type} (x : Go InitSt α) : Prop :=
  ∀ p l e l' e', x.run ⟨p, l', e'⟩ = ((x.run ⟨p, l, e⟩).1, ⟨(x.run ⟨p, l, e⟩).2.ph2, l', e'⟩)

/-- the program neither reads nor writes `evals` -/
def NotEvals {α : Type} (x : Go InitSt α) : Prop :=
  ∀ p l e e', x.run ⟨p, l, e'⟩ = ((x.run ⟨p, l, e⟩).1, ⟨(x.run ⟨p, l, e⟩).2.ph2, (x.run ⟨p, l, e⟩).2.lag, e'⟩)

section
variable {α β : Type}

theorem OnlyPh2.bind {x : Go InitSt α} {k : α → Go InitSt β} (hx : OnlyPh2 x) (hk : ∀ a, OnlyPh2 (k a)) : OnlyPh2 (x >>= k) := by
  intro p l e l' e'
  rw [Go.bind_run, Go.bind_run, hx p l e l' e']
  cases h : x.run ⟨p, l, e⟩ with
  | mk r st =>
    have hst : st = ⟨st.ph2, l, e⟩ := by
      have := hx p l e l e
      rw [h] at this
      exact congrArg Prod.snd this
    cases r with
    | error err => rfl
    | ok a =>
      show (k a).run ⟨st.ph2, l', e'⟩ = (((k a).run st).1, ⟨((k a).run st).2.ph2, l', e'⟩)
      rw [hst]
      exact hk a _ l e l' e'

theorem NotEvals.bind {x : Go InitSt α} {k : α → Go InitSt β} (hx : NotEvals x) (hk : ∀ a, NotEvals (k a)) : NotEvals (x >>= k) := by
  intro p l e e'
  rw [Go.bind_run, Go.bind_run, hx p l e e']
  cases h : x.run ⟨p, l, e⟩ with
  | mk r st =>
    have hst : st = ⟨st.ph2, st.lag, e⟩ := by
      have := hx p l e e
      rw [h] at this
      exact congrArg Prod.snd this
    cases r with
    | error err => rfl
    | ok a =>
      show (k a).run ⟨st.ph2, st.lag, e'⟩ = (((k a).run st).1, ⟨((k a).run st).2.ph2, ((k a).run st).2.lag, e'⟩)
      rw [hst]
      exact hk a _ _ e e'

theorem OnlyPh2.lift (r : Except Fail α) : OnlyPh2 (Go.lift r : Go InitSt α) := fun _ _ _ _ _ => rfl
theorem OnlyPh2.emit (bs : Bytes) : OnlyPh2 (emitPh2 bs) := fun _ _ _ _ _ => rfl
theorem OnlyPh2.pure (a : α) : OnlyPh2 (Pure.pure a : Go InitSt α) := fun _ _ _ _ _ => rfl
theorem NotEvals.lift (r : Except Fail α) : NotEvals (Go.lift r : Go InitSt α) := fun _ _ _ _ => rfl
theorem NotEvals.emit (bs : Bytes) : NotEvals (emitLag bs) := fun _ _ _ _ => rfl
theorem NotEvals.create : NotEvals createLag := fun _ _ _ _ => rfl

/-- A program that creates `srs.lag` in its second part and `evals` in its third does not see what they held. -/
theorem forget {x : Go InitSt α} {y z w : α → Go InitSt Unit} (hx : OnlyPh2 x) (hy : ∀ a, NotEvals (y a))
    (hyl : ∀ a p l l' e, (y a).run ⟨p, l, e⟩ = (y a).run ⟨p, l', e⟩) (hz : ∀ a p l e e', (z a).run ⟨p, l, e⟩ = (z a).run ⟨p, l, e'⟩)
    (p l e l' e' : Bytes) :
    let b := x >>= fun a => y a >>= fun _ => z a >>= fun _ => w a
    (b.run ⟨p, l, e⟩).1 = (b.run ⟨p, l', e'⟩).1 ∧ (b.run ⟨p, l, e⟩).2.ph2 = (b.run ⟨p, l', e'⟩).2.ph2 ∧
      ((b.run ⟨p, l, e⟩).1 = .ok () → (b.run ⟨p, l, e⟩).2 = (b.run ⟨p, l', e'⟩).2) := by
  intro b
  show ((x >>= _).run _).1 = ((x >>= _).run _).1 ∧ ((x >>= _).run _).2.ph2 = ((x >>= _).run _).2.ph2 ∧
    (((x >>= _).run _).1 = _ → ((x >>= _).run _).2 = ((x >>= _).run _).2)
  rw [Go.bind_run, Go.bind_run, hx p l e l' e']
  cases h : x.run ⟨p, l, e⟩ with
  | mk r st =>
    have hst : st = ⟨st.ph2, l, e⟩ := by
      have := hx p l e l e
      rw [h] at this
      exact congrArg Prod.snd this
    cases r with
    | error err => exact ⟨rfl, rfl, fun h => by cases h⟩
    | ok a =>
      simp only []
      rw [hst, Go.bind_run, Go.bind_run, hyl a st.ph2 l' l e', hy a st.ph2 l e e']
      cases h2 : (y a).run ⟨st.ph2, l, e⟩ with
      | mk r2 st2 =>
        have hst2 : st2 = ⟨st2.ph2, st2.lag, e⟩ := by
          have := hy a st.ph2 l e e
          rw [h2] at this
          exact congrArg Prod.snd this
        cases r2 with
        | error err => exact ⟨rfl, rfl, fun h => by cases h⟩
        | ok u =>
          simp only []
          rw [hst2, Go.bind_run, Go.bind_run, hz a st2.ph2 st2.lag e' e]
          exact ⟨rfl, rfl, fun _ => rfl⟩

end

section
variable {F G1 G2 GT : Type} [Field F] [AddCommGroup G1] [Module F G1] [AddCommGroup G2]
  [Module F G2] [AddCommGroup GT] [Module F GT] [DecidableEq G1] [DecidableEq G2] [DecidableEq GT]
variable (C : Curve F G1 G2 GT)

theorem processLagrange_notEvals (par : Par) (dom : Nat → Lagrange.Domain F) (h1 : Phase1.Header) (h2 : Header) (file : Bytes) :
    NotEvals (processLagrange C par dom h1 h2 file) := by
  unfold processLagrange
  exact .bind .create fun _ => .bind (.lift _) fun _ => .bind (.emit _) fun _ => .bind (.lift _) fun _ => .bind (.emit _) fun _ =>
    .bind (.lift _) fun _ => .bind (.emit _) fun _ => .bind (.lift _) fun _ => .emit _

theorem initializeFiles_old (E : InitEnv F) (par : Par) (r : Option (R1CS F)) (file l e l' e' : Bytes) :
    (initializeFiles C E par r file l e).1 = (initializeFiles C E par r file l' e').1 ∧
    (initializeFiles C E par r file l e).2.ph2 = (initializeFiles C E par r file l' e').2.ph2 ∧
    ((initializeFiles C E par r file l e).1 = .ok () →
      (initializeFiles C E par r file l e).2 = (initializeFiles C E par r file l' e').2) := by
  refine forget (x := processHeader E.header r file) (y := fun a => processLagrange C par E.dom a.2.1 a.2.2 file)
    (z := fun a => processEvaluations C a.1 a.2.1 a.2.2 file)
    (w := fun a => processDeltaAndZ C a.2.2 file >>= fun _ => processPVCKK C E.cmtBytes a.1 a.2.2) ?_
    (fun a => processLagrange_notEvals C _ _ _ _ _) (fun _ _ _ _ _ => rfl) (fun _ _ _ _ _ => rfl) [] l e l' e'
  unfold processHeader
  cases r with
  | none => exact .lift _
  | some r =>
    exact .bind (.lift _) fun _ => .bind (.lift _) fun _ => .bind (.lift _) fun _ => .bind (.emit _) fun _ => .pure _

theorem initializeParted_old (E : InitEnv F) (par : Par) (cs : PartedR1CS F) (n : Int) (file l e l' e' : Bytes) :
    (initializeParted C E par cs n file l e).1 = (initializeParted C E par cs n file l' e').1 ∧
    (initializeParted C E par cs n file l e).2.ph2 = (initializeParted C E par cs n file l' e').2.ph2 ∧
    ((initializeParted C E par cs n file l e).1 = .ok () →
      (initializeParted C E par cs n file l e).2 = (initializeParted C E par cs n file l' e').2) := by
  refine forget (x := processHeaderParted E.header cs n file) (y := fun a => processLagrange C par E.dom a.1 a.2 file)
    (z := fun a => processEvaluationsParted C cs n a.1 a.2 file)
    (w := fun a => processDeltaAndZ C a.2 file >>= fun _ => processPVCKKParted C E.cmtBytes cs n a.2) ?_
    (fun a => processLagrange_notEvals C _ _ _ _ _) (fun _ _ _ _ _ => rfl) (fun _ _ _ _ _ => rfl) [] l e l' e'
  exact .bind (.lift _) fun _ => .bind (.lift _) fun _ => .bind (.lift _) fun _ => .bind (.emit _) fun _ => .pure _

/-! ### Files -/

theorem set_agree {fs fs' : FS} {path q : String} {c : Bytes} (h : q = path ∨ fs q = fs' q) : (fs.set path c) q = (fs'.set path c) q := by
  unfold FS.set
  split
  · rfl
  · exact h.resolve_left (by assumption)

theorem openFile_agree {fs fs' : FS} {path : String} (h : fs path = fs' path) : openFile fs path = openFile fs' path := by
  unfold openFile; rw [h]

/-- the same result, the same contents of the files of `L` and, after success, also of those of `W` -/
def Same (L W : List String) (x y : Except Fail Unit × FS) : Prop :=
  x.1 = y.1 ∧ (∀ q ∈ L, x.2 q = y.2 q) ∧ (x.1 = .ok () → ∀ q ∈ W, x.2 q = y.2 q)

theorem extract_wrote {O : Type} {H : HeaderCodec} {ph2 evals : Bytes} {empty : O} {body : Header → Go (Keys.KeySt O) Unit}
    (h : (Keys.extract H ph2 evals empty body).1 = .ok ()) : ∃ o, (Keys.extract H ph2 evals empty body).2 = some o := by
  unfold Keys.extract at h ⊢
  split at h
  · cases h
  · exact ⟨_, rfl⟩

theorem withFiles_same {O : Type} {ph2 : String} {body : Bytes → Bytes → Except Fail Unit × Option O} {save : FS → O → FS}
    {fs fs' : FS} {L W : List String} (hph : ph2 ∈ L) (hev : "evals" ∈ L) (hL : ∀ q ∈ L, fs q = fs' q)
    (hsave : ∀ o q, fs q = fs' q → save fs o q = save fs' o q)
    (hbody : ∀ a b, (body a b).1 = .ok () → ∃ o, (body a b).2 = some o ∧ ∀ q ∈ W, save fs o q = save fs' o q) :
    Same L W (withFiles ph2 body save fs) (withFiles ph2 body save fs') := by
  unfold withFiles
  rw [openFile_agree (hL _ hph)]
  cases openFile fs' ph2 with
  | error e => exact ⟨rfl, hL, fun h => by cases h⟩
  | ok a =>
    simp only []
    rw [openFile_agree (hL _ hev)]
    cases openFile fs' "evals" with
    | error e => exact ⟨rfl, hL, fun h => by cases h⟩
    | ok b =>
      simp only []
      refine ⟨rfl, ?_, ?_⟩
      · intro q hq
        cases (body a b).2 with
        | none => exact hL q hq
        | some o => exact hsave o q (hL q hq)
      · intro h q hq
        obtain ⟨o, ho, hw⟩ := hbody a b h
        rw [ho]
        exact hw q hq

theorem inOrder_same {f g : FS → Except Fail Unit × FS} {fs fs' : FS} {L W V : List String} (hf : Same L W (f fs) (f fs'))
    (hg : ∀ fs fs', (∀ q ∈ L ++ W, fs q = fs' q) → Same (L ++ W) V (g fs) (g fs')) :
    Same L (W ++ V) (inOrder f g fs) (inOrder f g fs') := by
  unfold inOrder
  cases h : f fs with
  | mk r s =>
    cases h' : f fs' with
    | mk r' s' =>
      rw [h, h'] at hf
      obtain ⟨h1, h2, h3⟩ := hf
      simp only [] at h1 h2 h3
      subst h1
      cases r with
      | error e => exact ⟨rfl, h2, fun h => by cases h⟩
      | ok u =>
        have := hg s s' (by
          intro q hq
          rcases List.mem_append.mp hq with hq | hq
          · exact h2 q hq
          · exact h3 rfl q hq)
        refine ⟨this.1, fun q hq => this.2.1 q (List.mem_append.mpr (.inl hq)), fun hok q hq => ?_⟩
        rcases List.mem_append.mp hq with hq | hq
        · exact this.2.1 q (List.mem_append.mpr (.inr hq))
        · exact this.2.2 hok q hq

theorem splitVK_wrote {E : Keys.KeyEnv G1} {ph2 evals : Bytes} {o : Keys.SplitVK} (h : (Keys.extractSplitVK C E ph2 evals).1 = .ok ())
    (ho : (Keys.extractSplitVK C E ph2 evals).2 = some o) : ∃ c, o.commitmentKey = some c := by
  unfold Keys.extractSplitVK Keys.extract at h ho
  cases hh : (Header.read E.header).run (Rd.buffered 4096 ph2) with
  | mk r rd =>
    rw [hh] at h ho
    cases r with
    | error e => cases h
    | ok hd =>
      simp only [] at h ho
      rcases hr : (Keys.splitVkBody C E evals hd).run ⟨rd, Rd.buffered 4096 evals, ⟨[], none⟩⟩ with ⟨r, s⟩
      · change ((Keys.splitVkBody C E evals hd).run _).1 = _ at h
        change some ((Keys.splitVkBody C E evals hd).run _).2.out = _ at ho
        rw [hr] at h ho
        simp only [Option.some.injEq] at h ho
        subst ho h
        obtain ⟨vk, s1, _, h2⟩ := Go.bind_eq_ok hr
        obtain ⟨u, s2, _, h3⟩ := Go.bind_eq_ok h2
        simp only [Keys.KeySt.write, Prod.mk.injEq, true_and] at h3
        rw [← h3]
        exact ⟨_, rfl⟩

end
end Repeat

section
variable {F G1 G2 GT : Type} [Field F] [AddCommGroup G1] [Module F G1] [AddCommGroup G2]
  [Module F G2] [AddCommGroup GT] [Module F GT] [DecidableEq G1] [DecidableEq G2] [DecidableEq GT]
variable (C : Curve F G1 G2 GT)

/-- **C73**: with the same random values a command has the same result, writes the same files and prints the same lines on every
machine, whatever the number of CPUs and the schedule of the goroutines, and also if it fails. The first entry of each row of inverse
twiddle factors is 1. -/
theorem C73_machine (E : Env F G1) (htw : ∀ n s, (E.init.dom n).twiddlesInv s 0 = 1) (d : Draws F) (q : Par) (name : String)
    (args : List String) (fs : FS) :
    exec C E { d with par := q } name args fs = exec C E d name args fs ∧
    Console.exec C E { d with par := q } name args fs = Console.exec C E d name args fs := by
  constructor
  · simp only [exec, p1c, p1v, p1vt, p1Verify, p2n, p2np, p2npRun, p2c, p2v, p2Verify, Phase1.contribute_machine C q d.par,
      Phase1.verify_machine C q d.par, Phase2.contribute_machine C q d.par, Phase2.verify_machine C q d.par,
      fun r f l e => initializeFiles_machine C q d.par htw r f l e, fun r n f l e => initializeParted_machine C q d.par htw r n f l e]
  · simp only [Console.exec, Console.p1c, Console.p1v, Console.p1vt, Console.p1VerifyFiles, Console.p2n, Console.p2np,
      Console.p2npRun, Console.p2c, Console.p2v, Console.initBody, Console.initPartedBody, Console.p1Contribute_machine C q d.par,
      Console.p1Verify_machine C q d.par, Console.p2Contribute_machine C q d.par, Console.p2Verify_machine C q d.par,
      fun h1 h2 f => Console.processLagrange_machine C q d.par htw h1 h2 f]

/-- **C73**: a whole ceremony repeated with the same random values, each command on any machine, ends with the same files. -/
theorem C73_session (E : Env F G1) (htw : ∀ n s, (E.init.dom n).twiddlesInv s 0 = 1) (machine : Command F → Par)
    (cs : List (Command F)) : ∀ fs : FS,
      execAll C E (cs.map fun c => { c with draws := { c.draws with par := machine c } }) fs = execAll C E cs fs := by
  induction cs with
  | nil => intro fs; rfl
  | cons c cs ih =>
    intro fs
    simp only [List.map_cons, execAll]
    rw [(C73_machine C E htw c.draws (machine c) c.name c.args fs).1]
    exact ih _

open Repeat in
/-- **C73**: the result of a command, and the files it writes if it succeeds, depend on nothing but the files it reads and, for the
contributions and verifications, on the random values drawn. In particular they do not depend on what the output files, `srs.lag` and
`evals` held before. For `p2np` the parts of the constraint system count as read. -/
theorem C73_repeat (E : Env F G1) (htw : ∀ n s, (E.init.dom n).twiddlesInv s 0 = 1) (d d' : Draws F) (name : String)
    (args : List String) (fs fs' : FS)
    (hd : randomised name → d.contribute1 = d'.contribute1 ∧ d.verify1 = d'.verify1 ∧ d.contribute2 = d'.contribute2 ∧ d.verify2 = d'.verify2)
    (hfs : ∀ q ∈ inputs name args, fs q = fs' q)
    (hcs : name = "p2np" → ∀ s i j, E.parted (fs.set (arg args 2) []) s i j = E.parted (fs'.set (arg args 2) []) s i j) :
    (exec C E d name args fs).1 = (exec C E d' name args fs').1 ∧
    ((exec C E d name args fs).1 = .ok () →
      ∀ q ∈ outputs name args, (exec C E d name args fs).2 q = (exec C E d' name args fs').2 q) := by
  suffices h : Same [] (outputs name args) (exec C E d name args fs) (exec C E { d' with par := d.par } name args fs') by
    rw [(C73_machine C E htw d' d.par name args fs').1] at h
    exact ⟨h.1, h.2.2⟩
  have one : ∀ (r : Except Fail Unit) (out : String) (c : Bytes), Same [] [out] (r, fs.set out c) (r, fs'.set out c) := fun r out c =>
    ⟨rfl, by simp, fun _ q hq => set_agree (.inl (by simpa using hq))⟩
  have none : ∀ (e : Fail) (W : List String), Same [] W (.error e, fs) (.error e, fs') := fun e W => ⟨rfl, by simp, fun h => by cases h⟩
  have nothing : ∀ (r : Except Fail Unit), Same [] [] (r, fs) (r, fs') := fun r => ⟨rfl, by simp, by simp⟩
  have init : ∀ (x x' : Except Fail Unit × InitSt) (out : String), x.1 = x'.1 → (x.1 = .ok () → x.2 = x'.2) →
      Same [] [out, "srs.lag", "evals"] (x.1, saveInit fs out x.2) (x'.1, saveInit fs' out x'.2) := by
    intro x x' out h1 h2
    refine ⟨h1, by simp, fun hok q hq => ?_⟩
    show saveInit fs out x.2 q = saveInit fs' out x'.2 q
    rw [h2 hok]
    unfold saveInit
    simp only [List.mem_cons, List.not_mem_nil, or_false] at hq
    by_cases h3 : q = "evals"
    · exact set_agree (.inl h3)
    · refine set_agree (.inr ?_)
      by_cases h4 : q = "srs.lag"
      · exact set_agree (.inl h4)
      · refine set_agree (.inr (set_agree (.inl ?_)))
        tauto
  unfold exec
  split
  · unfold p1n badArgs
    split
    · exact none _ _
    · rename_i hl
      obtain ⟨a, b, rfl⟩ := length_two (not_not.mp hl)
      split
      · exact none _ _
      · split
        · exact none _ _
        · exact one _ _ _
  · unfold p1c badArgs
    split
    · exact none _ _
    · rename_i hl
      obtain ⟨a, b, rfl⟩ := length_two (not_not.mp hl)
      rw [openFile_agree (hfs _ (by simp [inputs, arg])), (hd (.inl rfl)).1]
      split
      · exact none _ _
      · exact one _ _ _
  · unfold p1v badArgs
    split
    · exact none _ _
    · rename_i hl
      obtain ⟨a, rfl⟩ := List.length_eq_one_iff.mp (not_not.mp hl)
      unfold p1Verify
      rw [openFile_agree (hfs _ (by simp [inputs, arg])), (hd (.inr (.inl rfl))).2.1]
      exact nothing _
  · unfold p1t badArgs
    split
    · exact none _ _
    · rename_i hl
      obtain ⟨a, b, c, e, rfl⟩ := length_four (not_not.mp hl)
      split
      · exact none _ _
      · split
        · exact none _ _
        · unfold p1tRun
          split
          · exact none _ _
          · rw [openFile_agree (hfs _ (by simp [inputs, arg]))]
            split
            · exact none _ _
            · exact one _ _ _
  · unfold p1vt badArgs
    split
    · exact none _ _
    · rename_i hl
      obtain ⟨a, b, rfl⟩ := length_two (not_not.mp hl)
      unfold p1Verify openTransformed
      rw [openFile_agree (hfs (arg [a, b] 0) (by simp [inputs, arg])), openFile_agree (hfs (arg [a, b] 1) (by simp [inputs, arg])),
        (hd (.inr (.inr (.inl rfl)))).2.1]
      exact nothing _
  · unfold p2n badArgs
    split
    · exact none _ _
    · rename_i hl
      obtain ⟨a, b, c, rfl⟩ := List.length_eq_three.mp (not_not.mp hl)
      rw [openFile_agree (hfs (arg [a, b, c] 0) (by simp [inputs, arg]))]
      split
      · exact none _ _
      · simp only []
        rw [openFile_agree (set_agree (.inr (hfs (arg [a, b, c] 1) (by simp [inputs, arg]))))]
        split
        · exact ⟨rfl, by simp, fun h => by cases h⟩
        · have := fun r f => initializeFiles_old C E.init d.par r f (old fs "srs.lag") (old fs "evals") (old fs' "srs.lag") (old fs' "evals")
          exact init _ _ _ (this _ _).1 (this _ _).2.2
  · unfold p2np badArgs
    split
    · exact none _ _
    · rename_i hl
      obtain ⟨a, b, c, d1, d2, d3, rfl⟩ := length_six (not_not.mp hl)
      split
      · exact none _ _
      · split
        · exact none _ _
        · split
          · exact none _ _
          · unfold p2npRun
            rw [openFile_agree (hfs _ (by simp [inputs, arg]))]
            split
            · exact none _ _
            · simp only []
              rw [hcs rfl]
              have := fun cs n f => initializeParted_old C E.init d.par cs n f (old fs "srs.lag") (old fs "evals") (old fs' "srs.lag") (old fs' "evals")
              exact init _ _ _ (this _ _ _).1 (this _ _ _).2.2
  · unfold p2c badArgs
    split
    · exact none _ _
    · rename_i hl
      obtain ⟨a, b, rfl⟩ := length_two (not_not.mp hl)
      rw [openFile_agree (hfs _ (by simp [inputs, arg])), (hd (.inr (.inr (.inr (.inl rfl))))).2.2.1]
      split
      · exact none _ _
      · exact one _ _ _
  · unfold p2v badArgs
    split
    · exact none _ _
    · rename_i hl
      obtain ⟨a, b, rfl⟩ := length_two (not_not.mp hl)
      unfold p2Verify
      rw [openFile_agree (hfs (arg [a, b] 0) (by simp [inputs, arg])), openFile_agree (hfs (arg [a, b] 1) (by simp [inputs, arg])),
        (hd (.inr (.inr (.inr (.inr rfl))))).2.2.2]
      exact nothing _
  · unfold key badArgs
    split
    · exact none _ _
    · rename_i hl
      obtain ⟨a, rfl⟩ := List.length_eq_one_iff.mp (not_not.mp hl)
      have h := inOrder_same (f := withFiles a (Keys.extractPK C E.keys) fun fs o => fs.set "pk" o)
        (g := withFiles a (Keys.extractVK C E.keys) fun fs o => fs.set "vk" o) (L := [a, "evals"]) (W := ["pk"]) (V := ["vk"])
        (withFiles_same (by simp) (by simp) hfs (fun o q hq => set_agree (.inr hq)) (fun x y h => by
          obtain ⟨o, ho⟩ := extract_wrote h
          exact ⟨o, ho, fun q hq => set_agree (.inl (by simpa using hq))⟩))
        (fun fs fs' hL => withFiles_same (by simp) (by simp) hL (fun o q hq => set_agree (.inr hq)) (fun x y h => by
          obtain ⟨o, ho⟩ := extract_wrote h
          exact ⟨o, ho, fun q hq => set_agree (.inl (by simpa using hq))⟩))
      exact ⟨h.1, by simp, h.2.2⟩
  · unfold keys badArgs
    split
    · exact none _ _
    · rename_i hl
      obtain ⟨a, b, rfl⟩ := length_two (not_not.mp hl)
      have h := inOrder_same (f := withFiles a (Keys.extractSplitPK C E.keys) (saveSplitPK b))
        (g := withFiles a (Keys.extractSplitVK C E.keys) (saveSplitVK b)) (L := [a, "evals"])
        (W := [".pk.E.save", ".pk.A.save", ".pk.B1.save", ".pk.Z.save", ".pk.K.save", ".pk.B2.save"].map (b ++ ·))
        (V := [".vk.save", ".pk.CommitmentKey.save"].map (b ++ ·))
        (withFiles_same (by simp) (by simp) hfs
          (fun o q hq => set_agree (.inr (set_agree (.inr (set_agree (.inr (set_agree (.inr (set_agree (.inr (set_agree (.inr hq))))))))))))
          (fun x y h => by
            obtain ⟨o, ho⟩ := extract_wrote h
            refine ⟨o, ho, fun q hq => ?_⟩
            simp only [List.map_cons, List.map_nil, List.mem_cons, List.not_mem_nil, or_false] at hq
            unfold saveSplitPK
            rcases hq with rfl | rfl | rfl | rfl | rfl | rfl
            · exact set_agree (.inr (set_agree (.inr (set_agree (.inr (set_agree (.inr (set_agree (.inr (set_agree (.inl rfl)))))))))))
            · exact set_agree (.inr (set_agree (.inr (set_agree (.inr (set_agree (.inr (set_agree (.inl rfl)))))))))
            · exact set_agree (.inr (set_agree (.inr (set_agree (.inr (set_agree (.inl rfl)))))))
            · exact set_agree (.inr (set_agree (.inr (set_agree (.inl rfl)))))
            · exact set_agree (.inr (set_agree (.inl rfl)))
            · exact set_agree (.inl rfl)))
        (fun fs fs' hL => withFiles_same (by simp) (by simp) hL
          (fun o q hq => by
            unfold saveSplitVK
            cases o.commitmentKey with
            | none => exact set_agree (.inr hq)
            | some c => exact set_agree (.inr (set_agree (.inr hq))))
          (fun x y h => by
            obtain ⟨o, ho⟩ := extract_wrote h
            obtain ⟨c, hc⟩ := splitVK_wrote C h ho
            refine ⟨o, ho, fun q hq => ?_⟩
            simp only [List.map_cons, List.map_nil, List.mem_cons, List.not_mem_nil, or_false] at hq
            unfold saveSplitVK
            rw [hc]
            rcases hq with rfl | rfl
            · exact set_agree (.inr (set_agree (.inl rfl)))
            · exact set_agree (.inl rfl)))
      exact ⟨h.1, by simp, h.2.2⟩
  · unfold sol badArgs
    split
    · exact none _ _
    · rename_i hl
      obtain ⟨a, rfl⟩ := List.length_eq_one_iff.mp (not_not.mp hl)
      rw [hfs (arg [a] 0 ++ ".vk.save") (by simp [inputs, arg])]
      split
      · exact none _ _
      · exact one _ _ _
  · exact none _ _

/-- The run of an extraction. -/
theorem Repeat.extract_run {O : Type} {H : HeaderCodec} {ph2 evals : Bytes} {empty o : O} {body : Header → Go (Keys.KeySt O) Unit}
    (h : Keys.extract H ph2 evals empty body = (.ok (), some o)) :
    ∃ hd rd s, (Header.read H).run (Rd.buffered 4096 ph2) = (.ok hd, rd) ∧
      (body hd).run ⟨rd, Rd.buffered 4096 evals, empty⟩ = (.ok (), s) ∧ s.out = o := by
  unfold Keys.extract at h
  split at h
  · cases h
  · rename_i hd rd hh
    rcases hr : (body hd).run ⟨rd, Rd.buffered 4096 evals, empty⟩ with ⟨r, s⟩
    rw [hr] at h
    simp only [Prod.mk.injEq, Option.some.injEq] at h
    obtain ⟨rfl, ho⟩ := h
    exact ⟨hd, rd, s, hh, hr, ho⟩

/-- **C73** for `key` and `keys`, whose commitment key is drawn anew in every run (`f` stands for the draws of the second run): the
proving keys agree, and the verifying keys agree except for the commitment key at their beginning. -/
theorem C73_keys_partial (K : Keys.KeyEnv G1) (f : List G1 → Except Fail Bytes) (ph2 evals : Bytes) :
    Keys.extractPK C { K with commitmentKey := f } ph2 evals = Keys.extractPK C K ph2 evals ∧
    Keys.extractSplitPK C { K with commitmentKey := f } ph2 evals = Keys.extractSplitPK C K ph2 evals ∧
    (∀ vk vk', Keys.extractVK C K ph2 evals = (.ok (), some vk) →
      Keys.extractVK C { K with commitmentKey := f } ph2 evals = (.ok (), some vk') →
      ∃ ckk ck ck' rest, K.commitmentKey ckk = .ok ck ∧ f ckk = .ok ck' ∧ vk = ck ++ rest ∧ vk' = ck' ++ rest) ∧
    (∀ o o', Keys.extractSplitVK C K ph2 evals = (.ok (), some o) →
      Keys.extractSplitVK C { K with commitmentKey := f } ph2 evals = (.ok (), some o') →
      ∃ ckk ck ck' rest, K.commitmentKey ckk = .ok ck ∧ f ckk = .ok ck' ∧ o.vk = ck ++ rest ∧ o'.vk = ck' ++ rest) := by
  refine ⟨rfl, rfl, ?_, ?_⟩
  · intro vk vk' h h'
    obtain ⟨hd, rd, s, hh, hr, rfl⟩ := Repeat.extract_run h
    obtain ⟨hd', rd', s', hh', hr', rfl⟩ := Repeat.extract_run h'
    rw [hh] at hh'
    simp only [Prod.mk.injEq, Except.ok.injEq] at hh'
    obtain ⟨rfl, rfl⟩ := hh'
    obtain ⟨v, ckk, ck, t, e1, e2, e3⟩ := (vkBody_iff C K evals hd _ _).mp ⟨s, hr, rfl⟩
    obtain ⟨v', ckk', ck', t', e1', e2', e3'⟩ := (vkBody_iff C { K with commitmentKey := f } evals hd _ _).mp ⟨s', hr', rfl⟩
    rw [e1] at e1'
    simp only [Prod.mk.injEq, Except.ok.injEq] at e1'
    obtain ⟨⟨rfl, rfl⟩, -⟩ := e1'
    refine ⟨ckk, ck, ck', v.encode C [] K.noCommitment, e2, e2', ?_, ?_⟩
    · rw [e3]; simp [VerifyKey.encode]
    · rw [e3']; simp [VerifyKey.encode]
  · intro o o' h h'
    obtain ⟨hd, rd, s, hh, hr, rfl⟩ := Repeat.extract_run h
    obtain ⟨hd', rd', s', hh', hr', rfl⟩ := Repeat.extract_run h'
    rw [hh] at hh'
    simp only [Prod.mk.injEq, Except.ok.injEq] at hh'
    obtain ⟨rfl, rfl⟩ := hh'
    obtain ⟨v, ckk, ck, t, e1, e2, e3⟩ := (splitVkBody_iff C K evals hd _ rfl _).mp ⟨s, hr, rfl⟩
    obtain ⟨v', ckk', ck', t', e1', e2', e3'⟩ :=
      (splitVkBody_iff C { K with commitmentKey := f } evals hd _ rfl _).mp ⟨s', hr', rfl⟩
    rw [e1] at e1'
    simp only [Prod.mk.injEq, Except.ok.injEq] at e1'
    obtain ⟨⟨rfl, rfl⟩, -⟩ := e1'
    refine ⟨ckk, ck, ck', v.encode C [] K.noCommitment, e2, e2', ?_, ?_⟩
    · rw [e3]; simp [VerifyKey.encode]
    · rw [e3']; simp [VerifyKey.encode]

/-- **C73** is false for the verifying key: two runs of `key` on the same files, with commitment keys that differ in content but not in
length, write different verifying keys. `pedersen.Setup` draws a key also for a circuit without a commitment. -/
theorem C73_keys_false (K : Keys.KeyEnv G1) (f : List G1 → Except Fail Bytes) (ph2 evals vk vk' : Bytes)
    (hf : ∀ l ck ck', K.commitmentKey l = .ok ck → f l = .ok ck' → ck.length = ck'.length ∧ ck ≠ ck')
    (h : Keys.extractVK C K ph2 evals = (.ok (), some vk))
    (h' : Keys.extractVK C { K with commitmentKey := f } ph2 evals = (.ok (), some vk')) : vk ≠ vk' := by
  obtain ⟨l, ck, ck', rest, h1, h2, rfl, rfl⟩ := (C73_keys_partial C K f ph2 evals).2.2.1 vk vk' h h'
  intro he
  exact (hf l ck ck' h1 h2).2 (List.append_inj_left he (hf l ck ck' h1 h2).1)

end

-- the domains of the toy circuit
theorem Toy.env_twiddles : ∀ n s, (Toy.cliEnv.init.dom n).twiddlesInv s 0 = 1 := by
  intro n s
  show ((4 : ZMod 17) ^ (0 * 2 ^ s))⁻¹ = 1
  rw [Nat.zero_mul, pow_zero, inv_one]

-- 4 CPUs instead of those of the toy machine
example (d : Draws Toy.K) (name : String) (args : List String) (fs : FS) :=
  C73_machine Toy.curve Toy.cliEnv Toy.env_twiddles d par4 name args fs

example (cs : List (Command Toy.K)) (fs : FS) := C73_session Toy.curve Toy.cliEnv Toy.env_twiddles (fun _ => par4) cs fs

-- `p2n` in a directory with and without left-overs of an earlier run, with other draws
example (d d' : Draws Toy.K) (phase1 r1cs : Bytes) :
    (exec Toy.curve Toy.cliEnv d "p2n" ["ph1", "r1cs", "ph2"] (FS.set (FS.set (fun _ => none) "ph1" phase1) "r1cs" r1cs)).1
      = (exec Toy.curve Toy.cliEnv d' "p2n" ["ph1", "r1cs", "ph2"]
        (FS.set (FS.set (fun _ => some [1]) "ph1" phase1) "r1cs" r1cs)).1 :=
  (C73_repeat Toy.curve Toy.cliEnv Toy.env_twiddles d d' "p2n" ["ph1", "r1cs", "ph2"] _ _ (by simp [randomised])
    (by simp [inputs, FS.set]) (by simp)).1

-- two extractions from the files of an honest run
example (final evals : Bytes) (h : HonestRun Toy.curve Toy.env batchSize Toy.circuit 2 3 5 7 (deltaProduct [Toy.p2rnd]) final evals) :
    ∃ vk vk', Keys.extractVK Toy.curve Toy.keyEnv final evals = (.ok (), some vk) ∧
      Keys.extractVK Toy.curve { Toy.keyEnv with commitmentKey := fun _ => .ok [5] } final evals = (.ok (), some vk') ∧ vk ≠ vk' := by
  have h1 := C38_verifying_key Toy.lawful Toy.env Toy.keyEnv rfl [0] rfl batchSize Toy.circuit 2 3 5 7 _ final evals h []
  have h2 := C38_verifying_key Toy.lawful Toy.env { Toy.keyEnv with commitmentKey := fun _ => .ok [5] } rfl [5] rfl batchSize
    Toy.circuit 2 3 5 7 _ final evals h []
  rw [List.append_nil] at h1 h2
  refine ⟨_, _, h1, h2, ?_⟩
  simp [VerifyKey.encode]

-- its hypothesis is met
example := Toy.run

-- draws of the same length that always differ
example (ph2 evals vk vk' : Bytes) := C73_keys_false Toy.curve { Toy.keyEnv with commitmentKey := fun _ => .ok [4] } (fun _ => .ok [5])
  ph2 evals vk vk' (by simp only [Except.ok.injEq]; rintro l _ _ rfl rfl; exact ⟨rfl, by decide⟩)

end ZkSetup
