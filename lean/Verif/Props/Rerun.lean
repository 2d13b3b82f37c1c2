import Verif.Model.KilledAll
import Verif.Props.Repeat
import Verif.Props.Killed
/-
C96: a command that was interrupted can be run again.
-/
set_option linter.unusedSectionVars false

namespace ZkSetup

open Phase2 Cli Keys Proofs

theorem during_frame {s : Stop} {outs : List (String × Bytes)} {fs : FS} {rest : Except Fail Unit × FS} {q : String}
    (hq : ∀ o ∈ outs, q ≠ o.1) (hr : rest.2 q = fs q) : (s.during outs fs rest).2 q = fs q := by
  unfold Stop.during
  split
  · exact hr
  · have : ∀ (l : List (String × Bytes)) (fs : FS), (∀ o ∈ l, q ≠ o.1) →
        l.foldl (fun fs o => fs.set o.1 (o.2.take (s.len o.1))) fs q = fs q := by
      intro l
      induction l with
      | nil => exact fun _ _ => rfl
      | cons o l ih =>
        intro fs h
        exact (ih _ fun o ho => h o (by simp [ho])).trans (set_other _ _ (h o (by simp)))
    exact this _ fs fun o ho => hq o (List.mem_of_mem_take ho)

section
variable {F G1 G2 GT : Type} [Field F] [AddCommGroup G1] [Module F G1] [AddCommGroup G2]
  [Module F G2] [AddCommGroup GT] [Module F GT] [DecidableEq G1] [DecidableEq G2] [DecidableEq GT]
variable (C : Curve F G1 G2 GT)

/-- outside the list the files are the old ones -/
def Untouched (files : List String) (fs : FS) (t : KilledSt) : Prop := ∀ q, q ∉ files → t.st.fs q = fs q

theorem Untouched.act {files : List String} {fs : FS} {op : Go NamedSt Unit} {torn : Nat → Go NamedSt Unit}
    (h1 : ∀ (s : NamedSt) q, q ∉ files → (op.run s).2.fs q = s.fs q) (h2 : ∀ k (s : NamedSt) q, q ∉ files → ((torn k).run s).2.fs q = s.fs q) :
    Stays (Untouched files fs) (KilledSt.act op torn) := by
  intro t h q hq
  unfold KilledSt.act
  dsimp only
  split
  · exact (h2 _ _ q hq).trans (h q hq)
  · exact (h1 _ q hq).trans (h q hq)

theorem killedInit_untouched (files : List String) (fs : FS) (E : InitEnv F) (par : Par) {inp out : String} (load : FS → Except Fail (Loaded F G1 G2))
    (h2 : out ∈ files) (h3 : "srs.lag" ∈ files) (h4 : "evals" ∈ files) :
    Stays (Untouched files fs) (initOn (killedInit inp out load) C E par) := by
  have hne : ∀ {p q : String}, p ∈ files → q ∉ files → q ≠ p := fun h1 h2 h => h2 (h ▸ h1)
  have a1 : ∀ b, Stays (Untouched files fs) (KilledSt.emitPh2 out b) := fun b =>
    Untouched.act (fun s q hq => set_other _ _ (hne h2 hq)) fun _ s q hq => set_other _ _ (hne h2 hq)
  have a2 : ∀ {p}, p ∈ files → Stays (Untouched files fs) (KilledSt.create p) := fun hp =>
    Untouched.act (fun s q hq => set_other _ _ (hne hp hq)) fun _ s q hq => rfl
  have a3 : ∀ {p}, p ∈ files → ∀ b, Stays (Untouched files fs) (KilledSt.append p b) := fun hp b =>
    Untouched.act (fun s q hq => set_other _ _ (hne hp hq)) fun _ s q hq => set_other _ _ (hne hp hq)
  have a4 : ∀ p, Stays (Untouched files fs) (KilledSt.look (NamedSt.contents p)) := fun p t h => h
  have a5 : Stays (Untouched files fs) (killedInit inp out load).load := fun t h => h
  unfold initOn
  refine Stays.bind ?_ fun _ => Stays.bind ?_ fun _ => Stays.bind ?_ fun _ => Stays.bind ?_ fun _ => ?_
  · unfold processHeaderOn
    exact a5.bind fun _ => (Stays.lift _).bind fun _ => (a4 _).bind fun _ => (Stays.lift _).bind fun _ => (Stays.lift _).bind fun _ =>
      (a1 _).bind fun _ => fun _ h => h
  · unfold processLagrangeOn
    exact (a2 h3).bind fun _ => (a4 _).bind fun _ => (Stays.lift _).bind fun _ => (a3 h3 _).bind fun _ => (a4 _).bind fun _ =>
      (Stays.lift _).bind fun _ => (a3 h3 _).bind fun _ => (a4 _).bind fun _ => (Stays.lift _).bind fun _ => (a3 h3 _).bind fun _ =>
      (a4 _).bind fun _ => (Stays.lift _).bind fun _ => a3 h3 _
  · unfold processEvaluationsOn
    exact (a4 _).bind fun _ => (a2 h4).bind fun _ => (a4 _).bind fun _ => (Stays.lift _).bind fun _ => (a3 h4 _).bind fun _ =>
      (a3 h4 _).bind fun _ => (a3 h4 _).bind fun _ => a5.bind fun _ => (Stays.lift _).bind fun _ => (Stays.lift _).bind fun _ =>
      (Stays.lift _).bind fun _ => (a3 h4 _).bind fun _ => (Stays.lift _).bind fun _ => (a3 h4 _).bind fun _ => (Stays.lift _).bind fun _ =>
      (Stays.lift _).bind fun _ => a3 h4 _
  · unfold processDeltaAndZOn
    exact (a4 _).bind fun _ => (a1 _).bind fun _ => (a1 _).bind fun _ => (Stays.lift _).bind fun _ => (Stays.lift _).bind fun _ => a1 _
  · unfold processPVCKKOn
    exact a5.bind fun _ => (a4 _).bind fun _ => (Stays.lift _).bind fun _ => (Stays.lift _).bind fun _ => (Stays.lift _).bind fun _ =>
      (Stays.lift _).bind fun _ => (Stays.lift _).bind fun _ => (Stays.lift _).bind fun _ =>
      (a1 _).bind fun _ => (a3 h4 _).bind fun _ => (a3 h4 _).bind fun _ => (a3 h4 _).bind fun _ => a1 _

theorem initKilled_frame (E : Env F G1) (par : Par) (n part : Nat) (inp out : String) (load : FS → Except Fail (Loaded F G1 G2)) (fs : FS)
    (q : String) (hq : q ∉ [out, "srs.lag", "evals"]) : (initKilled C E par n part inp out load fs).2 q = fs q := by
  unfold initKilled
  cases openFile fs inp with
  | error e => rfl
  | ok b =>
    cases n with
    | zero => rfl
    | succ n =>
      exact killedInit_untouched C [out, "srs.lag", "evals"] fs E.init par (inp := inp) (out := out) load (by simp) (by simp) (by simp)
        ⟨⟨fs.set out [], 0⟩, n, part⟩ (fun q hq => set_other _ _ fun h => hq (by simp [h])) q hq

theorem withFilesMay_frame {O : Type} {ph2 : String} {body : Bytes → Bytes → Except Fail Unit × Option O}
    {create : FS → Except Fail Unit → O → Except Fail Unit × FS} {q : String} (h : ∀ fs r o, (create fs r o).2 q = fs q) (fs : FS) :
    (withFilesMay ph2 body create fs).2 q = fs q := by
  unfold withFilesMay
  split
  · rfl
  · split
    · rfl
    · dsimp only
      split
      · exact h _ _ _
      · rfl

/-- **C96**: a command that is killed, at whatever moment, has changed nothing but its outputs. -/
theorem C96_frame (s : Stop) (E : Env F G1) (d : Draws F) (command : String) (args : List String) (fs : FS) (q : String)
    (hq : q ∉ outputs command args) : (execKilled C s E d command args fs).2 q = fs q := by
  have frame := C45_frame_partial (C := C) E d command args fs q hq
  unfold execKilled
  split
  · unfold p1nKilled badArgs
    split
    · rfl
    · rename_i hl
      obtain ⟨a, b, rfl⟩ := length_two (not_not.mp hl)
      split
      · rfl
      · split
        · rfl
        · exact during_frame (by simpa [outputs, arg] using hq) frame
  · unfold p1cKilled badArgs
    split
    · rfl
    · rename_i hl
      obtain ⟨a, b, rfl⟩ := length_two (not_not.mp hl)
      split
      · rfl
      · exact during_frame (by simpa [outputs, arg] using hq) frame
  · unfold p1tKilled badArgs
    split
    · rfl
    · rename_i hl
      obtain ⟨a, b, c, d', rfl⟩ := length_four (not_not.mp hl)
      split
      · rfl
      · split
        · rfl
        · split
          · rfl
          · split
            · rfl
            · refine during_frame (by simpa [outputs, arg] using hq) ?_
              unfold p1tRun
              split
              · rfl
              · split
                · rfl
                · exact set_other _ _ (by simpa [outputs, arg] using hq)
  · unfold p2nKilled badArgs
    split
    · rfl
    · rename_i hl
      obtain ⟨a, b, c, rfl⟩ := List.length_eq_three.mp (not_not.mp hl)
      exact initKilled_frame C E d.par _ _ _ _ _ fs q hq
  · unfold p2npKilled badArgs
    split
    · rfl
    · rename_i hl
      obtain ⟨a, b, c, d', e, f, rfl⟩ := length_six (not_not.mp hl)
      split
      · rfl
      · split
        · rfl
        · split
          · rfl
          · exact initKilled_frame C E d.par _ _ _ _ _ fs q hq
  · unfold p2cKilled badArgs
    split
    · rfl
    · rename_i hl
      obtain ⟨a, b, rfl⟩ := length_two (not_not.mp hl)
      split
      · rfl
      · exact during_frame (by simpa [outputs, arg] using hq) frame
  · unfold keyKilled badArgs
    split
    · rfl
    · rename_i hl
      obtain ⟨a, rfl⟩ := List.length_eq_one_iff.mp (not_not.mp hl)
      simp only [outputs, List.mem_cons, List.not_mem_nil, or_false, not_or] at hq
      refine inOrder_frame (withFilesMay_frame fun fs r o => ?_) (withFilesMay_frame fun fs r o => ?_) fs
      · split
        · exact set_other _ _ hq.1
        · exact during_frame (by simpa using hq.1) (set_other _ _ hq.1)
      · split
        · exact during_frame (by simpa using hq.2) (set_other _ _ hq.2)
        · exact set_other _ _ hq.2
  · unfold keysKilled badArgs
    split
    · rfl
    · rename_i hl
      obtain ⟨a, b, rfl⟩ := length_two (not_not.mp hl)
      simp only [outputs, List.map_cons, List.map_nil, List.mem_cons, List.not_mem_nil, or_false, not_or] at hq
      obtain ⟨h1, h2, h3, h4, h5, h6, h7, h8⟩ := hq
      have e1 : ∀ (fs : FS) o, saveSplitPK b fs o q = fs q := by
        intro fs o
        unfold saveSplitPK
        rw [set_other _ _ h6, set_other _ _ h5, set_other _ _ h4, set_other _ _ h3, set_other _ _ h2, set_other _ _ h1]
      have e2 : ∀ (fs : FS) o, saveSplitVK b fs o q = fs q := by
        intro fs o
        unfold saveSplitVK
        cases o.commitmentKey with
        | some bs => exact (set_other _ _ h8).trans (set_other _ _ h7)
        | none => exact set_other _ _ h7
      refine inOrder_frame (withFilesMay_frame fun fs r o => ?_) (withFilesMay_frame fun fs r o => ?_) fs
      · split
        · exact e1 fs o
        · refine during_frame (fun x hx he => ?_) (e1 fs o)
          have : q ∈ Cli.splitNames b := he ▸ (List.of_mem_zip hx).1
          simp [Cli.splitNames, h1, h2, h3, h4, h5, h6] at this
      · split
        · refine during_frame ?_ (e2 fs o)
          unfold splitVKFiles
          cases o.commitmentKey <;> simp [arg, h7, h8]
        · exact e2 fs o
  · unfold solKilled badArgs
    split
    · rfl
    · rename_i hl
      obtain ⟨a, rfl⟩ := List.length_eq_one_iff.mp (not_not.mp hl)
      split
      · rfl
      · exact during_frame (by simpa [outputs, arg] using hq) frame
  · exact frame

/-- any number of attempts, each with its own random values, each killed -/
def attempts (E : Env F G1) (command : String) (args : List String) (kills : List (Stop × Draws F)) (fs : FS) : FS :=
  kills.foldl (fun fs k => (execKilled C k.1 E k.2 command args fs).2) fs

theorem attempts_frame (E : Env F G1) (command : String) (args : List String) (kills : List (Stop × Draws F)) (fs : FS) (q : String)
    (hq : q ∉ outputs command args) : attempts C E command args kills fs q = fs q := by
  unfold attempts
  induction kills generalizing fs with
  | nil => rfl
  | cons k ks ih => exact (ih _).trans (C96_frame C k.1 E k.2 command args fs q hq)

/-- **C96**: a command that reads none of the files it writes can be run again after any number of interrupted attempts: it has the result of
a run without them and, if that is a success, leaves exactly the files of a run without them. For `p2np` the parts of the constraint system
count as read. -/
theorem C96_again (E : Env F G1) (htw : ∀ n s, (E.init.dom n).twiddlesInv s 0 = 1) (d : Draws F) (command : String) (args : List String) (fs : FS)
    (kills : List (Stop × Draws F)) (hdis : ∀ q ∈ inputs command args, q ∉ outputs command args)
    (hcs : command = "p2np" → ∀ later : FS, (∀ q, q ∉ outputs command args → later q = fs q) →
      ∀ s i j, E.parted (fs.set (arg args 2) []) s i j = E.parted (later.set (arg args 2) []) s i j) :
    (exec C E d command args (attempts C E command args kills fs)).1 = (exec C E d command args fs).1 ∧
    ((exec C E d command args fs).1 = .ok () →
      exec C E d command args (attempts C E command args kills fs) = exec C E d command args fs) := by
  have hf := attempts_frame C E command args kills fs
  obtain ⟨h1, h2⟩ := C73_repeat C E htw d d command args fs (attempts C E command args kills fs) (fun _ => ⟨rfl, rfl, rfl, rfl⟩)
    (fun q hq => (hf q (hdis q hq)).symm) (fun h => hcs h _ hf)
  refine ⟨h1.symm, fun h => Prod.ext h1.symm (funext fun q => ?_)⟩
  by_cases hq : q ∈ outputs command args
  · exact (h2 h q hq).symm
  · rw [C45_frame_partial E d command args _ q hq, C45_frame_partial E d command args fs q hq, hf q hq]

theorem withFilesMay_plain {O : Type} (ph2 : String) (body : Bytes → Bytes → Except Fail Unit × Option O) (save : FS → O → FS)
    (create : FS → Except Fail Unit → O → Except Fail Unit × FS) (h : ∀ fs r o, create fs r o = (r, save fs o)) :
    withFilesMay ph2 body create = withFiles ph2 body save := by
  funext fs
  unfold withFilesMay withFiles
  cases openFile fs ph2 with
  | error e => rfl
  | ok a =>
    dsimp only
    cases openFile fs "evals" with
    | error e => rfl
    | ok b =>
      dsimp only
      cases (body a b).2 with
      | none => rfl
      | some o => exact h _ _ _

/-- The kills of the model include the one that comes too late (`p2n` and `p2np` are in `C95_enough`). -/
theorem C96_late (s : Stop) (hs : 6 < s.files) (E : Env F G1) (d : Draws F) (command : String) (h1 : command ≠ "p2n") (h2 : command ≠ "p2np")
    (args : List String) (fs : FS) : execKilled C s E d command args fs = exec C E d command args fs := by
  have hd : ∀ outs (fs : FS) rest, outs.length ≤ 6 → s.during outs fs rest = rest := by
    intro outs fs rest h
    unfold Stop.during
    rw [if_pos (by omega)]
  unfold execKilled
  split
  · change _ = p1n C args fs
    unfold p1nKilled
    split
    · rw [p1n, if_pos (by assumption)]
    · rw [p1n, if_neg (by assumption)]
      cases atoi (arg args 0) with
      | error e => rfl
      | ok power =>
        dsimp only
        split
        · rfl
        · exact hd _ _ _ (by simp)
  · change _ = p1c C E.batch d.par d.contribute1 args fs
    unfold p1cKilled
    split
    · rw [p1c, if_pos (by assumption)]
    · cases ho : openFile fs (arg args 0) with
      | error e => rw [p1c, if_neg (by assumption), ho]
      | ok bs => exact hd _ _ _ (by simp)
  · change _ = p1t C args fs
    unfold p1tKilled p1t
    split
    · rfl
    · cases atoi (arg args 2) with
      | error e => rfl
      | ok i =>
        dsimp only
        cases atoi (arg args 3) with
        | error e => rfl
        | ok o =>
          dsimp only
          split
          · rw [p1tRun, if_pos (by assumption)]
          · cases ho : openFile fs (arg args 0) with
            | error e => rw [p1tRun, if_neg (by assumption), ho]
            | ok bs => exact hd _ _ _ (by simp)
  · exact absurd rfl h1
  · exact absurd rfl h2
  · change _ = p2c C E d.par d.contribute2 args fs
    unfold p2cKilled
    split
    · rw [p2c, if_pos (by assumption)]
    · cases ho : openFile fs (arg args 0) with
      | error e => rw [p2c, if_neg (by assumption), ho]
      | ok bs => exact hd _ _ _ (by simp)
  · change _ = key C E args fs
    unfold keyKilled key
    split
    · rfl
    · have e1 := withFilesMay_plain (arg args 0) (extractPK C E.keys) (fun fs o => fs.set "pk" o)
        (fun fs r o => if s.second then (r, fs.set "pk" o) else s.during [("pk", o)] fs (r, fs.set "pk" o))
        (fun fs r o => by rw [hd _ _ _ (by simp)]; simp)
      have e2 := withFilesMay_plain (arg args 0) (extractVK C E.keys) (fun fs o => fs.set "vk" o)
        (fun fs r o => if s.second then s.during [("vk", o)] fs (r, fs.set "vk" o) else (r, fs.set "vk" o))
        (fun fs r o => by rw [hd _ _ _ (by simp)]; simp)
      rw [e1, e2]
  · change _ = keys C E args fs
    unfold keysKilled keys
    split
    · rfl
    · have e1 := withFilesMay_plain (arg args 0) (extractSplitPK C E.keys) (saveSplitPK (arg args 1))
        (fun fs r o => if s.second then (r, saveSplitPK (arg args 1) fs o)
          else s.during (splitPKFiles (arg args 1) o) fs (r, saveSplitPK (arg args 1) fs o))
        (fun fs r o => by rw [hd _ _ _ (by simp [splitPKFiles, Cli.splitNames])]; simp)
      have hv : ∀ o, (splitVKFiles (arg args 1) o).length ≤ 6 := by
        intro o
        unfold splitVKFiles
        cases o.commitmentKey <;> simp
      have e2 := withFilesMay_plain (arg args 0) (extractSplitVK C E.keys) (saveSplitVK (arg args 1))
        (fun fs r o => if s.second then s.during (splitVKFiles (arg args 1) o) fs (r, saveSplitVK (arg args 1) fs o)
          else (r, saveSplitVK (arg args 1) fs o))
        (fun fs r o => by rw [hd _ _ _ (hv o)]; simp)
      rw [e1, e2]
  · change _ = sol E args fs
    unfold solKilled
    split
    · rw [sol, if_pos (by assumption)]
    · cases hb : (fs (arg args 0 ++ ".vk.save")).bind E.solidity with
      | none => rw [sol, if_neg (by assumption), hb]
      | some t => exact hd _ _ _ (by simp)
  · rfl

/-- What is found in a file afterwards: what was there before, or what the complete run leaves there, or a beginning of that. -/
def Begun (before after complete : Option Bytes) : Prop :=
  after = before ∨ after = complete ∨ ∃ c b, after = some c ∧ complete = some (c ++ b)

theorem during_begun {s : Stop} {outs : List (String × Bytes)} {fs : FS} {rest : Except Fail Unit × FS} (h : ∀ o ∈ outs, rest.2 o.1 = some o.2) :
    s.during outs fs rest = rest ∨ ((s.during outs fs rest).1 = .error killed ∧ ∀ q, (s.during outs fs rest).2 q = fs q ∨
      (q ∈ outs.map Prod.fst ∧ ∃ c b, (s.during outs fs rest).2 q = some c ∧ rest.2 q = some (c ++ b))) := by
  unfold Stop.during
  split
  · exact Or.inl rfl
  · have key : ∀ (l : List (String × Bytes)) (fs : FS) q, l.foldl (fun fs o => fs.set o.1 (o.2.take (s.len o.1))) fs q = fs q ∨
        ∃ o ∈ l, o.1 = q ∧ l.foldl (fun fs o => fs.set o.1 (o.2.take (s.len o.1))) fs q = some (o.2.take (s.len o.1)) := by
      intro l
      induction l with
      | nil => exact fun _ _ => Or.inl rfl
      | cons o l ih =>
        intro fs q
        rcases ih (fs.set o.1 (o.2.take (s.len o.1))) q with h | ⟨o', ho, e, h⟩
        · by_cases hq : q = o.1
          · refine Or.inr ⟨o, by simp, hq.symm, ?_⟩
            rw [List.foldl_cons, h]
            simp [FS.set, hq]
          · exact Or.inl (h.trans (set_other _ _ hq))
        · exact Or.inr ⟨o', by simp [ho], e, h⟩
    refine Or.inr ⟨rfl, fun q => ?_⟩
    rcases key (outs.take s.files) fs q with h' | ⟨o, ho, rfl, h'⟩
    · exact Or.inl h'
    · have ho' := List.mem_of_mem_take ho
      exact Or.inr ⟨List.mem_map_of_mem ho', _, o.2.drop (s.len o.1), h', by rw [List.take_append_drop]; exact h o ho'⟩

theorem during_one {s : Stop} {out : String} {full : Bytes} {fs : FS} {rest : Except Fail Unit × FS} (h : rest.2 out = some full) (q : String) :
    Begun (fs q) ((s.during [(out, full)] fs rest).2 q) (rest.2 q) := by
  rcases during_begun (s := s) (outs := [(out, full)]) (fs := fs) (rest := rest) (by simpa using h) with e | ⟨-, e⟩
  · exact Or.inr (Or.inl (by rw [e]))
  · rcases e q with e | ⟨-, e⟩
    · exact Or.inl e
    · exact Or.inr (Or.inr e)

/-- The first of two extractions is killed. -/
theorem inOrder_begun_first {A A' B : FS → Except Fail Unit × FS} {W : List String} {fs : FS} (hB : ∀ fs q, q ∈ W → (B fs).2 q = fs q)
    (h : A' fs = A fs ∨ ((A' fs).1 = .error killed ∧ ∀ q, (A' fs).2 q = fs q ∨ (q ∈ W ∧ ∃ c b, (A' fs).2 q = some c ∧ (A fs).2 q = some (c ++ b))))
    (q : String) : Begun (fs q) ((inOrder A' B fs).2 q) ((inOrder A B fs).2 q) := by
  unfold inOrder
  rcases h with h | ⟨h, h'⟩
  · rw [h]
    exact Or.inr (Or.inl rfl)
  · rcases hx : A' fs with ⟨r, t⟩
    rw [hx] at h h'
    simp only at h h'
    subst h
    rcases h' q with h' | ⟨hq, c, b, e1, e2⟩
    · exact Or.inl h'
    · refine Or.inr (Or.inr ⟨c, b, e1, ?_⟩)
      rcases hy : A fs with ⟨_ | u, t'⟩
      · rw [hy] at e2
        exact e2
      · rw [hy] at e2
        exact (hB t' q hq).trans e2

/-- The second of two extractions is killed. -/
theorem inOrder_begun_second {A B B' : FS → Except Fail Unit × FS} {W : List String} {fs : FS} (hA : ∀ q, q ∉ W → (A fs).2 q = fs q)
    (hB : ∀ fs q, q ∈ W → (B fs).2 q = fs q) (h : ∀ fs q, Begun (fs q) ((B' fs).2 q) ((B fs).2 q)) (q : String) :
    Begun (fs q) ((inOrder A B' fs).2 q) ((inOrder A B fs).2 q) := by
  unfold inOrder
  rcases hy : A fs with ⟨_ | u, t⟩
  · exact Or.inr (Or.inl rfl)
  · rw [hy] at hA
    rcases h t q with e | e
    · by_cases hq : q ∈ W
      · exact Or.inr (Or.inl (e.trans (hB t q hq).symm))
      · exact Or.inl (e.trans (hA q hq))
    · exact Or.inr e

theorem withFilesMay_begun {O : Type} {ph2 : String} {body : Bytes → Bytes → Except Fail Unit × Option O} {save : FS → O → FS}
    {create : FS → Except Fail Unit → O → Except Fail Unit × FS} {P : (Except Fail Unit × FS) → (Except Fail Unit × FS) → FS → Prop}
    (hP : ∀ x fs, P x x fs) (h : ∀ fs r o, P (create fs r o) (r, save fs o) fs) (fs : FS) :
    P (withFilesMay ph2 body create fs) (withFiles ph2 body save fs) fs := by
  unfold withFilesMay withFiles
  cases openFile fs ph2 with
  | error e => exact hP _ _
  | ok a =>
    dsimp only
    cases openFile fs "evals" with
    | error e => exact hP _ _
    | ok b =>
      dsimp only
      cases (body a b).2 with
      | none => exact hP _ _
      | some o => exact h _ _ _

theorem saveSplitVK_elsewhere (session : String) (fs : FS) (o : SplitVK) (q : String) (hq : q ∈ Cli.splitNames session) :
    saveSplitVK session fs o q = fs q := by
  have h : q ≠ session ++ ".vk.save" ∧ q ≠ session ++ ".pk.CommitmentKey.save" := by
    simp only [Cli.splitNames, List.map_cons, List.map_nil, List.mem_cons, List.not_mem_nil, or_false] at hq
    rcases hq with rfl | rfl | rfl | rfl | rfl | rfl <;> exact ⟨session_ne _ (by decide), session_ne _ (by decide)⟩
  unfold saveSplitVK
  cases o.commitmentKey with
  | some bs => exact (set_other _ _ h.2).trans (set_other _ _ h.1)
  | none => exact set_other _ _ h.1

theorem splitPK_during (s : Stop) (session : String) (fs : FS) (r : Except Fail Unit) (o : SplitPK) :
    let x := s.during (splitPKFiles session o) fs (r, saveSplitPK session fs o)
    x = (r, saveSplitPK session fs o) ∨ (x.1 = .error killed ∧ ∀ q, x.2 q = fs q ∨
      (q ∈ Cli.splitNames session ∧ ∃ c b, x.2 q = some c ∧ saveSplitPK session fs o q = some (c ++ b))) := by
  have e : (splitPKFiles session o).map Prod.fst = Cli.splitNames session := rfl
  rw [← e]
  refine during_begun (rest := (r, saveSplitPK session fs o)) ?_
  have n : ∀ {a b : String}, a ≠ b → session ++ a ≠ session ++ b := fun h => session_ne session h
  intro x hx
  simp only [splitPKFiles, Cli.splitNames, List.map_cons, List.map_nil, List.zip_cons_cons, List.zip_nil_right, List.mem_cons, List.not_mem_nil,
    or_false] at hx
  unfold saveSplitPK
  rcases hx with rfl | rfl | rfl | rfl | rfl | rfl
  · dsimp only
    rw [set_other _ _ (n (by decide)), set_other _ _ (n (by decide)), set_other _ _ (n (by decide)), set_other _ _ (n (by decide)),
      set_other _ _ (n (by decide))]
    simp [FS.set]
  · dsimp only
    rw [set_other _ _ (n (by decide)), set_other _ _ (n (by decide)), set_other _ _ (n (by decide)), set_other _ _ (n (by decide))]
    simp [FS.set]
  · dsimp only
    rw [set_other _ _ (n (by decide)), set_other _ _ (n (by decide)), set_other _ _ (n (by decide))]
    simp [FS.set]
  · dsimp only
    rw [set_other _ _ (n (by decide)), set_other _ _ (n (by decide))]
    simp [FS.set]
  · dsimp only
    rw [set_other _ _ (n (by decide))]
    simp [FS.set]
  · simp [FS.set]

theorem splitVK_during (s : Stop) (session : String) (fs : FS) (r : Except Fail Unit) (o : SplitVK) (q : String) :
    Begun (fs q) ((s.during (splitVKFiles session o) fs (r, saveSplitVK session fs o)).2 q) (saveSplitVK session fs o q) := by
  have h : ∀ x ∈ splitVKFiles session o, saveSplitVK session fs o x.1 = some x.2 := by
    intro x hx
    unfold splitVKFiles at hx
    unfold saveSplitVK
    cases hk : o.commitmentKey with
    | none =>
      simp only [hk, List.mem_cons, List.not_mem_nil, or_false] at hx
      subst hx
      simp [FS.set]
    | some bs =>
      simp only [hk, List.mem_cons, List.not_mem_nil, or_false] at hx
      rcases hx with rfl | rfl
      · dsimp only
        rw [set_other _ _ (session_ne session (by decide))]
        simp [FS.set]
      · simp [FS.set]
  rcases during_begun (s := s) (fs := fs) (rest := (r, saveSplitVK session fs o)) h with e | ⟨-, e⟩
  · exact Or.inr (Or.inl (by rw [e]))
  · rcases e q with e | ⟨-, e⟩
    · exact Or.inl e
    · exact Or.inr (Or.inr e)

/-- **C96**, what is left of the outputs (`p2n` and `p2np`: C95): of each file, what was there before, or what the complete run leaves, or a
beginning of that. -/
theorem C96_begun (s : Stop) (E : Env F G1) (d : Draws F) (command : String) (h1 : command ≠ "p2n") (h2 : command ≠ "p2np") (args : List String)
    (fs : FS) (q : String) : Begun (fs q) ((execKilled C s E d command args fs).2 q) ((exec C E d command args fs).2 q) := by
  have same : ∀ o b, Begun b o o := fun _ _ => Or.inr (Or.inl rfl)
  unfold execKilled
  split
  · change Begun _ _ ((p1n C args fs).2 q)
    unfold p1nKilled
    split
    · exact Or.inl rfl
    · cases ha : atoi (arg args 0) with
      | error e => exact Or.inl rfl
      | ok power =>
        dsimp only
        split
        · exact Or.inl rfl
        · refine during_one ?_ q
          simp only [p1n, ha]
          rw [if_neg (by assumption), if_neg (by assumption)]
          simp [FS.set]
  · change Begun _ _ ((p1c C E.batch d.par d.contribute1 args fs).2 q)
    unfold p1cKilled
    split
    · exact Or.inl rfl
    · cases ho : openFile fs (arg args 0) with
      | error e => exact Or.inl rfl
      | ok bs =>
        refine during_one ?_ q
        rw [p1c, if_neg (by assumption), ho]
        simp [FS.set, old]
  · change Begun _ _ ((p1t C args fs).2 q)
    unfold p1tKilled p1t
    split
    · exact Or.inl rfl
    · cases atoi (arg args 2) with
      | error e => exact Or.inl rfl
      | ok i =>
        dsimp only
        cases atoi (arg args 3) with
        | error e => exact Or.inl rfl
        | ok o =>
          dsimp only
          split
          · exact Or.inl rfl
          · cases ho : openFile fs (arg args 0) with
            | error e => exact Or.inl rfl
            | ok bs =>
              refine during_one ?_ q
              rw [p1tRun, if_neg (by assumption), ho]
              simp [FS.set, old]
  · exact absurd rfl h1
  · exact absurd rfl h2
  · change Begun _ _ ((p2c C E d.par d.contribute2 args fs).2 q)
    unfold p2cKilled
    split
    · exact Or.inl rfl
    · cases ho : openFile fs (arg args 0) with
      | error e => exact Or.inl rfl
      | ok bs =>
        refine during_one ?_ q
        rw [p2c, if_neg (by assumption), ho]
        simp [FS.set, old]
  · change Begun _ _ ((key C E args fs).2 q)
    unfold keyKilled key
    split
    · exact Or.inl rfl
    · cases hsec : s.second with
      | false =>
        simp only [Bool.false_eq_true, if_false]
        rw [withFilesMay_plain (arg args 0) (extractVK C E.keys) (fun fs o => fs.set "vk" o) _ fun _ _ _ => rfl]
        refine inOrder_begun_first (W := ["pk"]) (fun fs q hq => withFiles_frame (fun fs o => set_other _ _ (by simp at hq; simp [hq])) fs) ?_ q
        exact withFilesMay_begun (P := fun x y fs => x = y ∨ (x.1 = .error killed ∧ ∀ q, x.2 q = fs q ∨
          (q ∈ ["pk"] ∧ ∃ c b, x.2 q = some c ∧ y.2 q = some (c ++ b)))) (fun x fs => Or.inl rfl)
          (fun fs r o => during_begun (outs := [("pk", o)]) (by simp [FS.set])) fs
      | true =>
        simp only [if_true]
        rw [withFilesMay_plain (arg args 0) (extractPK C E.keys) (fun fs o => fs.set "pk" o) _ fun _ _ _ => rfl]
        refine inOrder_begun_second (W := ["pk"]) (fun q hq => withFiles_frame (fun fs o => set_other _ _ (by simpa using hq)) fs)
          (fun fs q hq => withFiles_frame (fun fs o => set_other _ _ (by simp at hq; simp [hq])) fs) (fun fs q => ?_) q
        exact withFilesMay_begun (P := fun x y fs => Begun (fs q) (x.2 q) (y.2 q)) (fun x fs => same _ _)
          (fun fs r o => during_one (by simp [FS.set]) q) fs
  · change Begun _ _ ((keys C E args fs).2 q)
    unfold keysKilled keys
    split
    · exact Or.inl rfl
    · cases hsec : s.second with
      | false =>
        simp only [Bool.false_eq_true, if_false]
        rw [withFilesMay_plain (arg args 0) (extractSplitVK C E.keys) (saveSplitVK (arg args 1)) _ fun _ _ _ => rfl]
        refine inOrder_begun_first (W := (Cli.splitNames (arg args 1))) (fun fs q hq => withFiles_frame (fun fs o => saveSplitVK_elsewhere _ _ _ _ hq) fs) ?_ q
        exact withFilesMay_begun (P := fun x y fs => x = y ∨ (x.1 = .error killed ∧ ∀ q, x.2 q = fs q ∨
          (q ∈ (Cli.splitNames (arg args 1)) ∧ ∃ c b, x.2 q = some c ∧ y.2 q = some (c ++ b)))) (fun x fs => Or.inl rfl)
          (fun fs r o => splitPK_during s (arg args 1) fs r o) fs
      | true =>
        simp only [if_true]
        rw [withFilesMay_plain (arg args 0) (extractSplitPK C E.keys) (saveSplitPK (arg args 1)) _ fun _ _ _ => rfl]
        refine inOrder_begun_second (W := (Cli.splitNames (arg args 1))) (fun q hq => withFiles_frame (fun fs o => splitPK_elsewhere _ _ _ _ hq) fs)
          (fun fs q hq => withFiles_frame (fun fs o => saveSplitVK_elsewhere _ _ _ _ hq) fs) (fun fs q => ?_) q
        exact withFilesMay_begun (P := fun x y fs => Begun (fs q) (x.2 q) (y.2 q)) (fun x fs => same _ _)
          (fun fs r o => splitVK_during s (arg args 1) fs r o q) fs
  · change Begun _ _ ((sol E args fs).2 q)
    unfold solKilled
    split
    · exact Or.inl rfl
    · cases hb : (fs (arg args 0 ++ ".vk.save")).bind E.solidity with
      | none => exact Or.inl rfl
      | some t =>
        refine during_one ?_ q
        rw [sol, if_neg (by assumption), hb]
        simp [FS.set]
  · exact same _ _

end

/-! ### cases -/

/-- killed after 40 bytes of the only output -/
def Toy.stop : Stop := ⟨1, fun _ => 40, false, 9, 3⟩

/-- `p2c` killed in the middle of its output, then killed before it has created it, then run: the files are those of the run alone. -/
example : exec Toy.curve Toy.cliEnv Toy.draws "p2c" ["ph2", "next"]
      (attempts Toy.curve Toy.cliEnv "p2c" ["ph2", "next"] [(Toy.stop, Toy.draws), ({ Toy.stop with files := 0 }, Toy.draws)] Toy.done)
    = exec Toy.curve Toy.cliEnv Toy.draws "p2c" ["ph2", "next"] Toy.done := by
  have h : Toy.isOk (exec Toy.curve Toy.cliEnv Toy.draws "p2c" ["ph2", "next"] Toy.done) = true := by decide +kernel
  exact (C96_again Toy.curve Toy.cliEnv Toy.env_twiddles Toy.draws "p2c" ["ph2", "next"] Toy.done _ (by decide)
    (fun h => absurd h (by decide))).2
    (congrArg Prod.fst (Toy.runs_eq h))

/-- `p2n` for another circuit -/
example (kills : List (Stop × Draws Toy.K)) : exec Toy.curve Toy.cliEnv Toy.draws "p2n" ["srs", "two", "other"]
      (attempts Toy.curve Toy.cliEnv "p2n" ["srs", "two", "other"] kills Toy.done)
    = exec Toy.curve Toy.cliEnv Toy.draws "p2n" ["srs", "two", "other"] Toy.done := by
  have h : Toy.isOk (exec Toy.curve Toy.cliEnv Toy.draws "p2n" ["srs", "two", "other"] Toy.done) = true := by decide +kernel
  exact (C96_again Toy.curve Toy.cliEnv Toy.env_twiddles Toy.draws "p2n" ["srs", "two", "other"] Toy.done kills (by decide)
    (fun h => absurd h (by decide))).2
    (congrArg Prod.fst (Toy.runs_eq h))

-- the attempt had left 40 bytes; and of `key` the proving key and a part of the verifying key
example : ((execKilled Toy.curve Toy.stop Toy.cliEnv Toy.draws "p2c" ["ph2", "next"] Toy.done).2 "next").map List.length = some 40 ∧
    Toy.done "next" = none ∧
    (execKilled Toy.curve { Toy.stop with second := true } Toy.cliEnv Toy.draws "key" ["ph2"] Toy.done).2 "pk"
      = (exec Toy.curve Toy.cliEnv Toy.draws "key" ["ph2"] Toy.done).2 "pk" ∧
    ((execKilled Toy.curve { Toy.stop with second := true } Toy.cliEnv Toy.draws "key" ["ph2"] Toy.done).2 "vk").map List.length = some 40 := by
  decide +kernel

-- a beginning that is neither the old contents nor the complete ones
example : (execKilled Toy.curve { Toy.stop with files := 3 } Toy.cliEnv Toy.draws "keys" ["ph2", "t"] Toy.done).2 "t.pk.B1.save"
      ≠ (exec Toy.curve Toy.cliEnv Toy.draws "keys" ["ph2", "t"] Toy.done).2 "t.pk.B1.save" ∧
    ((execKilled Toy.curve { Toy.stop with files := 3 } Toy.cliEnv Toy.draws "keys" ["ph2", "t"] Toy.done).2 "t.pk.B1.save").map List.length
      = some 40 ∧
    (execKilled Toy.curve { Toy.stop with files := 3 } Toy.cliEnv Toy.draws "keys" ["ph2", "t"] Toy.done).2 "t.pk.Z.save" = none := by
  decide +kernel

example (s : Stop) (q : String) := C96_begun Toy.curve s Toy.cliEnv Toy.draws "keys" (by decide) (by decide) ["ph2", "t"] Toy.done q

example := C96_late Toy.curve { Toy.stop with files := 7 } (by decide) Toy.cliEnv Toy.draws "keys" (by decide) (by decide) ["ph2", "t"] Toy.done

end ZkSetup
