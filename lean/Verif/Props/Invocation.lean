import Verif.Props.Cli
import Verif.Spec.Invocation
import Verif.Spec.Repeat
/-
C74: a command that is called wrongly fails before it touches a file.
-/
set_option linter.unusedSectionVars false

namespace ZkSetup

open Cli Phase2

section
variable {F G1 G2 GT : Type} [Field F] [AddCommGroup G1] [Module F G1] [AddCommGroup G2]
  [Module F G2] [AddCommGroup GT] [Module F GT] [DecidableEq G1] [DecidableEq G2] [DecidableEq GT]
variable (C : Curve F G1 G2 GT)

/-- **C74**: a command that does not exist, or is called with the wrong number of arguments, fails (with an error, not a panic) and
changes no file. -/
theorem C74_arguments (E : Env F G1) (d : Draws F) (name : String) (args : List String) (fs : FS) (h : arity name ≠ some args.length) :
    ∃ msg, exec C E d name args fs = (.error (.err msg), fs) := by
  unfold exec
  split
  all_goals first
    | exact ⟨_, rfl⟩
    | (have hl : args.length ≠ _ := fun hl => h (by rw [hl]; rfl)
       first
         | (unfold p1n; rw [if_pos hl]; exact ⟨_, rfl⟩)
         | (unfold p1c; rw [if_pos hl]; exact ⟨_, rfl⟩)
         | (unfold p1v; rw [if_pos hl]; exact ⟨_, rfl⟩)
         | (unfold p1t; rw [if_pos hl]; exact ⟨_, rfl⟩)
         | (unfold p1vt; rw [if_pos hl]; exact ⟨_, rfl⟩)
         | (unfold p2n; rw [if_pos hl]; exact ⟨_, rfl⟩)
         | (unfold p2np; rw [if_pos hl]; exact ⟨_, rfl⟩)
         | (unfold p2c; rw [if_pos hl]; exact ⟨_, rfl⟩)
         | (unfold p2v; rw [if_pos hl]; exact ⟨_, rfl⟩)
         | (unfold key; rw [if_pos hl]; exact ⟨_, rfl⟩)
         | (unfold keys; rw [if_pos hl]; exact ⟨_, rfl⟩)
         | (unfold sol; rw [if_pos hl]; exact ⟨_, rfl⟩))

/-- **C74**: a number that is not a decimal number of 64 bits makes the command fail; no file is changed. -/
theorem C74_numbers (E : Env F G1) (d : Draws F) (name : String) (args : List String) (fs : FS) (x : String) (hx : x ∈ numbers name args)
    (h : ∀ i, Denotes x i → ¬ (-(2 ^ 63) ≤ i ∧ i < 2 ^ 63)) : ∃ msg, exec C E d name args fs = (.error (.err msg), fs) := by
  obtain ⟨m, hm⟩ := atoi_error (s := x) fun i h1 h2 h3 => h i h1 ⟨h2, h3⟩
  have err : ∀ (y : String) (e : Fail), atoi y = .error e → ∃ msg, e = .err msg := by
    intro y e he
    unfold atoi at he
    split at he
    · split at he
      · cases he
      · exact ⟨_, (Except.error.inj he).symm⟩
    · exact ⟨_, (Except.error.inj he).symm⟩
  unfold numbers at hx
  split at hx
  · simp only [List.mem_singleton] at hx
    subst hx
    exact ⟨m, by simp [exec, p1n, arg, hm]⟩
  · rename_i a b i o
    simp only [List.mem_cons, List.not_mem_nil, or_false] at hx
    simp only [exec, p1t, arg, List.length_cons, List.length_nil, ne_eq, List.getD_cons_succ, List.getD_cons_zero]
    rw [if_neg (by simp)]
    rcases h1 : atoi i with e | i'
    · obtain ⟨msg, rfl⟩ := err _ _ h1
      exact ⟨msg, rfl⟩
    · rcases hx with rfl | rfl
      · rw [hm] at h1; cases h1
      · rw [hm]; exact ⟨m, rfl⟩
  · rename_i a b c n1 n2 n3
    simp only [List.mem_cons, List.not_mem_nil, or_false] at hx
    simp only [exec, p2np, arg, List.length_cons, List.length_nil, ne_eq, List.getD_cons_succ, List.getD_cons_zero]
    rw [if_neg (by simp)]
    rcases h1 : atoi n1 with e | i1
    · obtain ⟨msg, rfl⟩ := err _ _ h1
      exact ⟨msg, rfl⟩
    · rcases h2 : atoi n2 with e | i2
      · obtain ⟨msg, rfl⟩ := err _ _ h2
        exact ⟨msg, rfl⟩
      · rcases hx with rfl | rfl | rfl
        · rw [hm] at h1; cases h1
        · rw [hm] at h2; cases h2
        · rw [hm]; exact ⟨m, rfl⟩
  · simp at hx

/-- **C74** with the exception of the constraint system of `p2n`: a command fails if a file it reads does not exist, and then changes
no file. (An empty path for the transformed file means that there is none.) -/
theorem C74_missing_partial (E : Env F G1) (d : Draws F) (name : String) (args : List String) (fs : FS) (q : String)
    (hq : q ∈ inputs name args) (hn : fs q = none) (hne : q ≠ "") (hr : ∀ a b, name = "p2n" → args = [a, q, b] → fs a = none) :
    ∃ e, exec C E d name args fs = (.error e, fs) := by
  have ho : openFile fs q = .error (.err "no such file or directory") := by unfold openFile; rw [hn]
  have opened : ∀ p : String, fs p = none → openFile fs p = .error (.err "no such file or directory") := fun p hp => by
    unfold openFile; rw [hp]
  have keyed : ∀ {O : Type} (ph2 : String) (body : Bytes → Bytes → Except Fail Unit × Option O) (save : FS → O → FS)
      (g : FS → Except Fail Unit × FS), (q = ph2 ∨ q = "evals") → ∃ e, inOrder (withFiles ph2 body save) g fs = (.error e, fs) := by
    intro O ph2 body save g hq
    unfold inOrder withFiles
    rcases hq with rfl | rfl
    · rw [ho]; exact ⟨_, rfl⟩
    · cases openFile fs ph2 with
      | error e => exact ⟨_, rfl⟩
      | ok a =>
        simp only [ho]
        exact ⟨_, rfl⟩
  unfold inputs at hq
  split at hq <;> simp only [List.mem_cons, List.not_mem_nil, or_false] at hq
  · subst hq
    exact ⟨_, by simp only [exec, p1c, arg, List.getD_cons_zero, ho]; rfl⟩
  · subst hq
    rename_i a b i o
    simp only [exec, p1t, arg, List.length_cons, List.length_nil, ne_eq, List.getD_cons_succ, List.getD_cons_zero]
    rw [if_neg (by simp)]
    rcases atoi i with e | i'
    · exact ⟨_, rfl⟩
    · rcases atoi o with e | o'
      · exact ⟨_, rfl⟩
      · simp only [p1tRun, ho]
        split <;> exact ⟨_, rfl⟩
  · subst hq
    exact ⟨_, by simp only [exec, p1v, arg, p1Verify, List.getD_cons_zero, ho]; rfl⟩
  · rename_i a b
    simp only [exec, p1vt, arg, List.length_cons, List.length_nil, ne_eq, List.getD_cons_succ, List.getD_cons_zero, p1Verify]
    rw [if_neg (by simp)]
    rcases hq with rfl | rfl
    · rw [ho]; exact ⟨_, rfl⟩
    · cases openFile fs a with
      | error e => exact ⟨_, rfl⟩
      | ok bs =>
        refine ⟨.err "no such file or directory", ?_⟩
        unfold openTransformed
        rw [if_neg hne, ho]
        rfl
  · rename_i a b c
    simp only [exec, p2n, arg, List.length_cons, List.length_nil, ne_eq, List.getD_cons_succ, List.getD_cons_zero]
    rw [if_neg (by simp)]
    have : fs a = none := by
      rcases hq with rfl | rfl
      · exact hn
      · exact hr a c rfl rfl
    rw [opened a this]
    exact ⟨_, rfl⟩
  · subst hq
    rename_i a b n1 n2 n3 n4
    simp only [exec, p2np, arg, List.length_cons, List.length_nil, ne_eq, List.getD_cons_succ, List.getD_cons_zero]
    rw [if_neg (by simp)]
    rcases atoi n2 with e | i1
    · exact ⟨_, rfl⟩
    · rcases atoi n3 with e | i2
      · exact ⟨_, rfl⟩
      · rcases atoi n4 with e | i3
        · exact ⟨_, rfl⟩
        · simp only [p2npRun, ho]
          exact ⟨_, rfl⟩
  · subst hq
    exact ⟨_, by simp only [exec, p2c, arg, List.getD_cons_zero, ho]; rfl⟩
  · rename_i a b
    simp only [exec, p2v, arg, List.length_cons, List.length_nil, ne_eq, List.getD_cons_succ, List.getD_cons_zero, p2Verify]
    rw [if_neg (by simp)]
    rcases hq with rfl | rfl
    · rw [ho]; exact ⟨_, rfl⟩
    · cases openFile fs a with
      | error e => exact ⟨_, rfl⟩
      | ok bs => rw [ho]; exact ⟨_, rfl⟩
  · exact keyed _ _ _ _ hq
  · exact keyed _ _ _ _ hq
  · subst hq
    refine ⟨.panic "read file error", ?_⟩
    simp only [exec, sol, arg, List.length_cons, List.length_nil, ne_eq, List.getD_cons_zero, hn, Option.bind_none]
    rfl

/-- **C74** is false for the constraint system of `p2n`: if it does not exist, the command fails, but only after it has emptied the
output, whatever it held. -/
theorem C74_p2n_false (E : Env F G1) (d : Draws F) (phase1 r1cs out : String) (fs : FS) (bs : Bytes) (h1 : fs phase1 = some bs)
    (h2 : fs r1cs = none) (h3 : r1cs ≠ out) :
    ∃ e, exec C E d "p2n" [phase1, r1cs, out] fs = (.error e, fs.set out []) := by
  refine ⟨.err "no such file or directory", ?_⟩
  have : (fs.set out []) r1cs = none := by rw [set_other _ _ h3]; exact h2
  simp only [exec, p2n, arg, List.length_cons, List.length_nil, ne_eq, List.getD_cons_succ, List.getD_cons_zero, openFile, h1, this]
  rfl

end

example (d : Draws Toy.K) (fs : FS) := C74_arguments Toy.curve Toy.cliEnv d "p1c" ["in", "out", "extra"] fs (by decide)
example (d : Draws Toy.K) (fs : FS) := C74_arguments Toy.curve Toy.cliEnv d "p3n" ["in", "out"] fs (by decide)

-- a power of 20 digits
example (d : Draws Toy.K) (fs : FS) := C74_numbers Toy.curve Toy.cliEnv d "p1n" ["99999999999999999999", "out"] fs "99999999999999999999"
  (by simp [numbers]) fun i h => by
    have := (atoiSigned_iff _ i).mpr h
    have e : atoiSigned "99999999999999999999".toList = some 99999999999999999999 := by decide +kernel
    rw [e] at this
    cases this
    omega
-- the third number of `p2np` is none
example (d : Draws Toy.K) (fs : FS) := C74_numbers Toy.curve Toy.cliEnv d "p2np" ["ph1", "r1cs", "ph2", "1", "1", "0x10"] fs "0x10"
  (by simp [numbers]) fun i h => by
    have := (atoiSigned_iff _ i).mpr h
    have e : atoiSigned "0x10".toList = none := by decide +kernel
    rw [e] at this
    cases this

-- the file to compare with is missing
example (d : Draws Toy.K) := C74_missing_partial Toy.curve Toy.cliEnv d "p2v" ["final", "origin"]
  (FS.set (fun _ => none) "final" [1, 2]) "origin" (by simp [inputs]) (by simp [FS.set]) (by decide) (by simp)

-- the second run of `p2n`, with a mistyped name: the parameters of the first run are lost
example (d : Draws Toy.K) : ∃ e, exec Toy.curve Toy.cliEnv d "p2n" ["ph1", "r1sc", "ph2"]
    (FS.set (FS.set (fun _ => none) "ph1" [1]) "ph2" [5, 6, 7]) = (.error e, FS.set (FS.set (FS.set (fun _ => none) "ph1" [1]) "ph2" [5, 6, 7]) "ph2" []) :=
  C74_p2n_false Toy.curve Toy.cliEnv d "ph1" "r1sc" "ph2" _ [1] (by simp [FS.set]) (by simp [FS.set]) (by decide)

end ZkSetup
