import Verif.Props.Cli
import Verif.Spec.Usage
/-
C90: the command lines that the documentation gives have the number of arguments that the program asks for.
-/
set_option linter.unusedSectionVars false

namespace ZkSetup

open Cli

section
variable {F G1 G2 GT : Type} [Field F] [AddCommGroup G1] [Module F G1] [AddCommGroup G2]
  [Module F G2] [AddCommGroup GT] [Module F GT] [DecidableEq G1] [DecidableEq G2] [DecidableEq GT]
variable {C : Curve F G1 G2 GT}

theorem atoi_not_refused (s : String) {e : Fail} (h : atoi s = .error e) : ¬ Refused (.error e : Except Fail Unit) := by
  have : e = .err "value out of range" ∨ e = .err "invalid syntax" := by
    unfold atoi at h
    split at h
    · split at h
      · simp at h
      · simp only [Except.error.injEq] at h
        exact .inl h.symm
    · simp only [Except.error.injEq] at h
      exact .inr h.symm
  unfold Refused
  rcases this with rfl | rfl <;> simp

/-- **C90**, the usage texts of the program: a command refuses every other number of arguments and then writes nothing; with this number of
arguments, whatever they are, the answer is another one. -/
theorem C90_usage (E : Env F G1) (d : Draws F) (command : String) (n : Nat) (h : (command, n) ∈ usage) (args : List String) :
    (args.length ≠ n → ∀ fs, Refused (exec C E d command args fs).1 ∧ (exec C E d command args fs).2 = fs) ∧
    (args.length = n → ¬ Refused (exec C E d command args fun _ => none).1) := by
  have hno : ¬ Refused (.error (.err "no such file or directory") : Except Fail Unit) := by simp [Refused]
  have hok : ¬ Refused (.ok ()) := by simp [Refused]
  simp only [usage, List.mem_cons, Prod.mk.injEq, List.not_mem_nil, or_false] at h
  rcases h with ⟨rfl, rfl⟩ | ⟨rfl, rfl⟩ | ⟨rfl, rfl⟩ | ⟨rfl, rfl⟩ | ⟨rfl, rfl⟩ | ⟨rfl, rfl⟩ | ⟨rfl, rfl⟩ | ⟨rfl, rfl⟩ | ⟨rfl, rfl⟩ |
    ⟨rfl, rfl⟩ | ⟨rfl, rfl⟩ | ⟨rfl, rfl⟩
  · refine ⟨fun hl fs => ?_, fun hl => ?_⟩
    · simp only [exec, p1n, if_pos hl]
      exact ⟨rfl, rfl⟩
    · simp only [exec, p1n, hl, ne_eq, not_true_eq_false, if_false]
      split
      · rename_i e he
        exact atoi_not_refused _ he
      · split
        · simp [Refused]
        · exact hok
  · refine ⟨fun hl fs => ?_, fun hl => ?_⟩
    · simp only [exec, p1c, if_pos hl]
      exact ⟨rfl, rfl⟩
    · simp only [exec, p1c, hl, ne_eq, not_true_eq_false, if_false, openFile]
      exact hno
  · refine ⟨fun hl fs => ?_, fun hl => ?_⟩
    · simp only [exec, p1v, if_pos hl]
      exact ⟨rfl, rfl⟩
    · simp only [exec, p1v, hl, ne_eq, not_true_eq_false, if_false, p1Verify, openFile]
      exact hno
  · refine ⟨fun hl fs => ?_, fun hl => ?_⟩
    · simp only [exec, p1t, if_pos hl]
      exact ⟨rfl, rfl⟩
    · simp only [exec, p1t, hl, ne_eq, not_true_eq_false, if_false]
      split
      · rename_i e he
        exact atoi_not_refused _ he
      · split
        · rename_i e he
          exact atoi_not_refused _ he
        · unfold p1tRun
          split
          · simp [Refused]
          · exact hno
  · refine ⟨fun hl fs => ?_, fun hl => ?_⟩
    · simp only [exec, p1vt, if_pos hl]
      exact ⟨rfl, rfl⟩
    · simp only [exec, p1vt, hl, ne_eq, not_true_eq_false, if_false, p1Verify, openFile]
      exact hno
  · refine ⟨fun hl fs => ?_, fun hl => ?_⟩
    · simp only [exec, p2n, if_pos hl]
      exact ⟨rfl, rfl⟩
    · simp only [exec, p2n, hl, ne_eq, not_true_eq_false, if_false, openFile]
      exact hno
  · refine ⟨fun hl fs => ?_, fun hl => ?_⟩
    · simp only [exec, p2np, if_pos hl]
      exact ⟨rfl, rfl⟩
    · simp only [exec, p2np, hl, ne_eq, not_true_eq_false, if_false]
      split
      · rename_i e he
        exact atoi_not_refused _ he
      · split
        · rename_i e he
          exact atoi_not_refused _ he
        · split
          · rename_i e he
            exact atoi_not_refused _ he
          · exact hno
  · refine ⟨fun hl fs => ?_, fun hl => ?_⟩
    · simp only [exec, p2c, if_pos hl]
      exact ⟨rfl, rfl⟩
    · simp only [exec, p2c, hl, ne_eq, not_true_eq_false, if_false, openFile]
      exact hno
  · refine ⟨fun hl fs => ?_, fun hl => ?_⟩
    · simp only [exec, p2v, if_pos hl]
      exact ⟨rfl, rfl⟩
    · simp only [exec, p2v, hl, ne_eq, not_true_eq_false, if_false, p2Verify, openFile]
      exact hno
  · refine ⟨fun hl fs => ?_, fun hl => ?_⟩
    · simp only [exec, key, if_pos hl]
      exact ⟨rfl, rfl⟩
    · simp only [exec, key, hl, ne_eq, not_true_eq_false, if_false, inOrder, withFiles, openFile]
      exact hno
  · refine ⟨fun hl fs => ?_, fun hl => ?_⟩
    · simp only [exec, Cli.keys, if_pos hl]
      exact ⟨rfl, rfl⟩
    · simp only [exec, Cli.keys, hl, ne_eq, not_true_eq_false, if_false, inOrder, withFiles, openFile]
      exact hno
  · refine ⟨fun hl fs => ?_, fun hl => ?_⟩
    · simp only [exec, sol, if_pos hl]
      exact ⟨rfl, rfl⟩
    · simp only [exec, sol, hl, ne_eq, not_true_eq_false, if_false, Option.bind_none]
      simp [Refused]

/-- **C90**, the README: all its command lines but the last have the number of arguments that the program asks for. -/
theorem C90_readme_partial (E : Env F G1) (d : Draws F) (command : String) (n : Nat) (h : (command, n) ∈ readme) (hk : command ≠ "keys")
    (args : List String) (hl : args.length = n) : ¬ Refused (exec C E d command args fun _ => none).1 := by
  refine (C90_usage E d command n ?_ args).2 hl
  simp only [readme, usage, List.mem_cons, Prod.mk.injEq, List.not_mem_nil, or_false] at h ⊢
  tauto

/-- **C90** is false for the last step of the README, `keys <lastPhase2Contribution.ph2>`, "which will output … `pk` and `vk` files": whatever
the file and whatever the other files, it is refused and writes nothing. -/
theorem C90_readme_false (E : Env F G1) (d : Draws F) (path : String) (fs : FS) : ("keys", [path].length) ∈ readme ∧
    Refused (exec C E d "keys" [path] fs).1 ∧ (exec C E d "keys" [path] fs).2 = fs :=
  ⟨by simp [readme], (C90_usage E d "keys" 2 (by decide) [path]).1 (by simp) fs⟩

end

-- a phase 2 file and the evaluations are there, and the documented command does not write keys
example : (exec Toy.curve Toy.cliEnv Toy.draws "keys" ["two"] Toy.files).2 "pk" = none := by
  rw [(C90_readme_false Toy.cliEnv Toy.draws "two" Toy.files).2.2]
  rfl
example := C90_readme_partial (C := Toy.curve) Toy.cliEnv Toy.draws "p2n" 3 (by decide) (by decide) ["a", "b", "c"] rfl
example := C90_usage (C := Toy.curve) Toy.cliEnv Toy.draws "p1t" 4 (by decide) ["a", "b"]

end ZkSetup
