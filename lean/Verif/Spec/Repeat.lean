/-
What a repetition of a command has to agree on with the first run: the files the command reads, and the random values it draws.
-/
namespace ZkSetup

/-- The files a command reads, from the usage texts: those named in its arguments, and the evaluation file for the extraction of
keys. The directory with the parts of the constraint system, which `p2np` reads, is not included. -/
def inputs (command : String) (args : List String) : List String :=
  match command, args with
  | "p1c", [inp, _] => [inp]
  | "p1t", [inp, _, _, _] => [inp]
  | "p1v", [inp] => [inp]
  | "p1vt", [inp, transformed] => [inp, transformed]
  | "p2n", [phase1, r1cs, _] => [phase1, r1cs]
  | "p2np", [phase1, _, _, _, _, _] => [phase1]
  | "p2c", [inp, _] => [inp]
  | "p2v", [inp, origin] => [inp, origin]
  | "key", [phase2] => [phase2, "evals"]
  | "keys", [phase2, _] => [phase2, "evals"]
  | "sol", [session] => [session ++ ".vk.save"]
  | _, _ => []

/-- The commands whose run depends on random values (apart from the commitment key of `key` and `keys`). -/
def randomised (command : String) : Prop :=
  command = "p1c" ∨ command = "p1v" ∨ command = "p1vt" ∨ command = "p2c" ∨ command = "p2v"

end ZkSetup
