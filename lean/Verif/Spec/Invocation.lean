/-
How the commands are to be called.
-/
namespace ZkSetup

/-- The number of arguments of each command, from the usage texts in `/repo/main.go`; `none`: there is no such command. -/
def arity : String → Option Nat
  | "p1n" => some 2
  | "p1c" => some 2
  | "p1v" => some 1
  | "p1t" => some 4
  | "p1vt" => some 2
  | "p2n" => some 3
  | "p2np" => some 6
  | "p2c" => some 2
  | "p2v" => some 2
  | "key" => some 1
  | "keys" => some 2
  | "sol" => some 1
  | _ => none

/-- The arguments of a command that are numbers. -/
def numbers (command : String) (args : List String) : List String :=
  match command, args with
  | "p1n", [power, _] => [power]
  | "p1t", [_, _, inPower, outPower] => [inPower, outPower]
  | "p2np", [_, _, _, nbCons, nbR1C, batchSize] => [nbCons, nbR1C, batchSize]
  | _, _ => []

end ZkSetup
