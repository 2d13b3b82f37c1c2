import Mathlib.Data.Nat.Digits.Defs
import Verif.Base.Go
/-
What the command line should do: which number an argument denotes, and which files a command may write.
-/
namespace ZkSetup

/-- a nonempty string of decimal digits and its value -/
def Decimal (cs : List Char) (n : Nat) : Prop :=
  ∃ ds : List Nat, ds ≠ [] ∧ (∀ d ∈ ds, d < 10) ∧ cs = ds.map Nat.digitChar ∧ n = Nat.ofDigits 10 ds.reverse

/-- A decimal number with an optional sign. -/
def Denotes (s : String) (i : Int) : Prop :=
  (∃ n, Decimal s.toList n ∧ i = n) ∨ (∃ cs n, s.toList = '+' :: cs ∧ Decimal cs n ∧ i = n)
    ∨ (∃ cs n, s.toList = '-' :: cs ∧ Decimal cs n ∧ i = -(n : Int))

/-- The files a command may write, from the usage texts: its output, and the files with fixed names. -/
def outputs (command : String) (args : List String) : List String :=
  match command, args with
  | "p1n", [_, out] => [out]
  | "p1c", [_, out] => [out]
  | "p1t", [_, out, _, _] => [out]
  | "p2n", [_, _, out] => [out, "srs.lag", "evals"]
  | "p2np", [_, _, out, _, _, _] => [out, "srs.lag", "evals"]
  | "p2c", [_, out] => [out]
  | "key", [_] => ["pk", "vk"]
  | "keys", [_, session] =>
    [".pk.E.save", ".pk.A.save", ".pk.B1.save", ".pk.Z.save", ".pk.K.save", ".pk.B2.save", ".vk.save",
      ".pk.CommitmentKey.save"].map (session ++ ·)
  | "sol", [session] => [session ++ ".sol"]
  | _, _ => []

end ZkSetup
