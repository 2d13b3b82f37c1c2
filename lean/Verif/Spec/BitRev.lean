/-
Bit reversal, stated on numbers.
-/
namespace ZkSetup

/-- the number whose `k` low bits are those of `i` in reverse order -/
def bitRev : (k i : Nat) → Nat
  | 0, _ => 0
  | k + 1, i => (i % 2) * 2 ^ k + bitRev k (i / 2)

example : (List.range 8).map (bitRev 3) = [0, 4, 2, 6, 1, 5, 3, 7] := by decide

end ZkSetup
