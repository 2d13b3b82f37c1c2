import Verif.Spec.AnyContribute
/-
A file whose last bytes are missing.
-/
namespace ZkSetup

/-- the last `k` bytes of a hash replaced by zeros -/
def zeroTail (k : Nat) (h : Bytes) : Bytes := h.take (32 - k) ++ List.replicate k 0

/-- the phase 1 file with the last `k` bytes of its last hash replaced by zeros -/
def P1File.zeroTail {G1 G2 : Type} (f : P1File G1 G2) (k : Nat) : P1File G1 G2 :=
  { f with records := f.records.dropLast ++ (f.records.getLast?.map fun r => { r with hash := ZkSetup.zeroTail k r.hash }).toList }

/-- the phase 2 file with the last `k` bytes of its last hash replaced by zeros -/
def P2File.zeroTail {G1 G2 : Type} (f : P2File G1 G2) (k : Nat) : P2File G1 G2 :=
  { f with records := f.records.dropLast ++ (f.records.getLast?.map fun r => { r with hash := ZkSetup.zeroTail k r.hash }).toList }

end ZkSetup
