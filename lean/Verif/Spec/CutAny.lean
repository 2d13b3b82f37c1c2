import Verif.Spec.CutContribute
/-
Cutting bytes short.
-/
namespace ZkSetup

/-- The hash read at position `q` of the bytes: the next `room` bytes, or what is left if that is less (but not nothing), filled up with
zeros to 32 bytes. -/
def HashAt (room : Nat) (input : Bytes) (q : Nat) (x : Bytes) : Prop :=
  q < input.length ∧ x = (input.drop q).take room ++ List.replicate (32 - min room (input.length - q)) 0

/-- the bytes of the hash after the first `k` are zeros -/
def ZeroFrom (k : Nat) (x : Bytes) : Prop := x.drop k = List.replicate (32 - k) 0

end ZkSetup
