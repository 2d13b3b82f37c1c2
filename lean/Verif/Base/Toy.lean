import Verif.Base.Curve
import Verif.Base.Conc
import Mathlib.Algebra.Field.ZMod
import Mathlib.Tactic.NormNum.Prime
/-
A concrete lawful curve: all groups are `ZMod 17`, the pairing is multiplication. It shows that the assumed
laws are consistent and serves as witness in examples and refutations.
-/
namespace ZkSetup.Toy

instance : Fact (Nat.Prime 17) := ⟨by norm_num⟩

/-- scalars and all three groups -/
abbrev K := ZMod 17

/-- `n`-byte encodings: a flag byte, the value, zeros -/
def codec (n : Nat) : Codec K where
  size := n + 2
  compressed b := decide (b = 0x80)
  setBytes b := match b with
    | _ :: v :: _ => if v.toNat < 17 then some (v.toNat : K) else none
    | _ => none
  spoils b p := match b with
    | _ :: v :: _ => decide (v.toNat < 200 ∧ v.toNat % 17 ≠ p.val)
    | _ => false
  bytes p := 0x80 :: UInt8.ofNat p.val :: List.replicate n 0
  rawBytes p := 0 :: UInt8.ofNat p.val :: List.replicate (2 * n + 2) 0

theorem val_ofNat (p : K) : (UInt8.ofNat p.val).toNat = p.val := by
  have : p.val < 17 := ZMod.val_lt p
  simp; omega

theorem codec_lawful (n : Nat) : (codec n).Lawful where
  size_pos := by simp [codec]
  bytes_length p := by simp [codec]
  bytes_flag p := by simp [codec]
  set_bytes p := by
    have : p.val < 17 := ZMod.val_lt p
    simp only [codec, val_ofNat, this, if_true, ZMod.natCast_val, ZMod.cast_id', id_eq]
  raw_length p := by simp [codec]; omega
  raw_flag p := by simp [codec]
  set_raw p := by
    have : p.val < 17 := ZMod.val_lt p
    simp only [codec, val_ofNat, this, if_true, ZMod.natCast_val, ZMod.cast_id', id_eq]

/-- a position-weighted checksum -/
def checksum (b : Bytes) : Nat := b.foldl (fun acc x => (acc * 3 + x.toNat) % 65521) 1

/-- a toy 32-byte hash -/
def sha (b : Bytes) : Bytes := beBytes 32 (checksum b)

/-- a toy hash to G2: never the identity -/
def hashG2 (b : Bytes) (d : UInt8) : K := ((checksum b + d.toNat) % 16 + 1 : ℕ)

theorem hashG2_ne (b : Bytes) (d : UInt8) : hashG2 b d ≠ 0 := by
  unfold hashG2
  rw [Ne, ZMod.natCast_eq_zero_iff]
  intro h
  have := Nat.le_of_dvd (by omega) h
  omega

def curve : Curve K K K K where
  g1 := 1
  g2 := 1
  e x y := x * y
  c1 := codec 30
  c2 := codec 62
  sha := sha
  hashG2 := hashG2

theorem lawful : curve.Lawful where
  span1 P := ⟨P, by simp [curve]⟩
  span2 P := ⟨P, by simp [curve]⟩
  nondeg := by decide
  add_left _ _ _ := add_mul _ _ _
  add_right _ _ _ := mul_add _ _ _
  smul_left _ _ _ := mul_assoc _ _ _
  smul_right x P Q := mul_left_comm P x Q
  codec1 := codec_lawful 30
  codec2 := codec_lawful 62
  size1 := rfl
  size2 := rfl
  sha_length b := by simp [curve, sha]
  hash_ne := hashG2_ne

end ZkSetup.Toy
