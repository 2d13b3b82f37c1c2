import Verif.Spec.Gob
import Verif.Proofs.Gob
import Verif.Spec.Phase2
import Mathlib.Data.Nat.Digits.Lemmas
/-
The format of the phase 2 header: C28.
-/
set_option linter.unusedSectionVars false

namespace ZkSetup

open Phase2 Gob

theorem byteLenAux_eq (fuel n : Nat) (h : n < 256 ^ fuel) : byteLenAux fuel n = (Nat.digits 256 n).length := by
  induction fuel generalizing n with
  | zero => rw [show n = 0 by simpa using h]; rfl
  | succ fuel ih =>
    unfold byteLenAux
    by_cases h0 : n = 0
    · simp [h0]
    · rw [if_neg h0, ih _ (Nat.div_lt_of_lt_mul (by rw [Nat.pow_succ] at h; omega)),
        Nat.digits_def' (b := 256) (n := n) (by omega) (by omega), List.length_cons]

theorem beBytes_digits (k n : Nat) (h : (Nat.digits 256 n).length = k) : beBytes k n = (Nat.digits 256 n).reverse.map UInt8.ofNat := by
  induction k generalizing n with
  | zero => rw [List.length_eq_zero_iff.mp h]; rfl
  | succ k ih =>
    have h0 : n ≠ 0 := by rintro rfl; simp at h
    rw [Nat.digits_def' (b := 256) (n := n) (by omega) (by omega)] at h ⊢
    rw [beBytes, ih _ (by simpa using h)]
    simp

theorem uintBytes_eq (n : Nat) (h : n < 2 ^ 64) : uintBytes n = Format.uint n := by
  unfold uintBytes Format.uint byteLen
  rw [byteLenAux_eq 8 n (by omega), beBytes_digits _ n rfl]

theorem intBytes_eq (i : Int) (h : -(2 ^ 63) ≤ i ∧ i < 2 ^ 63) : intBytes i = Format.int i := by
  unfold intBytes zigzag
  cases i with
  | ofNat n =>
    simp only [Int.ofNat_eq_natCast] at h ⊢
    rw [if_pos (by omega), uintBytes_eq _ (by omega)]
    show Format.uint _ = Format.uint _
    congr 1
  | negSucc n =>
    rw [if_neg (by omega), uintBytes_eq _ (by omega)]
    show Format.uint _ = Format.uint _
    congr 1
    omega

/-- the fields from number `k`, if the last one written has number `p` -/
theorem fieldBytes_eq (l : List Int) (h : ∀ i ∈ l, -(2 ^ 63) ≤ i ∧ i < 2 ^ 63) (p k : Nat) (hk : p ≤ k) (hb : k - p + l.length < 2 ^ 64) :
    let present := ((l.map Format.field).zipIdx k).filterMap fun f => f.1.map fun v => (f.2, v)
    fieldBytes (k - p) l
      = ((present.zip (p :: present.map Prod.fst)).flatMap fun f => Format.uint (f.1.1 - f.2) ++ f.1.2) ++ Format.uint 0 := by
  induction l generalizing p k with
  | nil => rfl
  | cons v vs ih =>
    intro present
    have hvs : ∀ i ∈ vs, -(2 ^ 63) ≤ i ∧ i < 2 ^ 63 := fun i hi => h i (List.mem_cons_of_mem _ hi)
    rw [List.length_cons] at hb
    unfold fieldBytes
    by_cases h0 : v = 0
    · rw [if_pos h0, show k - p + 1 = k + 1 - p by omega, ih hvs p (k + 1) (by omega) (by omega)]
      simp [present, h0, Format.field]
    · rw [if_neg h0, show (1 : Nat) = k + 1 - k by omega, ih hvs k (k + 1) (by omega) (by omega), uintBytes_eq _ (by omega),
        intBytes_eq v (h v List.mem_cons_self)]
      simp [present, h0, Format.field, List.append_assoc]

/-- **C28**, format: what the header of a phase 2 file is written as, by the rules of the gob documentation: the definition of a
struct type `Header` with seven fields of type `int`, named as in the code, and a value of this type. -/
theorem C28_header_format (h : Header) (hr : h.InRange) :
    Gob.encode h
      = Format.structType 65 "Header" [("Wires", Format.intType), ("Witness", Format.intType), ("Public", Format.intType),
          ("PrivateCommitted", Format.intType), ("Constraints", Format.intType), ("Domain", Format.intType),
          ("Contributions", Format.intType)]
        ++ Format.message 65 (Format.struct ([h.wires, h.witness, h.pub, h.privateCommitted, h.constraints, h.domain,
          h.contributions].map Format.field)) := by
  have hlist := toList_range hr
  have hv : valueBytes h = Format.int 65 ++ Format.struct ([h.wires, h.witness, h.pub, h.privateCommitted, h.constraints, h.domain,
      h.contributions].map Format.field) := by
    unfold valueBytes
    rw [intBytes_eq 65 (by omega)]
    congr 1
    exact fieldBytes_eq (toList h) hlist 0 1 (by omega) (by simp [toList])
  have ht : messageBytes typeDef = Format.structType 65 "Header" [("Wires", Format.intType), ("Witness", Format.intType),
      ("Public", Format.intType), ("PrivateCommitted", Format.intType), ("Constraints", Format.intType), ("Domain", Format.intType),
      ("Contributions", Format.intType)] := by decide +kernel
  have hl : (valueBytes h).length < 2 ^ 64 := by
    have := fieldBytes_length (toList h) 1 (by simp [toList]) hlist
    have h65 : (intBytes 65).length = 2 := rfl
    unfold valueBytes
    rw [List.length_append, h65]
    have h7 : (toList h).length = 7 := rfl
    omega
  unfold Gob.encode
  rw [ht]
  unfold messageBytes Format.message
  rw [uintBytes_eq _ hl, hv]

-- a header with large, zero and negative fields
example := C28_header_format ⟨1000, -7, 3, 0, 2 ^ 40, 2 ^ 63 - 1, -(2 ^ 63)⟩
  ⟨by decide, by decide, by decide, by decide, by decide, by decide, by decide⟩

-- the example of the documentation: `Point{22, 33}`
example : Format.structType 65 "Point" [("X", Format.intType), ("Y", Format.intType)]
    ++ Format.message 65 (Format.struct [Format.field 22, Format.field 33])
    = [0x1f, 0xff, 0x81, 0x03, 0x01, 0x01, 0x05, 0x50, 0x6f, 0x69, 0x6e, 0x74, 0x01, 0xff, 0x82, 0x00, 0x01, 0x02, 0x01, 0x01, 0x58, 0x01,
      0x04, 0x00, 0x01, 0x01, 0x59, 0x01, 0x04, 0x00, 0x00, 0x00, 0x07, 0xff, 0x82, 0x01, 0x2c, 0x01, 0x42, 0x00] := by decide +kernel

end ZkSetup
