import Verif.Spec.Transform
import Verif.Props.Phase1Sound
/-
C18: conversion of Powers-of-Tau responses.
-/
set_option linter.unusedSectionVars false

namespace ZkSetup

open Phase1

section
variable {F G1 G2 GT : Type} [Field F] [AddCommGroup G1] [Module F G1] [AddCommGroup G2]
  [Module F G2] [AddCommGroup GT] [Module F GT] [DecidableEq G1] [DecidableEq G2] [DecidableEq GT]

theorem flatMap_raw_length {G : Type} {c : Codec G} (hc : c.Lawful) (ps : List G) :
    (ps.flatMap c.rawBytes).length = 2 * c.size * ps.length := by
  induction ps with
  | nil => rfl
  | cons p ps ih =>
    rw [List.flatMap_cons, List.length_append, ih, hc.raw_length, List.length_cons, Nat.mul_succ]
    omega

theorem transformLoop_raw {G : Type} {c : Codec G} (hc : c.Lawful) (ps : List G) (cap pos : Nat) (ys out : Bytes) :
    transformPoints.loop c ps.length ⟨cap, pos, ps.flatMap c.rawBytes ++ ys⟩ out
      = (.ok (out ++ ps.flatMap c.bytes), out ++ ps.flatMap c.bytes) := by
  induction ps generalizing pos out with
  | nil => simp [transformPoints.loop]
  | cons p ps ih =>
    simp only [List.length_cons, transformPoints.loop, List.flatMap_cons, List.append_assoc,
      Codec.decode_raw hc]
    rw [ih, List.append_assoc]

/-- the section at `position` -/
theorem transformPoints_raw {G : Type} {c : Codec G} (hc : c.Lawful) (pre : Bytes) (ps : List G) (suf : Bytes)
    (position : Int) (hpos : position = pre.length) (n : Nat) (hn : n ≤ ps.length) :
    transformPoints c (pre ++ (ps.flatMap c.rawBytes ++ suf)) position n
      = (.ok ((ps.take n).flatMap c.bytes), (ps.take n).flatMap c.bytes) := by
  unfold transformPoints
  rw [if_neg (by omega), hpos, Int.toNat_natCast, List.drop_left]
  have hs : ps.flatMap c.rawBytes ++ suf
      = (ps.take n).flatMap c.rawBytes ++ ((ps.drop n).flatMap c.rawBytes ++ suf) := by
    rw [← List.append_assoc, ← List.flatMap_append, List.take_append_drop]
  have hl : (ps.take n).length = n := by simp; omega
  rw [hs]
  conv => lhs; rw [← hl]
  unfold Rd.buffered
  rw [hl]
  conv => lhs; arg 2; rw [← hl]
  rw [transformLoop_raw hc, List.nil_append]

variable {C : Curve F G1 G2 GT} (hC : C.Lawful)
include hC

/-- **C18**: for every response of power `a` (up to 54: a larger one would have more than 2^62 bytes) and every `b ≤ a`,
`Transform` succeeds and writes the phase 1 file of power `b` without contributions that consists of the first
`2^(b+1)-1`, `2^b`, `2^b`, `2^b` points of the sections and `[β]2`. That file is well-formed. Bytes after the response
have no influence. -/
theorem C18_transform (r : Response G1 G2) (a b : UInt8) (ha : a.toNat ≤ 54) (hab : b ≤ a) (hr : r.WF a.toNat)
    (junk : Bytes) :
    transform C a b (r.encode C ++ junk) = (.ok (), (r.prefix b).encode C) ∧ (r.prefix b).WF := by
  have hab' : b.toNat ≤ a.toNat := UInt8.le_iff_toNat_le.mp hab
  have hpow : 2 ^ b.toNat ≤ 2 ^ a.toNat := Nat.pow_le_pow_right (by omega) hab'
  have hpos : 0 < 2 ^ b.toNat := Nat.pow_pos (by omega)
  constructor
  · unfold transform
    simp only []
    rw [wrap_tau (p := a) (by omega), wrap_tau (p := b) (by omega), goPow2_eq (p := a) (by omega),
      goPow2_eq (p := b) (by omega)]
    have hle : 2 ^ a.toNat ≤ 2 ^ 54 := Nat.pow_le_pow_right (by omega) ha
    rw [wrap64_eq (x := 64 + ((2 * 2 ^ a.toNat - 1 : ℕ) : Int) * 64) (by omega) (by omega),
      wrap64_eq (x := 64 + ((2 * 2 ^ a.toNat - 1 : ℕ) : Int) * 64 + ((2 ^ a.toNat : ℕ) : Int) * 128) (by omega) (by omega),
      wrap64_eq (x := 64 + ((2 * 2 ^ a.toNat - 1 : ℕ) : Int) * 64 + ((2 ^ a.toNat : ℕ) : Int) * 128
        + ((2 ^ a.toNat : ℕ) : Int) * 64) (by omega) (by omega),
      wrap64_eq (x := 64 + ((2 * 2 ^ a.toNat - 1 : ℕ) : Int) * 64 + ((2 ^ a.toNat : ℕ) : Int) * 128
        + ((2 ^ a.toNat : ℕ) : Int) * 64 + ((2 ^ a.toNat : ℕ) : Int) * 64) (by omega) (by omega)]
    have e1 := hr.tauG1
    have e2 := hr.tauG2
    have e3 := hr.alphaG1
    have e4 := hr.betaG1
    have hs1 := hC.size1
    have hs2 := hC.size2
    have l1 := flatMap_raw_length hC.codec1 r.tauG1
    have l2 := flatMap_raw_length hC.codec2 r.tauG2
    have l3 := flatMap_raw_length hC.codec1 r.alphaG1
    have l4 := flatMap_raw_length hC.codec1 r.betaG1
    rw [hs1] at l1 l3 l4
    rw [hs2] at l2
    have h0 := hr.hash
    have t1 := transformPoints_raw hC.codec1 r.hash r.tauG1 (r.tauG2.flatMap C.c2.rawBytes
      ++ (r.alphaG1.flatMap C.c1.rawBytes ++ (r.betaG1.flatMap C.c1.rawBytes ++ (C.c2.rawBytes r.betaG2 ++ junk))))
      64 (by omega) (2 * 2 ^ b.toNat - 1) (by omega)
    have t2 := transformPoints_raw hC.codec2 (r.hash ++ r.tauG1.flatMap C.c1.rawBytes) r.tauG2
      (r.alphaG1.flatMap C.c1.rawBytes ++ (r.betaG1.flatMap C.c1.rawBytes ++ (C.c2.rawBytes r.betaG2 ++ junk)))
      (64 + ((2 * 2 ^ a.toNat - 1 : ℕ) : Int) * 64) (by rw [List.length_append]; omega) (2 ^ b.toNat) (by omega)
    have t3 := transformPoints_raw hC.codec1 (r.hash ++ r.tauG1.flatMap C.c1.rawBytes ++ r.tauG2.flatMap C.c2.rawBytes)
      r.alphaG1 (r.betaG1.flatMap C.c1.rawBytes ++ (C.c2.rawBytes r.betaG2 ++ junk))
      (64 + ((2 * 2 ^ a.toNat - 1 : ℕ) : Int) * 64 + ((2 ^ a.toNat : ℕ) : Int) * 128)
      (by rw [List.length_append, List.length_append]; omega) (2 ^ b.toNat) (by omega)
    have t4 := transformPoints_raw hC.codec1 (r.hash ++ r.tauG1.flatMap C.c1.rawBytes ++ r.tauG2.flatMap C.c2.rawBytes
      ++ r.alphaG1.flatMap C.c1.rawBytes) r.betaG1 (C.c2.rawBytes r.betaG2 ++ junk)
      (64 + ((2 * 2 ^ a.toNat - 1 : ℕ) : Int) * 64 + ((2 ^ a.toNat : ℕ) : Int) * 128 + ((2 ^ a.toNat : ℕ) : Int) * 64)
      (by rw [List.length_append, List.length_append, List.length_append]; omega) (2 ^ b.toNat) (by omega)
    have t5 := transformPoints_raw hC.codec2 (r.hash ++ r.tauG1.flatMap C.c1.rawBytes ++ r.tauG2.flatMap C.c2.rawBytes
      ++ r.alphaG1.flatMap C.c1.rawBytes ++ r.betaG1.flatMap C.c1.rawBytes) [r.betaG2] junk
      (64 + ((2 * 2 ^ a.toNat - 1 : ℕ) : Int) * 64 + ((2 ^ a.toNat : ℕ) : Int) * 128 + ((2 ^ a.toNat : ℕ) : Int) * 64
        + ((2 ^ a.toNat : ℕ) : Int) * 64)
      (by rw [List.length_append, List.length_append, List.length_append, List.length_append]; omega) 1 (by simp)
    simp only [List.flatMap_cons, List.flatMap_nil, List.append_nil, List.append_assoc, List.take_succ_cons,
      List.take_zero] at t1 t2 t3 t4 t5
    simp only [Int.toNat_natCast, Response.encode, List.append_assoc, t1, t2, t3, t4, t5]
    simp [P1File.encode, Response.prefix, P1File.params, Header.writeTo, putUint16, beBytes]
  · refine ⟨by simp [Response.prefix]; omega, ?_, ?_, ?_, ?_, by simp [Response.prefix], by simp [Response.prefix]⟩ <;>
      simp only [Response.prefix, List.length_take, hr.tauG1, hr.alphaG1, hr.betaG1, hr.tauG2] <;> omega

/-- **C18**, with C12: a response holding the powers of `τ, α, β` is converted into a file holding them. -/
theorem C18_powers (r : Response G1 G2) (a b : UInt8) (ha : a.toNat ≤ 54) (hab : b ≤ a) (hr : r.WF a.toNat)
    (τ α β : F) (h1 : ∀ i < 2 * 2 ^ a.toNat - 1, r.tauG1[i]? = some (τ ^ i • C.g1))
    (h2 : ∀ i < 2 ^ a.toNat, r.alphaG1[i]? = some ((α * τ ^ i) • C.g1) ∧ r.betaG1[i]? = some ((β * τ ^ i) • C.g1)
      ∧ r.tauG2[i]? = some (τ ^ i • C.g2))
    (h3 : r.betaG2 = β • C.g2) :
    ∃ f : P1File G1 G2, transform C a b (r.encode C) = (.ok (), f.encode C) ∧ f.WF ∧ f.Powers C τ α β ∧
      f.power = b ∧ f.records = [] := by
  have hab' : b.toNat ≤ a.toNat := UInt8.le_iff_toNat_le.mp hab
  have hpow : 2 ^ b.toNat ≤ 2 ^ a.toNat := Nat.pow_le_pow_right (by omega) hab'
  obtain ⟨t, w⟩ := C18_transform hC r a b ha hab hr []
  rw [List.append_nil] at t
  refine ⟨_, t, w, ?_, rfl, rfl⟩
  constructor
  · apply List.ext_getElem?
    intro i
    simp only [Response.prefix, List.getElem?_take, List.getElem?_map]
    split
    · rw [h1 i (by omega), List.getElem?_range (by assumption)]; rfl
    · rw [List.getElem?_eq_none (by simp; omega)]; rfl
  · apply List.ext_getElem?
    intro i
    simp only [Response.prefix, List.getElem?_take, List.getElem?_map]
    split
    · rw [(h2 i (by omega)).1, List.getElem?_range (by assumption)]; rfl
    · rw [List.getElem?_eq_none (by simp; omega)]; rfl
  · apply List.ext_getElem?
    intro i
    simp only [Response.prefix, List.getElem?_take, List.getElem?_map]
    split
    · rw [(h2 i (by omega)).2.1, List.getElem?_range (by assumption)]; rfl
    · rw [List.getElem?_eq_none (by simp; omega)]; rfl
  · apply List.ext_getElem?
    intro i
    simp only [Response.prefix, List.getElem?_take, List.getElem?_map]
    split
    · rw [(h2 i (by omega)).2.2, List.getElem?_range (by assumption)]; rfl
    · rw [List.getElem?_eq_none (by simp; omega)]; rfl
  · exact h3

end

namespace Toy

/-- a response of power 2 for τ = 2, α = 3, β = 5 -/
def response : Response K K :=
  { hash := List.replicate 64 7
    tauG1 := [1, 2, 4, 8, 16, 15, 13]
    tauG2 := [1, 2, 4, 8]
    alphaG1 := [3, 6, 12, 7]
    betaG1 := [5, 10, 3, 6]
    betaG2 := 5 }

theorem response_wf : response.WF 2 := ⟨rfl, rfl, rfl, rfl, rfl⟩

end Toy

example : transform Toy.curve 2 1 (Toy.response.encode Toy.curve ++ [1, 2])
    = (.ok (), (Toy.response.prefix 1).encode Toy.curve) :=
  (C18_transform Toy.lawful Toy.response 2 1 (by decide) (by decide) Toy.response_wf [1, 2]).1

example : (Toy.response.prefix 1).tauG1 = [1, 2, 4] ∧ (Toy.response.prefix 1).alphaG1 = [3, 6] := ⟨rfl, rfl⟩

example := C18_powers Toy.lawful Toy.response 2 1 (by decide) (by decide) Toy.response_wf 2 3 5 (by decide) (by decide)
  (by decide)

end ZkSetup
