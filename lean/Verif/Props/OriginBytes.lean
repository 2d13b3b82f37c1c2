import Verif.Spec.OriginBytes
import Verif.Proofs.InitBytes
import Verif.Props.AnyVerify1
import Verif.Props.Origin
/-
C85: what a verification with a transformed file reads in any bytes of that file.
-/
set_option linter.unusedSectionVars false

namespace ZkSetup

open Phase1

section
variable {F G1 G2 GT : Type} [Field F] [AddCommGroup G1] [Module F G1] [AddCommGroup G2]
  [Module F G2] [AddCommGroup GT] [Module F GT] [DecidableEq G1] [DecidableEq G2] [DecidableEq GT]
variable {C : Curve F G1 G2 GT} (hC : C.Lawful)
include hC

/-- the record read from the transformed file -/
theorem defaultContribution_iff (file : Bytes) (t : Contribution G1 G2) :
    defaultContribution C (some file) = .ok t ↔ GivesOrigin C file t := by
  have hs1 := hC.codec1.size_pos
  have hs2 := hC.codec2.size_pos
  unfold defaultContribution
  simp only [except_bind_ok, seekDecode_listed hs1, seekDecode_listed hs2, Except.ok.injEq]
  constructor
  · rintro ⟨h, h0, a, ⟨-, k1⟩, b, ⟨l2, k2⟩, c, ⟨l3, k3⟩, d, ⟨l4, k4⟩, e, ⟨l5, k5⟩, rfl⟩
    have hl : 3 ≤ file.length := by
      have := listed_length hs1 _ _ k1
      rw [List.length_drop, hC.size1] at this
      simp only [List.length_cons, List.length_nil] at this
      have e35 : ((3 : Int) + 32).toNat = 35 := rfl
      rw [e35] at this
      omega
    obtain ⟨x, y, body, hf⟩ := header_read_inv h0 hl
    have hp : h.power.toNat ≤ 62 := by
      by_contra hp
      rw [show goPow2 h.power = -(2 ^ 63) by unfold goPow2; rw [if_neg hp]] at l2
      norm_num at l2
    refine ⟨⟨h.power, x, y, body, hf, hp, ?_⟩, ⟨rfl, rfl, rfl⟩, rfl⟩
    have hg : goPow2 h.power = ((2 ^ h.power.toNat : Nat) : Int) := goPow2_eq hp
    have hN : 0 < 2 ^ h.power.toNat := Nat.pow_pos (by omega)
    rw [hg] at k2 k3 k4 k5
    generalize 2 ^ h.power.toNat = N at *
    rw [show ((3 : Int) + 32 + (2 * (N : Int) - 2) * 32).toNat = 64 * N - 29 by omega] at k2
    rw [show ((3 : Int) + 32 + (2 * (N : Int) - 2) * 32 + N * 32).toNat = 96 * N - 29 by omega] at k3
    rw [show ((3 : Int) + 32 + (2 * (N : Int) - 2) * 32 + N * 32 + N * 32 + 64).toNat = 128 * N + 35 by omega] at k4
    rw [show ((3 : Int) + 32 + (2 * (N : Int) - 2) * 32 + N * 32 + N * 32 + 64 + (N - 1) * 64).toNat = 192 * N - 29 by omega] at k5
    exact ⟨k1, k2, k3, k4, k5⟩
  · rintro ⟨⟨p, x, y, body, hf, hp, k1, k2, k3, k4, k5⟩, ⟨q1, q2, q3⟩, q4⟩
    obtain ⟨n, hh⟩ := header_read3 p x y body
    rw [← hf] at hh
    have hg : goPow2 p = ((2 ^ p.toNat : Nat) : Int) := goPow2_eq hp
    have hN : 0 < 2 ^ p.toNat := Nat.pow_pos (by omega)
    refine ⟨_, hh, t.g1Tau, ⟨by norm_num, k1⟩, t.g1Alpha, ?_, t.g1Beta, ?_, t.g2Tau, ?_, t.g2Beta, ?_, ?_⟩
    · rw [hg]
      generalize 2 ^ p.toNat = N at *
      refine ⟨by omega, ?_⟩
      rwa [show ((3 : Int) + 32 + (2 * (N : Int) - 2) * 32).toNat = 64 * N - 29 by omega]
    · rw [hg]
      generalize 2 ^ p.toNat = N at *
      refine ⟨by omega, ?_⟩
      rwa [show ((3 : Int) + 32 + (2 * (N : Int) - 2) * 32 + N * 32).toNat = 96 * N - 29 by omega]
    · rw [hg]
      generalize 2 ^ p.toNat = N at *
      refine ⟨by omega, ?_⟩
      rwa [show ((3 : Int) + 32 + (2 * (N : Int) - 2) * 32 + N * 32 + N * 32 + 64).toNat = 128 * N + 35 by omega]
    · rw [hg]
      generalize 2 ^ p.toNat = N at *
      refine ⟨by omega, ?_⟩
      rwa [show ((3 : Int) + 32 + (2 * (N : Int) - 2) * 32 + N * 32 + N * 32 + 64 + (N - 1) * 64).toNat = 192 * N - 29 by omega]
    · rcases t with ⟨_, _, _, _, _, _, _, _, _⟩
      simp only at q1 q2 q3 q4
      subst q1 q2 q3 q4
      rfl

/-- **C85**: `p1vt` accepts any bytes with any bytes as transformed file exactly if the transformed file gives five points, the input holds
sections and records, every record read is a proven update of the one before it, beginning with the five points, and the sections are consistent
with the last record. -/
theorem C85_exact (par : Par) (pol : MsmPolicy) (b : Nat) (hb : 0 < b) (vr : VerifyRand F) (input base : Bytes) :
    verify C par pol b vr input (some base) = .ok () ↔ ∃ f t, HoldsFile C input f ∧ GivesOrigin C base t ∧ ChainOk C t f.records ∧
      SectionsOk C pol b vr f (f.records.getLast?.getD Contribution.zero) := by
  rw [C78_exact hC par pol b hb vr input (some base)]
  constructor
  · rintro ⟨f, hf, t, ht, h⟩
    exact ⟨f, t, hf, (defaultContribution_iff hC base t).mp ht, h⟩
  · rintro ⟨f, t, hf, ht, h⟩
    exact ⟨f, hf, t, (defaultContribution_iff hC base t).mpr ht, h⟩

/-- **C85**: a file gives at most one origin. -/
theorem C85_unique {base : Bytes} {t t' : Contribution G1 G2} (h : GivesOrigin C base t) (h' : GivesOrigin C base t') : t = t' := by
  have e := ((defaultContribution_iff hC base t).mpr h).symm.trans ((defaultContribution_iff hC base t').mpr h')
  exact Except.ok.inj e

/-- **C85**: of the transformed file only the five points count. Whatever the two files are otherwise — their power, the count in the header,
the other points, how the points are encoded, what follows — the outcome of every verification is the same. -/
theorem C85_same (par : Par) (pol : MsmPolicy) (b : Nat) (vr : VerifyRand F) (input base base' : Bytes) (t : Contribution G1 G2)
    (h : GivesOrigin C base t) (h' : GivesOrigin C base' t) :
    verify C par pol b vr input (some base) = verify C par pol b vr input (some base') := by
  have e := (defaultContribution_iff hC base t).mpr h
  have e' := (defaultContribution_iff hC base' t).mpr h'
  unfold verify verifyRest
  rw [e, e']

/-- **C85**: a transformed file from which the five points cannot be read makes every verification fail. -/
theorem C85_refused (par : Par) (pol : MsmPolicy) (b : Nat) (hb : 0 < b) (vr : VerifyRand F) (input base : Bytes)
    (hno : ∀ t : Contribution G1 G2, ¬ GivesOrigin C base t) : verify C par pol b vr input (some base) ≠ .ok () := by
  intro h
  obtain ⟨f, t, -, ht, -⟩ := (C85_exact hC par pol b hb vr input base).mp h
  exact hno t ht

/-- **C85**: a file of power 1 or more, whatever follows it, gives the points of the file. -/
theorem C85_file (t : P1File G1 G2) (ht : t.WF) (hp : 1 ≤ t.power.toNat) (junk : Bytes) :
    GivesOrigin C (t.encode C ++ junk) (originOf t) :=
  (defaultContribution_iff hC _ _).mp (defaultContribution_some hC t ht hp junk)

/-- **C85**, truncated files: the beginning of a transformed file gives points exactly if it contains all parameters, and then the same ones. -/
theorem C85_cut (t : P1File G1 G2) (ht : t.WF) (hp : 1 ≤ t.power.toNat) (m : Nat) (o : Contribution G1 G2) :
    GivesOrigin C ((t.encode C).take m) o ↔ 192 * 2 ^ t.power.toNat + 35 ≤ m ∧ o = originOf t := by
  have hs1 := hC.codec1.size_pos
  have hs2 := hC.codec2.size_pos
  have hN : 0 < 2 ^ t.power.toNat := Nat.pow_pos (by omega)
  have hpl : (t.params C).length = 192 * 2 ^ t.power.toNat + 32 := by
    unfold P1File.params
    simp only [List.length_append, section1_length hC, section2_length hC, ht.tauG1, ht.alphaG1, ht.betaG1, ht.tauG2, hC.codec2.bytes_length,
      hC.size2]
    omega
  have key : GivesOrigin C ((t.encode C).take m) o → GivesOrigin C (t.encode C) o := by
    rintro ⟨⟨p, x, y, body, hi, hp62, k1, k2, k3, k4, k5⟩, h, h'⟩
    refine ⟨⟨p, x, y, body ++ (t.encode C).drop m, ?_, hp62, ?_⟩, h, h'⟩
    · conv => lhs; rw [← List.take_append_drop m (t.encode C), hi]
      rfl
    · have hd : ∀ {G : Type} {c : Codec G} {q : G} {n : Nat}, 0 < c.size → Listed c [q] (((t.encode C).take m).drop n) →
          Listed c [q] ((t.encode C).drop n) := by
        intro G c q n hs hq
        have hl := listed_length hs _ _ hq
        have hln : n ≤ ((t.encode C).take m).length := by
          rw [List.length_drop] at hl
          simp only [List.length_cons, List.length_nil] at hl
          omega
        have := listed_more ((t.encode C).drop m) hq
        rwa [← List.drop_append_of_le_length hln, List.take_append_drop] at this
      exact ⟨hd hs1 k1, hd hs1 k2, hd hs1 k3, hd hs2 k4, hd hs2 k5⟩
  constructor
  · intro h
    have hw := C85_file hC t ht hp []
    rw [List.append_nil] at hw
    refine ⟨?_, C85_unique hC (key h) hw⟩
    obtain ⟨⟨p, x, y, body, hi, -, -, -, -, -, k5⟩, -⟩ := h
    have hl := listed_length hs2 _ _ k5
    rw [List.length_drop, hC.size2, List.length_take] at hl
    have hpe : p = t.power := by
      have h0 : ((t.encode C).take m)[0]? = some p := by rw [hi]; rfl
      have hm : 0 < m := by
        by_contra hm
        obtain rfl : m = 0 := by omega
        simp at h0
      rw [List.getElem?_take, if_pos hm] at h0
      simpa [P1File.encode] using h0.symm
    subst hpe
    simp only [List.length_cons, List.length_nil] at hl
    generalize 2 ^ t.power.toNat = N at *
    omega
  · rintro ⟨hm, rfl⟩
    have hcut : (t.encode C).take m = t.power :: UInt8.ofNat (t.records.length / 256) :: UInt8.ofNat (t.records.length % 256) ::
        (t.params C ++ (t.records.flatMap (recordBytes C)).take (m - 3 - (t.params C).length)) := by
      unfold P1File.encode
      obtain ⟨j, rfl⟩ : ∃ j, m = j + 3 := ⟨m - 3, by omega⟩
      simp only [List.cons_append, List.nil_append, List.take_succ_cons, Nat.add_sub_cancel]
      rw [List.take_append, List.take_of_length_le (by omega)]
    generalize (t.records.flatMap (recordBytes C)).take (m - 3 - (t.params C).length) = rest at hcut
    obtain ⟨⟨p, x, y, body, hi, -, k⟩, h, h'⟩ := C85_file hC ({ t with records := [] } : P1File G1 G2)
      ⟨ht.power, ht.tauG1, ht.alphaG1, ht.betaG1, ht.tauG2, by simp, by simp⟩ hp rest
    have henc : ({ t with records := [] } : P1File G1 G2).encode C ++ rest = t.power :: 0 :: 0 :: (t.params C ++ rest) := by
      simp [P1File.encode, P1File.params]
    rw [henc] at hi k
    simp only [List.cons.injEq] at hi
    obtain ⟨rfl, -⟩ := hi
    have hd : ∀ n, 3 ≤ n → (t.power :: (0 : UInt8) :: (0 : UInt8) :: (t.params C ++ rest)).drop n = ((t.encode C).take m).drop n := by
      intro n hn
      obtain ⟨j, rfl⟩ : ∃ j, n = j + 3 := ⟨n - 3, by omega⟩
      rw [hcut]
      rfl
    rw [hd _ (by omega), hd _ (by omega), hd _ (by omega), hd _ (by omega), hd _ (by omega)] at k
    exact ⟨⟨t.power, _, _, _, hcut, ht.power, k⟩, h, h'⟩

/-- **C85**, power 0: in a file of power 0, which `p1n 0 f` and `p1t r f n 0` create, there is no second point of `[τ]1` and of `[τ]2`. What is
read instead is `[α]1` and `[β]2`. -/
theorem C85_power0 (t : P1File G1 G2) (ht : t.WF) (h0 : t.power = 0) (junk : Bytes) :
    GivesOrigin C (t.encode C ++ junk)
      { g1Tau := t.alphaG1.getD 0 0, g1Alpha := t.alphaG1.getD 0 0, g1Beta := t.betaG1.getD 0 0, g2Tau := t.betaG2, g2Beta := t.betaG2,
        pkTau := ⟨0, 0, 0⟩, pkAlpha := ⟨0, 0, 0⟩, pkBeta := ⟨0, 0, 0⟩, hash := [] } := by
  have hz : t.power.toNat = 0 := by rw [h0]; rfl
  have l1 : t.tauG1.length = 1 := by rw [ht.tauG1, hz]; rfl
  have l2 : t.alphaG1.length = 1 := by rw [ht.alphaG1, hz]; rfl
  have l3 : t.betaG1.length = 1 := by rw [ht.betaG1, hz]; rfl
  have l4 : t.tauG2.length = 1 := by rw [ht.tauG2, hz]; rfl
  have s1 : ∀ l : List G1, (l.flatMap C.c1.bytes).length = 32 * l.length := fun l => section1_length hC l
  have s2 : ∀ l : List G2, (l.flatMap C.c2.bytes).length = 64 * l.length := fun l => section2_length hC l
  obtain ⟨a, ha⟩ := List.length_eq_one_iff.mp l2
  obtain ⟨b, hb⟩ := List.length_eq_one_iff.mp l3
  have hin : t.encode C ++ junk = [t.power, UInt8.ofNat (t.records.length / 256), UInt8.ofNat (t.records.length % 256)] ++
      (t.tauG1.flatMap C.c1.bytes ++ ([a].flatMap C.c1.bytes ++ ([b].flatMap C.c1.bytes ++ (t.tauG2.flatMap C.c2.bytes ++
        ([t.betaG2].flatMap C.c2.bytes ++ (t.records.flatMap (recordBytes C) ++ junk)))))) := by
    simp [P1File.encode, P1File.params, ha, hb]
  have d1 : (t.encode C ++ junk).drop 35 = [a].flatMap C.c1.bytes ++ ([b].flatMap C.c1.bytes ++ (t.tauG2.flatMap C.c2.bytes ++
        ([t.betaG2].flatMap C.c2.bytes ++ (t.records.flatMap (recordBytes C) ++ junk)))) := by
    rw [show (35 : Nat) = 3 + 32 by rfl, ← List.drop_drop, hin, List.drop_left' (i := 3) rfl, List.drop_left' (by rw [s1, l1])]
  have d2 : (t.encode C ++ junk).drop 67 = [b].flatMap C.c1.bytes ++ (t.tauG2.flatMap C.c2.bytes ++
        ([t.betaG2].flatMap C.c2.bytes ++ (t.records.flatMap (recordBytes C) ++ junk))) := by
    rw [show (67 : Nat) = 35 + 32 by rfl, ← List.drop_drop, d1, List.drop_left' (by rw [s1]; rfl)]
  have d3 : (t.encode C ++ junk).drop 163 = [t.betaG2].flatMap C.c2.bytes ++ (t.records.flatMap (recordBytes C) ++ junk) := by
    rw [show (163 : Nat) = 67 + 32 + 64 by rfl, ← List.drop_drop, ← List.drop_drop, d2, List.drop_left' (by rw [s1]; rfl),
      List.drop_left' (by rw [s2, l4])]
  refine ⟨⟨t.power, _, _, _, by rw [hin]; rfl, by omega, ?_⟩, ⟨rfl, rfl, rfl⟩, rfl⟩
  rw [hz, ha, hb]
  rw [show 64 * 2 ^ 0 - 29 = 35 by rfl, show 96 * 2 ^ 0 - 29 = 67 by rfl, show 128 * 2 ^ 0 + 35 = 163 by rfl,
    show 192 * 2 ^ 0 - 29 = 163 by rfl, d1, d2, d3]
  exact ⟨listed_bytes hC.codec1 [a] _, listed_bytes hC.codec1 [a] _, listed_bytes hC.codec1 [b] _, listed_bytes hC.codec2 [t.betaG2] _,
    listed_bytes hC.codec2 [t.betaG2] _⟩

/-- **C85**, powers from 56 on: no transformed file with such a power is accepted, as the last point would be beyond any 64-bit position. -/
theorem C85_long (p : UInt8) (hp : 56 ≤ p.toNat) (body : Bytes) (hl : body.length < 2 ^ 63) (t : Contribution G1 G2) :
    ¬ GivesOrigin C (p :: body) t := by
  rintro ⟨⟨p', x, y, b, hi, hp62, -, -, -, -, k5⟩, -⟩
  simp only [List.cons.injEq] at hi
  obtain ⟨rfl, -⟩ := hi
  have h := listed_length hC.codec2.size_pos _ _ k5
  rw [List.length_drop, hC.size2] at h
  simp only [List.length_cons, List.length_nil] at h
  have : 2 ^ 56 ≤ 2 ^ p.toNat := Nat.pow_le_pow_right (by omega) hp
  omega

end

/-- The positions of the model are unbounded integers. In the 64-bit arithmetic of the code (`N` as computed there, every product and sum
wrapped) they are the same up to power 55. From 56 on a position is negative or beyond `2^62`, before a position that is wrong is used; so the
code fails there as the model does by `C85_long`, except that a file of more than `2^62 - 30` bytes would be needed to see the difference. -/
theorem C85_positions (p : UInt8) :
    let N := goPow2 p
    let alpha := wrap64 (35 + wrap64 (wrap64 (2 * N - 2) * 32))
    let beta := wrap64 (alpha + wrap64 (N * 32))
    let tau2 := wrap64 (wrap64 (beta + wrap64 (N * 32)) + 64)
    let beta2 := wrap64 (tau2 + wrap64 (wrap64 (N - 1) * 64))
    (p.toNat ≤ 55 → alpha = 64 * 2 ^ p.toNat - 29 ∧ beta = 96 * 2 ^ p.toNat - 29 ∧ tau2 = 128 * 2 ^ p.toNat + 35 ∧
      beta2 = 192 * 2 ^ p.toNat - 29) ∧
    (56 ≤ p.toNat → alpha < 0 ∨ 2 ^ 62 - 29 ≤ alpha) := by
  revert p
  have : ∀ a : Fin 256, let p := UInt8.ofNat a
    let N := goPow2 p
    let alpha := wrap64 (35 + wrap64 (wrap64 (2 * N - 2) * 32))
    let beta := wrap64 (alpha + wrap64 (N * 32))
    let tau2 := wrap64 (wrap64 (beta + wrap64 (N * 32)) + 64)
    let beta2 := wrap64 (tau2 + wrap64 (wrap64 (N - 1) * 64))
    (p.toNat ≤ 55 → alpha = 64 * 2 ^ p.toNat - 29 ∧ beta = 96 * 2 ^ p.toNat - 29 ∧ tau2 = 128 * 2 ^ p.toNat + 35 ∧
      beta2 = 192 * 2 ^ p.toNat - 29) ∧
    (56 ≤ p.toNat → alpha < 0 ∨ 2 ^ 62 - 29 ≤ alpha) := by decide +kernel
  intro p
  have h := this ⟨p.toNat, p.toNat_lt⟩
  simpa only [UInt8.ofNat_toNat] using h

/-! ### concrete cases -/

-- the file of an ordinary ceremony is accepted with an arbitrary file that begins like a new ceremony
example : ∃ f t, HoldsFile Toy.curve (Toy.honest.encode Toy.curve ++ [1, 2]) f ∧ GivesOrigin Toy.curve (Toy.garbage.encode Toy.curve ++ [7]) t ∧
    ChainOk Toy.curve t f.records ∧ SectionsOk Toy.curve .strict batchSize Toy.vr f (f.records.getLast?.getD Contribution.zero) :=
  (C85_exact Toy.lawful Toy.par .strict batchSize (by decide) Toy.vr _ _).mp Toy.garbage_accepted
-- a file of power 0 does as well as one of power 2
example : verify Toy.curve Toy.par .strict batchSize Toy.vr (Toy.honest.encode Toy.curve ++ [1, 2])
    (some ((P1File.init Toy.curve 0).encode Toy.curve ++ [])) = .ok () := by
  rw [C85_same Toy.lawful Toy.par .strict batchSize Toy.vr _ _ _ _ (C85_power0 Toy.lawful (P1File.init Toy.curve 0) (init_wf _ _ (by decide)) rfl [])
    (C85_file Toy.lawful Toy.garbage Toy.garbage_wf (by decide) [7])]
  exact Toy.garbage_accepted
example := C85_cut Toy.lawful Toy.garbage Toy.garbage_wf (by decide) 803 (originOf Toy.garbage)
example := C85_long Toy.lawful 56 (by decide) [0, 0, 1] (by decide)
example : verify Toy.curve Toy.par .strict batchSize Toy.vr (Toy.honest.encode Toy.curve) (some [3, 0, 0]) ≠ .ok () :=
  C85_refused Toy.lawful Toy.par .strict batchSize (by decide) Toy.vr _ _ (by
    rintro t ⟨⟨p, x, y, body, -, -, h, -⟩, -⟩
    exact absurd (listed_length Toy.lawful.codec1.size_pos _ _ h) (by
      show ¬ Toy.curve.c1.size * 1 ≤ 0; decide))
example := C85_positions 55

end ZkSetup
