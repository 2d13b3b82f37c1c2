import Verif.Proofs.Disk
import Verif.Props.Phase1Truncate
import Verif.Props.Phase2Truncate
import Verif.Props.Transform
/-
A disk that fills up: C48.
-/
set_option linter.unusedSectionVars false

namespace ZkSetup

open Phase1 (MsmPolicy batchSize)
open Disk

section
variable {F G1 G2 GT : Type} [Field F] [AddCommGroup G1] [Module F G1] [AddCommGroup G2]
  [Module F G2] [AddCommGroup GT] [Module F GT] [DecidableEq G1] [DecidableEq G2] [DecidableEq GT]
  {C : Curve F G1 G2 GT} (hC : C.Lawful)

/-! ### the parts of the code's write calls -/

theorem recordSizes_sum : Phase1.recordSizes.sum = 640 := rfl
theorem recordSizes2_sum : Phase2.recordSizes.sum = 192 := rfl

theorem replicate_flatten_sum (c : Nat) (l : List Nat) : (List.replicate c l).flatten.sum = c * l.sum := by
  induction c with
  | zero => simp
  | succ c ih => rw [List.replicate_succ, List.flatten_cons, List.sum_append, ih]; ring

theorem take_drop_split (out : Bytes) (a b : Nat) (h : a ≤ b) (hb : b ≤ out.length) :
    out.take a ++ ((out.take b).drop a ++ out.drop b) = out := by
  have h1 : out.take a = (out.take b).take a := by rw [List.take_take, Nat.min_eq_left h]
  rw [h1, ← List.append_assoc, List.take_append_drop, List.take_append_drop]

theorem append_zeros (out : Bytes) (cap : Nat) (h : ∀ x ∈ out.drop cap, x = 0) :
    out = out.take cap ++ List.replicate (out.length - cap) 0 := by
  have : out.drop cap = List.replicate (out.length - cap) 0 := by
    rw [List.eq_replicate_iff]
    exact ⟨List.length_drop, h⟩
  rw [← this, List.take_append_drop]

theorem allParts_contribute (n c : Nat) (out : Bytes) (h : 643 ≤ out.length) :
    allParts (Phase1.contributeParts n c out) = out := by
  simp only [allParts, Phase1.contributeParts, List.flatMap_cons, List.flatMap_nil, Part.all, List.append_nil]
  rw [allBytes_append, pieces_all _ _ _ (by simp), pieces_all _ _ _ (by simp), pieces_all _ _ _ (by decide)]
  exact take_drop_split out 3 (out.length - 640) (by omega) (by omega)

theorem contributeParts_exact (n c : Nat) (out : Bytes) (hn : 0 < n) (h : out.length = 3 + 192 * n + 32 + 640 * (c + 1))
    (cap : Nat) : (runParts ⟨cap, []⟩ (Phase1.contributeParts n c out)).1 = true
      ↔ 3 + 4096 * ((out.length - 644) / 4096) ≤ cap := by
  have e1 := runParts_cons_iff cap [] ⟨0, pieces true [1, 2] (out.take 3)⟩
  rw [List.take_nil] at e1
  rw [Phase1.contributeParts, e1]
  have e2 := direct_iff cap [] (pieces true [1, 2] (out.take 3)) (pieces_checked _ _ _)
  rw [List.take_nil] at e2
  rw [e2, Part.all, pieces_all _ _ _ (by simp), List.nil_append, runParts_cons_iff, buffered_iff cap (out.take 3) (by decide) _ _
      (pieces_le _ _ _ _ (by
        intro k hk
        simp only [List.mem_append, List.mem_replicate, List.mem_flatten] at hk
        rcases hk with (⟨-, rfl⟩ | ⟨-, rfl⟩) | ⟨l, ⟨-, rfl⟩, hk⟩
        · decide
        · decide
        · revert k; decide) (by
        simp only [List.sum_append, List.sum_replicate, replicate_flatten_sum, recordSizes_sum, List.length_drop,
          List.length_take, smul_eq_mul]
        omega)) (pieces_checked _ _ _), pieces_all _ _ _ (by simp)]
  simp only [List.length_drop, List.length_take, List.length_nil, runParts, and_true]
  rw [Nat.min_eq_left (by omega : out.length - 640 ≤ out.length), Nat.min_eq_left (by omega : 3 ≤ out.length),
      show out.length - 640 - 3 - 1 = out.length - 644 by omega]
  omega

theorem allParts_initialize (n : Nat) (out : Bytes) (hn : 0 < n) (h : 67 ≤ out.length) :
    allParts (Phase1.initializeParts n out) = out := by
  simp only [allParts, Phase1.initializeParts, List.flatMap_cons, List.flatMap_nil, Part.all, List.append_nil]
  rw [allBytes_append, pieces_all _ _ _ (by simp), pieces_all _ _ _ (by simp; omega), pieces_all _ _ _ (by decide)]
  exact take_drop_split out 3 (out.length - 64) (by omega) (by omega)

theorem initializeParts_exact (n : Nat) (out : Bytes) (hn : 0 < n) (h : out.length = 3 + 192 * n + 32) (cap : Nat) :
    (runParts ⟨cap, []⟩ (Phase1.initializeParts n out)).1 = true
      ↔ min cap 3 + 2 ^ 20 * ((out.length - 68) / 2 ^ 20) ≤ cap := by
  have e1 := runParts_cons_iff cap [] ⟨0, pieces false [1, 2] (out.take 3)⟩
  rw [List.take_nil] at e1
  rw [Phase1.initializeParts, e1]
  have e2 := unchecked_iff ⟨cap, []⟩ 0 (pieces false [1, 2] (out.take 3)) (pieces_checked _ _ _)
  rw [e2, Part.all, pieces_all _ _ _ (by simp), List.nil_append, runParts_cons_iff, buffered_iff cap (out.take 3) (by decide) _ _
      (pieces_le _ _ _ _ (by
        intro k hk
        simp only [List.mem_append, List.mem_replicate] at hk
        rcases hk with ⟨-, rfl⟩ | ⟨-, rfl⟩ <;> decide) (by
        simp only [List.sum_append, List.sum_replicate, List.length_drop, List.length_take, smul_eq_mul]
        omega)) (pieces_checked _ _ _), pieces_all _ _ _ (by simp; omega)]
  simp only [List.length_drop, List.length_take, runParts, and_true, true_and]
  rw [Nat.min_eq_left (by omega : out.length - 64 ≤ out.length), Nat.min_eq_left (by omega : 3 ≤ out.length),
      show out.length - 64 - 3 - 1 = out.length - 68 by omega]

theorem five_split (out : Bytes) (a b c d e : Nat) :
    out.take a ++ ((out.drop a).take b ++ ((out.drop (a + b)).take c ++ ((out.drop (a + b + c)).take d
      ++ ((out.drop (a + b + c + d)).take e ++ out.drop (a + b + c + d + e))))) = out := by
  have h : ∀ x y, (out.drop x).take y ++ out.drop (x + y) = out.drop x := fun x y => by
    rw [← List.drop_drop, List.take_append_drop]
  rw [h, h, h, h, List.take_append_drop]

theorem allParts_transform (n : Nat) (out : Bytes) (hn : 0 < n) : allParts (Phase1.transformParts n out) = out := by
  simp only [allParts, Phase1.transformParts, List.flatMap_cons, List.flatMap_nil, Part.all, List.append_nil]
  rw [pieces_all _ _ _ (by simp), pieces_all _ _ _ (by simp; omega), pieces_all _ _ _ (by simp; omega),
    pieces_all _ _ _ (by simp; omega), pieces_all _ _ _ (by simp; omega), pieces_all _ _ _ (by simp)]
  exact five_split out 3 _ _ _ _

/-- whether a section of `len` bytes at position `pos`, written through its own buffer of 4096 bytes, is reported as
written: all full buffers but the last fit -/
def sectionPasses (cap pos len : Nat) : Prop := min cap pos + 4096 * ((len - 1) / 4096) ≤ cap

theorem section_iff (cap : Nat) (T : Bytes) (m k : Nat) (hm : m ≤ 4096) (x : Bytes) (hx : x.length = m * k) (ps : List Part)
    (hk : 0 < k) : (runParts ⟨cap, T.take cap⟩ (⟨4096, pieces true (List.replicate k m) x⟩ :: ps)).1 = true
      ↔ sectionPasses cap T.length (m * k) ∧ (runParts ⟨cap, (T ++ x).take cap⟩ ps).1 = true := by
  have hne : List.replicate k m ≠ [] := by simp; omega
  have := buffered_iff cap T (size := 4096) (by decide) (pieces true (List.replicate k m) x) []
    (pieces_le _ _ _ _ (by intro j hj; rw [(List.mem_replicate.mp hj).2]; exact hm)
      (by rw [List.sum_replicate, smul_eq_mul, hx, Nat.mul_comm])) (by simp)
  rw [List.append_nil, pieces_all _ _ _ hne, hx] at this
  rw [runParts_cons_iff, this, Part.all, pieces_all _ _ _ hne, sectionPasses]

theorem transformParts_exact (n : Nat) (out : Bytes) (hn : 0 < n) (h : out.length = 3 + 192 * n + 32) (cap : Nat) :
    (runParts ⟨cap, []⟩ (Phase1.transformParts n out)).1 = true
      ↔ 3 ≤ cap ∧ sectionPasses cap 3 (32 * (2 * n - 1)) ∧ sectionPasses cap (64 * n - 29) (32 * n) ∧
        sectionPasses cap (96 * n - 29) (32 * n) ∧ sectionPasses cap (128 * n - 29) (64 * n) := by
  have e1 := runParts_cons_iff cap [] ⟨0, pieces true [1, 2] (out.take 3)⟩
  rw [List.take_nil] at e1
  have e2 := direct_iff cap [] (pieces true [1, 2] (out.take 3)) (pieces_checked _ _ _)
  rw [List.take_nil] at e2
  have e6 : pieces true [64] (out.drop (3 + 32 * (2 * n - 1) + 32 * n + 32 * n + 64 * n))
      = pieces true (List.replicate 1 64) (out.drop (3 + 32 * (2 * n - 1) + 32 * n + 32 * n + 64 * n)) := rfl
  rw [Phase1.transformParts, e1, e2, Part.all, pieces_all _ _ _ (by simp), List.nil_append, e6,
    section_iff _ _ _ _ (by decide) _ (by simp; omega) _ (by omega),
    section_iff _ _ _ _ (by decide) _ (by simp; omega) _ (by omega),
    section_iff _ _ _ _ (by decide) _ (by simp; omega) _ (by omega),
    section_iff _ _ _ _ (by decide) _ (by simp; omega) _ (by omega),
    section_iff _ _ _ _ (by decide) _ (by simp; omega) _ (by omega)]
  simp only [List.length_drop, List.length_take, List.length_append, List.length_nil, runParts, and_true]
  rw [Nat.min_eq_left (by omega : 3 ≤ out.length), Nat.min_eq_left (by omega : 32 * (2 * n - 1) ≤ out.length - 3),
    Nat.min_eq_left (by omega : 32 * n ≤ out.length - (3 + 32 * (2 * n - 1))),
    Nat.min_eq_left (by omega : 32 * n ≤ out.length - (3 + 32 * (2 * n - 1) + 32 * n)),
    Nat.min_eq_left (by omega : 64 * n ≤ out.length - (3 + 32 * (2 * n - 1) + 32 * n + 32 * n)),
    show 3 + 32 * (2 * n - 1) + 32 * n = 96 * n - 29 by omega, show 3 + 32 * (2 * n - 1) = 64 * n - 29 by omega,
    show 96 * n - 29 + 32 * n = 128 * n - 29 by omega]
  have : sectionPasses cap (128 * n - 29 + 64 * n) (64 * 1) := by
    unfold sectionPasses
    simp
  simp only [this, and_true, Nat.min_zero, Nat.zero_add]

theorem allParts_contribute2 (hl n c : Nat) (out : Bytes) : allParts (Phase2.contributeParts hl n c out) = out := by
  simp only [allParts, Phase2.contributeParts, List.flatMap_cons, List.flatMap_nil, Part.all, List.append_nil]
  rw [allBytes_append, pieces_all _ _ _ (by simp), pieces_all _ _ _ (by decide), List.take_append_drop]

theorem contributeParts2_exact (hl n c : Nat) (out : Bytes) (hhl : hl ≤ 4096)
    (h : out.length = hl + 96 + 32 * n + 192 * (c + 1)) (cap : Nat) :
    (runParts ⟨cap, []⟩ (Phase2.contributeParts hl n c out)).1 = true ↔ 4096 * ((out.length - 193) / 4096) ≤ cap := by
  have e1 := fun p => runParts_cons_iff cap [] p
  rw [List.take_nil] at e1
  have e2 := buffered_iff cap [] (size := 4096) (by decide)
    (pieces true ([120, hl - 120, 32, 64] ++ List.replicate n 32 ++ (List.replicate c Phase2.recordSizes).flatten)
      (out.take (out.length - 192)))
    (pieces false Phase2.recordSizes (out.drop (out.length - 192)))
      (pieces_le _ _ _ _ (by
        intro k hk
        simp only [List.mem_append, List.mem_replicate, List.mem_flatten, List.mem_cons, List.not_mem_nil, or_false] at hk
        rcases hk with ((rfl | rfl | rfl | rfl) | ⟨-, rfl⟩) | ⟨l, ⟨-, rfl⟩, hk⟩
        · decide
        · omega
        · decide
        · decide
        · decide
        · revert k; decide) (by
        simp only [List.sum_append, List.sum_replicate, replicate_flatten_sum, recordSizes2_sum,
          List.length_take, smul_eq_mul, List.sum_cons, List.sum_nil]
        omega)) (pieces_checked _ _ _)
  rw [List.take_nil, pieces_all _ _ _ (by simp)] at e2
  rw [Phase2.contributeParts, e1, e2]
  simp only [List.length_take, List.length_nil, runParts, and_true, Nat.min_zero, Nat.zero_add]
  rw [Nat.min_eq_left (by omega : out.length - 192 ≤ out.length), show out.length - 192 - 1 = out.length - 193 by omega]

/-! ### C48: phase 1 -/

open Phase1 in
theorem contributeOnDisk_eq (par : Par) (b : Nat) (rnd : Rand F) (cap : Nat) (input : Bytes) (g : P1File G1 G2)
    (hash : Bytes) (hg : g.WF) (h : contribute C par b rnd input = (.ok hash, g.encode C)) :
    contributeOnDisk C par b rnd cap input
      = report cap hash (contributeParts (2 ^ g.power.toNat) (g.records.length - 1) (g.encode C)) := by
  unfold contributeOnDisk
  rw [h]
  simp only
  have h1 : (g.encode C).headD 0 = g.power := by simp [P1File.encode]
  have h2 : beValue (((g.encode C).drop 1).take 2) = g.records.length := by
    simp only [P1File.encode, List.cons_append, List.nil_append, List.drop_succ_cons, List.drop_zero,
      List.take_succ_cons, List.take_zero, beValue, List.foldl_cons, List.foldl_nil, UInt8.toNat_ofNat']
    have := hg.count
    omega
  rw [h1, h2]

include hC

open Phase1 in
/-- **C48** fails for phase 1: what `Contribute` reports on a disk with room for `cap` bytes of the output. The file always
holds as much of the output as fits. Success is reported exactly if the last full buffer before the new record fits, so in
particular if up to 640 bytes, the new record, are missing; the hash it prints is the right one. -/
theorem C48_phase1_exact (par : Par) (b : Nat) (hb : 2 ≤ b) (rnd : Rand F) (f : P1File G1 G2) (hf : f.WF)
    (hp : 1 ≤ f.power.toNat) (hc : f.records.length < 65535) (junk : Bytes) :
    ∃ out hash, contribute C par b rnd (f.encode C ++ junk) = (.ok hash, out) ∧
      out.length = 3 + 192 * 2 ^ f.power.toNat + 32 + 640 * (f.records.length + 1) ∧
      ∀ cap, (contributeOnDisk C par b rnd cap (f.encode C ++ junk)).2 = out.take cap ∧
        ((∃ r, (contributeOnDisk C par b rnd cap (f.encode C ++ junk)).1 = .ok r)
          ↔ 3 + 4096 * ((out.length - 644) / 4096) ≤ cap) ∧
        (∀ r, (contributeOnDisk C par b rnd cap (f.encode C ++ junk)).1 = .ok r → r = hash) ∧
        (out.length ≤ cap → contributeOnDisk C par b rnd cap (f.encode C ++ junk) = (.ok hash, out)) := by
  obtain ⟨g, r, h1, h2, h3, h4, -⟩ := C10_contribute_preserves_history hC par b hb rnd f hf hp hc
  have hl := encode_length hC g h2
  rw [h3, h4, List.length_append, List.length_singleton] at hl
  refine ⟨g.encode C, r.hash, h1 junk, hl, ?_⟩
  intro cap
  rw [contributeOnDisk_eq par b rnd cap _ g r.hash h2 (h1 junk)]
  rw [h3, h4, List.length_append, List.length_singleton, Nat.add_sub_cancel]
  obtain ⟨e1, e2, e3, e4⟩ := report_spec cap r.hash _ _
    (allParts_contribute (2 ^ f.power.toNat) f.records.length (g.encode C) (by omega))
  refine ⟨e1, ?_, e4, e2⟩
  rw [e3]
  exact contributeParts_exact _ _ _ (Nat.pow_pos (by omega)) hl cap

open Phase1 in
/-- **C48**, phase 1, what holds: a contribution that reports success lacks at most 4736 bytes of the file, nothing if there
is room for it; and, if the records' hashes do not collide, an incomplete file is rejected by `Verify` unless all that is
missing are zero bytes at the end of the last hash. -/
theorem C48_phase1_partial (par par' : Par) (pol : MsmPolicy) (b b' : Nat) (hb : 2 ≤ b) (hb' : 0 < b') (rnd : Rand F)
    (vr : VerifyRand F) (f : P1File G1 G2) (hf : f.WF) (hp : 1 ≤ f.power.toNat) (hc : f.records.length < 65535)
    (hsha : ∀ r ∈ f.records, r.hash = C.sha (recordBody C r)) (junk : Bytes) (tr : Option Bytes) :
    ∃ (g : P1File G1 G2) (r : Contribution G1 G2),
      contribute C par b rnd (f.encode C ++ junk) = (.ok r.hash, g.encode C) ∧ g.records = f.records ++ [r] ∧
      ∀ cap h file, contributeOnDisk C par b rnd cap (f.encode C ++ junk) = (.ok h, file) →
        h = r.hash ∧ file <+: g.encode C ∧ (g.encode C).length ≤ file.length + 4736 ∧
        ((g.encode C).length ≤ cap → file = g.encode C) ∧
        (CleanRecords C (f.records ++ [r]) → file ≠ g.encode C → verify C par' pol b' vr file tr = .ok () →
          ∃ k ≤ 32, g.encode C = file ++ List.replicate k 0) := by
  obtain ⟨g, r, h1, h2, h3⟩ := C47_phase1_partial hC par par' pol b b' hb hb' rnd vr f hf hp hc hsha junk tr
  refine ⟨g, r, h1, h2, ?_⟩
  intro cap h file hd
  obtain ⟨out, hash, k1, k2, k3⟩ := C48_phase1_exact hC par b hb rnd f hf hp hc junk
  rw [h1, Prod.mk.injEq, Except.ok.injEq] at k1
  obtain ⟨rfl, rfl⟩ := k1
  obtain ⟨e1, e2, e3, e4⟩ := k3 cap
  rw [hd] at e1 e2 e3 e4
  simp only at e1
  have hcap := e2.mp ⟨h, rfl⟩
  have := Nat.div_add_mod ((g.encode C).length - 644) 4096
  have := Nat.mod_lt ((g.encode C).length - 644) (y := 4096) (by omega)
  refine ⟨e3 h rfl, e1 ▸ List.take_prefix _ _, ?_, ?_, ?_⟩
  · rw [e1, List.length_take]
    omega
  · intro hl
    have := e4 hl
    simp only [Prod.mk.injEq] at this
    exact this.2
  · intro hcl hne hv
    have hlt : cap < (g.encode C).length := by
      by_contra hge
      exact hne (by rw [e1, List.take_of_length_le (by omega)])
    rw [e1] at hv
    obtain ⟨z1, z2⟩ := h3 hcl cap hlt hv
    refine ⟨(g.encode C).length - cap, z1, ?_⟩
    rw [e1]
    exact append_zeros _ _ z2

open Phase1 in
/-- **C48** is false for phase 1: whatever the file, if the disk has room for all but the last byte of the new record, success
is reported although the file is incomplete. -/
theorem C48_phase1_false (par : Par) (b : Nat) (hb : 2 ≤ b) (rnd : Rand F) (f : P1File G1 G2) (hf : f.WF)
    (hp : 1 ≤ f.power.toNat) (hc : f.records.length < 65535) (junk : Bytes) :
    ∃ out hash, contribute C par b rnd (f.encode C ++ junk) = (.ok hash, out) ∧
      ∀ cap, out.length - 640 ≤ cap → cap < out.length →
        ∃ file, contributeOnDisk C par b rnd cap (f.encode C ++ junk) = (.ok hash, file) ∧ file.length < out.length := by
  obtain ⟨out, hash, k1, k2, k3⟩ := C48_phase1_exact hC par b hb rnd f hf hp hc junk
  refine ⟨out, hash, k1, ?_⟩
  intro cap h1 h2
  obtain ⟨e1, e2, e3, -⟩ := k3 cap
  have := Nat.div_add_mod (out.length - 644) 4096
  have : 0 < 2 ^ f.power.toNat := Nat.pow_pos (by omega)
  obtain ⟨r, hr⟩ := e2.mpr (by omega)
  refine ⟨out.take cap, ?_, by rw [List.length_take]; omega⟩
  rw [← e1, ← e3 r hr, ← hr]

open Phase1 in
/-- **C48** is false for phase 1: for small files (3 + 4096 bytes without the new record) success is reported even if only the
header could be written. -/
theorem C48_phase1_header_only (par : Par) (b : Nat) (hb : 2 ≤ b) (rnd : Rand F) (f : P1File G1 G2) (hf : f.WF)
    (hp : 1 ≤ f.power.toNat) (hc : f.records.length < 65535) (junk : Bytes)
    (hsmall : 192 * 2 ^ f.power.toNat + 32 + 640 * f.records.length ≤ 4096) :
    ∃ out hash, contribute C par b rnd (f.encode C ++ junk) = (.ok hash, out) ∧
      contributeOnDisk C par b rnd 3 (f.encode C ++ junk) = (.ok hash, out.take 3) := by
  obtain ⟨out, hash, k1, k2, k3⟩ := C48_phase1_exact hC par b hb rnd f hf hp hc junk
  refine ⟨out, hash, k1, ?_⟩
  obtain ⟨e1, e2, e3, -⟩ := k3 3
  obtain ⟨r, hr⟩ := e2.mpr (by rw [Nat.div_eq_of_lt (by omega)])
  rw [← e1, ← e3 r hr, ← hr]

/-! ### C48: phase 2 -/

omit hC in
/-- gob headers are short -/
theorem gob_header_le (h : Phase2.Header) : (Gob.headerCodec.enc h).length ≤ 194 := by
  show (Gob.encode h).length ≤ 194
  have h1 := Gob.fieldBytes_length_le (Gob.toList h) 1 (by simp [Gob.toList])
  have h3 : (Gob.toList h).length = 7 := by simp [Gob.toList]
  have h4 : (Gob.intBytes 65).length = 2 := by decide
  have h2 : (Gob.valueBytes h).length ≤ 73 := by
    unfold Gob.valueBytes
    rw [List.length_append]
    omega
  have h5 : (Gob.messageBytes Gob.typeDef).length = 120 := by decide +kernel
  have h6 : (Gob.uintBytes (Gob.valueBytes h).length).length = 1 := by
    unfold Gob.uintBytes
    rw [if_pos (by omega)]
    rfl
  unfold Gob.encode
  rw [List.length_append, h5]
  unfold Gob.messageBytes
  rw [List.length_append, h6]
  omega

variable {H : Phase2.HeaderCodec}

open Phase2 in
theorem encode2_length (f : P2File G1 G2) (hf : f.WF) : (f.encode C H).length
    = (H.enc f.header).length + 96 + 32 * (f.domain - 1 + f.witness) + 192 * f.records.length := by
  have h1 := params2_length hC f
  have h2 := records2_length hC f.records hf.hash
  rw [hf.z, hf.pkk] at h1
  simp only [P2File.encode, List.length_append]
  omega

variable (hH : H.Lawful)
include hH

open Phase2 in
/-- **C48** fails for phase 2: what `Contribute` reports on a disk with room for `cap` bytes of the output, for headers of at
most 4096 bytes (gob headers have at most 194: `gob_header_le`). Success is reported exactly if the last full buffer before the new record
fits. -/
theorem C48_phase2_exact (par : Par) (b : Nat) (hb : 0 < b) (rnd : Rand F) (f : P2File G1 G2) (hf : f.WF)
    (hc : f.records.length + 1 < 2 ^ 63 - 1) (hs : f.NoStraddle H) (junk : Bytes)
    (hhl : (H.enc (f.contribute C rnd).header).length ≤ 4096) :
    ∃ out hash, Phase2.contribute C H par b rnd (f.encode C H ++ junk) = (.ok hash, out) ∧
      out = (f.contribute C rnd).encode C H ∧
      ∀ cap, (contributeOnDisk C H par b rnd cap (f.encode C H ++ junk)).2 = out.take cap ∧
        ((∃ r, (contributeOnDisk C H par b rnd cap (f.encode C H ++ junk)).1 = .ok r)
          ↔ 4096 * ((out.length - 193) / 4096) ≤ cap) ∧
        (∀ r, (contributeOnDisk C H par b rnd cap (f.encode C H ++ junk)).1 = .ok r → r = hash) ∧
        (out.length ≤ cap → contributeOnDisk C H par b rnd cap (f.encode C H ++ junk) = (.ok hash, out)) := by
  have h1 := C29_contribute_partial hC hH par b hb rnd f hf hs junk
  have hw := contribute2_wf hC f hf rnd hc
  refine ⟨_, _, h1, rfl, ?_⟩
  intro cap
  have hh := P2File.header_read hC hH hw 4096 []
  rw [List.append_nil] at hh
  have hl := encode2_length (H := H) hC (f.contribute C rnd) hw
  unfold contributeOnDisk
  rw [h1]
  simp only
  rw [Header.read, hh]
  simp only
  obtain ⟨e1, e2, e3, e4⟩ := report_spec cap (lastHash2 (f.contribute C rnd).records) _ _
    (allParts_contribute2 (H.enc (f.contribute C rnd).header).length
      ((f.contribute C rnd).header.domain - 1 + (f.contribute C rnd).header.witness).toNat
      ((f.contribute C rnd).header.contributions - 1).toNat ((f.contribute C rnd).encode C H))
  refine ⟨e1, ?_, e4, e2⟩
  rw [e3]
  refine contributeParts2_exact _ _ _ _ hhl ?_ cap
  rw [hl]
  have := hw.domain_pos
  have h5 : (f.contribute C rnd).records.length = f.records.length + 1 := by simp [P2File.contribute]
  simp only [P2File.header]
  omega

open Phase2 in
/-- **C48**, phase 2, what holds: a contribution that reports success lacks at most 4288 bytes of the file, nothing if there is
room for it, and `Verify` rejects an incomplete file unless all that is missing are zero bytes at the end of the last
hash. -/
theorem C48_phase2_partial (par par' : Par) (b b' : Nat) (hb : 0 < b) (hb' : 0 < b') (rnd : Rand F) (vr : VerifyRand F)
    (f o : P2File G1 G2) (hf : f.WF) (ho : o.WF) (hc : f.records.length + 1 < 2 ^ 63 - 1) (hs : f.NoStraddle H)
    (hs' : (f.contribute C rnd).NoStraddle H) (hsha : ∀ r ∈ f.records, r.hash = C.sha (record2Body C r))
    (hhl : (H.enc (f.contribute C rnd).header).length ≤ 4096) (junk junk' : Bytes) :
    ∃ out hash, Phase2.contribute C H par b rnd (f.encode C H ++ junk) = (.ok hash, out) ∧
      ∀ cap h file, contributeOnDisk C H par b rnd cap (f.encode C H ++ junk) = (.ok h, file) →
        h = hash ∧ file <+: out ∧ out.length ≤ file.length + 4288 ∧ (out.length ≤ cap → file = out) ∧
        (file ≠ out → Phase2.verify C H par' b' vr file (o.encode C H ++ junk') = .ok () →
          ∃ k ≤ 31, out = file ++ List.replicate k 0) := by
  obtain ⟨out, hash, h1, h3⟩ := C47_phase2_partial hC hH par par' b b' hb hb' rnd vr f o hf ho hc hs hs' hsha junk junk'
  refine ⟨out, hash, h1, ?_⟩
  intro cap h file hd
  obtain ⟨out', hash', k1, -, k3⟩ := C48_phase2_exact hC hH par b hb rnd f hf hc hs junk hhl
  rw [h1, Prod.mk.injEq, Except.ok.injEq] at k1
  obtain ⟨rfl, rfl⟩ := k1
  obtain ⟨e1, e2, e3, e4⟩ := k3 cap
  rw [hd] at e1 e2 e3 e4
  simp only at e1
  have hcap := e2.mp ⟨h, rfl⟩
  have := Nat.div_add_mod (out.length - 193) 4096
  have := Nat.mod_lt (out.length - 193) (y := 4096) (by omega)
  refine ⟨e3 h rfl, e1 ▸ List.take_prefix _ _, ?_, ?_, ?_⟩
  · rw [e1, List.length_take]
    omega
  · intro hl
    have := e4 hl
    simp only [Prod.mk.injEq] at this
    exact this.2
  · intro hne hv
    have hlt : cap < out.length := by
      by_contra hge
      exact hne (by rw [e1, List.take_of_length_le (by omega)])
    rw [e1] at hv
    obtain ⟨z1, z2⟩ := h3 cap hlt hv
    refine ⟨out.length - cap, z1, ?_⟩
    rw [e1]
    exact append_zeros _ _ z2

open Phase2 in
/-- **C48** is false for phase 2: if the disk has room for all but part of the new record, success is reported although the
file is incomplete; for files of at most 4288 bytes even if nothing could be written. -/
theorem C48_phase2_false (par : Par) (b : Nat) (hb : 0 < b) (rnd : Rand F) (f : P2File G1 G2) (hf : f.WF)
    (hc : f.records.length + 1 < 2 ^ 63 - 1) (hs : f.NoStraddle H) (junk : Bytes)
    (hhl : (H.enc (f.contribute C rnd).header).length ≤ 4096) :
    ∃ out hash, Phase2.contribute C H par b rnd (f.encode C H ++ junk) = (.ok hash, out) ∧
      (∀ cap, out.length - 192 ≤ cap → cap < out.length →
        ∃ file, contributeOnDisk C H par b rnd cap (f.encode C H ++ junk) = (.ok hash, file) ∧ file.length < out.length) ∧
      (out.length ≤ 4288 → contributeOnDisk C H par b rnd 0 (f.encode C H ++ junk) = (.ok hash, [])) := by
  obtain ⟨out, hash, k1, k2, k3⟩ := C48_phase2_exact hC hH par b hb rnd f hf hc hs junk hhl
  have hl := encode2_length (H := H) hC (f.contribute C rnd) (contribute2_wf hC f hf rnd hc)
  rw [← k2] at hl
  refine ⟨out, hash, k1, ?_, ?_⟩
  · intro cap h1 h2
    obtain ⟨e1, e2, e3, -⟩ := k3 cap
    have := Nat.div_add_mod (out.length - 193) 4096
    obtain ⟨r, hr⟩ := e2.mpr (by omega)
    refine ⟨out.take cap, ?_, by rw [List.length_take]; omega⟩
    rw [← e1, ← e3 r hr, ← hr]
  · intro hsm
    obtain ⟨e1, e2, e3, -⟩ := k3 0
    obtain ⟨r, hr⟩ := e2.mpr (by rw [Nat.div_eq_of_lt (by omega)])
    rw [List.take_zero] at e1
    rw [← e3 r hr, ← hr, ← e1]

omit hH

/-! ### C55: initialisation and import -/

open Phase1 in
/-- **C55**, `p1n`: what `Initialize` reports on a disk with room for `cap` bytes. The file holds what fits; success is
reported exactly if all buffers of 2^20 bytes but the last fit. -/
theorem C55_initialize_exact (p : UInt8) (hp : p.toNat ≤ 62) (cap : Nat) :
    (initializeOnDisk C p cap).2 = (initializeFile C p).take cap ∧
    ((initializeOnDisk C p cap).1 = .ok ()
      ↔ min cap 3 + 2 ^ 20 * ((192 * 2 ^ p.toNat - 33) / 2 ^ 20) ≤ cap) ∧
    (3 + 192 * 2 ^ p.toNat + 32 ≤ cap → initializeOnDisk C p cap = (.ok (), initializeFile C p)) := by
  have hl := (C05_initialize hC p hp).2
  have hpos : 0 < 2 ^ p.toNat := Nat.pow_pos (by omega)
  obtain ⟨e1, e2, e3, -⟩ := report_spec cap () _ _
    (allParts_initialize (2 ^ p.toNat) (initializeFile C p) hpos (by omega))
  refine ⟨e1, ?_, by rw [← hl]; exact e2⟩
  have := initializeParts_exact (2 ^ p.toNat) (initializeFile C p) hpos hl cap
  rw [show (initializeFile C p).length - 68 = 192 * 2 ^ p.toNat - 33 by omega] at this
  rw [← this, ← e3]
  exact ⟨fun h => ⟨(), h⟩, fun ⟨_, h⟩ => h⟩

open Phase1 in
/-- **C55** is false for `p1n`: without the last point of the file, success is reported; up to power 12 even on a full disk,
where the file stays empty. -/
theorem C55_initialize_false (p : UInt8) (hp : p.toNat ≤ 62) :
    (∀ cap, 3 + 192 * 2 ^ p.toNat - 32 ≤ cap → cap < 3 + 192 * 2 ^ p.toNat + 32 →
      (initializeOnDisk C p cap).1 = .ok () ∧ (initializeOnDisk C p cap).2.length < (initializeFile C p).length) ∧
    (p.toNat ≤ 12 → initializeOnDisk C p 0 = (.ok (), [])) := by
  have hl := (C05_initialize hC p hp).2
  have hpos : 0 < 2 ^ p.toNat := Nat.pow_pos (by omega)
  constructor
  · intro cap h1 h2
    obtain ⟨e1, e2, -⟩ := C55_initialize_exact hC p hp cap
    have := Nat.div_add_mod (192 * 2 ^ p.toNat - 33) (2 ^ 20)
    exact ⟨e2.mpr (by omega), by rw [e1, List.length_take]; omega⟩
  · intro h12
    obtain ⟨e1, e2, -⟩ := C55_initialize_exact hC p hp 0
    have h1 : 2 ^ p.toNat ≤ 2 ^ 12 := Nat.pow_le_pow_right (by omega) h12
    have h2 := e2.mpr (by rw [Nat.div_eq_of_lt (by omega)]; decide)
    rw [List.take_zero] at e1
    exact Prod.ext h2 e1

open Phase1 in
/-- **C55**, `p1n`, what holds: at most 2^20 + 64 bytes are missing when success is reported, if there was room for the 3
bytes of the header. -/
theorem C55_initialize_partial (p : UInt8) (hp : p.toNat ≤ 62) (cap : Nat) (hcap : 3 ≤ cap)
    (h : (initializeOnDisk C p cap).1 = .ok ()) :
    (initializeOnDisk C p cap).2 <+: initializeFile C p ∧
    (initializeFile C p).length ≤ (initializeOnDisk C p cap).2.length + 2 ^ 20 + 64 ∧
    (3 + 192 * 2 ^ p.toNat + 32 ≤ cap → (initializeOnDisk C p cap).2 = initializeFile C p) := by
  have hl := (C05_initialize hC p hp).2
  have hpos : 0 < 2 ^ p.toNat := Nat.pow_pos (by omega)
  obtain ⟨e1, e2, e3⟩ := C55_initialize_exact hC p hp cap
  have h' := e2.mp h
  have := Nat.div_add_mod (192 * 2 ^ p.toNat - 33) (2 ^ 20)
  have := Nat.mod_lt (192 * 2 ^ p.toNat - 33) (y := 2 ^ 20) (by omega)
  refine ⟨e1 ▸ List.take_prefix _ _, by rw [e1, List.length_take]; omega, fun hh => by rw [e3 hh]⟩

open Phase1 in
/-- **C55**, `p1t`: what `Transform` reports on a disk with room for `cap` bytes. Success is reported exactly if the header
fits and in each of the sections all buffers of 4096 bytes but the last fit. -/
theorem C55_transform_exact (r : Response G1 G2) (a b : UInt8) (ha : a.toNat ≤ 54) (hab : b ≤ a) (hr : r.WF a.toNat)
    (junk : Bytes) (cap : Nat) :
    (transformOnDisk C a b cap (r.encode C ++ junk)).2 = ((r.prefix b).encode C).take cap ∧
    ((transformOnDisk C a b cap (r.encode C ++ junk)).1 = .ok () ↔ 3 ≤ cap ∧
      sectionPasses cap 3 (32 * (2 * 2 ^ b.toNat - 1)) ∧ sectionPasses cap (64 * 2 ^ b.toNat - 29) (32 * 2 ^ b.toNat) ∧
      sectionPasses cap (96 * 2 ^ b.toNat - 29) (32 * 2 ^ b.toNat) ∧
      sectionPasses cap (128 * 2 ^ b.toNat - 29) (64 * 2 ^ b.toNat)) ∧
    (((r.prefix b).encode C).length ≤ cap →
      transformOnDisk C a b cap (r.encode C ++ junk) = (.ok (), (r.prefix b).encode C)) := by
  obtain ⟨h1, h2⟩ := C18_transform hC r a b ha hab hr junk
  have hl := encode_length hC (r.prefix b) h2
  have hpos : 0 < 2 ^ b.toNat := Nat.pow_pos (by omega)
  have hl : ((r.prefix b).encode C).length = 3 + 192 * 2 ^ b.toNat + 32 := by simpa [Response.prefix] using hl
  unfold transformOnDisk
  rw [h1]
  simp only
  obtain ⟨e1, e2, e3, -⟩ := report_spec cap () _ _ (allParts_transform (2 ^ b.toNat) ((r.prefix b).encode C) hpos)
  refine ⟨e1, ?_, e2⟩
  rw [← transformParts_exact (2 ^ b.toNat) _ hpos hl cap, ← e3]
  exact ⟨fun h => ⟨(), h⟩, fun ⟨_, h⟩ => h⟩

open Phase1 in
/-- **C55** is false for `p1t`: success is reported if the last point, `[β]2`, is missing; and up to power 6 even if only the
header could be written. -/
theorem C55_transform_false (r : Response G1 G2) (a b : UInt8) (ha : a.toNat ≤ 54) (hab : b ≤ a) (hr : r.WF a.toNat)
    (junk : Bytes) :
    (∀ cap, 3 + 192 * 2 ^ b.toNat - 32 ≤ cap → cap < 3 + 192 * 2 ^ b.toNat + 32 →
      (transformOnDisk C a b cap (r.encode C ++ junk)).1 = .ok () ∧
      (transformOnDisk C a b cap (r.encode C ++ junk)).2.length < ((r.prefix b).encode C).length) ∧
    (b.toNat ≤ 6 → transformOnDisk C a b 3 (r.encode C ++ junk) = (.ok (), [b, 0, 0])) := by
  obtain ⟨h1, h2⟩ := C18_transform hC r a b ha hab hr junk
  have hl := encode_length hC (r.prefix b) h2
  have hl : ((r.prefix b).encode C).length = 3 + 192 * 2 ^ b.toNat + 32 := by simpa [Response.prefix] using hl
  have hpos : 0 < 2 ^ b.toNat := Nat.pow_pos (by omega)
  constructor
  · intro cap k1 k2
    obtain ⟨e1, e2, -⟩ := C55_transform_exact hC r a b ha hab hr junk cap
    refine ⟨e2.mpr ?_, by rw [e1, List.length_take]; omega⟩
    unfold sectionPasses
    have := Nat.div_add_mod (32 * (2 * 2 ^ b.toNat - 1) - 1) 4096
    have := Nat.div_add_mod (32 * 2 ^ b.toNat - 1) 4096
    have := Nat.div_add_mod (64 * 2 ^ b.toNat - 1) 4096
    omega
  · intro h6
    obtain ⟨e1, e2, -⟩ := C55_transform_exact hC r a b ha hab hr junk 3
    have k1 : 2 ^ b.toNat ≤ 2 ^ 6 := Nat.pow_le_pow_right (by omega) h6
    have h2 := e2.mpr (by
      unfold sectionPasses
      rw [Nat.div_eq_of_lt (by omega), Nat.div_eq_of_lt (by omega), Nat.div_eq_of_lt (by omega)]
      omega)
    exact Prod.ext h2 (by rw [e1]; simp [P1File.encode, Response.prefix])

open Phase1 in
/-- **C55**, `p1t`, what holds: the file is a prefix of the right one, complete if there is room; above power 6 at most 4160
bytes are missing when success is reported. -/
theorem C55_transform_partial (r : Response G1 G2) (a b : UInt8) (ha : a.toNat ≤ 54) (hab : b ≤ a) (hr : r.WF a.toNat)
    (junk : Bytes) (cap : Nat) (h : (transformOnDisk C a b cap (r.encode C ++ junk)).1 = .ok ()) :
    (transformOnDisk C a b cap (r.encode C ++ junk)).2 <+: (r.prefix b).encode C ∧
    (6 < b.toNat → ((r.prefix b).encode C).length
      ≤ (transformOnDisk C a b cap (r.encode C ++ junk)).2.length + 4160) ∧
    (((r.prefix b).encode C).length ≤ cap →
      (transformOnDisk C a b cap (r.encode C ++ junk)).2 = (r.prefix b).encode C) := by
  obtain ⟨-, h2⟩ := C18_transform hC r a b ha hab hr junk
  have hl := encode_length hC (r.prefix b) h2
  have hl : ((r.prefix b).encode C).length = 3 + 192 * 2 ^ b.toNat + 32 := by simpa [Response.prefix] using hl
  obtain ⟨e1, e2, e3⟩ := C55_transform_exact hC r a b ha hab hr junk cap
  refine ⟨e1 ▸ List.take_prefix _ _, ?_, fun hh => by rw [e3 hh]⟩
  intro h6
  have k1 : 2 ^ 7 ≤ 2 ^ b.toNat := Nat.pow_le_pow_right (by omega) h6
  obtain ⟨-, -, -, -, h5⟩ := e2.mp h
  unfold sectionPasses at h5
  rw [e1, List.length_take]
  omega

end

/-! ### C55: all other output -/

/-- **C55**, every other output of the code (p2n, p2np, key, keys: `bufio.Writer`s with a deferred `Flush`): whatever is
written before, if the last writer gets pieces no larger than its buffer, then success is reported on a disk that lacks room
for the last byte, with an incomplete file. -/
theorem C55_deferred_flush_false (ps : List Part) (size : Nat) (cs : List Call)
    (hn : ∀ c ∈ cs, c.bytes ≠ [] ∧ c.bytes.length ≤ size) (h : cs ≠ []) (cap : Nat)
    (hcap : cap + 1 = (allParts (ps ++ [⟨size, cs⟩])).length) :
    (runParts ⟨cap, []⟩ (ps ++ [⟨size, cs⟩])).1 = true ∧
    (runParts ⟨cap, []⟩ (ps ++ [⟨size, cs⟩])).2.data.length = cap := by
  obtain ⟨h1, -, -⟩ := runParts_spec (ps ++ [⟨size, cs⟩]) ⟨cap, []⟩ (Nat.zero_le _)
  refine ⟨?_, by rw [h1]; simp only [List.nil_append, List.length_take]; omega⟩
  have e : allParts (ps ++ [⟨size, cs⟩]) = allParts ps ++ allBytes cs := by simp [allParts, Part.all]
  rw [e, List.length_append] at hcap
  have hpos : 0 < (allBytes cs).length := by
    obtain ⟨c, cs', rfl⟩ := List.exists_cons_of_ne_nil h
    have := List.length_pos_iff.mpr (hn c (by simp)).1
    simp only [allBytes, List.flatMap_cons, List.length_append]
    omega
  obtain ⟨p1, p2, p3⟩ := runParts_spec ps ⟨cap, []⟩ (Nat.zero_le _)
  simp only [List.nil_append] at p1 p2 p3
  rw [List.take_of_length_le (by omega)] at p1
  have hok : (runParts ⟨cap, []⟩ ps).1 = true := by
    by_contra hb
    have := p3 (by simpa using hb)
    omega
  rw [runParts_append, if_pos hok, runParts]
  have hf : (runParts ⟨cap, []⟩ ps).2.data.length ≤ (runParts ⟨cap, []⟩ ps).2.cap := by rw [p1, p2]; omega
  have := runCalls_keeps (cap := (runParts ⟨cap, []⟩ ps).2.cap) (size := size) cs hn _ _ (new_holds _ hf size) rfl
    (by rw [p1, p2, List.length_append]; omega)
  have hk : (runPart (runParts ⟨cap, []⟩ ps).2 ⟨size, cs⟩).1 = true := this
  rw [if_pos hk, runParts]

/-! ### concrete cases -/

-- a second contribution to the toy file of power 1: 1059 + 640 bytes
example := C48_phase1_exact Toy.lawful Toy.par batchSize (by decide) Toy.rnd'' Toy.one Toy.one_wf (by decide) (by decide) [1]
example := C48_phase1_partial Toy.lawful Toy.par Toy.par .strict batchSize batchSize (by decide) (by decide) Toy.rnd''
  Toy.vr Toy.one Toy.one_wf (by decide) (by decide) (by decide +kernel) [1] none
example := C48_phase1_false Toy.lawful Toy.par batchSize (by decide) Toy.rnd'' Toy.one Toy.one_wf (by decide) (by decide) [1]
example := C48_phase1_header_only Toy.lawful Toy.par batchSize (by decide) Toy.rnd'' Toy.one Toy.one_wf (by decide) (by decide)
  [1] (by decide)

example := C48_phase2_exact Toy.lawful Gob.lawful Toy.par batchSize (by decide) Toy.p2rnd'
  (Toy.p2.contribute Toy.curve Toy.p2rnd) (contribute2_wf Toy.lawful _ Toy.p2_wf _ (by decide)) (by decide)
  (by decide +kernel) [1] (le_trans (gob_header_le _) (by decide))
example := C48_phase2_partial Toy.lawful Gob.lawful Toy.par Toy.par batchSize batchSize (by decide) (by decide) Toy.p2rnd'
  Toy.p2vr (Toy.p2.contribute Toy.curve Toy.p2rnd) Toy.p2 (contribute2_wf Toy.lawful _ Toy.p2_wf _ (by decide)) Toy.p2_wf
  (by decide) (by decide +kernel) (by decide +kernel) (by decide +kernel) (by decide +kernel) [1] [2]
example := C48_phase2_false Toy.lawful Gob.lawful Toy.par batchSize (by decide) Toy.p2rnd'
  (Toy.p2.contribute Toy.curve Toy.p2rnd) (contribute2_wf Toy.lawful _ Toy.p2_wf _ (by decide)) (by decide)
  (by decide +kernel) [1] (by decide +kernel)

-- power 12 needs 786467 bytes; nothing is written, and no error reported
example : Phase1.initializeOnDisk Toy.curve 12 0 = (.ok (), []) :=
  (C55_initialize_false Toy.lawful 12 (by decide)).2 (by decide)
example := C55_initialize_partial Toy.lawful 12 (by decide) 3 (by decide)
  ((C55_initialize_exact Toy.lawful 12 (by decide) 3).2.1.mpr (by decide))
-- power 13 on a full disk is noticed
example : (Phase1.initializeOnDisk Toy.curve 13 0).1 ≠ .ok () :=
  fun h => absurd ((C55_initialize_exact Toy.lawful 13 (by decide) 0).2.1.mp h) (by decide)

example : Phase1.transformOnDisk Toy.curve 2 1 3 (Toy.response.encode Toy.curve ++ [1, 2]) = (.ok (), [1, 0, 0]) :=
  (C55_transform_false Toy.lawful Toy.response 2 1 (by decide) (by decide) Toy.response_wf [1, 2]).2 (by decide)
example := C55_transform_partial Toy.lawful Toy.response 2 1 (by decide) (by decide) Toy.response_wf [1, 2] 3
  ((C55_transform_exact Toy.lawful Toy.response 2 1 (by decide) (by decide) Toy.response_wf [1, 2] 3).2.1.mpr
    (by unfold sectionPasses; decide))

-- two unbuffered bytes, then three bytes in two pieces through a buffer of 4
example := C55_deferred_flush_false [⟨0, [⟨[1, 2], true⟩]⟩] 4 [⟨[3, 4], true⟩, ⟨[5], true⟩] (by decide) (by decide) 4 (by decide)

end ZkSetup
