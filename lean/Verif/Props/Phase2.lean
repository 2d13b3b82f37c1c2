import Verif.Proofs.Phase2Ceremony
import Verif.Proofs.Gob
import Verif.Props.Phase1
/-
Phase 2 files and ceremonies: C28 to C31, and the phase 2 parts of C07, C08, C49.
-/
set_option linter.unusedSectionVars false

namespace ZkSetup

open Phase1 (batchSize)
open Phase2

theorem header2_roundtrip {H : HeaderCodec} (hH : H.Lawful) (h : Header) (hr : h.InRange) (cap pos : Nat) (ys : Bytes) :
    (Header.read H).run ⟨cap, pos, h.write H ++ ys⟩ = (.ok h, ⟨cap, pos + (h.write H).length, ys⟩) :=
  hH.dec_enc h hr cap pos ys

/-- **C28**, header: for every header of 64-bit integers, reading what was written returns it and leaves the reader at the
first byte after it, whatever follows and however the reader is buffered. -/
theorem C28_header_roundtrip (h : Header) (hr : h.InRange) (cap pos : Nat) (ys : Bytes) :
    (Header.read Gob.headerCodec).run ⟨cap, pos, h.write Gob.headerCodec ++ ys⟩
      = (.ok h, ⟨cap, pos + (h.write Gob.headerCodec).length, ys⟩) :=
  header2_roundtrip Gob.lawful h hr cap pos ys

example := C28_header_roundtrip ⟨1000, -7, 3, 0, 2 ^ 40, 2 ^ 63 - 1, -(2 ^ 63)⟩
  ⟨by decide, by decide, by decide, by decide, by decide, by decide, by decide⟩ 4096 17 [1, 2, 3]

-- the same bytes the Go implementation writes for a small header (type definition cut off)
example : ((⟨5, 3, 2, 0, 4, 4, 1⟩ : Header).write Gob.headerCodec).drop 120
    = [15, 255, 130, 1, 10, 1, 6, 1, 4, 2, 8, 1, 8, 1, 2, 0] := by decide +kernel

namespace Toy

/-- an initial phase 2 file -/
def p2 : P2File K K where
  wires := 5
  witness := 3
  pub := 2
  privateCommitted := 0
  constraints := 4
  domain := 4
  delta1 := 1
  delta2 := 1
  z := [3, 5, 7]
  pkk := [2, 4, 6]
  records := []

theorem p2_wf : p2.WF := ⟨by decide, by decide, by decide, by decide, by decide, by decide, by decide, rfl, rfl, by decide,
  by simp [p2]⟩

/-- a phase 2 contributor's draws -/
def p2rnd : Rand K := ⟨3, 5⟩

/-- another one -/
def p2rnd' : Rand K := ⟨11, 2⟩

/-- a verifier's draws -/
def p2vr : Phase2.VerifyRand K := ⟨fun t i => (t + 2 * i + 1 : ℕ), fun t i => (3 * t + i + 2 : ℕ)⟩

instance (H : HeaderCodec) (f : P2File K K) : Decidable (f.NoStraddle H) := by
  unfold P2File.NoStraddle; infer_instance

instance (H : HeaderCodec) (f : P2File K K) (rnds : List (Rand K)) : Decidable (f.CeremonyNoStraddle curve H rnds) := by
  unfold P2File.CeremonyNoStraddle; infer_instance

end Toy

section
variable {F G1 G2 GT : Type} [Field F] [AddCommGroup G1] [Module F G1] [AddCommGroup G2]
  [Module F G2] [AddCommGroup GT] [Module F GT] [DecidableEq G1] [DecidableEq G2] [DecidableEq GT]
variable {C : Curve F G1 G2 GT} (hC : C.Lawful)
include hC

/-- **C07**, phase 2: a written record is read back and the reader is left after it, if the hash does not lie across the
end of the read buffer. -/
theorem C07_phase2_roundtrip (c : Contribution G1 G2) (hl : c.hash.length = 32) (cap pos : Nat) (ys : Bytes)
    (hf : cap = 0 ∨ (pos + 160) % cap + 32 ≤ cap) :
    (Contribution.readFrom C).run ⟨cap, pos, c.writeTo C ++ ys⟩ = (.ok c, ⟨cap, pos + 192, ys⟩) := by
  rw [contribution2_writeTo]
  exact record2_read hC c cap pos ys hl hf

example := C07_phase2_roundtrip Toy.lawful ⟨3, ⟨4, 5, 6⟩, List.replicate 32 9⟩ rfl 4096 3800 [1, 2] (by decide)

/-- **C08**, phase 2: scaling a section multiplies every point by the scalar, whatever the batch size, number of CPUs and
schedule, and consumes exactly the section. -/
theorem C08_phase2_scale (par : Par) (b : Nat) (hb : 0 < b) (x : F) (pts : List G1) (cap pos : Nat) (ys out : Bytes) :
    (Phase2.scale C par b pts.length x).run ⟨⟨cap, pos, pts.flatMap C.c1.bytes ++ ys⟩, out⟩
      = (.ok (), ⟨⟨cap, pos + 32 * pts.length, ys⟩, out ++ (pts.map (x • ·)).flatMap C.c1.bytes⟩) :=
  scale2_spec hC par b hb x pts cap pos ys out

-- two batches
example := C08_phase2_scale Toy.lawful Toy.par 2 (by decide) 5 [3, 5, 7] 4096 0 [9] [1]

variable {H : HeaderCodec} (hH : H.Lawful)
include hH

/-- **C29** (partial): on a well-formed file in which no hash lies across a boundary of the read buffer, `Contribute`
succeeds, prints the new last hash and writes the file with `[δ]1`, `[δ]2` multiplied by the drawn scalar, Z and PKK
divided by it, the old records followed by one new record, and the incremented counter (`P2File.contribute`). Missing
for the full C29: files in which a hash lies across a boundary; see `C29_straddle_corrupts`. -/
theorem C29_contribute_partial (par : Par) (b : Nat) (hb : 0 < b) (rnd : Rand F) (f : P2File G1 G2) (hf : f.WF)
    (hs : f.NoStraddle H) (junk : Bytes) :
    Phase2.contribute C H par b rnd (f.encode C H ++ junk)
      = (.ok (lastHash2 (f.contribute C rnd).records), (f.contribute C rnd).encode C H) :=
  contribute2_spec hC hH par b hb rnd f hf hs junk

/-- **C29**, first contribution: on an initial file no condition on positions is needed. -/
theorem C29_first_contribution (par : Par) (b : Nat) (hb : 0 < b) (rnd : Rand F) (f : P2File G1 G2) (hf : f.WF)
    (h0 : f.records = []) (junk : Bytes) :
    Phase2.contribute C H par b rnd (f.encode C H ++ junk)
      = (.ok (lastHash2 (f.contribute C rnd).records), (f.contribute C rnd).encode C H) :=
  contribute2_spec hC hH par b hb rnd f hf (fun j hj => by simp [h0] at hj) junk

/-- **C49**, phase 2 `Contribute`: bytes after the records have no influence. -/
theorem C49_phase2_contribute_suffix (par : Par) (b : Nat) (hb : 0 < b) (rnd : Rand F) (f : P2File G1 G2) (hf : f.WF)
    (hs : f.NoStraddle H) (junk : Bytes) :
    Phase2.contribute C H par b rnd (f.encode C H ++ junk) = Phase2.contribute C H par b rnd (f.encode C H) := by
  have := contribute2_spec hC hH par b hb rnd f hf hs []
  rw [List.append_nil] at this
  rw [contribute2_spec hC hH par b hb rnd f hf hs junk, this]

/-- **C49**, phase 2 `Verify`: bytes after the records have no influence, in either file. -/
theorem C49_phase2_verify_suffix (par : Par) (b : Nat) (hb : 0 < b) (vr : VerifyRand F) (f o : P2File G1 G2) (hf : f.WF)
    (ho : o.WF) (hs : f.NoStraddle H) (junk junk' : Bytes) :
    Phase2.verify C H par b vr (f.encode C H ++ junk) (o.encode C H ++ junk') = .ok () ↔
      Phase2.verify C H par b vr (f.encode C H) (o.encode C H) = .ok () := by
  have := verify2_iff hC hH par b hb vr f o hf ho hs [] []
  rw [List.append_nil, List.append_nil] at this
  rw [this, verify2_iff hC hH par b hb vr f o hf ho hs junk junk']

/-- the files of a ceremony -/
theorem ceremony2_facts (o : P2File G1 G2) (ho : o.WF) (h0 : o.records = []) (rnds : List (Rand F))
    (hk : rnds.length < 2 ^ 63 - 1) :
    (o.ceremony C rnds).WF ∧ (o.ceremony C rnds).records.length = rnds.length ∧
      UpdateOf C o (o.ceremony C rnds) (deltaProduct rnds) (rnds.map (·.delta)) := by
  have := ceremony2_inv hC rnds o o 1 [] ho (by simpa [h0] using hk) (UpdateOf.refl o h0)
  simpa [h0] using this

/-- **C30** (partial): every contribution of a ceremony on an initial file succeeds, and in the final file `[δ]1` and `[δ]2`
are the initial ones multiplied by the product of the secrets, Z and PKK are the initial ones divided by it, and there
are as many records as contributors. Missing: ceremonies in which a hash lies across a buffer boundary. -/
theorem C30_ceremony_partial (b : Nat) (hb : 0 < b) (o : P2File G1 G2) (ho : o.WF) (h0 : o.records = [])
    (steps : List (Par × Rand F)) (hk : steps.length < 2 ^ 63 - 1)
    (hs : o.CeremonyNoStraddle C H (steps.map Prod.snd)) :
    ∃ f : P2File G1 G2, p2Ceremony C H b steps (o.encode C H) = .ok (f.encode C H) ∧ f.WF ∧ f.SameShape o ∧
      f.delta1 = deltaProduct (steps.map Prod.snd) • o.delta1 ∧
      f.delta2 = deltaProduct (steps.map Prod.snd) • o.delta2 ∧
      f.z = o.z.map ((deltaProduct (steps.map Prod.snd))⁻¹ • ·) ∧
      f.pkk = o.pkk.map ((deltaProduct (steps.map Prod.snd))⁻¹ • ·) ∧
      f.records.length = steps.length := by
  obtain ⟨h1, h2, h3⟩ := ceremony2_facts hC hH o ho h0 (steps.map Prod.snd) (by simpa using hk)
  refine ⟨_, p2Ceremony_bytes hC hH b hb steps o ho (by simpa [h0] using hk) ?_, h1, h3.shape, h3.delta1, h3.delta2, h3.z,
    h3.pkk, by simpa using h2⟩
  intro k hk'
  exact hs k (by simp; omega)

/-- **C31** (partial): the final file of a ceremony with at least one contributor and nonzero secrets is accepted, for
every verifier randomness, machine and schedule. Missing: ceremonies in which a hash lies across a buffer boundary; for
those it is false, see `C31_straddle_rejected`. -/
theorem C31_honest_accepted_partial (b : Nat) (hb : 0 < b) (o : P2File G1 G2) (ho : o.WF) (h0 : o.records = [])
    (steps : List (Par × Rand F)) (hne : steps ≠ []) (hk : steps.length < 2 ^ 63 - 1)
    (hd : ∀ s ∈ steps, s.2.delta ≠ 0) (hs : o.CeremonyNoStraddle C H (steps.map Prod.snd)) :
    ∃ out, p2Ceremony C H b steps (o.encode C H) = .ok out ∧
      ∀ (par : Par) (b' : Nat) (_ : 0 < b') (vr : VerifyRand F) (junk junk' : Bytes),
        Phase2.verify C H par b' vr (out ++ junk) (o.encode C H ++ junk') = .ok () := by
  obtain ⟨h1, h2, h3⟩ := ceremony2_facts hC hH o ho h0 (steps.map Prod.snd) (by simpa using hk)
  refine ⟨_, p2Ceremony_bytes hC hH b hb steps o ho (by simpa [h0] using hk) ?_, ?_⟩
  · intro k hk'
    exact hs k (by simp; omega)
  · intro par b' hb' vr junk junk'
    refine verify2_update hC hH par b' hb' vr o _ ho h1 ?_ ?_ _ (deltaProduct_ne hC ?_) _ h3 junk junk'
    · have := hs _ le_rfl
      rwa [List.take_length] at this
    · intro h
      rw [h] at h2
      exact hne (List.length_eq_zero_iff.mp (by simpa using h2.symm))
    · intro r hr
      obtain ⟨s, hs, rfl⟩ := List.mem_map.mp hr
      exact hd s hs

end

theorem Toy.p2_noStraddle : Toy.p2.CeremonyNoStraddle Toy.curve Gob.headerCodec [Toy.p2rnd, Toy.p2rnd'] := by
  decide +kernel

example := C29_contribute_partial Toy.lawful Gob.lawful Toy.par batchSize (by decide) Toy.p2rnd'
  (Toy.p2.contribute Toy.curve Toy.p2rnd)
  (contribute2_wf Toy.lawful _ Toy.p2_wf _ (by decide)) (by decide +kernel) [1]

-- all bytes of a small contribution, checked by evaluation
example : (Phase2.contribute Toy.curve Gob.headerCodec Toy.par 2 Toy.p2rnd (Toy.p2.encode Toy.curve Gob.headerCodec)).2
    = (Toy.p2.contribute Toy.curve Toy.p2rnd).encode Toy.curve Gob.headerCodec := by
  rw [← List.append_nil (Toy.p2.encode _ _),
    C29_first_contribution Toy.lawful Gob.lawful Toy.par 2 (by decide) Toy.p2rnd Toy.p2 Toy.p2_wf rfl []]

example := C49_phase2_contribute_suffix Toy.lawful Gob.lawful Toy.par batchSize (by decide) Toy.p2rnd'
  (Toy.p2.contribute Toy.curve Toy.p2rnd)
  (contribute2_wf Toy.lawful _ Toy.p2_wf _ (by decide)) (by decide +kernel) [1]

example := C49_phase2_verify_suffix Toy.lawful Gob.lawful Toy.par batchSize (by decide) Toy.p2vr
  (Toy.p2.contribute Toy.curve Toy.p2rnd) Toy.p2
  (contribute2_wf Toy.lawful _ Toy.p2_wf _ (by decide)) Toy.p2_wf (by decide +kernel) [1] [2, 3]

example := C30_ceremony_partial Toy.lawful Gob.lawful batchSize (by decide) Toy.p2 Toy.p2_wf rfl
  [(Toy.par, Toy.p2rnd), (Toy.par, Toy.p2rnd')] (by decide) Toy.p2_noStraddle

example := C31_honest_accepted_partial Toy.lawful Gob.lawful batchSize (by decide) Toy.p2 Toy.p2_wf rfl
  [(Toy.par, Toy.p2rnd), (Toy.par, Toy.p2rnd')] (by decide) (by decide) (by decide) Toy.p2_noStraddle

end ZkSetup
