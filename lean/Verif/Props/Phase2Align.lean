import Mathlib.Tactic.IntervalCases
import Verif.Props.Phase2Straddle
/-
C31, C43: for which circuits a hash of a phase 2 file ever lies across a boundary of the read buffer.
-/
set_option linter.unusedSectionVars false

namespace ZkSetup

open Phase1 (batchSize)
open Phase2

/-- a header with the number of contributions replaced -/
def withCount (h : Header) (k : Int) : Header := { h with contributions := k }

section
variable {F G1 G2 GT : Type} [Field F] [AddCommGroup G1] [Module F G1] [AddCommGroup G2]
  [Module F G2] [AddCommGroup GT] [Module F GT] [DecidableEq G1] [DecidableEq G2] [DecidableEq GT]
variable {C : Curve F G1 G2 GT}

/-- Where the records begin, modulo 64, for a header of length `l`. -/
def P2File.alignment (f : P2File G1 G2) (l : Nat) : Nat := (l + 32 * (f.z.length + f.pkk.length)) % 64

theorem hashPos_mod (H : HeaderCodec) (f : P2File G1 G2) (j : Nat) :
    f.hashPos H j % 64 = f.alignment (H.enc f.header).length := by
  unfold P2File.hashPos P2File.alignment
  omega

/-- **C43**, the exact condition: in a file whose records begin at most 32 bytes after a multiple of 64, no hash straddles, no matter
how many contributions there are. -/
theorem C43_aligned (H : HeaderCodec) (f : P2File G1 G2) (h : f.alignment (H.enc f.header).length ≤ 32) : f.NoStraddle H := by
  intro j _
  rw [← hashPos_mod H f j] at h
  omega

/-- **C43**, the exact condition: otherwise exactly one of the first 64 hashes straddles (if there are so many). -/
theorem C43_unaligned (H : HeaderCodec) (f : P2File G1 G2) (h : 32 < f.alignment (H.enc f.header).length) :
    ∃ j < 64, ∀ i < 64, 4096 < f.hashPos H i % 4096 + 32 ↔ i = j := by
  have hp : ∀ i, f.hashPos H i = f.hashPos H 0 + 192 * i := by intro i; unfold P2File.hashPos; omega
  rw [← hashPos_mod H f 0] at h
  generalize f.hashPos H 0 = p at h hp
  refine ⟨43 * (63 - p / 64 % 64) % 64, by omega, ?_⟩
  intro i hi
  rw [hp i]
  have ha : p / 64 % 64 < 64 := Nat.mod_lt _ (by decide)
  generalize hq : p / 64 % 64 = a at ha
  have e1 : (p + 192 * i) % 4096 = 64 * ((a + 3 * i) % 64) + p % 64 := by omega
  rw [e1]
  have : 4096 < 64 * ((a + 3 * i) % 64) + p % 64 + 32 ↔ (a + 3 * i) % 64 = 63 := by omega
  rw [this]
  omega

theorem ceremony2_header (hC : C.Lawful) (H : HeaderCodec) (hH : H.Lawful) (o : P2File G1 G2) (ho : o.WF) (h0 : o.records = [])
    (rnds : List (Rand F)) (hk : rnds.length < 2 ^ 63 - 1) :
    (o.ceremony C rnds).header = (withCount o.header (rnds.length : Int)) ∧
    (o.ceremony C rnds).z.length = o.z.length ∧ (o.ceremony C rnds).pkk.length = o.pkk.length := by
  obtain ⟨h1, h2, h3⟩ := ceremony2_facts hC hH o ho h0 rnds hk
  obtain ⟨s1, s2, s3, s4, s5, s6⟩ := h3.shape
  refine ⟨?_, by rw [h3.z, List.length_map], by rw [h3.pkk, List.length_map]⟩
  simp [withCount, P2File.header, s1, s2, s3, s4, s5, s6, h2]

/-- the condition on the header lengths excludes straddling -/
theorem ceremonyNoStraddle (hC : C.Lawful) {H : HeaderCodec} (hH : H.Lawful) (o : P2File G1 G2) (ho : o.WF) (h0 : o.records = [])
    (rnds : List (Rand F)) (hk : rnds.length < 2 ^ 63 - 1)
    (ha : ∀ k : Nat, 1 ≤ k → k ≤ rnds.length → o.alignment (H.enc (withCount o.header k)).length ≤ 32) :
    o.CeremonyNoStraddle C H rnds := by
  intro k hk'
  by_cases hk0 : k = 0
  · subst hk0
    intro j hj
    rw [List.take_zero, show o.ceremony C [] = o from rfl, h0] at hj
    exact absurd hj (Nat.not_lt_zero _)
  obtain ⟨e1, e2, e3⟩ := ceremony2_header hC H hH o ho h0 (rnds.take k) (by simp; omega)
  refine C43_aligned H _ ?_
  have := ha k (by omega) hk'
  unfold P2File.alignment at this ⊢
  rw [e1, e2, e3]
  simp only [List.length_take, Nat.min_eq_left hk']
  exact this

/-- **C31**, with a condition that can be read off the circuit: if the records begin at most 32 bytes after a multiple of 64, for the
header lengths that occur, then honest ceremonies of any length are accepted. -/
theorem C31_aligned_accepted_partial (hC : C.Lawful) {H : HeaderCodec} (hH : H.Lawful) (b : Nat) (hb : 0 < b) (o : P2File G1 G2)
    (ho : o.WF) (h0 : o.records = []) (steps : List (Par × Rand F)) (hne : steps ≠ []) (hk : steps.length < 2 ^ 63 - 1)
    (hd : ∀ s ∈ steps, s.2.delta ≠ 0)
    (ha : ∀ k : Nat, 1 ≤ k → k ≤ steps.length → o.alignment (H.enc (withCount o.header k)).length ≤ 32) :
    ∃ out, p2Ceremony C H b steps (o.encode C H) = .ok out ∧
      ∀ (par : Par) (b' : Nat) (_ : 0 < b') (vr : VerifyRand F) (junk junk' : Bytes),
        Phase2.verify C H par b' vr (out ++ junk) (o.encode C H ++ junk') = .ok () := by
  exact C31_honest_accepted_partial hC hH b hb o ho h0 steps hne hk hd
    (ceremonyNoStraddle hC hH o ho h0 _ (by simpa using hk) (by simpa using ha))

theorem Chain2By.step_hash (rs : List (Contribution G1 G2)) : ∀ (d : G1) (h : Bytes) (xs : List F), Chain2By C d h rs xs →
    ∀ r ∈ rs, r.hash = C.sha (record2Body C r) := by
  induction rs with
  | nil => simp
  | cons r rs ih =>
    intro d h xs hc q hq
    cases xs with
    | nil => exact hc.elim
    | cons x xs =>
      rcases List.mem_cons.mp hq with rfl | hq
      · exact hc.1.hash
      · exact ih _ _ _ hc.2 q hq

/-- **C31** is false for nearly all other circuits: there is a contributor, one of the first 64, after whose contribution the file is
rejected whatever the verifier draws, unless their hash ends in a zero byte. All contributions until then succeed. In the gob format the
header has the same length for 1 to 63 contributions and one byte more for 64, see `gob_header_length`. -/
theorem C31_unaligned_rejected (hC : C.Lawful) {H : HeaderCodec} (hH : H.Lawful) (b : Nat) (hb : 0 < b) (o : P2File G1 G2)
    (ho : o.WF) (h0 : o.records = []) (l : Nat)
    (hl : ∀ k : Nat, 1 ≤ k → k ≤ 64 → l ≤ (H.enc (withCount o.header k)).length ∧
      (H.enc (withCount o.header k)).length ≤ l + 1)
    (ha : 32 < o.alignment l) (ha' : o.alignment l < 63) :
    ∃ n, 1 ≤ n ∧ n ≤ 64 ∧ ∀ (steps : List (Par × Rand F)), steps.length = n →
      ∃ f : P2File G1 G2, p2Ceremony C H b steps (o.encode C H) = .ok (f.encode C H) ∧ f.records.length = n ∧
        ((∀ r, f.records.getLast? = some r → r.hash.getLast? ≠ some 0) →
          ∀ (par : Par) (b' : Nat) (_ : 0 < b') (vr : VerifyRand F) (junk junk' : Bytes),
            Phase2.verify C H par b' vr (f.encode C H ++ junk) (o.encode C H ++ junk') ≠ .ok ()) := by
  -- the position of hash `j` in a file with `l` bytes of header
  let pos : Nat → Nat := fun j => l + 32 + 64 + 32 * o.z.length + 32 * o.pkk.length + 192 * j + 160
  have hpos : ∃ j < 64, ∀ i < 64, ∀ e ≤ 1, 4096 < (pos i + e) % 4096 + 32 ↔ i = j := by
    have hp : ∀ i, pos i = pos 0 + 192 * i := by intro i; simp only [pos]; omega
    have h : 32 < pos 0 % 64 ∧ pos 0 % 64 < 63 := by
      simp only [pos]
      unfold P2File.alignment at ha ha'
      omega
    generalize pos 0 = p at h hp
    refine ⟨43 * (63 - p / 64 % 64) % 64, by omega, ?_⟩
    intro i hi e he
    rw [hp i]
    have ha : p / 64 % 64 < 64 := Nat.mod_lt _ (by decide)
    generalize hq : p / 64 % 64 = a at ha
    have e1 : (p + 192 * i + e) % 4096 = 64 * ((a + 3 * i) % 64) + p % 64 + e := by omega
    rw [e1]
    have : 4096 < 64 * ((a + 3 * i) % 64) + p % 64 + e + 32 ↔ (a + 3 * i) % 64 = 63 := by omega
    rw [this]
    omega
  obtain ⟨j, hj, hstr⟩ := hpos
  refine ⟨j + 1, by omega, by omega, ?_⟩
  intro steps hn
  have hfile : ∀ k, 1 ≤ k → k ≤ steps.length → ∃ e ≤ 1, ∀ i,
      (o.ceremony C ((steps.map Prod.snd).take k)).hashPos H i = pos i + e := by
    intro k hk1 hk
    obtain ⟨e1, e2, e3⟩ := ceremony2_header hC H hH o ho h0 ((steps.map Prod.snd).take k) (by simp; omega)
    have hk2 : ((steps.map Prod.snd).take k).length = k := by simp; omega
    obtain ⟨l1, l2⟩ := hl k hk1 (by omega)
    refine ⟨(H.enc (withCount o.header k)).length - l, by omega, fun i => ?_⟩
    unfold P2File.hashPos
    rw [e1, e2, e3, hk2]
    generalize (H.enc (withCount o.header k)).length = x at l1 l2 ⊢
    simp only [pos]
    omega
  obtain ⟨hwf, hrl, hup⟩ := ceremony2_facts hC hH o ho h0 (steps.map Prod.snd) (by simp; omega)
  simp only [List.length_map] at hrl
  refine ⟨o.ceremony C (steps.map Prod.snd), ?_, by rw [hrl, hn], ?_⟩
  · refine p2Ceremony_bytes hC hH b hb steps o ho (by simp [h0]; omega) ?_
    intro k hk i hi
    obtain ⟨-, hrk, -⟩ := ceremony2_facts hC hH o ho h0 ((steps.map Prod.snd).take k) (by simp; omega)
    have hk2 : ((steps.map Prod.snd).take k).length = k := by simp; omega
    rw [hrk, hk2] at hi
    obtain ⟨e, he, hpe⟩ := hfile k (by omega) hk.le
    rw [hpe i]
    have := hstr i (by omega) e he
    by_contra hcon
    have := this.mp (by omega)
    omega
  · intro hlast par b' hb' vr junk junk'
    obtain ⟨e, he, hp⟩ := hfile steps.length (by omega) le_rfl
    rw [List.take_of_length_le (by simp)] at hp
    generalize o.ceremony C (steps.map Prod.snd) = f at *
    have hjl : j < f.records.length := by omega
    have hlr : f.records[j].hash.length = 32 := hwf.hash _ (List.getElem_mem hjl)
    have hstr' := (hstr j hj e he).mpr rfl
    refine C31_straddle_rejected hC hH par b' hb' vr f o hwf ho junk junk' j hjl ?_ (by rw [hp j]; exact hstr') ?_ ?_
    · intro i hi
      rw [hp i]
      by_contra hcon
      have := (hstr i (by omega) e he).mp (by omega)
      omega
    · exact hup.chain.step_hash _ _ _ _ _ (List.getElem_mem hjl)
    · rw [hp j]
      intro hz
      refine hlast f.records[j] ?_ ?_
      · rw [List.getLast?_eq_getElem?, hrl, hn]
        simp [List.getElem?_eq_getElem hjl]
      · have h1 : f.records[j].hash.getLast? = (f.records[j].hash.drop (4096 - (pos j + e) % 4096)).getLast? := by
          rw [List.getLast?_drop, if_neg (by omega)]
        rw [h1, hz]
        simp only [List.getLast?_replicate]
        rw [if_neg (by omega)]

end

/-! ### header lengths in the gob format -/

namespace Gob

theorem uintBytes_length_le (n : Nat) : (uintBytes n).length ≤ 9 := by
  unfold uintBytes
  have := byteLen_le n
  split
  · simp
  · simp; omega

theorem fieldBytes_length_le (l : List Int) : ∀ d, d + l.length < 128 → (fieldBytes d l).length ≤ 10 * l.length + 1 := by
  induction l with
  | nil => intro d _; simp [fieldBytes]
  | cons v vs ih =>
    intro d hd
    simp only [List.length_cons] at hd
    unfold fieldBytes
    split
    · have := ih (d + 1) (by omega)
      simp only [List.length_cons]; omega
    · have h1 := ih 1 (by omega)
      have h2 := uintBytes_length_le (zigzag v)
      have h3 : (uintBytes d).length = 1 := by unfold uintBytes; rw [if_pos (by omega)]; rfl
      simp only [List.length_append, List.length_cons, intBytes]; omega

/-- only the width of a last field that is not zero matters -/
theorem fieldBytes_last (v w : Int) (hv : v ≠ 0) (hw : w ≠ 0) (l : List Int) : ∀ d,
    (fieldBytes d (l ++ [v])).length + (intBytes w).length = (fieldBytes d (l ++ [w])).length + (intBytes v).length := by
  induction l with
  | nil =>
    intro d
    simp only [List.nil_append, fieldBytes, if_neg hv, if_neg hw, List.length_append]
    omega
  | cons x xs ih =>
    intro d
    simp only [List.cons_append, fieldBytes]
    split
    · exact ih _
    · have := ih 1
      simp only [List.length_append]
      omega

/-- The length of the header depends on the number of contributions only through the width of that number. -/
theorem encode_length (h : Phase2.Header) (v w : Int) (hv : v ≠ 0) (hw : w ≠ 0) :
    (encode (withCount h v)).length + (intBytes w).length
      = (encode (withCount h w)).length + (intBytes v).length := by
  have hlen : ∀ u : Int, (messageBytes (valueBytes (withCount h u))).length
      = 1 + (valueBytes (withCount h u)).length := by
    intro u
    have h1 := fieldBytes_length_le (toList (withCount h u)) 1 (by simp [toList])
    have h2 : (valueBytes (withCount h u)).length < 128 := by
      unfold valueBytes
      simp only [List.length_append]
      have : (intBytes 65).length = 2 := by decide
      simp only [toList, List.length_cons, List.length_nil] at h1 ⊢
      omega
    unfold messageBytes
    rw [List.length_append]
    congr 1
    unfold uintBytes
    rw [if_pos h2]
    rfl
  unfold encode
  rw [List.length_append, List.length_append, hlen, hlen]
  have := fieldBytes_last v w hv hw [h.wires, h.witness, h.pub, h.privateCommitted, h.constraints, h.domain] 1
  unfold valueBytes
  simp only [List.length_append]
  simp only [withCount, toList, List.cons_append, List.nil_append] at this ⊢
  omega

theorem intBytes_small (k : Nat) (hk : k < 64) : (intBytes (k : Int)).length = 1 := by
  have : zigzag (k : Int) = 2 * k := by
    unfold zigzag
    rw [if_pos (by omega)]
    omega
  unfold intBytes uintBytes
  rw [this, if_pos (by omega)]
  rfl

end Gob

/-- In the gob format the header has the same length for 1 to 63 contributions, and one byte more for 64. -/
theorem gob_header_length (h : Header) (k : Nat) (h1 : 1 ≤ k) (h2 : k ≤ 64) :
    (Gob.headerCodec.enc (withCount h (k : Int))).length
      = (Gob.headerCodec.enc (withCount h 1)).length + (if k = 64 then 1 else 0) := by
  have e := Gob.encode_length h (k : Int) 1 (by omega) (by decide)
  have e1 : (Gob.intBytes 1).length = 1 := rfl
  show (Gob.encode _).length = (Gob.encode _).length + _
  by_cases hk : k = 64
  · subst hk
    have : (Gob.intBytes ((64 : Nat) : Int)).length = 2 := rfl
    rw [if_pos rfl]
    omega
  · have := Gob.intBytes_small k (by omega)
    rw [if_neg hk]
    omega

theorem gob_header_length_le (h : Header) (k : Nat) (h1 : 1 ≤ k) :
    (Gob.headerCodec.enc (withCount h 1)).length ≤ (Gob.headerCodec.enc (withCount h (k : Int))).length ∧
    (Gob.headerCodec.enc (withCount h (k : Int))).length
      ≤ (Gob.headerCodec.enc (withCount h 1)).length + 8 := by
  have e := Gob.encode_length h (k : Int) 1 (by omega) (by decide)
  have e1 : (Gob.intBytes 1).length = 1 := rfl
  have e2 : (Gob.intBytes (k : Int)).length ≤ 9 := Gob.uintBytes_length_le _
  have e3 : 1 ≤ (Gob.intBytes (k : Int)).length := by
    unfold Gob.intBytes Gob.uintBytes
    split <;> simp
  show (Gob.encode _).length ≤ (Gob.encode _).length ∧ (Gob.encode _).length ≤ (Gob.encode _).length + 8
  omega

section
variable {F G1 G2 GT : Type} [Field F] [AddCommGroup G1] [Module F G1] [AddCommGroup G2]
  [Module F G2] [AddCommGroup GT] [Module F GT] [DecidableEq G1] [DecidableEq G2] [DecidableEq GT]
variable {C : Curve F G1 G2 GT}

/-- where the records begin after the first contribution, modulo 64: a number that depends on the circuit only -/
def P2File.gobAlignment (o : P2File G1 G2) : Nat :=
  o.alignment (Gob.headerCodec.enc (withCount o.header 1)).length

/-- **C31**, in the gob format, by circuit. The alignment is a number below 64 that depends on the circuit.
- up to 32: honest ceremonies with at most 63 contributions are accepted;
- up to 24: honest ceremonies are accepted, whatever their length;
- 33 to 62: no honest ceremony gets beyond 64 contributions, except if the hash of one particular contributor ends in a zero byte. -/
theorem C31_by_circuit_partial (hC : C.Lawful) (b : Nat) (hb : 0 < b) (o : P2File G1 G2) (ho : o.WF) (h0 : o.records = []) :
    (∀ steps : List (Par × Rand F), steps ≠ [] → steps.length < 2 ^ 63 - 1 → (∀ s ∈ steps, s.2.delta ≠ 0) →
      (o.gobAlignment ≤ 32 ∧ steps.length ≤ 63 ∨ o.gobAlignment ≤ 24) →
      ∃ out, p2Ceremony C Gob.headerCodec b steps (o.encode C Gob.headerCodec) = .ok out ∧
        ∀ (par : Par) (b' : Nat) (_ : 0 < b') (vr : VerifyRand F) (junk junk' : Bytes),
          Phase2.verify C Gob.headerCodec par b' vr (out ++ junk) (o.encode C Gob.headerCodec ++ junk') = .ok ()) ∧
    (33 ≤ o.gobAlignment → o.gobAlignment ≤ 62 →
      ∃ n, 1 ≤ n ∧ n ≤ 64 ∧ ∀ (steps : List (Par × Rand F)), steps.length = n →
        ∃ f : P2File G1 G2, p2Ceremony C Gob.headerCodec b steps (o.encode C Gob.headerCodec) = .ok (f.encode C Gob.headerCodec) ∧
          f.records.length = n ∧
          ((∀ r, f.records.getLast? = some r → r.hash.getLast? ≠ some 0) →
            ∀ (par : Par) (b' : Nat) (_ : 0 < b') (vr : VerifyRand F) (junk junk' : Bytes),
              Phase2.verify C Gob.headerCodec par b' vr (f.encode C Gob.headerCodec ++ junk)
                (o.encode C Gob.headerCodec ++ junk') ≠ .ok ())) := by
  constructor
  · intro steps hne hk hd hal
    refine C31_aligned_accepted_partial hC Gob.lawful b hb o ho h0 steps hne hk hd ?_
    intro k hk1 hk2
    unfold P2File.gobAlignment at hal
    unfold P2File.alignment at hal ⊢
    rcases hal with ⟨hal, h63⟩ | hal
    · rw [gob_header_length _ k hk1 (by omega), if_neg (by omega), Nat.add_zero]
      exact hal
    · have := gob_header_length_le o.header k hk1
      omega
  · intro h33 h62
    refine C31_unaligned_rejected hC Gob.lawful b hb o ho h0 (Gob.headerCodec.enc (withCount o.header 1)).length ?_
      (by unfold P2File.gobAlignment at h33; omega) (by unfold P2File.gobAlignment at h62; omega)
    intro k hk1 hk2
    rw [gob_header_length _ k hk1 hk2]
    split <;> omega

end

theorem Toy.p2_alignment : Toy.p2.gobAlignment = 8 := by decide +kernel

theorem Toy.wide_alignment : Toy.wide.gobAlignment = 41 := by decide +kernel

-- a circuit of each kind
example := (C31_by_circuit_partial Toy.lawful batchSize (by decide) Toy.p2 Toy.p2_wf rfl).1
  [(Toy.par, Toy.p2rnd), (Toy.par, Toy.p2rnd')] (by simp) (by simp) (by decide) (.inr (by rw [Toy.p2_alignment]; decide))
example := (C31_by_circuit_partial Toy.lawful batchSize (by decide) Toy.wide Toy.wide_wf rfl).2
  (by rw [Toy.wide_alignment]; decide) (by rw [Toy.wide_alignment]; decide)

example := C43_aligned Gob.headerCodec (Toy.p2.contribute Toy.curve Toy.p2rnd) (by decide +kernel)
example := C43_unaligned Gob.headerCodec Toy.wide1 (by decide +kernel)

example := C31_aligned_accepted_partial Toy.lawful Gob.lawful batchSize (by decide) Toy.p2 Toy.p2_wf rfl
  [(Toy.par, Toy.p2rnd), (Toy.par, Toy.p2rnd')] (by simp) (by simp) (by decide)
  (by intro k h1 h2; have : k ≤ 2 := h2; interval_cases k <;> decide +kernel)

example := C31_unaligned_rejected Toy.lawful Gob.lawful batchSize (by decide) Toy.wide Toy.wide_wf rfl
  (Gob.headerCodec.enc (withCount Toy.wide.header 1)).length
  (by intro k h1 h2; rw [gob_header_length _ k h1 h2]; split <;> omega)
  (by have := Toy.wide_alignment; unfold P2File.gobAlignment at this; omega)
  (by have := Toy.wide_alignment; unfold P2File.gobAlignment at this; omega)

end ZkSetup
