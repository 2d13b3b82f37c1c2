import Verif.Props.Phase1History
/-
`phase1.Verify` on files that are cut off.
-/
set_option linter.unusedSectionVars false

namespace ZkSetup

open Phase1 Finset

/-! ### successful reads consume bytes -/

theorem readFull_len {k : Nat} {rd rd' : Rd} {b : Bytes} (h : (Rd.readFull k).run rd = (.ok b, rd')) :
    rd'.rest.length + k = rd.rest.length := by
  unfold Rd.readFull at h
  simp only at h
  split at h
  · simp only [Prod.mk.injEq] at h
    rw [← h.2]
    simp; omega
  · simp at h

theorem decode_len {G : Type} {c : Codec G} {rd rd' : Rd} {p : G} (h : c.decode.run rd = (.ok p, rd')) :
    rd'.rest.length + c.size ≤ rd.rest.length := by
  unfold Codec.decode at h
  obtain ⟨b, rd1, h1, h2⟩ := Go.bind_eq_ok h
  have l1 := readFull_len h1
  have hset : ∀ (bs : Bytes) (r r' : Rd), (c.set bs).run r = (.ok p, r') → r' = r := by
    intro bs r r' h
    unfold Codec.set at h
    split at h
    · simp at h; exact h.2.symm
    · simp at h
  split at h2
  · rw [hset _ _ _ h2]; omega
  · obtain ⟨b', rd2, h3, h4⟩ := Go.bind_eq_ok h2
    have l2 := readFull_len h3
    rw [hset _ _ _ h4]; omega

theorem decodeN_len {G : Type} {c : Codec G} (n : Nat) : ∀ {rd rd' : Rd} {ps : List G},
    (c.decodeN n).run rd = (.ok ps, rd') → rd'.rest.length + c.size * n ≤ rd.rest.length := by
  induction n with
  | zero => intro rd rd' ps h; simp [Codec.decodeN] at h; rw [h.2]; simp
  | succ n ih =>
    intro rd rd' ps h
    unfold Codec.decodeN at h
    obtain ⟨p, rd1, h1, h2⟩ := Go.bind_eq_ok h
    obtain ⟨q, rd2, h3, h4⟩ := Go.bind_eq_ok h2
    simp at h4
    have l1 := decode_len h1
    have l2 := ih h3
    rw [← h4.2, Nat.mul_succ]; omega

section
variable {F : Type} [Field F] {G : Type} [AddCommGroup G] [Module F G]

theorem linCombLoop_len {c : Codec G} (par : Par) (pol : MsmPolicy) (b : Nat) (hb : 0 < b)
    (rnd : Nat → Nat → F) (n : Nat) : ∀ (t : Nat) (buff : List G) (r : List F) (L1 L2 tmp1 tmp2 : G) (rd rd' : Rd)
      (v : G × G), (linCombLoop c par pol b rnd n t buff r L1 L2 tmp1 tmp2).run rd = (.ok v, rd') →
      rd'.rest.length + c.size * n ≤ rd.rest.length := by
  induction n using Nat.strong_induction_on with
  | _ n ih =>
    intro t buff r L1 L2 tmp1 tmp2 rd rd' v h
    rw [linCombLoop] at h
    by_cases h0 : 0 < n ∧ 0 < b
    · rw [dif_pos h0] at h
      obtain ⟨ps, rd1, h1, h2⟩ := Go.bind_eq_ok h
      have l1 := decodeN_len _ h1
      have l2 := ih (n - min n b) (by omega) _ _ _ _ _ _ _ _ _ _ h2
      have : c.size * n = c.size * min n b + c.size * (n - min n b) := by
        rw [← Nat.mul_add]; congr 1; omega
      omega
    · have : n = 0 := by omega
      subst this
      rw [dif_neg h0] at h
      simp at h
      rw [h.2]; simp

theorem linearCombination_len {c : Codec G} (par : Par) (pol : MsmPolicy) (b : Nat) (hb : 0 < b)
    (rnd : Nat → Nat → F) (N : Int) (rd rd' : Rd) (v : G × G)
    (h : (linearCombination c par pol b rnd N).run rd = (.ok v, rd')) :
    0 ≤ N ∧ rd'.rest.length + c.size * N.toNat ≤ rd.rest.length := by
  unfold linearCombination at h
  obtain ⟨k, rd1, h1, h2⟩ := Go.bind_eq_ok h
  simp only [Go.lift_run, Prod.mk.injEq] at h1
  obtain ⟨h1, rfl⟩ := h1
  refine ⟨?_, linCombLoop_len par pol b hb rnd _ _ _ _ _ _ _ _ _ _ _ h2⟩
  unfold makeLen at h1
  split at h1
  · simp at h1
  · omega

end

section
variable {F G1 G2 GT : Type} [Field F] [AddCommGroup G1] [Module F G1] [AddCommGroup G2]
  [Module F G2] [AddCommGroup GT] [Module F GT] [DecidableEq G1] [DecidableEq G2] [DecidableEq GT]
variable {C : Curve F G1 G2 GT} (hC : C.Lawful)

/-! ### reading a record that is cut off -/

/-- the first `k` points from `new`, everything else from `old` -/
def mixRecord (k : Nat) (old new : Contribution G1 G2) : Contribution G1 G2 where
  g1Tau := if 0 < k then new.g1Tau else old.g1Tau
  g1Alpha := if 1 < k then new.g1Alpha else old.g1Alpha
  g1Beta := if 2 < k then new.g1Beta else old.g1Beta
  g2Tau := if 3 < k then new.g2Tau else old.g2Tau
  g2Beta := if 4 < k then new.g2Beta else old.g2Beta
  pkTau := ⟨if 5 < k then new.pkTau.s else old.pkTau.s, if 6 < k then new.pkTau.sx else old.pkTau.sx,
    if 7 < k then new.pkTau.spx else old.pkTau.spx⟩
  pkAlpha := ⟨if 8 < k then new.pkAlpha.s else old.pkAlpha.s, if 9 < k then new.pkAlpha.sx else old.pkAlpha.sx,
    if 10 < k then new.pkAlpha.spx else old.pkAlpha.spx⟩
  pkBeta := ⟨if 11 < k then new.pkBeta.s else old.pkBeta.s, if 12 < k then new.pkBeta.sx else old.pkBeta.sx,
    if 13 < k then new.pkBeta.spx else old.pkBeta.spx⟩
  hash := old.hash

theorem readField_err {α κ : Type} {dec : Go Rd α} {upd : α → κ → κ} {c : κ} {r r' : Rd} {e : Fail}
    (h : dec.run r = (.error e, r')) : (readField dec upd).run (c, r) = (.error e, (c, r')) := by
  simp [readField, h]

theorem decode_cut_ok {G : Type} {c : Codec G} (hc : c.Lawful) (cap pos m : Nat) (p : G) (ys : Bytes)
    (h : c.size ≤ m) :
    c.decode.run ⟨cap, pos, (c.bytes p ++ ys).take m⟩ = (.ok p, ⟨cap, pos + c.size, ys.take (m - c.size)⟩) := by
  rw [List.take_append, List.take_of_length_le (by rw [hc.bytes_length]; exact h), hc.bytes_length]
  exact Codec.decode_bytes hc cap pos p _

theorem decode_cut_err {G : Type} {c : Codec G} (cap pos m : Nat) (b : Bytes) (h : m < c.size) :
    ∃ rd', c.decode.run ⟨cap, pos, b.take m⟩ = (.error (.err "EOF"), rd') := by
  refine ⟨_, Go.bind_error (s' := Rd.adv ⟨cap, pos, b.take m⟩ (b.take m).length) ?_⟩
  unfold Rd.readFull
  simp only
  rw [if_neg (by simp; omega)]

/-- at the end of the input nothing is spoiled -/
theorem decodeSpoils_short {G : Type} {c : Codec G} (rest : Bytes) (p : G) (h : rest.length < c.size) : c.decodeSpoils rest p = false := by
  simp [Codec.decodeSpoils, Codec.handed, h]

theorem field_step {G κ : Type} {c : Codec G} (hc : c.Lawful) (get : κ → G) (upd : G → κ → κ) (next : Unit → Go (κ × Rd) Unit)
    (p : G) (ys : Bytes) (cap pos m : Nat) (c0 c1 : κ) (hc1 : upd p c0 = c1) (Q : Except Fail Unit × (κ × Rd) → Prop)
    (hErr : m < c.size → ∀ e rd, isSpoiled (.error e) = false → Q (.error e, (c0, rd)))
    (hOk : c.size ≤ m → Q ((next ()).run (c1, ⟨cap, pos + c.size, ys.take (m - c.size)⟩))) :
    Q ((readPoint c get upd >>= next).run (c0, ⟨cap, pos, (c.bytes p ++ ys).take m⟩)) := by
  rcases lt_or_ge m c.size with h | h
  · obtain ⟨rd', hr⟩ := decode_cut_err cap pos m (c.bytes p ++ ys) h
    rw [Go.bind_error (readPoint_err hr)]
    refine hErr h _ _ ?_
    rw [decodeSpoils_short _ _ (by simp only [List.length_take]; omega)]
    rfl
  · rw [Go.bind_ok (readPoint_ok (decode_cut_ok hc cap pos m p ys h)), hc1]
    exact hOk h

theorem field_ok {G κ : Type} {c : Codec G} (hc : c.Lawful) (get : κ → G) (upd : G → κ → κ) (next : Unit → Go (κ × Rd) Unit)
    (p : G) (ys : Bytes) (cap pos : Nat) (c0 c1 : κ) (hc1 : upd p c0 = c1) :
    (readPoint c get upd >>= next).run (c0, ⟨cap, pos, c.bytes p ++ ys⟩)
      = (next ()).run (c1, ⟨cap, pos + c.size, ys⟩) := by
  rw [Go.bind_ok (readPoint_ok (Codec.decode_bytes hc cap pos p ys)), hc1]

/-- the read failed after some points -/
def CutAt (c0 r : Contribution G1 G2) (res : Except Fail Unit × (Contribution G1 G2 × Rd)) : Prop :=
  ∃ k e rd', k ≤ 13 ∧ res = (.error e, (mixRecord k c0 r, rd')) ∧ isSpoiled (.error e) = false

include hC

theorem record_read_cut (r c0 : Contribution G1 G2) (cap pos m : Nat) (ys : Bytes) (hm : m < 608) :
    CutAt c0 r ((Contribution.readFrom C).run (c0, ⟨cap, pos, (recordBytes C r ++ ys).take m⟩)) := by
  have hs1 := hC.size1
  have hs2 := hC.size2
  have h0 : c0 = mixRecord 0 c0 r := rfl
  conv => arg 3; rw [h0]
  unfold Contribution.readFrom recordBytes recordBody keyBytes
  simp only [List.flatMap_cons, List.flatMap_nil, List.append_nil, List.append_assoc]
  refine field_step hC.codec1 _ _ _ _ _ _ _ _ _ (mixRecord 1 c0 r) rfl (CutAt c0 r)
    (fun _ e rd he => ⟨0, e, rd, by omega, rfl, he⟩) fun h => ?_
  rw [hs1] at h ⊢
  replace hm := Nat.sub_lt_sub_right h hm
  generalize m - 32 = m at *
  refine field_step hC.codec1 _ _ _ _ _ _ _ _ _ (mixRecord 2 c0 r) rfl (CutAt c0 r)
    (fun _ e rd he => ⟨1, e, rd, by omega, rfl, he⟩) fun h => ?_
  rw [hs1] at h ⊢
  replace hm := Nat.sub_lt_sub_right h hm
  generalize m - 32 = m at *
  refine field_step hC.codec1 _ _ _ _ _ _ _ _ _ (mixRecord 3 c0 r) rfl (CutAt c0 r)
    (fun _ e rd he => ⟨2, e, rd, by omega, rfl, he⟩) fun h => ?_
  rw [hs1] at h ⊢
  replace hm := Nat.sub_lt_sub_right h hm
  generalize m - 32 = m at *
  refine field_step hC.codec2 _ _ _ _ _ _ _ _ _ (mixRecord 4 c0 r) rfl (CutAt c0 r)
    (fun _ e rd he => ⟨3, e, rd, by omega, rfl, he⟩) fun h => ?_
  rw [hs2] at h ⊢
  replace hm := Nat.sub_lt_sub_right h hm
  generalize m - 64 = m at *
  refine field_step hC.codec2 _ _ _ _ _ _ _ _ _ (mixRecord 5 c0 r) rfl (CutAt c0 r)
    (fun _ e rd he => ⟨4, e, rd, by omega, rfl, he⟩) fun h => ?_
  rw [hs2] at h ⊢
  replace hm := Nat.sub_lt_sub_right h hm
  generalize m - 64 = m at *
  refine field_step hC.codec1 _ _ _ _ _ _ _ _ _ (mixRecord 6 c0 r) rfl (CutAt c0 r)
    (fun _ e rd he => ⟨5, e, rd, by omega, rfl, he⟩) fun h => ?_
  rw [hs1] at h ⊢
  replace hm := Nat.sub_lt_sub_right h hm
  generalize m - 32 = m at *
  refine field_step hC.codec1 _ _ _ _ _ _ _ _ _ (mixRecord 7 c0 r) rfl (CutAt c0 r)
    (fun _ e rd he => ⟨6, e, rd, by omega, rfl, he⟩) fun h => ?_
  rw [hs1] at h ⊢
  replace hm := Nat.sub_lt_sub_right h hm
  generalize m - 32 = m at *
  refine field_step hC.codec2 _ _ _ _ _ _ _ _ _ (mixRecord 8 c0 r) rfl (CutAt c0 r)
    (fun _ e rd he => ⟨7, e, rd, by omega, rfl, he⟩) fun h => ?_
  rw [hs2] at h ⊢
  replace hm := Nat.sub_lt_sub_right h hm
  generalize m - 64 = m at *
  refine field_step hC.codec1 _ _ _ _ _ _ _ _ _ (mixRecord 9 c0 r) rfl (CutAt c0 r)
    (fun _ e rd he => ⟨8, e, rd, by omega, rfl, he⟩) fun h => ?_
  rw [hs1] at h ⊢
  replace hm := Nat.sub_lt_sub_right h hm
  generalize m - 32 = m at *
  refine field_step hC.codec1 _ _ _ _ _ _ _ _ _ (mixRecord 10 c0 r) rfl (CutAt c0 r)
    (fun _ e rd he => ⟨9, e, rd, by omega, rfl, he⟩) fun h => ?_
  rw [hs1] at h ⊢
  replace hm := Nat.sub_lt_sub_right h hm
  generalize m - 32 = m at *
  refine field_step hC.codec2 _ _ _ _ _ _ _ _ _ (mixRecord 11 c0 r) rfl (CutAt c0 r)
    (fun _ e rd he => ⟨10, e, rd, by omega, rfl, he⟩) fun h => ?_
  rw [hs2] at h ⊢
  replace hm := Nat.sub_lt_sub_right h hm
  generalize m - 64 = m at *
  refine field_step hC.codec1 _ _ _ _ _ _ _ _ _ (mixRecord 12 c0 r) rfl (CutAt c0 r)
    (fun _ e rd he => ⟨11, e, rd, by omega, rfl, he⟩) fun h => ?_
  rw [hs1] at h ⊢
  replace hm := Nat.sub_lt_sub_right h hm
  generalize m - 32 = m at *
  refine field_step hC.codec1 _ _ _ _ _ _ _ _ _ (mixRecord 13 c0 r) rfl (CutAt c0 r)
    (fun _ e rd he => ⟨12, e, rd, by omega, rfl, he⟩) fun h => ?_
  rw [hs1] at h ⊢
  replace hm := Nat.sub_lt_sub_right h hm
  generalize m - 32 = m at *
  refine field_step hC.codec2 _ _ _ _ _ _ _ _ _ (mixRecord 14 c0 r) rfl (CutAt c0 r)
    (fun _ e rd he => ⟨13, e, rd, by omega, rfl, he⟩) fun h => ?_
  rw [hs2] at h
  omega

/-- a record of which only the hash is cut off: the missing bytes are read as zeros -/
theorem record_read_hash_cut (r c0 : Contribution G1 G2) (cap pos m : Nat) (ys : Bytes)
    (hl : r.hash.length = 32) (hal : 32 ∣ cap ∧ 32 ∣ pos) (h1 : 608 ≤ m) (h2 : m < 640) :
    ∃ e rd', (Contribution.readFrom C).run (c0, ⟨cap, pos, (recordBytes C r ++ ys).take m⟩)
      = (e, ({ r with hash := r.hash.take (m - 608) ++ List.replicate (640 - m) 0 }, rd')) ∧ rd'.rest = [] ∧
      (608 < m → e = .ok ()) ∧ isSpoiled e = false := by
  have hb := recordBody_length hC r
  have hin : (recordBytes C r ++ ys).take m = recordBody C r ++ r.hash.take (m - 608) := by
    rw [recordBytes, List.append_assoc, List.take_append, List.take_of_length_le (by omega), hb,
      List.take_append_of_le_length (by omega)]
  rw [hin]
  have hs1 := hC.size1
  have hs2 := hC.size2
  have h0 : c0 = mixRecord 0 c0 r := rfl
  conv => enter [1, e, 1, rd', 1, 1, 2, 1]; rw [h0]
  unfold Contribution.readFrom recordBody keyBytes
  simp only [List.flatMap_cons, List.flatMap_nil, List.append_nil, List.append_assoc]
  rw [field_ok hC.codec1 _ _ _ _ _ _ _ _ (mixRecord 1 c0 r) rfl, hs1]
  rw [field_ok hC.codec1 _ _ _ _ _ _ _ _ (mixRecord 2 c0 r) rfl, hs1]
  rw [field_ok hC.codec1 _ _ _ _ _ _ _ _ (mixRecord 3 c0 r) rfl, hs1]
  rw [field_ok hC.codec2 _ _ _ _ _ _ _ _ (mixRecord 4 c0 r) rfl, hs2]
  rw [field_ok hC.codec2 _ _ _ _ _ _ _ _ (mixRecord 5 c0 r) rfl, hs2]
  rw [field_ok hC.codec1 _ _ _ _ _ _ _ _ (mixRecord 6 c0 r) rfl, hs1]
  rw [field_ok hC.codec1 _ _ _ _ _ _ _ _ (mixRecord 7 c0 r) rfl, hs1]
  rw [field_ok hC.codec2 _ _ _ _ _ _ _ _ (mixRecord 8 c0 r) rfl, hs2]
  rw [field_ok hC.codec1 _ _ _ _ _ _ _ _ (mixRecord 9 c0 r) rfl, hs1]
  rw [field_ok hC.codec1 _ _ _ _ _ _ _ _ (mixRecord 10 c0 r) rfl, hs1]
  rw [field_ok hC.codec2 _ _ _ _ _ _ _ _ (mixRecord 11 c0 r) rfl, hs2]
  rw [field_ok hC.codec1 _ _ _ _ _ _ _ _ (mixRecord 12 c0 r) rfl, hs1]
  rw [field_ok hC.codec1 _ _ _ _ _ _ _ _ (mixRecord 13 c0 r) rfl, hs1]
  rw [field_ok hC.codec2 _ _ _ _ _ _ _ _ (mixRecord 14 c0 r) rfl, hs2]
  rw [Go.bind_ok (a := ()) rfl]
  simp only []
  obtain ⟨k, hk⟩ : ∃ k, m = 608 + k := ⟨m - 608, by omega⟩
  subst hk
  have e1 : 608 + k - 608 = k := by omega
  have e2 : 640 - (608 + k) = 32 - k := by omega
  rw [e1, e2]
  by_cases h0 : k = 0
  · subst h0
    have hr : ∀ q, readHash.run ⟨cap, q, []⟩ = (.error (.err "EOF"), ⟨cap, q, []⟩) := by
      intro q
      exact Go.bind_error (by simp [Rd.read])
    simp only [List.take_zero]
    rw [readField_err (hr _)]
    exact ⟨_, _, rfl, rfl, fun h => by omega, by decide⟩
  · have hread : ∀ pos', 32 ∣ pos' → ∃ rd', readHash.run ⟨cap, pos', r.hash.take k⟩
        = (.ok (r.hash.take k ++ List.replicate (32 - k) 0), rd') ∧ rd'.rest = [] := by
      intro pos' hp'
      have hblock : min 32 (Rd.block ⟨cap, pos', r.hash.take k⟩ 32) = 32 := by
        unfold Rd.block
        split
        · rfl
        · rename_i hc
          simp only at hc
          obtain ⟨⟨c, rfl⟩, _⟩ := hal
          obtain ⟨p, rfl⟩ := hp'
          simp only
          rw [Nat.mul_mod_mul_left]
          have : p % c < c := Nat.mod_lt _ (by
            rcases Nat.eq_zero_or_pos c with h | h
            · subst h; simp at hc
            · exact h)
          omega
      have hl' : (r.hash.take k).length = k := by simp; omega
      have hne : (r.hash.take k).isEmpty = false := by
        cases hh : r.hash.take k with
        | nil => rw [hh] at hl'; simp at hl'; omega
        | cons _ _ => rfl
      have hrd : (Rd.read 32).run ⟨cap, pos', r.hash.take k⟩
          = (.ok (r.hash.take k), Rd.adv ⟨cap, pos', r.hash.take k⟩ 32) := by
        unfold Rd.read
        simp only [hblock, hne, Bool.false_eq_true, if_false]
        rw [List.take_of_length_le (l := r.hash.take k) (by omega)]
      refine ⟨Rd.adv ⟨cap, pos', r.hash.take k⟩ 32, ?_, ?_⟩
      · unfold readHash
        rw [Go.bind_ok hrd, hl']
        rfl
      · rw [Rd.adv_rest]
        exact List.drop_of_length_le (by simp only; omega)
    obtain ⟨rd', hr, hrest⟩ := hread (pos + 32 + 32 + 32 + 64 + 64 + 32 + 32 + 64 + 32 + 32 + 64 + 32 + 32 + 64)
      (by have := hal.2; omega)
    rw [readField_ok hr]
    exact ⟨_, rd', rfl, hrest, fun _ => rfl, rfl⟩

/-! ### no record is an update of itself -/

/-- The records of a file are nondegenerate and exhibit no collision of the hash functions: neither between two
records, nor between challenges, nor between a record and a record some of whose leading points are replaced
by those of another one. -/
structure CleanRecords (C : Curve F G1 G2 GT) (rs : List (Contribution G1 G2)) : Prop where
  nondeg : ∀ r ∈ rs, Nondegenerate r
  sha : ∀ r ∈ rs, ∀ r' ∈ rs, NoShaCollision C r r'
  mix : ∀ r ∈ rs, ∀ r' ∈ rs, ∀ k ≤ 13, NoShaCollision C (mixRecord k r r') r
  g2 : ∀ r ∈ rs, ∀ h ∈ [] :: rs.map Contribution.hash, ∀ h' ∈ rs.map Contribution.hash, NoG2Collision C r h h'

/-- a verified record of a clean list -/
def Settled (C : Curve F G1 G2 GT) (all : List (Contribution G1 G2)) (r : Contribution G1 G2) : Prop :=
  r ∈ all ∧ r.hash = C.sha (recordBody C r) ∧ ¬ ∃ τ α β, StepBy C r r τ α β

theorem no_self_step (all : List (Contribution G1 G2)) (hcl : CleanRecords C all) (prev q : Contribution G1 G2)
    (τ α β : F) (hs : StepBy C prev q τ α β) (hq : q ∈ all) (hprev : prev.hash = [] ∨ Settled C all prev) :
    Settled C all q := by
  refine ⟨hq, hs.hash, ?_⟩
  rintro ⟨τ', α', β', hs'⟩
  have hpm : prev.hash ∈ [] :: all.map Contribution.hash := by
    rcases hprev with h | ⟨h, -⟩
    · rw [h]; simp
    · exact List.mem_cons_of_mem _ (List.mem_map_of_mem h)
  have heq := step_challenge hC hs hs' (hcl.nondeg q hq)
    (hcl.g2 q hq _ hpm _ (List.mem_map_of_mem hq))
  rcases hprev with h | ⟨h, hh, hno⟩
  · rw [h, hs.hash] at heq
    have := hC.sha_length (recordBody C q)
    rw [← heq] at this
    simp at this
  · have : prev = q := by
      refine recordBody_inj hC (hcl.sha prev h q hq ?_) heq
      rw [← hh, ← hs.hash, heq]
    subst this
    exact hno ⟨_, _, _, hs'⟩

omit hC in
theorem step_hash {prev r : Contribution G1 G2} {h : Bytes} {τ α β : F}
    (hs : StepBy C prev { r with hash := h } τ α β) : h = C.sha (recordBody C r) := hs.hash

/-- a record of which points are missing does not pass after a settled record or at the start -/
theorem cut_rejected (all : List (Contribution G1 G2)) (hcl : CleanRecords C all) (cur prev r : Contribution G1 G2)
    (hr : r ∈ all) (hcur : (cur.hash = [] ∧ prev.hash = []) ∨ (cur = prev ∧ Settled C all prev)) (k : Nat) (hk : k ≤ 13)
    (h : verifyContribution C (mixRecord k cur r) prev = .ok ()) : False := by
  obtain ⟨τ', α', β', hs'⟩ := (verifyContribution_iff hC _ _).mp h
  have hh : cur.hash = C.sha (recordBody C (mixRecord k cur r)) := hs'.hash
  rcases hcur with ⟨h0, -⟩ | ⟨rfl, hp, hph, hno⟩
  · have := hC.sha_length (recordBody C (mixRecord k cur r))
    rw [← hh, h0] at this
    simp at this
  · have hmix : mixRecord k cur r = cur := by
      refine recordBody_inj hC (hcl.mix cur hp r hr k hk ?_) rfl
      rw [← hh, ← hph]
    rw [hmix] at hs'
    exact hno ⟨_, _, _, hs'⟩

/-- The verification loop on records that are cut off. -/
theorem verifyLoop_cut (all : List (Contribution G1 G2)) (hcl : CleanRecords C all)
    (hsha : ∀ r ∈ all, r.hash = C.sha (recordBody C r)) :
    ∀ (rs : List (Contribution G1 G2)) (cur prev fin : Contribution G1 G2) (cap pos m : Nat),
      (∀ r ∈ rs, r ∈ all) → (∀ r ∈ rs, r.hash.length = 32) → 32 ∣ cap → 32 ∣ pos →
      ((cur.hash = [] ∧ prev.hash = []) ∨ (cur = prev ∧ Settled C all prev)) →
      m < 640 * rs.length →
      verifyLoop C rs.length cur prev ⟨cap, pos, (rs.flatMap (recordBytes C)).take m⟩ = .ok fin →
      640 * rs.length - 32 ≤ m ∧
        (rs.flatMap (recordBytes C)).drop m = List.replicate (640 * rs.length - m) 0 := by
  intro rs
  induction rs with
  | nil => intro cur prev fin cap pos m _ _ _ _ _ hm; simp at hm
  | cons r rs ih =>
    intro cur prev fin cap pos m hall hlen hcap hpos hcur hm h
    have hr : r ∈ all := hall r (by simp)
    have hl := hlen r (by simp)
    have hrl := recordBytes_length hC r hl
    have hprev : prev.hash = [] ∨ Settled C all prev := by
      rcases hcur with h | h
      · exact .inl h.2
      · exact .inr h.2
    simp only [List.length_cons, List.flatMap_cons] at h hm ⊢
    rw [verifyLoop_succ] at h
    rcases lt_or_ge m 608 with h1 | h1
    · -- points missing
      exfalso
      obtain ⟨k, e, rd', hk, hrun, -⟩ := record_read_cut hC r cur cap pos m (rs.flatMap (recordBytes C)) h1
      rw [hrun] at h
      exact cut_rejected hC all hcl cur prev r hr hcur k hk h.1
    rcases lt_or_ge m 640 with h2 | h2
    · -- hash bytes missing
      obtain ⟨e, rd', hrun, hrest, -, -⟩ := record_read_hash_cut hC r cur cap pos m (rs.flatMap (recordBytes C)) hl
        ⟨hcap, hpos⟩ h1 h2
      rw [hrun] at h
      simp only at h
      obtain ⟨τ', α', β', hs'⟩ := (verifyContribution_iff hC _ _).mp h.1
      have hh : r.hash.take (m - 608) ++ List.replicate (640 - m) 0 = r.hash :=
        (step_hash hs').trans (hsha r hr).symm
      rw [hh] at h hs'
      have h3 := h.2.2
      obtain ⟨rcap, rpos, rrest⟩ := rd'
      simp only at hrest
      subst hrest
      cases rs with
      | nil =>
        have hbl := recordBody_length hC r
        refine ⟨by simp; omega, ?_⟩
        simp only [List.flatMap_nil, List.append_nil, List.length_nil, Nat.zero_add, Nat.mul_one]
        rw [recordBytes, List.drop_append, List.drop_of_length_le (by omega), hbl, List.nil_append]
        have := congrArg (List.drop (m - 608)) hh
        rw [List.drop_left' (by simp; omega)] at this
        exact this.symm
      | cons q rs =>
        exfalso
        have hq : q ∈ all := hall q (by simp)
        rw [List.length_cons, verifyLoop_succ] at h3
        obtain ⟨k, e, rd', hk, hrun, -⟩ := record_read_cut hC q r rcap rpos 0 [] (by omega)
        rw [List.take_zero] at hrun
        rw [hrun] at h3
        exact cut_rejected hC all hcl r r q hq
          (.inr ⟨rfl, no_self_step hC all hcl prev r _ _ _ hs' hr hprev⟩) k hk h3.1
    · -- the record is complete
      rw [List.take_append, List.take_of_length_le (by omega), hrl,
        record_read hC r cur cap pos _ hl (.inr ⟨hcap, hpos⟩)] at h
      simp only at h
      obtain ⟨τ', α', β', hs'⟩ := (verifyContribution_iff hC _ _).mp h.1
      obtain ⟨a1, a2⟩ := ih r r fin cap (pos + 640) (m - 640) (fun x hx => hall x (by simp [hx]))
        (fun x hx => hlen x (by simp [hx])) hcap (by omega)
        (.inr ⟨rfl, no_self_step hC all hcl prev r _ _ _ hs' hr hprev⟩) (by omega) h.2.2
      refine ⟨by omega, ?_⟩
      have e1 : 640 * (rs.length + 1) - m = 640 * rs.length - (m - 640) := by omega
      rw [e1, List.drop_append, List.drop_of_length_le (by omega), hrl, List.nil_append, a2]

/-- `Verify` on complete parameters followed by arbitrary bytes. -/
theorem verify_tail (par : Par) (pol : MsmPolicy) (b : Nat) (hb : 0 < b) (vr : VerifyRand F)
    (f : P1File G1 G2) (hf : f.WF) (tail : Bytes) (tr : Option Bytes) :
    verify C par pol b vr ([f.power, UInt8.ofNat (f.records.length / 256), UInt8.ofNat (f.records.length % 256)]
        ++ f.params C ++ tail) tr = .ok () ↔
      ∃ prev fin, defaultContribution C tr = .ok prev ∧
        verifyLoop C f.records.length Contribution.zero prev ⟨2 ^ 20, 32 * f.tauG1.length + 32 * f.alphaG1.length
          + 32 * f.betaG1.length + 64 * f.tauG2.length + 64, tail⟩ = .ok fin ∧
        SectionsOk C pol b vr f fin := by
  have hcnt := hf.count
  have henc : [f.power, UInt8.ofNat (f.records.length / 256), UInt8.ofNat (f.records.length % 256)]
        ++ f.params C ++ tail = Header.writeTo ⟨f.power, UInt16.ofNat f.records.length⟩
      ++ (f.tauG1.flatMap C.c1.bytes ++ (f.alphaG1.flatMap C.c1.bytes ++ (f.betaG1.flatMap C.c1.bytes
      ++ (f.tauG2.flatMap C.c2.bytes ++ (C.c2.bytes f.betaG2 ++ tail))))) := by
    rw [header_encode _ _ hcnt]
    simp [P1File.params]
  unfold verify
  rw [henc, header_read]
  simp only []
  unfold Rd.buffered
  rw [readSections_spec hC par pol b hb vr f hf]
  unfold verifyRest
  simp only []
  rw [except_bind_ok]
  have hn : (UInt16.ofNat f.records.length).toNat = f.records.length := by simp; omega
  simp only [hn]
  constructor
  · rintro ⟨prev, h1, h2⟩
    rw [except_bind_ok] at h2
    obtain ⟨fin, h3, h4⟩ := h2
    simp only [except_seq_ok, check_ok, decide_eq_true_iff, ratio1_iff hC, ratio2_iff hC] at h4
    exact ⟨prev, fin, h1, h3, h4.1, h4.2.1, h4.2.2.1, h4.2.2.2.1, h4.2.2.2.2⟩
  · rintro ⟨prev, fin, h1, h2, h3⟩
    refine ⟨prev, h1, ?_⟩
    rw [except_bind_ok]
    refine ⟨_, h2, ?_⟩
    simp only [except_seq_ok, check_ok, decide_eq_true_iff, ratio1_iff hC, ratio2_iff hC]
    exact ⟨h3.tauG1, h3.alphaG1, h3.betaG1, h3.tauG2, h3.betaG2⟩

end
end ZkSetup
