import Verif.Spec.AnyContribute
import Verif.Proofs.Encodings
import Verif.Proofs.AnyInput
import Verif.Proofs.AnyInput2
/-
Reading items from a reader, and reading them in bytes.
-/
set_option linter.unusedSectionVars false

namespace ZkSetup

open Encodings

/-- a point is decoded from the bytes at the reader exactly if they begin with an encoding of it -/
theorem decode_iff {G : Type} {c : Codec G} (hs : 0 < c.size) (cap pos : Nat) (bs : Bytes) (p : G) (r' : Rd) :
    c.decode.run ⟨cap, pos, bs⟩ = (.ok p, r') ↔
      ∃ e t, bs = e ++ t ∧ c.Decodes p e ∧ r' = ⟨cap, pos + e.length, t⟩ := by
  have hset : ∀ (b : Bytes) (r r' : Rd), (c.set b).run r = (.ok p, r') ↔ c.setBytes b = some p ∧ r' = r := by
    intro b r r'
    unfold Codec.set
    cases h : c.setBytes b with
    | none => simp [Go.fail]
    | some q => simp [Go.pure_run]; intro; exact eq_comm
  have hhead : ∀ b : Bytes, (b.take c.size).headD 0 = b.headD 0 := by
    intro b
    cases b with
    | nil => simp
    | cons x xs => obtain ⟨n, hn⟩ := Nat.exists_eq_succ_of_ne_zero (by omega : c.size ≠ 0); simp [hn]
  have hheadA : ∀ e t : Bytes, e.length ≠ 0 → (e ++ t).headD 0 = e.headD 0 := by
    intro e t he
    cases e with
    | nil => simp at he
    | cons x xs => simp
  unfold Codec.decode
  by_cases hl : c.size ≤ bs.length
  · have h1 : (Rd.readFull c.size).run ⟨cap, pos, bs⟩ = (.ok (bs.take c.size), ⟨cap, pos + c.size, bs.drop c.size⟩) := by
      simp [Rd.readFull, hl, Rd.adv]
    rw [Go.bind_ok h1, hhead]
    by_cases hcp : c.compressed (bs.headD 0) = true
    · rw [if_pos hcp, hset]
      constructor
      · rintro ⟨h2, rfl⟩
        refine ⟨bs.take c.size, bs.drop c.size, by simp, ⟨?_, h2⟩, by simp [Nat.min_eq_left hl]⟩
        rw [hhead, if_pos hcp]; simp [hl]
      · rintro ⟨e, t, rfl, ⟨h2, h3⟩, rfl⟩
        have he : e.length ≠ 0 := by split at h2 <;> omega
        rw [hheadA e t he] at hcp
        rw [if_pos hcp] at h2
        simp [← h2, h3]
    · rw [if_neg hcp]
      by_cases hl2 : 2 * c.size ≤ bs.length
      · have h2 : (Rd.readFull c.size).run ⟨cap, pos + c.size, bs.drop c.size⟩
            = (.ok ((bs.drop c.size).take c.size), ⟨cap, pos + c.size + c.size, (bs.drop c.size).drop c.size⟩) := by
          have : c.size ≤ bs.length - c.size := by omega
          simp [Rd.readFull, this, Rd.adv]
        rw [Go.bind_ok h2, hset]
        have e1 : bs.take c.size ++ (bs.drop c.size).take c.size = bs.take (2 * c.size) := by
          rw [two_mul, List.take_add]
        rw [e1, List.drop_drop]
        constructor
        · rintro ⟨h3, rfl⟩
          refine ⟨bs.take (2 * c.size), bs.drop (2 * c.size), by simp, ⟨?_, h3⟩, ?_⟩
          · have : (bs.take (2 * c.size)).headD 0 = bs.headD 0 := by
              cases bs with
              | nil => simp
              | cons x xs => obtain ⟨n, hn⟩ := Nat.exists_eq_succ_of_ne_zero (by omega : 2 * c.size ≠ 0); simp [hn]
            rw [this, if_neg hcp]; simp [hl2]
          · rw [List.length_take, Nat.min_eq_left hl2, two_mul, Nat.add_assoc]
        · rintro ⟨e, t, rfl, ⟨h3, h4⟩, rfl⟩
          have he : e.length ≠ 0 := by split at h3 <;> omega
          rw [hheadA e t he] at hcp
          rw [if_neg hcp] at h3
          have h5 : c.size + c.size = e.length := by omega
          rw [h5, ← h3]
          simp [h4, ← h5, Nat.add_assoc]
      · have h2 : (Rd.readFull c.size).run ⟨cap, pos + c.size, bs.drop c.size⟩
            = (.error (.err "EOF"), (⟨cap, pos + c.size, bs.drop c.size⟩ : Rd).adv (bs.drop c.size).length) := by
          have : ¬ c.size ≤ bs.length - c.size := by omega
          simp [Rd.readFull, this]
        rw [Go.bind_error h2]
        constructor
        · intro h; simp at h
        · rintro ⟨e, t, rfl, ⟨h3, h4⟩, rfl⟩
          have he : e.length ≠ 0 := by split at h3 <;> omega
          rw [hheadA e t he] at hcp
          rw [if_neg hcp] at h3
          simp at hl2; omega
  · have h1 : (Rd.readFull c.size).run ⟨cap, pos, bs⟩ = (.error (.err "EOF"), (⟨cap, pos, bs⟩ : Rd).adv bs.length) := by
      simp [Rd.readFull, hl]
    rw [Go.bind_error h1]
    constructor
    · intro h; simp at h
    · rintro ⟨e, t, rfl, ⟨h3, h4⟩, rfl⟩
      simp at hl
      split at h3 <;> omega

/-- how many bytes of a hash one read returns -/
def roomOf (cap pos : Nat) : Nat := min 32 (if cap = 0 then 32 else cap - pos % cap)

theorem readHash_iff (cap pos : Nat) (bs h : Bytes) (r' : Rd) :
    Phase2.readHash.run ⟨cap, pos, bs⟩ = (.ok h, r') ↔
      bs ≠ [] ∧ h = bs.take (roomOf cap pos) ++ List.replicate (32 - min (roomOf cap pos) bs.length) 0 ∧
        r' = ⟨cap, pos + roomOf cap pos, bs.drop (roomOf cap pos)⟩ := by
  unfold Phase2.readHash
  cases bs with
  | nil =>
    rw [Go.bind_error (e := .err "EOF") (s' := ⟨cap, pos, []⟩) (by simp [Rd.read])]
    simp
  | cons x xs =>
    rw [Go.bind_ok (a := (x :: xs).take (roomOf cap pos)) (s' := ⟨cap, pos + roomOf cap pos, (x :: xs).drop (roomOf cap pos)⟩)
      (by simp [Rd.read, Rd.block, Rd.adv, roomOf])]
    simp only [Go.pure_run, Prod.mk.injEq, Except.ok.injEq, ne_eq, reduceCtorEq, not_false_eq_true, true_and, List.length_take]
    constructor
    · rintro ⟨h1, h2⟩; exact ⟨h1.symm, h2.symm⟩
    · rintro ⟨h1, h2⟩; exact ⟨h1.symm, h2.symm⟩

section
variable {F G1 G2 GT : Type} [Field F] [AddCommGroup G1] [Module F G1] [AddCommGroup G2]
  [Module F G2] [AddCommGroup GT] [Module F GT] [DecidableEq G1] [DecidableEq G2] [DecidableEq GT]
variable {C : Curve F G1 G2 GT} (hC : C.Lawful)
include hC

/-- reading items at a reader is reading them in its bytes -/
theorem reads_iff_begins (ts : List (Item G1 G2)) : ∀ (cap pos : Nat) (bs : Bytes),
    Reads C ts ⟨cap, pos, bs⟩ ↔ Begins C (roomOf cap) pos ts bs := by
  induction ts with
  | nil => intros; exact Iff.rfl
  | cons t ts ih =>
    intro cap pos bs
    cases t with
    | g1 p =>
      simp only [Reads, Begins, decode_iff hC.codec1.size_pos]
      constructor
      · rintro ⟨r', ⟨e, t, h1, h2, rfl⟩, h3⟩; exact ⟨e, t, h1, h2, (ih _ _ _).mp h3⟩
      · rintro ⟨e, t, h1, h2, h3⟩; exact ⟨_, ⟨e, t, h1, h2, rfl⟩, (ih _ _ _).mpr h3⟩
    | g2 p =>
      simp only [Reads, Begins, decode_iff hC.codec2.size_pos]
      constructor
      · rintro ⟨r', ⟨e, t, h1, h2, rfl⟩, h3⟩; exact ⟨e, t, h1, h2, (ih _ _ _).mp h3⟩
      · rintro ⟨e, t, h1, h2, h3⟩; exact ⟨_, ⟨e, t, h1, h2, rfl⟩, (ih _ _ _).mpr h3⟩
    | hash x =>
      simp only [Reads, Begins, readHash_iff]
      constructor
      · rintro ⟨r', ⟨h1, h2, rfl⟩, h3⟩; exact ⟨h1, h2, (ih _ _ _).mp h3⟩
      · rintro ⟨h1, h2, h3⟩; exact ⟨_, ⟨h1, h2, rfl⟩, (ih _ _ _).mpr h3⟩

/-- an accepted encoding has a length divisible by 32 -/
theorem Codec.Decodes.dvd1 {p : G1} {e : Bytes} (h : C.c1.Decodes p e) : 32 ∣ e.length := by
  have := h.1
  rw [hC.size1] at this
  split at this <;> omega

theorem Codec.Decodes.dvd2 {p : G2} {e : Bytes} (h : C.c2.Decodes p e) : 32 ∣ e.length := by
  have := h.1
  rw [hC.size2] at this
  split at this <;> omega

/-- the position matters only where it changes the room for a hash -/
theorem begins_congr {room room' : Nat → Nat} (d d' : Nat) (hr : ∀ n, 32 ∣ n → room (n + d) = 32 ∧ room' (n + d') = 32) (ts : List (Item G1 G2)) :
    ∀ (pos : Nat) (bs : Bytes), 32 ∣ pos → Begins C room (pos + d) ts bs → Begins C room' (pos + d') ts bs := by
  induction ts with
  | nil => intros; trivial
  | cons t ts ih =>
    intro pos bs hd h
    cases t with
    | g1 p =>
      obtain ⟨e, t, h1, h2, h3⟩ := h
      have := h2.dvd1 hC
      refine ⟨e, t, h1, h2, ?_⟩
      rw [Nat.add_right_comm] at h3 ⊢
      exact ih _ _ (by omega) h3
    | g2 p =>
      obtain ⟨e, t, h1, h2, h3⟩ := h
      have := h2.dvd2 hC
      refine ⟨e, t, h1, h2, ?_⟩
      rw [Nat.add_right_comm] at h3 ⊢
      exact ih _ _ (by omega) h3
    | hash x =>
      obtain ⟨h1, h2, h3⟩ := h
      obtain ⟨e1, e2⟩ := hr pos hd
      rw [e1] at h2 h3
      refine ⟨h1, by rw [e2]; exact h2, ?_⟩
      rw [e2]
      rw [Nat.add_right_comm] at h3 ⊢
      exact ih _ _ (by omega) h3

theorem roomOf_aligned {cap : Nat} (hc : 32 ∣ cap) (n : Nat) (hn : 32 ∣ n) : roomOf cap n = 32 := by
  unfold roomOf
  split
  · omega
  · obtain ⟨k, rfl⟩ := hc
    obtain ⟨q, rfl⟩ := hn
    rw [Nat.mul_mod_mul_left]
    have := Nat.mod_lt q (show 0 < k by omega)
    omega

/-- in phase 1 every reader whose buffer size is divisible by 32 reads the same -/
theorem reads_iff_aligned {cap : Nat} (hc : 32 ∣ cap) (ts : List (Item G1 G2)) (bs : Bytes) :
    Reads C ts (Rd.buffered cap bs) ↔ Begins C (fun _ => 32) 3 ts bs := by
  unfold Rd.buffered
  rw [reads_iff_begins hC]
  constructor
  · intro h
    have := begins_congr hC (room := roomOf cap) (room' := fun _ => 32) 0 3 (fun n hn => ⟨roomOf_aligned hC hc n hn, rfl⟩) ts 0 bs (by omega)
    simpa using this h
  · intro h
    have := begins_congr hC (room := fun _ => 32) (room' := roomOf cap) 3 0 (fun n hn => ⟨rfl, roomOf_aligned hC hc n hn⟩) ts 0 bs (by omega)
    simpa using this h

omit hC in
/-- what is read is determined -/
theorem reads_append (ts us : List (Item G1 G2)) : ∀ r : Rd, Reads C (ts ++ us) r → Reads C ts r := by
  induction ts with
  | nil => intros; trivial
  | cons t ts ih =>
    intro r h
    cases t with
    | g1 p => obtain ⟨r', h1, h2⟩ := h; exact ⟨r', h1, ih _ h2⟩
    | g2 p => obtain ⟨r', h1, h2⟩ := h; exact ⟨r', h1, ih _ h2⟩
    | hash p => obtain ⟨r', h1, h2⟩ := h; exact ⟨r', h1, ih _ h2⟩

omit hC in
theorem reads_of_g1s (us : List (Item G1 G2)) (n : Nat) : ∀ (ps : List G1) (r r' : Rd), (C.c1.decodeN n).run r = (.ok ps, r') → Reads C us r' →
    Reads C (ps.map .g1 ++ us) r := by
  induction n with
  | zero =>
    intro ps r r' h hu
    simp [Codec.decodeN] at h
    obtain ⟨rfl, rfl⟩ := h
    exact hu
  | succ n ih =>
    intro ps r r' h hu
    unfold Codec.decodeN at h
    obtain ⟨p, r1, h1, h⟩ := Go.bind_eq_ok h
    obtain ⟨qs, r2, h2, h⟩ := Go.bind_eq_ok h
    simp only [Go.pure_run, Prod.mk.injEq, Except.ok.injEq] at h
    obtain ⟨rfl, rfl⟩ := h
    exact ⟨r1, h1, ih _ _ _ h2 hu⟩

omit hC in
theorem reads_of_g2s (us : List (Item G1 G2)) (n : Nat) : ∀ (ps : List G2) (r r' : Rd), (C.c2.decodeN n).run r = (.ok ps, r') → Reads C us r' →
    Reads C (ps.map .g2 ++ us) r := by
  induction n with
  | zero =>
    intro ps r r' h hu
    simp [Codec.decodeN] at h
    obtain ⟨rfl, rfl⟩ := h
    exact hu
  | succ n ih =>
    intro ps r r' h hu
    unfold Codec.decodeN at h
    obtain ⟨p, r1, h1, h⟩ := Go.bind_eq_ok h
    obtain ⟨qs, r2, h2, h⟩ := Go.bind_eq_ok h
    simp only [Go.pure_run, Prod.mk.injEq, Except.ok.injEq] at h
    obtain ⟨rfl, rfl⟩ := h
    exact ⟨r1, h1, ih _ _ _ h2 hu⟩

omit hC in
theorem readPoint_inv {G κ : Type} {c : Codec G} {get : κ → G} {upd : G → κ → κ} {s s' : κ × Rd} {u : Unit}
    (h : (Phase1.readPoint c get upd).run s = (.ok u, s')) : ∃ p, c.decode.run s.2 = (.ok p, s'.2) ∧ s'.1 = upd p s.1 := by
  unfold Phase1.readPoint at h
  simp only at h
  split at h
  · rename_i a r hr
    simp only [Prod.mk.injEq] at h
    rw [← h.2]
    exact ⟨a, hr, rfl⟩
  · simp at h

omit hC in
theorem reads_of_record {c0 c : Phase1.Contribution G1 G2} {r r' : Rd} (us : List (Item G1 G2))
    (h : (Phase1.Contribution.readFrom C).run (c0, r) = (.ok (), (c, r'))) (hu : Reads C us r') : Reads C (recordItems c ++ us) r := by
  unfold Phase1.Contribution.readFrom at h
  obtain ⟨_, ⟨c1, r1⟩, h1, h⟩ := Go.bind_eq_ok h
  obtain ⟨p1, d1, e1⟩ := readPoint_inv h1
  clear h1
  simp only at d1 e1
  subst e1
  obtain ⟨_, ⟨c2, r2⟩, h2, h⟩ := Go.bind_eq_ok h
  obtain ⟨p2, d2, e2⟩ := readPoint_inv h2
  clear h2
  simp only at d2 e2
  subst e2
  obtain ⟨_, ⟨c3, r3⟩, h3, h⟩ := Go.bind_eq_ok h
  obtain ⟨p3, d3, e3⟩ := readPoint_inv h3
  clear h3
  simp only at d3 e3
  subst e3
  obtain ⟨_, ⟨c4, r4⟩, h4, h⟩ := Go.bind_eq_ok h
  obtain ⟨p4, d4, e4⟩ := readPoint_inv h4
  clear h4
  simp only at d4 e4
  subst e4
  obtain ⟨_, ⟨c5, r5⟩, h5, h⟩ := Go.bind_eq_ok h
  obtain ⟨p5, d5, e5⟩ := readPoint_inv h5
  clear h5
  simp only at d5 e5
  subst e5
  obtain ⟨_, ⟨c6, r6⟩, h6, h⟩ := Go.bind_eq_ok h
  obtain ⟨p6, d6, e6⟩ := readPoint_inv h6
  clear h6
  simp only at d6 e6
  subst e6
  obtain ⟨_, ⟨c7, r7⟩, h7, h⟩ := Go.bind_eq_ok h
  obtain ⟨p7, d7, e7⟩ := readPoint_inv h7
  clear h7
  simp only at d7 e7
  subst e7
  obtain ⟨_, ⟨c8, r8⟩, h8, h⟩ := Go.bind_eq_ok h
  obtain ⟨p8, d8, e8⟩ := readPoint_inv h8
  clear h8
  simp only at d8 e8
  subst e8
  obtain ⟨_, ⟨c9, r9⟩, h9, h⟩ := Go.bind_eq_ok h
  obtain ⟨p9, d9, e9⟩ := readPoint_inv h9
  clear h9
  simp only at d9 e9
  subst e9
  obtain ⟨_, ⟨c10, r10⟩, h10, h⟩ := Go.bind_eq_ok h
  obtain ⟨p10, d10, e10⟩ := readPoint_inv h10
  clear h10
  simp only at d10 e10
  subst e10
  obtain ⟨_, ⟨c11, r11⟩, h11, h⟩ := Go.bind_eq_ok h
  obtain ⟨p11, d11, e11⟩ := readPoint_inv h11
  clear h11
  simp only at d11 e11
  subst e11
  obtain ⟨_, ⟨c12, r12⟩, h12, h⟩ := Go.bind_eq_ok h
  obtain ⟨p12, d12, e12⟩ := readPoint_inv h12
  clear h12
  simp only at d12 e12
  subst e12
  obtain ⟨_, ⟨c13, r13⟩, h13, h⟩ := Go.bind_eq_ok h
  obtain ⟨p13, d13, e13⟩ := readPoint_inv h13
  clear h13
  simp only at d13 e13
  subst e13
  obtain ⟨_, ⟨c14, r14⟩, h14, h⟩ := Go.bind_eq_ok h
  obtain ⟨p14, d14, e14⟩ := readPoint_inv h14
  clear h14
  simp only at d14 e14
  subst e14
  obtain ⟨_, ⟨c15, r15⟩, h15, h⟩ := Go.bind_eq_ok h
  simp only [Prod.mk.injEq, true_and] at h15
  obtain ⟨rfl, rfl⟩ := h15
  unfold Phase1.readField at h
  simp only at h
  split at h
  · rename_i x r1 hr
    simp only [Prod.mk.injEq, true_and] at h
    obtain ⟨rfl, rfl⟩ := h
    exact ⟨_, d1, _, d2, _, d3, _, d4, _, d5, _, d6, _, d7, _, d8, _, d9, _, d10, _, d11, _, d12, _, d13, _, d14, _, hr, hu⟩
  · simp at h

omit hC in
/-- the records copied are the records at the reader -/
theorem copy_items (n : Nat) : ∀ (c0 c : Phase1.Contribution G1 G2) (rd : Rd) (out : Bytes) (s : IOSt),
    (Phase1.copyContributions C n c0).run ⟨rd, out⟩ = (.ok c, s) →
    ∃ rs : List (Phase1.Contribution G1 G2), rs.length = n ∧ Reads C (rs.flatMap recordItems) rd := by
  induction n with
  | zero => intros; exact ⟨[], rfl, trivial⟩
  | succ n ih =>
    intro c0 c rd out s h
    unfold Phase1.copyContributions at h
    obtain ⟨c1, s1, h1, h⟩ := Go.bind_eq_ok h
    rw [Go.bind_ok (IOSt.emit_run _ _)] at h
    obtain ⟨rs, hl, hh⟩ := ih _ _ _ _ _ h
    simp only at h1
    have hr : ∃ rd1, (Phase1.Contribution.readFrom C).run (c0, rd) = (.ok (), (c1, rd1)) ∧ s1 = ⟨rd1, out⟩ := by
      revert h1
      rcases (Phase1.Contribution.readFrom C).run (c0, rd) with ⟨_ | _, c', rd'⟩
      · intro h1; simp at h1
      · intro h1
        simp only [Prod.mk.injEq, Except.ok.injEq] at h1
        obtain ⟨rfl, rfl⟩ := h1
        exact ⟨rd', rfl, rfl⟩
    obtain ⟨rd1, hr, rfl⟩ := hr
    exact ⟨c1 :: rs, by simp [hl], by rw [List.flatMap_cons]; exact reads_of_record _ hr hh⟩

omit hC in
theorem reads_of_record2 {c : Phase2.Contribution G1 G2} {r r' : Rd} (us : List (Item G1 G2))
    (h : (Phase2.Contribution.readFrom C).run r = (.ok c, r')) (hu : Reads C us r') : Reads C (record2Items c ++ us) r := by
  unfold Phase2.Contribution.readFrom at h
  obtain ⟨p1, s1, h1, h⟩ := Go.bind_eq_ok h
  obtain ⟨p2, s2, h2, h⟩ := Go.bind_eq_ok h
  obtain ⟨p3, s3, h3, h⟩ := Go.bind_eq_ok h
  obtain ⟨p4, s4, h4, h⟩ := Go.bind_eq_ok h
  obtain ⟨p5, s5, h5, h⟩ := Go.bind_eq_ok h
  simp only [Go.pure_run, Prod.mk.injEq, Except.ok.injEq] at h
  obtain ⟨rfl, rfl⟩ := h
  exact ⟨_, h1, _, h2, _, h3, _, h4, _, h5, hu⟩

end
end ZkSetup
