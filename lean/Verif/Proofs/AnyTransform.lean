import Verif.Spec.AnyTransform
import Verif.Proofs.AnyContribute
import Verif.Proofs.CutContribute
/-
`Transform` on any bytes: which sections are read, where, and what is written.
-/
set_option linter.unusedSectionVars false

namespace ZkSetup

open Phase1

section
variable {G : Type} {c : Codec G}

theorem decode_ok_or {c : Codec G} (r : Rd) : (∃ p r', c.decode.run r = (.ok p, r')) ∨ ∃ e r', c.decode.run r = (.error e, r') := by
  rcases h : c.decode.run r with ⟨_ | p, r'⟩
  · exact .inr ⟨_, _, rfl⟩
  · exact .inl ⟨_, _, rfl⟩

/-- the loop succeeds exactly on a list of accepted encodings -/
theorem transformLoop_iff (hs : 0 < c.size) (n : Nat) : ∀ (cap pos : Nat) (bs out o o' : Bytes),
    transformPoints.loop c n ⟨cap, pos, bs⟩ out = (.ok o', o) ↔
      ∃ ps : List G, ps.length = n ∧ Listed c ps bs ∧ o' = out ++ ps.flatMap c.bytes ∧ o = o' := by
  induction n with
  | zero =>
    intro cap pos bs out o o'
    simp only [transformPoints.loop, Prod.mk.injEq, Except.ok.injEq]
    constructor
    · rintro ⟨rfl, rfl⟩; exact ⟨[], rfl, trivial, by simp, rfl⟩
    · rintro ⟨ps, hl, -, h1, h2⟩
      obtain rfl := List.length_eq_zero_iff.mp hl
      simp at h1
      exact ⟨h1.symm, by rw [h2, h1]⟩
  | succ n ih =>
    intro cap pos bs out o o'
    rw [transformPoints.loop]
    rcases decode_ok_or (c := c) ⟨cap, pos, bs⟩ with ⟨p, r', h⟩ | ⟨e, r', h⟩
    · rw [h]
      simp only []
      obtain ⟨e, t, hbs, hd, hr⟩ := (decode_iff hs cap pos bs p r').mp h
      rw [hr, ih]
      constructor
      · rintro ⟨ps, hl, hls, h1, h2⟩
        exact ⟨p :: ps, by simp [hl], ⟨e, t, hbs, hd, hls⟩, by simp [h1], h2⟩
      · rintro ⟨_ | ⟨q, ps⟩, hl, hls, h1, h2⟩
        · simp at hl
        · obtain ⟨e', t', hbs', hd', hls⟩ := hls
          have h' := (decode_iff hs cap pos bs q _).mpr ⟨e', t', hbs', hd', rfl⟩
          rw [h] at h'
          simp only [Prod.mk.injEq, Except.ok.injEq] at h'
          obtain ⟨rfl, h'⟩ := h'
          rw [hr] at h'
          simp only [Rd.mk.injEq] at h'
          obtain ⟨-, -, rfl⟩ := h'
          exact ⟨ps, by simpa using hl, hls, by simp [h1], h2⟩
    · rw [h]
      simp only [Prod.mk.injEq, reduceCtorEq, false_and, false_iff]
      rintro ⟨_ | ⟨q, ps⟩, hl, hls, -, -⟩
      · simp at hl
      · obtain ⟨e', t', hbs', hd', hls⟩ := hls
        have h' := (decode_iff hs cap pos bs q _).mpr ⟨e', t', hbs', hd', rfl⟩
        rw [h] at h'
        simp at h'

theorem transformPoints_iff (hs : 0 < c.size) (input : Bytes) (position : Int) (n : Nat) (o o' : Bytes) :
    transformPoints c input position n = (.ok o', o) ↔
      0 ≤ position ∧ ∃ ps : List G, ps.length = n ∧ Listed c ps (input.drop position.toNat) ∧ o' = ps.flatMap c.bytes ∧ o = o' := by
  unfold transformPoints
  split
  · rename_i h
    constructor
    · intro h'; simp at h'
    · rintro ⟨h', -⟩; omega
  · rename_i h
    unfold Rd.buffered
    rw [transformLoop_iff hs]
    simp only [List.nil_append]
    constructor
    · intro h'; exact ⟨by omega, h'⟩
    · exact fun h' => h'.2

/-- on the beginning of an input the loop does the same, or fails and writes the beginning of the same -/
theorem transformLoop_prefix (hc : c.Lawful) (n : Nat) : ∀ (cap pos : Nat) (bs u out o : Bytes),
    transformPoints.loop c n ⟨cap, pos, bs ++ u⟩ out = (.ok o, o) →
      (transformPoints.loop c n ⟨cap, pos, bs⟩ out = (.ok o, o) ∨
        ∃ e o', transformPoints.loop c n ⟨cap, pos, bs⟩ out = (.error e, o') ∧ o' <+: o ∧ o'.length < o.length) := by
  have hs := hc.size_pos
  induction n with
  | zero => intro cap pos bs u out o h; exact .inl h
  | succ n ih =>
    intro cap pos bs u out o h
    have hall := h
    rw [transformPoints.loop] at h ⊢
    rcases decode_ok_or (c := c) ⟨cap, pos, bs⟩ with ⟨p, r', h1⟩ | ⟨e, r', h1⟩
    · rw [h1]
      obtain ⟨e, t, rfl, hd, rfl⟩ := (decode_iff hs cap pos bs p r').mp h1
      rw [(decode_iff hs cap pos (e ++ t ++ u) p _).mpr ⟨e, t ++ u, by simp, hd, rfl⟩] at h
      exact ih _ _ _ _ _ _ h
    · rw [h1]
      obtain ⟨ps, hl, -, ho, -⟩ := (transformLoop_iff hs _ _ _ _ _ _ _).mp hall
      refine .inr ⟨e, out, rfl, by rw [ho]; exact List.prefix_append _ _, ?_⟩
      have := Codec.encodeN_length hc ps
      unfold Codec.encodeN at this
      rw [ho, List.length_append, this, hl, Nat.mul_succ]
      omega

theorem transformPoints_prefix (hc : c.Lawful) (input : Bytes) (k : Nat) (position : Int) (n : Nat) (o : Bytes)
    (h : transformPoints c input position n = (.ok o, o)) :
    transformPoints c (input.take k) position n = (.ok o, o) ∨
      ∃ e o', transformPoints c (input.take k) position n = (.error e, o') ∧ o' <+: o ∧ o'.length < o.length := by
  have hs := hc.size_pos
  have h0 := ((transformPoints_iff hs _ _ _ _ _).mp h).1
  unfold transformPoints at h ⊢
  rw [if_neg (by omega)] at h ⊢
  unfold Rd.buffered at h ⊢
  apply transformLoop_prefix hc n 4096 0 _ ((input.drop (max k position.toNat))) [] o
  rw [← h]
  congr 2
  rw [List.drop_take]
  rcases le_total k position.toNat with hk | hk
  · rw [max_eq_right hk, show k - position.toNat = 0 by omega]
    simp
  · rw [max_eq_left hk]
    conv => rhs; rw [← List.take_append_drop (k - position.toNat) (input.drop position.toNat), List.drop_drop]
    rw [show position.toNat + (k - position.toNat) = k by omega]

/-- the same points are listed -/
theorem listed_unique (hs : 0 < c.size) (ps : List G) : ∀ (qs : List G) (bs : Bytes), ps.length = qs.length → Listed c ps bs → Listed c qs bs → ps = qs := by
  induction ps with
  | nil => intro qs bs hl _ _; exact (List.length_eq_zero_iff.mp hl.symm).symm
  | cons p ps ih =>
    rintro (_ | ⟨q, qs⟩) bs hl h1 h2
    · simp at hl
    · obtain ⟨e, t, hbs, hd, h1⟩ := h1
      obtain ⟨e', t', hbs', hd', h2⟩ := h2
      have a1 := (decode_iff hs 0 0 bs p _).mpr ⟨e, t, hbs, hd, rfl⟩
      have a2 := (decode_iff hs 0 0 bs q _).mpr ⟨e', t', hbs', hd', rfl⟩
      rw [a1] at a2
      simp only [Prod.mk.injEq, Except.ok.injEq, Rd.mk.injEq] at a2
      obtain ⟨rfl, -, -, rfl⟩ := a2
      rw [ih qs t (by simpa using hl) h1 h2]

/-- accepted encodings are not empty -/
theorem listed_length (hs : 0 < c.size) (ps : List G) : ∀ (bs : Bytes), Listed c ps bs → c.size * ps.length ≤ bs.length := by
  induction ps with
  | nil => intro bs _; simp
  | cons p ps ih =>
    rintro bs ⟨e, t, rfl, hd, h⟩
    have := ih t h
    have h1 : c.size ≤ e.length := by rw [hd.1]; split <;> omega
    simp only [List.length_append, List.length_cons, Nat.mul_succ]
    omega

/-- the uncompressed encodings of points are accepted, whatever follows -/
theorem listed_raw (hc : c.Lawful) (ps : List G) (junk : Bytes) : Listed c ps (ps.flatMap c.rawBytes ++ junk) := by
  induction ps with
  | nil => trivial
  | cons p ps ih =>
    refine ⟨c.rawBytes p, ps.flatMap c.rawBytes ++ junk, by simp, ⟨?_, hc.set_raw p⟩, ih⟩
    rw [hc.raw_flag, hc.raw_length]
    simp

/-- the beginning of a list -/
theorem listed_append (ps qs : List G) : ∀ (bs : Bytes), Listed c (ps ++ qs) bs → Listed c ps bs := by
  induction ps with
  | nil => intros; trivial
  | cons p ps ih => rintro bs ⟨e, t, rfl, hd, h⟩; exact ⟨e, t, rfl, hd, ih t h⟩

end

section
variable {F G1 G2 GT : Type} [Field F] [AddCommGroup G1] [Module F G1] [AddCommGroup G2]
  [Module F G2] [AddCommGroup GT] [Module F GT] [DecidableEq G1] [DecidableEq G2] [DecidableEq GT]

/-- the positions computed by `Transform` -/
def posTauG2 (a : UInt8) : Int := wrap64 (64 + wrap64 (2 * goPow2 a - 1) * 64)
def posAlphaG1 (a : UInt8) : Int := wrap64 (posTauG2 a + goPow2 a * 128)
def posBetaG1 (a : UInt8) : Int := wrap64 (posAlphaG1 a + goPow2 a * 64)
def posBetaG2 (a : UInt8) : Int := wrap64 (posBetaG1 a + goPow2 a * 64)

theorem starts_some {a : UInt8} {s : SectionStarts} (h : sectionStarts a.toNat = some s) :
    s.tauG1 = 64 ∧ posTauG2 a = s.tauG2 ∧ posAlphaG1 a = s.alphaG1 ∧ posBetaG1 a = s.betaG1 ∧ posBetaG2 a = s.betaG2 := by
  unfold sectionStarts at h
  split at h
  · rename_i ha
    obtain rfl := Option.some.inj h
    have hpos : 0 < 2 ^ a.toNat := Nat.pow_pos (by omega)
    have hle : 2 ^ a.toNat ≤ 2 ^ 54 := Nat.pow_le_pow_right (by omega) ha
    have h1 : posTauG2 a = ((64 + (2 * 2 ^ a.toNat - 1) * 64 : ℕ) : Int) := by
      unfold posTauG2
      rw [wrap_tau (p := a) (by omega), wrap64_eq (by omega) (by omega)]
      push_cast
      rfl
    have h2 : posAlphaG1 a = ((64 + (2 * 2 ^ a.toNat - 1) * 64 + 2 ^ a.toNat * 128 : ℕ) : Int) := by
      unfold posAlphaG1
      rw [h1, goPow2_eq (p := a) (by omega), wrap64_eq (by omega) (by omega)]
      push_cast
      rfl
    have h3 : posBetaG1 a = ((64 + (2 * 2 ^ a.toNat - 1) * 64 + 2 ^ a.toNat * 128 + 2 ^ a.toNat * 64 : ℕ) : Int) := by
      unfold posBetaG1
      rw [h2, goPow2_eq (p := a) (by omega), wrap64_eq (by omega) (by omega)]
      push_cast
      rfl
    refine ⟨rfl, h1, h2, h3, ?_⟩
    unfold posBetaG2
    rw [h3, goPow2_eq (p := a) (by omega), wrap64_eq (by omega) (by omega)]
    push_cast
    rfl
  · split at h
    · simp at h
    · obtain rfl := Option.some.inj h
      have hpos : ∃ m : Int, goPow2 a = 2 ^ 58 * m := by
        unfold goPow2
        split
        · exact ⟨2 ^ (a.toNat - 58), by rw [← pow_add]; congr 1; omega⟩
        · exact ⟨-32, by norm_num⟩
      obtain ⟨m, hm⟩ := hpos
      have e3 : posTauG2 a = 0 := by unfold posTauG2 wrap64; rw [hm]; omega
      have e4 : posAlphaG1 a = 0 := by unfold posAlphaG1 wrap64; rw [hm, e3]; omega
      have e5 : posBetaG1 a = 0 := by unfold posBetaG1 wrap64; rw [hm, e4]; omega
      have e6 : posBetaG2 a = 0 := by unfold posBetaG2 wrap64; rw [hm, e5]; omega
      exact ⟨rfl, e3, e4, e5, e6⟩

theorem starts_none {a : UInt8} (h : sectionStarts a.toNat = none) : posTauG2 a < 0 ∨ posAlphaG1 a < 0 ∨ posBetaG1 a < 0 := by
  unfold sectionStarts at h
  split at h
  · simp at h
  · split at h
    · obtain rfl | rfl | rfl : a = 55 ∨ a = 56 ∨ a = 57 := by
        rw [← UInt8.toNat_inj, ← UInt8.toNat_inj, ← UInt8.toNat_inj]
        simp
        omega
      · exact .inr (.inl (by decide))
      · exact .inl (by decide)
      · exact .inr (.inr (by decide))
    · simp at h

theorem powersFor_eq (b : UInt8) : (goPow2 b).toNat = powersFor b.toNat := by
  unfold goPow2 powersFor
  split
  · have : ((2 : Int) ^ b.toNat) = ((2 ^ b.toNat : ℕ) : Int) := by push_cast; rfl
    rw [this, Int.toNat_natCast]
  · decide

theorem powersFor_tau (b : UInt8) : (wrap64 (2 * goPow2 b - 1)).toNat = 2 * powersFor b.toNat - 1 := by
  by_cases hb : b.toNat ≤ 62
  · rw [wrap_tau hb, Int.toNat_natCast]
    unfold powersFor
    rw [if_pos hb]
  · unfold goPow2 powersFor
    rw [if_neg hb, if_neg hb]
    decide

variable {C : Curve F G1 G2 GT}

/-- `Transform` with its positions and counts in closed form -/
theorem transform_eq (a b : UInt8) (input : Bytes) : transform C a b input = (
    match transformPoints C.c1 input 64 (2 * powersFor b.toNat - 1) with
    | (.error e, o1) => (.error e, [b, 0, 0] ++ o1)
    | (.ok _, o1) =>
    match transformPoints C.c1 input (posAlphaG1 a) (powersFor b.toNat) with
    | (.error e, o2) => (.error e, [b, 0, 0] ++ o1 ++ o2)
    | (.ok _, o2) =>
    match transformPoints C.c1 input (posBetaG1 a) (powersFor b.toNat) with
    | (.error e, o3) => (.error e, [b, 0, 0] ++ o1 ++ o2 ++ o3)
    | (.ok _, o3) =>
    match transformPoints C.c2 input (posTauG2 a) (powersFor b.toNat) with
    | (.error e, o4) => (.error e, [b, 0, 0] ++ o1 ++ o2 ++ o3 ++ o4)
    | (.ok _, o4) =>
    match transformPoints C.c2 input (posBetaG2 a) 1 with
    | (.error e, o5) => (.error e, [b, 0, 0] ++ o1 ++ o2 ++ o3 ++ o4 ++ o5)
    | (.ok _, o5) => (.ok (), [b, 0, 0] ++ o1 ++ o2 ++ o3 ++ o4 ++ o5)) := by
  have hh : Header.writeTo { power := b, contributions := 0 } = [b, 0, 0] := by simp [Header.writeTo, putUint16, beBytes]
  unfold transform
  simp only [hh, powersFor_eq, powersFor_tau]
  rfl

theorem transform_iff (a b : UInt8) (input out : Bytes) : transform C a b input = (.ok (), out) ↔
    ∃ o1 o2 o3 o4 o5 r1 r2 r3 r4 r5, transformPoints C.c1 input 64 (2 * powersFor b.toNat - 1) = (.ok r1, o1) ∧
      transformPoints C.c1 input (posAlphaG1 a) (powersFor b.toNat) = (.ok r2, o2) ∧
      transformPoints C.c1 input (posBetaG1 a) (powersFor b.toNat) = (.ok r3, o3) ∧
      transformPoints C.c2 input (posTauG2 a) (powersFor b.toNat) = (.ok r4, o4) ∧
      transformPoints C.c2 input (posBetaG2 a) 1 = (.ok r5, o5) ∧ out = [b, 0, 0] ++ o1 ++ o2 ++ o3 ++ o4 ++ o5 := by
  rw [transform_eq]
  rcases transformPoints C.c1 input 64 (2 * powersFor b.toNat - 1) with ⟨_ | r1, o1⟩
  · simp
  rcases transformPoints C.c1 input (posAlphaG1 a) (powersFor b.toNat) with ⟨_ | r2, o2⟩
  · simp
  rcases transformPoints C.c1 input (posBetaG1 a) (powersFor b.toNat) with ⟨_ | r3, o3⟩
  · simp
  rcases transformPoints C.c2 input (posTauG2 a) (powersFor b.toNat) with ⟨_ | r4, o4⟩
  · simp
  rcases transformPoints C.c2 input (posBetaG2 a) 1 with ⟨_ | r5, o5⟩
  · simp
  simp only [Prod.mk.injEq, true_and, Except.ok.injEq]
  constructor
  · rintro rfl
    exact ⟨_, _, _, _, _, _, _, _, _, _, ⟨rfl, rfl⟩, ⟨rfl, rfl⟩, ⟨rfl, rfl⟩, ⟨rfl, rfl⟩, ⟨rfl, rfl⟩, rfl⟩
  · rintro ⟨_, _, _, _, _, _, _, _, _, _, ⟨-, rfl⟩, ⟨-, rfl⟩, ⟨-, rfl⟩, ⟨-, rfl⟩, ⟨-, rfl⟩, rfl⟩
    rfl

end
end ZkSetup
