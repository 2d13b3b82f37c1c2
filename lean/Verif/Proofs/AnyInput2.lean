import Verif.Proofs.AnyInput
import Verif.Proofs.Phase2Params
/-
Contributions to arbitrary bytes, phase 2: what a successful contribution writes is the contribution to the file it has
read.
-/
set_option linter.unusedSectionVars false

namespace ZkSetup

open Phase2
open Phase1 (makeLen wrap64)

section
variable {F G1 G2 GT : Type} [Field F] [AddCommGroup G1] [Module F G1] [AddCommGroup G2]
  [Module F G2] [AddCommGroup GT] [Module F GT] [DecidableEq G1] [DecidableEq G2] [DecidableEq GT]
variable {C : Curve F G1 G2 GT}

theorem scale2Loop_reads (par : Par) (b : Nat) (hb : 0 < b) (x : F) (n : Nat) : ∀ (rd : Rd) (out : Bytes) (u : Unit) (s : IOSt),
    (Phase2.scaleLoop C par b x n).run ⟨rd, out⟩ = (.ok u, s) →
    ∃ pts rd', (C.c1.decodeN n).run rd = (.ok pts, rd') ∧ s.rd = rd' := by
  induction n using Nat.strong_induction_on with
  | _ n ih =>
    intro rd out u s h
    rw [Phase2.scaleLoop] at h
    by_cases h0 : 0 < n ∧ 0 < b
    · rw [dif_pos h0] at h
      obtain ⟨pts, s1, h1, h⟩ := Go.bind_eq_ok h
      obtain ⟨rd1, h1', rfl⟩ := onRd_eq_ok h1
      rw [Go.bind_ok (IOSt.emit_run _ _)] at h
      obtain ⟨pts', rd2, h3, h4⟩ := ih (n - min n b) (by omega) _ _ _ _ h
      have := decodeN_join C.c1 _ _ _ _ _ _ _ h1' h3
      rw [show min n b + (n - min n b) = n by omega] at this
      exact ⟨_, _, this, h4⟩
    · rw [dif_neg h0] at h
      have : n = 0 := by omega
      subst this
      simp at h
      exact ⟨[], rd, by simp [Codec.decodeN], by rw [← h]⟩

/-- The scaling loop, given the points the input decodes to. -/
theorem scale2Loop_any (par : Par) (b : Nat) (hb : 0 < b) (x : F) (n : Nat) : ∀ (rd rd' : Rd) (out : Bytes) (pts : List G1),
    (C.c1.decodeN n).run rd = (.ok pts, rd') →
    (Phase2.scaleLoop C par b x n).run ⟨rd, out⟩ = (.ok (), ⟨rd', out ++ (pts.map (x • ·)).flatMap C.c1.bytes⟩) := by
  induction n using Nat.strong_induction_on with
  | _ n ih =>
    intro rd rd' out pts d
    have hlen := decodeN_length _ _ _ _ _ d
    rw [Phase2.scaleLoop]
    by_cases h0 : 0 < n ∧ 0 < b
    · rw [dif_pos h0]
      have hn : n = min n b + (n - min n b) := by omega
      rw [hn] at d
      obtain ⟨rd1, d1, d2⟩ := decodeN_split _ _ _ _ _ _ d
      have hmap : par.mapIdx (min n b) (fun _ p => x • p) (pts.take (min n b)) = (pts.take (min n b)).map (x • ·) := by
        rw [Par.mapIdx_eq']
        apply List.ext_getElem?
        intro i
        simp only [List.getElem?_mapIdx, List.getElem?_map]
        by_cases hi : i < min n b
        · simp [hi]
        · rw [List.getElem?_eq_none (by simp; omega)]; rfl
      rw [Go.bind_ok (IOSt.onRd_ok d1), Go.bind_ok (IOSt.emit_run _ _), ih (n - min n b) (by omega) _ _ _ _ d2, hmap]
      conv => rhs; rw [← List.take_append_drop (min n b) pts]
      simp only [Codec.encodeN, List.map_append, List.flatMap_append, List.append_assoc]
    · rw [dif_neg h0]
      have : n = 0 := by omega
      subst this
      simp [Codec.decodeN] at d
      obtain ⟨rfl, rfl⟩ := d
      simp

theorem scale2_reads (par : Par) (b : Nat) (hb : 0 < b) (N : Int) (x : F) {rd : Rd} {out : Bytes} {u : Unit} {s : IOSt}
    (h : (Phase2.scale C par b N x).run ⟨rd, out⟩ = (.ok u, s)) :
    0 ≤ N ∧ ∃ pts rd', (C.c1.decodeN N.toNat).run rd = (.ok pts, rd') ∧ s.rd = rd' := by
  unfold Phase2.scale at h
  obtain ⟨n, s1, h1, h⟩ := Go.bind_eq_ok h
  rw [Go.lift_run] at h1
  simp only [Prod.mk.injEq] at h1
  obtain ⟨h1, rfl⟩ := h1
  refine ⟨?_, scale2Loop_reads _ _ hb _ _ _ _ _ _ h⟩
  unfold makeLen at h1
  split at h1
  · cases h1
  · omega

theorem scale2_any (par : Par) (b : Nat) (hb : 0 < b) (N : Int) (hN : 0 ≤ N) (x : F) (rd rd' : Rd) (out : Bytes) (pts : List G1)
    (d : (C.c1.decodeN N.toNat).run rd = (.ok pts, rd')) :
    (Phase2.scale C par b N x).run ⟨rd, out⟩ = (.ok (), ⟨rd', out ++ (pts.map (x • ·)).flatMap C.c1.bytes⟩) := by
  unfold Phase2.scale
  obtain ⟨n, rfl⟩ := Int.eq_ofNat_of_zero_le hN
  have := makeLen_min n b
  rw [Go.bind_ok (by rw [this]; rfl)]
  exact scale2Loop_any par b hb x _ _ _ _ _ d

theorem scalePoint_any {G : Type} [AddCommGroup G] [Module F G] {c : Codec G} (x : F) (out : Bytes) {rd rd' : Rd} {p : G}
    (d : c.decode.run rd = (.ok p, rd')) :
    (scalePoint c x).run ⟨rd, out⟩ = (.ok (x • p), ⟨rd', out ++ c.bytes (x • p)⟩) := by
  unfold scalePoint
  rw [Go.bind_ok (IOSt.onRd_ok d), Go.bind_ok (IOSt.emit_run _ _)]
  rfl

theorem record2_hash_length {c : Contribution G1 G2} {rd rd' : Rd}
    (h : (Contribution.readFrom C).run rd = (.ok c, rd')) : c.hash.length = 32 := by
  unfold Contribution.readFrom at h
  obtain ⟨_, _, _, h⟩ := Go.bind_eq_ok h
  obtain ⟨_, _, _, h⟩ := Go.bind_eq_ok h
  obtain ⟨_, _, _, h⟩ := Go.bind_eq_ok h
  obtain ⟨_, _, _, h⟩ := Go.bind_eq_ok h
  obtain ⟨hash, _, hr, h⟩ := Go.bind_eq_ok h
  simp only [Go.pure_run, Prod.mk.injEq, Except.ok.injEq] at h
  rw [← h.1]
  exact readHash_length (rd := _) hr

/-- records read in a row -/
theorem copy2_reads (n : Nat) : ∀ (c0 c : Contribution G1 G2) (rd : Rd) (out : Bytes) (s : IOSt),
    (copyContributions C n c0).run ⟨rd, out⟩ = (.ok c, s) →
    ∃ rs : List (Contribution G1 G2), rs.length = n ∧ (∀ r ∈ rs, r.hash.length = 32) ∧
      ∀ out2, (copyContributions C n c0).run ⟨rd, out2⟩
        = (.ok (rs.getLast?.getD c0), ⟨s.rd, out2 ++ rs.flatMap (record2Bytes C)⟩) := by
  induction n with
  | zero =>
    intro c0 c rd out s h
    simp [copyContributions] at h
    exact ⟨[], rfl, by simp, fun out2 => by simp [copyContributions, ← h.2]⟩
  | succ n ih =>
    intro c0 c rd out s h
    unfold copyContributions at h
    obtain ⟨c1, s1, h1, h⟩ := Go.bind_eq_ok h
    rw [Go.bind_ok (IOSt.emit_run _ _)] at h
    obtain ⟨rs, hl, hh, hrun⟩ := ih _ _ _ _ _ h
    obtain ⟨rd1, hr, rfl⟩ := onRd_eq_ok h1
    refine ⟨c1 :: rs, by simp [hl], ?_, fun out2 => ?_⟩
    · intro r hr'
      rcases List.mem_cons.1 hr' with rfl | hr'
      · exact record2_hash_length hr
      · exact hh r hr'
    · unfold copyContributions
      rw [Go.bind_ok (IOSt.onRd_ok hr), Go.bind_ok (IOSt.emit_run _ _), contribution2_writeTo]
      simp only
      rw [hrun]
      congr 1
      · congr 1
        cases rs with
        | nil => rfl
        | cons r' rs => simp [List.getLast?_cons]
      · simp

/-- What a successful contribution has read, for any header: the points and records, and what every contribution to these
bytes writes. -/
theorem contribute2_any {H : HeaderCodec} {par : Par} {b : Nat} (hb : 0 < b) {rnd : Rand F} {input hash out : Bytes}
    (h : Phase2.contribute C H par b rnd input = (.ok hash, out)) :
    ∃ (h0 : Header) (rd0 : Rd) (f : P2File G1 G2), H.dec.run (Rd.buffered 4096 input) = (.ok h0, rd0) ∧ 0 ≤ wrap64 (h0.domain - 1) ∧ 0 ≤ h0.witness ∧
      f.z.length = (wrap64 (h0.domain - 1)).toNat ∧ f.pkk.length = h0.witness.toNat ∧
      f.records.length = (wrap64 (h0.increment.contributions - 1)).toNat ∧ (∀ r ∈ f.records, r.hash.length = 32) ∧
      ∀ par b rnd, 0 < b → Phase2.contribute C H par b rnd input
        = (.ok (lastHash2 (f.contribute C rnd).records),
          H.enc h0.increment ++ (f.contribute C rnd).params C ++ (f.contribute C rnd).records.flatMap (record2Bytes C)) := by
  unfold Phase2.contribute at h
  simp only [Prod.mk.injEq] at h
  obtain ⟨h, -⟩ := h
  generalize hres : (contributeBody C H par b rnd).run ⟨Rd.buffered 4096 input, []⟩ = res at h
  obtain ⟨r, s⟩ := res
  simp only at h
  subst h
  unfold contributeBody Header.read at hres
  obtain ⟨h0, s0, hh, hres⟩ := Go.bind_eq_ok hres
  obtain ⟨rd0, d0, rfl⟩ := onRd_eq_ok hh
  unfold contributeWith at hres
  rw [Go.bind_ok (IOSt.emit_run _ _)] at hres
  obtain ⟨e1, s1, h1, hres⟩ := Go.bind_eq_ok hres
  obtain ⟨e2, s2, h2, hres⟩ := Go.bind_eq_ok hres
  obtain ⟨u1, s3, h3, hres⟩ := Go.bind_eq_ok hres
  obtain ⟨u2, s4, h4, hres⟩ := Go.bind_eq_ok hres
  obtain ⟨c, s5, h5, hres⟩ := Go.bind_eq_ok hres
  unfold scalePoint at h1 h2
  obtain ⟨p1, s1', g1, h1⟩ := Go.bind_eq_ok h1
  obtain ⟨rd1, d1, rfl⟩ := onRd_eq_ok g1
  rw [Go.bind_ok (IOSt.emit_run _ _)] at h1
  simp only [Go.pure_run, Prod.mk.injEq, Except.ok.injEq] at h1
  obtain ⟨rfl, rfl⟩ := h1
  obtain ⟨p2, s2', g2, h2⟩ := Go.bind_eq_ok h2
  obtain ⟨rd2, d2, rfl⟩ := onRd_eq_ok g2
  rw [Go.bind_ok (IOSt.emit_run _ _)] at h2
  simp only [Go.pure_run, Prod.mk.injEq, Except.ok.injEq] at h2
  obtain ⟨rfl, rfl⟩ := h2
  obtain ⟨n3, z, rd3, d3, e3⟩ := scale2_reads par b hb _ _ h3
  obtain ⟨n4, pkk, rd4, d4, e4⟩ := scale2_reads par b hb _ _ (rd := s3.rd) (out := s3.out) h4
  obtain ⟨rs, hl, hh, d5⟩ := copy2_reads _ _ _ (rd := s4.rd) (out := s4.out) _ h5
  rw [e3] at d4
  rw [e4] at d5
  let f : P2File G1 G2 := ⟨0, 0, 0, 0, 0, 0, p1, p2, z, pkk, rs⟩
  refine ⟨h0, rd0, f, d0, n3, n4, decodeN_length _ _ _ _ _ d3, decodeN_length _ _ _ _ _ d4, hl, hh, ?_⟩
  intro par b rnd hb
  unfold Phase2.contribute contributeBody Header.read
  rw [Go.bind_ok (IOSt.onRd_ok d0)]
  unfold contributeWith
  rw [Go.bind_ok (IOSt.emit_run _ _), Go.bind_ok (scalePoint_any _ _ d1), Go.bind_ok (scalePoint_any _ _ d2),
    Go.bind_ok (scale2_any par b hb _ n3 _ _ _ _ _ d3), Go.bind_ok (scale2_any par b hb _ n4 _ _ _ _ _ d4),
    Go.bind_ok (d5 _), Go.bind_ok (IOSt.emit_run _ _), contribution2_writeTo]
  have hprev : previousHash (wrap64 (h0.increment.contributions - 1)) (rs.getLast?.getD Contribution.zero) = lastHash2 rs := by
    unfold previousHash lastHash2
    cases rs with
    | nil => split <;> rfl
    | cons r rs =>
      rw [if_neg (by
        intro h0
        rw [h0] at hl
        simp at hl), List.getLast?_cons]
      rfl
  have hnew : newContribution C rnd (rnd.delta • p1) (lastHash2 rs) = newRecord2 C rnd (lastHash2 rs) (rnd.delta • p1) := by
    unfold newContribution newRecord2
    simp only [genPublicKey_eq, computeHash2_eq]
  rw [hprev, hnew]
  simp only [Go.pure_run]
  rw [Prod.mk.injEq]
  constructor
  · simp [P2File.contribute, lastHash2, newRecord2, f]
  · unfold P2File.params
    simp [P2File.contribute, f, Header.write]

end
end ZkSetup
