import Verif.Proofs.Incomplete
/-
The same for phase 2.
-/
set_option linter.unusedSectionVars false

namespace ZkSetup

open Phase1 (wrap64 makeLen batchSize)
open Phase2

theorem IOSt.onRd_error {α : Type} {x : Go Rd α} {rd rd' : Rd} {e : Fail} {out : Bytes} (h : x.run rd = (.error e, rd')) :
    (IOSt.onRd x).run ⟨rd, out⟩ = (.error e, ⟨rd', out⟩) := by simp [IOSt.onRd, h]

section
variable {F G1 G2 GT : Type} [Field F] [AddCommGroup G1] [Module F G1] [AddCommGroup G2]
  [Module F G2] [AddCommGroup GT] [Module F GT] [DecidableEq G1] [DecidableEq G2] [DecidableEq GT]
variable {C : Curve F G1 G2 GT} (hC : C.Lawful)
include hC

theorem scaleLoop2_takes (par : Par) (b : Nat) (hb : 0 < b) (delta : F) (n : Nat) :
    Takes IOSt.rd (32 * n) (Phase2.scaleLoop C par b delta n) := by
  have hs := hC.size1
  induction n using Nat.strong_induction_on with
  | _ n ih =>
    rw [Phase2.scaleLoop]
    by_cases h0 : 0 < n ∧ 0 < b
    · rw [dif_pos h0]
      exact Takes.mono (.bind (.onRd (.decodeN C.c1 (by omega) _)) fun _ => .bind (.emit _) fun _ =>
        ih (n - min n b) (by omega)) (by rw [hs]; omega)
    · have : n = 0 := by omega
      subst this
      rw [dif_neg h0]
      exact .pure _

theorem scale2_takes (par : Par) (b : Nat) (hb : 0 < b) (N : Int) (delta : F) :
    Takes IOSt.rd (32 * N.toNat) (Phase2.scale C par b N delta) := by
  unfold Phase2.scale
  exact Takes.mono (.bind (.lift _) fun _ => scaleLoop2_takes hC par b hb _ _) (by omega)

omit hC in
theorem scalePoint_takes {G : Type} [AddCommGroup G] [Module F G] (c : Codec G) (h32 : 32 ∣ c.size) (x : F) :
    Takes IOSt.rd c.size (scalePoint c x) := by
  unfold scalePoint
  exact Takes.mono (.bind (.onRd (.decode c h32)) fun _ => .bind (.emit _) fun _ => .pure _) (by omega)

/-- the records as `Contribute` copies them when all but `k` bytes of the last hash are missing -/
def cutLast2 (k : Nat) : List (Contribution G1 G2) → List (Contribution G1 G2)
  | [] => []
  | [r] => [{ r with hash := cutHash k r.hash }]
  | r :: q :: rs => r :: cutLast2 k (q :: rs)

omit hC in
theorem cutLast2_length (k : Nat) : ∀ rs : List (Contribution G1 G2), (cutLast2 k rs).length = rs.length
  | [] => rfl
  | [_] => rfl
  | _ :: q :: rs => by simp [cutLast2, cutLast2_length k (q :: rs)]

omit hC in
theorem cutLast2_hash (k : Nat) (hk : k ≤ 32) : ∀ rs : List (Contribution G1 G2), (∀ r ∈ rs, r.hash.length = 32) →
    ∀ r ∈ cutLast2 k rs, r.hash.length = 32
  | [], _, r, hr => by simp [cutLast2] at hr
  | [q], h, r, hr => by
    simp only [cutLast2, List.mem_singleton] at hr
    rw [hr]
    exact cutHash_length k hk _ (h q (by simp))
  | a :: q :: rs, h, r, hr => by
    simp only [cutLast2, List.mem_cons] at hr
    rcases hr with rfl | hr
    · exact h _ (by simp)
    · exact cutLast2_hash k hk (q :: rs) (fun x hx => h x (by simp [hx])) r hr

omit hC in
theorem cutLast2_append (k : Nat) (pre : List (Contribution G1 G2)) (r : Contribution G1 G2) :
    cutLast2 k (pre ++ [r]) = pre ++ [{ r with hash := cutHash k r.hash }] := by
  induction pre with
  | nil => rfl
  | cons a pre ih =>
    cases pre with
    | nil => rfl
    | cons b pre => simpa [cutLast2] using ih

theorem take_records2 (r q : Contribution G1 G2) (rs : List (Contribution G1 G2)) (hl : r.hash.length = 32) (m : Nat) (hm : 192 ≤ m) :
    (record2Bytes C r ++ (q :: rs).flatMap (record2Bytes C)).take m
      = record2Bytes C r ++ ((q :: rs).flatMap (record2Bytes C)).take (m - 192) := by
  have hrl := record2Bytes_length hC r hl
  rw [List.take_append, List.take_of_length_le (by omega), hrl]

/-- copying records when the last hash is cut off: the missing bytes become zeros -/
theorem copy2_cut (k : Nat) (hk0 : 0 < k) (hk : k < 32) : ∀ (rs : List (Contribution G1 G2)) (_ : rs ≠ [])
    (_ : ∀ r ∈ rs, r.hash.length = 32) (c0 : Contribution G1 G2) (cap pos : Nat)
    (_ : ∀ j < rs.length, Fits cap (pos + 192 * j + 160)) (out : Bytes),
    ∃ rd', (Phase2.copyContributions C rs.length c0).run
        ⟨⟨cap, pos, (rs.flatMap (record2Bytes C)).take (192 * rs.length - (32 - k))⟩, out⟩
      = (.ok ((cutLast2 k rs).getLast?.getD c0), ⟨rd', out ++ (cutLast2 k rs).flatMap (record2Bytes C)⟩) := by
  intro rs
  induction rs with
  | nil => intro h; exact absurd rfl h
  | cons r rs ih =>
    intro _ hr c0 cap pos hfit out
    have hl := hr r (by simp)
    have hf0 : Fits cap (pos + 160) := by simpa using hfit 0 (by simp)
    simp only [List.length_cons, Phase2.copyContributions, List.flatMap_cons]
    cases rs with
    | nil =>
      obtain ⟨rd', hrun, -⟩ := record2_read_hash_cut hC r cap pos (160 + k) (List.flatMap (record2Bytes C) []) hl hf0
        (by omega) (by omega)
      have h1 : 160 + k - 160 = k := by omega
      have h2 : 192 - (160 + k) = 32 - k := by omega
      have h3 : 192 * (([] : List (Contribution G1 G2)).length + 1) - (32 - k) = 160 + k := by simp; omega
      rw [h1, h2] at hrun
      rw [h3]
      refine ⟨rd', ?_⟩
      rw [Go.bind_ok (IOSt.onRd_ok hrun), Go.bind_ok (IOSt.emit_run _ _), contribution2_writeTo]
      simp [Phase2.copyContributions, cutLast2, cutHash]
    | cons q rs =>
      obtain ⟨rd', hi⟩ := ih (by simp) (fun r' h => hr r' (by simp [h])) r cap (pos + 192) (fun j hj => by
        have := hfit (j + 1) (by simpa using hj)
        have e : pos + 192 * (j + 1) + 160 = pos + 192 + 192 * j + 160 := by omega
        rwa [e] at this) (out ++ record2Bytes C r)
      rw [take_records2 hC r q rs hl _ (by simp only [List.length_cons]; omega)]
      have e : 192 * ((q :: rs).length + 1) - (32 - k) - 192 = 192 * (q :: rs).length - (32 - k) := by
        simp only [List.length_cons]; omega
      rw [e]
      refine ⟨rd', ?_⟩
      rw [Go.bind_ok (IOSt.onRd_ok (record2_read hC r cap pos _ hl hf0)),
        Go.bind_ok (IOSt.emit_run _ _), contribution2_writeTo]
      rw [hi]
      have hne : cutLast2 k (q :: rs) ≠ [] := by
        intro h0
        have := cutLast2_length k (q :: rs)
        rw [h0] at this
        simp at this
      rw [Prod.mk.injEq]
      constructor
      · obtain ⟨a, as, has⟩ := List.exists_cons_of_ne_nil hne
        rw [Except.ok.injEq, cutLast2, has, List.getLast?_cons_cons, List.getLast?_eq_some_getLast (by simp),
          Option.getD_some, Option.getD_some]
      · simp [cutLast2]

/-- records of which more than 31 bytes are missing cannot be copied -/
theorem copy2_short : ∀ (rs : List (Contribution G1 G2)) (_ : ∀ r ∈ rs, r.hash.length = 32) (c0 c : Contribution G1 G2)
    (cap pos m : Nat) (_ : ∀ j < rs.length, Fits cap (pos + 192 * j + 160)) (_ : m + 32 ≤ 192 * rs.length) (out : Bytes) (s' : IOSt),
    (Phase2.copyContributions C rs.length c0).run ⟨⟨cap, pos, (rs.flatMap (record2Bytes C)).take m⟩, out⟩ ≠ (.ok c, s') := by
  intro rs
  induction rs with
  | nil => intro _ _ _ _ _ m _ h; simp at h
  | cons r rs ih =>
    intro hr c0 c cap pos m hfit hm out s' hrun
    have hl := hr r (by simp)
    have hf0 : Fits cap (pos + 160) := by simpa using hfit 0 (by simp)
    simp only [List.length_cons, Phase2.copyContributions, List.flatMap_cons] at hrun hm
    rcases Nat.lt_or_ge 160 m with h1 | h1
    · cases rs with
      | nil => simp at hm; omega
      | cons q rs =>
        rcases Nat.lt_or_ge m 192 with h2 | h2
        · obtain ⟨rd', hrd, hrest⟩ := record2_read_hash_cut hC r cap pos m ((q :: rs).flatMap (record2Bytes C)) hl hf0 h1 h2
          rw [Go.bind_ok (IOSt.onRd_ok hrd), Go.bind_ok (IOSt.emit_run _ _)] at hrun
          have e : rd' = ⟨rd'.cap, rd'.pos, ((q :: rs).flatMap (record2Bytes C)).take 0⟩ := by
            rw [List.take_zero, ← hrest]
          obtain ⟨x, rd'', hx⟩ := record2_read_empty hC rd'.cap rd'.pos
          simp only [List.length_cons, Phase2.copyContributions] at hrun
          have e' : rd' = ⟨rd'.cap, rd'.pos, []⟩ := by rw [← hrest]
          rw [e', Go.bind_error (IOSt.onRd_error hx)] at hrun
          simp at hrun
        · rw [take_records2 hC r q rs hl _ h2, Go.bind_ok (IOSt.onRd_ok (record2_read hC r cap pos _ hl hf0)),
            Go.bind_ok (IOSt.emit_run _ _)] at hrun
          refine ih (fun r' h => hr r' (by simp [h])) _ _ cap (pos + 192) (m - 192) (fun j hj => ?_)
            (by simp only [List.length_cons] at hm ⊢; omega) _ _ hrun
          have := hfit (j + 1) (by simpa using hj)
          have e : pos + 192 * (j + 1) + 160 = pos + 192 + 192 * j + 160 := by omega
          rwa [e] at this
    · obtain ⟨e, rd', hrd⟩ := record2_read_short hC r cap pos m (rs.flatMap (record2Bytes C)) h1
      rw [Go.bind_error (IOSt.onRd_error hrd)] at hrun
      simp at hrun

variable {H : HeaderCodec} (hH : H.Lawful)
include hH

/-- After the parameters, `Contribute` depends on the rest of the file only through the copying of the records. -/
theorem contribute2_tail (par : Par) (b : Nat) (hb : 0 < b) (rnd : Rand F) (f : P2File G1 G2) (hf : f.WF) (T : Bytes) :
    Phase2.contribute C H par b rnd (H.enc f.header ++ f.params C ++ T)
      = match (Phase2.copyContributions C f.records.length Contribution.zero).run
          ⟨⟨4096, (H.enc f.header).length + 32 + 64 + 32 * f.z.length + 32 * f.pkk.length, T⟩,
            H.enc (f.contribute C rnd).header ++ (f.contribute C rnd).params C⟩ with
        | (.ok c, s') =>
          (.ok (newRecord2 C rnd (previousHash (f.records.length : Int) c) (rnd.delta • f.delta1)).hash,
            s'.out ++ record2Bytes C (newRecord2 C rnd (previousHash (f.records.length : Int) c) (rnd.delta • f.delta1)))
        | (.error e, s') => (.error e, s'.out) := by
  have hz := hf.z
  have hp := hf.pkk
  have hdp := hf.domain_pos
  have hcnt := hf.count
  have hdom := hf.domain
  have hw1 : wrap64 (f.header.contributions + 1) = ((f.records.length + 1 : Nat) : Int) := by
    rw [wrap64_eq] <;> simp only [P2File.header] <;> push_cast <;> omega
  have hw2 : wrap64 (((f.records.length + 1 : Nat) : Int) - 1) = (f.records.length : Int) := by
    rw [wrap64_eq] <;> push_cast <;> omega
  have hw3 : wrap64 (f.header.domain - 1) = (f.z.length : Int) := by
    rw [wrap64_eq] <;> simp only [P2File.header] <;> omega
  have hw4 : f.header.witness = (f.pkk.length : Int) := by simp [P2File.header, hp]
  have hrec : f.header.increment = (f.contribute C rnd).header := by
    unfold Header.increment
    rw [hw1]
    simp [P2File.header, P2File.contribute]
  have hd : f.header.increment.domain = f.header.domain := rfl
  have hw : f.header.increment.witness = f.header.witness := rfl
  have hc : f.header.increment.contributions = ((f.records.length + 1 : Nat) : Int) := by
    unfold Header.increment; exact hw1
  have hread : H.dec.run (Rd.buffered 4096 (H.enc f.header ++ f.params C ++ T))
      = (.ok f.header, ⟨4096, (H.enc f.header).length, f.params C ++ T⟩) := by
    have := hH.dec_enc f.header (P2File.header_inRange hC hH hf) 4096 0 (f.params C ++ T)
    simpa [Rd.buffered] using this
  unfold Phase2.contribute contributeBody Header.read
  rw [Go.bind_ok (IOSt.onRd_ok hread)]
  unfold contributeWith Header.write
  rw [Go.bind_ok (IOSt.emit_run _ _)]
  rw [hd, hw, hc, hw2, hw3, hw4, hrec]
  unfold P2File.params
  simp only [List.append_assoc]
  rw [Go.bind_ok (scalePoint_spec hC.codec1 _ _ _ _ _ _)]
  rw [Go.bind_ok (scalePoint_spec hC.codec2 _ _ _ _ _ _)]
  rw [Go.bind_ok (scale2_spec hC par b hb _ _ _ _ _ _)]
  rw [Go.bind_ok (scale2_spec hC par b hb _ _ _ _ _ _)]
  rw [hC.size1, hC.size2]
  simp only [Int.toNat_natCast, List.nil_append, List.append_assoc]
  have hnew : ∀ c : Contribution G1 G2, newContribution C rnd (rnd.delta • f.delta1) (previousHash (f.records.length : Int) c)
      = newRecord2 C rnd (previousHash (f.records.length : Int) c) (rnd.delta • f.delta1) := by
    intro c
    unfold newContribution newRecord2
    simp only [genPublicKey_eq, computeHash2_eq]
  simp only [hnew, Go.bind_run, contribution2_writeTo, P2File.contribute]
  split <;> rename_i h <;> simp [h]

/-- a successful `Contribute` has found the complete parameters -/
theorem contribute2_takes (par : Par) (b : Nat) (hb : 0 < b) (rnd : Rand F) (f : P2File G1 G2) (hf : f.WF) (n : Nat) (hash : Bytes)
    (h : (Phase2.contribute C H par b rnd ((f.encode C H).take n)).1 = .ok hash) :
    (H.enc f.header ++ f.params C).length ≤ n := by
  have hs1 := hC.size1
  have hs2 := hC.size2
  have hz := hf.z
  have hp := hf.pkk
  have hdp := hf.domain_pos
  have hdom := hf.domain
  have hw3 : wrap64 (f.header.domain - 1) = (f.z.length : Int) := by
    rw [wrap64_eq] <;> simp only [P2File.header] <;> omega
  have hw4 : f.header.witness = (f.pkk.length : Int) := by simp [P2File.header, hp]
  rw [List.length_append, params2_length hC]
  by_contra hlt
  by_cases hn : n < (H.enc f.header).length
  · unfold Phase2.contribute contributeBody Header.read at h
    simp only at h
    cases hr : H.dec.run (Rd.buffered 4096 ((f.encode C H).take n)) with
    | mk v rd =>
      cases v with
      | ok x => exact header2_cut hC hH f hf n hn _ _ _ hr
      | error e =>
        rw [Go.bind_error (IOSt.onRd_error hr)] at h
        simp at h
  · have htake : (f.encode C H).take n = H.enc f.header
        ++ (f.params C ++ f.records.flatMap (record2Bytes C)).take (n - (H.enc f.header).length) := by
      rw [P2File.encode, List.append_assoc, List.take_append, List.take_of_length_le (by omega)]
    have hread : H.dec.run (Rd.buffered 4096 ((f.encode C H).take n)) = (.ok f.header, ⟨4096, (H.enc f.header).length,
        (f.params C ++ f.records.flatMap (record2Bytes C)).take (n - (H.enc f.header).length)⟩) := by
      rw [htake]
      have := hH.dec_enc f.header (P2File.header_inRange hC hH hf) 4096 0
        ((f.params C ++ f.records.flatMap (record2Bytes C)).take (n - (H.enc f.header).length))
      simpa [Rd.buffered] using this
    unfold Phase2.contribute contributeBody Header.read at h
    simp only at h
    rw [Go.bind_ok (IOSt.onRd_ok hread)] at h
    obtain ⟨s', hr⟩ : ∃ s', (contributeWith C H par b rnd f.header.increment).run ⟨⟨4096, (H.enc f.header).length,
        (f.params C ++ f.records.flatMap (record2Bytes C)).take (n - (H.enc f.header).length)⟩, []⟩ = (.ok hash, s') :=
      ⟨_, Prod.ext h rfl⟩
    have step : ∀ {α : Type} {k j : Nat} {x : Go IOSt α} {f : α → Go IOSt Bytes} {s0 : IOSt} {l : Nat},
        Takes IOSt.rd k x → (x >>= f).run s0 = (.ok hash, s') → s0.rd.rest.length + j ≤ l →
        ∃ a s1, (f a).run s1 = (.ok hash, s') ∧ s1.rd.rest.length + (j + k) ≤ l := by
      intro α k j x f s0 l ht hrun hs
      obtain ⟨v, s1, e1, e2⟩ := Go.bind_eq_ok hrun
      have := (ht _ _ _ e1).2.2
      exact ⟨v, s1, e2, by omega⟩
    unfold contributeWith at hr
    have hd : f.header.increment.domain = f.header.domain := rfl
    have hw : f.header.increment.witness = f.header.witness := rfl
    rw [hd, hw, hw3, hw4] at hr
    obtain ⟨_, _, hr, i⟩ := step (j := 0) (.emit _) hr le_rfl
    obtain ⟨_, _, hr, i⟩ := step (scalePoint_takes C.c1 (by omega) _) hr i
    obtain ⟨_, _, hr, i⟩ := step (scalePoint_takes C.c2 (by omega) _) hr i
    obtain ⟨_, _, hr, i⟩ := step (scale2_takes hC par b hb _ _) hr i
    obtain ⟨_, _, hr, i⟩ := step (scale2_takes hC par b hb _ _) hr i
    simp only [hs1, hs2, Int.toNat_natCast, List.length_take] at i
    omega

end
end ZkSetup
