import Verif.Proofs.Phase1Truncate
import Verif.Props.Phase1Sound
import Verif.Props.Phase1History
/-
C17 and the phase 1 part of C47: files that are cut off.
-/
set_option linter.unusedSectionVars false

namespace ZkSetup

open Phase1 Finset

section
variable {F G1 G2 GT : Type} [Field F] [AddCommGroup G1] [Module F G1] [AddCommGroup G2]
  [Module F G2] [AddCommGroup GT] [Module F GT] [DecidableEq G1] [DecidableEq G2] [DecidableEq GT]
variable {C : Curve F G1 G2 GT} (hC : C.Lawful)
include hC

/-- **C17** (partial), for arbitrary input: an accepted file has at least the length of the header and all
parameters for the power in its first byte. So every file cut off in the parameters is rejected. -/
theorem C17_length_partial (par : Par) (pol : MsmPolicy) (b : Nat) (hb : 0 < b) (vr : VerifyRand F) (input : Bytes)
    (tr : Option Bytes) (h : verify C par pol b vr input tr = .ok ()) :
    (input.headD 0).toNat ≤ 62 ∧ 3 + 192 * 2 ^ (input.headD 0).toNat + 32 ≤ input.length := by
  unfold verify at h
  cases hh : Header.readFrom.run (Rd.file input 0) with
  | mk res rd =>
    rw [hh] at h
    cases res with
    | error e => simp at h
    | ok header =>
      simp only at h
      cases hs : (readSections C par pol b vr (goPow2 header.power)).run (Rd.buffered (2 ^ 20) rd.rest) with
      | mk res rd' =>
        rw [hs] at h
        cases res with
        | error e => simp at h
        | ok v =>
          have hpow : header.power = input.headD 0 ∧ rd.rest = input.drop 3 := by
            match input with
            | [] => simp [Header.readFrom, Rd.file, Rd.read, Go.bind_run] at hh
            | [x] => simp [Header.readFrom, Rd.file, Rd.read, Go.bind_run, Rd.adv, Rd.block] at hh
            | [x, y] =>
              simp [Header.readFrom, Rd.file, Rd.read, Go.bind_run, Rd.adv, Rd.block] at hh
              rw [← hh.1, ← hh.2]; simp
            | x :: y :: z :: rest =>
              simp [Header.readFrom, Rd.file, Rd.read, Go.bind_run, Rd.adv, Rd.block] at hh
              rw [← hh.1, ← hh.2]; simp
          rw [hpow.1] at hs
          unfold readSections at hs
          obtain ⟨v1, r1, s1, hs⟩ := Go.bind_eq_ok hs
          obtain ⟨v2, r2, s2, hs⟩ := Go.bind_eq_ok hs
          obtain ⟨v3, r3, s3, hs⟩ := Go.bind_eq_ok hs
          obtain ⟨v4, r4, s4, hs⟩ := Go.bind_eq_ok hs
          obtain ⟨v5, r5, s5, hs⟩ := Go.bind_eq_ok hs
          obtain ⟨n1, l1⟩ := linearCombination_len par pol b hb _ _ _ _ _ s1
          obtain ⟨n2, l2⟩ := linearCombination_len par pol b hb _ _ _ _ _ s2
          obtain ⟨n3, l3⟩ := linearCombination_len par pol b hb _ _ _ _ _ s3
          obtain ⟨n4, l4⟩ := linearCombination_len par pol b hb _ _ _ _ _ s4
          have l5 := decode_len s5
          have hp : (input.headD 0).toNat ≤ 62 := by
            by_contra hp
            unfold goPow2 at n2
            rw [if_neg hp] at n2
            omega
          refine ⟨hp, ?_⟩
          rw [hC.size1] at l1 l2 l3
          rw [hC.size2] at l4 l5
          rw [wrap_tau hp] at l1
          rw [goPow2_eq hp] at l2 l3 l4
          simp only [Int.toNat_natCast, Rd.buffered, hpow.2, List.length_drop] at l1 l2 l3 l4
          have : 0 < 2 ^ (input.headD 0).toNat := Nat.pow_pos (by omega)
          generalize 2 ^ (input.headD 0).toNat = N at *
          omega

theorem params_length (f : P1File G1 G2) (hf : f.WF) :
    ([f.power, UInt8.ofNat (f.records.length / 256), UInt8.ofNat (f.records.length % 256)]
      ++ f.params C).length = 3 + 192 * 2 ^ f.power.toNat + 32 := by
  have : 0 < 2 ^ f.power.toNat := Nat.pow_pos (by omega)
  simp only [P1File.params, List.length_append, section1_length hC, section2_length hC, hf.tauG1, hf.alphaG1,
    hf.betaG1, hf.tauG2, hC.codec2.bytes_length, hC.size2, List.length_cons, List.length_nil]
  omega

theorem records_length (rs : List (Contribution G1 G2)) (h : ∀ r ∈ rs, r.hash.length = 32) :
    (rs.flatMap (recordBytes C)).length = 640 * rs.length := by
  induction rs with
  | nil => rfl
  | cons r rs ih =>
    simp only [List.flatMap_cons, List.length_append, recordBytes_length hC r (h r (by simp)),
      ih fun x hx => h x (by simp [hx]), List.length_cons]
    omega

/-- a cut-off file is accepted only if all that is missing are zero bytes of the last hash -/
theorem truncated_only_zeros (par : Par) (pol : MsmPolicy) (b : Nat) (hb : 0 < b) (vr : VerifyRand F)
    (f : P1File G1 G2) (hf : f.WF) (hcl : CleanRecords C f.records)
    (hsha : ∀ r ∈ f.records, r.hash = C.sha (recordBody C r)) (tr : Option Bytes) (n : Nat)
    (hn : n < (f.encode C).length) (h : verify C par pol b vr ((f.encode C).take n) tr = .ok ()) :
    (f.encode C).length - n ≤ 32 ∧ (f.encode C).drop n = List.replicate ((f.encode C).length - n) 0 := by
  have hpl := params_length hC f hf
  have hrl := records_length hC f.records hf.hash
  have henc : f.encode C = [f.power, UInt8.ofNat (f.records.length / 256), UInt8.ofNat (f.records.length % 256)]
      ++ f.params C ++ f.records.flatMap (recordBytes C) := rfl
  have hlen : (f.encode C).length = 3 + 192 * 2 ^ f.power.toNat + 32 + 640 * f.records.length := by
    rw [henc, List.length_append, hpl, hrl]
  -- the parameters are complete
  have hlong : 3 + 192 * 2 ^ f.power.toNat + 32 ≤ n := by
    obtain ⟨h1, h2⟩ := C17_length_partial hC par pol b hb vr _ tr h
    have hhead : ((f.encode C).take n).headD 0 = f.power := by
      cases n with
      | zero => simp at h2
      | succ n => rw [henc]; simp
    rw [hhead, List.length_take] at h2
    omega
  have htake : (f.encode C).take n = [f.power, UInt8.ofNat (f.records.length / 256),
      UInt8.ofNat (f.records.length % 256)] ++ f.params C
        ++ (f.records.flatMap (recordBytes C)).take (n - (3 + 192 * 2 ^ f.power.toNat + 32)) := by
    rw [henc, List.take_append, List.take_of_length_le (by omega), hpl]
  have hdrop : (f.encode C).drop n
      = (f.records.flatMap (recordBytes C)).drop (n - (3 + 192 * 2 ^ f.power.toNat + 32)) := by
    rw [henc, List.drop_append, List.drop_of_length_le (by omega), hpl, List.nil_append]
  rw [htake, verify_tail hC par pol b hb vr f hf] at h
  obtain ⟨prev, fin, h1, h2, -⟩ := h
  obtain ⟨a1, a2⟩ := verifyLoop_cut hC f.records hcl hsha f.records Contribution.zero prev fin _ _ _
    (fun _ h => h) hf.hash (by decide) (by omega) (.inl ⟨rfl, origin_hash hC _ _ h1⟩) (by omega) h2
  refine ⟨by omega, ?_⟩
  rw [hdrop, a2, hlen]
  have e : 640 * f.records.length - (n - (3 + 192 * 2 ^ f.power.toNat + 32))
      = 3 + 192 * 2 ^ f.power.toNat + 32 + 640 * f.records.length - n := by omega
  rw [e]

omit hC in
theorem chain_hashes {prev : Contribution G1 G2} {rs : List (Contribution G1 G2)} (h : ChainOk C prev rs) :
    ∀ r ∈ rs, r.hash = C.sha (recordBody C r) := by
  induction rs generalizing prev with
  | nil => simp
  | cons r rs ih =>
    obtain ⟨⟨_, _, _, hs⟩, hch⟩ := h
    intro q hq
    rcases List.mem_cons.mp hq with rfl | hq
    · exact hs.hash
    · exact ih hch q hq

/-- **C17** (partial): let `f` be accepted, its records nondegenerate and free of hash collisions. A strict prefix of `f` is
accepted only if what is missing are at most 32 bytes, all of them zero. (The missing bytes are then part of the last
hash.) Missing for the full C17: `C17_zero_tail_accepted`, `C17_degenerate_accepted`. -/
theorem C17_truncated_partial (par par' : Par) (pol pol' : MsmPolicy) (b b' : Nat) (hb : 0 < b) (hb' : 0 < b')
    (vr vr' : VerifyRand F) (f : P1File G1 G2) (hf : f.WF) (hcl : CleanRecords C f.records) (tr tr' : Option Bytes)
    (hacc : verify C par' pol' b' vr' (f.encode C) tr' = .ok ())
    (n : Nat) (hn : n < (f.encode C).length) (h : verify C par pol b vr ((f.encode C).take n) tr = .ok ()) :
    (f.encode C).length - n ≤ 32 ∧ ∀ x ∈ (f.encode C).drop n, x = 0 := by
  have := verify_bytes hC par' pol' b' hb' vr' f hf [] tr'
  rw [List.append_nil] at this
  obtain ⟨prev, _, hch, _⟩ := this.mp hacc
  obtain ⟨h1, h2⟩ := truncated_only_zeros hC par pol b hb vr f hf hcl (chain_hashes hch) tr n hn h
  refine ⟨h1, ?_⟩
  rw [h2]
  intro x hx
  exact List.eq_of_mem_replicate hx

/-- the verification loop when zero bytes are missing at the end of the last hash -/
theorem verifyLoop_zero_tail :
    ∀ (rs : List (Contribution G1 G2)) (cur prev : Contribution G1 G2) (cap pos m : Nat),
      (∀ r ∈ rs, r.hash.length = 32) → 32 ∣ cap → 32 ∣ pos → ChainOk C prev rs →
      m < 640 * rs.length → 640 * rs.length ≤ m + 32 →
      (rs.flatMap (recordBytes C)).drop m = List.replicate (640 * rs.length - m) 0 →
      verifyLoop C rs.length cur prev ⟨cap, pos, (rs.flatMap (recordBytes C)).take m⟩
        = .ok (rs.getLast?.getD Contribution.zero) := by
  intro rs
  induction rs with
  | nil => intro cur prev cap pos m _ _ _ _ hm; simp at hm
  | cons r rs ih =>
    intro cur prev cap pos m hlen hcap hpos hch hm hk hz
    have hl := hlen r (by simp)
    have hrl := recordBytes_length hC r hl
    have hbl := recordBody_length hC r
    obtain ⟨hstep, hch⟩ := hch
    have hv := (verifyContribution_iff hC r prev).mpr hstep
    simp only [List.length_cons, List.flatMap_cons, verifyLoop] at hm hk hz ⊢
    cases rs with
    | nil =>
      obtain ⟨e, rd', hrun, hrest, -, hsp⟩ := record_read_hash_cut hC r cur cap pos m
        (List.flatMap (recordBytes C) []) hl ⟨hcap, hpos⟩ (by simp at hk; omega) (by simpa using hm)
      have hh : r.hash.take (m - 608) ++ List.replicate (640 - m) 0 = r.hash := by
        simp only [List.flatMap_nil, List.append_nil, List.length_nil, Nat.zero_add, Nat.mul_one] at hz hk
        rw [recordBytes, List.drop_append, List.drop_of_length_le (by omega), hbl, List.nil_append] at hz
        rw [← hz, List.take_append_drop]
      rw [hh] at hrun
      rw [hrun]
      simp only [List.length_nil, verifyLoop, hv, hsp]
      rfl
    | cons q rs =>
      simp only [List.length_cons] at hm hk
      rw [List.take_append, List.take_of_length_le (by omega), hrl,
        record_read hC r cur cap pos _ hl (.inr ⟨hcap, hpos⟩)]
      simp only [hv]
      rw [List.drop_append, List.drop_of_length_le (by omega), hrl, List.nil_append] at hz
      have := ih r r cap (pos + 640) (m - 640) (fun x hx => hlen x (by simp [hx])) hcap (by omega) hch
        (by simp only [List.length_cons]; omega) (by simp only [List.length_cons]; omega) (by
          rw [hz, List.length_cons]
          have e : 640 * (rs.length + 1 + 1) - m = 640 * (rs.length + 1) - (m - 640) := by omega
          rw [e])
      rw [List.getLast?_cons_cons]
      exact this

/-- **C17, negation**, first form: if the last hash of an accepted file ends in zero bytes, the file without them is accepted
as well (the hash is read with one `Read`, whose short count is ignored). For a random hash the last byte is 0 in one of
256 cases. -/
theorem C17_zero_tail_accepted (par : Par) (pol : MsmPolicy) (b : Nat) (hb : 0 < b) (vr : VerifyRand F)
    (f : P1File G1 G2) (hf : f.WF) (tr : Option Bytes) (hacc : verify C par pol b vr (f.encode C) tr = .ok ())
    (hne : f.records ≠ []) (k : Nat) (hk : k ≤ 32)
    (hz : ∀ x ∈ (f.encode C).drop ((f.encode C).length - k), x = 0) :
    verify C par pol b vr ((f.encode C).take ((f.encode C).length - k)) tr = .ok () := by
  rcases Nat.eq_zero_or_pos k with rfl | hk0
  · rwa [Nat.sub_zero, List.take_length]
  have hpl := params_length hC f hf
  have hrl := records_length hC f.records hf.hash
  have henc : f.encode C = [f.power, UInt8.ofNat (f.records.length / 256), UInt8.ofNat (f.records.length % 256)]
      ++ f.params C ++ f.records.flatMap (recordBytes C) := rfl
  have hlen : (f.encode C).length = 3 + 192 * 2 ^ f.power.toNat + 32 + 640 * f.records.length := by
    rw [henc, List.length_append, hpl, hrl]
  have hr0 : 0 < f.records.length := List.length_pos_iff.mpr hne
  generalize hL : 192 * 2 ^ f.power.toNat = L at *
  have htake : (f.encode C).take ((f.encode C).length - k) = [f.power, UInt8.ofNat (f.records.length / 256),
      UInt8.ofNat (f.records.length % 256)] ++ f.params C
        ++ (f.records.flatMap (recordBytes C)).take (640 * f.records.length - k) := by
    rw [hlen, henc, List.take_append, List.take_of_length_le (by omega), hpl]
    have e : 3 + L + 32 + 640 * f.records.length - k - (3 + L + 32) = 640 * f.records.length - k := by omega
    rw [e]
  have hdrop : (f.encode C).drop ((f.encode C).length - k)
      = (f.records.flatMap (recordBytes C)).drop (640 * f.records.length - k) := by
    rw [hlen, henc, List.drop_append, List.drop_of_length_le (by omega), hpl, List.nil_append]
    have e : 3 + L + 32 + 640 * f.records.length - k - (3 + L + 32) = 640 * f.records.length - k := by omega
    rw [e]
  have hacc' := verify_bytes hC par pol b hb vr f hf [] tr
  rw [List.append_nil] at hacc'
  obtain ⟨prev, h1, hch, hsec⟩ := hacc'.mp hacc
  rw [htake, verify_tail hC par pol b hb vr f hf]
  refine ⟨prev, _, h1, verifyLoop_zero_tail hC f.records _ _ _ _ _ hf.hash (by decide) (by omega) hch (by omega)
    (by omega) ?_, hsec⟩
  rw [← hdrop]
  refine List.eq_replicate_iff.mpr ⟨?_, fun x hx => hz x hx⟩
  rw [List.length_drop]
  omega

/-- **C17, negation**, second form: on every lawful curve, for every power, there is an accepted file with two contributions
that is still accepted when the last contribution is cut off (the error of reading it is ignored, and the record read before
is checked again). -/
theorem C17_degenerate_accepted (p : UInt8) (hp : p.toNat ≤ 62) :
    ∃ f : P1File G1 G2, f.WF ∧ f.power = p ∧ f.records.length = 2 ∧
      ∀ (par : Par) (pol : MsmPolicy) (b : Nat) (_ : 0 < b) (vr : VerifyRand F),
        verify C par pol b vr (f.encode C) none = .ok () ∧
        verify C par pol b vr ((f.encode C).take ((f.encode C).length - 640)) none = .ok () := by
  have hzl : (zeroRecord C : Contribution G1 G2).hash.length = 32 := hC.sha_length _
  have hwf : (zeroFile p [zeroRecord C, zeroRecord C] : P1File G1 G2).WF := by
    refine ⟨hp, by simp [zeroFile], by simp [zeroFile], by simp [zeroFile], by simp [zeroFile],
      by simp [zeroFile], ?_⟩
    simp [zeroFile, hzl]
  have hrl := recordBytes_length hC _ hzl
  have hz := fun prev => (verifyContribution_iff hC _ prev).mpr ⟨0, 0, 0, zeroRecord_step prev⟩
  refine ⟨zeroFile p [zeroRecord C, zeroRecord C], hwf, rfl, rfl, ?_⟩
  intro par pol b hb vr
  constructor
  · have := verify_bytes hC par pol b hb vr _ hwf [] none
    rw [List.append_nil] at this
    rw [this]
    refine ⟨_, defaultContribution_none, ⟨⟨0, 0, 0, zeroRecord_step _⟩, ⟨0, 0, 0, zeroRecord_step _⟩, trivial⟩, ?_⟩
    exact zeroFile_sections _ _ _ _ _ _ rfl
  · have htake : ((zeroFile p [zeroRecord C, zeroRecord C] : P1File G1 G2).encode C).take
        (((zeroFile p [zeroRecord C, zeroRecord C] : P1File G1 G2).encode C).length - 640)
        = [p, UInt8.ofNat (2 / 256), UInt8.ofNat (2 % 256)]
          ++ (zeroFile p [zeroRecord C, zeroRecord C] : P1File G1 G2).params C ++ recordBytes C (zeroRecord C) := by
      have henc : (zeroFile p [zeroRecord C, zeroRecord C] : P1File G1 G2).encode C
          = ([p, UInt8.ofNat (2 / 256), UInt8.ofNat (2 % 256)]
          ++ (zeroFile p [zeroRecord C, zeroRecord C] : P1File G1 G2).params C ++ recordBytes C (zeroRecord C))
            ++ recordBytes C (zeroRecord C) := by
        simp [P1File.encode, zeroFile]
      rw [henc, List.length_append, hrl, Nat.add_sub_cancel, List.take_left]
    rw [htake]
    refine (verify_tail hC par pol b hb vr _ hwf (recordBytes C (zeroRecord C)) none).mpr
      ⟨_, zeroRecord C, defaultContribution_none, ?_, zeroFile_sections _ _ _ _ _ _ rfl⟩
    have hal : 32 ∣ 32 * (zeroFile p [zeroRecord C, zeroRecord C] : P1File G1 G2).tauG1.length
        + 32 * (zeroFile p [zeroRecord C, zeroRecord C] : P1File G1 G2).alphaG1.length
        + 32 * (zeroFile p [zeroRecord C, zeroRecord C] : P1File G1 G2).betaG1.length
        + 64 * (zeroFile p [zeroRecord C, zeroRecord C] : P1File G1 G2).tauG2.length + 64 := by omega
    generalize 32 * (zeroFile p [zeroRecord C, zeroRecord C] : P1File G1 G2).tauG1.length
        + 32 * (zeroFile p [zeroRecord C, zeroRecord C] : P1File G1 G2).alphaG1.length
        + 32 * (zeroFile p [zeroRecord C, zeroRecord C] : P1File G1 G2).betaG1.length
        + 64 * (zeroFile p [zeroRecord C, zeroRecord C] : P1File G1 G2).tauG2.length + 64 = pos at hal
    have h1 := record_read hC (zeroRecord C) Contribution.zero (2 ^ 20) pos [] hzl (.inr ⟨by decide, hal⟩)
    obtain ⟨k, e, rd', hk, h2, h3⟩ := record_read_cut hC (zeroRecord C) (zeroRecord C) (2 ^ 20) (pos + 640) 0 [] (by omega)
    have hmix : mixRecord k (zeroRecord C) (zeroRecord C) = zeroRecord C := by
      simp [mixRecord]
    rw [List.append_nil] at h1
    rw [List.take_zero, hmix] at h2
    have e2 : (zeroFile p [zeroRecord C, zeroRecord C] : P1File G1 G2).records.length = 1 + 1 := rfl
    rw [e2]
    simp only [verifyLoop, h1, h2, hz, h3]
    rfl

/-- **C47** (partial, phase 1): the process dies during `p1c`, leaving any strict prefix of the output behind. For an input
whose records carry their hashes (every accepted input does), and nondegenerate, collision-free records, `Verify` accepts
the partial output only if it lacks at most 32 zero bytes at its end; in particular never while a point or a nonzero byte
is missing. Missing for the full C47: the cases of `C17_zero_tail_accepted` and `C17_degenerate_accepted`. -/
theorem C47_phase1_partial (par par' : Par) (pol : MsmPolicy) (b b' : Nat) (hb : 2 ≤ b) (hb' : 0 < b') (rnd : Rand F)
    (vr : VerifyRand F) (f : P1File G1 G2) (hf : f.WF) (hp : 1 ≤ f.power.toNat) (hc : f.records.length < 65535)
    (hsha : ∀ r ∈ f.records, r.hash = C.sha (recordBody C r)) (junk : Bytes) (tr : Option Bytes) :
    ∃ (g : P1File G1 G2) (r : Contribution G1 G2),
      contribute C par b rnd (f.encode C ++ junk) = (.ok r.hash, g.encode C) ∧ g.records = f.records ++ [r] ∧
      (CleanRecords C (f.records ++ [r]) → ∀ n, n < (g.encode C).length →
        verify C par' pol b' vr ((g.encode C).take n) tr = .ok () →
        (g.encode C).length - n ≤ 32 ∧ ∀ x ∈ (g.encode C).drop n, x = 0) := by
  obtain ⟨g, r, h1, h2, -, h3, -, -, -, h4, -⟩ := C10_contribute_preserves_history hC par b hb rnd f hf hp hc
  refine ⟨g, r, h1 junk, h3, ?_⟩
  intro hcl n hn h
  rw [← h3] at hcl
  obtain ⟨a1, a2⟩ := truncated_only_zeros hC par' pol b' hb' vr g h2 hcl (by
    rw [h3]
    intro q hq
    rcases List.mem_append.mp hq with hq | hq
    · exact hsha q hq
    · rw [List.mem_singleton.mp hq]; exact h4) tr n hn h
  refine ⟨a1, ?_⟩
  rw [a2]
  intro x hx
  exact List.eq_of_mem_replicate hx

end

/-! ### examples -/

namespace Toy

/-- a third contributor's draws -/
def rnd'' : Rand K := { rnd' with sTau := 2 }

/-- one contribution -/
def one : P1File K K := (P1File.init curve 1).contribute curve rnd

theorem one_wf : one.WF := (init_wf curve 1 (by decide)).contribute lawful _ (by decide)

/-- two contributions without a collision of the toy hashes -/
def clean : P1File K K := (P1File.init curve 1).ceremony curve [rnd, rnd'']

theorem clean_wf : clean.WF :=
  (ceremony_inv lawful [rnd, rnd''] (P1File.init curve 1) (init_wf curve 1 (by decide))
    (init_powers curve 1).regular (by decide)).1

theorem clean_accepted : verify curve par .strict batchSize vr (clean.encode curve) none = .ok () := by
  have := ZkSetup.honest_accepted lawful clean clean_wf _ ((tracks_genesis 1 (by decide)).ceremony _)
    (by simp [clean, P1File.ceremony, P1File.contribute, P1File.update]) par batchSize (by decide) vr none rfl []
  rwa [List.append_nil] at this

theorem clean_records : CleanRecords curve clean.records :=
  ⟨by decide +kernel, by decide +kernel, by decide +kernel, by decide +kernel⟩

/-- one contribution whose hash ends in a zero byte -/
def zeroTail : P1File K K := (P1File.init curve 1).contribute curve ⟨3, 5, 8, 11, 2, 3⟩

theorem zeroTail_wf : zeroTail.WF := (init_wf curve 1 (by decide)).contribute lawful _ (by decide)

theorem zeroTail_accepted : verify curve par .strict batchSize vr (zeroTail.encode curve) none = .ok () := by
  have := ZkSetup.honest_accepted lawful zeroTail zeroTail_wf _ ((tracks_genesis 1 (by decide)).ceremony
    [⟨3, 5, 8, 11, 2, 3⟩]) (by simp [zeroTail, P1File.contribute, P1File.update]) par batchSize (by decide) vr
    none rfl []
  rwa [List.append_nil] at this

end Toy

example := C17_length_partial Toy.lawful Toy.par .strict batchSize (by decide) Toy.vr _ none Toy.clean_accepted

-- the hypotheses hold for every prefix; here the one without the last record
example := C17_truncated_partial Toy.lawful Toy.par Toy.par .strict .strict batchSize batchSize (by decide) (by decide)
  Toy.vr Toy.vr Toy.clean Toy.clean_wf Toy.clean_records none none Toy.clean_accepted 1059 (by decide +kernel)

-- so it is rejected
example : verify Toy.curve Toy.par .strict batchSize Toy.vr ((Toy.clean.encode Toy.curve).take 1059) none ≠ .ok () :=
  fun h => absurd (C17_truncated_partial Toy.lawful Toy.par Toy.par .strict .strict batchSize batchSize (by decide)
    (by decide) Toy.vr Toy.vr Toy.clean Toy.clean_wf Toy.clean_records none none Toy.clean_accepted 1059
    (by decide +kernel) h).1 (by decide +kernel)

example : verify Toy.curve Toy.par .strict batchSize Toy.vr
    ((Toy.zeroTail.encode Toy.curve).take ((Toy.zeroTail.encode Toy.curve).length - 1)) none = .ok () :=
  C17_zero_tail_accepted Toy.lawful Toy.par .strict batchSize (by decide) Toy.vr Toy.zeroTail Toy.zeroTail_wf none
    Toy.zeroTail_accepted (by decide +kernel) 1 (by decide) (by decide +kernel)

example := C17_degenerate_accepted Toy.lawful 3 (by decide)

example := C47_phase1_partial Toy.lawful Toy.par Toy.par .strict batchSize batchSize (by decide) (by decide) Toy.rnd''
  Toy.vr Toy.one Toy.one_wf (by decide) (by decide) (by decide +kernel) [1] none

-- the collision hypothesis is met by that contribution
example : Toy.clean = Toy.one.contribute Toy.curve Toy.rnd'' ∧ CleanRecords Toy.curve Toy.clean.records :=
  ⟨rfl, Toy.clean_records⟩

end ZkSetup
