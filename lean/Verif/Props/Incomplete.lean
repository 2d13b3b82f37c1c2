import Verif.Proofs.Incomplete2
import Verif.Props.Counts
/-
C61: contributing to a file that is cut off.
-/
set_option linter.unusedSectionVars false

namespace ZkSetup

section
variable {F G1 G2 GT : Type} [Field F] [AddCommGroup G1] [Module F G1] [AddCommGroup G2]
  [Module F G2] [AddCommGroup GT] [Module F GT] [DecidableEq G1] [DecidableEq G2] [DecidableEq GT]
variable {C : Curve F G1 G2 GT} (hC : C.Lawful)
include hC

/-- **C61** (partial), phase 1, for arbitrary input: if `Contribute` reports success, the input has a header `p c₁ c₀`, all parameters for
the power `p`, and all records it counts but for at most 31 bytes. Missing for the full C61: these 31 bytes, see `C61_phase1_false`. -/
theorem C61_phase1_length_partial (par : Par) (b : Nat) (hb : 0 < b) (rnd : Phase1.Rand F) (input hash : Bytes)
    (h : (Phase1.contribute C par b rnd input).1 = .ok hash) :
    ∃ (p c1 c0 : UInt8) (rest : Bytes), input = p :: c1 :: c0 :: rest ∧ p.toNat ≤ 62 ∧ 192 * 2 ^ p.toNat + 32 ≤ rest.length ∧
      (0 < 256 * c1.toNat + c0.toNat →
        192 * 2 ^ p.toNat + 32 + 640 * (256 * c1.toNat + c0.toNat) < rest.length + 32) := by
  unfold Phase1.contribute at h
  cases hh : Phase1.Header.readFrom.run (Rd.file input 0) with
  | mk res rd =>
    rw [hh] at h
    cases res with
    | error e => simp at h
    | ok header =>
      simp only at h
      obtain ⟨a1, a2, a3⟩ := contributeBody_takes hC par b hb rnd header rd.rest hash _ (Prod.ext h rfl)
      have hpos : 0 < 192 * 2 ^ header.power.toNat + 32 := by omega
      match input with
      | [] => simp [Phase1.Header.readFrom, Rd.file, Rd.read, Go.bind_run] at hh
      | [x] => simp [Phase1.Header.readFrom, Rd.file, Rd.read, Go.bind_run, Rd.adv, Rd.block] at hh
      | [x, y] =>
        simp [Phase1.Header.readFrom, Rd.file, Rd.read, Go.bind_run, Rd.adv, Rd.block] at hh
        rw [← hh.2] at a2
        simp at a2
      | x :: y :: z :: rest =>
        simp [Phase1.Header.readFrom, Rd.file, Rd.read, Go.bind_run, Rd.adv, Rd.block] at hh
        obtain ⟨rfl, rfl⟩ := hh
        simp only [getUint16_toNat] at a1 a2 a3
        exact ⟨x, y, z, rest, rfl, a1, a2, a3⟩

/-- **C61**, phase 1: exactly which strict prefixes of a well-formed file `Contribute` accepts as input: those that end in
the hash of the last record, after at least one of its bytes. -/
theorem C61_phase1_exact (par : Par) (b : Nat) (hb : 2 ≤ b) (rnd : Phase1.Rand F) (f : P1File G1 G2) (hf : f.WF)
    (hp : 1 ≤ f.power.toNat) (n : Nat) (hn : n < (f.encode C).length) :
    (∃ hash, (Phase1.contribute C par b rnd ((f.encode C).take n)).1 = .ok hash) ↔
      f.records ≠ [] ∧ (f.encode C).length - 32 < n := by
  have hpl := params_length hC f hf
  have hrl := records_length hC f.records hf.hash
  have henc : f.encode C = [f.power, UInt8.ofNat (f.records.length / 256), UInt8.ofNat (f.records.length % 256)]
      ++ f.params C ++ f.records.flatMap (recordBytes C) := rfl
  have hlen : (f.encode C).length = 3 + 192 * 2 ^ f.power.toNat + 32 + 640 * f.records.length := by
    rw [henc, List.length_append, hpl, hrl]
  have hcnt := hf.count
  constructor
  · rintro ⟨hash, h⟩
    obtain ⟨p, c1, c0, rest, e, -, h2, h3⟩ := C61_phase1_length_partial hC par b (by omega) rnd _ hash h
    have hl := congrArg List.length e
    rw [List.length_take] at hl
    simp only [List.length_cons] at hl
    obtain ⟨m, rfl⟩ : ∃ m, n = m + 3 := ⟨n - 3, by omega⟩
    rw [henc] at e
    simp only [List.cons_append, List.nil_append, List.take_succ_cons, List.cons.injEq] at e
    obtain ⟨rfl, rfl, rfl, -⟩ := e
    have hc : 256 * (UInt8.ofNat (f.records.length / 256)).toNat + (UInt8.ofNat (f.records.length % 256)).toNat
        = f.records.length := by
      simp only [UInt8.toNat_ofNat']
      omega
    rw [hc] at h3
    have hne : f.records ≠ [] := by
      rintro h0
      rw [h0] at hlen
      simp only [List.length_nil] at hlen
      omega
    have := h3 (List.length_pos_iff.mpr hne)
    exact ⟨hne, by omega⟩
  · rintro ⟨hne, h⟩
    have hr0 : 0 < f.records.length := List.length_pos_iff.mpr hne
    obtain ⟨k, hk0, hk, rfl⟩ : ∃ k, 0 < k ∧ k < 32 ∧ n = (f.encode C).length - (32 - k) :=
      ⟨32 - ((f.encode C).length - n), by omega, by omega, by omega⟩
    rw [contribute_hash_cut hC par b hb rnd f hf hp hne k hk0 hk]
    have hwf : ({ f with records := cutLast k f.records } : P1File G1 G2).WF :=
      ⟨hf.power, hf.tauG1, hf.alphaG1, hf.betaG1, hf.tauG2, by simpa [cutLast_length] using hf.count,
        cutLast_hash k (by omega) _ hf.hash⟩
    obtain ⟨t1, a1, b1, t2, h', -⟩ := contribute_bytes hC par b hb rnd _ hwf hp
    have := h' []
    rw [List.append_nil] at this
    exact ⟨_, by rw [this]⟩

/-- **C61, negation**, phase 1: let `k` bytes of the last hash of a well-formed file be left, 1 ≤ k ≤ 31. `Contribute` reports success. It
writes a file in which zeros stand for the missing bytes, followed by the new contribution. If the last record carries its hash (in
every accepted file it does) and the missing bytes are not all zero, that output is never accepted: the contributor's work is lost. -/
theorem C61_phase1_false (par : Par) (b : Nat) (hb : 2 ≤ b) (rnd : Phase1.Rand F) (f : P1File G1 G2) (hf : f.WF)
    (hp : 1 ≤ f.power.toNat) (hc : f.records.length < 65535) (pre : List (Phase1.Contribution G1 G2))
    (r : Phase1.Contribution G1 G2) (hr : f.records = pre ++ [r]) (k : Nat) (hk0 : 0 < k) (hk : k < 32) :
    ∃ (g : P1File G1 G2) (q : Phase1.Contribution G1 G2),
      Phase1.contribute C par b rnd ((f.encode C).take ((f.encode C).length - (32 - k))) = (.ok q.hash, g.encode C) ∧
      g.records = pre ++ [{ r with hash := r.hash.take k ++ List.replicate (32 - k) 0 }] ++ [q] ∧
      (r.hash = C.sha (recordBody C r) → r.hash.drop k ≠ List.replicate (32 - k) 0 →
        ∀ (par' : Par) (pol : Phase1.MsmPolicy) (b' : Nat) (_ : 0 < b') (vr : Phase1.VerifyRand F) (junk : Bytes) (tr : Option Bytes),
          Phase1.verify C par' pol b' vr (g.encode C ++ junk) tr ≠ .ok ()) := by
  have hne : f.records ≠ [] := by rw [hr]; simp
  have hwf : ({ f with records := cutLast k f.records } : P1File G1 G2).WF :=
    ⟨hf.power, hf.tauG1, hf.alphaG1, hf.betaG1, hf.tauG2, by simpa [cutLast_length] using hf.count,
      cutLast_hash k (by omega) _ hf.hash⟩
  obtain ⟨g, q, h1, h2, -, h3, -⟩ := C10_contribute_preserves_history hC par b hb rnd _ hwf hp (by simpa [cutLast_length] using hc)
  have h1' := h1 []
  rw [List.append_nil] at h1'
  simp only [hr, cutLast_append] at h3
  refine ⟨g, q, by rw [contribute_hash_cut hC par b hb rnd f hf hp hne k hk0 hk, h1'], h3, ?_⟩
  intro hsha hz par' pol b' hb' vr junk tr hacc
  obtain ⟨prev, _, hch, _⟩ := (verify_bytes hC par' pol b' hb' vr g h2 junk tr).mp hacc
  have := chain_hashes hch { r with hash := cutHash k r.hash } (by rw [h3]; simp)
  refine cutHash_ne k (by omega) r.hash (hf.hash r (by rw [hr]; simp)) hz ?_
  rw [hsha] at this ⊢
  exact this

variable {H : Phase2.HeaderCodec} (hH : H.Lawful)
include hH

/-- **C61** (partial), phase 2: if `Contribute` reports success on a prefix of a well-formed file, the header and the parameters are
complete. -/
theorem C61_phase2_params_partial (par : Par) (b : Nat) (hb : 0 < b) (rnd : Phase2.Rand F) (f : P2File G1 G2) (hf : f.WF) (n : Nat)
    (hash : Bytes) (h : (Phase2.contribute C H par b rnd ((f.encode C H).take n)).1 = .ok hash) :
    (H.enc f.header).length + 96 + 32 * (f.domain - 1) + 32 * f.witness ≤ n := by
  have := contribute2_takes hC hH par b hb rnd f hf n hash h
  rw [List.length_append, params2_length hC, hf.z, hf.pkk] at this
  omega

omit hH in
theorem encode2_take (f : P2File G1 G2) (n : Nat) (hn : (H.enc f.header ++ f.params C).length ≤ n) :
    (f.encode C H).take n = H.enc f.header ++ f.params C
      ++ (f.records.flatMap (record2Bytes C)).take (n - (H.enc f.header ++ f.params C).length) := by
  rw [P2File.encode, List.take_append, List.take_of_length_le hn]

/-- **C61**, phase 2: exactly which strict prefixes `Contribute` accepts, for a well-formed file without a hash across a buffer boundary. -/
theorem C61_phase2_exact (par : Par) (b : Nat) (hb : 0 < b) (rnd : Phase2.Rand F) (f : P2File G1 G2) (hf : f.WF)
    (hs : f.NoStraddle H) (n : Nat) (hn : n < (f.encode C H).length) :
    (∃ hash, (Phase2.contribute C H par b rnd ((f.encode C H).take n)).1 = .ok hash) ↔
      f.records ≠ [] ∧ (f.encode C H).length - 32 < n := by
  have hlen : (f.encode C H).length = (H.enc f.header ++ f.params C).length + 192 * f.records.length := by
    rw [P2File.encode, List.length_append, records2_length hC _ hf.hash]
  have hfit : ∀ j < f.records.length, Fits 4096
      ((H.enc f.header).length + 32 + 64 + 32 * f.z.length + 32 * f.pkk.length + 192 * j + 160) :=
    fun j hj => .inr (hs j hj)
  constructor
  · rintro ⟨hash, h⟩
    have hpar := contribute2_takes hC hH par b hb rnd f hf n hash h
    have hne : f.records ≠ [] := by
      rintro h0
      rw [h0] at hlen
      simp only [List.length_nil] at hlen
      omega
    refine ⟨hne, ?_⟩
    by_contra hlt
    rw [encode2_take hC f n hpar, contribute2_tail hC hH par b hb rnd f hf] at h
    split at h
    · rename_i c s' hcopy
      exact copy2_short hC f.records hf.hash _ _ _ _ _ hfit (by omega) _ _ hcopy
    · simp at h
  · rintro ⟨hne, h⟩
    have hr0 : 0 < f.records.length := List.length_pos_iff.mpr hne
    obtain ⟨k, hk0, hk, rfl⟩ : ∃ k, 0 < k ∧ k < 32 ∧ n = (f.encode C H).length - (32 - k) :=
      ⟨32 - ((f.encode C H).length - n), by omega, by omega, by omega⟩
    rw [encode2_take hC f _ (by omega), contribute2_tail hC hH par b hb rnd f hf]
    have e : (f.encode C H).length - (32 - k) - (H.enc f.header ++ f.params C).length = 192 * f.records.length - (32 - k) := by
      omega
    rw [e]
    obtain ⟨rd', hcopy⟩ := copy2_cut hC k hk0 hk f.records hne hf.hash Phase2.Contribution.zero 4096 _ hfit
      (H.enc (f.contribute C rnd).header ++ (f.contribute C rnd).params C)
    rw [hcopy]
    exact ⟨_, rfl⟩

/-- **C61, negation**, phase 2: as `C61_phase1_false`. -/
theorem C61_phase2_false (par : Par) (b : Nat) (hb : 0 < b) (rnd : Phase2.Rand F) (f : P2File G1 G2) (hf : f.WF)
    (hs : f.NoStraddle H) (hc : f.records.length + 1 < 2 ^ 63 - 1) (pre : List (Phase2.Contribution G1 G2))
    (r : Phase2.Contribution G1 G2) (hr : f.records = pre ++ [r]) (k : Nat) (hk0 : 0 < k) (hk : k < 32) :
    ∃ (g : P2File G1 G2) (q : Phase2.Contribution G1 G2),
      Phase2.contribute C H par b rnd ((f.encode C H).take ((f.encode C H).length - (32 - k))) = (.ok q.hash, g.encode C H) ∧
      g.records = pre ++ [{ r with hash := r.hash.take k ++ List.replicate (32 - k) 0 }] ++ [q] ∧
      (g.NoStraddle H → r.hash = C.sha (record2Body C r) → r.hash.drop k ≠ List.replicate (32 - k) 0 →
        ∀ (par' : Par) (b' : Nat) (_ : 0 < b') (vr : Phase2.VerifyRand F) (o : P2File G1 G2) (_ : o.WF) (junk junk' : Bytes),
          Phase2.verify C H par' b' vr (g.encode C H ++ junk) (o.encode C H ++ junk') ≠ .ok ()) := by
  have hne : f.records ≠ [] := by rw [hr]; simp
  have hlen : (f.encode C H).length = (H.enc f.header ++ f.params C).length + 192 * f.records.length := by
    rw [P2File.encode, List.length_append, records2_length hC _ hf.hash]
  have hr0 : 0 < f.records.length := List.length_pos_iff.mpr hne
  have hwf : ({ f with records := cutLast2 k f.records } : P2File G1 G2).WF :=
    ⟨hf.wires, hf.pub, hf.privateCommitted, hf.constraints, hf.domain, hf.witness, hf.domain_pos, hf.z, hf.pkk,
      by simpa [cutLast2_length] using hf.count, cutLast2_hash k (by omega) _ hf.hash⟩
  have hhdr : ({ f with records := cutLast2 k f.records } : P2File G1 G2).header = f.header := by
    simp [P2File.header, cutLast2_length]
  have hs' : ({ f with records := cutLast2 k f.records } : P2File G1 G2).NoStraddle H := by
    intro j hj
    simp only [cutLast2_length] at hj
    have := hs j hj
    simpa only [P2File.hashPos, hhdr] using this
  have hfit : ∀ j < f.records.length, Fits 4096
      ((H.enc f.header).length + 32 + 64 + 32 * f.z.length + 32 * f.pkk.length + 192 * j + 160) :=
    fun j hj => .inr (hs j hj)
  have hg := contribute2_spec hC hH par b hb rnd _ hwf hs' []
  rw [List.append_nil] at hg
  have heq : Phase2.contribute C H par b rnd ((f.encode C H).take ((f.encode C H).length - (32 - k)))
      = Phase2.contribute C H par b rnd (({ f with records := cutLast2 k f.records } : P2File G1 G2).encode C H) := by
    have he : ({ f with records := cutLast2 k f.records } : P2File G1 G2).encode C H
        = H.enc f.header ++ f.params C ++ (cutLast2 k f.records).flatMap (record2Bytes C) := by
      rw [P2File.encode, hhdr]; rfl
    have e : (f.encode C H).length - (32 - k) - (H.enc f.header ++ f.params C).length = 192 * f.records.length - (32 - k) := by
      omega
    rw [he, encode2_take hC f _ (by omega), contribute2_tail hC hH par b hb rnd f hf, contribute2_tail hC hH par b hb rnd f hf, e]
    obtain ⟨rd', hcopy⟩ := copy2_cut hC k hk0 hk f.records hne hf.hash Phase2.Contribution.zero 4096 _ hfit
      (H.enc (f.contribute C rnd).header ++ (f.contribute C rnd).params C)
    have hcopy' := copyContributions_spec hC (cutLast2 k f.records) Phase2.Contribution.zero 4096 _ []
      (H.enc (f.contribute C rnd).header ++ (f.contribute C rnd).params C) (cutLast2_hash k (by omega) _ hf.hash)
      (fun j hj => hfit j (by rwa [cutLast2_length] at hj))
    rw [List.append_nil, cutLast2_length] at hcopy'
    rw [hcopy, hcopy']
  have hgr : (({ f with records := cutLast2 k f.records } : P2File G1 G2).contribute C rnd).records
      = cutLast2 k f.records ++ [newRecord2 C rnd (lastHash2 (cutLast2 k f.records)) (rnd.delta • f.delta1)] := rfl
  refine ⟨({ f with records := cutLast2 k f.records } : P2File G1 G2).contribute C rnd,
    newRecord2 C rnd (lastHash2 (cutLast2 k f.records)) (rnd.delta • f.delta1), ?_, ?_, ?_⟩
  · rw [heq, hg]
    simp [hgr, lastHash2]
  · rw [hgr, hr, cutLast2_append]; rfl
  · intro hgs hsha hz par' b' hb' vr o ho junk junk' hacc
    have hgwf := contribute2_wf hC _ hwf rnd (by simpa [cutLast2_length] using hc)
    obtain ⟨-, -, -, -, -, ⟨xs, hch⟩, -⟩ := (verify2_iff hC hH par' b' hb' vr _ o hgwf ho hgs junk junk').mp hacc
    have := chain2_hashes _ _ _ _ hch { r with hash := cutHash k r.hash } (by rw [hgr, hr, cutLast2_append]; simp)
    refine cutHash_ne k (by omega) r.hash (hf.hash r (by rw [hr]; simp)) hz ?_
    rw [hsha] at this ⊢
    exact this

end

/-! ### examples -/

-- the hypothesis holds for every successful contribution, e.g. to a complete file
example : ∃ hash, (Phase1.contribute Toy.curve Toy.par Phase1.batchSize Toy.rnd'' (Toy.one.encode Toy.curve ++ [])).1 = .ok hash := by
  obtain ⟨g, r, h, -⟩ := C10_contribute_preserves_history Toy.lawful Toy.par Phase1.batchSize (by decide) Toy.rnd'' Toy.one
    Toy.one_wf (by decide) (by decide)
  exact ⟨_, congrArg Prod.fst (h [])⟩

-- without the last record, or without its hash: refused
example : ¬ ∃ hash, (Phase1.contribute Toy.curve Toy.par Phase1.batchSize Toy.rnd ((Toy.clean.encode Toy.curve).take 1059)).1 = .ok hash := by
  rw [C61_phase1_exact Toy.lawful Toy.par Phase1.batchSize (by decide) Toy.rnd Toy.clean Toy.clean_wf (by decide) 1059 (by decide +kernel)]
  decide +kernel

-- without one byte: success is reported, and the output is never accepted
example := C61_phase1_false Toy.lawful Toy.par Phase1.batchSize (by decide) Toy.rnd'' Toy.one Toy.one_wf (by decide) (by decide) []
  (Toy.one.records.headD Phase1.Contribution.zero) (by decide +kernel) 31 (by decide) (by decide)

example : (Toy.one.records.headD Phase1.Contribution.zero).hash
      = Toy.curve.sha (recordBody Toy.curve (Toy.one.records.headD Phase1.Contribution.zero)) ∧
    (Toy.one.records.headD Phase1.Contribution.zero).hash.drop 31 ≠ List.replicate (32 - 31) 0 := by decide +kernel

-- phase 2: the file with one contribution
example : ∃ hash, (Phase2.contribute Toy.curve Gob.headerCodec Toy.par Phase1.batchSize Toy.p2rnd'
    ((Toy.p2.contribute Toy.curve Toy.p2rnd).encode Toy.curve Gob.headerCodec ++ [])).1 = .ok hash := by
  rw [contribute2_spec Toy.lawful Gob.lawful Toy.par Phase1.batchSize (by decide) Toy.p2rnd' _
    (contribute2_wf Toy.lawful _ Toy.p2_wf _ (by decide)) (by decide +kernel) []]
  exact ⟨_, rfl⟩

example := C61_phase2_params_partial Toy.lawful Gob.lawful Toy.par Phase1.batchSize (by decide) Toy.p2rnd' _
  (contribute2_wf Toy.lawful Toy.p2 Toy.p2_wf Toy.p2rnd (by decide))

example := fun n => C61_phase2_exact Toy.lawful Gob.lawful Toy.par Phase1.batchSize (by decide) Toy.p2rnd' _
  (contribute2_wf Toy.lawful Toy.p2 Toy.p2_wf Toy.p2rnd (by decide)) (by decide +kernel) n

-- a file without contributions that lacks its last byte is refused
example (n : Nat) (hn : n < (Toy.p2.encode Toy.curve Gob.headerCodec).length) :
    ¬ ∃ hash, (Phase2.contribute Toy.curve Gob.headerCodec Toy.par Phase1.batchSize Toy.p2rnd
      ((Toy.p2.encode Toy.curve Gob.headerCodec).take n)).1 = .ok hash := by
  rw [C61_phase2_exact Toy.lawful Gob.lawful Toy.par Phase1.batchSize (by decide) Toy.p2rnd Toy.p2 Toy.p2_wf (by decide +kernel) n hn]
  exact fun h => h.1 (by decide +kernel)

example := C61_phase2_false Toy.lawful Gob.lawful Toy.par Phase1.batchSize (by decide) Toy.p2rnd' (Toy.p2.contribute Toy.curve Toy.p2rnd)
  (contribute2_wf Toy.lawful Toy.p2 Toy.p2_wf Toy.p2rnd (by decide)) (by decide +kernel) (by decide) []
  (newRecord2 Toy.curve Toy.p2rnd [] (Toy.p2rnd.delta • Toy.p2.delta1)) (by decide +kernel) 31 (by decide) (by decide)

example : (newRecord2 Toy.curve Toy.p2rnd [] (Toy.p2rnd.delta • Toy.p2.delta1)).hash
      = Toy.curve.sha (record2Body Toy.curve (newRecord2 Toy.curve Toy.p2rnd [] (Toy.p2rnd.delta • Toy.p2.delta1))) ∧
    (newRecord2 Toy.curve Toy.p2rnd [] (Toy.p2rnd.delta • Toy.p2.delta1)).hash.drop 31 ≠ List.replicate (32 - 31) 0 := by
  decide +kernel

end ZkSetup
