import Verif.Props.Attest
/-
C70: a rejected verification names the record at fault.
-/
set_option linter.unusedSectionVars false

namespace ZkSetup
namespace Console

/-- Run on `s`, the program prints exactly the lines `L` among those with hashes, and if `err` holds it fails. -/
def Shows {σ α : Type} (err : Prop) (L : List String) (x : Go (St σ) α) (s : St σ) : Prop :=
  linesWith verifying (x.run s).2.out = linesWith verifying s.out ++ L ∧ (err → ∃ e, (x.run s).1 = .error e)

section
variable {σ α β : Type} {err : Prop} {L : List String}

theorem Shows.ok {x : Go σ α} {k : α → Go (St σ) β} {st st' : σ} {a : α} {out : List String} (hx : x.run st = (.ok a, st'))
    (h : Shows err L (k a) ⟨st', out⟩) : Shows err L (Console.quiet x >>= k) ⟨st, out⟩ := by
  unfold Shows at h ⊢
  rw [Go.bind_ok (quiet_ok hx)]
  exact h

theorem Shows.check {b : Bool} {m : String} {k : Unit → Go (St σ) β} {s : St σ}
    (h : b = true → Shows err L (k ()) s) : Shows err (if b then L else []) (Console.quiet (Go.lift (Phase1.check b m)) >>= k) s := by
  unfold Shows at h ⊢
  cases b with
  | true => rw [Go.bind_ok (a := ()) (s' := s) rfl]; simpa using h rfl
  | false => rw [Go.bind_error (e := .err m) (s' := s) rfl]; simp

theorem Shows.checked {x : Go σ Unit} {b : Bool} {m : String} {k : Unit → Go (St σ) β} {st st' : σ} {out : List String}
    (hx : x.run st = (Phase1.check b m, st')) (h : b = true → Shows err L (k ()) ⟨st', out⟩) :
    Shows err (if b then L else []) (Console.quiet x >>= k) ⟨st, out⟩ := by
  unfold Shows at h ⊢
  cases b with
  | true => rw [Go.bind_ok (quiet_ok (a := ()) hx)]; simpa using h rfl
  | false =>
    rw [Go.bind_error (e := .err m) (s' := ⟨st', out⟩) (by rw [quiet_run]; simp [hx, Phase1.check])]; simp

theorem Shows.println {l : String} {k : Unit → Go (St σ) β} {st : σ} {out : List String}
    (hl : verifying.toList.isPrefixOf l.toList = false) (h : ∀ out', Shows err L (k ()) ⟨st, out'⟩) :
    Shows err L (Console.println l >>= k) ⟨st, out⟩ := by
  have h := h (out ++ [l])
  unfold Shows at h ⊢
  rw [Go.bind_ok (println_run _ _)]
  refine ⟨?_, h.2⟩
  rw [h.1]
  simp [linesWith, hl, -String.reduceToList]

theorem Shows.hash {i : Nat} {b : Bytes} {k : Unit → Go (St σ) β} {st : σ} {out : List String}
    (h : Shows err L (k ()) ⟨st, out ++ [hashLine i b]⟩) : Shows err (hashLine i b :: L) (Console.println (hashLine i b) >>= k) ⟨st, out⟩ := by
  unfold Shows at h ⊢
  rw [Go.bind_ok (println_run _ _)]
  refine ⟨?_, h.2⟩
  rw [h.1]
  simp only [linesWith_append, List.append_assoc]
  rw [show linesWith verifying [hashLine i b] = [hashLine i b] by simp [linesWith, hashLine_starts, -String.reduceToList]]
  simp

theorem Shows.then {x : Go (St σ) α} {k : α → Go (St σ) β} {s : St σ} (h : Shows err L x s) (hk : ∀ a, Mute verifying (k a)) :
    Shows err L (x >>= k) s := by
  unfold Shows at h ⊢
  obtain ⟨h1, h2⟩ := h
  rw [Go.bind_run]
  cases hx : x.run s with
  | mk r s' =>
    rw [hx] at h1 h2
    cases r with
    | ok a => exact ⟨by rw [← h1]; exact hk a s', fun he => by obtain ⟨e, he⟩ := h2 he; cases he⟩
    | error e => exact ⟨h1, fun _ => ⟨e, rfl⟩⟩

theorem Shows.stop {x : Except Fail α} {k : α → Go (St σ) β} {s : St σ} {e : Fail} (h : x = .error e) :
    Shows err [] (Console.quiet (Go.lift x) >>= k) s := by
  subst h
  exact ⟨by rw [Go.bind_error (e := e) (s' := s) rfl]; simp, fun _ => ⟨e, by rw [Go.bind_error (e := e) (s' := s) rfl]⟩⟩

end
end Console

open Console

section
variable {F G1 G2 GT : Type} [Field F] [AddCommGroup G1] [Module F G1] [AddCommGroup G2]
  [Module F G2] [AddCommGroup GT] [Module F GT] [DecidableEq G1] [DecidableEq G2] [DecidableEq GT]

/-- The record `r` is the first that is not an update of the one before it: the records before it form a chain from `prev`. -/
def FirstBad (C : Curve F G1 G2 GT) (prev : Phase1.Contribution G1 G2) (pre : List (Phase1.Contribution G1 G2))
    (r : Phase1.Contribution G1 G2) : Prop :=
  ChainOk C prev pre ∧ ¬ ∃ τ α β, StepBy C (pre.getLast?.getD prev) r τ α β

/-- The same for phase 2, from `[δ]1` and the hash before the first record. -/
def FirstBad2 (C : Curve F G1 G2 GT) (d : G1) (pre : List (Phase2.Contribution G1 G2)) (r : Phase2.Contribution G1 G2) : Prop :=
  (∃ xs, Chain2By C d [] pre xs) ∧
    ¬ ∃ x, Step2By C ((pre.getLast?.map (·.delta)).getD d) ((pre.getLast?.map (·.hash)).getD []) r x

theorem p1VerifyLoop_shows {C : Curve F G1 G2 GT} (hC : C.Lawful) (rs : List (Phase1.Contribution G1 G2)) (hr : ∀ r ∈ rs, r.hash.length = 32) :
    ∀ (i : Nat) (cur prev : Phase1.Contribution G1 G2) (cap pos : Nat) (_ : cap = 0 ∨ (32 ∣ cap ∧ 32 ∣ pos)) (ys : Bytes) (out : List String),
    ChainOk C prev rs →
    Shows False (hashLines i (rs.map (·.hash))) (p1VerifyLoop C rs.length i cur prev ⟨cap, pos, rs.flatMap (recordBytes C) ++ ys⟩) ⟨(), out⟩ := by
  induction rs with
  | nil => intro i cur prev cap pos _ ys out _; exact ⟨by simp [p1VerifyLoop, hashLines], False.elim⟩
  | cons r rs ih =>
    intro i cur prev cap pos hal ys out hch
    simp only [List.length_cons, List.flatMap_cons, List.append_assoc, p1VerifyLoop, List.map_cons, hashLines]
    rw [record_read hC r cur cap pos _ (hr r (by simp)) hal]
    simp only [Phase1.isSpoiled]
    refine .hash (.ok (a := ()) (st' := ()) ?_ (.ok (a := ()) (st' := ()) rfl (ih (fun r' h => hr r' (by simp [h])) _ _ _ _ _ (by
      rcases hal with h | ⟨h1, h2⟩
      · exact .inl h
      · exact .inr ⟨h1, by omega⟩) _ _ hch.2)))
    rw [Go.lift_run, (verifyContribution_iff hC _ _).mpr hch.1]

theorem p1VerifyLoop_bad {C : Curve F G1 G2 GT} (hC : C.Lawful) (r : Phase1.Contribution G1 G2) (post : List (Phase1.Contribution G1 G2))
    (pre : List (Phase1.Contribution G1 G2)) (hr : ∀ q ∈ pre ++ r :: post, q.hash.length = 32) :
    ∀ (i : Nat) (cur prev : Phase1.Contribution G1 G2) (cap pos : Nat) (_ : cap = 0 ∨ (32 ∣ cap ∧ 32 ∣ pos)) (ys : Bytes) (out : List String),
    FirstBad C prev pre r →
    Shows True (hashLines i ((pre ++ [r]).map (·.hash)))
      (p1VerifyLoop C (pre ++ r :: post).length i cur prev ⟨cap, pos, (pre ++ r :: post).flatMap (recordBytes C) ++ ys⟩) ⟨(), out⟩ := by
  induction pre with
  | nil =>
    intro i cur prev cap pos hal ys out hbad
    simp only [List.nil_append, List.length_cons, List.flatMap_cons, List.append_assoc, p1VerifyLoop, List.map_cons, List.map_nil, hashLines]
    rw [record_read hC r cur cap pos _ (hr r (by simp)) hal]
    simp only
    refine .hash ?_
    have hno : Phase1.verifyContribution C r prev ≠ .ok () := fun h => hbad.2 (by simpa using (verifyContribution_iff hC _ _).mp h)
    cases hv : Phase1.verifyContribution C r prev with
    | ok u => exact (hno hv).elim
    | error e => exact .stop rfl
  | cons q pre ih =>
    intro i cur prev cap pos hal ys out hbad
    simp only [List.cons_append, List.length_cons, List.flatMap_cons, List.append_assoc, p1VerifyLoop, List.map_cons, hashLines]
    rw [record_read hC q cur cap pos _ (hr q (by simp)) hal]
    simp only [Phase1.isSpoiled]
    have h2 : FirstBad C q pre r := ⟨hbad.1.2, by
      have := hbad.2
      rw [List.getLast?_cons] at this
      simpa using this⟩
    have hal' : cap = 0 ∨ (32 ∣ cap ∧ 32 ∣ pos + 640) := by
      rcases hal with h | ⟨h1, h2⟩
      · exact .inl h
      · exact .inr ⟨h1, by omega⟩
    have hs := ih (fun r' h => hr r' (by simp at h ⊢; tauto)) (i + 1) q q cap (pos + 640) hal' ys (out ++ [hashLine i q.hash]) h2
    refine .hash (.ok (a := ()) (st' := ()) ?_ (.ok (a := ()) (st' := ()) rfl ?_))
    · rw [Go.lift_run, (verifyContribution_iff hC _ _).mpr hbad.1.1]
    · simpa only [List.flatMap_append, List.flatMap_cons, List.append_assoc] using hs

/-- What is printed, given what the loop over the records prints. -/
theorem p1Verify_shows {C : Curve F G1 G2 GT} (hC : C.Lawful) (par : Par) (pol : Phase1.MsmPolicy) (b : Nat) (hb : 0 < b)
    (vr : Phase1.VerifyRand F) (f : P1File G1 G2) (hf : f.WF) (junk : Bytes) (tr : Option Bytes) (prev : Phase1.Contribution G1 G2)
    (hp : Phase1.defaultContribution C tr = .ok prev) (err : Prop) (hs : List Bytes)
    (hl : ∀ pos ys out, 32 ∣ pos → Shows err (hashLines 0 hs)
      (p1VerifyLoop C f.records.length 0 Phase1.Contribution.zero prev ⟨2 ^ 20, pos, f.records.flatMap (recordBytes C) ++ ys⟩) ⟨(), out⟩) :
    trackedHashes (p1Verify C par pol b vr (f.encode C ++ junk) tr).2 = hs.map some ∧
      (err → ∃ e, (p1Verify C par pol b vr (f.encode C ++ junk) tr).1 = .error e) := by
  have hcnt := hf.count
  have henc : f.encode C ++ junk = Phase1.Header.writeTo ⟨f.power, UInt16.ofNat f.records.length⟩
      ++ (f.tauG1.flatMap C.c1.bytes ++ (f.alphaG1.flatMap C.c1.bytes ++ (f.betaG1.flatMap C.c1.bytes
      ++ (f.tauG2.flatMap C.c2.bytes ++ (C.c2.bytes f.betaG2
      ++ (f.records.flatMap (recordBytes C) ++ junk)))))) := by
    rw [header_encode _ _ hcnt]
    simp [P1File.encode, P1File.params]
  have hn : (UInt16.ofNat f.records.length).toNat = f.records.length := by simp; omega
  unfold p1Verify
  rw [henc, header_read]
  dsimp only
  generalize hfirst : "Power := " ++ toString f.power.toNat ++ " and  #Contributions := " ++ toString (UInt16.ofNat f.records.length).toNat
    = first
  have hf2 : linesWith verifying [first] = [] := by
    rw [← hfirst, linesWith, List.filter_cons_of_neg, List.filter_nil]
    simp only [String.toList_append, List.append_assoc]; exact Bool.false_ne_true
  have hspec := readSections_spec hC par pol b hb vr f hf (2 ^ 20) (f.records.flatMap (recordBytes C) ++ junk)
  unfold Rd.buffered
  generalize f.tauG1.flatMap C.c1.bytes ++ _ = bytes at hspec ⊢
  have m2 := (p1ReadSections_mute C par pol b vr (Phase1.goPow2 f.power)).2 ⟨⟨2 ^ 20, 0, bytes⟩, [first]⟩
  obtain ⟨l1, l2⟩ := p1ReadSections_like C par pol b vr (Phase1.goPow2 f.power) ⟨⟨2 ^ 20, 0, bytes⟩, [first]⟩
  rw [hspec] at l1 l2
  cases hx : (p1ReadSections C par pol b vr (Phase1.goPow2 f.power)).run ⟨⟨2 ^ 20, 0, bytes⟩, [first]⟩ with
  | mk r' s =>
    rw [hx] at m2 l1 l2
    rw [hf2] at m2
    obtain ⟨st, out⟩ := s
    dsimp only [id] at m2 l1 l2
    have l1' : r' = .ok (combos pol b vr.tau1 f.tauG1, combos pol b vr.alpha1 f.alphaG1, combos pol b vr.beta1 f.betaG1,
        combos pol b vr.tau2 f.tauG2, f.betaG2) := l1
    clear l1
    subst l1'
    rw [hn]
    subst l2
    have hsh : Shows err (hashLines 0 hs) (p1VerifyRest C tr f.records.length
        ⟨2 ^ 20, 32 * f.tauG1.length + 32 * f.alphaG1.length + 32 * f.betaG1.length + 64 * f.tauG2.length + 64,
          f.records.flatMap (recordBytes C) ++ junk⟩ (combos pol b vr.tau1 f.tauG1) (combos pol b vr.alpha1 f.alphaG1)
        (combos pol b vr.beta1 f.betaG1) (combos pol b vr.tau2 f.tauG2) f.betaG2) ⟨(), out⟩ := by
      unfold p1VerifyRest
      refine .ok (a := prev) (st' := ()) (by rw [Go.lift_run, hp]) (.then (hl _ _ _ (by omega)) fun _ => ?_)
      mute
    obtain ⟨s1, s2⟩ := hsh
    dsimp only at s1
    rw [m2, List.nil_append] at s1
    refine ⟨?_, s2⟩
    have ht := tracked_upto (m := hs.length) (hs := hs) (by rw [s1, List.take_of_length_le (by simp [hashLines_length])])
    rw [ht, List.take_of_length_le (by simp)]

/-- **C70**, phase 1: a file in which some record is not an update of the one before it (that of the transformed file, or the generators,
for the first) is rejected, whatever its points, and the hashes printed are those of the records up to and including the first such record: the last
hash printed names the record at fault. -/
theorem C70_p1_names {C : Curve F G1 G2 GT} (hC : C.Lawful) (par : Par) (pol : Phase1.MsmPolicy) (b : Nat) (hb : 0 < b)
    (vr : Phase1.VerifyRand F) (f : P1File G1 G2) (hf : f.WF) (junk : Bytes) (tr : Option Bytes) (prev r : Phase1.Contribution G1 G2)
    (hp : Phase1.defaultContribution C tr = .ok prev) (pre post : List (Phase1.Contribution G1 G2)) (hrec : f.records = pre ++ r :: post)
    (hbad : FirstBad C prev pre r) (res : Except Fail Unit) (lines : List String)
    (h : p1Verify C par pol b vr (f.encode C ++ junk) tr = (res, lines)) :
    (∃ e, res = .error e) ∧ trackedHashes lines = (pre ++ [r]).map (fun r => some r.hash) := by
  have := p1Verify_shows hC par pol b hb vr f hf junk tr prev hp True ((pre ++ [r]).map (·.hash)) (fun pos ys out hpos => by
    rw [hrec]
    exact p1VerifyLoop_bad hC r post pre (by rw [← hrec]; exact hf.hash) _ _ _ _ _ (.inr ⟨by decide, hpos⟩) _ _ hbad)
  rw [h] at this
  exact ⟨this.2 trivial, by rw [this.1, List.map_map]; rfl⟩

/-- **C70**, phase 1: if every record is an update of the one before it, all hashes are printed, also if the file is rejected for its points. -/
theorem C70_p1_all {C : Curve F G1 G2 GT} (hC : C.Lawful) (par : Par) (pol : Phase1.MsmPolicy) (b : Nat) (hb : 0 < b)
    (vr : Phase1.VerifyRand F) (f : P1File G1 G2) (hf : f.WF) (junk : Bytes) (tr : Option Bytes) (prev : Phase1.Contribution G1 G2)
    (hp : Phase1.defaultContribution C tr = .ok prev) (hch : ChainOk C prev f.records) (res : Except Fail Unit) (lines : List String)
    (h : p1Verify C par pol b vr (f.encode C ++ junk) tr = (res, lines)) :
    trackedHashes lines = f.records.map (fun r => some r.hash) := by
  have := p1Verify_shows hC par pol b hb vr f hf junk tr prev hp False (f.records.map (·.hash)) (fun pos ys out hpos =>
    p1VerifyLoop_shows hC _ hf.hash _ _ _ _ _ (.inr ⟨by decide, hpos⟩) _ _ hch)
  rw [h] at this
  rw [this.1, List.map_map]; rfl

theorem p2VerifyLoop_shows {C : Curve F G1 G2 GT} (hC : C.Lawful) (rs : List (Phase2.Contribution G1 G2)) : ∀ (i : Nat)
    (c0 : Phase2.Contribution G1 G2) (d : G1) (h : Bytes) (cap pos : Nat) (ys : Bytes) (ro : Rd) (out : List String) (xs : List F),
    (∀ r ∈ rs, r.hash.length = 32) → (∀ j < rs.length, Fits cap (pos + 192 * j + 160)) → Chain2By C d h rs xs →
    Shows False (hashLines i (rs.map (·.hash))) (p2VerifyLoop C rs.length i c0 d h) ⟨(⟨cap, pos, rs.flatMap (record2Bytes C) ++ ys⟩, ro), out⟩ := by
  induction rs with
  | nil => intro i c0 d h cap pos ys ro out _ _ _ _; exact ⟨by simp [p2VerifyLoop, hashLines], False.elim⟩
  | cons r rs ih =>
    intro i c0 d h cap pos ys ro out xs hl hf hch
    cases xs with
    | nil => exact hch.elim
    | cons x xs =>
    have hread := record2_read hC r cap pos (rs.flatMap (record2Bytes C) ++ ys) (hl r (by simp)) (by simpa using hf 0 (by simp))
    simp only [List.length_cons, List.flatMap_cons, List.append_assoc, p2VerifyLoop, List.map_cons, hashLines]
    refine .ok (onInput_ok hread) (.hash (.ok (a := ()) (by rw [Go.lift_run, (verifyContribution2_iff hC _ _ _).mpr ⟨x, hch.1⟩]) ?_))
    exact ih _ _ _ _ _ _ _ _ _ _ (fun r' h => hl r' (by simp [h])) (fun j hj => by
      have := hf (j + 1) (by simpa using hj)
      rwa [show pos + 192 + 192 * j + 160 = pos + 192 * (j + 1) + 160 by ring]) hch.2

theorem p2VerifyLoop_bad {C : Curve F G1 G2 GT} (hC : C.Lawful) (r : Phase2.Contribution G1 G2) (post : List (Phase2.Contribution G1 G2))
    (pre : List (Phase2.Contribution G1 G2)) : ∀ (i : Nat)
    (c0 : Phase2.Contribution G1 G2) (d : G1) (h : Bytes) (cap pos : Nat) (ys : Bytes) (ro : Rd) (out : List String) (xs : List F),
    (∀ q ∈ pre ++ r :: post, q.hash.length = 32) → (∀ j < (pre ++ r :: post).length, Fits cap (pos + 192 * j + 160)) → Chain2By C d h pre xs →
    (¬ ∃ x, Step2By C ((pre.getLast?.map (·.delta)).getD d) ((pre.getLast?.map (·.hash)).getD h) r x) →
    Shows True (hashLines i ((pre ++ [r]).map (·.hash))) (p2VerifyLoop C (pre ++ r :: post).length i c0 d h)
      ⟨(⟨cap, pos, (pre ++ r :: post).flatMap (record2Bytes C) ++ ys⟩, ro), out⟩ := by
  induction pre with
  | nil =>
    intro i c0 d h cap pos ys ro out xs hl hf _ hbad
    have hread := record2_read hC r cap pos (post.flatMap (record2Bytes C) ++ ys) (hl r (by simp)) (by simpa using hf 0 (by simp))
    simp only [List.nil_append, List.length_cons, List.flatMap_cons, List.append_assoc, p2VerifyLoop, List.map_cons, List.map_nil, hashLines]
    refine .ok (onInput_ok hread) (.hash ?_)
    have hno : Phase2.verifyContribution C r d h ≠ .ok () := fun e => hbad (by simpa using (verifyContribution2_iff hC _ _ _).mp e)
    cases hv : Phase2.verifyContribution C r d h with
    | ok u => exact (hno hv).elim
    | error e => exact .stop rfl
  | cons q pre ih =>
    intro i c0 d h cap pos ys ro out xs hl hf hch hbad
    cases xs with
    | nil => exact hch.elim
    | cons x xs =>
    have hread := record2_read hC q cap pos ((pre ++ r :: post).flatMap (record2Bytes C) ++ ys) (hl q (by simp)) (by simpa using hf 0 (by simp))
    simp only [List.cons_append, List.length_cons, List.flatMap_cons, List.append_assoc, p2VerifyLoop, List.map_cons, hashLines]
    refine .ok (onInput_ok hread) (.hash (.ok (a := ()) (by rw [Go.lift_run, (verifyContribution2_iff hC _ _ _).mpr ⟨x, hch.1⟩]) ?_))
    refine ih _ _ _ _ _ _ _ _ _ xs (fun r' h => hl r' (by simp at h ⊢; tauto)) (fun j hj => by
      have := hf (j + 1) (by simpa using hj)
      rwa [show pos + 192 + 192 * j + 160 = pos + 192 * (j + 1) + 160 by ring]) hch.2 ?_
    rw [List.getLast?_cons] at hbad
    cases hg : pre.getLast? <;> simpa [hg] using hbad

/-- The checks that `Verify` of phase 2 makes before it looks at the records. -/
def P2File.FrontOk (C : Curve F G1 G2 GT) (b : Nat) (vr : Phase2.VerifyRand F) (f o : P2File G1 G2) : Prop :=
  f.records ≠ [] ∧ P2File.SameShape f o ∧ C.e o.delta1 f.delta2 = C.e f.delta1 o.delta2 ∧
    C.e (batchSum b vr.z f.z) f.delta2 = C.e (batchSum b vr.z o.z) o.delta2 ∧
    C.e (batchSum b vr.pkk f.pkk) f.delta2 = C.e (batchSum b vr.pkk o.pkk) o.delta2

open Classical in
theorem p2Verify_shows {C : Curve F G1 G2 GT} (hC : C.Lawful) {H : Phase2.HeaderCodec} (hH : H.Lawful) (par : Par) (b : Nat) (hb : 0 < b)
    (vr : Phase2.VerifyRand F) (f o : P2File G1 G2) (hf : f.WF) (ho : o.WF) (junk junk' : Bytes) (err : Prop) (hs : List Bytes)
    (hl : ∀ ro out, Shows err (hashLines 0 hs) (p2VerifyLoop C f.records.length 0 Phase2.Contribution.zero o.delta1 [])
      ⟨(⟨4096, (H.enc f.header).length + 32 + 64 + 32 * f.z.length + 32 * f.pkk.length, f.records.flatMap (record2Bytes C) ++ junk⟩, ro), out⟩) :
    trackedHashes (p2Verify C H par b vr (f.encode C H ++ junk) (o.encode C H ++ junk')).2
        = (if f.FrontOk C b vr o then hs else []).map some ∧
      (err → ∃ e, (p2Verify C H par b vr (f.encode C H ++ junk) (o.encode C H ++ junk')).1 = .error e) := by
  have hu : Shows err (if f.FrontOk C b vr o then hashLines 0 hs else []) (p2VerifyBody C H par b vr)
      ⟨(Rd.buffered 4096 (f.encode C H ++ junk), Rd.buffered 4096 (o.encode C H ++ junk')), []⟩ := by
    obtain ⟨r1, r2, r3, r4, h1, h2, h3, h4, h5⟩ := P2File.readers hC hH hf 4096 junk
    obtain ⟨q1, q2, q3, q4, k1, k2, k3, k4, k5⟩ := P2File.readers hC hH ho 4096 junk'
    unfold p2VerifyBody Phase2.Header.read
    have hgoal : (if f.FrontOk C b vr o then hashLines 0 hs else []) =
        (if decide (f.header.contributions ≠ 0) then (if f.header.equal o.header then
          (if C.sameRatio o.delta1 f.delta1 f.delta2 o.delta2 then
          (if C.sameRatio (batchSum b vr.z f.z) (batchSum b vr.z o.z) f.delta2 o.delta2 then
          (if C.sameRatio (batchSum b vr.pkk f.pkk) (batchSum b vr.pkk o.pkk) f.delta2 o.delta2 then hashLines 0 hs else []) else []) else [])
          else []) else []) := by
      have hr : f.records ≠ [] ↔ decide (f.header.contributions ≠ 0) = true := by
        rw [decide_eq_true_iff]; simp [P2File.header]
      unfold P2File.FrontOk
      rw [hr, ← header_equal_iff, ← sameRatio_iff hC, ← sameRatio_iff hC, ← sameRatio_iff hC]
      split_ifs <;> tauto
    rw [hgoal]
    refine .ok (onInput_ok h1) (.ok (onOrigin_ok k1) (.check fun _ => .check fun hsh => ?_))
    rw [header_equal_iff] at hsh
    have hzl : o.z.length = f.z.length := by rw [hf.z, ho.z, hsh.2.2.2.2.2]
    have hkl : o.pkk.length = f.pkk.length := by rw [hf.pkk, ho.pkk, hsh.2.1]
    rw [hzl] at k4
    rw [hkl] at k5
    have hw3 : Phase1.wrap64 (f.header.domain - 1) = (f.z.length : Int) := by
      have := hf.z
      have := hf.domain
      have := hf.domain_pos
      rw [wrap64_eq] <;> simp only [P2File.header] <;> omega
    have hw4 : f.header.witness = (f.pkk.length : Int) := by
      simp [P2File.header, hf.pkk]
    have hn : f.header.contributions.toNat = f.records.length := by simp [P2File.header]
    refine .ok (onOrigin_ok k2) (.ok (onOrigin_ok k3) (.ok (onInput_ok h2) (.ok (onInput_ok h3) (.check fun _ => ?_))))
    rw [hw3, hw4, hn]
    refine .println (by decide) fun out => ?_
    refine .checked (verifyParameter_ok C par b hb vr.z _ _ _ "Z" _ _ _ _ _ _ h4 k4) fun _ => ?_
    refine .println (by decide) fun out => ?_
    refine .checked (verifyParameter_ok C par b hb vr.pkk _ _ _ "PKK" _ _ _ _ _ _ h5 k5) fun _ => ?_
    refine .println (by simp only [String.toList_append]; rfl) fun out => (.then (hl _ _) fun _ => ?_)
    mute
  unfold p2Verify
  obtain ⟨s1, s2⟩ := hu
  dsimp only at s1
  rw [show linesWith verifying [] = [] from rfl, List.nil_append] at s1
  refine ⟨?_, s2⟩
  split_ifs at s1 ⊢
  · have ht := tracked_upto (m := hs.length) (hs := hs) (by rw [s1, List.take_of_length_le (by simp [hashLines_length])])
    rw [ht, List.take_of_length_le (by simp)]
  · unfold trackedHashes
    rw [s1]; rfl

/-- **C70**, phase 2: a file in which some record is not an update of the one before it (that of the origin for the first) is rejected. If the
checks before the records succeed, the hashes printed are those of the records up to and including the first such record; otherwise none. -/
theorem C70_p2_names {C : Curve F G1 G2 GT} (hC : C.Lawful) {H : Phase2.HeaderCodec} (hH : H.Lawful) (par : Par) (b : Nat) (hb : 0 < b)
    (vr : Phase2.VerifyRand F) (f o : P2File G1 G2) (hf : f.WF) (ho : o.WF) (hs : f.NoStraddle H) (junk junk' : Bytes)
    (pre post : List (Phase2.Contribution G1 G2)) (r : Phase2.Contribution G1 G2) (hrec : f.records = pre ++ r :: post)
    (hbad : FirstBad2 C o.delta1 pre r) (res : Except Fail Unit) (lines : List String)
    (h : p2Verify C H par b vr (f.encode C H ++ junk) (o.encode C H ++ junk') = (res, lines)) :
    (∃ e, res = .error e) ∧ (f.FrontOk C b vr o → trackedHashes lines = (pre ++ [r]).map (fun r => some r.hash)) ∧
      (¬ f.FrontOk C b vr o → trackedHashes lines = []) := by
  obtain ⟨⟨xs, hch⟩, hno⟩ := hbad
  have := p2Verify_shows hC hH par b hb vr f o hf ho junk junk' True ((pre ++ [r]).map (·.hash)) (fun ro out => by
    have hfit : ∀ j < f.records.length, _ := fun j hj => hs j hj
    have hl := hf.hash
    rw [hrec] at hfit hl ⊢
    exact p2VerifyLoop_bad hC r post pre _ _ _ _ _ _ _ _ _ xs hl (fun j hj => .inr (hfit j hj)) hch hno)
  rw [h] at this
  refine ⟨this.2 trivial, fun hfr => ?_, fun hfr => ?_⟩
  · rw [this.1, if_pos hfr, List.map_map]; rfl
  · rw [this.1, if_neg hfr]; rfl

/-- **C70**, phase 2: if every record is an update of the one before it and the checks before the records succeed, all hashes are printed, also if
the file is rejected because `[δ]1` in the parameters is not that of the last record. -/
theorem C70_p2_all {C : Curve F G1 G2 GT} (hC : C.Lawful) {H : Phase2.HeaderCodec} (hH : H.Lawful) (par : Par) (b : Nat) (hb : 0 < b)
    (vr : Phase2.VerifyRand F) (f o : P2File G1 G2) (hf : f.WF) (ho : o.WF) (hs : f.NoStraddle H) (junk junk' : Bytes)
    (xs : List F) (hch : Chain2By C o.delta1 [] f.records xs) (res : Except Fail Unit) (lines : List String)
    (h : p2Verify C H par b vr (f.encode C H ++ junk) (o.encode C H ++ junk') = (res, lines)) :
    (f.FrontOk C b vr o → trackedHashes lines = f.records.map (fun r => some r.hash)) ∧
      (¬ f.FrontOk C b vr o → trackedHashes lines = []) := by
  have := p2Verify_shows hC hH par b hb vr f o hf ho junk junk' False (f.records.map (·.hash)) (fun ro out =>
    p2VerifyLoop_shows hC _ _ _ _ _ _ _ _ _ _ xs hf.hash (fun j hj => .inr (hs j hj)) hch)
  rw [h] at this
  refine ⟨fun hfr => ?_, fun hfr => ?_⟩
  · rw [this.1, if_pos hfr, List.map_map]; rfl
  · rw [this.1, if_neg hfr]; rfl

end
end ZkSetup

/-! ### concrete cases -/
namespace ZkSetup
open Phase1 Console

namespace Toy

/-- a phase 1 file in which the only contribution of `one` stands three times -/
def thrice : P1File K K := { one with records := one.records ++ one.records ++ one.records }

theorem thrice_wf : thrice.WF where
  power := one_wf.power
  tauG1 := one_wf.tauG1
  alphaG1 := one_wf.alphaG1
  betaG1 := one_wf.betaG1
  tauG2 := one_wf.tauG2
  count := by decide +kernel
  hash := by decide +kernel

/-- the contribution of `one` -/
def oneRecord : Phase1.Contribution K K := one.records.headD .zero

/-- a phase 2 file in which the first record of `p2final` stands twice -/
def p2twice : P2File K K := { p2final with records := p2final.records.take 1 ++ p2final.records }

theorem p2twice_wf : p2twice.WF where
  wires := p2final_wf.wires
  pub := p2final_wf.pub
  privateCommitted := p2final_wf.privateCommitted
  constraints := p2final_wf.constraints
  domain := p2final_wf.domain
  domain_pos := p2final_wf.domain_pos
  witness := p2final_wf.witness
  z := p2final_wf.z
  pkk := p2final_wf.pkk
  count := by decide +kernel
  hash := by decide +kernel

/-- the first record of `p2final` -/
def p2rec1 : Phase2.Contribution K K := p2final.records.headD .zero

/-- the second record of `p2final` -/
def p2rec2 : Phase2.Contribution K K := (p2final.records.drop 1).headD .zero

theorem thrice_bad : FirstBad curve (genesis curve) [oneRecord] oneRecord :=
  ⟨⟨(verifyContribution_iff lawful _ _).mp (by decide +kernel), trivial⟩,
    fun h => absurd ((verifyContribution_iff lawful _ _).mpr h) (by decide +kernel)⟩

theorem p2twice_bad : FirstBad2 curve p2.delta1 [p2rec1] p2rec1 := by
  obtain ⟨x, hx⟩ := (verifyContribution2_iff lawful p2rec1 p2.delta1 []).mp (by decide +kernel)
  exact ⟨⟨[x], hx, trivial⟩, fun h => absurd ((verifyContribution2_iff lawful _ _ _).mpr h) (by decide +kernel)⟩

theorem p2twice_front : p2twice.FrontOk curve batchSize p2vr p2 := by
  have := (verify2_iff lawful Gob.lawful par batchSize (by decide) p2vr p2final p2 p2final_wf p2_wf p2final_noStraddle [] []).mp
    (p2final_accepted [] [])
  exact ⟨by decide +kernel, this.2.1, this.2.2.1, this.2.2.2.1, this.2.2.2.2.1⟩

end Toy

-- three hashes in the file, two printed
example := C70_p1_names Toy.lawful Toy.par .strict batchSize (by decide) Toy.vr Toy.thrice Toy.thrice_wf [7] none (genesis Toy.curve) Toy.oneRecord
  (by decide +kernel) [Toy.oneRecord] [Toy.oneRecord] (by decide +kernel) Toy.thrice_bad _ _ rfl

example : (trackedHashes (p1Verify Toy.curve Toy.par .strict batchSize Toy.vr (Toy.thrice.encode Toy.curve) none).2).length = 2 := by decide +kernel

example := C70_p1_all Toy.lawful Toy.par .strict batchSize (by decide) Toy.vr Toy.one Toy.one_wf [7] none (genesis Toy.curve)
  (by decide +kernel) ⟨(verifyContribution_iff Toy.lawful _ _).mp (by decide +kernel), trivial⟩ _ _ rfl

example := C70_p2_names Toy.lawful Gob.lawful Toy.par batchSize (by decide) Toy.p2vr Toy.p2twice Toy.p2 Toy.p2twice_wf Toy.p2_wf
  (by decide +kernel) [] [3] [Toy.p2rec1] [Toy.p2rec2] Toy.p2rec1 (by decide +kernel) Toy.p2twice_bad _ _ rfl

example := (C70_p2_names Toy.lawful Gob.lawful Toy.par batchSize (by decide) Toy.p2vr Toy.p2twice Toy.p2 Toy.p2twice_wf Toy.p2_wf
  (by decide +kernel) [] [3] [Toy.p2rec1] [Toy.p2rec2] Toy.p2rec1 (by decide +kernel) Toy.p2twice_bad _ _ rfl).2.1 Toy.p2twice_front

example : ∃ lines, p2Verify Toy.curve Gob.headerCodec Toy.par batchSize Toy.p2vr (Toy.p2final.encode Toy.curve Gob.headerCodec ++ [])
    (Toy.p2.encode Toy.curve Gob.headerCodec ++ []) = (.ok (), lines) ∧ trackedHashes lines = Toy.p2final.records.map (fun r => some r.hash) := by
  obtain ⟨h1, h2, h3, h4, h5, ⟨xs, h6⟩, -⟩ := (verify2_iff Toy.lawful Gob.lawful Toy.par batchSize (by decide) Toy.p2vr Toy.p2final Toy.p2
    Toy.p2final_wf Toy.p2_wf Toy.p2final_noStraddle [] []).mp (Toy.p2final_accepted [] [])
  exact ⟨_, p2Verify_of (Toy.p2final_accepted [] []), (C70_p2_all Toy.lawful Gob.lawful Toy.par batchSize (by decide) Toy.p2vr
    Toy.p2final Toy.p2 Toy.p2final_wf Toy.p2_wf Toy.p2final_noStraddle [] [] xs h6 _ _ (p2Verify_of (Toy.p2final_accepted [] []))).1
    ⟨h1, h2, h3, h4, h5⟩⟩

-- without the checks before the records nothing is printed: the origin has another `Z`
example : trackedHashes (p2Verify Toy.curve Gob.headerCodec Toy.par batchSize Toy.p2vr (Toy.p2twice.encode Toy.curve Gob.headerCodec)
    (({ Toy.p2 with z := Toy.p2.z.map (· + 1) } : P2File Toy.K Toy.K).encode Toy.curve Gob.headerCodec)).2 = [] := by decide +kernel

end ZkSetup
