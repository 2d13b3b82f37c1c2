import Verif.Proofs.Init
/-
Phase 2 initialisation: the split of the wires, and the whole run.
-/
set_option linter.unusedSectionVars false

namespace ZkSetup

open Phase2 Finset
open Phase1 (makeLen goPow2 seekDecode check)

section
variable {G1 : Type} [AddCommGroup G1]

theorem setIndex_eq_ok {α : Type} {xs ys : List α} {i : Nat} {x : α} (h : setIndex xs i x = .ok ys) :
    i < xs.length ∧ ys = xs.set i x := by
  unfold setIndex at h
  split at h
  · rename_i hi
    simp only [Except.ok.injEq] at h
    exact ⟨hi, h.symm⟩
  · simp at h

theorem setIndex_cases {α : Type} (xs : List α) (i : Nat) (x : α) :
    setIndex xs i x = .ok (xs.set i x) ∨ ∃ m, setIndex xs i x = .error (.panic m) := by
  unfold setIndex
  split
  · exact .inl rfl
  · exact .inr ⟨_, rfl⟩

theorem except_bind_eq_ok {α β : Type} {x : Except Fail α} {f : α → Except Fail β} {b : β} (h : (x >>= f) = .ok b) :
    ∃ a, x = .ok a ∧ f a = .ok b := by
  cases x with
  | ok a => exact ⟨a, rfl, h⟩
  | error e => simp [bind, Except.bind] at h

theorem filterLoop_lengths (pub : Int) (cmt : Commitment) (xs : List G1) : ∀ (i : Nat) (pkk vkk ckk : List G1) (vI cI : Nat)
    (pkk' vkk' ckk' : List G1), filterLoop pub cmt i xs pkk vkk ckk vI cI = .ok (pkk', vkk', ckk') →
    pkk'.length = pkk.length ∧ vkk'.length = vkk.length ∧ ckk'.length = ckk.length := by
  induction xs with
  | nil =>
    intro i pkk vkk ckk vI cI pkk' vkk' ckk' h
    simp only [filterLoop, Except.ok.injEq, Prod.mk.injEq] at h
    obtain ⟨rfl, rfl, rfl⟩ := h
    exact ⟨rfl, rfl, rfl⟩
  | cons x xs ih =>
    intro i pkk vkk ckk vI cI pkk' vkk' ckk' h
    rw [filterLoop] at h
    obtain ⟨b, -, h⟩ := except_bind_eq_ok h
    cases b with
    | true =>
      obtain ⟨y, hy, h⟩ := except_bind_eq_ok h
      obtain ⟨-, rfl⟩ := setIndex_eq_ok hy
      simpa using ih _ _ _ _ _ _ _ _ _ h
    | false =>
      simp only [Bool.false_eq_true, if_false] at h
      split at h
      · obtain ⟨y, hy, h⟩ := except_bind_eq_ok h
        obtain ⟨-, rfl⟩ := setIndex_eq_ok hy
        simpa using ih _ _ _ _ _ _ _ _ _ h
      · obtain ⟨y, hy, h⟩ := except_bind_eq_ok h
        obtain ⟨-, rfl⟩ := setIndex_eq_ok hy
        simpa using ih _ _ _ _ _ _ _ _ _ h

theorem makeLen_eq_ok {n : Int} {m : Nat} (h : makeLen n = .ok m) : n = (m : Int) := by
  unfold makeLen at h
  split at h
  · simp at h
  · simp only [Except.ok.injEq] at h
    omega

theorem filterL_lengths {L : List G1} {h : Header} {cmt : Commitment} {pkk vkk ckk : List G1}
    (hf : filterL L h cmt = .ok (pkk, vkk, ckk)) :
    h.witness = (pkk.length : Int) ∧ h.pub = (vkk.length : Int) ∧ h.privateCommitted = (ckk.length : Int) := by
  unfold filterL at hf
  obtain ⟨w, hw, hf⟩ := except_bind_eq_ok hf
  obtain ⟨p, hp, hf⟩ := except_bind_eq_ok hf
  obtain ⟨c, hc, hf⟩ := except_bind_eq_ok hf
  obtain ⟨h1, h2, h3⟩ := filterLoop_lengths _ _ _ _ _ _ _ _ _ _ _ _ hf
  rw [List.length_replicate] at h1 h2 h3
  rw [makeLen_eq_ok hw, makeLen_eq_ok hp, makeLen_eq_ok hc, h1, h2, h3]
  exact ⟨rfl, rfl, rfl⟩

theorem set_append_replicate {α : Type} (A : List α) (m : Nat) (z x : α) :
    (A ++ List.replicate (m + 1) z).set A.length x = (A ++ [x]) ++ List.replicate m z := by
  rw [List.set_append_right _ _ le_rfl]
  simp [List.replicate_succ]

/-- filling the buffers: the first `p` points go to VKK, the others to PKK -/
theorem filterLoop_split (p : Nat) (cmt : Commitment) (hpriv : cmt.nbPrivateCommitted = 0)
    (hidx : cmt.is = true → cmt.commitmentIndex < p) (xs : List G1) : ∀ (i : Nat) (A B : List G1) (m n : Nat),
    A.length = min i p → B.length = i - p → m = p - i → n = xs.length - m → m ≤ xs.length →
    filterLoop (p : Int) cmt i xs (B ++ List.replicate n 0) (A ++ List.replicate m 0) [] (min i p) 0
      = .ok (B ++ xs.drop m, A ++ xs.take m, []) := by
  induction xs with
  | nil =>
    intro i A B m n hA hB hm hn hle
    have h0 : m = 0 := by simpa using hle
    subst h0
    simp only [List.length_nil, Nat.sub_zero] at hn
    subst hn
    simp [filterLoop]
  | cons x xs ih =>
    intro i A B m n hA hB hm hn hle
    have hcp : isCommittedPrivate cmt 0 i = .ok false := by
      unfold isCommittedPrivate
      rw [if_neg (by omega)]
    rw [filterLoop, hcp]
    simp only [bind, Except.bind, Bool.false_eq_true, if_false]
    by_cases hi : i < p
    · have hcond : ((cmt.is && decide (i = cmt.commitmentIndex)) || decide ((i : Int) < (p : Int))) = true := by
        simp [hi]
      rw [if_pos hcond]
      obtain ⟨m', rfl⟩ : ∃ m', m = m' + 1 := ⟨m - 1, by omega⟩
      have hvI : min i p = A.length := hA.symm
      rw [hvI, setIndex, if_pos (by simp), set_append_replicate]
      have := ih (i + 1) (A ++ [x]) B m' n (by simp [hA]; omega) (by omega) (by omega)
        (by simp only [List.length_cons] at hn; omega) (by simp only [List.length_cons] at hle; omega)
      rw [show A.length + 1 = min (i + 1) p by omega]
      simp only at this ⊢
      rw [this]
      simp
    · have hcond : ((cmt.is && decide (i = cmt.commitmentIndex)) || decide ((i : Int) < (p : Int))) = false := by
        rw [Bool.or_eq_false_iff]
        refine ⟨?_, by simp; omega⟩
        rw [Bool.and_eq_false_iff]
        by_cases h : cmt.is = true
        · right
          have := hidx h
          simp; omega
        · left; simpa using h
      have hm0 : m = 0 := by omega
      subst hm0
      simp only [List.length_cons, Nat.sub_zero] at hn
      subst hn
      rw [hcond]
      simp only [Bool.false_eq_true, if_false]
      rw [show i - 0 - min i p = B.length by omega, setIndex, if_pos (by simp), set_append_replicate]
      have := ih (i + 1) A (B ++ [x]) 0 xs.length (by omega) (by simp [hB]; omega) (by omega) (by omega) (by omega)
      rw [show min i p = min (i + 1) p by omega]
      simp only at this ⊢
      rw [this]
      simp

/-- without private committed wires, and with the commitment wire (if any) directly behind the public ones -/
theorem filterL_split (L : List G1) (h : Header) (cmt : Commitment) (hpriv : cmt.nbPrivateCommitted = 0) (p w : Nat)
    (hp : h.pub = (p : Int)) (hw : h.witness = (w : Int)) (hc : h.privateCommitted = 0)
    (hidx : cmt.is = true → cmt.commitmentIndex < p) (hL : L.length = p + w) :
    filterL L h cmt = .ok (L.drop p, L.take p, []) := by
  unfold filterL
  rw [hp, hw, hc, show (0 : Int) = ((0 : Nat) : Int) from rfl]
  simp only [makeLen_nat, bind, Except.bind]
  have := filterLoop_split p cmt hpriv hidx L 0 [] [] p w (by simp) (by simp) (by omega) (by omega) (by omega)
  simpa using this

/-- a private committed wire: the index into the list of committed wires runs out of range -/
theorem filterLoop_private_panics (pub : Int) (cmt : Commitment) (hlen : cmt.nbPrivateCommitted ≤ cmt.committed.length)
    (hne : ∀ i < cmt.nbPrivateCommitted, (cmt.committed.drop (cmt.committed.length - cmt.nbPrivateCommitted)).getD i 0 ≠ i)
    (hpos : 0 < cmt.nbPrivateCommitted) (xs : List G1) :
    ∀ (i : Nat) (pkk vkk ckk : List G1) (vI : Nat), i ≤ cmt.nbPrivateCommitted → cmt.nbPrivateCommitted < i + xs.length →
    ∃ m, filterLoop pub cmt i xs pkk vkk ckk vI 0 = .error (.panic m) := by
  induction xs with
  | nil => intro i pkk vkk ckk vI h1 h2; simp at h2; omega
  | cons x xs ih =>
    intro i pkk vkk ckk vI h1 h2
    have hl : (cmt.committed.drop (cmt.committed.length - cmt.nbPrivateCommitted)).length = cmt.nbPrivateCommitted := by
      rw [List.length_drop]; omega
    by_cases hi : i = cmt.nbPrivateCommitted
    · have hcp : isCommittedPrivate cmt 0 i = .error (.panic "index out of range") := by
        unfold isCommittedPrivate index
        rw [if_pos hpos, if_neg (by omega), List.getElem?_eq_none (by omega)]
        rfl
      rw [filterLoop, hcp]
      exact ⟨_, rfl⟩
    · have hcp : isCommittedPrivate cmt 0 i = .ok false := by
        unfold isCommittedPrivate
        rw [if_pos hpos, if_neg (by omega), index_ok _ 0 _ (by omega)]
        have := hne i (by omega)
        simp only [bind, Except.bind, Except.ok.injEq, decide_eq_false_iff_not]
        omega
      rw [filterLoop, hcp]
      simp only [bind, Except.bind, Bool.false_eq_true, if_false]
      simp only [List.length_cons] at h2
      split
      · rcases setIndex_cases vkk vI x with h | ⟨m, h⟩
        · rw [h]
          exact ih _ _ _ _ _ (by omega) (by omega)
        · rw [h]
          exact ⟨m, rfl⟩
      · rcases setIndex_cases pkk (i - 0 - vI) x with h | ⟨m, h⟩
        · rw [h]
          exact ih _ _ _ _ _ (by omega) (by omega)
        · rw [h]
          exact ⟨m, rfl⟩

/-- a commitment wire beyond the first private wire: VKK overflows -/
theorem filterLoop_index_panics (p : Nat) (cmt : Commitment) (hpriv : cmt.nbPrivateCommitted = 0) (his : cmt.is = true)
    (hidx : p ≤ cmt.commitmentIndex) (xs : List G1) :
    ∀ (i : Nat) (pkk vkk ckk : List G1), vkk.length = p → i ≤ cmt.commitmentIndex → cmt.commitmentIndex < i + xs.length →
    ∃ m, filterLoop (p : Int) cmt i xs pkk vkk ckk (min i p) 0 = .error (.panic m) := by
  induction xs with
  | nil => intro i pkk vkk ckk _ h1 h2; simp at h2; omega
  | cons x xs ih =>
    intro i pkk vkk ckk hv h1 h2
    have hcp : isCommittedPrivate cmt 0 i = .ok false := by
      unfold isCommittedPrivate
      rw [if_neg (by omega)]
    rw [filterLoop, hcp]
    simp only [bind, Except.bind, Bool.false_eq_true, if_false]
    simp only [List.length_cons] at h2
    by_cases hi : i = cmt.commitmentIndex
    · rw [if_pos (by simp [his, hi]), setIndex, if_neg (by omega)]
      exact ⟨_, rfl⟩
    · by_cases hip : i < p
      · rw [if_pos (by simp [hip]), setIndex, if_pos (by omega)]
        obtain ⟨m, hm⟩ := ih (i + 1) pkk (vkk.set (min i p) x) ckk (by simpa using hv) (by omega) (by omega)
        refine ⟨m, ?_⟩
        rw [show min (i + 1) p = min i p + 1 by omega] at hm
        exact hm
      · rw [if_neg (by simp [hi]; omega)]
        rcases setIndex_cases pkk (i - 0 - min i p) x with h | ⟨m, h⟩
        · rw [h]
          obtain ⟨m, hm⟩ := ih (i + 1) (pkk.set (i - 0 - min i p) x) vkk ckk hv (by omega) (by omega)
          refine ⟨m, ?_⟩
          rw [show min (i + 1) p = min i p by omega] at hm
          exact hm
        · rw [h]
          exact ⟨m, rfl⟩

end

section
variable {F G1 G2 GT : Type} [Field F] [AddCommGroup G1] [Module F G1] [AddCommGroup G2]
  [Module F G2] [AddCommGroup GT] [Module F GT] [DecidableEq G1] [DecidableEq G2]
variable {C : Curve F G1 G2 GT} (hC : C.Lawful)
include hC

omit hC [DecidableEq G1] [DecidableEq G2] in
theorem circuitHeader_wires (r : R1CS F) (c d : Int) : (circuitHeader r c d).wires = (r.wires : Int) := by
  unfold circuitHeader R1CS.wires
  split <;> simp <;> omega

omit hC [DecidableEq G1] [DecidableEq G2] in
theorem circuitHeader_rest (r : R1CS F) (c d : Int) : (circuitHeader r c d).constraints = c ∧
    (circuitHeader r c d).domain = d ∧ (circuitHeader r c d).contributions = 0 := by
  unfold circuitHeader
  split <;> simp

omit [DecidableEq G1] [DecidableEq G2] hC in
theorem header_read_p1 (f : P1File G1 G2) (hf : f.WF) (junk : Bytes) :
    (Phase1.Header.readFrom.run (Rd.file (f.encode C ++ junk) 0)).1 = .ok ⟨f.power, UInt16.ofNat f.records.length⟩ := by
  rw [P1File.split, ← header_encode _ _ hf.count, header_read]

omit hC in
theorem processHeader_run (H : HeaderCodec) (r : R1CS F) (hr : r.Valid) (f : P1File G1 G2) (hf : f.WF) (junk : Bytes) (k : Nat)
    (hk : k ≤ f.power.toNat) (hd : nextPowerofTwo r.nbConstraints = .ok ((2 ^ k : Nat) : Int)) (hck : r.constraints.length ≤ 2 ^ k)
    (s : InitSt) :
    (processHeader H (some r) (f.encode C ++ junk)).run s
      = (.ok (r, ⟨f.power, UInt16.ofNat f.records.length⟩, circuitHeader r r.constraints.length ((2 ^ k : Nat) : Int)),
        { s with ph2 := s.ph2 ++ H.enc (circuitHeader r r.constraints.length ((2 ^ k : Nat) : Int)) }) := by
  have hle : 2 ^ k ≤ 2 ^ f.power.toNat := Nat.pow_le_pow_right (by omega) hk
  have hcp : checkPower f.power (r.nbConstraints : Int) = .ok () := by
    unfold checkPower check
    rw [if_pos]
    rw [decide_eq_true_iff, goPow2_eq hf.power, hr.count]
    have : ((2 ^ f.power.toNat : Nat) : Int) = (2 : Int) ^ f.power.toNat := by push_cast; rfl
    omega
  unfold processHeader
  simp only [hd, header_read_p1 f hf junk]
  rw [Go.bind_ok (Go.lift_run _ _), Go.bind_ok (Go.lift_run _ _)]
  simp only [hcp]
  rw [Go.bind_ok (Go.lift_run _ _), Go.bind_ok (a := ()) (s' := { s with ph2 := s.ph2 ++ H.enc (circuitHeader r r.constraints.length ((2 ^ k : Nat) : Int)) })
    (by rw [hr.count]; rfl)]
  rw [hr.count]
  rfl

/-- the whole run, for any well-formed phase 1 file -/
theorem init_run (E : InitEnv F) (par : Par) (r : R1CS F) (hr : r.Valid) (f : P1File G1 G2) (hf : f.WF) (junk oldLag oldEvals : Bytes)
    (k : Nat) (hk : k ≤ f.power.toNat) (hk27 : k ≤ 27) (hd : nextPowerofTwo r.nbConstraints = .ok ((2 ^ k : Nat) : Int))
    (hck : r.constraints.length ≤ 2 ^ k) (hdom : (E.dom (2 ^ k)).Lawful k) (pkk vkk ckk : List G1)
    (hfil : filterL ((List.range r.wires).map (combined r (2 ^ k) (E.dom (2 ^ k)).gen f))
      (circuitHeader r r.constraints.length ((2 ^ k : Nat) : Int)) r.commitment = .ok (pkk, vkk, ckk)) :
    initializeFiles C E par (some r) (f.encode C ++ junk) oldLag oldEvals
      = (.ok (), ⟨(initFile C r k f vkk.length ckk.length pkk).encode C E.header, lagBytes C (2 ^ k) (E.dom (2 ^ k)).gen f,
          (initEvals r (2 ^ k) (E.dom (2 ^ k)).gen f vkk ckk (E.cmtBytes r.commitment)).encode C⟩) := by
  have hn : 2 ^ k < 2 ^ 32 := Nat.pow_lt_pow_right (by omega) (by omega)
  have hw := circuitHeader_wires r (r.constraints.length : Int) ((2 ^ k : Nat) : Int)
  obtain ⟨hc1, hd1, hz1⟩ := circuitHeader_rest r (r.constraints.length : Int) ((2 ^ k : Nat) : Int)
  obtain ⟨l1, l2, l3⟩ := filterL_lengths hfil
  have hh : (initFile C r k f vkk.length ckk.length pkk).header
      = circuitHeader r (r.constraints.length : Int) ((2 ^ k : Nat) : Int) := by
    generalize circuitHeader r (r.constraints.length : Int) ((2 ^ k : Nat) : Int) = h at *
    obtain ⟨a1, a2, a3, a4, a5, a6, a7⟩ := h
    simp only at hw hc1 hd1 hz1 l1 l2 l3
    subst hw hc1 hd1 hz1 l1 l2 l3
    rfl
  unfold initializeFiles initBody
  rw [Go.bind_ok (processHeader_run E.header r hr f hf junk k hk hd hck _)]
  simp only
  rw [Go.bind_ok (processLagrange_run hC par E.dom f hf junk k hk hdom _ rfl _ hd1 _)]
  rw [Go.bind_ok (processEvaluations_run hC r hr f hf junk (2 ^ k) hn hck (E.dom (2 ^ k)).gen _ rfl _ hd1 hw _ _)]
  rw [Go.bind_ok (processDeltaAndZ_run hC f hf junk k hk _ hd1 _)]
  rw [processPVCKK_run hC E.cmtBytes r hr f (2 ^ k) hn hck (E.dom (2 ^ k)).gen _ hw pkk vkk ckk hfil]
  rw [P2File.encode, hh]
  simp [P2File.params, initFile, Evals.encode, initEvals]

end

end ZkSetup
