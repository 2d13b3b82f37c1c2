import Verif.Spec.Fits
import Verif.Proofs.InitRun
/-
`filterL` for any commitment description.
-/
set_option linter.unusedSectionVars false

namespace ZkSetup
open Phase2
open Phase1 (makeLen)

section
variable {G1 : Type} [AddCommGroup G1]

/-- the entries of `xs`, numbered from `i` on, that satisfy `q` -/
def picked (q : Nat → Bool) : Nat → List G1 → List G1
  | _, [] => []
  | i, x :: xs => if q i then x :: picked q (i + 1) xs else picked q (i + 1) xs

theorem picked_length (q : Nat → Bool) (xs : List G1) : ∀ i, (picked q i xs).length = ((List.range' i xs.length).filter q).length := by
  induction xs with
  | nil => intro i; rfl
  | cons x xs ih =>
    intro i
    rw [List.length_cons, List.range'_succ, picked, List.filter_cons]
    split <;> simp [ih]

theorem picked_map (q : Nat → Bool) (g : Nat → G1) (n : Nat) : ∀ i, picked q i ((List.range' i n).map g) = ((List.range' i n).filter q).map g := by
  induction n with
  | zero => intro i; rfl
  | succ n ih =>
    intro i
    rw [List.range'_succ, List.map_cons, picked, List.filter_cons, ih]
    split <;> rfl

/-- condition of the code for a wire to go to VKK -/
def vkkCond (pub : Int) (cmt : Commitment) (i : Nat) : Bool := (cmt.is && decide (i = cmt.commitmentIndex)) || decide ((i : Int) < pub)

/-- the rest of the loop, when no private committed wires are expected any more -/
theorem filterLoop_tail (pub : Int) (cmt : Commitment) (cI : Nat) (hcI : cmt.nbPrivateCommitted ≤ cI) (xs : List G1) :
    ∀ (i : Nat) (A B ja jb ckk : List G1), A.length + B.length + cI = i →
    ((picked (vkkCond pub cmt) i xs).length ≤ jb.length ∧ (picked (fun j => !vkkCond pub cmt j) i xs).length ≤ ja.length →
      filterLoop pub cmt i xs (A ++ ja) (B ++ jb) ckk B.length cI =
        .ok (A ++ picked (fun j => !vkkCond pub cmt j) i xs ++ ja.drop (picked (fun j => !vkkCond pub cmt j) i xs).length,
          B ++ picked (vkkCond pub cmt) i xs ++ jb.drop (picked (vkkCond pub cmt) i xs).length, ckk)) ∧
    (¬ ((picked (vkkCond pub cmt) i xs).length ≤ jb.length ∧ (picked (fun j => !vkkCond pub cmt j) i xs).length ≤ ja.length) →
      ∃ m, filterLoop pub cmt i xs (A ++ ja) (B ++ jb) ckk B.length cI = .error (.panic m)) := by
  induction xs with
  | nil =>
    intro i A B ja jb ckk h
    refine ⟨fun _ => by simp [filterLoop, picked], fun hn => absurd ?_ hn⟩
    simp [picked]
  | cons x xs ih =>
    intro i A B ja jb ckk h
    have hcp : isCommittedPrivate cmt cI i = .ok false := by
      unfold isCommittedPrivate
      rw [if_neg (by omega)]
    rw [filterLoop, hcp]
    simp only [bind, Except.bind, Bool.false_eq_true, if_false]
    change _ ∧ (_ → ∃ m, (if vkkCond pub cmt i then _ else _) = _)
    by_cases hv : vkkCond pub cmt i = true
    · rw [show ((cmt.is && decide (i = cmt.commitmentIndex)) || decide ((i : Int) < pub)) = true from hv]
      simp only [hv, if_true, picked, Bool.not_true, Bool.false_eq_true, if_false, List.length_cons]
      cases jb with
      | nil =>
        refine ⟨fun hle => by simp at hle, fun _ => ⟨"index out of range", ?_⟩⟩
        rw [setIndex, if_neg (by simp)]
      | cons y jb =>
        rw [setIndex, if_pos (by simp)]
        have e : (B ++ y :: jb).set B.length x = (B ++ [x]) ++ jb := by
          rw [List.set_append_right _ _ le_rfl]
          simp
        rw [e]
        have := ih (i + 1) A (B ++ [x]) ja jb ckk (by simp; omega)
        simp only [List.length_append, List.length_cons, List.length_nil] at this ⊢
        refine ⟨fun hle => ?_, fun hn => ?_⟩
        · rw [this.1 ⟨by omega, hle.2⟩]
          simp
        · exact this.2 (fun hle => hn ⟨by omega, hle.2⟩)
    · rw [show ((cmt.is && decide (i = cmt.commitmentIndex)) || decide ((i : Int) < pub)) = false by simpa [vkkCond] using hv]
      rw [Bool.not_eq_true] at hv
      simp only [hv, picked, Bool.not_false, Bool.false_eq_true, if_false, if_true, List.length_cons]
      have hidx : i - cI - B.length = A.length := by omega
      rw [hidx]
      cases ja with
      | nil =>
        refine ⟨fun hle => by simp at hle, fun _ => ⟨"index out of range", ?_⟩⟩
        rw [setIndex, if_neg (by simp)]
      | cons y ja =>
        rw [setIndex, if_pos (by simp)]
        have e : (A ++ y :: ja).set A.length x = (A ++ [x]) ++ ja := by
          rw [List.set_append_right _ _ le_rfl]
          simp
        rw [e]
        have := ih (i + 1) (A ++ [x]) B ja jb ckk (by simp; omega)
        simp only [List.length_append, List.length_cons, List.length_nil] at this ⊢
        refine ⟨fun hle => ?_, fun hn => ?_⟩
        · rw [this.1 ⟨hle.1, by omega⟩]
          simp
        · exact this.2 (fun hle => hn ⟨hle.1, by omega⟩)

/-- once a private committed wire has been missed, the index runs out of range -/
theorem filterLoop_missed (pub : Int) (cmt : Commitment) (hlen : cmt.nbPrivateCommitted ≤ cmt.committed.length) (xs : List G1) :
    ∀ (i : Nat) (pkk vkk ckk : List G1) (vI cI : Nat), cI < i → i ≤ cmt.nbPrivateCommitted → cmt.nbPrivateCommitted < i + xs.length →
    ∃ m, filterLoop pub cmt i xs pkk vkk ckk vI cI = .error (.panic m) := by
  induction xs with
  | nil => intro i pkk vkk ckk vI cI _ h1 h2; simp at h2; omega
  | cons x xs ih =>
    intro i pkk vkk ckk vI cI hc h1 h2
    have hl : (cmt.committed.drop (cmt.committed.length - cmt.nbPrivateCommitted)).length = cmt.nbPrivateCommitted := by
      rw [List.length_drop]; omega
    simp only [List.length_cons] at h2
    by_cases hi : i = cmt.nbPrivateCommitted
    · have hcp : isCommittedPrivate cmt cI i = .error (.panic "index out of range") := by
        unfold isCommittedPrivate index
        rw [if_pos (by omega), if_neg (by omega), List.getElem?_eq_none (by omega)]
        rfl
      rw [filterLoop, hcp]
      exact ⟨_, rfl⟩
    · obtain ⟨bb, hcp⟩ : ∃ bb, isCommittedPrivate cmt cI i = .ok bb := by
        unfold isCommittedPrivate
        rw [if_pos (by omega), if_neg (by omega), index_ok _ 0 _ (by omega)]
        exact ⟨_, rfl⟩
      rw [filterLoop, hcp]
      simp only [bind, Except.bind]
      cases bb with
      | true =>
        simp only [if_true]
        rcases setIndex_cases ckk cI x with h | ⟨m, h⟩
        · rw [h]
          exact ih _ _ _ _ _ _ (by omega) (by omega) (by omega)
        · rw [h]
          exact ⟨m, rfl⟩
      | false =>
        simp only [Bool.false_eq_true, if_false]
        split
        · rcases setIndex_cases vkk vI x with h | ⟨m, h⟩
          · rw [h]
            exact ih _ _ _ _ _ _ (by omega) (by omega) (by omega)
          · rw [h]
            exact ⟨m, rfl⟩
        · rcases setIndex_cases pkk (i - cI - vI) x with h | ⟨m, h⟩
          · rw [h]
            exact ih _ _ _ _ _ _ (by omega) (by omega) (by omega)
          · rw [h]
            exact ⟨m, rfl⟩

/-- the private committed wires: they must be the first ones -/
theorem filterLoop_private (pub : Int) (cmt : Commitment) (hlen : cmt.nbPrivateCommitted ≤ cmt.committed.length) (pkk vkk : List G1) (vI : Nat)
    (xs : List G1) : ∀ (i : Nat) (D j : List G1), D.length = i → D.length + j.length = cmt.nbPrivateCommitted →
    cmt.nbPrivateCommitted < i + xs.length →
    ((∀ x, i ≤ x → x < cmt.nbPrivateCommitted → (cmt.committed.drop (cmt.committed.length - cmt.nbPrivateCommitted)).getD x 0 = x) →
      filterLoop pub cmt i xs pkk vkk (D ++ j) vI i =
        filterLoop pub cmt cmt.nbPrivateCommitted (xs.drop (cmt.nbPrivateCommitted - i)) pkk vkk (D ++ xs.take (cmt.nbPrivateCommitted - i)) vI
          cmt.nbPrivateCommitted) ∧
    (¬ (∀ x, i ≤ x → x < cmt.nbPrivateCommitted → (cmt.committed.drop (cmt.committed.length - cmt.nbPrivateCommitted)).getD x 0 = x) →
      ∃ m, filterLoop pub cmt i xs pkk vkk (D ++ j) vI i = .error (.panic m)) := by
  induction xs with
  | nil => intro i D j h1 h2 h3; simp at h3; omega
  | cons y xs ih =>
    intro i D j h1 h2 h3
    have hl : (cmt.committed.drop (cmt.committed.length - cmt.nbPrivateCommitted)).length = cmt.nbPrivateCommitted := by
      rw [List.length_drop]; omega
    simp only [List.length_cons] at h3
    cases j with
    | nil =>
      simp only [List.length_nil, Nat.add_zero] at h2
      have : cmt.nbPrivateCommitted = i := by omega
      refine ⟨fun _ => ?_, fun hn => absurd (fun x hx hx' => by omega) hn⟩
      rw [this]
      simp
    | cons z j =>
      simp only [List.length_cons] at h2
      have hi : i < cmt.nbPrivateCommitted := by omega
      have hcp : isCommittedPrivate cmt i i
          = .ok (decide (i = (cmt.committed.drop (cmt.committed.length - cmt.nbPrivateCommitted)).getD i 0)) := by
        unfold isCommittedPrivate
        rw [if_pos hi, if_neg (by omega), index_ok _ 0 _ (by omega)]
        rfl
      by_cases hx : (cmt.committed.drop (cmt.committed.length - cmt.nbPrivateCommitted)).getD i 0 = i
      · rw [filterLoop, hcp, hx]
        simp only [bind, Except.bind, decide_true, if_true]
        rw [setIndex, if_pos (by simp; omega)]
        have e : (D ++ z :: j).set i y = (D ++ [y]) ++ j := by
          rw [← h1, List.set_append_right _ _ le_rfl]
          simp
        rw [e]
        have := ih (i + 1) (D ++ [y]) j (by simp [h1]) (by simp; omega) (by omega)
        have hs : cmt.nbPrivateCommitted - i = (cmt.nbPrivateCommitted - (i + 1)) + 1 := by omega
        refine ⟨fun hall => ?_, fun hn => ?_⟩
        · rw [hs, List.drop_succ_cons, List.take_succ_cons]
          have := this.1 (fun x h h' => hall x (by omega) h')
          simp only at this ⊢
          rw [this]
          simp
        · refine this.2 fun hall => hn fun x h h' => ?_
          rcases Nat.eq_or_lt_of_le h with rfl | h
          · exact hx
          · exact hall x h h'
      · refine ⟨fun hall => absurd (hall i le_rfl hi) hx, fun _ => ?_⟩
        rw [filterLoop, hcp]
        simp only [bind, Except.bind]
        rw [decide_eq_false (fun h => hx h.symm)]
        simp only [Bool.false_eq_true, if_false]
        split
        · rcases setIndex_cases vkk vI y with h | ⟨m, h⟩
          · rw [h]
            exact filterLoop_missed pub cmt hlen xs _ _ _ _ _ _ (by omega) (by omega) (by omega)
          · rw [h]
            exact ⟨m, rfl⟩
        · rcases setIndex_cases pkk (i - i - vI) y with h | ⟨m, h⟩
          · rw [h]
            exact filterLoop_missed pub cmt hlen xs _ _ _ _ _ _ (by omega) (by omega) (by omega)
          · rw [h]
            exact ⟨m, rfl⟩

end

theorem count_wires (s c a n : Nat) (b : Bool) :
    ((List.range' a n).filter fun i => decide (i < s) || (b && decide (i = c))).length
      = (min s (a + n) - a) + if b = true ∧ s ≤ c ∧ a ≤ c ∧ c < a + n then 1 else 0 := by
  induction n with
  | zero =>
    rw [if_neg (by omega)]
    simp
  | succ n ih =>
    rw [List.range'_1_concat, List.filter_append, List.length_append, ih]
    cases b with
    | false =>
      simp only [Bool.false_and, Bool.or_false, Bool.false_eq_true, false_and, if_false, List.filter_cons, List.filter_nil]
      by_cases h : a + n < s
      · simp only [h, decide_true, if_true, List.length_cons, List.length_nil]; omega
      · simp only [h, decide_false, Bool.false_eq_true, if_false, List.length_nil]; omega
    | true =>
      simp only [Bool.true_and, true_and, List.filter_cons, List.filter_nil]
      by_cases h : a + n < s
      · simp only [h, decide_true, Bool.true_or, if_true, List.length_cons, List.length_nil]
        rw [if_neg (show ¬ (s ≤ c ∧ a ≤ c ∧ c < a + n) by omega), if_neg (by omega)]
        omega
      · by_cases hc : a + n = c
        · rw [if_pos (show (decide (a + n < s) || decide (a + n = c)) = true by simp [hc]), List.length_singleton]
          rw [if_neg (show ¬ (s ≤ c ∧ a ≤ c ∧ c < a + n) by omega), if_pos (by omega)]
          omega
        · simp only [h, hc, decide_false, Bool.false_or, Bool.false_eq_true, if_false, List.length_nil]
          have : (s ≤ c ∧ a ≤ c ∧ c < a + (n + 1)) ↔ (s ≤ c ∧ a ≤ c ∧ c < a + n) := by omega
          simp only [this]
          omega

section
variable {F G1 : Type} [Field F] [AddCommGroup G1]

theorem circuitHeader_counts (r : R1CS F) (c d : Int) : (circuitHeader r c d).witness = (r.wires : Int) - r.shared - r.priv ∧
    (circuitHeader r c d).pub = (r.shared : Int) ∧ (circuitHeader r c d).privateCommitted = (r.priv : Int) := by
  by_cases h : r.commitment.committed = []
  · refine ⟨?_, ?_, ?_⟩ <;> simp [circuitHeader, Commitment.is, h, R1CS.wires, R1CS.shared, R1CS.priv] <;> omega
  · refine ⟨?_, ?_, ?_⟩ <;> simp [circuitHeader, Commitment.is, h, R1CS.wires, R1CS.shared, R1CS.priv] <;> omega

theorem vkkCond_eq (r : R1CS F) (c d : Int) : vkkCond (circuitHeader r c d).pub r.commitment = r.toVerifier := by
  funext i
  rw [(circuitHeader_counts r c d).2.1, vkkCond, R1CS.toVerifier, Commitment.is, Bool.or_comm]
  congr 1
  simp

/-- the private committed wires are the first ones, in order -/
theorem private_first (cm : List Nat) (p : Nat) (h : p ≤ cm.length) :
    (∀ x, 0 ≤ x → x < p → (cm.drop (cm.length - p)).getD x 0 = x) ↔ ∃ pubc, cm = pubc ++ List.range p := by
  constructor
  · intro hall
    refine ⟨cm.take (cm.length - p), ?_⟩
    conv_lhs => rw [← List.take_append_drop (cm.length - p) cm]
    congr 1
    apply List.ext_getElem
    · rw [List.length_drop, List.length_range]; omega
    · intro x h1 h2
      rw [List.length_range] at h2
      rw [List.getElem_range]
      have := hall x (by omega) h2
      rw [List.getD_eq_getElem _ _ h1] at this
      exact this
  · rintro ⟨pubc, rfl⟩ x _ hx
    have : (pubc ++ List.range p).length - p = pubc.length := by simp
    rw [this, List.drop_left, List.getD_eq_getElem _ _ (by simpa using hx), List.getElem_range]

theorem verifierWires_length (r : R1CS F) (hp : r.priv ≤ r.wires) : r.verifierWires.length = (min r.shared r.wires - r.priv) +
    if r.commitment.committed ≠ [] ∧ r.shared ≤ r.commitment.commitmentIndex ∧ r.priv ≤ r.commitment.commitmentIndex ∧
      r.commitment.commitmentIndex < r.wires then 1 else 0 := by
  have := count_wires r.shared r.commitment.commitmentIndex r.priv (r.wires - r.priv) (decide (r.commitment.committed ≠ []))
  rw [Nat.add_sub_cancel' hp] at this
  simp only [decide_eq_true_eq] at this
  exact this

theorem wires_split_length (r : R1CS F) : r.verifierWires.length + r.proverWires.length = r.wires - r.priv := by
  unfold R1CS.verifierWires R1CS.proverWires
  have := List.length_eq_length_filter_add (l := List.range' r.priv (r.wires - r.priv)) r.toVerifier
  rw [List.length_range'] at this
  exact this.symm

/-- `filterL` for any circuit: it succeeds exactly if the commitment description fits, and what it returns -/
theorem filterL_exact (r : R1CS F) (g : Nat → G1) (c d : Int) :
    (r.CommitmentFits → filterL ((List.range r.wires).map g) (circuitHeader r c d) r.commitment
      = .ok (r.proverWires.map g, r.verifierWires.map g, (List.range r.priv).map g) ∧ r.verifierWires.length = r.shared) ∧
    (¬ r.CommitmentFits → ∃ m, filterL ((List.range r.wires).map g) (circuitHeader r c d) r.commitment = .error (.panic m)) := by
  obtain ⟨hw, hp, hc⟩ := circuitHeader_counts r c d
  by_cases hroom : r.shared + r.priv ≤ r.wires
  swap
  · refine ⟨fun h => absurd h.room hroom, fun _ => ?_⟩
    unfold filterL
    rw [hw, makeLen, if_pos (by omega)]
    exact ⟨_, rfl⟩
  have ew : makeLen (circuitHeader r c d).witness = .ok (r.wires - r.shared - r.priv) := by
    rw [hw, show ((r.wires : Int) - r.shared - r.priv) = ((r.wires - r.shared - r.priv : Nat) : Int) by omega, makeLen_nat]
  have ep : makeLen (circuitHeader r c d).pub = .ok r.shared := by rw [hp, makeLen_nat]
  have ec : makeLen (circuitHeader r c d).privateCommitted = .ok r.priv := by rw [hc, makeLen_nat]
  have efil : filterL ((List.range r.wires).map g) (circuitHeader r c d) r.commitment
      = filterLoop (circuitHeader r c d).pub r.commitment 0 ((List.range r.wires).map g) (List.replicate (r.wires - r.shared - r.priv) 0)
        (List.replicate r.shared 0) (List.replicate r.priv 0) 0 0 := by
    unfold filterL
    simp only [ew, ep, ec, bind, Except.bind]
  have hsplit := wires_split_length r
  have hvl := verifierWires_length r (by omega)
  have hsh : r.shared = r.nbPublic + if r.commitment.committed = [] then 0 else 1 := rfl
  -- the second part of the loop
  have tail : ∀ ckk : List G1,
      (r.verifierWires.length = r.shared → filterLoop (circuitHeader r c d).pub r.commitment r.priv ((List.range' r.priv (r.wires - r.priv)).map g)
        (List.replicate (r.wires - r.shared - r.priv) 0) (List.replicate r.shared 0) ckk 0 r.priv
          = .ok (r.proverWires.map g, r.verifierWires.map g, ckk)) ∧
      (r.verifierWires.length ≠ r.shared → ∃ m, filterLoop (circuitHeader r c d).pub r.commitment r.priv
        ((List.range' r.priv (r.wires - r.priv)).map g) (List.replicate (r.wires - r.shared - r.priv) 0) (List.replicate r.shared 0) ckk 0 r.priv
          = .error (.panic m)) := by
    intro ckk
    have := filterLoop_tail (circuitHeader r c d).pub r.commitment r.priv le_rfl ((List.range' r.priv (r.wires - r.priv)).map g) r.priv [] []
      (List.replicate (r.wires - r.shared - r.priv) 0) (List.replicate r.shared 0) ckk (by simp)
    rw [vkkCond_eq, picked_map, picked_map] at this
    change (_ ≤ _ ∧ _ → _ = Except.ok ([] ++ r.proverWires.map g ++ _, [] ++ r.verifierWires.map g ++ _, _)) ∧ _ at this
    simp only [List.nil_append, List.length_map, List.length_replicate, List.length_nil] at this
    change (r.verifierWires.length ≤ r.shared ∧ r.proverWires.length ≤ r.wires - r.shared - r.priv → _) ∧
      (¬ (r.verifierWires.length ≤ r.shared ∧ r.proverWires.length ≤ r.wires - r.shared - r.priv) → _) at this
    refine ⟨fun he => ?_, fun hne => this.2 (by omega)⟩
    rw [this.1 (by omega)]
    have e1 : ((List.range' r.priv (r.wires - r.priv)).filter fun j => !r.toVerifier j).length = r.wires - r.shared - r.priv := by
      change r.proverWires.length = _
      omega
    have e2 : ((List.range' r.priv (r.wires - r.priv)).filter r.toVerifier).length = r.shared := he
    rw [e1, e2]
    simp
  rw [efil]
  by_cases h0 : r.priv = 0
  · have hr0 : (List.range r.wires).map g = (List.range' r.priv (r.wires - r.priv)).map g := by
      rw [h0, List.range_eq_range', Nat.sub_zero]
    have key : r.CommitmentFits ↔ r.verifierWires.length = r.shared := by
      rw [hvl]
      constructor
      · intro h
        rcases h.shape with ⟨_, h⟩ | ⟨h, _⟩
        · rw [if_neg]
          · omega
          · rintro ⟨a, b, -, d⟩
            rw [hsh, if_neg a] at b
            have := h a
            omega
        · omega
      · intro h
        refine ⟨hroom, Or.inl ⟨h0, fun hne => ?_⟩⟩
        by_contra hn
        rw [if_pos ⟨hne, by rw [hsh, if_neg hne]; omega, by omega, by omega⟩] at h
        omega
    have t := tail []
    have e0 : (List.range r.priv).map g = [] := by rw [h0]; rfl
    have e00 : List.replicate r.priv (0 : G1) = [] := by rw [h0]; rfl
    rw [hr0, e0, e00]
    have t' := t
    rw [h0] at t' ⊢
    exact ⟨fun h => ⟨t'.1 (key.mp h), key.mp h⟩, fun h => t'.2 (fun he => h (key.mpr he))⟩
  · by_cases hlen : r.commitment.nbPrivateCommitted ≤ r.commitment.committed.length
    swap
    · refine ⟨fun h => ?_, fun _ => ?_⟩
      · rcases h.shape with ⟨h, _⟩ | ⟨_, ⟨pubc, h⟩, _⟩
        · exact absurd h h0
        · exact absurd (by rw [h]; simp [R1CS.priv]) hlen
      · obtain ⟨w, hw'⟩ : ∃ w, r.wires = w + 1 := ⟨r.wires - 1, by omega⟩
        rw [hw', List.range_succ_eq_map, List.map_cons, filterLoop]
        have : isCommittedPrivate r.commitment 0 0 = .error (.panic "slice bounds out of range") := by
          unfold isCommittedPrivate
          rw [if_pos (by have : r.priv = r.commitment.nbPrivateCommitted := rfl; omega), if_pos (by omega)]
        rw [this]
        exact ⟨_, rfl⟩
    have hne : r.commitment.committed ≠ [] := by
      intro h
      rw [h] at hlen
      have : r.priv = r.commitment.nbPrivateCommitted := rfl
      simp at hlen
      omega
    rw [if_neg hne] at hsh
    have hpf := private_first _ _ hlen
    have hpr := filterLoop_private (circuitHeader r c d).pub r.commitment hlen (List.replicate (r.wires - r.shared - r.priv) (0 : G1))
      (List.replicate r.shared 0) 0 ((List.range r.wires).map g) 0 [] (List.replicate r.priv 0) rfl (by simp [R1CS.priv])
      (by rw [List.length_map, List.length_range]; change r.priv < _; omega)
    change (_ → _ = filterLoop _ _ r.priv _ _ _ _ _ r.priv) ∧ _ at hpr
    rw [hpf] at hpr
    change ((∃ pubc, r.commitment.committed = pubc ++ List.range r.priv) → _) ∧
      (¬ (∃ pubc, r.commitment.committed = pubc ++ List.range r.priv) → _) at hpr
    by_cases hfirst : ∃ pubc, r.commitment.committed = pubc ++ List.range r.priv
    swap
    · refine ⟨fun h => ?_, fun _ => hpr.2 hfirst⟩
      rcases h.shape with ⟨h, _⟩ | ⟨_, h, _⟩
      · exact absurd h h0
      · exact absurd h hfirst
    have hpr := hpr.1 hfirst
    have ed : ((List.range r.wires).map g).drop (r.commitment.nbPrivateCommitted - 0) = (List.range' r.priv (r.wires - r.priv)).map g := by
      rw [← List.map_drop, Nat.sub_zero, List.range_eq_range', List.drop_range', show 0 + r.commitment.nbPrivateCommitted * 1 = r.priv by
        rw [Nat.zero_add, Nat.mul_one]; rfl]
      rfl
    have et : [] ++ ((List.range r.wires).map g).take (r.commitment.nbPrivateCommitted - 0) = (List.range r.priv).map g := by
      rw [← List.map_take, Nat.sub_zero, List.take_range, Nat.min_eq_left (by change r.priv ≤ _; omega)]
      rfl
    rw [ed, et, List.nil_append] at hpr
    rw [hpr]
    have t := tail ((List.range r.priv).map g)
    have key : r.CommitmentFits ↔ r.verifierWires.length = r.shared := by
      rw [hvl]
      constructor
      · intro h
        rcases h.shape with ⟨h, _⟩ | ⟨_, _, h1, h2, h3, h4⟩
        · exact absurd h h0
        · rw [if_pos ⟨hne, by omega, h2, h4⟩]
          omega
      · intro h
        split at h
        · next hh => exact ⟨hroom, Or.inr ⟨by omega, hfirst, by omega, hh.2.2.1, by omega, hh.2.2.2⟩⟩
        · omega
    exact ⟨fun h => ⟨t.1 (key.mp h), key.mp h⟩, fun h => t.2 (fun he => h (key.mpr he))⟩

end
end ZkSetup
