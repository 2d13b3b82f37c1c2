import Verif.Proofs.Common
import Verif.Spec.BitRev
import Mathlib.Data.Nat.Bitwise
import Mathlib.Data.List.Perm.Basic
/-
Bit reversal: `revIndex`, `bitReverse`.
-/
namespace ZkSetup

theorem bitRev_lt (k i : Nat) : bitRev k i < 2 ^ k := by
  induction k generalizing i with
  | zero => simp [bitRev]
  | succ k ih =>
    have := ih (i / 2)
    have h2 : i % 2 < 2 := Nat.mod_lt _ (by omega)
    unfold bitRev
    rw [Nat.pow_succ]
    have : i % 2 = 0 ∨ i % 2 = 1 := by omega
    rcases this with h | h <;> rw [h] <;> omega

theorem testBit_bitRev (k i j : Nat) :
    (bitRev k i).testBit j = (decide (j < k) && i.testBit (k - 1 - j)) := by
  induction k generalizing i j with
  | zero => simp [bitRev]
  | succ k ih =>
    unfold bitRev
    rw [Nat.mul_comm, Nat.testBit_two_pow_mul_add _ (bitRev_lt k _)]
    by_cases hj : j < k
    · rw [if_pos hj, ih, Nat.testBit_div_two]
      have e : k - 1 - j + 1 = k + 1 - 1 - j := by omega
      rw [e]
      simp [hj, Nat.lt_succ_of_lt hj]
    · rw [if_neg hj]
      by_cases hk : j = k
      · subst hk
        have e : j + 1 - 1 - j = 0 := by omega
        rw [e]
        simp [Nat.testBit_zero]
      · have : ¬ j < k + 1 := by omega
        simp only [this, decide_false, Bool.false_and]
        have : i % 2 = 0 ∨ i % 2 = 1 := by omega
        have hjk : ∃ d, j - k = d + 1 := ⟨j - k - 1, by omega⟩
        obtain ⟨d, hd⟩ := hjk
        rcases this with h | h <;> rw [h, hd] <;> simp [Nat.testBit_succ]

theorem bitRev_bitRev (k i : Nat) (h : i < 2 ^ k) : bitRev k (bitRev k i) = i := by
  apply Nat.eq_of_testBit_eq
  intro j
  rw [testBit_bitRev, testBit_bitRev]
  by_cases hj : j < k
  · have h1 : k - 1 - j < k := by omega
    have h2 : k - 1 - (k - 1 - j) = j := by omega
    simp [hj, h1, h2]
  · have : 2 ^ k ≤ 2 ^ j := Nat.pow_le_pow_right (by omega) (by omega)
    have h' : i.testBit j = false := Nat.testBit_lt_two_pow (by omega)
    simp [hj, h']

theorem bitRev_inj {k i j : Nat} (hi : i < 2 ^ k) (hj : j < 2 ^ k) (h : bitRev k i = bitRev k j) :
    i = j := by
  rw [← bitRev_bitRev k i hi, h, bitRev_bitRev k j hj]

theorem trailingZeros_le (fuel n : Nat) : trailingZeros fuel n ≤ fuel := by
  induction fuel generalizing n with
  | zero => simp [trailingZeros]
  | succ f ih =>
    unfold trailingZeros
    split
    · omega
    · have := ih (n / 2); omega

theorem pow_trailingZeros_dvd (fuel n : Nat) : 2 ^ trailingZeros fuel n ∣ n := by
  induction fuel generalizing n with
  | zero => simp [trailingZeros]
  | succ f ih =>
    unfold trailingZeros
    split
    · simp
    · rename_i h
      have h2 : n = 2 * (n / 2) := by omega
      rw [Nat.pow_succ, Nat.mul_comm]
      conv_rhs => rw [h2]
      exact Nat.mul_dvd_mul_left 2 (ih _)

theorem trailingZeros_pow (fuel k : Nat) : trailingZeros fuel (2 ^ k) = min k fuel := by
  induction fuel generalizing k with
  | zero => simp [trailingZeros]
  | succ f ih =>
    unfold trailingZeros
    cases k with
    | zero => simp
    | succ k =>
      have h1 : 2 ^ (k + 1) % 2 = 0 := by rw [Nat.pow_succ]; omega
      have h2 : 2 ^ (k + 1) / 2 = 2 ^ k := by rw [Nat.pow_succ]; omega
      rw [if_neg (by omega), h2, ih]; omega

theorem trailingZeros64_pow {k : Nat} (h : k ≤ 64) : trailingZeros64 (2 ^ k) = k := by
  rw [trailingZeros64, trailingZeros_pow]; omega

theorem revIndex_eq_bitRev (n i : Nat) : revIndex n i = bitRev (trailingZeros64 n) i := by
  have ht := trailingZeros_le 64 n
  change trailingZeros64 n ≤ 64 at ht
  unfold revIndex
  generalize trailingZeros64 n = t at *
  apply Nat.eq_of_testBit_eq
  intro j
  rw [testBit_bitRev, ← BitVec.getLsbD]
  simp only [BitVec.getLsbD_ushiftRight, BitVec.getLsbD_reverse, BitVec.getMsbD_eq_getLsbD,
    BitVec.getLsbD_ofNat]
  by_cases hj : j < t
  · have h1 : 64 - t + j < 64 := by omega
    have h2 : 64 - 1 - (64 - t + j) = t - 1 - j := by omega
    have h3 : t - 1 - j < 64 := by omega
    simp [hj, h1, h2, h3]
  · have h1 : ¬ 64 - t + j < 64 := by omega
    simp [hj, h1]

/-! ### swaps -/

@[simp] theorem swap_length {G : Type} (i j : Nat) (a : List G) : (swap i j a).length = a.length := by
  unfold swap; split <;> simp

theorem swap_getElem? {G : Type} (i j p : Nat) (a : List G) (hi : i < a.length) (hj : j < a.length) :
    (swap i j a)[p]? = if p = i then a[j]? else if p = j then a[i]? else a[p]? := by
  unfold swap
  rw [List.getElem?_eq_getElem hi, List.getElem?_eq_getElem hj]
  simp only [List.getElem?_set, List.length_set]
  by_cases h1 : p = i
  · subst h1
    by_cases h2 : j = p
    · subst h2; simp [hi]
    · simp [h2, hi]
  · by_cases h2 : p = j
    · subst h2; simp [h1, hj]
    · have h1' : ¬ i = p := fun h => h1 h.symm
      have h2' : ¬ j = p := fun h => h2 h.symm
      simp [h1, h2, h1', h2']

/-- the permutation performed on a slice of length `n` -/
def revPerm (n p : Nat) : Nat :=
  if p < 2 ^ trailingZeros64 n then bitRev (trailingZeros64 n) p else p

theorem two_pow_tz_le {n : Nat} (h : 0 < n) : 2 ^ trailingZeros64 n ≤ n :=
  Nat.le_of_dvd h (pow_trailingZeros_dvd 64 n)

theorem revPerm_lt {n p : Nat} (h : p < n) : revPerm n p < n := by
  unfold revPerm
  have := two_pow_tz_le (n := n) (by omega)
  have := bitRev_lt (trailingZeros64 n) p
  split <;> omega

theorem revPerm_revPerm (n p : Nat) : revPerm n (revPerm n p) = p := by
  unfold revPerm
  by_cases h : p < 2 ^ trailingZeros64 n
  · rw [if_pos h, if_pos (bitRev_lt _ _), bitRev_bitRev _ _ h]
  · rw [if_neg h, if_neg h]

/-- The step only depends on `revPerm`. -/
theorem bitReverseStep_eq {G : Type} (n i : Nat) (a : List G) :
    bitReverseStep n i a = if revPerm n i > i then swap i (revPerm n i) a else a := by
  unfold bitReverseStep revPerm
  simp only [revIndex_eq_bitRev]
  have := bitRev_lt (trailingZeros64 n) i
  by_cases h : i < 2 ^ trailingZeros64 n
  · rw [if_pos h]
  · rw [if_neg h, if_neg (by omega), if_neg (by omega)]

@[simp] theorem bitReverseStep_length {G : Type} (n i : Nat) (a : List G) :
    (bitReverseStep n i a).length = a.length := by
  rw [bitReverseStep_eq]; split <;> simp

theorem bitReverseStep_getElem? {G : Type} (n i p : Nat) (a : List G) (hn : a.length = n)
    (hi : i < n) :
    (bitReverseStep n i a)[p]?
      = if revPerm n i > i ∧ (p = i ∨ p = revPerm n i) then a[revPerm n p]? else a[p]? := by
  rw [bitReverseStep_eq]
  have hr := revPerm_lt hi
  by_cases h : revPerm n i > i
  · rw [if_pos h, swap_getElem? _ _ _ _ (by omega) (by omega)]
    by_cases h1 : p = i
    · subst h1; simp [h]
    · by_cases h2 : p = revPerm n i
      · subst h2
        rw [revPerm_revPerm]
        simp [h, h1]
      · simp [h1, h2]
  · simp [h]

/-- invariant of the loop -/
theorem foldl_bitReverseStep {G : Type} (n m : Nat) (a : List G) (hn : a.length = n) (hm : m ≤ n)
    (p : Nat) :
    ((List.range m).foldl (fun s i => bitReverseStep n i s) a)[p]?
      = if min p (revPerm n p) < m then a[revPerm n p]? else a[p]? := by
  have hlen : ∀ m, ((List.range m).foldl (fun s i => bitReverseStep n i s) a).length = n := by
    intro m
    induction m with
    | zero => simpa
    | succ m ih => simp [List.range_succ, ih]
  induction m generalizing p with
  | zero => simp
  | succ m ih =>
    rw [List.range_succ, List.foldl_append, List.foldl_cons, List.foldl_nil,
      bitReverseStep_getElem? n m p _ (hlen m) (by omega)]
    have ih1 := ih (by omega) p
    have ih2 := ih (by omega) (revPerm n p)
    rw [revPerm_revPerm] at ih2
    by_cases hp : p = m ∨ p = revPerm n m
    · have hmm : min p (revPerm n p) = min m (revPerm n m) := by
        rcases hp with rfl | rfl
        · rfl
        · rw [revPerm_revPerm]; omega
      rw [hmm] at ih1
      have hmm2 : min (revPerm n p) p = min m (revPerm n m) := by rw [Nat.min_comm]; exact hmm
      rw [hmm2] at ih2
      rw [hmm]
      by_cases hgt : revPerm n m > m
      · rw [if_pos ⟨hgt, hp⟩, ih2, if_neg (by omega), if_pos (by omega)]
      · rw [if_neg (by omega), ih1]
        by_cases heq : revPerm n m = m
        · have hpm : p = m := by omega
          subst hpm
          rw [heq]; simp
        · rw [if_pos (by omega), if_pos (by omega)]
    · rw [if_neg (by tauto), ih1]
      have hne : revPerm n p ≠ m := by
        intro h
        apply hp; right
        rw [← h, revPerm_revPerm]
      have hne2 : p ≠ m := fun h => hp (.inl h)
      by_cases h : min p (revPerm n p) < m
      · rw [if_pos h, if_pos (by omega)]
      · rw [if_neg h, if_neg (by omega)]

theorem foldl_bitReverseStep_length {G : Type} (n : Nat) (l : List Nat) (a : List G) :
    (l.foldl (fun s i => bitReverseStep n i s) a).length = a.length := by
  induction l generalizing a with
  | nil => rfl
  | cons i l ih => simp [ih]

@[simp] theorem bitReverse_length {G : Type} (a : List G) : (bitReverse a).length = a.length :=
  foldl_bitReverseStep_length _ _ _

theorem bitReverse_getElem? {G : Type} (a : List G) (p : Nat) :
    (bitReverse a)[p]? = a[revPerm a.length p]? := by
  unfold bitReverse
  rw [foldl_bitReverseStep a.length a.length a rfl le_rfl]
  by_cases h : p < a.length
  · rw [if_pos (by omega)]
  · rw [List.getElem?_eq_none (by omega : a.length ≤ p)]
    have hr : ¬ revPerm a.length p < a.length := by
      intro hc
      have := revPerm_lt hc
      rw [revPerm_revPerm] at this
      exact h this
    split
    · rw [List.getElem?_eq_none (by omega)]
    · rw [List.getElem?_eq_none (by omega)]

theorem perm_swap {G : Type} (i j : Nat) (a : List G) : (swap i j a).Perm a := by
  unfold swap
  split
  · rename_i x y hx hy
    have hi : i < a.length := by
      by_contra hc; rw [List.getElem?_eq_none (by omega)] at hx; cases hx
    have hj : j < a.length := by
      by_contra hc; rw [List.getElem?_eq_none (by omega)] at hy; cases hy
    rw [List.getElem?_eq_getElem hi] at hx
    rw [List.getElem?_eq_getElem hj] at hy
    cases hx; cases hy
    exact List.set_set_perm hi hj
  · exact List.Perm.refl _

theorem perm_bitReverse {G : Type} (a : List G) : (bitReverse a).Perm a := by
  unfold bitReverse
  generalize a.length = n
  generalize List.range n = l
  induction l generalizing a with
  | nil => exact List.Perm.refl _
  | cons i l ih =>
    refine (ih _).trans ?_
    unfold bitReverseStep
    simp only
    split
    · exact perm_swap _ _ _
    · exact List.Perm.refl _

theorem revPerm_pow {k p : Nat} (hk : k < 64) (hp : p < 2 ^ k) : revPerm (2 ^ k) p = bitRev k p := by
  unfold revPerm
  rw [trailingZeros64_pow (by omega), if_pos hp]

/-- for a power of two: position `bitRev k i` receives element `i` -/
theorem bitReverse_pow {G : Type} (k : Nat) (hk : k < 64) (a : List G) (ha : a.length = 2 ^ k) (i : Nat)
    (hi : i < 2 ^ k) : (bitReverse a)[bitRev k i]? = a[i]? := by
  rw [bitReverse_getElem?, ha, revPerm_pow hk (bitRev_lt _ _), bitRev_bitRev _ _ hi]

end ZkSetup
