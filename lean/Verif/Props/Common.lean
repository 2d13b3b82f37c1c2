import Verif.Proofs.Lagrange
import Verif.Model.Phase1
/-
Properties of `/repo/common`: C01 - C04.
-/
namespace ZkSetup

open ZkSetup.Lagrange ZkSetup.Phase1

/-! ### C01: the work split -/

/-- consecutive ranges from `a` to `b`, none of them empty -/
def Consecutive : Nat → List (Nat × Nat) → Nat → Prop
  | a, [], b => a = b
  | a, r :: rs, b => r.1 = a ∧ r.1 < r.2 ∧ Consecutive r.2 rs b

theorem consecutive_loop (per left i extra off : Nat) (hp : 0 < per) (h : extra ≤ left) :
    Consecutive (i * per + off) (parallelLoop per left i extra off)
      (i * per + off + left * per + extra) := by
  induction left generalizing i extra off with
  | zero =>
    have : extra = 0 := by omega
    subst this
    simp [parallelLoop, Consecutive]
  | succ left ih =>
    unfold parallelLoop
    have e : (i + 1) * per = i * per + per := Nat.succ_mul i per
    have e2 : (left + 1) * per = left * per + per := Nat.succ_mul left per
    split
    · refine ⟨rfl, by simp only; omega, ?_⟩
      have := ih (i + 1) (extra - 1) (off + 1) (by omega)
      rw [e] at this
      have h1 : i * per + per + (off + 1) = i * per + off + per + 1 := by omega
      have h2 : i * per + per + (off + 1) + left * per + (extra - 1)
          = i * per + off + (left + 1) * per + extra := by omega
      rw [h2, h1] at this
      exact this
    · refine ⟨rfl, by simp only; omega, ?_⟩
      have := ih (i + 1) extra off (by omega)
      rw [e] at this
      have h1 : i * per + per + off = i * per + off + per := by omega
      have h2 : i * per + per + off + left * per + extra
          = i * per + off + (left + 1) * per + extra := by omega
      rw [h2, h1] at this
      exact this

/-- **C01**: for every `n` and every positive number of tasks, the ranges handed to the goroutines are
nonempty, consecutive from `0` to `n`, `min n tasks` many, and visit each index once. -/
theorem C01_parallelize_partition (n tasks : Nat) (ht : 0 < tasks) :
    ∃ rs, parallelRanges n tasks = some rs ∧ Consecutive 0 rs n ∧ rs.length = min n tasks ∧
      rs.flatMap (fun r => List.range' r.1 (r.2 - r.1)) = List.range n := by
  obtain ⟨per, left, extra, h1, h2, h3, h4, h5⟩ := parallelRanges_eq n tasks ht
  refine ⟨_, h5, ?_, ?_, ?_⟩
  · have := consecutive_loop per left 0 extra 0 h1 h2
    rw [Nat.zero_mul, Nat.zero_add, Nat.zero_add, h3] at this
    exact this
  · rw [parallelLoop_length, h4]
  · have := range'_flatten_loop per left 0 extra 0 h2
    rwa [Nat.zero_mul, Nat.zero_add, h3, ← List.range_eq_range'] at this

/-- **C01**: without iterations no goroutine is started. -/
theorem C01_no_work (tasks : Nat) (ht : 0 < tasks) : parallelRanges 0 tasks = some [] := by
  obtain ⟨rs, h, _, hl, _⟩ := C01_parallelize_partition 0 tasks ht
  have : rs = [] := List.length_eq_zero_iff.mp (by simpa using hl)
  rw [h, this]

/-- **C01**, the excluded case: zero tasks is the division by zero panic. -/
theorem C01_zero_tasks_panics (n : Nat) : parallelRanges n 0 = none := rfl

-- 10 iterations on 4 CPUs, and more CPUs than iterations
example : parallelRanges 10 4 = some [(0, 3), (3, 6), (6, 8), (8, 10)] := by decide
example : parallelRanges 2 8 = some [(0, 1), (1, 2)] := by decide

/-! ### C02: parallel loops -/

/-- **C02**: under every interleaving, the loop `a[i] = f(i, a[i])` split over any number of goroutines ends
in the sequential result, and there is an interleaving. -/
theorem C02_parallel_loop {G : Type} (f : Nat → G → G) (tasks : Nat) (ht : 0 < tasks) (a : List G) :
    ∃ p, parallelize a.length tasks (fun i => .step fun s : List G => s.modify i (f i)) = some p ∧
      ∀ s', p.Reaches a s' ↔ s' = a.mapIdx f := by
  obtain ⟨p, hp, hi, hr, _⟩ := parallelize_exec (fun i => .step fun s : List G => s.modify i (f i))
    a.length tasks ht (fun _ _ => trivial) (by
      intro i _ j _ hij g hg h hh s
      simp only [Conc.steps, List.mem_singleton] at hg hh
      subst hg hh
      exact Acts.comm (acts_modify i (f i)) (acts_modify j (f j)) (fun k h1 h2 => hij (h1 ▸ h2)) s)
  refine ⟨p, hp, fun s' => ?_⟩
  have hrun : p.run a = a.mapIdx f := by
    rw [hr a]
    simp only [Conc.run]
    rw [foldl_modify_range]
    apply List.ext_getElem?
    intro i
    simp only [List.getElem?_mapIdx]
    by_cases h : i < a.length
    · simp [h]
    · simp [List.getElem?_eq_none (Nat.le_of_not_lt h)]
  constructor
  · rintro ⟨tr, hl, rfl⟩
    rw [Conc.exec_lin hl hi, hrun]
  · rintro rfl
    exact ⟨p.steps, Conc.lin_steps p, by rw [Conc.exec_steps, hrun]⟩

/-- **C02** for `batchMul`: every element is multiplied by `b`, on every machine. -/
theorem C02_batchMul {F : Type} [Field F] (par : Par) (a : List F) (b : F) :
    batchMul par a b = a.map (· * b) := by
  rw [batchMul, Par.mapIdx_eq]
  apply List.ext_getElem?
  intro i
  simp

/-- **C02** for `randomize`: position `i` gets the value drawn for it. -/
theorem C02_randomize {F : Type} [Field F] (par : Par) (rnd : Nat → F) (r : List F) :
    randomize par rnd r = (List.range r.length).map rnd := by
  rw [randomize, Par.mapIdx_eq]
  apply List.ext_getElem?
  intro i
  by_cases h : i < r.length
  · simp [h]
  · simp [h]

theorem difFFT_some {F G : Type} [Field F] [AddCommGroup G] [Module F G] (cpus : Nat)
    (tw : Nat → Nat → F) (maxSplits : Nat) (hcpu : ∀ stage < maxSplits, 0 < cpus / 2 ^ stage) (n : Nat) :
    ∀ off stage, (difFFT (G := G) cpus tw maxSplits off n stage).isSome := by
  induction n using Nat.strong_induction_on with
  | _ n ih =>
    intro off stage
    rw [difFFT]
    split
    · rfl
    · split
      · rfl
      · have hb : (butterflies (G := G) cpus tw off (n / 2) stage maxSplits).isSome := by
          unfold butterflies
          split
          · rename_i h
            obtain ⟨rs, hrs, _⟩ := C01_parallelize_partition (n / 2) _ (hcpu stage h.2)
            simp [parallelize, hrs]
          · rfl
        obtain ⟨b, hb⟩ := Option.isSome_iff_exists.mp hb
        obtain ⟨hi, hhi⟩ := Option.isSome_iff_exists.mp
          (ih (n - n / 2) (by omega) (off + n / 2) (stage + 1))
        obtain ⟨lo, hlo⟩ := Option.isSome_iff_exists.mp (ih (n / 2) (by omega) off (stage + 1))
        simp only [hb, hhi, hlo, Option.bind_eq_bind, Option.bind_some]
        split
        · rfl
        · split <;> rfl

/-- **C02**: the FFT never calls `Parallelize` with zero tasks, whatever the CPU count, the twiddles and the
length. -/
theorem C02_fft_no_panic {F G : Type} [Field F] [AddCommGroup G] [Module F G] (par : Par)
    (dom : Domain F) (buff : List G) : (convert par dom buff).isSome := by
  unfold convert
  obtain ⟨p, hp⟩ := Option.isSome_iff_exists.mp (difFFT_some (G := G) par.cpus dom.twiddlesInv
    (trailingZeros64 (nextPowerOfTwo par.cpus)) (fun st => two_pow_maxSplits par.cpus st par.cpus_pos)
    buff.length 0 0)
  simp [hp]

-- 3 CPUs, 5 elements
example : ∃ p, parallelize 5 3 (fun i => .step fun s : List Nat => s.modify i (· + i)) = some p ∧
    ∀ s', p.Reaches [10, 10, 10, 10, 10] s' ↔ s' = [10, 11, 12, 13, 14] :=
  C02_parallel_loop (fun i x => x + i) 3 (by decide) [10, 10, 10, 10, 10]

/-! ### C03: sequential bit reversal -/

/-- **C03**: for a slice of length `2^k` the element at `i` moves to the index with the `k` low bits of `i`
reversed. -/
theorem C03_bitReverse_index {G : Type} (k : Nat) (hk : k < 64) (a : List G) (ha : a.length = 2 ^ k)
    (i : Nat) (hi : i < 2 ^ k) : (bitReverse a)[bitRev k i]? = a[i]? ∧
      ∀ j < k, (bitRev k i).testBit j = i.testBit (k - 1 - j) := by
  refine ⟨bitReverse_pow k hk a ha i hi, fun j hj => ?_⟩
  rw [testBit_bitRev]
  simp [hj]

/-- **C03**: applying it twice restores the slice (of any length). -/
theorem C03_bitReverse_involutive {G : Type} (a : List G) : bitReverse (bitReverse a) = a := by
  apply List.ext_getElem?
  intro i
  rw [bitReverse_getElem?, bitReverse_getElem?, bitReverse_length, revPerm_revPerm]

/-- **C03**: for any length it is a permutation, and all index accesses are in bounds. -/
theorem C03_bitReverse_perm {G : Type} (a : List G) : (bitReverse a).Perm a ∧
    ∀ i < a.length, revIndex a.length i < a.length := by
  refine ⟨perm_bitReverse a, fun i hi => ?_⟩
  rw [revIndex_eq_bitRev]
  exact Nat.lt_of_lt_of_le (bitRev_lt _ _) (two_pow_tz_le (by omega))

example : bitReverse [0, 1, 2, 3, 4, 5, 6, 7] = [0, 4, 2, 6, 1, 5, 3, 7] := by decide +kernel

/-! ### C04: concurrent bit reversal -/

/-- **C04**: under every interleaving of the workers the result is the sequential bit reversal. -/
theorem C04_concurrent_bitReverse {G : Type} [AddCommGroup G] (cpus : Nat) (hc : 0 < cpus) (a s' : List G) :
    (bitReversePoints a.length cpus).Reaches a s' ↔ s' = bitReverse a := by
  have hidx := bitReverseRanges_idx a.length cpus hc
  have hi : (bitReversePoints (G := G) a.length cpus).Indep := by
    unfold bitReversePoints
    apply indep_ranges
    · rw [hidx]; exact List.nodup_range
    · intro i _; trivial
    · intro i _ j _ hij f hf g hg s
      simp only [Conc.steps, List.mem_singleton] at hf hg
      subst hf hg
      exact Acts.comm (acts_bitReverseStep a.length i) (acts_bitReverseStep a.length j)
        (fun p h1 h2 => bitReverse_disjoint hij h1 h2) s
  have hrun : (bitReversePoints a.length cpus).run a = bitReverse a := by
    unfold bitReversePoints
    rw [foldl_ranges, hidx]
    rfl
  constructor
  · rintro ⟨tr, hl, rfl⟩
    rw [Conc.exec_lin hl hi, hrun]
  · rintro rfl
    exact ⟨_, Conc.lin_steps _, by rw [Conc.exec_steps, hrun]⟩

/-- **C04**: every index is handled by exactly one worker and two iterations never touch the same element. -/
theorem C04_workers_disjoint {G : Type} [AddCommGroup G] (n cpus : Nat) (hc : 0 < cpus) :
    (bitReverseRanges n cpus).flatMap (fun r => List.range' r.1 (r.2 - r.1)) = List.range n ∧
    ∃ touched : Nat → Nat → Prop,
      (∀ i, Acts (touched i) (bitReverseStep (G := G) n i)) ∧
      ∀ i j p, i ≠ j → touched i p → ¬ touched j p :=
  ⟨bitReverseRanges_idx n cpus hc, _, fun i => acts_bitReverseStep n i,
    fun _ _ _ hij h1 h2 => bitReverse_disjoint hij h1 h2⟩

example : bitReverseRanges 8 3 = [(0, 2), (2, 4), (4, 8)] := by decide
example : (bitReversePoints 4 3).Reaches [(10 : Int), 11, 12, 13] [10, 12, 11, 13] :=
  (C04_concurrent_bitReverse 3 (by decide) [(10 : Int), 11, 12, 13] _).mpr (by decide +kernel)

end ZkSetup
