import Verif.Model.Common
import Mathlib.Tactic.Ring
import Mathlib.Data.List.Nodup
/-
Helper lemmas about `/repo/common`: work split, parallel element-wise loops.
-/
namespace ZkSetup

/-! ### work split -/

theorem range'_flatten_loop (per left i extra off : Nat) (h : extra ≤ left) :
    (parallelLoop per left i extra off).flatMap (fun r => List.range' r.1 (r.2 - r.1))
      = List.range' (i * per + off) (left * per + extra) := by
  induction left generalizing i extra off with
  | zero => simp [parallelLoop]; omega
  | succ left ih =>
    unfold parallelLoop
    by_cases he : extra > 0
    · simp only [he, if_true, List.flatMap_cons]
      rw [ih (i + 1) (extra - 1) (off + 1) (by omega)]
      have e1 : i * per + off + per + 1 - (i * per + off) = per + 1 := by omega
      have e2 : (i + 1) * per + (off + 1) = i * per + off + (per + 1) := by ring
      have e3 : (left + 1) * per + extra = (per + 1) + (left * per + (extra - 1)) := by
        rw [Nat.succ_mul]; omega
      rw [e1, e2, e3]; exact List.range'_append_1
    · have h0 : extra = 0 := by omega
      subst h0
      simp only [Nat.lt_irrefl, gt_iff_lt, if_false, List.flatMap_cons]
      rw [ih (i + 1) 0 off (by omega)]
      have e1 : i * per + off + per - (i * per + off) = per := by omega
      have e2 : (i + 1) * per + off = i * per + off + per := by ring
      have e3 : (left + 1) * per + 0 = per + (left * per + 0) := by rw [Nat.succ_mul]; omega
      rw [e1, e2, e3]; exact List.range'_append_1

theorem parallelLoop_length (per left i extra off : Nat) :
    (parallelLoop per left i extra off).length = left := by
  induction left generalizing i extra off with
  | zero => simp [parallelLoop]
  | succ left ih => unfold parallelLoop; split <;> simp [ih]

theorem parallelLoop_mem {per left i extra off : Nat} {r : Nat × Nat} (hp : 0 < per)
    (h : r ∈ parallelLoop per left i extra off) : r.1 < r.2 := by
  induction left generalizing i extra off with
  | zero => simp [parallelLoop] at h
  | succ left ih =>
    unfold parallelLoop at h
    split at h <;> rcases List.mem_cons.mp h with h | h <;> first | exact ih h | (subst h; simp; omega)

/-- the parameters computed before the loop -/
theorem parallelRanges_eq (n tasks : Nat) (ht : 0 < tasks) :
    ∃ per left extra, 0 < per ∧ extra ≤ left ∧ left * per + extra = n ∧ left = min n tasks ∧
      parallelRanges n tasks = some (parallelLoop per left 0 extra 0) := by
  unfold parallelRanges
  rw [if_neg (by omega)]
  by_cases h : n / tasks < 1
  · have hn : n < tasks := by
      by_contra hc
      have := Nat.div_pos (Nat.le_of_not_lt hc) ht
      omega
    refine ⟨1, n, n - n * 1, by omega, by omega, by omega, by omega, ?_⟩
    simp [h]
  · have hge : tasks ≤ n := by
      by_contra hc
      rw [Nat.div_eq_of_lt (by omega)] at h
      omega
    have hm := Nat.div_add_mod n tasks
    have hlt := Nat.mod_lt n ht
    refine ⟨n / tasks, tasks, n - tasks * (n / tasks), by omega, by omega, ?_, by omega, ?_⟩
    · omega
    · simp [h]

/-! ### element-wise steps -/

theorem acts_modify {G : Type} (i : Nat) (f : G → G) :
    Acts (fun j => j = i) (fun s : List G => s.modify i f) where
  len s := by simp
  out s j hj := by
    rw [List.getElem?_modify]
    have : i ≠ j := fun h => hj h.symm
    simp [this]
  loc s t hl h j hj := by
    subst hj
    simp [h j rfl]

theorem foldl_modify_range' {G : Type} (f : Nat → G → G) (a n : Nat) (s : List G) :
    (List.range' a n).foldl (fun s i => s.modify i (f i)) s
      = s.mapIdx (fun i x => if a ≤ i ∧ i < a + n then f i x else x) := by
  induction n generalizing a s with
  | zero =>
    apply List.ext_getElem?
    intro i
    have : ¬ (a ≤ i ∧ i < a + 0) := by omega
    simp only [List.range'_zero, List.foldl_nil, List.getElem?_mapIdx, if_neg this, Option.map_id']
  | succ n ih =>
    rw [List.range'_succ, List.foldl_cons, ih]
    apply List.ext_getElem?
    intro i
    simp only [List.getElem?_mapIdx, List.getElem?_modify]
    cases hs : s[i]? with
    | none => simp
    | some x =>
      by_cases hi : a = i
      · subst hi
        simp
      · simp only [hi, if_false, Option.map_some, id_map']
        by_cases hc : a + 1 ≤ i ∧ i < a + 1 + n
        · rw [if_pos hc, if_pos (by omega)]
        · rw [if_neg hc, if_neg (by omega)]

theorem foldl_modify_range {G : Type} (f : Nat → G → G) (n : Nat) (s : List G) :
    (List.range n).foldl (fun s i => s.modify i (f i)) s
      = s.mapIdx (fun i x => if i < n then f i x else x) := by
  rw [List.range_eq_range', foldl_modify_range']
  simp

/-- the indices visited by a list of ranges, in order -/
def rangesIdx (rs : List (Nat × Nat)) : List Nat := rs.flatMap fun r => List.range' r.1 (r.2 - r.1)

theorem workRange_run {σ : Type} (body : Nat → Conc σ) (r : Nat × Nat) (s : σ) :
    (workRange body r).run s
      = (List.range' r.1 (r.2 - r.1)).foldl (fun s i => (body i).run s) s := by
  simp [workRange, Conc.run_seqs, List.foldl_map]

/-- Disjoint index ranges: a fork-all over ranges of independent bodies is independent. -/
theorem indep_ranges {σ : Type} (body : Nat → Conc σ) (rs : List (Nat × Nat))
    (hd : (rangesIdx rs).Nodup) (hi : ∀ i ∈ rangesIdx rs, (body i).Indep)
    (hc : ∀ i ∈ rangesIdx rs, ∀ j ∈ rangesIdx rs, i ≠ j →
      ∀ f ∈ (body i).steps, ∀ g ∈ (body j).steps, ∀ s, f (g s) = g (f s)) :
    (Conc.pars (rs.map (workRange body))).Indep := by
  apply Conc.indep_pars
  · intro p hp
    obtain ⟨r, hr, rfl⟩ := List.mem_map.mp hp
    apply Conc.indep_seqs
    intro q hq
    obtain ⟨i, hi', rfl⟩ := List.mem_map.mp hq
    exact hi i (List.mem_flatMap.mpr ⟨r, hr, hi'⟩)
  · rw [List.pairwise_map]
    rw [rangesIdx, List.nodup_flatMap] at hd
    refine (List.Pairwise.and_mem.mp hd.2).imp ?_
    intro r t hrt g hg h hh s
    obtain ⟨p, hp, hg⟩ := Conc.mem_steps_seqs.mp hg
    obtain ⟨q, hq, hh⟩ := Conc.mem_steps_seqs.mp hh
    obtain ⟨i, hi, rfl⟩ := List.mem_map.mp hp
    obtain ⟨j, hj, rfl⟩ := List.mem_map.mp hq
    refine hc i (List.mem_flatMap.mpr ⟨r, hrt.1, hi⟩) j (List.mem_flatMap.mpr ⟨t, hrt.2.1, hj⟩) ?_
      g hg h hh s
    rintro rfl
    exact hrt.2.2 hi hj

theorem foldl_ranges {σ : Type} (body : Nat → Conc σ) (rs : List (Nat × Nat)) (s : σ) :
    (Conc.pars (rs.map (workRange body))).run s
      = (rangesIdx rs).foldl (fun s i => (body i).run s) s := by
  rw [Conc.run_pars]
  induction rs generalizing s with
  | nil => rfl
  | cons r rs ih =>
    simp only [rangesIdx, List.map_cons, List.foldl_cons, List.flatMap_cons, List.foldl_append,
      workRange_run] at *
    rw [ih]

theorem rangesIdx_parallelRanges {n tasks : Nat} (ht : 0 < tasks) :
    ∃ rs, parallelRanges n tasks = some rs ∧ rangesIdx rs = List.range n := by
  obtain ⟨per, left, extra, _, h2, h3, _, h5⟩ := parallelRanges_eq n tasks ht
  have hfl := range'_flatten_loop per left 0 extra 0 h2
  rw [Nat.zero_mul, Nat.zero_add, h3, ← List.range_eq_range'] at hfl
  exact ⟨_, h5, hfl⟩

/-- A parallel loop whose bodies are independent and commute behaves like the sequential loop under
every schedule. -/
theorem parallelize_exec {σ : Type} (body : Nat → Conc σ) (n tasks : Nat) (ht : 0 < tasks)
    (hi : ∀ i < n, (body i).Indep)
    (hc : ∀ i < n, ∀ j < n, i ≠ j →
      ∀ f ∈ (body i).steps, ∀ g ∈ (body j).steps, ∀ s, f (g s) = g (f s)) :
    ∃ p, parallelize n tasks body = some p ∧ p.Indep ∧
      (∀ s, p.run s = (List.range n).foldl (fun s i => (body i).run s) s) ∧
      ∀ f ∈ p.steps, ∃ i < n, f ∈ (body i).steps := by
  obtain ⟨rs, h5, hfl⟩ := rangesIdx_parallelRanges (n := n) ht
  refine ⟨_, by rw [parallelize, h5]; rfl, ?_, ?_, ?_⟩
  · apply indep_ranges
    · rw [hfl]; exact List.nodup_range
    · rw [hfl]
      intro i hi'
      exact hi i (List.mem_range.mp hi')
    · rw [hfl]
      intro i hi j hj
      exact hc i (List.mem_range.mp hi) j (List.mem_range.mp hj)
  · intro s
    rw [foldl_ranges, hfl]
  · intro f hf
    obtain ⟨p, hp, hf⟩ := Conc.mem_steps_pars.mp hf
    obtain ⟨r, hr, rfl⟩ := List.mem_map.mp hp
    obtain ⟨q, hq, hf⟩ := Conc.mem_steps_seqs.mp hf
    obtain ⟨i, hi', rfl⟩ := List.mem_map.mp hq
    refine ⟨i, ?_, hf⟩
    rw [← List.mem_range, ← hfl]
    exact List.mem_flatMap.mpr ⟨r, hr, hi'⟩

theorem Par.mapIdx_eq' {G : Type} (par : Par) (n : Nat) (f : Nat → G → G) (a : List G) :
    par.mapIdx n f a = a.mapIdx (fun i x => if i < n then f i x else x) := by
  obtain ⟨p, hp, hi, hr, _⟩ := parallelize_exec (fun i => .step fun s : List G => s.modify i (f i)) n
    par.cpus par.cpus_pos (fun _ _ => trivial) (by
      intro i _ j _ hij g hg h hh s
      simp only [Conc.steps, List.mem_singleton] at hg hh
      subst hg hh
      exact Acts.comm (acts_modify i (f i)) (acts_modify j (f j)) (fun k hk hk' => hij (by omega)) s)
  unfold Par.mapIdx
  rw [hp]
  show par.sched.exec p a = _
  rw [par.sched.exec_eq p hi, hr]
  exact foldl_modify_range f n a

theorem Par.mapIdx_eq {G : Type} (par : Par) (f : Nat → G → G) (a : List G) :
    par.mapIdx a.length f a = a.mapIdx f := by
  rw [Par.mapIdx_eq']
  apply List.ext_getElem?
  intro i
  simp only [List.getElem?_mapIdx]
  cases h : a[i]? with
  | none => rfl
  | some x =>
    have : i < a.length := by
      by_contra hc
      rw [List.getElem?_eq_none (by omega)] at h; cases h
    simp [this]

end ZkSetup
