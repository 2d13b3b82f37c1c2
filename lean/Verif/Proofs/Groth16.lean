import Verif.Proofs.Pairing
import Verif.Props.Init
import Verif.Spec.Keys
import Mathlib.RingTheory.Polynomial.Cyclotomic.Basic
import Mathlib.Algebra.BigOperators.Field
/-
Algebra of the Groth16 prover and verifier.
-/
set_option linter.unusedSectionVars false

namespace ZkSetup

open Phase2 Finset

section
variable {F : Type} [Field F]

/-! ### the QAP -/

theorem lcValue_eq (cs : List F) (w : Nat → F) (n : Nat) (ts : List Term) (h : ∀ t ∈ ts, t.wire < n) :
    lcValue cs w ts = ∑ i ∈ range n, w i * lcCoeff cs ts i := by
  induction ts with
  | nil => simp [lcValue, lcCoeff]
  | cons t ts ih =>
    have ih := ih fun t ht => h t (List.mem_cons_of_mem _ ht)
    unfold lcValue at ih ⊢
    rw [List.map_cons, List.sum_cons, ih]
    have hc : ∀ i, lcCoeff cs (t :: ts) i = (if t.wire = i then coeffValue cs t.coeff else 0) + lcCoeff cs ts i := by
      intro i
      unfold lcCoeff
      by_cases hi : t.wire = i <;> simp [List.filter_cons, hi]
    simp only [hc, mul_add, sum_add_distrib, mul_ite, mul_zero]
    rw [sum_ite_eq, if_pos (mem_range.mpr (h t List.mem_cons_self))]
    ring

variable (r : R1CS F) (hr : r.Valid) (k : Nat) (hck : r.constraints.length ≤ 2 ^ k) (d : Lagrange.Domain F) (hd : d.Lawful k)
  (w : Nat → F)

include hck hd in
theorem qapSum_eval (side : R1C → List Term) (hside : ∀ c ∈ r.constraints, ∀ t ∈ side c, t.wire < r.wires) :
    (∀ i < r.constraints.length, (qapSum r (2 ^ k) d.gen side w).eval (d.gen ^ i)
      = lcValue r.coefficients w (side (r.constraint i))) ∧
    (∀ i, r.constraints.length ≤ i → i < 2 ^ k → (qapSum r (2 ^ k) d.gen side w).eval (d.gen ^ i) = 0) ∧
    (qapSum r (2 ^ k) d.gen side w).degree < (2 ^ k : Nat) := by
  refine ⟨fun i hi => ?_, fun i h1 h2 => ?_, ?_⟩
  · unfold qapSum
    rw [Polynomial.eval_finsetSum, lcValue_eq r.coefficients w r.wires]
    · apply sum_congr rfl
      intro x _
      rw [Polynomial.eval_mul, Polynomial.eval_C, (C24_interpolates r side k hck d hd x).1 i hi]
    · intro t ht
      refine hside (r.constraint i) ?_ t ht
      unfold R1CS.constraint
      rw [List.getD_eq_getElem _ _ hi]
      exact List.getElem_mem _
  · unfold qapSum
    rw [Polynomial.eval_finsetSum]
    apply sum_eq_zero
    intro x _
    rw [Polynomial.eval_mul, (C24_interpolates r side k hck d hd x).2.1 i h1 h2, mul_zero]
  · unfold qapSum
    refine (Polynomial.degree_sum_le _ _).trans_lt ?_
    rw [Finset.sup_lt_iff (by exact_mod_cast WithBot.bot_lt_coe _)]
    intro x _
    refine (Polynomial.degree_mul_le _ _).trans_lt ?_
    exact (add_le_of_nonpos_left Polynomial.degree_C_le).trans_lt (C24_interpolates r side k hck d hd x).2.2

include hr hck hd in
/-- `A·B - C` vanishes on the whole domain exactly for the satisfying assignments. -/
theorem satisfies_iff_vanishes : r.Satisfies w ↔ ∀ i < 2 ^ k, (qapProduct r (2 ^ k) d.gen w).eval (d.gen ^ i) = 0 := by
  have hl := qapSum_eval r k hck d hd w R1C.l fun c hc t ht => hr.wire c hc c.l (by simp) t ht
  have hrr := qapSum_eval r k hck d hd w R1C.r fun c hc t ht => hr.wire c hc c.r (by simp) t ht
  have ho := qapSum_eval r k hck d hd w R1C.o fun c hc t ht => hr.wire c hc c.o (by simp) t ht
  have hev : ∀ i < r.constraints.length, (qapProduct r (2 ^ k) d.gen w).eval (d.gen ^ i)
      = lcValue r.coefficients w (r.constraint i).l * lcValue r.coefficients w (r.constraint i).r
        - lcValue r.coefficients w (r.constraint i).o := by
    intro i hi
    unfold qapProduct
    rw [Polynomial.eval_sub, Polynomial.eval_mul, hl.1 i hi, hrr.1 i hi, ho.1 i hi]
  constructor
  · intro h i hi
    by_cases hc : i < r.constraints.length
    · rw [hev i hc, h (r.constraint i), sub_self]
      unfold R1CS.constraint
      rw [List.getD_eq_getElem _ _ hc]
      exact List.getElem_mem _
    · unfold qapProduct
      rw [Polynomial.eval_sub, Polynomial.eval_mul, hl.2.1 i (by omega) hi, ho.2.1 i (by omega) hi]
      simp
  · intro h c hc
    obtain ⟨i, hi, rfl⟩ := List.getElem_of_mem hc
    have := h i (by omega)
    rw [hev i hi, sub_eq_zero] at this
    unfold R1CS.constraint at this
    rw [List.getD_eq_getElem _ _ hi] at this
    exact this

omit [Field F] in
theorem vanishing_monic [Field F] (n : Nat) (hn : 0 < n) : (Polynomial.X ^ n - 1 : Polynomial F).Monic :=
  Polynomial.monic_X_pow_sub_C (1 : F) (by omega)

theorem quotient_spec (n : Nat) (hn : 0 < n) (ω : F) :
    qapProduct r n ω w = remainder r n ω w + (Polynomial.X ^ n - 1) * quotient r n ω w :=
  (Polynomial.modByMonic_add_div _ (Polynomial.X ^ n - 1)).symm

theorem remainder_degree (n : Nat) (hn : 0 < n) (ω : F) : (remainder r n ω w).degree < (n : Nat) := by
  have := Polynomial.degree_modByMonic_lt (qapProduct r n ω w) (vanishing_monic (F := F) n hn)
  have hdeg : (Polynomial.X ^ n - 1 : Polynomial F).degree = n := Polynomial.degree_X_pow_sub_C hn (1 : F)
  rwa [hdeg] at this

include hr hck hd in
/-- The remainder is zero exactly for the satisfying assignments. -/
theorem satisfies_iff_remainder : r.Satisfies w ↔ remainder r (2 ^ k) d.gen w = 0 := by
  have hn : 0 < 2 ^ k := Nat.pow_pos (by omega)
  have hq := quotient_spec r w (2 ^ k) hn d.gen
  have hev : ∀ i < 2 ^ k, (remainder r (2 ^ k) d.gen w).eval (d.gen ^ i) = (qapProduct r (2 ^ k) d.gen w).eval (d.gen ^ i) := by
    intro i _
    rw [hq, Polynomial.eval_add, Polynomial.eval_mul, Polynomial.eval_sub, Polynomial.eval_pow, Polynomial.eval_X,
      Polynomial.eval_one, ← pow_mul, mul_comm i, pow_mul, hd.root.pow_eq_one, one_pow, sub_self, zero_mul, add_zero]
  rw [satisfies_iff_vanishes r hr k hck d hd w]
  constructor
  · intro h
    have hinj : Set.InjOn (fun i => d.gen ^ i) (range (2 ^ k) : Set Nat) := by
      intro a ha b hb hab
      simp only [coe_range, Set.mem_Iio] at ha hb
      exact hd.root.pow_inj ha hb hab
    refine Polynomial.eq_zero_of_degree_lt_of_eval_index_eq_zero (v := fun i => d.gen ^ i) (s := range (2 ^ k)) hinj ?_ ?_
    · rw [card_range]
      exact remainder_degree r w _ hn d.gen
    · intro i hi
      rw [mem_range] at hi
      rw [hev i hi, h i hi]
  · intro h i hi
    rw [← hev i hi, h, Polynomial.eval_zero]

include hr hck hd in
/-- the quotient has degree at most `n - 2` -/
theorem quotient_degree (hk : 1 ≤ k) : (quotient r (2 ^ k) d.gen w).degree < (2 ^ k - 1 : Nat) := by
  have h2 : 2 ≤ 2 ^ k := by
    calc 2 = 2 ^ 1 := rfl
      _ ≤ 2 ^ k := Nat.pow_le_pow_right (by omega) hk
  have hl := (qapSum_eval r k hck d hd w R1C.l fun c hc t ht => hr.wire c hc c.l (by simp) t ht).2.2
  have hrr := (qapSum_eval r k hck d hd w R1C.r fun c hc t ht => hr.wire c hc c.r (by simp) t ht).2.2
  have ho := (qapSum_eval r k hck d hd w R1C.o fun c hc t ht => hr.wire c hc c.o (by simp) t ht).2.2
  have hnat : ∀ p : Polynomial F, p.degree < (2 ^ k : Nat) → p.natDegree ≤ 2 ^ k - 1 := by
    intro p hp
    by_cases h0 : p = 0
    · rw [h0, Polynomial.natDegree_zero]
      omega
    · have := (Polynomial.natDegree_lt_iff_degree_lt h0).mpr hp
      omega
  have hP : (qapProduct r (2 ^ k) d.gen w).natDegree ≤ 2 * (2 ^ k - 1) := by
    unfold qapProduct
    refine (Polynomial.natDegree_sub_le _ _).trans (max_le (Polynomial.natDegree_mul_le.trans ?_) ?_)
    · have := hnat _ hl
      have := hnat _ hrr
      omega
    · have := hnat _ ho
      omega
  have hH : (quotient r (2 ^ k) d.gen w).natDegree ≤ 2 ^ k - 2 := by
    unfold quotient
    rw [Polynomial.natDegree_divByMonic _ (vanishing_monic (2 ^ k) (by omega)),
      show (Polynomial.X ^ 2 ^ k - 1 : Polynomial F).natDegree = 2 ^ k from Polynomial.natDegree_X_pow_sub_C (r := (1 : F))]
    omega
  refine Polynomial.degree_le_natDegree.trans_lt ?_
  exact_mod_cast (by omega : (quotient r (2 ^ k) d.gen w).natDegree < 2 ^ k - 1)

/-! ### multi-exponentiations -/

theorem bitRev_ne_top (k j : Nat) (hj : j < 2 ^ k - 1) : bitRev k j < 2 ^ k - 1 := by
  have hb := bitRev_lt k j
  have hne : bitRev k j ≠ 2 ^ k - 1 := by
    intro h
    have := congrArg (bitRev k) h
    rw [bitRev_bitRev _ _ (by omega), bitRev_top] at this
    omega
  omega

/-- reordering by bit reversal -/
theorem sum_bitRev {M : Type} [AddCommMonoid M] (k : Nat) (f : Nat → M) :
    ∑ j ∈ range (2 ^ k - 1), f (bitRev k j) = ∑ j ∈ range (2 ^ k - 1), f j := by
  refine sum_nbij' (bitRev k) (bitRev k) ?_ ?_ ?_ ?_ ?_
  · intro j hj
    rw [mem_range] at *
    exact bitRev_ne_top k j hj
  · intro j hj
    rw [mem_range] at *
    exact bitRev_ne_top k j hj
  · intro j hj
    rw [mem_range] at hj
    exact bitRev_bitRev _ _ (by omega)
  · intro j hj
    rw [mem_range] at hj
    exact bitRev_bitRev _ _ (by omega)
  · intro j _
    rfl

variable {G : Type} [AddCommGroup G] [Module F G]

theorem msmOf_map {ι : Type} (l : List ι) (x : ι → F) (p : ι → G) :
    msmOf (l.map p) (l.map x) = (l.map fun i => x i • p i).sum := by
  unfold msmOf
  induction l with
  | nil => rfl
  | cons i l ih => simp only [List.map_cons, List.zipWith_cons_cons, List.sum_cons, ih]

open Classical in
/-- leaving out the points that are the identity makes no difference -/
theorem msmOf_filter (l : List Nat) (y x : Nat → F) (g : G) :
    msmOf ((l.filter fun i => y i ≠ 0).map fun i => y i • g) (unmarked (l.map fun i => decide (y i = 0)) (l.map x))
      = (l.map fun i => x i * y i).sum • g := by
  unfold msmOf unmarked
  induction l with
  | nil => simp
  | cons i l ih =>
    by_cases h : y i = 0
    · simp only [List.filter_cons, h, ne_eq, not_true_eq_false, decide_false, Bool.false_eq_true, if_false, List.map_cons, decide_true,
        List.zip_cons_cons, Bool.not_true, List.sum_cons, mul_zero, zero_add]
      exact ih
    · simp only [List.filter_cons, h, ne_eq, not_false_eq_true, decide_true, if_true, List.map_cons, decide_false,
        List.zip_cons_cons, Bool.not_false, List.zipWith_cons_cons, List.sum_cons, add_smul, mul_smul]
      congr 1

theorem list_sum_range {M : Type} [AddCommMonoid M] (n : Nat) (f : Nat → M) :
    ((List.range n).map f).sum = ∑ i ∈ range n, f i := by
  induction n with
  | zero => simp
  | succ n ih => rw [List.range_succ, List.map_append, List.sum_append, ih, sum_range_succ]; simp

end

section
variable {F G1 G2 GT : Type} [Field F] [AddCommGroup G1] [Module F G1] [AddCommGroup G2]
  [Module F G2] [AddCommGroup GT] [Module F GT] [DecidableEq GT]
variable {C : Curve F G1 G2 GT} (hC : C.Lawful)

/-- `Σ_w w·p_w(τ)` -/
theorem qapSum_tau (r : R1CS F) (n : Nat) (ω τ : F) (side : R1C → List Term) (w : Nat → F) :
    (qapSum r n ω side w).eval τ = ∑ i ∈ range r.wires, w i * (qap r n ω side i).eval τ := by
  unfold qapSum
  rw [Polynomial.eval_finsetSum]
  exact sum_congr rfl fun i _ => by rw [Polynomial.eval_mul, Polynomial.eval_C]

variable (r : R1CS F) (k : Nat) (d : Lagrange.Domain F) (τ α β δ : F) (w : Nat → F) (s t : F)

/-- the proof in the exponent -/
theorem prove_trapdoor (hr : r.Valid) (hk : 1 ≤ k) (hck : r.constraints.length ≤ 2 ^ k) (hd : d.Lawful k) :
    prove (trapdoorPK C r k d.gen τ α β δ) r.shared ((List.range r.wires).map w) (quotientCoeffs r k d.gen w) s t =
      { ar := ((qapSum r (2 ^ k) d.gen R1C.l w).eval τ + α + s * δ) • C.g1
        bs := ((qapSum r (2 ^ k) d.gen R1C.r w).eval τ + β + t * δ) • C.g2
        krs := (((∑ j ∈ range (r.wires - r.shared), w (r.shared + j) * wireValue r (2 ^ k) d.gen τ α β (r.shared + j))
            + (quotient r (2 ^ k) d.gen w).eval τ * (τ ^ 2 ^ k - 1)) / δ - s * t * δ
          + t * ((qapSum r (2 ^ k) d.gen R1C.l w).eval τ + α + s * δ)
          + s * ((qapSum r (2 ^ k) d.gen R1C.r w).eval τ + β + t * δ)) • C.g1 } := by
  have hA : msmOf (trapdoorPK C r k d.gen τ α β δ).a (unmarked (trapdoorPK C r k d.gen τ α β δ).infinityA ((List.range r.wires).map w))
      = (qapSum r (2 ^ k) d.gen R1C.l w).eval τ • C.g1 := by
    rw [qapSum_tau, ← list_sum_range]
    exact msmOf_filter _ _ _ _
  have hB : msmOf (trapdoorPK C r k d.gen τ α β δ).b1 (unmarked (trapdoorPK C r k d.gen τ α β δ).infinityB ((List.range r.wires).map w))
      = (qapSum r (2 ^ k) d.gen R1C.r w).eval τ • C.g1 := by
    rw [qapSum_tau, ← list_sum_range]
    exact msmOf_filter _ _ _ _
  have hB2 : msmOf (trapdoorPK C r k d.gen τ α β δ).b2 (unmarked (trapdoorPK C r k d.gen τ α β δ).infinityB ((List.range r.wires).map w))
      = (qapSum r (2 ^ k) d.gen R1C.r w).eval τ • C.g2 := by
    rw [qapSum_tau, ← list_sum_range]
    exact msmOf_filter _ _ _ _
  have hK : msmOf (trapdoorPK C r k d.gen τ α β δ).k (((List.range r.wires).map w).drop r.shared)
      = ((∑ j ∈ range (r.wires - r.shared), w (r.shared + j) * wireValue r (2 ^ k) d.gen τ α β (r.shared + j)) / δ) • C.g1 := by
    have hdrop : ((List.range r.wires).map w).drop r.shared = (List.range (r.wires - r.shared)).map fun j => w (r.shared + j) := by
      apply List.ext_getElem <;> simp
    rw [hdrop]
    unfold trapdoorPK
    rw [msmOf_map, list_sum_range, sum_div, sum_smul]
    exact sum_congr rfl fun j _ => by rw [smul_smul, mul_div_assoc]
  have hZ : msmOf (trapdoorPK C r k d.gen τ α β δ).z (quotientCoeffs r k d.gen w)
      = ((quotient r (2 ^ k) d.gen w).eval τ * (τ ^ 2 ^ k - 1) / δ) • C.g1 := by
    unfold trapdoorPK quotientCoeffs
    rw [msmOf_map, list_sum_range]
    rw [sum_bitRev k fun j => (quotient r (2 ^ k) d.gen w).coeff j • (τ ^ j * (τ ^ 2 ^ k - 1) / δ) • C.g1]
    rw [Polynomial.eval_eq_sum_range' (n := 2 ^ k - 1) (x := τ) (by
      have h1 := quotient_degree r hr k hck d hd w hk
      have h2 : 2 ^ 1 ≤ 2 ^ k := Nat.pow_le_pow_right (by omega) hk
      by_cases h0 : quotient r (2 ^ k) d.gen w = 0
      · rw [h0, Polynomial.natDegree_zero]
        omega
      · exact (Polynomial.natDegree_lt_iff_degree_lt h0).mpr h1), sum_mul, sum_div, sum_smul]
    exact sum_congr rfl fun j _ => by rw [smul_smul]; congr 1; ring
  unfold prove
  simp only [hA, hB, hB2, hK, hZ]
  unfold trapdoorPK
  simp only [← add_smul, ← sub_smul, smul_smul]
  congr 2
  ring

include hC in
/-- **The verification equation for the prover's output**: it holds exactly if the remainder vanishes at `τ`. -/
theorem verifies_iff (hr : r.Valid) (hsh : r.shared ≤ r.wires) (hk : 1 ≤ k) (hck : r.constraints.length ≤ 2 ^ k) (hd : d.Lawful k)
    (hδ : δ ≠ 0) :
    Verifies C (trapdoorVK C r k d.gen τ α β δ) ((List.range r.shared).map w)
      (prove (trapdoorPK C r k d.gen τ α β δ) r.shared ((List.range r.wires).map w) (quotientCoeffs r k d.gen w) s t)
    ↔ (remainder r (2 ^ k) d.gen w).eval τ = 0 := by
  rw [prove_trapdoor r k d τ α β δ w s t hr hk hck hd]
  have hV : msmOf (trapdoorVK C r k d.gen τ α β δ).k ((List.range r.shared).map w)
      = (∑ j ∈ range r.shared, w j * wireValue r (2 ^ k) d.gen τ α β j) • C.g1 := by
    unfold trapdoorVK
    rw [msmOf_map, list_sum_range, sum_smul]
    exact sum_congr rfl fun j _ => by rw [smul_smul]
  unfold Verifies
  rw [hV]
  unfold trapdoorVK
  simp only
  rw [e_smul_smul hC, e_smul_smul hC, hC.smul_left, e_smul_smul hC, ← add_smul, ← add_smul, e_gen_inj hC]
  have hq := congrArg (Polynomial.eval τ) (quotient_spec r w (2 ^ k) (Nat.pow_pos (by omega)) d.gen)
  unfold qapProduct at hq
  simp only [Polynomial.eval_add, Polynomial.eval_mul, Polynomial.eval_sub, Polynomial.eval_pow, Polynomial.eval_X,
    Polynomial.eval_one] at hq
  have hall : (∑ j ∈ range r.shared, w j * wireValue r (2 ^ k) d.gen τ α β j)
      + (∑ j ∈ range (r.wires - r.shared), w (r.shared + j) * wireValue r (2 ^ k) d.gen τ α β (r.shared + j))
      = β * (qapSum r (2 ^ k) d.gen R1C.l w).eval τ + α * (qapSum r (2 ^ k) d.gen R1C.r w).eval τ
        + (qapSum r (2 ^ k) d.gen R1C.o w).eval τ := by
    rw [← sum_range_add (fun j => w j * wireValue r (2 ^ k) d.gen τ α β j), Nat.add_sub_cancel' hsh]
    simp only [qapSum_tau, mul_sum, ← sum_add_distrib, wireValue]
    exact sum_congr rfl fun j _ => by ring
  generalize (qapSum r (2 ^ k) d.gen R1C.l w).eval τ = A at *
  generalize (qapSum r (2 ^ k) d.gen R1C.r w).eval τ = B at *
  generalize (qapSum r (2 ^ k) d.gen R1C.o w).eval τ = O at *
  generalize (∑ j ∈ range r.shared, w j * wireValue r (2 ^ k) d.gen τ α β j) = S1 at *
  generalize (∑ j ∈ range (r.wires - r.shared), w (r.shared + j) * wireValue r (2 ^ k) d.gen τ α β (r.shared + j)) = S2 at *
  generalize (quotient r (2 ^ k) d.gen w).eval τ = H at *
  generalize (remainder r (2 ^ k) d.gen w).eval τ = R at *
  have key : (A + α + s * δ) * (B + β + t * δ) - (α * β + S1
      + ((S2 + H * (τ ^ 2 ^ k - 1)) / δ - s * t * δ + t * (A + α + s * δ) + s * (B + β + t * δ)) * δ) = R := by
    field_simp
    linear_combination hq - hall
  rw [← sub_eq_zero, key]

end
end ZkSetup
