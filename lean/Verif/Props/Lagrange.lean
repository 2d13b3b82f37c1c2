import Verif.Proofs.Lagrange
import Mathlib.LinearAlgebra.Lagrange
import Mathlib.Algebra.Field.ZMod
import Mathlib.Tactic.NormNum.Prime
/-
Properties of `/repo/lagrange`: C22, C23.
-/
namespace ZkSetup

open Finset

variable {F G : Type} [Field F] [AddCommGroup G] [Module F G]

/-- **C22**: on every machine and under every interleaving, `ConvertG1/G2` replaces a slice of length `2^k`
by its inverse DFT. -/
theorem C22_convert_idft (par : Par) (dom : Lagrange.Domain F) (k : Nat) (hk : k < 64)
    (hd : dom.Lawful k) (buff : List G) (hb : buff.length = 2 ^ k) :
    ∃ out, Lagrange.convert par dom buff = some out ∧ out.length = 2 ^ k ∧
      ∀ i < 2 ^ k, out.getD i 0
        = ((2 ^ k : ℕ) : F)⁻¹ • ∑ j ∈ range (2 ^ k), (dom.gen ^ (i * j))⁻¹ • buff.getD j 0 :=
  Lagrange.convert_spec par dom k hk hd buff hb

open Polynomial in
theorem degree_C_mul_le' (a : F) (p : F[X]) : (C a * p).degree ≤ p.degree := by
  by_cases h : a = 0
  · simp [h]
  · rw [degree_C_mul h]

open Polynomial in
/-- the inverse DFT of the powers of `τ` is the Lagrange basis at `τ` -/
theorem lagrange_basis_eval (n : Nat) (hn : 0 < n) (ω τ : F) (hω : IsPrimitiveRoot ω n) (hnF : (n : F) ≠ 0)
    (i : Nat) (hi : i < n) :
    (n : F)⁻¹ * ∑ j ∈ range n, (ω ^ (i * j))⁻¹ * τ ^ j
      = (_root_.Lagrange.basis (range n) (fun i => ω ^ i) i).eval τ := by
  have hω0 : ω ≠ 0 := hω.ne_zero (by omega)
  let P : F[X] := C (n : F)⁻¹ * ∑ j ∈ range n, C ((ω ^ (i * j))⁻¹) * X ^ j
  have hP : ∀ x, P.eval x = (n : F)⁻¹ * ∑ j ∈ range n, (ω ^ (i * j))⁻¹ * x ^ j := by
    intro x
    simp [P, eval_finsetSum]
  rw [← hP]
  have hinj : Set.InjOn (fun i => ω ^ i) (range n : Set ℕ) := by
    intro a ha b hb h
    exact hω.pow_inj (by simpa using ha) (by simpa using hb) h
  have hdeg : P.degree < n := by
    refine lt_of_le_of_lt (degree_C_mul_le' _ _) ?_
    refine lt_of_le_of_lt (degree_sum_le _ _) ?_
    rw [Finset.sup_lt_iff (by exact_mod_cast WithBot.bot_lt_coe n)]
    intro j hj
    refine lt_of_le_of_lt (degree_C_mul_X_pow_le _ _) ?_
    exact_mod_cast mem_range.mp hj
  have heq : P = _root_.Lagrange.basis (range n) (fun i => ω ^ i) i := by
    refine Polynomial.eq_of_degrees_lt_of_eval_index_eq (range n) hinj ?_ ?_ ?_
    · simpa using hdeg
    · rw [_root_.Lagrange.degree_basis hinj (mem_range.mpr hi)]
      simp only [card_range]
      exact_mod_cast (by omega : n - 1 < n)
    · intro k hk
      rw [hP]
      have hterm : ∀ j, (ω ^ (i * j))⁻¹ * (ω ^ k) ^ j = ((ω ^ i)⁻¹ * ω ^ k) ^ j := by
        intro j
        rw [mul_pow, pow_mul, inv_pow]
      simp only [hterm]
      by_cases hik : i = k
      · subst hik
        rw [_root_.Lagrange.eval_basis_self hinj (mem_range.mpr hi),
          inv_mul_cancel₀ (pow_ne_zero _ hω0)]
        simp [hnF]
      · rw [_root_.Lagrange.eval_basis_of_ne hik hk]
        have hx : (ω ^ i)⁻¹ * ω ^ k ≠ 1 := by
          intro h
          have : ω ^ k = ω ^ i := by
            rw [inv_mul_eq_one₀ (pow_ne_zero _ hω0)] at h
            exact h.symm
          exact hik (hinj (by simpa using hk) (by simpa using hi) this).symm
        have hx1 : ((ω ^ i)⁻¹ * ω ^ k) ^ n = 1 := by
          rw [mul_pow, inv_pow, ← pow_mul, ← pow_mul, mul_comm i, mul_comm k, pow_mul, pow_mul,
            hω.pow_eq_one]
          simp
        have := mul_geom_sum ((ω ^ i)⁻¹ * ω ^ k) n
        rw [hx1, sub_self] at this
        rcases mul_eq_zero.mp this with h | h
        · exact absurd (sub_eq_zero.mp h) hx
        · rw [h, mul_zero]
  rw [heq]

/-- **C23**: converting `[m τ^j]` yields `[m L_i(τ)]` with `L_i` the Lagrange basis polynomials of the domain
`{1, ω, ..., ω^(2^k-1)}`. -/
theorem C23_lagrange_basis (par : Par) (dom : Lagrange.Domain F) (k : Nat) (hk : k < 64)
    (hd : dom.Lawful k) (g : G) (m τ : F) :
    Lagrange.convert par dom ((List.range (2 ^ k)).map fun j => (m * τ ^ j) • g)
      = some ((List.range (2 ^ k)).map fun i =>
          (m * (_root_.Lagrange.basis (range (2 ^ k)) (fun i => dom.gen ^ i) i).eval τ) • g) := by
  obtain ⟨out, ho, hl, hout⟩ := C22_convert_idft par dom k hk hd
    ((List.range (2 ^ k)).map fun j => (m * τ ^ j) • g) (by simp)
  rw [ho]
  congr 1
  apply List.ext_getElem (by simp [hl])
  intro i h1 h2
  have hi : i < 2 ^ k := by omega
  have hgetD := hout i hi
  rw [List.getD_eq_getElem _ _ h1] at hgetD
  rw [hgetD, List.getElem_map, List.getElem_range]
  have hnF : ((2 ^ k : ℕ) : F) ≠ 0 := by
    intro h
    have := hd.inv
    push_cast at h
    rw [h, mul_zero] at this
    exact zero_ne_one this
  rw [← lagrange_basis_eval (2 ^ k) (Nat.pow_pos (by omega)) dom.gen τ hd.root hnF i hi]
  have hs : ∀ j ∈ range (2 ^ k), (dom.gen ^ (i * j))⁻¹ •
      ((List.range (2 ^ k)).map fun j => (m * τ ^ j) • g).getD j 0
      = (m * ((dom.gen ^ (i * j))⁻¹ * τ ^ j)) • g := by
    intro j hj
    have hj' := mem_range.mp hj
    rw [List.getD_eq_getElem _ _ (by simpa using hj'), List.getElem_map, List.getElem_range, smul_smul]
    congr 1; ring
  rw [sum_congr rfl hs, ← sum_smul, smul_smul, ← mul_sum]
  congr 1; ring

/-! A lawful domain of size 4 over `ZMod 17`: `ω = 4`. -/

instance : Fact (Nat.Prime 17) := ⟨by norm_num⟩

/-- `fft.NewDomain(4)` over the field with 17 elements -/
def dom4 : Lagrange.Domain (ZMod 17) :=
  { cardinality := 4, gen := 4, cardInv := 13, twiddlesInv := fun s i => (4 ^ (i * 2 ^ s))⁻¹ }

theorem dom4_lawful : dom4.Lawful 2 where
  card := rfl
  root := by
    rw [IsPrimitiveRoot.iff_orderOf]
    apply orderOf_eq_prime_pow (p := 2) (n := 1) <;> decide
  inv := by decide
  tw _ _ _ _ := rfl

/-- a machine with 4 CPUs -/
def par4 : Par := ⟨4, by decide, Conc.Sched.sequential⟩

example :=
  C22_convert_idft par4 dom4 2 (by decide) dom4_lawful [(1 : ZMod 17), 3, 9, 10] rfl

-- m = 2, τ = 3
example := C23_lagrange_basis par4 dom4 2 (by decide) dom4_lawful (1 : ZMod 17) 2 3

end ZkSetup
