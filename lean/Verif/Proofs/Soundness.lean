import Mathlib.Algebra.MvPolynomial.SchwartzZippel
import Mathlib.Algebra.MvPolynomial.CommRing
import Mathlib.Algebra.Polynomial.AlgebraMap
import Mathlib.Algebra.Polynomial.Degree.Lemmas
import Mathlib.Data.Fintype.Card
import Mathlib.Data.Fin.VecNotation
import Mathlib.Tactic.FieldSimp
import Mathlib.Tactic.LinearCombination
/-
Groth16 (with `γ = 1`) against provers that combine the published points linearly: the identity of polynomials behind the
verification equation, and what follows from it.
-/
set_option linter.unusedSectionVars false

namespace ZkSetup.Soundness

open Polynomial

section
variable {F : Type} [Field F]

/-- a linear combination of the points of the first group: `c0(τ) + α·ca(τ) + β·cb(τ) + cd·δ + (β·u(τ) + α·v(τ) + w(τ))/δ` -/
structure Form1 (F : Type) [Field F] where
  c0 : F[X]
  ca : F[X]
  cb : F[X]
  cd : F
  u : F[X]
  v : F[X]
  w : F[X]

/-- a linear combination of the points of the second group: `c0(τ) + cb·β + cd·δ` -/
structure Form2 (F : Type) [Field F] where
  c0 : F[X]
  cb : F
  cd : F

noncomputable def Form1.value (A : Form1 F) (τ α β δ : F) : F :=
  A.c0.eval τ + α * A.ca.eval τ + β * A.cb.eval τ + δ * A.cd + (β * A.u.eval τ + α * A.v.eval τ + A.w.eval τ) / δ

noncomputable def Form2.value (B : Form2 F) (τ β δ : F) : F := B.c0.eval τ + β * B.cb + δ * B.cd

/-- `τ, α, β, δ` -/
abbrev M (F : Type) [Field F] := MvPolynomial (Fin 4) F

noncomputable def lift (p : F[X]) : M F := aeval (MvPolynomial.X 0 : M F) p

local notation "a'" => (MvPolynomial.X 1 : MvPolynomial (Fin 4) _)
local notation "b'" => (MvPolynomial.X 2 : MvPolynomial (Fin 4) _)
local notation "d'" => (MvPolynomial.X 3 : MvPolynomial (Fin 4) _)

/-- `δ·A` -/
noncomputable def Form1.poly (A : Form1 F) : M F :=
  d' * (lift A.c0 + a' * lift A.ca + b' * lift A.cb) + d' * d' * MvPolynomial.C A.cd
    + (b' * lift A.u + a' * lift A.v + lift A.w)

noncomputable def Form2.poly (B : Form2 F) : M F := lift B.c0 + b' * MvPolynomial.C B.cb + d' * MvPolynomial.C B.cd

/-- `δ` times the verification equation -/
noncomputable def equation (A : Form1 F) (B : Form2 F) (C : Form1 F) (u v w : F[X]) : M F :=
  A.poly * B.poly - d' * (a' * b') - d' * (b' * lift u + a' * lift v + lift w) - d' * C.poly

theorem eval_lift (p : F[X]) (t : Fin 4 → F) : MvPolynomial.eval t (lift p) = p.eval (t 0) := by
  unfold lift
  rw [← MvPolynomial.coe_aeval_eq_eval, RingHom.coe_coe, ← Polynomial.aeval_algHom_apply, MvPolynomial.aeval_X, Polynomial.coe_aeval_eq_eval]

theorem eval_equation (A : Form1 F) (B : Form2 F) (C : Form1 F) (u v w : F[X]) (τ α β δ : F) (hδ : δ ≠ 0)
    (h : A.value τ α β δ * B.value τ β δ
      = α * β + (β * u.eval τ + α * v.eval τ + w.eval τ) + C.value τ α β δ * δ) :
    MvPolynomial.eval ![τ, α, β, δ] (equation A B C u v w) = 0 := by
  unfold equation Form1.poly Form2.poly
  simp only [map_add, map_sub, map_mul, eval_lift, MvPolynomial.eval_X, MvPolynomial.eval_C, Matrix.cons_val]
  unfold Form1.value Form2.value at h
  field_simp at h
  linear_combination h

section
variable {P : Type} [CommRing P] [Algebra F P]

/-- the same in polynomials in `δ` over polynomials in `β` over polynomials in `α`, with `t` for `τ` -/
noncomputable def nest (t : P) : M F →ₐ[F] P[X][X][X] :=
  MvPolynomial.aeval (![C (C (C t)), C (C X), C X, X] : Fin 4 → P[X][X][X])

theorem nest_lift (t : P) (p : F[X]) : nest t (lift p) = C (C (C (aeval t p))) := by
  unfold nest lift
  rw [← Polynomial.aeval_algHom_apply, MvPolynomial.aeval_X]
  show aeval (C (C (C t)) : P[X][X][X]) p = _
  have : (C (C (C t)) : P[X][X][X]) = ((CAlgHom (R := F)).comp ((CAlgHom (R := F)).comp (CAlgHom (R := F) (A := P)))) t := rfl
  rw [this, Polynomial.aeval_algHom_apply]
  rfl

end

/-- the coefficients of a polynomial of degree at most 3 -/
theorem cubic {R : Type} [CommRing R] (p q r s : R) (h : C p + C q * X + C r * X ^ 2 + C s * X ^ 3 = (0 : R[X])) :
    p = 0 ∧ q = 0 ∧ r = 0 ∧ s = 0 := by
  have h0 := congrArg (fun t => t.coeff 0) h
  have h1 := congrArg (fun t => t.coeff 1) h
  have h2 := congrArg (fun t => t.coeff 2) h
  have h3 := congrArg (fun t => t.coeff 3) h
  simp [coeff_X, coeff_X_pow, coeff_C] at h0 h1 h2 h3
  exact ⟨h0, h1, h2, h3⟩

/-- coefficients in `δ` -/
theorem step_delta {R : Type} [CommRing R] (am a0 ad b0 bd ab pub cm c0 cd : R)
    (h : (X * C a0 + X * X * C ad + C am) * (C b0 + X * C bd) - X * C ab - X * C pub - X * (X * C c0 + X * X * C cd + C cm)
      = (0 : R[X])) : am * b0 = 0 ∧ a0 * b0 + am * bd - ab - pub - cm = 0 := by
  obtain ⟨e0, e1, -, -⟩ := cubic (am * b0) (a0 * b0 + am * bd - ab - pub - cm) (a0 * bd + ad * b0 - c0) (ad * bd - cd) (by
    rw [← h]
    simp only [map_add, map_sub, map_mul]
    ring)
  exact ⟨e0, e1⟩

/-- coefficients in `β` and `α` -/
theorem step_alpha_beta {R : Type} [CommRing R] (p00 p10 p01 p11 p02 p12 : R)
    (h : C (C p00) + C X * C (C p10) + X * C (C p01) + C X * X * C (C p11) + X * X * C (C p02) + C X * (X * X) * C (C p12)
      = (0 : R[X][X])) : p00 = 0 ∧ p10 = 0 ∧ p01 = 0 ∧ p11 = 0 ∧ p02 = 0 := by
  obtain ⟨e0, e1, e2, -⟩ := cubic (C p00 + X * C p10) (C p01 + X * C p11) (C p02 + X * C p12) 0 (by
    rw [← h]
    simp only [map_add, map_mul, map_zero]
    ring)
  obtain ⟨f0, f1, -, -⟩ := cubic p00 p10 0 0 (by rw [← e0]; simp only [map_zero]; ring)
  obtain ⟨f2, f3, -, -⟩ := cubic p01 p11 0 0 (by rw [← e1]; simp only [map_zero]; ring)
  obtain ⟨f4, f5, -, -⟩ := cubic p02 p12 0 0 (by rw [← e2]; simp only [map_zero]; ring)
  exact ⟨f0, f1, f2, f3, f4⟩

/-- the argument, over any domain `P` for the polynomials in `τ` -/
theorem solve {P : Type} [CommRing P] [IsDomain P] (a0 aa ab ad au av aw b0 bb bd c0 ca cb cd cu cv cw u v w : P)
    (h : (X * C (C (C a0) + C X * C (C aa) + X * C (C ab)) + X * X * C (C (C ad)) + C (X * C (C au) + C X * C (C av) + C (C aw)))
        * (C (C (C b0) + X * C (C bb)) + X * C (C (C bd))) - X * C (C X * X) - X * C (X * C (C u) + C X * C (C v) + C (C w))
        - X * (X * C (C (C c0) + C X * C (C ca) + X * C (C cb)) + X * X * C (C (C cd)) + C (X * C (C cu) + C X * C (C cv) + C (C cw)))
      = (0 : P[X][X][X])) : aa * bb = 1 ∧ (u + cu) * (v + cv) = w + cw := by
  obtain ⟨e0, e1⟩ := step_delta _ _ _ _ _ _ _ _ _ _ h
  rcases mul_eq_zero.mp e0 with hA | hB
  · obtain ⟨h00, h10, h01, h11, h02⟩ := step_alpha_beta (a0 * b0 - w - cw) (aa * b0 - v - cv) (ab * b0 + a0 * bb - u - cu)
      (aa * bb - 1) (ab * bb) 0 (by
        rw [← e1, hA]
        simp only [map_add, map_sub, map_mul, map_one, map_zero]
        ring)
    have hab : ab = 0 := by
      rcases mul_eq_zero.mp h02 with h | h
      · exact h
      · rw [h, mul_zero, zero_sub, neg_eq_zero] at h11
        exact absurd h11 one_ne_zero
    refine ⟨by linear_combination h11, ?_⟩
    rw [hab] at h01
    linear_combination -(v + cv) * h01 + (-h10) * (a0 * bb) + h00 + a0 * b0 * h11
  · obtain ⟨-, -, -, h11, -⟩ := step_alpha_beta (aw * bd - w - cw) (av * bd - v - cv) (au * bd - u - cu) (-1) 0 0 (by
      rw [← e1, hB]
      simp only [map_sub, map_mul, map_one, map_zero, map_neg]
      ring)
    exact absurd (neg_eq_zero.mp h11) one_ne_zero

/-- **What the identity means**: if the verification equation holds as an identity of polynomials, the coefficients with which the
prover has used the points `(β·l_w + α·r_w + o_w)/δ` in the last point of the proof are a solution of the QAP, together with the
public values. -/
theorem identity (A : Form1 F) (B : Form2 F) (D : Form1 F) (u v w : F[X]) (h : equation A B D u v w = 0) :
    (u + D.u) * (v + D.v) = w + D.w := by
  have h1 := congrArg (nest (X : F[X])) h
  unfold equation Form1.poly Form2.poly at h1
  have hC : ∀ x : F, nest X (MvPolynomial.C x : M F) = C (C (C (C x : F[X]))) := fun x => by
    unfold nest
    rw [MvPolynomial.aeval_C]; rfl
  have ha : nest X (MvPolynomial.X 1 : M F) = C (C (X : F[X][X])) := by unfold nest; rw [MvPolynomial.aeval_X]; rfl
  have hb : nest X (MvPolynomial.X 2 : M F) = C (X : F[X][X][X]) := by unfold nest; rw [MvPolynomial.aeval_X]; rfl
  have hd : nest X (MvPolynomial.X 3 : M F) = (X : F[X][X][X][X]) := by unfold nest; rw [MvPolynomial.aeval_X]; rfl
  simp only [map_add, map_sub, map_mul, map_zero, nest_lift, Polynomial.aeval_X_left_apply, hC, ha, hb, hd] at h1
  refine (solve A.c0 A.ca A.cb (C A.cd) A.u A.v A.w B.c0 (C B.cb) (C B.cd) D.c0 D.ca D.cb (C D.cd) D.u D.v D.w u v w ?_).2
  rw [← h1]
  simp only [map_add, map_mul]

/-! ### degrees and counting -/

theorem totalDegree_lift (p : F[X]) : (lift p).totalDegree ≤ p.natDegree := by
  unfold lift
  rw [Polynomial.aeval_eq_sum_range]
  refine MvPolynomial.totalDegree_finsetSum_le fun i hi => ?_
  refine (MvPolynomial.totalDegree_smul_le _ _).trans ?_
  rw [MvPolynomial.totalDegree_X_pow]
  have := Finset.mem_range.mp hi
  omega

theorem deg_add {p q : M F} {n : Nat} (hp : p.totalDegree ≤ n) (hq : q.totalDegree ≤ n) : (p + q).totalDegree ≤ n :=
  (MvPolynomial.totalDegree_add _ _).trans (max_le hp hq)

theorem deg_sub {p q : M F} {n : Nat} (hp : p.totalDegree ≤ n) (hq : q.totalDegree ≤ n) : (p - q).totalDegree ≤ n :=
  (MvPolynomial.totalDegree_sub _ _).trans (max_le hp hq)

theorem deg_mul {p q : M F} {m n k : Nat} (hp : p.totalDegree ≤ m) (hq : q.totalDegree ≤ n) (h : m + n ≤ k) :
    (p * q).totalDegree ≤ k :=
  (MvPolynomial.totalDegree_mul _ _).trans ((Nat.add_le_add hp hq).trans h)

theorem deg_X (i : Fin 4) : (MvPolynomial.X i : M F).totalDegree ≤ 1 := by
  rw [MvPolynomial.totalDegree_X]

theorem deg_C (x : F) : (MvPolynomial.C x : M F).totalDegree ≤ 0 := by
  rw [MvPolynomial.totalDegree_C]

/-- the degrees of a combination of the points for `N` powers of `τ` -/
structure Form1.Bounded (A : Form1 F) (N : Nat) : Prop where
  c0 : A.c0.natDegree ≤ 2 * N - 2
  ca : A.ca.natDegree ≤ N - 1
  cb : A.cb.natDegree ≤ N - 1
  u : A.u.natDegree ≤ N - 1
  v : A.v.natDegree ≤ N - 1
  w : A.w.natDegree ≤ 2 * N - 1

theorem Form1.Bounded.poly {A : Form1 F} {N : Nat} (h : A.Bounded N) (hN : 2 ≤ N) : A.poly.totalDegree ≤ 2 * N - 1 := by
  have l := fun p : F[X] => totalDegree_lift p
  unfold Form1.poly
  refine deg_add (deg_add (deg_mul (deg_X 3) (n := 2 * N - 2) (deg_add (deg_add ((l _).trans h.c0) ?_) ?_) (by omega)) ?_) ?_
  · exact deg_mul (deg_X 1) ((l _).trans h.ca) (by omega)
  · exact deg_mul (deg_X 2) ((l _).trans h.cb) (by omega)
  · exact deg_mul (deg_mul (deg_X 3) (deg_X 3) (k := 2) (by omega)) (deg_C _) (by omega)
  · refine deg_add (deg_add ?_ ?_) ((l _).trans h.w)
    · exact deg_mul (deg_X 2) ((l _).trans h.u) (by omega)
    · exact deg_mul (deg_X 1) ((l _).trans h.v) (by omega)

theorem equation_degree (A : Form1 F) (B : Form2 F) (D : Form1 F) (u v w : F[X]) (N : Nat) (hN : 2 ≤ N) (hA : A.Bounded N)
    (hB : B.c0.natDegree ≤ N - 1) (hD : D.Bounded N) (hu : u.natDegree ≤ N - 1) (hv : v.natDegree ≤ N - 1)
    (hw : w.natDegree ≤ N - 1) : (equation A B D u v w).totalDegree ≤ 3 * N - 2 := by
  have l := fun p : F[X] => totalDegree_lift p
  have hBp : B.poly.totalDegree ≤ N - 1 := by
    unfold Form2.poly
    refine deg_add (deg_add ((l _).trans hB) ?_) ?_
    · exact deg_mul (deg_X 2) (deg_C _) (by omega)
    · exact deg_mul (deg_X 3) (deg_C _) (by omega)
  unfold equation
  refine deg_sub (deg_sub (deg_sub (deg_mul (hA.poly hN) hBp (by omega)) ?_) ?_) ?_
  · exact deg_mul (deg_X 3) (deg_mul (deg_X 1) (deg_X 2) (k := 2) (by omega)) (by omega)
  · refine deg_mul (deg_X 3) (n := N) (deg_add (deg_add ?_ ?_) ?_) (by omega)
    · exact deg_mul (deg_X 2) ((l _).trans hu) (by omega)
    · exact deg_mul (deg_X 1) ((l _).trans hv) (by omega)
    · exact (l _).trans (hw.trans (by omega))
  · exact deg_mul (deg_X 3) (hD.poly hN) (by omega)

open Finset in
/-- the number of zeros of a polynomial in four variables of degree at most `D` in a product of sets of `m` elements each -/
theorem count [DecidableEq F] (p : M F) (hp : p ≠ 0) (D m : Nat) (hD : p.totalDegree ≤ D) (S : Fin 4 → Finset F) (hS : ∀ i, #(S i) = m)
    (Z : Finset (F × F × F × F)) (hZ : ∀ t ∈ Z, (t.1 ∈ S 0 ∧ t.2.1 ∈ S 1 ∧ t.2.2.1 ∈ S 2 ∧ t.2.2.2 ∈ S 3) ∧
      MvPolynomial.eval ![t.1, t.2.1, t.2.2.1, t.2.2.2] p = 0) : #Z ≤ D * m ^ 3 := by
  have hsz := MvPolynomial.schwartz_zippel_sup_sum hp S
  have hle : #Z ≤ #{x ∈ Fintype.piFinset S | MvPolynomial.eval x p = 0} := by
    refine Finset.card_le_card_of_injOn (fun t => ![t.1, t.2.1, t.2.2.1, t.2.2.2]) (fun t ht => ?_) (fun t _ t' _ h => ?_)
    · obtain ⟨⟨h0, h1, h2, h3⟩, h⟩ := hZ t ht
      rw [Finset.mem_coe, Finset.mem_filter, Fintype.mem_piFinset]
      refine ⟨fun i => ?_, h⟩
      fin_cases i <;> assumption
    · have e0 := congrFun h 0
      have e1 := congrFun h 1
      have e2 := congrFun h 2
      have e3 := congrFun h 3
      exact Prod.ext e0 (Prod.ext e1 (Prod.ext e2 e3))
  rcases Nat.eq_zero_or_pos m with rfl | hm
  · have : Z = ∅ := by
      rw [Finset.eq_empty_iff_forall_notMem]
      intro t ht
      have := (hZ t ht).1.1
      rw [Finset.card_eq_zero.mp (hS 0)] at this
      simp at this
    rw [this]
    simp
  · have hsup : (p.support.sup fun s => ∑ i, (s i / #(S i) : ℚ≥0)) ≤ D / m := by
      refine Finset.sup_le fun s hs => ?_
      simp only [hS]
      rw [← Finset.sum_div, ← Nat.cast_sum]
      gcongr
      refine le_trans ?_ hD
      have := MvPolynomial.le_totalDegree hs
      rwa [Finsupp.sum_fintype _ _ (fun _ => rfl)] at this
    have h1 := hsz.trans hsup
    simp only [hS, Finset.prod_const, Finset.card_univ, Fintype.card_fin] at h1
    have hm' : (0 : ℚ≥0) < m := by exact_mod_cast hm
    rw [div_le_div_iff₀ (by positivity) hm'] at h1
    have h2 : #{x ∈ Fintype.piFinset S | MvPolynomial.eval x p = 0} * m ≤ D * m ^ 4 := by exact_mod_cast h1
    refine hle.trans (Nat.le_of_mul_le_mul_right (h2.trans (le_of_eq ?_)) hm)
    ring

end
end ZkSetup.Soundness
