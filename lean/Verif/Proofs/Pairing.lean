import Verif.Model.Common
/-
Pairing algebra: equations between pairings as equations between scalars.
-/
set_option linter.unusedSectionVars false

namespace ZkSetup
section
variable {F G1 G2 GT : Type} [Field F] [AddCommGroup G1] [Module F G1] [AddCommGroup G2]
  [Module F G2] [AddCommGroup GT] [Module F GT] [DecidableEq GT]
variable {C : Curve F G1 G2 GT} (hC : C.Lawful)
include hC

theorem e_neg_right (P : G1) (Q : G2) : C.e P (-Q) = -C.e P Q := by
  have := hC.smul_right (-1) P Q
  simpa using this

theorem e_smul_smul (x y : F) (P : G1) (Q : G2) : C.e (x • P) (y • Q) = (x * y) • C.e P Q := by
  rw [hC.smul_left, hC.smul_right, smul_smul]

theorem e_zero_left (Q : G2) : C.e 0 Q = 0 := by
  have := hC.smul_left 0 0 Q
  simpa using this

theorem e_zero_right (P : G1) : C.e P 0 = 0 := by
  have := hC.smul_right 0 P 0
  simpa using this

theorem e_gen_inj {x y : F} : x • C.e C.g1 C.g2 = y • C.e C.g1 C.g2 ↔ x = y := by
  constructor
  · intro h
    have h2 : (x - y) • C.e C.g1 C.g2 = 0 := by rw [sub_smul, h, sub_self]
    by_contra hne
    have hxy : x - y ≠ 0 := sub_ne_zero.mpr hne
    have h3 := congrArg (fun z => (x - y)⁻¹ • z) h2
    simp only [smul_smul, inv_mul_cancel₀ hxy, one_smul, smul_zero] at h3
    exact hC.nondeg h3
  · rintro rfl; rfl

theorem g1_ne : C.g1 ≠ 0 := by
  intro h
  apply hC.nondeg
  rw [h, e_zero_left hC]

theorem g2_ne : C.g2 ≠ 0 := by
  intro h
  apply hC.nondeg
  rw [h, e_zero_right hC]

theorem smul_g1_inj {x y : F} : x • C.g1 = y • C.g1 ↔ x = y := by
  constructor
  · intro h
    have := congrArg (fun P => C.e P C.g2) h
    simp only [hC.smul_left] at this
    exact (e_gen_inj hC).mp this
  · rintro rfl; rfl

theorem smul_g2_inj {x y : F} : x • C.g2 = y • C.g2 ↔ x = y := by
  constructor
  · intro h
    have := congrArg (fun P => C.e C.g1 P) h
    simp only [hC.smul_right] at this
    exact (e_gen_inj hC).mp this
  · rintro rfl; rfl

theorem smul_g1_eq_zero {x : F} : x • C.g1 = 0 ↔ x = 0 := by
  have := smul_g1_inj hC (x := x) (y := 0)
  simpa using this

theorem smul_g2_eq_zero {x : F} : x • C.g2 = 0 ↔ x = 0 := by
  have := smul_g2_inj hC (x := x) (y := 0)
  simpa using this

/-- the pairing of two non-identity points is not trivial -/
theorem e_eq_zero {P : G1} {Q : G2} : C.e P Q = 0 ↔ P = 0 ∨ Q = 0 := by
  obtain ⟨x, rfl⟩ := hC.span1 P
  obtain ⟨y, rfl⟩ := hC.span2 Q
  rw [e_smul_smul hC, smul_g1_eq_zero hC, smul_g2_eq_zero hC]
  have := e_gen_inj hC (x := x * y) (y := 0)
  rw [zero_smul] at this
  rw [this, mul_eq_zero]

theorem sameRatio_iff (a1 b1 : G1) (a2 b2 : G2) :
    C.sameRatio a1 b1 a2 b2 = true ↔ C.e a1 a2 = C.e b1 b2 := by
  unfold Curve.sameRatio
  rw [decide_eq_true_iff, e_neg_right hC, neg_add_eq_zero]

theorem e_eq_smul (a b c d : F) :
    C.e (a • C.g1) (b • C.g2) = C.e (c • C.g1) (d • C.g2) ↔ a * b = c * d := by
  rw [e_smul_smul hC, e_smul_smul hC, e_gen_inj hC]

end
end ZkSetup
