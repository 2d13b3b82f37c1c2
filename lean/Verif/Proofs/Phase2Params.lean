import Verif.Proofs.Phase2Ceremony
/-
What contributions do to the parameters, whatever follows them in the file.
-/
set_option linter.unusedSectionVars false

namespace ZkSetup

open Phase2
open Phase1 (makeLen wrap64)

section
variable {F G1 G2 GT : Type} [Field F] [AddCommGroup G1] [Module F G1] [AddCommGroup G2]
  [Module F G2] [AddCommGroup GT] [Module F GT] [DecidableEq G1] [DecidableEq G2] [DecidableEq GT]

/-- the header of `f` with another counter -/
def P2File.headerWith (f : P2File G1 G2) (c : Int) : Header := { f.header with contributions := c }

/-- parameters of `f` after a header with counter `c`, then anything -/
def P2File.Starts (C : Curve F G1 G2 GT) (H : HeaderCodec) (f : P2File G1 G2) (c : Int) (file : Bytes) : Prop :=
  ∃ rest, file = H.enc (f.headerWith c) ++ (f.params C ++ rest)

theorem P2File.encode_starts (C : Curve F G1 G2 GT) (H : HeaderCodec) (f : P2File G1 G2) (junk : Bytes) :
    f.Starts C H f.records.length (f.encode C H ++ junk) :=
  ⟨f.records.flatMap (record2Bytes C) ++ junk, by simp [P2File.encode, P2File.headerWith, P2File.header]⟩

theorem copyContributions_out (C : Curve F G1 G2 GT) (n : Nat) : ∀ (c0 c : Contribution G1 G2) (s s' : IOSt),
    (copyContributions C n c0).run s = (.ok c, s') → ∃ more, s'.out = s.out ++ more := by
  induction n with
  | zero =>
    intro c0 c s s' h
    simp only [copyContributions, Go.pure_run, Prod.mk.injEq] at h
    exact ⟨[], by rw [← h.2]; simp⟩
  | succ n ih =>
    intro c0 c s s' h
    unfold copyContributions at h
    obtain ⟨c1, s1, h1, h⟩ := Go.bind_eq_ok h
    obtain ⟨u, s2, h2, h⟩ := Go.bind_eq_ok h
    obtain ⟨more, hm⟩ := ih _ _ _ _ h
    have e1 : s1.out = s.out := by
      simp only [IOSt.onRd, Prod.mk.injEq] at h1
      rw [← h1.2]
    have e2 : s2.out = s1.out ++ c1.writeTo C := by
      simp only [IOSt.emit_run, Prod.mk.injEq] at h2
      rw [← h2.2]
    exact ⟨c1.writeTo C ++ more, by rw [hm, e2, e1]; simp⟩

variable {C : Curve F G1 G2 GT} (hC : C.Lawful)
variable {H : HeaderCodec} (hH : H.Lawful)
include hC hH

/-- A contribution that succeeds scales the parameters, whatever follows them. -/
theorem contribute2_params (par : Par) (b : Nat) (hb : 0 < b) (rnd : Rand F) (f : P2File G1 G2) (hf : f.WF) (c : Int)
    (hc1 : -(2 ^ 63) ≤ c) (hc2 : c < 2 ^ 63) (file : Bytes) (hs : f.Starts C H c file) (hash out : Bytes)
    (h : Phase2.contribute C H par b rnd file = (.ok hash, out)) :
    (f.contribute C rnd).Starts C H (wrap64 (c + 1)) out := by
  obtain ⟨rest, rfl⟩ := hs
  have hdp := hf.domain_pos
  have hdom := hf.domain
  have hz := hf.z
  have hir : (f.headerWith c).InRange := by
    have := P2File.header_inRange hC hH hf
    exact ⟨this.wires, this.witness, this.pub, this.privateCommitted, this.constraints, this.domain, hc1, hc2⟩
  have hw3 : wrap64 (f.header.domain - 1) = (f.z.length : Int) := by
    rw [wrap64_eq] <;> simp only [P2File.header] <;> omega
  have hw4 : f.header.witness = (f.pkk.length : Int) := by simp [P2File.header, hf.pkk]
  have hread := hH.dec_enc _ hir 4096 0 (f.params C ++ rest)
  unfold Phase2.contribute contributeBody Header.read at h
  have hrd : Rd.buffered 4096 (H.enc (f.headerWith c) ++ (f.params C ++ rest)) = ⟨4096, 0, H.enc (f.headerWith c) ++ (f.params C ++ rest)⟩ := rfl
  rw [hrd, Go.bind_ok (IOSt.onRd_ok hread)] at h
  unfold contributeWith Header.write at h
  rw [Go.bind_ok (IOSt.emit_run _ _)] at h
  have hd : (f.headerWith c).increment.domain = f.header.domain := rfl
  have hw : (f.headerWith c).increment.witness = f.header.witness := rfl
  rw [hd, hw, hw3, hw4] at h
  unfold P2File.params at h
  simp only [List.append_assoc] at h
  rw [Go.bind_ok (scalePoint_spec hC.codec1 _ _ _ _ _ _), Go.bind_ok (scalePoint_spec hC.codec2 _ _ _ _ _ _),
    Go.bind_ok (scale2_spec hC par b hb _ _ _ _ _ _), Go.bind_ok (scale2_spec hC par b hb _ _ _ _ _ _)] at h
  generalize hres : (copyContributions C _ _ >>= _).run _ = res at h
  obtain ⟨r, st⟩ := res
  simp only [Prod.mk.injEq] at h
  obtain ⟨rfl, h2⟩ := h
  obtain ⟨cl, s1, hcopy, hrest⟩ := Go.bind_eq_ok hres
  obtain ⟨u, s2, hem, hret⟩ := Go.bind_eq_ok hrest
  obtain ⟨more, hm⟩ := copyContributions_out C _ _ _ _ _ hcopy
  simp only [IOSt.emit_run, Prod.mk.injEq] at hem
  simp only [Go.pure_run, Prod.mk.injEq] at hret
  rw [← hret.2, ← hem.2] at h2
  dsimp only at h2
  rw [hm] at h2
  unfold P2File.Starts
  rw [← h2]
  have hhead : (f.headerWith c).increment = (f.contribute C rnd).headerWith (wrap64 (c + 1)) := rfl
  rw [hhead]
  unfold P2File.params
  simp only [List.append_assoc, List.nil_append]
  exact ⟨_, rfl⟩

/-- `f` with `δ` multiplied by `x` and Z and PKK divided by it, without records -/
def P2File.scaleParams (x : F) (f : P2File G1 G2) : P2File G1 G2 :=
  { f with delta1 := x • f.delta1, delta2 := x • f.delta2, z := f.z.map (x⁻¹ • ·), pkk := f.pkk.map (x⁻¹ • ·), records := [] }

omit hC hH [DecidableEq G1] [DecidableEq G2] [DecidableEq GT] [AddCommGroup GT] [Module F GT] in
theorem P2File.scaleParams_wf (x : F) (f : P2File G1 G2) (hf : f.WF) : (f.scaleParams x).WF where
  wires := hf.wires
  pub := hf.pub
  privateCommitted := hf.privateCommitted
  constraints := hf.constraints
  domain := hf.domain
  witness := hf.witness
  domain_pos := hf.domain_pos
  z := by simpa [P2File.scaleParams] using hf.z
  pkk := by simpa [P2File.scaleParams] using hf.pkk
  count := by simp [P2File.scaleParams]
  hash := by simp [P2File.scaleParams]

omit hC hH [DecidableEq G1] [DecidableEq G2] [DecidableEq GT] [AddCommGroup GT] [Module F GT] in
theorem P2File.scaleParams_contribute (C : Curve F G1 G2 GT) (H : HeaderCodec) (x : F) (f : P2File G1 G2) (rnd : Rand F) (c : Int)
    (out : Bytes) : ((f.scaleParams x).contribute C rnd).Starts C H c out ↔ (f.scaleParams (x * rnd.delta)).Starts C H c out := by
  unfold P2File.Starts P2File.headerWith P2File.params P2File.header
  simp only [P2File.scaleParams, P2File.contribute, smul_smul, mul_inv, List.map_map, Function.comp_def, mul_comm]

omit hC hH in
theorem wrap64_range (x : Int) : -(2 ^ 63) ≤ wrap64 x ∧ wrap64 x < 2 ^ 63 := by
  unfold wrap64
  constructor <;> omega

/-- A ceremony all of whose contributions succeed scales the parameters by the product of the secrets. -/
theorem ceremony2_params (b : Nat) (hb : 0 < b) (o : P2File G1 G2) (ho : o.WF) (steps : List (Par × Rand F)) :
    ∀ (x : F) (c : Int) (file out : Bytes), -(2 ^ 63) ≤ c → c < 2 ^ 63 → (o.scaleParams x).Starts C H c file →
      p2Ceremony C H b steps file = .ok out →
      ∃ c', -(2 ^ 63) ≤ c' ∧ c' < 2 ^ 63 ∧ (o.scaleParams (x * deltaProduct (steps.map Prod.snd))).Starts C H c' out ∧
        (c + steps.length < 2 ^ 63 → c' = c + steps.length) := by
  induction steps with
  | nil =>
    intro x c file out h1 h2 hs h
    simp only [p2Ceremony, Except.ok.injEq] at h
    subst h
    exact ⟨c, h1, h2, by simpa [deltaProduct] using hs, by simp⟩
  | cons s steps ih =>
    obtain ⟨par, rnd⟩ := s
    intro x c file out h1 h2 hs h
    unfold p2Ceremony at h
    rcases hr : Phase2.contribute C H par b rnd file with ⟨e | hash, mid⟩
    · rw [hr] at h
      simp at h
    rw [hr] at h
    have hst := contribute2_params hC hH par b hb rnd _ (P2File.scaleParams_wf x o ho) c h1 h2 file hs hash mid hr
    rw [P2File.scaleParams_contribute] at hst
    have hwr := wrap64_range (c + 1)
    obtain ⟨c', h3, h4, h5, h6⟩ := ih _ _ _ _ hwr.1 hwr.2 hst h
    refine ⟨c', h3, h4, ?_, ?_⟩
    · simpa [deltaProduct, mul_assoc] using h5
    · intro hlt
      simp only [List.length_cons, Nat.cast_add, Nat.cast_one] at hlt ⊢
      have hw : wrap64 (c + 1) = c + 1 := wrap64_eq (by omega) (by omega)
      rw [hw] at h6
      rw [h6 (by omega)]
      omega

end
end ZkSetup
