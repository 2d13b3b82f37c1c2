import Verif.Proofs.Phase2Any
import Verif.Props.Phase2
import Verif.Props.Phase1History
import Mathlib.Data.Fintype.Card
/-
What acceptance by `phase2.Verify` means: C32, C33, C35, C36, C42.
-/
set_option linter.unusedSectionVars false

namespace ZkSetup

open Phase1 (batchSize)
open Phase2 Finset

section
variable {F G1 G2 GT : Type} [Field F] [AddCommGroup G1] [Module F G1] [AddCommGroup G2]
  [Module F G2] [AddCommGroup GT] [Module F GT] [DecidableEq G1] [DecidableEq G2] [DecidableEq GT]
variable {C : Curve F G1 G2 GT} (hC : C.Lawful)
include hC

/-- `[δ]2` follows from `[δ]1` -/
theorem delta2_of_delta1 {g1 d1 : G1} {g2 d2 : G2} {x : F} (he : C.e g1 d2 = C.e d1 g2) (h1 : d1 = x • g1) (hg : g1 ≠ 0) :
    d2 = x • g2 := by
  subst h1
  obtain ⟨a, rfl⟩ := hC.span1 g1
  obtain ⟨b, rfl⟩ := hC.span2 g2
  obtain ⟨c, rfl⟩ := hC.span2 d2
  rw [smul_smul, e_eq_smul hC] at he
  have ha : a ≠ 0 := fun h => hg (by rw [h, zero_smul])
  rw [smul_smul, smul_g2_inj hC]
  have : a * c = a * (x * b) := by rw [he]; ring
  exact mul_left_cancel₀ ha this

variable {H : HeaderCodec} (hH : H.Lawful)
include hH

/-- how a structured file starts -/
theorem P2File.starts {f : P2File G1 G2} (hf : f.WF) (junk : Bytes) :
    Starts2 C H (f.encode C H ++ junk) f.header f.delta1 f.delta2 := by
  obtain ⟨r1, r2, r3, r4, h1, h2, h3, -⟩ := P2File.readers hC hH hf 4096 junk
  exact ⟨r1, r2, r3, h1, h2, h3⟩

/-- **C32**, for arbitrary bytes of both files: if `Verify` accepts and the submitted header counts a positive number of
contributions, then that many records are read one after the other from the input, each proves for the hash before it
(the first for the empty one) a scalar by which it multiplies `[δ]1`, starting from the origin's `[δ]1`; the last one
has the `[δ]1` of the parameters, which is the origin's multiplied by the product of all the scalars; and so is `[δ]2`, if
the origin's `[δ]1` is not the identity (initial files have the generator). -/
theorem C32_chain (par : Par) (b : Nat) (vr : VerifyRand F) (input origin : Bytes)
    (h : Phase2.verify C H par b vr input origin = .ok ()) :
    ∃ (hi ho : Header) (d1 g1 : G1) (d2 g2 : G2), Starts2 C H input hi d1 d2 ∧ Starts2 C H origin ho g1 g2 ∧
      (0 < hi.contributions → ∃ (rs : List (Contribution G1 G2)) (xs : List F) (rd : Rd) (used : Bytes),
        input = used ++ rd.rest ∧ RecordsAt C rd rs ∧ (rs.length : Int) = hi.contributions ∧ Chain2By C g1 [] rs xs ∧
        rs.getLast?.map (·.delta) = some d1 ∧ d1 = xs.prod • g1 ∧ (g1 ≠ 0 → d2 = xs.prod • g2)) := by
  obtain ⟨hi, ho, d1, g1, d2, g2, rs, xs, rd, used, h1, h2, -, -, h3, h4, h5, h6, h7, h8⟩ :=
    verify2_any hC hH par b vr input origin h
  refine ⟨hi, ho, d1, g1, d2, g2, h1, h2, fun hpos => ⟨rs, xs, rd, used, h4, h5, by omega, h7, ?_⟩⟩
  have hne : rs ≠ [] := by
    rintro rfl
    rw [List.length_nil] at h6
    omega
  have hlast : rs.getLast?.map (·.delta) = some d1 := by
    rw [List.getLast?_eq_some_getLast hne] at h8 ⊢
    simpa using h8
  have hd := (Chain2By.delta rs g1 [] xs h7).2
  rw [hlast] at hd
  exact ⟨hlast, hd, delta2_of_delta1 hC h3 hd⟩

/-- **C32** on structured files: the records are those of the file. -/
theorem C32_records (par : Par) (b : Nat) (hb : 0 < b) (vr : VerifyRand F) (f o : P2File G1 G2) (hf : f.WF) (ho : o.WF)
    (hs : f.NoStraddle H) (junk junk' : Bytes) (hg : o.delta1 ≠ 0)
    (h : Phase2.verify C H par b vr (f.encode C H ++ junk) (o.encode C H ++ junk') = .ok ()) :
    ∃ xs : List F, Chain2By C o.delta1 [] f.records xs ∧ f.delta1 = xs.prod • o.delta1 ∧
      f.delta2 = xs.prod • o.delta2 := by
  obtain ⟨h1, -, h2, -, -, ⟨xs, hx⟩, h3⟩ := (verify2_iff hC hH par b hb vr f o hf ho hs junk junk').mp h
  have hd := (Chain2By.delta _ _ _ _ hx).2
  rw [List.getLast?_eq_some_getLast h1] at hd
  simp only [Option.map_some, Option.getD_some] at hd
  rw [h3 _ (List.getLast?_eq_some_getLast h1)] at hd
  exact ⟨xs, hx, hd, delta2_of_delta1 hC h2 hd hg⟩

/-- **C36**, for arbitrary bytes of both files: acceptance implies that all six shape fields of the two headers agree and
that the submitted one does not count zero contributions. -/
theorem C36_shape (par : Par) (b : Nat) (vr : VerifyRand F) (input origin : Bytes)
    (h : Phase2.verify C H par b vr input origin = .ok ()) :
    ∃ (hi ho : Header) (ri ro : Rd), H.dec.run (Rd.buffered 4096 input) = (.ok hi, ri) ∧
      H.dec.run (Rd.buffered 4096 origin) = (.ok ho, ro) ∧ hi.contributions ≠ 0 ∧ hi.wires = ho.wires ∧
      hi.witness = ho.witness ∧ hi.pub = ho.pub ∧ hi.privateCommitted = ho.privateCommitted ∧
      hi.constraints = ho.constraints ∧ hi.domain = ho.domain := by
  obtain ⟨hi, ho, d1, g1, d2, g2, rs, xs, rd, used, ⟨r1, _, _, h1, _, _⟩, ⟨r2, _, _, h2, _, _⟩, h3, h4, -⟩ :=
    verify2_any hC hH par b vr input origin h
  rw [Header.equal, decide_eq_true_iff] at h4
  exact ⟨hi, ho, r1, r2, h1, h2, h3, h4⟩

/-- **C36** (partial), without contributions: a file that declares a nonnegative number of contributions and has
`[δ]1 ≠ 0` is accepted only if a record is stored and verified. Missing: negative counts with `[δ]1 = 0`,
see `C36_negative_count_accepted`. -/
theorem C36_has_contribution_partial (par : Par) (b : Nat) (vr : VerifyRand F) (input origin : Bytes)
    (h : Phase2.verify C H par b vr input origin = .ok ()) (hi : Header) (d1 : G1) (d2 : G2)
    (hst : Starts2 C H input hi d1 d2) (hok : 0 ≤ hi.contributions ∨ d1 ≠ 0) :
    ∃ (r : Contribution G1 G2) (rd : Rd) (used : Bytes) (r' : Rd), input = used ++ rd.rest ∧
      (Contribution.readFrom C).run rd = (.ok r, r') ∧ ∃ (g1 : G1) (x : F), Step2By C g1 [] r x := by
  obtain ⟨hi', ho, d1', g1, d2', g2, rs, xs, rd, used, h1, h2, h3, -, h4, h5, h6, h7, h8, h9⟩ :=
    verify2_any hC hH par b vr input origin h
  obtain ⟨r1, r2, r3, a1, a2, a3⟩ := hst
  obtain ⟨q1, q2, q3, b1, b2, b3⟩ := h1
  rw [a1] at b1
  simp only [Prod.mk.injEq, Except.ok.injEq] at b1
  obtain ⟨rfl, rfl⟩ := b1
  rw [a2] at b2
  simp only [Prod.mk.injEq, Except.ok.injEq] at b2
  obtain ⟨rfl, rfl⟩ := b2
  cases rs with
  | nil =>
    exfalso
    rw [List.length_nil] at h7
    rcases hok with h0 | h0
    · omega
    · exact h0 h9.symm
  | cons r rs =>
    cases xs with
    | nil => exact h8.elim
    | cons x xs =>
      obtain ⟨r', hr, _⟩ := h6
      exact ⟨r, rd, used, r', h5, hr, g1, x, h8.1⟩

/-! ### C33 -/

omit hC hH [DecidableEq G1] [DecidableEq G2] [DecidableEq GT] in
/-- the verifier's draws with the one for element `k` replaced -/
def setDraw (b : Nat) (rnd : Nat → Nat → F) (k : Nat) (x : F) : Nat → Nat → F :=
  fun t i => if t = k / b ∧ i = k % b then x else rnd t i

omit hC hH [DecidableEq G1] [DecidableEq G2] [DecidableEq GT] in
theorem batchSum_setDraw (b : Nat) (hb : 0 < b) (rnd : Nat → Nat → F) (k : Nat) (x : F) (ps : List G1)
    (hk : k < ps.length) :
    batchSum b (setDraw b rnd k x) ps = batchSum b (setDraw b rnd k 0) ps + x • ps.getD k 0 := by
  unfold batchSum
  rw [← sum_erase_add _ _ (mem_range.mpr hk), ← sum_erase_add (s := range ps.length) (a := k)
    (f := fun j => setDraw b rnd k 0 (j / b) (j % b) • ps.getD j 0) (mem_range.mpr hk)]
  have hsum : ∀ j ∈ (range ps.length).erase k, setDraw b rnd k x (j / b) (j % b) • ps.getD j 0
      = setDraw b rnd k 0 (j / b) (j % b) • ps.getD j 0 := by
    intro j hj
    have hne : j ≠ k := (mem_erase.mp hj).1
    have : ¬ (j / b = k / b ∧ j % b = k % b) := by
      rintro ⟨h1, h2⟩
      apply hne
      rw [← Nat.div_add_mod j b, h1, h2, Nat.div_add_mod]
    simp only [setDraw, if_neg this]
  rw [sum_congr rfl hsum]
  have e1 : setDraw b rnd k x (k / b) (k % b) = x := by simp [setDraw]
  have e2 : setDraw b rnd k 0 (k / b) (k % b) = 0 := by simp [setDraw]
  rw [e1, e2, zero_smul, add_zero]

omit hH in
/-- two accepting draws for a wrong element are equal -/
theorem draw_unique (b : Nat) (hb : 0 < b) (rnd : Nat → Nat → F) (k : Nat) (x y Δ : F) (ps qs : List G1)
    (hp : k < ps.length) (hq : k < qs.length) (g2 : G2) (hg : g2 ≠ 0)
    (hx : C.e (batchSum b (setDraw b rnd k x) ps) (Δ • g2) = C.e (batchSum b (setDraw b rnd k x) qs) g2)
    (hy : C.e (batchSum b (setDraw b rnd k y) ps) (Δ • g2) = C.e (batchSum b (setDraw b rnd k y) qs) g2)
    (hbad : Δ • ps.getD k 0 ≠ qs.getD k 0) : x = y := by
  rw [hC.smul_right, ← hC.smul_left] at hx hy
  have inj : ∀ P Q : G1, C.e P g2 = C.e Q g2 → P = Q := by
    intro P Q h
    have : C.e (P + (-1 : F) • Q) g2 = 0 := by rw [hC.add_left, hC.smul_left, h]; module
    rcases (e_eq_zero hC).mp this with h0 | h0
    · have : P = (P + (-1 : F) • Q) + Q := by module
      rw [this, h0, zero_add]
    · exact absurd h0 hg
  have hx := inj _ _ hx
  have hy := inj _ _ hy
  rw [batchSum_setDraw b hb rnd k x ps hp, batchSum_setDraw b hb rnd k x qs hq] at hx
  rw [batchSum_setDraw b hb rnd k y ps hp, batchSum_setDraw b hb rnd k y qs hq] at hy
  generalize batchSum b (setDraw b rnd k 0) ps = A at hx hy
  generalize batchSum b (setDraw b rnd k 0) qs = B at hx hy
  generalize ps.getD k 0 = p at *
  generalize qs.getD k 0 = q at *
  by_contra hne
  have h : (x - y) • (Δ • p) = (x - y) • q := by
    have : (x - y) • (Δ • p) = Δ • (A + x • p) - Δ • (A + y • p) := by module
    rw [this, hx, hy]; module
  have := congrArg (fun P => (x - y)⁻¹ • P) h
  simp only [smul_smul, inv_mul_cancel₀ (sub_ne_zero.mpr hne), one_smul] at this
  apply hbad
  rw [← this, ← mul_assoc, inv_mul_cancel₀ (sub_ne_zero.mpr hne), one_mul]

/-- **C33** for Z (partial: the file's points can be decoded): let `Δ` be the factor between the two `[δ]2`. If some element
of Z multiplied by `Δ` is not the origin's, then whatever the verifier draws elsewhere, at most one value of the draw for
this element makes it accept. Missing: files whose points cannot be decoded; see `C34_undecodable_accepted`. -/
theorem C33_z_partial (par par' : Par) (b : Nat) (hb : 0 < b) (vr : VerifyRand F) (f o : P2File G1 G2) (hf : f.WF) (ho : o.WF)
    (hs : f.NoStraddle H) (junk junk' : Bytes) (hg : o.delta2 ≠ 0) (Δ : F) (hΔ : f.delta2 = Δ • o.delta2) (k : Nat)
    (hk : k < f.z.length) (hbad : Δ • f.z.getD k 0 ≠ o.z.getD k 0) (x y : F)
    (hx : Phase2.verify C H par b ⟨setDraw b vr.z k x, vr.pkk⟩ (f.encode C H ++ junk) (o.encode C H ++ junk') = .ok ())
    (hy : Phase2.verify C H par' b ⟨setDraw b vr.z k y, vr.pkk⟩ (f.encode C H ++ junk) (o.encode C H ++ junk') = .ok ()) :
    x = y := by
  obtain ⟨-, hsh, -, hx, -⟩ := (verify2_iff hC hH par b hb _ f o hf ho hs junk junk').mp hx
  obtain ⟨-, -, -, hy, -⟩ := (verify2_iff hC hH par' b hb _ f o hf ho hs junk junk').mp hy
  rw [hΔ] at hx hy
  refine draw_unique hC b hb vr.z k x y Δ f.z o.z hk ?_ _ hg hx hy hbad
  rw [ho.z, ← hsh.2.2.2.2.2, ← hf.z]
  exact hk

/-- **C33** for PKK (partial), as `C33_z_partial`. -/
theorem C33_pkk_partial (par par' : Par) (b : Nat) (hb : 0 < b) (vr : VerifyRand F) (f o : P2File G1 G2) (hf : f.WF)
    (ho : o.WF) (hs : f.NoStraddle H) (junk junk' : Bytes) (hg : o.delta2 ≠ 0) (Δ : F) (hΔ : f.delta2 = Δ • o.delta2) (k : Nat)
    (hk : k < f.pkk.length) (hbad : Δ • f.pkk.getD k 0 ≠ o.pkk.getD k 0) (x y : F)
    (hx : Phase2.verify C H par b ⟨vr.z, setDraw b vr.pkk k x⟩ (f.encode C H ++ junk) (o.encode C H ++ junk') = .ok ())
    (hy : Phase2.verify C H par' b ⟨vr.z, setDraw b vr.pkk k y⟩ (f.encode C H ++ junk) (o.encode C H ++ junk') = .ok ()) :
    x = y := by
  obtain ⟨-, hsh, -, -, hx, -⟩ := (verify2_iff hC hH par b hb _ f o hf ho hs junk junk').mp hx
  obtain ⟨-, -, -, -, hy, -⟩ := (verify2_iff hC hH par' b hb _ f o hf ho hs junk junk').mp hy
  rw [hΔ] at hx hy
  refine draw_unique hC b hb vr.pkk k x y Δ f.pkk o.pkk hk ?_ _ hg hx hy hbad
  rw [ho.pkk, ← hsh.2.1, ← hf.pkk]
  exact hk

/-- **C33**, counted (partial as above): over a finite scalar field, at most one of the `|F|` values of the draw for a wrong
element of Z makes the verifier accept, so the probability is at most `1/|F|`. -/
theorem C33_z_count_partial [Fintype F] [DecidableEq F] (par : Par) (b : Nat) (hb : 0 < b) (vr : VerifyRand F)
    (f o : P2File G1 G2) (hf : f.WF) (ho : o.WF) (hs : f.NoStraddle H) (junk junk' : Bytes) (hg : o.delta2 ≠ 0) (Δ : F)
    (hΔ : f.delta2 = Δ • o.delta2) (k : Nat) (hk : k < f.z.length) (hbad : Δ • f.z.getD k 0 ≠ o.z.getD k 0)
    (accepts : F → Prop) [DecidablePred accepts] (hacc : ∀ x, accepts x ↔
      Phase2.verify C H par b ⟨setDraw b vr.z k x, vr.pkk⟩ (f.encode C H ++ junk) (o.encode C H ++ junk') = .ok ()) :
    (univ.filter accepts).card ≤ 1 := by
  rw [card_le_one]
  intro x hx y hy
  simp only [mem_filter, mem_univ, true_and] at hx hy
  exact C33_z_partial hC hH par par b hb vr f o hf ho hs junk junk' hg Δ hΔ k hk hbad x y ((hacc x).mp hx) ((hacc y).mp hy)

/-- **C33**, consequence: a file with `[δ]2 = 0` is accepted for at most one value of the draw for every element of the
origin's Z that is not the identity. -/
theorem C33_zero_delta_partial (par par' : Par) (b : Nat) (hb : 0 < b) (vr : VerifyRand F) (f o : P2File G1 G2) (hf : f.WF)
    (ho : o.WF) (hs : f.NoStraddle H) (junk junk' : Bytes) (hg : o.delta2 ≠ 0) (h0 : f.delta2 = 0) (k : Nat)
    (hk : k < f.z.length) (hz : o.z.getD k 0 ≠ 0) (x y : F)
    (hx : Phase2.verify C H par b ⟨setDraw b vr.z k x, vr.pkk⟩ (f.encode C H ++ junk) (o.encode C H ++ junk') = .ok ())
    (hy : Phase2.verify C H par' b ⟨setDraw b vr.z k y, vr.pkk⟩ (f.encode C H ++ junk) (o.encode C H ++ junk') = .ok ()) :
    x = y :=
  C33_z_partial hC hH par par' b hb vr f o hf ho hs junk junk' hg 0 (by rw [h0, zero_smul]) k hk
    (by rw [zero_smul]; exact hz.symm) x y hx hy

/-! ### C35 -/

omit hC hH [DecidableEq G1] [DecidableEq G2] [DecidableEq GT] in
/-- The two records exhibit no collision of SHA-256. -/
def NoShaCollision2 (C : Curve F G1 G2 GT) (r r' : Contribution G1 G2) : Prop :=
  C.sha (record2Body C r) = C.sha (record2Body C r') → record2Body C r = record2Body C r'

omit hC hH [DecidableEq G1] [DecidableEq G2] [DecidableEq GT] in
/-- The challenges `h` and `h'` exhibit no collision of hash-to-G2 for the proof of the record `r`. -/
def NoG2Collision2 (C : Curve F G1 G2 GT) (r : Contribution G1 G2) (h h' : Bytes) : Prop :=
  C.hashG2 (C.c1.rawBytes r.pk.s ++ C.c1.rawBytes r.pk.sx ++ h) 1
    = C.hashG2 (C.c1.rawBytes r.pk.s ++ C.c1.rawBytes r.pk.sx ++ h') 1 → h = h'

omit hH in
theorem record2Body_inj {r r' : Contribution G1 G2} (h : record2Body C r = record2Body C r')
    (hh : r.hash = r'.hash) : r = r' := by
  have e := record2_read_body hC r 0 0 (List.replicate 32 0)
  have e' := record2_read_body hC r' 0 0 (List.replicate 32 0)
  rw [h] at e
  rw [e'] at e
  have hr := readHash2_fits 0 160 (List.replicate 32 0) [] (by simp) (.inl rfl)
  rw [List.append_nil] at hr
  rw [Nat.zero_add, Go.bind_ok hr, Go.bind_ok hr] at e
  simp only [Go.pure_run, Prod.mk.injEq, Except.ok.injEq, and_true] at e
  obtain ⟨_, _, _⟩ := r
  obtain ⟨_, _, _⟩ := r'
  simp only [Contribution.mk.injEq, and_true] at e hh ⊢
  tauto

omit hC hH [DecidableEq G1] [DecidableEq G2] [DecidableEq GT] in
/-- the last step of a chain -/
theorem chain2_snoc (rs : List (Contribution G1 G2)) (r : Contribution G1 G2) : ∀ (d : G1) (h : Bytes) (xs : List F),
    Chain2By C d h (rs ++ [r]) xs → ∃ ys x, Chain2By C d h rs ys ∧
      Step2By C ((rs.getLast?.map (·.delta)).getD d) ((rs.getLast?.map (·.hash)).getD h) r x := by
  induction rs with
  | nil =>
    intro d h xs hc
    cases xs with
    | nil => exact hc.elim
    | cons x xs => exact ⟨[], x, trivial, hc.1⟩
  | cons a rs ih =>
    intro d h xs hc
    cases xs with
    | nil => exact hc.elim
    | cons y xs =>
      obtain ⟨ys, x, h1, h2⟩ := ih _ _ _ hc.2
      refine ⟨y :: ys, x, ⟨hc.1, h1⟩, ?_⟩
      cases rs with
      | nil => simpa using h2
      | cons b rs => simpa [List.getLast?_cons] using h2

omit hH in
theorem chain2_binding (rs : List (Contribution G1 G2)) : ∀ (rs' : List (Contribution G1 G2)) (d d' : G1) (h : Bytes)
    (xs xs' : List F), rs.length = rs'.length → Chain2By C d h rs xs → Chain2By C d' h rs' xs' →
    lastHash2 rs = lastHash2 rs' → (∀ r ∈ rs, r.pk.sx ≠ 0) →
    (∀ r ∈ rs, ∀ r' ∈ rs', NoShaCollision2 C r r') →
    (∀ r ∈ rs, ∀ q ∈ rs, ∀ q' ∈ rs', NoG2Collision2 C r q.hash q'.hash) → rs = rs' := by
  induction rs using List.reverseRecOn with
  | nil => intro rs' d d' h xs xs' hl; intros; exact (List.length_eq_zero_iff.mp hl.symm).symm
  | append_singleton rs r ih =>
    intro rs' d d' h xs xs' hl hc hc' hlast hnd hsha hg2
    cases rs' using List.reverseRecOn with
    | nil => simp at hl
    | append_singleton rs' r' =>
      simp only [lastHash2_append] at hlast
      obtain ⟨ys, x, h1, h2⟩ := chain2_snoc _ _ _ _ _ hc
      obtain ⟨ys', x', h1', h2'⟩ := chain2_snoc _ _ _ _ _ hc'
      have hrr : r = r' := by
        refine record2Body_inj hC (hsha r (by simp) r' (by simp) ?_) hlast
        rw [← h2.hash, ← h2'.hash, hlast]
      subst hrr
      have hl' : rs.length = rs'.length := by simpa using hl
      have hlh : lastHash2 rs = lastHash2 rs' := by
        cases rs using List.reverseRecOn with
        | nil => rw [List.length_eq_zero_iff.mp hl'.symm]
        | append_singleton rs q =>
          cases rs' using List.reverseRecOn with
          | nil => simp at hl'
          | append_singleton rs' q' =>
            rw [lastHash2_append, lastHash2_append]
            simp only [List.getLast?_append, List.getLast?_singleton, Option.some_or, Option.map_some,
              Option.getD_some] at h2 h2'
            exact hg2 r (by simp) q (by simp) q' (by simp)
              (provesScalar_challenge hC (k := r.pk) (h := q.hash) (h' := q'.hash) ⟨h2.sx, h2.spx⟩ ⟨h2'.sx, h2'.spx⟩
                (hnd r (by simp)))
      rw [ih rs' d d' h ys ys' hl' h1 h1' hlh (fun x hx => hnd x (by simp [hx]))
        (fun x hx x' hx' => hsha x (by simp [hx]) x' (by simp [hx']))
        (fun x hx q hq q' hq' => hg2 x (by simp [hx]) q (by simp [hq]) q' (by simp [hq']))]

/-- **C35** (partial): two accepted files with equally many contributions and the same last hash have the same records, if
the records have `SX ≠ 0` and exhibit no collision of the hash functions. The two files may be for different circuits and
origins. Missing: records with `SX = 0`; `C35_degenerate_unbound` shows that it is false for them. -/
theorem C35_history_partial (par par' : Par) (b b' : Nat) (hb : 0 < b) (hb' : 0 < b') (vr vr' : VerifyRand F)
    (f g o o' : P2File G1 G2) (hf : f.WF) (hg : g.WF) (ho : o.WF) (ho' : o'.WF) (hs : f.NoStraddle H) (hs' : g.NoStraddle H)
    (j1 j2 j3 j4 : Bytes)
    (h : Phase2.verify C H par b vr (f.encode C H ++ j1) (o.encode C H ++ j2) = .ok ())
    (h' : Phase2.verify C H par' b' vr' (g.encode C H ++ j3) (o'.encode C H ++ j4) = .ok ())
    (hlen : f.records.length = g.records.length) (hlast : lastHash2 f.records = lastHash2 g.records)
    (hnd : ∀ r ∈ f.records, r.pk.sx ≠ 0)
    (hsha : ∀ r ∈ f.records, ∀ r' ∈ g.records, NoShaCollision2 C r r')
    (hg2 : ∀ r ∈ f.records, ∀ q ∈ f.records, ∀ q' ∈ g.records, NoG2Collision2 C r q.hash q'.hash) :
    f.records = g.records := by
  obtain ⟨-, -, -, -, -, ⟨xs, hx⟩, -⟩ := (verify2_iff hC hH par b hb vr f o hf ho hs j1 j2).mp h
  obtain ⟨-, -, -, -, -, ⟨xs', hx'⟩, -⟩ := (verify2_iff hC hH par' b' hb' vr' g o' hg ho' hs' j3 j4).mp h'
  exact chain2_binding hC _ _ _ _ _ _ _ hlen hx hx' hlast hnd hsha hg2

/-! ### C42 -/

/-- **C42**, phase 2 (partial: the others' secrets must be nonzero; no hash across a buffer boundary): every target `δ` is
the final one for exactly one choice of the honest contributor's secret. -/
theorem C42_phase2_partial (b : Nat) (hb : 0 < b) (o : P2File G1 G2) (ho : o.WF) (h0 : o.records = []) (hg : o.delta1 ≠ 0)
    (before after : List (Par × Rand F)) (me : Par) (s : F)
    (hk : before.length + after.length + 1 < 2 ^ 63 - 1) (hne : ∀ s ∈ before ++ after, s.2.delta ≠ 0)
    (hs : ∀ x, o.CeremonyNoStraddle C H ((before ++ [(me, (⟨x, s⟩ : Rand F))] ++ after).map Prod.snd)) (target : F) :
    ∃! x : F, ∃ (f : P2File G1 G2),
      p2Ceremony C H b (before ++ [(me, (⟨x, s⟩ : Rand F))] ++ after) (o.encode C H) = .ok (f.encode C H) ∧ f.WF ∧
        f.delta1 = target • o.delta1 := by
  have hprod : ∀ l : List (Par × Rand F), (∀ s ∈ l, s.2.delta ≠ 0) → deltaProduct (l.map Prod.snd) ≠ 0 := by
    intro l h
    apply deltaProduct_ne hC
    intro r hr
    obtain ⟨s, hs, rfl⟩ := List.mem_map.mp hr
    exact h s hs
  have hA := hprod before fun s hs => hne s (by simp [hs])
  have hB := hprod after fun s hs => hne s (by simp [hs])
  have key : ∀ x : F, ∃ f : P2File G1 G2,
      p2Ceremony C H b (before ++ [(me, (⟨x, s⟩ : Rand F))] ++ after) (o.encode C H) = .ok (f.encode C H) ∧ f.WF ∧
        f.delta1 = (deltaProduct (before.map Prod.snd) * x * deltaProduct (after.map Prod.snd)) • o.delta1 := by
    intro x
    obtain ⟨f, h1, h2, _, h3, _⟩ := C30_ceremony_partial hC hH b hb o ho h0 (before ++ [(me, (⟨x, s⟩ : Rand F))] ++ after)
      (by simp; omega) (hs x)
    refine ⟨f, h1, h2, ?_⟩
    rw [h3]
    simp [deltaProduct]
    ring_nf
  generalize deltaProduct (before.map Prod.snd) = A at *
  generalize deltaProduct (after.map Prod.snd) = B at *
  have inj : ∀ f f' : P2File G1 G2, f.WF → f'.WF → f.encode C H = f'.encode C H → f.delta1 = f'.delta1 := by
    intro f f' hf hf' h
    obtain ⟨r1, r2, r3, r4, a1, a2, -⟩ := P2File.readers hC hH hf 4096 []
    obtain ⟨q1, q2, q3, q4, b1, b2, -⟩ := P2File.readers hC hH hf' 4096 []
    rw [h, b1] at a1
    simp only [Prod.mk.injEq, Except.ok.injEq] at a1
    rw [← a1.2, b2] at a2
    simp only [Prod.mk.injEq, Except.ok.injEq] at a2
    exact a2.1.symm
  refine ⟨A⁻¹ * target * B⁻¹, ?_, ?_⟩
  · obtain ⟨f, h1, h2, h3⟩ := key (A⁻¹ * target * B⁻¹)
    have : A * (A⁻¹ * target * B⁻¹) * B = target := by field_simp
    rw [this] at h3
    exact ⟨f, h1, h2, h3⟩
  · rintro y ⟨f, h1, h2, h3⟩
    obtain ⟨f', g1, g2, g3⟩ := key y
    rw [h1] at g1
    have he := inj f f' h2 g2 (by simpa using g1)
    rw [h3, g3] at he
    obtain ⟨a, ha⟩ := hC.span1 o.delta1
    rw [ha, smul_smul, smul_smul, smul_g1_inj hC] at he
    have ha0 : a ≠ 0 := fun h => hg (by rw [ha, h, zero_smul])
    have := mul_right_cancel₀ ha0 he
    rw [this]
    field_simp

end

/-! ### concrete cases -/

namespace Toy

/-- a file after two contributions -/
def p2final : P2File K K := p2.ceremony curve [p2rnd, p2rnd']

theorem p2final_facts : p2final.WF ∧ p2final.records.length = 2 ∧
    UpdateOf curve p2 p2final (deltaProduct [p2rnd, p2rnd']) [p2rnd.delta, p2rnd'.delta] :=
  ceremony2_facts lawful Gob.lawful p2 p2_wf rfl [p2rnd, p2rnd'] (by decide)

theorem p2final_wf : p2final.WF := p2final_facts.1

theorem p2final_noStraddle : p2final.NoStraddle Gob.headerCodec := by decide +kernel

theorem p2final_accepted (junk junk' : Bytes) : Phase2.verify curve Gob.headerCodec par batchSize p2vr
    (p2final.encode curve Gob.headerCodec ++ junk) (p2.encode curve Gob.headerCodec ++ junk') = .ok () :=
  verify2_update lawful Gob.lawful par batchSize (by decide) p2vr p2 p2final p2_wf p2final_wf p2final_noStraddle
    (by intro h; have := p2final_facts.2.1; rw [h] at this; simp at this) _ (by decide) _ p2final_facts.2.2 junk junk'

/-- the final file with a wrong element in Z -/
def p2bad : P2File K K := { p2final with z := p2final.z.set 1 0 }

theorem p2bad_wf : p2bad.WF where
  wires := p2final_wf.wires
  pub := p2final_wf.pub
  privateCommitted := p2final_wf.privateCommitted
  constraints := p2final_wf.constraints
  domain := p2final_wf.domain
  witness := p2final_wf.witness
  domain_pos := p2final_wf.domain_pos
  z := by simpa [p2bad] using p2final_wf.z
  pkk := p2final_wf.pkk
  count := p2final_wf.count
  hash := p2final_wf.hash

theorem p2bad_noStraddle : p2bad.NoStraddle Gob.headerCodec := by decide +kernel

/-- the wrong file is accepted if the draw for the wrong element is 0 -/
theorem p2bad_accepted : Phase2.verify curve Gob.headerCodec par batchSize ⟨setDraw batchSize p2vr.z 1 0, p2vr.pkk⟩
    (p2bad.encode curve Gob.headerCodec ++ []) (p2.encode curve Gob.headerCodec ++ []) = .ok () := by
  have h := (verify2_iff lawful Gob.lawful par batchSize (by decide) p2vr p2final p2 p2final_wf p2_wf p2final_noStraddle
    [] []).mp (p2final_accepted [] [])
  rw [verify2_iff lawful Gob.lawful par batchSize (by decide) _ p2bad p2 p2bad_wf p2_wf p2bad_noStraddle [] []]
  exact ⟨h.1, h.2.1, h.2.2.1, by decide +kernel, h.2.2.2.2.1, h.2.2.2.2.2.1, h.2.2.2.2.2.2⟩

instance (r r' : Contribution K K) : Decidable (NoShaCollision2 curve r r') := by
  unfold NoShaCollision2; infer_instance

instance (r : Contribution K K) (h h' : Bytes) : Decidable (NoG2Collision2 curve r h h') := by
  unfold NoG2Collision2; infer_instance

end Toy

example := C32_chain Toy.lawful Gob.lawful Toy.par batchSize Toy.p2vr _ _ (Toy.p2final_accepted [1] [2, 3])

example := C32_records Toy.lawful Gob.lawful Toy.par batchSize (by decide) Toy.p2vr Toy.p2final Toy.p2 Toy.p2final_wf Toy.p2_wf
  Toy.p2final_noStraddle [1] [2, 3] (by decide) (Toy.p2final_accepted _ _)

example := C36_shape Toy.lawful Gob.lawful Toy.par batchSize Toy.p2vr _ _ (Toy.p2final_accepted [1] [2, 3])

example := C36_has_contribution_partial Toy.lawful Gob.lawful Toy.par batchSize Toy.p2vr _ _ (Toy.p2final_accepted [] []) _ _ _
  (P2File.starts Toy.lawful Gob.lawful Toy.p2final_wf []) (.inr (by decide +kernel))

-- a wrong element, and a draw for which it is accepted: every other draw is rejected
example (y : Toy.K) := C33_z_partial Toy.lawful Gob.lawful Toy.par Toy.par batchSize (by decide) Toy.p2vr Toy.p2bad Toy.p2
  Toy.p2bad_wf Toy.p2_wf Toy.p2bad_noStraddle [] [] (by decide) 16 (by decide +kernel) 1 (by decide +kernel)
  (by decide +kernel) 0 y Toy.p2bad_accepted

example := C35_history_partial Toy.lawful Gob.lawful Toy.par Toy.par batchSize batchSize (by decide) (by decide) Toy.p2vr
  ⟨setDraw batchSize Toy.p2vr.z 1 0, Toy.p2vr.pkk⟩ Toy.p2final Toy.p2bad Toy.p2 Toy.p2 Toy.p2final_wf Toy.p2bad_wf Toy.p2_wf
  Toy.p2_wf Toy.p2final_noStraddle Toy.p2bad_noStraddle [] [] [] [] (Toy.p2final_accepted _ _) Toy.p2bad_accepted rfl rfl
  (by decide +kernel) (by decide +kernel) (by decide +kernel)

example := C42_phase2_partial Toy.lawful Gob.lawful batchSize (by decide) Toy.p2 Toy.p2_wf rfl (by decide)
  [(Toy.par, Toy.p2rnd)] [(Toy.par, Toy.p2rnd')] Toy.par 6 (by decide) (by decide) (by decide +kernel) 13

end ZkSetup
