import Verif.Props.Init
import Verif.Props.Transform
/-
C68: the power of the phase 1 file does not matter for phase 2.
-/
set_option linter.unusedSectionVars false

namespace ZkSetup

open Phase2

section
variable {F G1 G2 GT : Type} [Field F] [AddCommGroup G1] [Module F G1] [AddCommGroup G2]
  [Module F G2] [AddCommGroup GT] [Module F GT] [DecidableEq G1] [DecidableEq G2] [DecidableEq GT]

/-- The files agree in the points that a domain of size `n` needs: the first `2n-1`, `n`, `n`, `n` of the sections, and `[β]2`. -/
structure P1File.AgreeTo (n : Nat) (f g : P1File G1 G2) : Prop where
  tauG1 : ∀ i < 2 * n - 1, f.tauG1.getD i 0 = g.tauG1.getD i 0
  alphaG1 : ∀ i < n, f.alphaG1.getD i 0 = g.alphaG1.getD i 0
  betaG1 : ∀ i < n, f.betaG1.getD i 0 = g.betaG1.getD i 0
  tauG2 : ∀ i < n, f.tauG2.getD i 0 = g.tauG2.getD i 0
  betaG2 : f.betaG2 = g.betaG2

theorem lagSection_congr {G : Type} [AddCommGroup G] [Module F G] (n : Nat) (ω : F) (xs ys : List G)
    (h : ∀ i < n, xs.getD i 0 = ys.getD i 0) : lagSection n ω xs = lagSection n ω ys := by
  funext i
  unfold lagSection idft
  congr 1
  exact Finset.sum_congr rfl fun j hj => congrArg _ (h j (Finset.mem_range.mp hj))

theorem zSection_congr {G : Type} [AddCommGroup G] (k : Nat) (xs ys : List G) (h : ∀ i < 2 * 2 ^ k - 1, xs.getD i 0 = ys.getD i 0) :
    zSection k xs = zSection k ys := by
  unfold zSection
  apply List.map_congr_left
  intro j hj
  rw [List.mem_range] at hj
  have hb := bitRev_lt k j
  have hne : bitRev k j ≠ 2 ^ k - 1 := by
    intro h
    have := congrArg (bitRev k) h
    rw [bitRev_bitRev _ _ (by omega), bitRev_top] at this
    omega
  rw [h _ (by omega), h _ (by omega)]

variable {C : Curve F G1 G2 GT} (hC : C.Lawful)
include hC

/-- **C68**: two phase 1 files, of whatever powers and with whatever records, that agree in the points the circuit needs
lead to the same three files. -/
theorem C68_prefix (E : InitEnv F) (par par' : Par) (r : R1CS F) (hr : r.Valid) (hpc : r.PublicCommitment) (f g : P1File G1 G2) (hf : f.WF)
    (hg : g.WF) (k : Nat) (hk : IsDomain r.constraints.length k) (hk27 : k ≤ 27) (hkf : k ≤ f.power.toNat) (hkg : k ≤ g.power.toNat)
    (hdom : (E.dom (2 ^ k)).Lawful k) (h : f.AgreeTo (2 ^ k) g) (junk junk' oldLag oldLag' oldEvals oldEvals' : Bytes) :
    initializeFiles C E par (some r) (f.encode C ++ junk) oldLag oldEvals
      = initializeFiles C E par' (some r) (g.encode C ++ junk') oldLag' oldEvals' := by
  rw [init_split hC E par r hr hpc f hf k hk hk27 hkf hdom, init_split hC E par' r hr hpc g hg k hk hk27 hkg hdom]
  have hpos : 0 < 2 ^ k := Nat.pow_pos (by omega)
  have e1 := lagSection_congr (2 ^ k) (E.dom (2 ^ k)).gen _ _ fun i hi => h.tauG1 i (by omega)
  have e2 := lagSection_congr (2 ^ k) (E.dom (2 ^ k)).gen _ _ h.alphaG1
  have e3 := lagSection_congr (2 ^ k) (E.dom (2 ^ k)).gen _ _ h.betaG1
  have e4 := lagSection_congr (2 ^ k) (E.dom (2 ^ k)).gen _ _ h.tauG2
  have ec : combined r (2 ^ k) (E.dom (2 ^ k)).gen f = combined r (2 ^ k) (E.dom (2 ^ k)).gen g := by
    funext w
    unfold combined
    rw [e1, e2, e3]
  unfold initFile lagBytes initEvals
  rw [ec, e1, e2, e3, e4, zSection_congr k _ _ h.tauG1, h.alphaG1 0 hpos, h.betaG1 0 hpos, h.betaG2]

/-- **C68**, `p1t`: a response converted to any two powers that are large enough for the circuit leads to the same three files. -/
theorem C68_transform (E : InitEnv F) (par par' : Par) (r : R1CS F) (hr : r.Valid) (hpc : r.PublicCommitment) (p : Response G1 G2)
    (a b b' : UInt8) (ha : a.toNat ≤ 54) (hab : b ≤ a) (hab' : b' ≤ a) (hp : p.WF a.toNat) (k : Nat)
    (hk : IsDomain r.constraints.length k) (hk27 : k ≤ 27) (hkb : k ≤ b.toNat) (hkb' : k ≤ b'.toNat)
    (hdom : (E.dom (2 ^ k)).Lawful k) (junk oldLag oldLag' oldEvals oldEvals' : Bytes) :
    ∃ out out', Phase1.transform C a b (p.encode C ++ junk) = (.ok (), out) ∧ Phase1.transform C a b' (p.encode C ++ junk) = (.ok (), out') ∧
      initializeFiles C E par (some r) out oldLag oldEvals = initializeFiles C E par' (some r) out' oldLag' oldEvals' := by
  obtain ⟨h1, w1⟩ := C18_transform hC p a b ha hab hp junk
  obtain ⟨h2, w2⟩ := C18_transform hC p a b' ha hab' hp junk
  refine ⟨_, _, h1, h2, ?_⟩
  have q1 : 2 ^ k ≤ 2 ^ b.toNat := Nat.pow_le_pow_right (by omega) hkb
  have q2 : 2 ^ k ≤ 2 ^ b'.toNat := Nat.pow_le_pow_right (by omega) hkb'
  have := C68_prefix hC E par par' r hr hpc (p.prefix b) (p.prefix b') w1 w2 k hk hk27 hkb hkb' hdom
    ⟨fun i hi => ?_, fun i hi => ?_, fun i hi => ?_, fun i hi => ?_, rfl⟩ [] [] oldLag oldLag' oldEvals oldEvals'
  · rwa [List.append_nil, List.append_nil] at this
  all_goals
    simp only [Response.prefix, List.getD_eq_getElem?_getD, List.getElem?_take]
    rw [if_pos (by omega), if_pos (by omega)]

end

/-! ### concrete cases -/

-- powers 2 and 3 with the same trapdoor
example := C68_prefix Toy.lawful Toy.env Toy.par par4 Toy.circuit Toy.circuit_valid Toy.circuit_nc.publicCommitment (Toy.srs 2 3 5 7)
  (Toy.srs 3 3 5 7) (Toy.srs_wf 2 (by decide) _ _ _) (Toy.srs_wf 3 (by decide) _ _ _) 2 Toy.circuit_domain (by decide) (by decide)
  (by decide) dom4_lawful ⟨by decide +kernel, by decide +kernel, by decide +kernel, by decide +kernel, rfl⟩ [] [1] [] [2] [] [3]

/-- a response of power 3 with trapdoor 3, 5, 7 -/
def Toy.response3 : Response Toy.K Toy.K :=
  { (Toy.response) with
    tauG1 := (List.range 15).map (3 ^ ·), tauG2 := (List.range 8).map (3 ^ ·), alphaG1 := (List.range 8).map (5 * 3 ^ ·)
    betaG1 := (List.range 8).map (7 * 3 ^ ·), betaG2 := 7 }

theorem Toy.response3_wf : Toy.response3.WF 3 := ⟨rfl, rfl, rfl, rfl, rfl⟩

example := C68_transform Toy.lawful Toy.env Toy.par par4 Toy.circuit Toy.circuit_valid Toy.circuit_nc.publicCommitment Toy.response3 3 2 3
  (by decide) (by decide) (by decide) Toy.response3_wf 2 Toy.circuit_domain (by decide) (by decide) (by decide) dom4_lawful [1] [] [2] [] [3]

end ZkSetup
