import Verif.Props.WellFormed
import Verif.Props.Keys
import Mathlib.Algebra.BigOperators.Group.List.Basic
/-
C65: the order of the contributors does not matter.
-/
set_option linter.unusedSectionVars false

namespace ZkSetup

open Phase1

section
variable {F G1 G2 GT : Type} [Field F] [AddCommGroup G1] [Module F G1] [AddCommGroup G2]
  [Module F G2] [AddCommGroup GT] [Module F GT] [DecidableEq G1] [DecidableEq G2] [DecidableEq GT]
variable {C : Curve F G1 G2 GT} (hC : C.Lawful)
include hC

omit hC [DecidableEq G1] [DecidableEq G2] [DecidableEq GT] [AddCommGroup GT] [Module F GT] in
theorem scaled_scaled {G : Type} [AddCommGroup G] [Module F G] (m m' τ τ' : F) (ps : List G) :
    scaled m' τ' (scaled m τ ps) = scaled (m * m') (τ * τ') ps := by
  apply List.ext_getElem
  · simp [scaled]
  · intro i h1 h2
    simp [scaled, smul_smul, mul_pow]
    congr 1; ring

/-- the parameters of a phase 1 file, each scaled by its power of `τ` and by `α`, `β` -/
def P1File.SameParams (f g : P1File G1 G2) (τ α β : F) : Prop :=
  g.power = f.power ∧ g.tauG1 = scaled 1 τ f.tauG1 ∧ g.alphaG1 = scaled α τ f.alphaG1 ∧ g.betaG1 = scaled β τ f.betaG1 ∧
    g.tauG2 = scaled 1 τ f.tauG2 ∧ g.betaG2 = β • f.betaG2

/-- A ceremony on a well-formed file with any points. -/
theorem p1Ceremony_any (b : Nat) (hb : 2 ≤ b) (steps : List (Par × Rand F)) : ∀ (f : P1File G1 G2), f.WF → 1 ≤ f.power.toNat →
    f.records.length + steps.length < 65536 → ∃ (g : P1File G1 G2) (rs : List (Contribution G1 G2)),
      p1Ceremony C b steps (f.encode C) = .ok (g.encode C) ∧ g.WF ∧ g.records = f.records ++ rs ∧ rs.length = steps.length ∧
      f.SameParams g (steps.map fun s => s.2.tau).prod (steps.map fun s => s.2.alpha).prod (steps.map fun s => s.2.beta).prod := by
  induction steps with
  | nil =>
    intro f hf _ _
    refine ⟨f, [], rfl, hf, by simp, rfl, rfl, ?_, ?_, ?_, ?_, by simp⟩ <;>
      exact List.ext_getElem (by simp [scaled]) (by intros; simp [scaled])
  | cons s steps ih =>
    obtain ⟨par, rnd⟩ := s
    intro f hf hp hc
    simp only [List.length_cons] at hc
    obtain ⟨f', r, h, hw, hpw, hr, -, -, -, -, e1, e2, e3, e4, e5⟩ :=
      C10_contribute_preserves_history hC par b hb rnd f hf hp (by omega)
    obtain ⟨g, rs, hg, hgw, hgr, hgl, p1, p2, p3, p4, p5, p6⟩ := ih f' hw (by rw [hpw]; exact hp) (by rw [hr]; simp; omega)
    refine ⟨g, r :: rs, ?_, hgw, by rw [hgr, hr]; simp, by simp [hgl], by rw [p1, hpw], ?_, ?_, ?_, ?_, ?_⟩
    · have h0 := h []
      rw [List.append_nil] at h0
      simp only [p1Ceremony, h0, hg]
    · rw [p2, e1, scaled_scaled]; simp
    · rw [p3, e2, scaled_scaled]; simp
    · rw [p4, e3, scaled_scaled]; simp
    · rw [p5, e4, scaled_scaled]; simp
    · rw [p6, e5, smul_smul]; simp [mul_comm]

/-- **C65**, phase 1: take any bytes to which a sequence of contributors can contribute one after the other. In every other order, on
other machines, they can as well, and the two final files have the same length and are the same but for the 640 bytes of
each new record. (While the counter has room; see C06.) -/
theorem C65_phase1 (b b' : Nat) (hb : 2 ≤ b) (hb' : 2 ≤ b') (steps steps' : List (Par × Rand F))
    (hperm : (steps.map Prod.snd).Perm (steps'.map Prod.snd)) {p c1 c0 : UInt8} {rest out : Bytes}
    (hc : 256 * c1.toNat + c0.toNat + steps.length < 65536) (h : p1Ceremony C b steps (p :: c1 :: c0 :: rest) = .ok out) :
    ∃ out', p1Ceremony C b' steps' (p :: c1 :: c0 :: rest) = .ok out' ∧ out'.length = out.length ∧
      out'.take (out.length - 640 * steps.length) = out.take (out.length - 640 * steps.length) := by
  have hlen : steps.length = steps'.length := by simpa using hperm.length_eq
  cases steps with
  | nil =>
    cases steps' with
    | nil => exact ⟨out, h, rfl, rfl⟩
    | cons _ _ => simp at hlen
  | cons s steps =>
    cases steps' with
    | nil => simp at hlen
    | cons s' steps' =>
      obtain ⟨par, rnd⟩ := s
      obtain ⟨par', rnd'⟩ := s'
      have h1 := h
      simp only [p1Ceremony] at h1
      split at h1
      · rename_i hash o1 ho
        obtain ⟨f, hf, hp, ht, hany⟩ := contribute_any hC hb ho
        rw [encode_take3 hC f hf] at ht
        simp only [List.take_succ_cons, List.take_zero, List.cons.injEq, and_true] at ht
        obtain ⟨hpw, e1, e0⟩ := ht
        have hcnt := hf.count
        have hl : f.records.length = 256 * c1.toNat + c0.toNat := by
          rw [e1, e0]; simp; omega
        have hrun : p1Ceremony C b ((par, rnd) :: steps) (p :: c1 :: c0 :: rest) = p1Ceremony C b ((par, rnd) :: steps) (f.encode C) := by
          simp only [p1Ceremony, hany par b rnd hb]
        have hrun' : p1Ceremony C b' ((par', rnd') :: steps') (p :: c1 :: c0 :: rest)
            = p1Ceremony C b' ((par', rnd') :: steps') (f.encode C) := by
          simp only [p1Ceremony, hany par' b' rnd' hb']
        obtain ⟨g, rs, hg, hgw, hgr, hgl, p1, p2, p3, p4, p5, p6⟩ := p1Ceremony_any hC b hb ((par, rnd) :: steps) f hf hp (by omega)
        obtain ⟨g', rs', hg', hgw', hgr', hgl', p1', p2', p3', p4', p5', p6'⟩ :=
          p1Ceremony_any hC b' hb' ((par', rnd') :: steps') f hf hp (by omega)
        rw [hrun, hg, Except.ok.injEq] at h
        subst h
        have hτ := (hperm.map Rand.tau).prod_eq
        have hα := (hperm.map Rand.alpha).prod_eq
        have hβ := (hperm.map Rand.beta).prod_eq
        simp only [List.map_map, Function.comp_def] at hτ hα hβ
        rw [← hτ, ← hα] at p3'
        rw [← hτ, ← hβ] at p4'
        rw [← hτ] at p2' p5'
        rw [← hβ] at p6'
        have hpar : g'.params C = g.params C := by
          unfold P1File.params
          rw [p2, p3, p4, p5, p6, p2', p3', p4', p5', p6']
        have hrl : ∀ l : List (Contribution G1 G2), (∀ r ∈ l, r.hash.length = 32) → (l.flatMap (recordBytes C)).length = 640 * l.length := by
          intro l hh
          induction l with
          | nil => rfl
          | cons r l ih =>
            rw [List.flatMap_cons, List.length_append, recordBytes_length hC r (hh r (by simp)), ih fun r hr => hh r (by simp [hr])]
            simp; omega
        have henc : g.encode C = ([f.power, UInt8.ofNat ((f.records ++ rs).length / 256), UInt8.ofNat ((f.records ++ rs).length % 256)]
            ++ g.params C ++ f.records.flatMap (recordBytes C)) ++ rs.flatMap (recordBytes C) := by
          simp [P1File.encode, hgr, p1]
        have henc' : g'.encode C = ([f.power, UInt8.ofNat ((f.records ++ rs).length / 256), UInt8.ofNat ((f.records ++ rs).length % 256)]
            ++ g.params C ++ f.records.flatMap (recordBytes C)) ++ rs'.flatMap (recordBytes C) := by
          simp only [List.length_cons] at hgl hgl' hlen
          simp [P1File.encode, hgr', p1', hpar, hgl, hgl', hlen]
        have l1 := hrl rs fun r hr => hgw.hash r (by rw [hgr]; simp [hr])
        have l2 := hrl rs' fun r hr => hgw'.hash r (by rw [hgr']; simp [hr])
        rw [hgl] at l1
        rw [hgl', ← hlen] at l2
        refine ⟨_, hrun'.trans hg', ?_, ?_⟩
        · rw [henc, henc', List.length_append, l2, List.length_append (bs := rs.flatMap _), l1]
        · rw [henc, henc', List.length_append (bs := rs.flatMap _), l1, Nat.add_sub_cancel, List.take_left, List.take_left]
      · cases h1

/-- the parameters after a phase 2 ceremony, with the counter -/
theorem p2Ceremony_starts {H : Phase2.HeaderCodec} (hH : H.Lawful) (b : Nat) (hb : 0 < b) (o : P2File G1 G2) (ho : o.WF) (junk : Bytes)
    (steps : List (Par × Phase2.Rand F)) (hc : o.records.length + steps.length < 2 ^ 63) (out : Bytes)
    (h : p2Ceremony C H b steps (o.encode C H ++ junk) = .ok out) :
    (o.scaleParams (deltaProduct (steps.map Prod.snd))).Starts C H (o.records.length + steps.length) out := by
  have hs : (o.scaleParams (1 : F)).Starts C H o.records.length (o.encode C H ++ junk) := by
    obtain ⟨rest, hr⟩ := P2File.encode_starts C H o junk
    refine ⟨rest, ?_⟩
    rw [hr]
    simp [P2File.headerWith, P2File.header, P2File.params, P2File.scaleParams]
  have hcnt := ho.count
  obtain ⟨c', -, -, hst, hc'⟩ := ceremony2_params hC hH b hb o ho steps 1 _ _ _ (by omega) (by omega) hs h
  rw [one_mul, hc' (by exact_mod_cast hc)] at hst
  exact hst

/-- **C65**, phase 2: take any well-formed phase 2 file, and contributors who contribute to it one after the other, in two orders, both
successfully. The two final files have the same header and the same parameters. (Whether the records can be read at the next
contribution may depend on the order, see C31.) -/
theorem C65_phase2 {H : Phase2.HeaderCodec} (hH : H.Lawful) (b b' : Nat) (hb : 0 < b) (hb' : 0 < b') (o : P2File G1 G2) (ho : o.WF)
    (junk : Bytes) (steps steps' : List (Par × Phase2.Rand F)) (hperm : (steps.map Prod.snd).Perm (steps'.map Prod.snd))
    (hc : o.records.length + steps.length < 2 ^ 63) (out out' : Bytes) (h : p2Ceremony C H b steps (o.encode C H ++ junk) = .ok out)
    (h' : p2Ceremony C H b' steps' (o.encode C H ++ junk) = .ok out') :
    ∃ common rs rs', out = common ++ rs ∧ out' = common ++ rs' ∧
      common.length = (H.enc { o.header with contributions := o.records.length + steps.length }).length
        + 32 + 64 + 32 * (o.domain - 1) + 32 * o.witness := by
  have hlen : steps.length = steps'.length := by simpa using hperm.length_eq
  obtain ⟨rs, hr⟩ := p2Ceremony_starts hC hH b hb o ho junk steps hc out h
  obtain ⟨rs', hr'⟩ := p2Ceremony_starts hC hH b' hb' o ho junk steps' (by omega) out' h'
  have hδ : deltaProduct (steps.map Prod.snd) = deltaProduct (steps'.map Prod.snd) := (hperm.map _).prod_eq
  rw [← hδ, ← hlen] at hr'
  refine ⟨_, rs, rs', by rw [hr, ← List.append_assoc], by rw [hr', ← List.append_assoc], ?_⟩
  have hz := ho.z
  have hpk := ho.pkk
  rw [List.length_append]
  have : ((o.scaleParams (deltaProduct (steps.map Prod.snd))).params C).length = 32 + 64 + 32 * (o.domain - 1) + 32 * o.witness := by
    have l1 : ∀ l : List G1, (l.flatMap C.c1.bytes).length = 32 * l.length := fun l => by
      induction l with
      | nil => rfl
      | cons p l ih => rw [List.flatMap_cons, List.length_append, ih, hC.codec1.bytes_length, hC.size1]; simp; omega
    simp only [P2File.params, P2File.scaleParams, List.length_append, l1, List.length_map, hz, hpk, hC.codec1.bytes_length, hC.size1,
      hC.codec2.bytes_length, hC.size2]
  rw [this]
  simp [P2File.headerWith, P2File.scaleParams, P2File.header, Nat.add_assoc]

open Keys in
/-- **C65**, the keys: if both final files are given to key extraction with the same evaluation file of the circuit, the results are the same. -/
theorem C65_keys (K : KeyEnv G1) (hH : K.header.Lawful) (b b' : Nat) (hb : 0 < b) (hb' : 0 < b') (o : P2File G1 G2) (ho : o.WF)
    (hd : o.domain ≤ 2 ^ 28) (hw : o.wires < 2 ^ 32) (junk : Bytes) (steps steps' : List (Par × Phase2.Rand F))
    (hperm : (steps.map Prod.snd).Perm (steps'.map Prod.snd)) (hc : o.records.length + steps.length < 2 ^ 63) (out out' : Bytes)
    (h : p2Ceremony C K.header b steps (o.encode C K.header ++ junk) = .ok out)
    (h' : p2Ceremony C K.header b' steps' (o.encode C K.header ++ junk) = .ok out') (v : Evals G1 G2) (ha : v.a.length = o.wires)
    (hb1 : v.b1.length = o.wires) (hb2 : v.b2.length = o.wires) (hv : v.vkk.length < 2 ^ 32) (hck : v.ckk.length < 2 ^ 32)
    (ck : Bytes) (hk : K.commitmentKey v.ckk = .ok ck) (junk' : Bytes) :
    extractKeys C K out (v.encode C ++ junk') = extractKeys C K out' (v.encode C ++ junk') ∧
    extractSplitKeys C K out (v.encode C ++ junk') = extractSplitKeys C K out' (v.encode C ++ junk') ∧
    (extractKeys C K out (v.encode C ++ junk')).1 = .ok () ∧ (extractSplitKeys C K out (v.encode C ++ junk')).1 = .ok () := by
  have hlen : steps.length = steps'.length := by simpa using hperm.length_eq
  obtain ⟨rs, rfl⟩ := p2Ceremony_starts hC hH b hb o ho junk steps hc out h
  obtain ⟨rs', rfl⟩ := p2Ceremony_starts hC hH b' hb' o ho junk steps' (by omega) out' h'
  have hδ : deltaProduct (steps.map Prod.snd) = deltaProduct (steps'.map Prod.snd) := (hperm.map _).prod_eq
  rw [← hδ, ← hlen]
  have hwf := P2File.scaleParams_wf (deltaProduct (steps.map Prod.snd)) o ho
  have hcnt : ((o.records.length : Int) + steps.length) < 2 ^ 63 := by exact_mod_cast hc
  have e1 := fun rest => extractPK_starts hC K hH _ hwf hd (o.records.length + steps.length) (by omega) hcnt v (by omega) (by omega)
    (by omega) rest junk'
  have e2 := fun rest => extractSplitPK_starts hC K hH _ hwf (o.records.length + steps.length) (by omega) hcnt v (by omega) (by omega)
    (by omega) rest junk'
  have e3 := fun rest => extractVK_starts hC K hH _ hwf (o.records.length + steps.length) (by omega) hcnt v hw ha hb1 hb2 hv hck ck hk
    rest junk'
  refine ⟨?_, ?_, ?_, ?_⟩
  · unfold extractKeys; rw [e1, e1, (e3 _).1, (e3 _).1]
  · unfold extractSplitKeys; rw [e2, e2, (e3 _).2, (e3 _).2]
  · unfold extractKeys; rw [e1, (e3 _).1]; rfl
  · unfold extractSplitKeys; rw [e2, (e3 _).2]; rfl

end
-- two contributors in both orders
example : ∃ out out', p1Ceremony Toy.curve batchSize [(Toy.par, Toy.rnd), (Toy.par, Toy.rnd')] ((P1File.init Toy.curve 1).encode Toy.curve)
      = .ok out ∧
    p1Ceremony Toy.curve 2 [(par4, Toy.rnd'), (Toy.par, Toy.rnd)] ((P1File.init Toy.curve 1).encode Toy.curve) = .ok out' ∧
    out'.length = out.length ∧ out'.take (out.length - 640 * 2) = out.take (out.length - 640 * 2) := by
  obtain ⟨g, rs, h, -⟩ := p1Ceremony_any Toy.lawful batchSize (by decide) [(Toy.par, Toy.rnd), (Toy.par, Toy.rnd')]
    (P1File.init Toy.curve 1) (init_wf Toy.curve 1 (by decide)) (by decide) (by decide)
  obtain ⟨out', h'⟩ := C65_phase1 Toy.lawful batchSize 2 (by decide) (by decide) [(Toy.par, Toy.rnd), (Toy.par, Toy.rnd')] [(par4, Toy.rnd'), (Toy.par, Toy.rnd)]
    (List.Perm.swap _ _ _) (by decide) h
  exact ⟨_, out', h, h'⟩

/-- an evaluation file for `Toy.p2` -/
def Toy.orderEvals : Evals Toy.K Toy.K := ⟨2, 3, 3, [1, 2, 3, 4, 5], [0, 1, 0, 2, 0], [0, 1, 0, 2, 0], [6, 7], [], [1]⟩

theorem Toy.p2_noStraddle' : Toy.p2.CeremonyNoStraddle Toy.curve Gob.headerCodec [Toy.p2rnd', Toy.p2rnd] := by decide +kernel

theorem Toy.bothOrders : (∃ out, p2Ceremony Toy.curve Gob.headerCodec 2 [(Toy.par, Toy.p2rnd), (Toy.par, Toy.p2rnd')]
      (Toy.p2.encode Toy.curve Gob.headerCodec ++ []) = .ok out) ∧
    ∃ out, p2Ceremony Toy.curve Gob.headerCodec 2 [(Toy.par, Toy.p2rnd'), (Toy.par, Toy.p2rnd)]
      (Toy.p2.encode Toy.curve Gob.headerCodec ++ []) = .ok out := by
  rw [List.append_nil]
  obtain ⟨f, h1, h2, -⟩ := C30_ceremony_partial Toy.lawful Gob.lawful 2 (by decide) Toy.p2 Toy.p2_wf rfl
    [(Toy.par, Toy.p2rnd), (Toy.par, Toy.p2rnd')] (by decide) Toy.p2_noStraddle
  obtain ⟨f', h1', h2', -⟩ := C30_ceremony_partial Toy.lawful Gob.lawful 2 (by decide) Toy.p2 Toy.p2_wf rfl
    [(Toy.par, Toy.p2rnd'), (Toy.par, Toy.p2rnd)] (by decide) Toy.p2_noStraddle'
  exact ⟨⟨_, h1⟩, _, h1'⟩

section
variable (out out' : Bytes) (h : p2Ceremony Toy.curve Gob.headerCodec 2 [(Toy.par, Toy.p2rnd), (Toy.par, Toy.p2rnd')]
      (Toy.p2.encode Toy.curve Gob.headerCodec ++ []) = .ok out)
  (h' : p2Ceremony Toy.curve Gob.headerCodec 2 [(Toy.par, Toy.p2rnd'), (Toy.par, Toy.p2rnd)]
      (Toy.p2.encode Toy.curve Gob.headerCodec ++ []) = .ok out')

example := C65_phase2 Toy.lawful Gob.lawful 2 2 (by decide) (by decide) Toy.p2 Toy.p2_wf [] [(Toy.par, Toy.p2rnd), (Toy.par, Toy.p2rnd')]
  [(Toy.par, Toy.p2rnd'), (Toy.par, Toy.p2rnd)] (List.Perm.swap _ _ _) (by decide) out out' h h'

example := C65_keys Toy.lawful Toy.keyEnv Gob.lawful 2 2 (by decide) (by decide) Toy.p2 Toy.p2_wf (by decide) (by decide) []
  [(Toy.par, Toy.p2rnd), (Toy.par, Toy.p2rnd')] [(Toy.par, Toy.p2rnd'), (Toy.par, Toy.p2rnd)] (List.Perm.swap _ _ _) (by decide) out out' h h'
  Toy.orderEvals rfl rfl rfl (by decide) (by decide) _ rfl [1]
end

end ZkSetup
