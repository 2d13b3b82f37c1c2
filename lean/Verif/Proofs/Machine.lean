import Verif.Proofs.Lagrange
import Verif.Model.ConsoleCli
/-
The number of CPUs and the goroutine schedule make no difference to any of the programs.
-/
set_option linter.unusedSectionVars false

namespace ZkSetup

theorem Par.mapIdx_any {G : Type} (p q : Par) (n : Nat) (f : Nat → G → G) (a : List G) : p.mapIdx n f a = q.mapIdx n f a := by
  rw [Par.mapIdx_eq', Par.mapIdx_eq']

namespace Lagrange
section
variable {F G : Type} [Field F] [AddCommGroup G] [Module F G]

/-- Two machines run the same transform, for every length of the slice. -/
theorem difFFT_machine (tw : Nat → Nat → F) (htw : ∀ s, tw s 0 = 1) (c c' ms ms' : Nat) (hc : ∀ st < ms, 0 < c / 2 ^ st)
    (hc' : ∀ st < ms', 0 < c' / 2 ^ st) (n : Nat) : ∀ off stage, ∃ p p' : Conc (List G),
      difFFT c tw ms off n stage = some p ∧ difFFT c' tw ms' off n stage = some p' ∧ p.Indep ∧ p'.Indep ∧
      (∀ f ∈ p.steps, Acts (fun i => off ≤ i ∧ i < off + n) f) ∧ (∀ f ∈ p'.steps, Acts (fun i => off ≤ i ∧ i < off + n) f) ∧
      ∀ s, p.run s = p'.run s := by
  induction n using Nat.strong_induction_on with
  | _ n ih =>
    intro off stage
    rw [difFFT, difFFT]
    by_cases h1 : n ≤ 1
    · rw [if_pos h1, if_pos h1]
      exact ⟨_, _, rfl, rfl, trivial, trivial, by simp [Conc.steps], by simp [Conc.steps], fun _ => rfl⟩
    rw [if_neg h1, if_neg h1]
    by_cases h8 : n = 8
    · subst h8
      rw [if_pos rfl, if_pos rfl]
      exact ⟨_, _, rfl, rfl, indep_kerDIF8 _ _ _, indep_kerDIF8 _ _ _, kerDIF8_steps _ _ _, kerDIF8_steps _ _ _, fun _ => rfl⟩
    rw [if_neg h8, if_neg h8]
    obtain ⟨b, hb, hbi, hbr, hbs⟩ := butterflies_spec (G := G) c tw off (n / 2) stage ms (by omega) (htw _) (hc stage)
    obtain ⟨b', hb', hbi', hbr', hbs'⟩ := butterflies_spec (G := G) c' tw off (n / 2) stage ms' (by omega) (htw _) (hc' stage)
    have hbs1 : ∀ f ∈ b.steps, Acts (fun i => off ≤ i ∧ i < off + n) f := fun f hf =>
      Acts.mono (hbs f hf) fun i hi => by omega
    have hbs1' : ∀ f ∈ b'.steps, Acts (fun i => off ≤ i ∧ i < off + n) f := fun f hf =>
      Acts.mono (hbs' f hf) fun i hi => by omega
    have hbb : ∀ s, b.run s = b'.run s := fun s => by rw [hbr, hbr']
    simp only [hb, hb', Option.bind_eq_bind, Option.bind_some]
    by_cases hm : n / 2 = 1
    · rw [if_pos hm, if_pos hm]
      exact ⟨_, _, rfl, rfl, hbi, hbi', hbs1, hbs1', hbb⟩
    rw [if_neg hm, if_neg hm]
    obtain ⟨hi, hi', hhi, hhi', ihi, ihi', shi, shi', rhi⟩ := ih (n - n / 2) (by omega) (off + n / 2) (stage + 1)
    obtain ⟨lo, lo', hlo, hlo', ilo, ilo', slo, slo', rlo⟩ := ih (n / 2) (by omega) off (stage + 1)
    simp only [hhi, hhi', hlo, hlo', Option.bind_some]
    have hcomm : ∀ f ∈ hi.steps, ∀ g ∈ lo.steps, ∀ s, f (g s) = g (f s) := fun f hf g hg s =>
      Acts.comm (shi f hf) (slo g hg) (fun i h1 h2 => by omega) s
    have hcomm' : ∀ f ∈ hi'.steps, ∀ g ∈ lo'.steps, ∀ s, f (g s) = g (f s) := fun f hf g hg s =>
      Acts.comm (shi' f hf) (slo' g hg) (fun i h1 h2 => by omega) s
    have hrun : ∀ s, lo.run (hi.run s) = hi.run (lo.run s) := fun s =>
      Acts.comm (Acts.run slo) (Acts.run shi) (fun i h1 h2 => by omega) s
    have hsteps : ∀ f, (f ∈ b.steps ∨ f ∈ hi.steps ∨ f ∈ lo.steps) → Acts (fun i => off ≤ i ∧ i < off + n) f := by
      rintro f (h | h | h)
      · exact hbs1 f h
      · exact Acts.mono (shi f h) fun i hi => by omega
      · exact Acts.mono (slo f h) fun i hi => by omega
    have hsteps' : ∀ f, (f ∈ b'.steps ∨ f ∈ hi'.steps ∨ f ∈ lo'.steps) → Acts (fun i => off ≤ i ∧ i < off + n) f := by
      rintro f (h | h | h)
      · exact hbs1' f h
      · exact Acts.mono (shi' f h) fun i hi => by omega
      · exact Acts.mono (slo' f h) fun i hi => by omega
    split <;> split <;> refine ⟨_, _, rfl, rfl, ?_, ?_, ?_, ?_, ?_⟩ <;>
      first
        | exact ⟨hbi, ihi, ilo, hcomm⟩
        | exact ⟨hbi', ihi', ilo', hcomm'⟩
        | exact ⟨hbi, ilo, ihi⟩
        | exact ⟨hbi', ilo', ihi'⟩
        | (intro f hf
           simp only [Conc.steps, List.mem_append] at hf
           apply hsteps f; tauto)
        | (intro f hf
           simp only [Conc.steps, List.mem_append] at hf
           apply hsteps' f; tauto)
        | (intro s
           simp only [Conc.run, hbb, rhi, rlo, hrun] <;> simp only [← rhi, ← rlo, hrun])

/-- Two machines convert to the same Lagrange basis, for every length. -/
theorem convert_machine (p q : Par) (dom : Domain F) (htw : ∀ s, dom.twiddlesInv s 0 = 1) (buff : List G) :
    convert p dom buff = convert q dom buff := by
  obtain ⟨x, y, hx, hy, ix, iy, _, _, hr⟩ := difFFT_machine (G := G) dom.twiddlesInv htw p.cpus q.cpus _ _
    (fun st => two_pow_maxSplits p.cpus st p.cpus_pos) (fun st => two_pow_maxSplits q.cpus st q.cpus_pos) buff.length 0 0
  unfold convert
  simp only [hx, hy, Option.bind_eq_bind, Option.bind_some]
  rw [p.sched.exec_eq x ix, q.sched.exec_eq y iy, bitReversePoints_exec _ _ _ p.cpus_pos, bitReversePoints_exec _ _ _ q.cpus_pos, hr,
    Par.mapIdx_any p q]

end
end Lagrange

theorem Go.bind_congr {σ α β : Type} {x : Go σ α} {f g : α → Go σ β} (h : ∀ a, f a = g a) : (x >>= f) = (x >>= g) := by
  rw [show f = g from funext h]

section
variable {F G1 G2 GT : Type} [Field F] [AddCommGroup G1] [Module F G1] [AddCommGroup G2]
  [Module F G2] [AddCommGroup GT] [Module F GT] [DecidableEq G1] [DecidableEq G2] [DecidableEq GT]
variable (C : Curve F G1 G2 GT) (p q : Par)

namespace Phase1

theorem applyMultiplicand_machine (m : Option F) (xs : List F) : applyMultiplicand p m xs = applyMultiplicand q m xs := by
  cases m with
  | none => rfl
  | some m => exact Par.mapIdx_any _ _ _ _ _

theorem scaleLoop_machine {G : Type} [AddCommGroup G] [Module F G] [DecidableEq G] (c : Codec G) (b : Nat) (tau : F) (m : Option F)
    (first : List G → Option G) (n : Nat) : ∀ (buff : List G) (sp : F) (fp : G),
      scaleLoop c p b tau m first n buff sp fp = scaleLoop c q b tau m first n buff sp fp := by
  induction n using Nat.strong_induction_on with
  | _ n ih =>
    intro buff sp fp
    rw [scaleLoop, scaleLoop]
    split
    · rename_i h
      simp only [applyMultiplicand_machine p q, Par.mapIdx_any p q]
      refine Go.bind_congr fun pts => Go.bind_congr fun _ => Go.bind_congr fun fp' => ?_
      exact ih _ (by omega) _ _ _
    · rfl

theorem scaleG1_machine (b : Nat) (N : Int) (tau : F) (m : Option F) : scaleG1 C p b N tau m = scaleG1 C q b N tau m :=
  Go.bind_congr fun _ => scaleLoop_machine p q ..

theorem scaleG2_machine (b : Nat) (N : Int) (tau : F) : scaleG2 C p b N tau = scaleG2 C q b N tau :=
  Go.bind_congr fun _ => scaleLoop_machine p q ..

theorem linCombLoop_machine {G : Type} [AddCommGroup G] [Module F G] (c : Codec G) (pol : MsmPolicy) (b : Nat) (rnd : Nat → Nat → F)
    (n : Nat) : ∀ (t : Nat) (buff : List G) (r : List F) (L1 L2 t1 t2 : G),
      linCombLoop c p pol b rnd n t buff r L1 L2 t1 t2 = linCombLoop c q pol b rnd n t buff r L1 L2 t1 t2 := by
  induction n using Nat.strong_induction_on with
  | _ n ih =>
    intro t buff r L1 L2 t1 t2
    rw [linCombLoop, linCombLoop]
    split
    · rename_i h
      have hr : randomize p (rnd t) r = randomize q (rnd t) r := Par.mapIdx_any _ _ _ _ _
      simp only [hr]
      refine Go.bind_congr fun pts => ?_
      exact ih _ (by omega) _ _ _ _ _ _ _
    · rfl

theorem linearCombination_machine {G : Type} [AddCommGroup G] [Module F G] (c : Codec G) (pol : MsmPolicy) (b : Nat)
    (rnd : Nat → Nat → F) (N : Int) : linearCombination c p pol b rnd N = linearCombination c q pol b rnd N :=
  Go.bind_congr fun _ => linCombLoop_machine p q ..

theorem contribute_machine (b : Nat) (rnd : Rand F) (input : Bytes) : contribute C p b rnd input = contribute C q b rnd input := by
  simp only [contribute, contributeBody, scaleG1_machine C p q, scaleG2_machine C p q]

theorem verify_machine (pol : MsmPolicy) (b : Nat) (vr : VerifyRand F) (input : Bytes) (tr : Option Bytes) :
    verify C p pol b vr input tr = verify C q pol b vr input tr := by
  simp only [verify, readSections, linearCombination_machine p q]

end Phase1

namespace Phase2

theorem scaleLoop_machine (b : Nat) (delta : F) (n : Nat) : scaleLoop C p b delta n = scaleLoop C q b delta n := by
  induction n using Nat.strong_induction_on with
  | _ n ih =>
    rw [scaleLoop, scaleLoop]
    split
    · rename_i h
      simp only [Par.mapIdx_any p q]
      refine Go.bind_congr fun pts => Go.bind_congr fun _ => ?_
      exact ih _ (by omega)
    · rfl

theorem scale_machine (b : Nat) (N : Int) (delta : F) : scale C p b N delta = scale C q b N delta :=
  Go.bind_congr fun _ => scaleLoop_machine C p q ..

theorem aggregateLoop_machine (b : Nat) (rnd : Nat → Nat → F) (n : Nat) : ∀ (t : Nat) (r : List F) (x y : G1),
    aggregateLoop C p b rnd n t r x y = aggregateLoop C q b rnd n t r x y := by
  induction n using Nat.strong_induction_on with
  | _ n ih =>
    intro t r x y
    rw [aggregateLoop, aggregateLoop]
    split
    · rename_i h
      simp only [Par.mapIdx_any p q]
      refine Go.bind_congr fun _ => Go.bind_congr fun _ => Go.bind_congr fun _ => Go.bind_congr fun _ => ?_
      exact ih _ (by omega) _ _ _ _
    · rfl

theorem aggregate_machine (b : Nat) (rnd : Nat → Nat → F) (size : Int) : aggregate C p b rnd size = aggregate C q b rnd size :=
  Go.bind_congr fun _ => Go.bind_congr fun _ => aggregateLoop_machine C p q ..

theorem verifyParameter_machine (b : Nat) (rnd : Nat → Nat → F) (delta g : G2) (size : Int) (field : String) :
    verifyParameter C p b rnd delta g size field = verifyParameter C q b rnd delta g size field := by
  simp only [verifyParameter, aggregate_machine C p q]

theorem contribute_machine (H : HeaderCodec) (b : Nat) (rnd : Rand F) (input : Bytes) :
    contribute C H p b rnd input = contribute C H q b rnd input := by
  simp only [contribute, contributeBody, contributeWith, scale_machine C p q]

theorem verify_machine (H : HeaderCodec) (b : Nat) (vr : VerifyRand F) (input origin : Bytes) :
    verify C H p b vr input origin = verify C H q b vr input origin := by
  simp only [verify, verifyBody, verifyParameter_machine C p q]

theorem lagrangeSection_machine {G : Type} [AddCommGroup G] [Module F G] (c : Codec G) (file : Bytes) (pos : Int)
    (dom : Lagrange.Domain F) (htw : ∀ s, dom.twiddlesInv s 0 = 1) :
    lagrangeSection c p file pos dom = lagrangeSection c q file pos dom := by
  simp only [lagrangeSection, Lagrange.convert_machine p q dom htw]

variable {E : InitEnv F} (htw : ∀ n s, (E.dom n).twiddlesInv s 0 = 1)
include htw

theorem processLagrange_machine (h1 : Phase1.Header) (h2 : Header) (file : Bytes) :
    processLagrange C p E.dom h1 h2 file = processLagrange C q E.dom h1 h2 file := by
  simp only [processLagrange, fun (file : Bytes) pos n => lagrangeSection_machine p q C.c1 file pos (E.dom n) (htw n),
    fun (file : Bytes) pos n => lagrangeSection_machine p q C.c2 file pos (E.dom n) (htw n)]

theorem initializeFiles_machine (r : Option (R1CS F)) (file lag evals : Bytes) :
    initializeFiles C E p r file lag evals = initializeFiles C E q r file lag evals := by
  simp only [initializeFiles, initBody, processLagrange_machine C p q htw]

theorem initializeParted_machine (cs : PartedR1CS F) (n : Int) (file lag evals : Bytes) :
    initializeParted C E p cs n file lag evals = initializeParted C E q cs n file lag evals := by
  simp only [initializeParted, processLagrange_machine C p q htw]

end Phase2

namespace Console

theorem p1Contribute_machine (b : Nat) (rnd : Phase1.Rand F) (input : Bytes) : p1Contribute C p b rnd input = p1Contribute C q b rnd input := by
  simp only [p1Contribute, p1ContributeBody, Phase1.scaleG1_machine C p q, Phase1.scaleG2_machine C p q]

theorem p1Verify_machine (pol : Phase1.MsmPolicy) (b : Nat) (vr : Phase1.VerifyRand F) (input : Bytes) (tr : Option Bytes) :
    p1Verify C p pol b vr input tr = p1Verify C q pol b vr input tr := by
  simp only [p1Verify, p1ReadSections, Phase1.linearCombination_machine p q]

theorem p2Contribute_machine (H : Phase2.HeaderCodec) (b : Nat) (rnd : Phase2.Rand F) (input : Bytes) :
    p2Contribute C H p b rnd input = p2Contribute C H q b rnd input := by
  simp only [p2Contribute, p2ContributeBody, Phase2.scale_machine C p q]

theorem p2Verify_machine (H : Phase2.HeaderCodec) (b : Nat) (vr : Phase2.VerifyRand F) (input origin : Bytes) :
    p2Verify C H p b vr input origin = p2Verify C H q b vr input origin := by
  simp only [p2Verify, p2VerifyBody, Phase2.verifyParameter_machine C p q]

variable {E : Phase2.InitEnv F} (htw : ∀ n s, (E.dom n).twiddlesInv s 0 = 1)
include htw

theorem processLagrange_machine (h1 : Phase1.Header) (h2 : Phase2.Header) (file : Bytes) :
    processLagrange C p E.dom h1 h2 file = processLagrange C q E.dom h1 h2 file := by
  simp only [processLagrange, fun (file : Bytes) pos n => Phase2.lagrangeSection_machine p q C.c1 file pos (E.dom n) (htw n),
    fun (file : Bytes) pos n => Phase2.lagrangeSection_machine p q C.c2 file pos (E.dom n) (htw n)]

end Console
end
end ZkSetup
