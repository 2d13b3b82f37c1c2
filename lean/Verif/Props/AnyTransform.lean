import Verif.Proofs.AnyTransform
import Verif.Props.CutContribute
import Verif.Props.Transform
import Verif.Props.Cli
/-
C82: which bytes the conversion of a Powers-of-Tau response accepts, and what it writes.
-/
set_option linter.unusedSectionVars false

namespace ZkSetup

open Phase1

section
variable {F G1 G2 GT : Type} [Field F] [AddCommGroup G1] [Module F G1] [AddCommGroup G2]
  [Module F G2] [AddCommGroup GT] [Module F GT] [DecidableEq G1] [DecidableEq G2] [DecidableEq GT]
variable {C : Curve F G1 G2 GT} (hC : C.Lawful)
include hC

/-- **C82**, for all powers and all bytes: a successful conversion writes the file whose sections stand at the computed positions -/
theorem C82_exact (a b : UInt8) (input out : Bytes) : transform C a b input = (.ok (), out) ↔
    ∃ s, sectionStarts a.toNat = some s ∧ ∃ f : P1File G1 G2, f.ForPower b ∧ f.StandsIn C s input ∧ out = f.encode C := by
  have hs1 := hC.codec1.size_pos
  have hs2 := hC.codec2.size_pos
  rw [transform_iff]
  simp only [transformPoints_iff hs1, transformPoints_iff hs2]
  constructor
  · rintro ⟨o1, o2, o3, o4, o5, r1, r2, r3, r4, r5, ⟨-, p1, l1, t1, rfl, rfl⟩, ⟨n2, p2, l2, t2, rfl, rfl⟩, ⟨n3, p3, l3, t3, rfl, rfl⟩,
      ⟨n4, p4, l4, t4, rfl, rfl⟩, ⟨n5, p5, l5, t5, rfl, rfl⟩, rfl⟩
    cases hst : sectionStarts a.toNat with
    | none => rcases starts_none hst with h | h | h <;> omega
    | some s =>
      obtain ⟨e1, e2, e3, e4, e5⟩ := starts_some hst
      obtain ⟨q, rfl⟩ := List.length_eq_one_iff.mp l5
      refine ⟨s, rfl, ⟨b, p1, p2, p3, p4, q, []⟩, ⟨rfl, l1, l2, l3, l4, rfl⟩, ⟨?_, ?_, ?_, ?_, ?_⟩, ?_⟩
      · rw [e1]; exact t1
      · rw [e3] at t2; exact t2
      · rw [e4] at t3; exact t3
      · rw [e2] at t4; exact t4
      · rw [e5] at t5; exact t5
      · simp [P1File.encode, P1File.params, beBytes]
  · rintro ⟨s, hst, f, hf, hi, rfl⟩
    obtain ⟨e1, e2, e3, e4, e5⟩ := starts_some hst
    refine ⟨_, _, _, _, _, _, _, _, _, _, ⟨by omega, f.tauG1, hf.tauG1, ?_, rfl, rfl⟩, ⟨by omega, f.alphaG1, hf.alphaG1, ?_, rfl, rfl⟩,
      ⟨by omega, f.betaG1, hf.betaG1, ?_, rfl, rfl⟩, ⟨by omega, f.tauG2, hf.tauG2, ?_, rfl, rfl⟩, ⟨by omega, [f.betaG2], rfl, ?_, rfl, rfl⟩, ?_⟩
    · have := hi.tauG1; rw [e1] at this; exact this
    · rw [e3]; exact hi.alphaG1
    · rw [e4]; exact hi.betaG1
    · rw [e2]; exact hi.tauG2
    · rw [e5]; exact hi.betaG2
    · simp [P1File.encode, P1File.params, beBytes, hf.power, hf.records]

/-- **C82**: there is at most one such file. -/
theorem C82_unique (b : UInt8) (s : SectionStarts) (input : Bytes) (f g : P1File G1 G2) (hf : f.ForPower b) (hg : g.ForPower b)
    (hf' : f.StandsIn C s input) (hg' : g.StandsIn C s input) : f = g := by
  have hs1 := hC.codec1.size_pos
  have hs2 := hC.codec2.size_pos
  have h1 := listed_unique hs1 _ _ _ (hf.tauG1.trans hg.tauG1.symm) hf'.tauG1 hg'.tauG1
  have h2 := listed_unique hs1 _ _ _ (hf.alphaG1.trans hg.alphaG1.symm) hf'.alphaG1 hg'.alphaG1
  have h3 := listed_unique hs1 _ _ _ (hf.betaG1.trans hg.betaG1.symm) hf'.betaG1 hg'.betaG1
  have h4 := listed_unique hs2 _ _ _ (hf.tauG2.trans hg.tauG2.symm) hf'.tauG2 hg'.tauG2
  have h5 := listed_unique hs2 [f.betaG2] [g.betaG2] _ rfl hf'.betaG2 hg'.betaG2
  have h6 := hf.power.trans hg.power.symm
  have h7 := hf.records.trans hg.records.symm
  cases f
  cases g
  simp_all

/-- **C82**: original powers 55 to 57 are refused, whatever the bytes and the reduced power. -/
theorem C82_between (a b : UInt8) (ha : 55 ≤ a.toNat) (ha' : a.toNat ≤ 57) (input : Bytes) :
    ∃ e out, transform C a b input = (.error e, out) := by
  rcases h : transform C a b input with ⟨e | ⟨⟩, out⟩
  · exact ⟨e, out, rfl⟩
  · obtain ⟨s, hs, -⟩ := (C82_exact hC a b input out).mp h
    unfold sectionStarts at hs
    rw [if_neg (by omega), if_pos ha'] at hs
    simp at hs

/-- **C82**: the hash of the challenge, which ties a response to the ceremony it belongs to, is never looked at. -/
theorem C82_hash (a b : UInt8) (ha : a.toNat ≤ 54) (x y rest : Bytes) (hx : x.length = 64) (hy : y.length = 64) :
    transform C a b (x ++ rest) = transform C a b (y ++ rest) := by
  have key : ∀ {G : Type} (c : Codec G) (pos : Int) (n : Nat), 64 ≤ pos →
      transformPoints c (x ++ rest) pos n = transformPoints c (y ++ rest) pos n := by
    intro G c pos n hp
    unfold transformPoints
    rw [List.drop_append, List.drop_append, hx, hy, List.drop_eq_nil_of_le (as := x) (by omega), List.drop_eq_nil_of_le (as := y) (by omega)]
  obtain ⟨s, hst, h2, h3, h4, h5⟩ : ∃ s, sectionStarts a.toNat = some s ∧ 64 ≤ s.tauG2 ∧ 64 ≤ s.alphaG1 ∧ 64 ≤ s.betaG1 ∧ 64 ≤ s.betaG2 := by
    unfold sectionStarts
    rw [if_pos ha]
    refine ⟨_, rfl, ?_, ?_, ?_, ?_⟩ <;> simp only <;> omega
  obtain ⟨-, e2, e3, e4, e5⟩ := starts_some hst
  rw [transform_eq, transform_eq, key _ 64 _ (by omega), key _ (posAlphaG1 a) _ (by omega), key _ (posBetaG1 a) _ (by omega),
    key _ (posTauG2 a) _ (by omega), key _ (posBetaG2 a) _ (by omega)]

/-- **C82**: a response of which any number of bytes is missing at the end is refused, whatever the reduced power. -/
theorem C82_truncated (r : Response G1 G2) (a b : UInt8) (ha : a.toNat ≤ 54) (hr : r.WF a.toNat) (n : Nat) (hn : n < (r.encode C).length) :
    ∃ e out, transform C a b ((r.encode C).take n) = (.error e, out) := by
  rcases h : transform C a b ((r.encode C).take n) with ⟨e | ⟨⟩, out⟩
  · exact ⟨e, out, rfl⟩
  exfalso
  obtain ⟨s, hs, f, -, hi, -⟩ := (C82_exact hC a b _ out).mp h
  unfold sectionStarts at hs
  rw [if_pos ha] at hs
  obtain rfl := Option.some.inj hs
  obtain ⟨e, t, he, hd, -⟩ := hi.betaG2
  have hs1 := hC.size1
  have hs2 := hC.size2
  obtain ⟨pre, hpre, hlen⟩ : ∃ pre, r.encode C = pre ++ C.c2.rawBytes r.betaG2 ∧
      pre.length = 64 + (2 * 2 ^ a.toNat - 1) * 64 + 2 ^ a.toNat * 128 + 2 ^ a.toNat * 64 + 2 ^ a.toNat * 64 := by
    refine ⟨_, rfl, ?_⟩
    simp only [List.length_append, flatMap_raw_length hC.codec1, flatMap_raw_length hC.codec2, hr.hash, hr.tauG1, hr.tauG2, hr.alphaG1,
      hr.betaG1, hs1, hs2]
    omega
  have hraw := hC.codec2.raw_length r.betaG2
  rw [hpre, List.length_append] at hn
  simp only [← hlen, hpre] at he
  rw [List.drop_take, List.drop_left] at he
  have hpos : 0 < e.length := by rw [hd.1]; split <;> omega
  have hhead : e.headD 0 = (C.c2.rawBytes r.betaG2).headD 0 := by
    cases e with
    | nil => simp at hpos
    | cons x xs =>
      cases hb : C.c2.rawBytes r.betaG2 with
      | nil => rw [hb] at he; simp at he
      | cons y ys =>
        rw [hb] at he
        cases hm : n - pre.length with
        | zero => rw [hm] at he; simp at he
        | succ m => rw [hm, List.take_succ_cons] at he; simp at he; simp [he.1]
  have hel := hd.1
  rw [hhead, hC.codec2.raw_flag] at hel
  have := congrArg List.length he
  simp at this hel
  omega

omit hC in
theorem prefix_step {x o o' : Bytes} (hp : o' <+: o) (hl : o'.length < o.length) (rest : List Bytes) :
    x ++ o' <+: rest.foldl (· ++ ·) (x ++ o) ∧ (x ++ o').length < (rest.foldl (· ++ ·) (x ++ o)).length := by
  have key : ∀ (rest : List Bytes) (y : Bytes), y <+: rest.foldl (· ++ ·) y := by
    intro rest
    induction rest with
    | nil => intro y; exact List.prefix_rfl
    | cons z rest ih => intro y; exact (List.prefix_append y z).trans (ih _)
  have h1 := key rest (x ++ o)
  refine ⟨((List.prefix_append_right_inj x).mpr hp).trans h1, Nat.lt_of_lt_of_le ?_ h1.length_le⟩
  rw [List.length_append, List.length_append]
  omega

/-- **C82**: what such a run leaves behind is a proper beginning of what the complete response gives, and nobody can contribute to it. -/
theorem C82_leftover (r : Response G1 G2) (a b : UInt8) (ha : a.toNat ≤ 54) (hab : b ≤ a) (hr : r.WF a.toNat) (n : Nat)
    (hn : n < (r.encode C).length) :
    ∃ e out, transform C a b ((r.encode C).take n) = (.error e, out) ∧ out <+: (r.prefix b).encode C ∧
      out.length < ((r.prefix b).encode C).length ∧
      (1 ≤ b.toNat → ∀ par batch rnd, 2 ≤ batch → ¬ ∃ hash out', contribute C par batch rnd out = (.ok hash, out')) := by
  have hs1 := hC.codec1.size_pos
  have hs2 := hC.codec2.size_pos
  obtain ⟨e, out, he⟩ := C82_truncated hC r a b ha hr n hn
  obtain ⟨hfull, hwf⟩ := C18_transform hC r a b ha hab hr []
  rw [List.append_nil] at hfull
  have hpre : out <+: (r.prefix b).encode C ∧ out.length < ((r.prefix b).encode C).length := by
    obtain ⟨o1, o2, o3, o4, o5, r1, r2, r3, r4, r5, t1, t2, t3, t4, t5, ho⟩ := (transform_iff a b _ _).mp hfull
    obtain rfl : o1 = r1 := by obtain ⟨-, -, -, -, -, h⟩ := (transformPoints_iff hs1 _ _ _ _ _).mp t1; exact h
    obtain rfl : o2 = r2 := by obtain ⟨-, -, -, -, -, h⟩ := (transformPoints_iff hs1 _ _ _ _ _).mp t2; exact h
    obtain rfl : o3 = r3 := by obtain ⟨-, -, -, -, -, h⟩ := (transformPoints_iff hs1 _ _ _ _ _).mp t3; exact h
    obtain rfl : o4 = r4 := by obtain ⟨-, -, -, -, -, h⟩ := (transformPoints_iff hs2 _ _ _ _ _).mp t4; exact h
    obtain rfl : o5 = r5 := by obtain ⟨-, -, -, -, -, h⟩ := (transformPoints_iff hs2 _ _ _ _ _).mp t5; exact h
    rw [ho]
    rw [transform_eq] at he
    rcases transformPoints_prefix hC.codec1 _ n _ _ _ t1 with u1 | ⟨e', o', u1, hp, hl⟩
    swap
    · simp only [u1, Prod.mk.injEq] at he
      obtain ⟨-, rfl⟩ := he
      exact prefix_step hp hl [o2, o3, o4, o5]
    rcases transformPoints_prefix hC.codec1 _ n _ _ _ t2 with u2 | ⟨e', o', u2, hp, hl⟩
    swap
    · simp only [u1, u2, Prod.mk.injEq] at he
      obtain ⟨-, rfl⟩ := he
      exact prefix_step hp hl [o3, o4, o5]
    rcases transformPoints_prefix hC.codec1 _ n _ _ _ t3 with u3 | ⟨e', o', u3, hp, hl⟩
    swap
    · simp only [u1, u2, u3, Prod.mk.injEq] at he
      obtain ⟨-, rfl⟩ := he
      exact prefix_step hp hl [o4, o5]
    rcases transformPoints_prefix hC.codec2 _ n _ _ _ t4 with u4 | ⟨e', o', u4, hp, hl⟩
    swap
    · simp only [u1, u2, u3, u4, Prod.mk.injEq] at he
      obtain ⟨-, rfl⟩ := he
      exact prefix_step hp hl [o5]
    rcases transformPoints_prefix hC.codec2 _ n _ _ _ t5 with u5 | ⟨e', o', u5, hp, hl⟩
    swap
    · simp only [u1, u2, u3, u4, u5, Prod.mk.injEq] at he
      obtain ⟨-, rfl⟩ := he
      exact prefix_step hp hl []
    simp [u1, u2, u3, u4, u5] at he
  refine ⟨e, out, he, hpre.1, hpre.2, ?_⟩
  intro hb par batch rnd hbatch hc
  rw [List.prefix_iff_eq_take.mp hpre.1] at hc
  have := (C81_p1_exact_partial hC par batch hbatch rnd (r.prefix b) hwf hb _ hpre.2).mp hc
  exact this.1 rfl

end

section
variable {F G1 G2 GT : Type} [Field F] [AddCommGroup G1] [Module F G1] [AddCommGroup G2]
  [Module F G2] [AddCommGroup GT] [Module F GT] [DecidableEq G1] [DecidableEq G2] [DecidableEq GT]
variable {C : Curve F G1 G2 GT}

open Cli

/-- **C82**, the command: the powers are compared as numbers and then reduced modulo 256, so that other powers than those given are used. -/
theorem C82_command (E : Env F G1) (d : Draws F) (inp out a b : String) (i j : Int) (ha : Denotes a i) (hb : Denotes b j)
    (hi : -(2 ^ 63) ≤ i ∧ i < 2 ^ 63) (hj : -(2 ^ 63) ≤ j ∧ j < 2 ^ 63) (hij : j ≤ i) (hne : inp ≠ out) (fs : FS) (bs : Bytes)
    (hbs : fs inp = some bs) :
    (exec C E d "p1t" [inp, out, a, b] fs).1 = (transform C (UInt8.ofNat (i % 256).toNat) (UInt8.ofNat (j % 256).toNat) bs).1 ∧
    (exec C E d "p1t" [inp, out, a, b] fs).2 out
      = some (transform C (UInt8.ofNat (i % 256).toNat) (UInt8.ofNat (j % 256).toNat) bs).2 := by
  have h1 := (atoi_iff a i).mpr ⟨ha, by omega, by omega⟩
  have h2 := (atoi_iff b j).mpr ⟨hb, by omega, by omega⟩
  simp only [exec, p1t, p1tRun, openFile, arg, List.getD_cons_zero, List.getD_cons_succ, hbs, List.length_cons, List.length_nil, h1, h2,
    toByte, if_neg hne]
  rw [if_neg (by simp), if_neg (by omega)]
  exact ⟨rfl, set_self _ _ _⟩

end

/-! ### concrete cases -/

-- the response of power 2 is accepted, and what is written stands in it
example : ∃ s, sectionStarts 2 = some s ∧ ∃ f : P1File Toy.K Toy.K, f.ForPower 1 ∧
    f.StandsIn Toy.curve s (Toy.response.encode Toy.curve ++ [1, 2]) ∧ (Toy.response.prefix 1).encode Toy.curve = f.encode Toy.curve :=
  (C82_exact Toy.lawful 2 1 _ _).mp (C18_transform Toy.lawful Toy.response 2 1 (by decide) (by decide) Toy.response_wf [1, 2]).1
-- original power 58 on bytes that are no response: two points
example : ∃ s, sectionStarts 58 = some s ∧ ∃ f : P1File Toy.K Toy.K, f.ForPower 0 ∧
    f.StandsIn Toy.curve s (Toy.curve.c2.rawBytes 5 ++ Toy.curve.c1.bytes 3) := by
  have h : (match (transform Toy.curve 58 0 (Toy.curve.c2.rawBytes 5 ++ Toy.curve.c1.bytes 3)).1 with
    | .ok _ => true | .error _ => false) = true := by decide +kernel
  rcases ht : transform Toy.curve 58 0 (Toy.curve.c2.rawBytes 5 ++ Toy.curve.c1.bytes 3) with ⟨_ | ⟨⟩, out⟩
  · rw [ht] at h
    simp at h
  · obtain ⟨s, hs, f, hf, hi, -⟩ := (C82_exact Toy.lawful 58 0 _ _).mp ht
    exact ⟨s, hs, f, hf, hi⟩
example := C82_between Toy.lawful 56 3 (by decide) (by decide) [1, 2, 3]
example := C82_hash Toy.lawful 2 1 (by decide) (List.replicate 64 0) (List.replicate 64 7) [1, 2, 3] (by simp) (by simp)
example := C82_truncated Toy.lawful Toy.response 2 1 (by decide) Toy.response_wf 1000 (by decide +kernel)
example := C82_leftover Toy.lawful Toy.response 2 1 (by decide) (by decide) Toy.response_wf 1000 (by decide +kernel)
-- `p1t response file 258 257` converts the response of power 2 to power 1
example (d : Cli.Draws Toy.K) : (Cli.exec Toy.curve Toy.cliEnv d "p1t" ["response", "file", "258", "257"]
    (fun p => if p = "response" then some (Toy.response.encode Toy.curve) else none)).2 "file"
      = some ((Toy.response.prefix 1).encode Toy.curve) := by
  have h := (C82_command (C := Toy.curve) Toy.cliEnv d "response" "file" "258" "257" 258 257 (Toy.denotes rfl) (Toy.denotes rfl) (by decide)
    (by decide) (by decide) (by decide) (fun p => if p = "response" then some (Toy.response.encode Toy.curve) else none) _ rfl).2
  have h' := (C18_transform Toy.lawful Toy.response 2 1 (by decide) (by decide) Toy.response_wf []).1
  rw [List.append_nil] at h'
  rw [h]
  exact congrArg (fun x => some x.2) h'
end ZkSetup
