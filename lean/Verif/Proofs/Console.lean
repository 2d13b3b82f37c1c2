import Verif.Model.Console
import Verif.Spec.Console
import Verif.Proofs.Phase1Verify
import Verif.Proofs.Phase2Verify
import Mathlib.Tactic.Ring

set_option linter.unusedSectionVars false

namespace ZkSetup
open Console

/-! ### hexadecimal -/

theorem digitValue_hexDigit : ∀ n < 16, digitValue (hexDigit n) = some n := by decide

theorem hexDigit_ne_space : ∀ n < 16, hexDigit n ≠ ' ' := by decide

theorem unhex_hex (b : Bytes) : unhex (hex b).toList = some b := by
  unfold hex
  rw [String.toList_ofList]
  induction b with
  | nil => rfl
  | cons x b ih =>
    have hx := x.toNat_lt
    simp only [List.flatMap_cons, List.cons_append, List.nil_append, unhex, ih]
    rw [digitValue_hexDigit _ (by omega), digitValue_hexDigit _ (by omega)]
    simp only [Option.bind_some, Option.map_some, Option.some.injEq, List.cons.injEq, and_true]
    have : 16 * (x.toNat / 16) + x.toNat % 16 = x.toNat := by omega
    rw [this]; simp

theorem hex_no_space (b : Bytes) : ∀ c ∈ (hex b).toList, c ≠ ' ' := by
  unfold hex
  rw [String.toList_ofList]
  intro c hc
  simp only [List.mem_flatMap, List.mem_cons, List.not_mem_nil, or_false] at hc
  obtain ⟨x, -, rfl | rfl⟩ := hc
  · have hx := x.toNat_lt; exact hexDigit_ne_space _ (by omega)
  · exact hexDigit_ne_space _ (by omega)

theorem lastWord_hex (p : List Char) (b : Bytes) (l : String) (h : l.toList = p ++ ' ' :: (hex b).toList) :
    lastWord l = (hex b).toList := by
  unfold lastWord
  rw [h, List.reverse_append, List.reverse_cons, List.append_assoc, List.takeWhile_append_of_pos (by
    intro c hc; simpa using hex_no_space b c (by simpa using hc))]
  simp

theorem hashLine_read (i : Nat) (b : Bytes) : unhex (lastWord (hashLine i b)) = some b := by
  rw [lastWord_hex ("Verifying contribution ".toList ++ ((toString (i + 1)).toList ++ " with Hash :=".toList)) b, unhex_hex]
  unfold hashLine
  simp only [String.toList_append, List.append_assoc]
  rfl

theorem ownHashLine_read (b : Bytes) : unhex (lastWord (ownHashLine b)) = some b := by
  rw [lastWord_hex "Contribution Hash := ".toList b, unhex_hex]
  unfold ownHashLine
  simp only [String.toList_append]
  rfl

theorem hashLine_starts (i : Nat) (b : Bytes) : "Verifying contribution ".toList.isPrefixOf (hashLine i b).toList = true := by
  unfold hashLine; simp only [String.toList_append, List.append_assoc]; simp [-String.reduceToList]

theorem hashLine_starts_not (i : Nat) (b : Bytes) (p : List Char) (c : Char) (hc : c ≠ 'V') :
    (c :: p).isPrefixOf (hashLine i b).toList = false := by
  unfold hashLine
  simp only [String.toList_append, List.append_assoc]
  show (c == 'V' && _) = false
  simp [hc]

theorem ownHashLine_starts (b : Bytes) : "Contribution Hash".toList.isPrefixOf (ownHashLine b).toList = true := by
  unfold ownHashLine; simp only [String.toList_append]; rfl

/-! ### programs with and without output -/

/-- `x` does what `y` does, and prints besides -/
def Console.Like {σ α β : Type} (x : Go (St σ) α) (y : Go σ β) (f : β → α) : Prop :=
  ∀ s, (x.run s).1 = (y.run s.st).1.map f ∧ (x.run s).2.st = (y.run s.st).2

/-- `x` prints no line that begins with `p` -/
def Console.Mute {σ α : Type} (p : String) (x : Go (St σ) α) : Prop :=
  ∀ s, linesWith p (x.run s).2.out = linesWith p s.out

/-- `x` prints no line that begins with `p`, unless it succeeds -/
def Console.MuteErr {σ α : Type} (p : String) (x : Go (St σ) α) : Prop :=
  ∀ s e, (x.run s).1 = .error e → linesWith p (x.run s).2.out = linesWith p s.out

namespace Console
variable {σ α β γ δ : Type}

@[simp] theorem println_run (l : String) (s : St σ) : (println l).run s = (.ok (), ⟨s.st, s.out ++ [l]⟩) := rfl

theorem quiet_run (x : Go σ α) (s : St σ) : (quiet x).run s = ((x.run s.st).1, ⟨(x.run s.st).2, s.out⟩) := rfl

theorem quiet_ok {x : Go σ α} {s s' : σ} {a : α} {out : List String} (h : x.run s = (.ok a, s')) :
    (quiet x).run ⟨s, out⟩ = (.ok a, ⟨s', out⟩) := by rw [quiet_run]; simp [h]

theorem Like.quiet (x : Go σ α) : Like (quiet x) x id := by
  intro s
  rw [quiet_run]
  refine ⟨?_, rfl⟩
  cases (x.run s.st).1 <;> rfl

theorem Like.pure (a : β) (f : β → α) : Like (pure (f a) : Go (St σ) α) (pure a) f := fun _ => ⟨rfl, rfl⟩

theorem Like.println {l : String} {x : Go (St σ) α} {y : Go σ β} {f : β → α} (h : Like x y f) :
    Like (println l >>= fun _ => x) y f := by
  intro s
  rw [Go.bind_ok (println_run l s)]
  exact h _

theorem Like.bind {x : Go (St σ) α} {y : Go σ β} {g : β → α} {k : α → Go (St σ) γ} {k' : β → Go σ δ} {f : δ → γ} (h : Like x y g)
    (hk : ∀ b, Like (k (g b)) (k' b) f) : Like (x >>= k) (y >>= k') f := by
  intro s
  have hs := h s
  cases hy : y.run s.st with
  | mk r st' =>
    cases hx : x.run s with
    | mk r' s' =>
      rw [hx, hy] at hs
      obtain ⟨h1, h2⟩ := hs
      simp only at h1 h2
      subst h2
      cases r with
      | ok b =>
        simp only [Except.map] at h1
        subst h1
        rw [Go.bind_ok hx, Go.bind_ok hy]
        exact hk b s'
      | error e =>
        simp only [Except.map] at h1
        subst h1
        rw [Go.bind_error hx, Go.bind_error hy]
        exact ⟨rfl, rfl⟩

theorem Like.last (x : Go σ Unit) (l : String) : Like (Console.quiet x >>= fun _ => Console.println l) x id := by
  intro s
  rw [Go.bind_run, quiet_run]
  cases (x.run s.st).1 <;> exact ⟨rfl, rfl⟩

theorem Mute.quiet (p : String) (x : Go σ α) : Mute p (quiet x) := fun _ => rfl

theorem Mute.pure (p : String) (a : α) : Mute p (pure a : Go (St σ) α) := fun _ => rfl

theorem Mute.println {p l : String} (h : p.toList.isPrefixOf l.toList = false) : Mute p (println l : Go (St σ) Unit) := by
  intro s
  simp [linesWith, h]

theorem Mute.bind {p : String} {x : Go (St σ) α} {k : α → Go (St σ) γ} (h : Mute p x) (hk : ∀ a, Mute p (k a)) : Mute p (x >>= k) := by
  intro s
  have hs := h s
  rw [Go.bind_run]
  cases hx : x.run s with
  | mk r s' =>
    rw [hx] at hs
    cases r with
    | ok a => exact (hk a s').trans hs
    | error e => exact hs

theorem Mute.err {p : String} {x : Go (St σ) α} (h : Mute p x) : MuteErr p x := fun s _ _ => h s

theorem MuteErr.bind {p : String} {x : Go (St σ) α} {k : α → Go (St σ) γ} (h : Mute p x) (hk : ∀ a, MuteErr p (k a)) :
    MuteErr p (x >>= k) := by
  intro s e
  have hs := h s
  rw [Go.bind_run]
  cases hx : x.run s with
  | mk r s' =>
    rw [hx] at hs
    cases r with
    | ok a => intro he; exact (hk a s' e he).trans hs
    | error e => intro _; exact hs

theorem MuteErr.println {p : String} (l : String) : MuteErr p (println l : Go (St σ) Unit) := by
  intro s e h; cases h

theorem MuteErr.println_bind {p : String} (l : String) {k : Unit → Go (St σ) γ} (hk : ∀ s, ∃ a s', (k ()).run s = (.ok a, s')) :
    MuteErr p (Console.println l >>= k) := by
  intro s e h
  rw [Go.bind_ok (println_run l s)] at h
  obtain ⟨a, s', hs⟩ := hk ⟨s.st, s.out ++ [l]⟩
  rw [hs] at h; cases h

end Console

macro "mute" : tactic => `(tactic| repeat' first
  | exact Console.Mute.quiet _ _
  | exact Console.Mute.pure _ _
  | exact Console.Mute.println (by decide)
  | exact Console.MuteErr.println _
  | refine Console.MuteErr.println_bind _ fun _ => ⟨_, _, rfl⟩
  | refine Console.MuteErr.bind ?_ fun _ => ?_
  | refine Console.Mute.bind ?_ fun _ => ?_)

section
variable {F G1 G2 GT : Type} [Field F] [AddCommGroup G1] [Module F G1] [AddCommGroup G2] [Module F G2] [AddCommGroup GT] [Module F GT]
variable [DecidableEq G1] [DecidableEq G2] [DecidableEq GT]

theorem p1ContributeBody_like (C : Curve F G1 G2 GT) (par : Par) (b : Nat) (rnd : Phase1.Rand F) (header : Phase1.Header) :
    Like (p1ContributeBody C par b rnd header) (Phase1.contributeBody C par b rnd header) fun _ => () := by
  unfold p1ContributeBody Phase1.contributeBody
  refine .println (.bind (.quiet _) fun _ => .println (.println (.bind (.quiet _) fun _ => .println (.bind (.quiet _) fun _ =>
    .println (.bind (.quiet _) fun _ => .println (.bind (.quiet _) fun _ => .println (.bind (.quiet _) fun _ => .bind (.quiet _) fun _ =>
    .bind (.quiet _) fun _ => .bind (.quiet _) fun _ => .println ?_)))))))
  intro s; exact ⟨rfl, rfl⟩

theorem p1ReadSections_like (C : Curve F G1 G2 GT) (par : Par) (pol : Phase1.MsmPolicy) (b : Nat) (vr : Phase1.VerifyRand F) (N : Int) :
    Like (p1ReadSections C par pol b vr N) (Phase1.readSections C par pol b vr N) id := by
  unfold p1ReadSections Phase1.readSections
  exact .println (.bind (.quiet _) fun _ => .println (.bind (.quiet _) fun _ => .println (.bind (.quiet _) fun _ => .println
    (.bind (.quiet _) fun _ => .println (.bind (.quiet _) fun _ => .pure _ _)))))

theorem p2ContributeBody_like (C : Curve F G1 G2 GT) (H : Phase2.HeaderCodec) (par : Par) (b : Nat) (rnd : Phase2.Rand F) :
    Like (p2ContributeBody C H par b rnd) (Phase2.contributeBody C H par b rnd) fun _ => () := by
  unfold p2ContributeBody Phase2.contributeBody Phase2.contributeWith
  refine .bind (.quiet _) fun _ => .println (.bind (.quiet _) fun _ => .println (.println (.bind (.quiet _) fun _ => .bind (.quiet _) fun _ =>
    .bind (.quiet _) fun _ => .bind (.quiet _) fun _ => .bind (.quiet _) fun _ => .bind (.quiet _) fun _ => .println ?_)))
  intro s; exact ⟨rfl, rfl⟩

theorem lift_bind' {σ α β : Type} (x : Except Fail α) (f : α → Except Fail β) :
    (Go.lift (x >>= f) : Go σ β) = Go.lift x >>= fun a => Go.lift (f a) := by
  cases x <;> rfl

theorem onInput_bind {α β : Type} (x : Go Rd α) (f : α → Go Rd β) :
    Phase2.onInput (x >>= f) = Phase2.onInput x >>= fun a => Phase2.onInput (f a) := by
  unfold Phase2.onInput
  show Go.mk _ = Go.mk _
  congr 1
  funext s
  rw [Go.bind_run]
  cases hx : x.run s.1 with
  | mk r rd => cases r <;> simp [hx]

theorem p1VerifyLoop_like (C : Curve F G1 G2 GT) (n : Nat) : ∀ (i : Nat) (cur prev : Phase1.Contribution G1 G2) (rd : Rd),
    Like (p1VerifyLoop C n i cur prev rd) (Go.lift (Phase1.verifyLoop C n cur prev rd)) id := by
  induction n with
  | zero => intro i cur prev rd s; exact ⟨rfl, rfl⟩
  | succ n ih =>
    intro i cur prev rd
    have h : (Go.lift (Phase1.verifyLoop C (n + 1) cur prev rd) : Go Unit _) =
        Go.lift (Phase1.verifyContribution C ((Phase1.Contribution.readFrom C).run (cur, rd)).2.1 prev) >>= fun _ =>
          Go.lift (Phase1.check (!Phase1.isSpoiled ((Phase1.Contribution.readFrom C).run (cur, rd)).1) "couldn't verify hash of contribution") >>= fun _ =>
          Go.lift (Phase1.verifyLoop C n ((Phase1.Contribution.readFrom C).run (cur, rd)).2.1
            ((Phase1.Contribution.readFrom C).run (cur, rd)).2.1 ((Phase1.Contribution.readFrom C).run (cur, rd)).2.2) := by
      simp only [← lift_bind']; rfl
    rw [h]
    exact .println (.bind (.quiet _) fun _ => .bind (.quiet _) fun _ => ih _ _ _ _)

theorem p1VerifyRest_like (C : Curve F G1 G2 GT) (tr : Option Bytes) (count : Nat) (rd : Rd) (tau1 alpha1 beta1 : G1 × G1)
    (tau2 : G2 × G2) (betaG2 : G2) : Like (p1VerifyRest C tr count rd tau1 alpha1 beta1 tau2 betaG2)
      (Go.lift (Phase1.verifyRest C tr count rd tau1 alpha1 beta1 tau2 betaG2)) id := by
  unfold p1VerifyRest Phase1.verifyRest
  simp only [lift_bind']
  refine .bind (.quiet _) fun _ => .bind (p1VerifyLoop_like C _ _ _ _ _) fun _ => .println (.bind (.quiet _) fun _ => .println
    (.bind (.quiet _) fun _ => .println (.bind (.quiet _) fun _ => .println (.bind (.quiet _) fun _ => .println ?_))))
  exact .last _ _

theorem p2VerifyLoop_like (C : Curve F G1 G2 GT) (n : Nat) : ∀ (i : Nat) (c : Phase2.Contribution G1 G2) (d : G1) (h : Bytes),
    Like (p2VerifyLoop C n i c d h) (Phase2.onInput (Phase2.verifyLoop C n c d h)) id := by
  induction n with
  | zero => intro i c d h s; exact ⟨rfl, rfl⟩
  | succ n ih =>
    intro i c d h
    unfold p2VerifyLoop Phase2.verifyLoop
    rw [onInput_bind]
    refine .bind (.quiet _) fun c => .println ?_
    rw [onInput_bind]
    exact .bind (.quiet _) fun _ => ih _ _ _ _

theorem p2VerifyBody_like (C : Curve F G1 G2 GT) (H : Phase2.HeaderCodec) (par : Par) (b : Nat) (vr : Phase2.VerifyRand F) :
    Like (p2VerifyBody C H par b vr) (Phase2.verifyBody C H par b vr) id := by
  unfold p2VerifyBody Phase2.verifyBody
  refine .bind (.quiet _) fun _ => .bind (.quiet _) fun _ => .bind (.quiet _) fun _ => .bind (.quiet _) fun _ => .bind (.quiet _) fun _ =>
    .bind (.quiet _) fun _ => .bind (.quiet _) fun _ => .bind (.quiet _) fun _ => .bind (.quiet _) fun _ => .println (.bind (.quiet _) fun _ =>
    .println (.bind (.quiet _) fun _ => .println (.bind (p2VerifyLoop_like C _ _ _ _ _) fun _ => .println ?_)))
  exact .last _ _

/-! ### which lines are printed -/

theorem linesWith_append (p : String) (a b : List String) : linesWith p (a ++ b) = linesWith p a ++ linesWith p b := by
  simp [linesWith]

theorem mem_linesWith (l : String) (out : List String) : l ∈ linesWith l out ↔ l ∈ out := by
  simp [linesWith, -String.reduceToList]

/-- a step that prints no line beginning with `p` -/
theorem bind_lines {σ α β : Type} {p : String} {x : Go (St σ) α} {k : α → Go (St σ) β} {s s'' : St σ} {b : β} (hm : Mute p x)
    (h : (x >>= k).run s = (.ok b, s'')) : ∃ a s', linesWith p s'.out = linesWith p s.out ∧ (k a).run s' = (.ok b, s'') := by
  obtain ⟨a, s', h1, h2⟩ := Go.bind_eq_ok h
  have := hm s
  rw [h1] at this
  exact ⟨a, s', this, h2⟩

theorem p1ContributeBody_muteErr (C : Curve F G1 G2 GT) (par : Par) (b : Nat) (rnd : Phase1.Rand F) (header : Phase1.Header) (p : String)
    (hp : ∀ n m, p.toList.isPrefixOf ("Power := " ++ n ++ " and  #Contributions := " ++ m).toList = false)
    (hs : p = "Contribution Hash" ∨ p = "Contirbution has been successful!") :
    MuteErr p (p1ContributeBody C par b rnd header) := by
  unfold p1ContributeBody
  refine .bind (.println (hp _ _)) fun _ => ?_
  rcases hs with rfl | rfl
  · mute
  · mute

theorem p2ContributeBody_muteErr (C : Curve F G1 G2 GT) (H : Phase2.HeaderCodec) (par : Par) (b : Nat) (rnd : Phase2.Rand F) (p : String)
    (hp : ∀ n, p.toList.isPrefixOf ("Current #Contributions := " ++ n).toList = false)
    (hs : p = "Contribution Hash" ∨ p = "Contirbution has been successful!") :
    MuteErr p (p2ContributeBody C H par b rnd) := by
  unfold p2ContributeBody
  refine .bind (.quiet _ _) fun _ => .bind (.println (hp _)) fun _ => ?_
  rcases hs with rfl | rfl
  · mute
  · mute

theorem power_line (n m : String) : "Contribution Hash".toList.isPrefixOf ("Power := " ++ n ++ " and  #Contributions := " ++ m).toList = false := by
  simp only [String.toList_append, List.append_assoc]; rfl

theorem count_line (n : String) : "Contribution Hash".toList.isPrefixOf ("Current #Contributions := " ++ n).toList = false := by
  simp only [String.toList_append]; rfl

theorem p1ContributeBody_ok {C : Curve F G1 G2 GT} {par : Par} {b : Nat} {rnd : Phase1.Rand F} {header : Phase1.Header} {s s' : St IOSt}
    (h : (p1ContributeBody C par b rnd header).run s = (.ok (), s')) :
    ∃ (c : Phase1.Contribution G1 G2) (pre : Bytes), s'.st.out = pre ++ recordBytes C c ∧ c.hash = C.sha (recordBody C c) ∧
      linesWith "Contribution Hash" s'.out = linesWith "Contribution Hash" s.out ++ [ownHashLine c.hash] ∧
      "Contirbution has been successful!" ∈ s'.out := by
  have hp := power_line
  unfold p1ContributeBody at h
  obtain ⟨x0, s0, l0, h⟩ := bind_lines (p := "Contribution Hash") (Mute.println (hp _ _)) h
  obtain ⟨x1, s1, l1, h⟩ := bind_lines (p := "Contribution Hash") (Mute.quiet _ _) h
  obtain ⟨x2, s2, l2, h⟩ := bind_lines (p := "Contribution Hash") (Mute.println (by decide)) h
  obtain ⟨x3, s3, l3, h⟩ := bind_lines (p := "Contribution Hash") (Mute.println (by decide)) h
  obtain ⟨x4, s4, l4, h⟩ := bind_lines (p := "Contribution Hash") (Mute.quiet _ _) h
  obtain ⟨x5, s5, l5, h⟩ := bind_lines (p := "Contribution Hash") (Mute.println (by decide)) h
  obtain ⟨x6, s6, l6, h⟩ := bind_lines (p := "Contribution Hash") (Mute.quiet _ _) h
  obtain ⟨x7, s7, l7, h⟩ := bind_lines (p := "Contribution Hash") (Mute.println (by decide)) h
  obtain ⟨x8, s8, l8, h⟩ := bind_lines (p := "Contribution Hash") (Mute.quiet _ _) h
  obtain ⟨x9, s9, l9, h⟩ := bind_lines (p := "Contribution Hash") (Mute.println (by decide)) h
  obtain ⟨x10, s10, l10, h⟩ := bind_lines (p := "Contribution Hash") (Mute.quiet _ _) h
  obtain ⟨x11, s11, l11, h⟩ := bind_lines (p := "Contribution Hash") (Mute.println (by decide)) h
  obtain ⟨x12, s12, l12, h⟩ := bind_lines (p := "Contribution Hash") (Mute.quiet _ _) h
  obtain ⟨x13, s13, l13, h⟩ := bind_lines (p := "Contribution Hash") (Mute.quiet _ _) h
  obtain ⟨x14, s14, l14, h⟩ := bind_lines (p := "Contribution Hash") (Mute.quiet _ _) h
  obtain ⟨_, t1, e1, h⟩ := Go.bind_eq_ok h
  obtain ⟨_, t2, e2, h⟩ := Go.bind_eq_ok h
  rw [quiet_run] at e1
  simp only [IOSt.emit_run, Prod.mk.injEq, true_and] at e1
  subst e1
  simp only [println_run, Prod.mk.injEq, true_and] at e2
  subst e2
  simp only [println_run, Prod.mk.injEq, true_and] at h
  subst h
  refine ⟨_, s14.st.out, by rw [← contribution_writeTo], by rw [← computeHash_eq]; rfl, ?_, by simp⟩
  simp only [linesWith_append, l14, l13, l12, l11, l10, l9, l8, l7, l6, l5, l4, l3, l2, l1, l0]
  rw [List.append_assoc]
  congr 1
  simp [linesWith, ownHashLine_starts, -String.reduceToList]
  decide

theorem p2ContributeBody_ok {C : Curve F G1 G2 GT} {H : Phase2.HeaderCodec} {par : Par} {b : Nat} {rnd : Phase2.Rand F} {s s' : St IOSt}
    (h : (p2ContributeBody C H par b rnd).run s = (.ok (), s')) :
    ∃ (c : Phase2.Contribution G1 G2) (pre : Bytes), s'.st.out = pre ++ record2Bytes C c ∧ c.hash = C.sha (record2Body C c) ∧
      linesWith "Contribution Hash" s'.out = linesWith "Contribution Hash" s.out ++ [ownHashLine c.hash] ∧
      "Contirbution has been successful!" ∈ s'.out := by
  have hp := count_line
  unfold p2ContributeBody at h
  obtain ⟨x0, s0, l0, h⟩ := bind_lines (p := "Contribution Hash") (Mute.quiet _ _) h
  obtain ⟨x1, s1, l1, h⟩ := bind_lines (p := "Contribution Hash") (Mute.println (hp _)) h
  obtain ⟨x2, s2, l2, h⟩ := bind_lines (p := "Contribution Hash") (Mute.quiet _ _) h
  obtain ⟨x3, s3, l3, h⟩ := bind_lines (p := "Contribution Hash") (Mute.println (by decide)) h
  obtain ⟨x4, s4, l4, h⟩ := bind_lines (p := "Contribution Hash") (Mute.println (by decide)) h
  obtain ⟨x5, s5, l5, h⟩ := bind_lines (p := "Contribution Hash") (Mute.quiet _ _) h
  obtain ⟨x6, s6, l6, h⟩ := bind_lines (p := "Contribution Hash") (Mute.quiet _ _) h
  obtain ⟨x7, s7, l7, h⟩ := bind_lines (p := "Contribution Hash") (Mute.quiet _ _) h
  obtain ⟨x8, s8, l8, h⟩ := bind_lines (p := "Contribution Hash") (Mute.quiet _ _) h
  obtain ⟨x9, s9, l9, h⟩ := bind_lines (p := "Contribution Hash") (Mute.quiet _ _) h
  obtain ⟨_, t1, e1, h⟩ := Go.bind_eq_ok h
  obtain ⟨_, t2, e2, h⟩ := Go.bind_eq_ok h
  rw [quiet_run] at e1
  simp only [IOSt.emit_run, Prod.mk.injEq, true_and] at e1
  subst e1
  simp only [println_run, Prod.mk.injEq, true_and] at e2
  subst e2
  simp only [println_run, Prod.mk.injEq, true_and] at h
  subst h
  refine ⟨_, s9.st.out, by rw [← contribution2_writeTo], by rw [← computeHash2_eq]; rfl, ?_, by simp⟩
  simp only [linesWith_append, l9, l8, l7, l6, l5, l4, l3, l2, l1, l0]
  rw [List.append_assoc]
  congr 1
  simp [linesWith, ownHashLine_starts, -String.reduceToList]
  decide

/-! ### lines with hashes -/

/-- the lines that `Verify` prints for these hashes, the counter starting at `i` -/
def hashLines (i : Nat) : List Bytes → List String
  | [] => []
  | h :: hs => hashLine i h :: hashLines (i + 1) hs

theorem hashLines_length (i : Nat) (hs : List Bytes) : (hashLines i hs).length = hs.length := by
  induction hs generalizing i with
  | nil => rfl
  | cons h hs ih => simp [hashLines, ih]

theorem hashLines_read (i : Nat) (hs : List Bytes) : (hashLines i hs).map (fun l => unhex (lastWord l)) = hs.map some := by
  induction hs generalizing i with
  | nil => rfl
  | cons h hs ih => simp [hashLines, ih, hashLine_read]

/-- the first words of the lines with hashes -/
abbrev verifying : String := "Verifying contribution "

/-- `x` prints the lines `L`, or only the first of them if it fails, among others that do not begin like them -/
def Console.Upto {σ α : Type} (L : List String) (x : Go (St σ) α) (s : St σ) : Prop :=
  ∃ m, linesWith verifying (x.run s).2.out = linesWith verifying s.out ++ L.take m ∧ ∀ a, (x.run s).1 = .ok a → L.length ≤ m

section
variable {σ α β : Type} {L : List String}

theorem Console.Upto.quiet {x : Go σ α} {k : α → Go (St σ) β} {st : σ} {out : List String}
    (h : ∀ a st', x.run st = (.ok a, st') → Upto L (k a) ⟨st', out⟩) : Upto L (quiet x >>= k) ⟨st, out⟩ := by
  unfold Upto
  rw [Go.bind_run, quiet_run]
  cases hx : x.run st with
  | mk r st' =>
    cases r with
    | ok a => exact h a st' hx
    | error e => exact ⟨0, by simp, fun a h => by cases h⟩

theorem Console.Upto.ok {x : Go σ α} {k : α → Go (St σ) β} {st st' : σ} {a : α} {out : List String} (hx : x.run st = (.ok a, st'))
    (h : Upto L (k a) ⟨st', out⟩) : Upto L (Console.quiet x >>= k) ⟨st, out⟩ := by
  unfold Upto
  rw [Go.bind_ok (quiet_ok hx)]
  exact h

theorem Console.Upto.println {l : String} {k : Unit → Go (St σ) β} {st : σ} {out : List String}
    (hl : verifying.toList.isPrefixOf l.toList = false) (h : Upto L (k ()) ⟨st, out ++ [l]⟩) :
    Upto L (println l >>= k) ⟨st, out⟩ := by
  unfold Upto at h ⊢
  rw [Go.bind_ok (println_run l _)]
  simp only [linesWith_append, List.append_assoc] at h ⊢
  rw [show linesWith verifying [l] = [] by simp [linesWith, hl]] at h
  simpa only [List.nil_append] using h

theorem Console.Upto.hash {i : Nat} {b : Bytes} {k : Unit → Go (St σ) β} {st : σ} {out : List String}
    (h : Upto L (k ()) ⟨st, out ++ [hashLine i b]⟩) : Upto (hashLine i b :: L) (Console.println (hashLine i b) >>= k) ⟨st, out⟩ := by
  unfold Upto at h ⊢
  rw [Go.bind_ok (println_run _ _)]
  obtain ⟨m, h1, h2⟩ := h
  refine ⟨m + 1, ?_, fun a ha => by simpa using h2 a ha⟩
  rw [h1]
  simp only [linesWith_append, List.append_assoc]
  rw [show linesWith verifying [hashLine i b] = [hashLine i b] by simp [linesWith, hashLine_starts, -String.reduceToList]]
  simp

theorem Console.Upto.then {x : Go (St σ) α} {k : α → Go (St σ) β} {s : St σ} (h : Upto L x s) (hk : ∀ a, Mute verifying (k a)) :
    Upto L (x >>= k) s := by
  unfold Upto at h ⊢
  obtain ⟨m, h1, h2⟩ := h
  rw [Go.bind_run]
  cases hx : x.run s with
  | mk r s' =>
    rw [hx] at h1 h2
    cases r with
    | ok a => exact ⟨m, by rw [← h1]; exact hk a s', fun _ _ => h2 a rfl⟩
    | error e => exact ⟨m, h1, fun _ h => by cases h⟩

end

theorem p1VerifyLoop_upto {C : Curve F G1 G2 GT} (hC : C.Lawful) (rs : List (Phase1.Contribution G1 G2)) (hr : ∀ r ∈ rs, r.hash.length = 32) :
    ∀ (i : Nat) (cur prev : Phase1.Contribution G1 G2) (cap pos : Nat) (_ : cap = 0 ∨ (32 ∣ cap ∧ 32 ∣ pos)) (ys : Bytes) (out : List String),
    Upto (hashLines i (rs.map (·.hash))) (p1VerifyLoop C rs.length i cur prev ⟨cap, pos, rs.flatMap (recordBytes C) ++ ys⟩) ⟨(), out⟩ := by
  induction rs with
  | nil => intro i cur prev cap pos _ ys out; exact ⟨0, by simp [p1VerifyLoop], fun _ _ => by simp [hashLines]⟩
  | cons r rs ih =>
    intro i cur prev cap pos hal ys out
    simp only [List.length_cons, List.flatMap_cons, List.append_assoc, p1VerifyLoop, List.map_cons, hashLines]
    rw [record_read hC r cur cap pos _ (hr r (by simp)) hal]
    simp only
    exact .hash (.quiet fun _ _ _ => ih (fun r' h => hr r' (by simp [h])) _ _ _ _ _ (by
      rcases hal with h | ⟨h1, h2⟩
      · exact .inl h
      · exact .inr ⟨h1, by omega⟩) _ _)

theorem p1VerifyLoop_sound {C : Curve F G1 G2 GT} (hC : C.Lawful) (n : Nat) : ∀ (i : Nat) (cur prev : Phase1.Contribution G1 G2) (rd : Rd)
    (s s' : St Unit) (fin : Phase1.Contribution G1 G2), (p1VerifyLoop C n i cur prev rd).run s = (.ok fin, s') →
    ∃ rs : List (Phase1.Contribution G1 G2), rs.length = n ∧ ChainOk C prev rs ∧
      linesWith verifying s'.out = linesWith verifying s.out ++ hashLines i (rs.map (·.hash)) := by
  induction n with
  | zero =>
    intro i cur prev rd s s' fin h
    simp only [p1VerifyLoop, Go.pure_run, Prod.mk.injEq] at h
    exact ⟨[], rfl, trivial, by rw [← h.2]; simp [hashLines]⟩
  | succ n ih =>
    intro i cur prev rd s s' fin h
    unfold p1VerifyLoop at h
    rw [Go.bind_ok (println_run _ _)] at h
    obtain ⟨_, s1, h1, h⟩ := Go.bind_eq_ok h
    rw [quiet_run] at h1
    simp only [Go.lift_run, Prod.mk.injEq] at h1
    obtain ⟨h1, rfl⟩ := h1
    obtain ⟨_, s2, h2, h⟩ := Go.bind_eq_ok h
    rw [quiet_run] at h2
    simp only [Go.lift_run, Prod.mk.injEq] at h2
    obtain ⟨h2, rfl⟩ := h2
    obtain ⟨rs, hl, hch, hlines⟩ := ih _ _ _ _ _ _ _ h
    refine ⟨_ :: rs, by simp [hl], ⟨(verifyContribution_iff hC _ _).mp h1, hch⟩, ?_⟩
    rw [hlines]
    simp only [linesWith_append, List.append_assoc, List.map_cons, hashLines]
    congr 1
    simp [linesWith, hashLine_starts, -String.reduceToList]

theorem p2VerifyLoop_upto {C : Curve F G1 G2 GT} (hC : C.Lawful) (rs : List (Phase2.Contribution G1 G2)) : ∀ (i : Nat)
    (c0 : Phase2.Contribution G1 G2) (d : G1) (h : Bytes) (cap pos : Nat) (ys : Bytes) (ro : Rd) (out : List String),
    (∀ r ∈ rs, r.hash.length = 32) → (∀ j < rs.length, Fits cap (pos + 192 * j + 160)) →
    Upto (hashLines i (rs.map (·.hash))) (p2VerifyLoop C rs.length i c0 d h) ⟨(⟨cap, pos, rs.flatMap (record2Bytes C) ++ ys⟩, ro), out⟩ := by
  induction rs with
  | nil => intro i c0 d h cap pos ys ro out _ _; exact ⟨0, by simp [p2VerifyLoop], fun _ _ => by simp [hashLines]⟩
  | cons r rs ih =>
    intro i c0 d h cap pos ys ro out hl hf
    have hread := record2_read hC r cap pos (rs.flatMap (record2Bytes C) ++ ys) (hl r (by simp)) (by simpa using hf 0 (by simp))
    simp only [List.length_cons, List.flatMap_cons, List.append_assoc, p2VerifyLoop, List.map_cons, hashLines]
    refine .ok (onInput_ok hread) (.hash (.quiet fun _ st' e => ?_))
    simp only [Go.lift_run, Prod.mk.injEq] at e
    obtain ⟨-, rfl⟩ := e
    exact ih _ _ _ _ _ _ _ _ _ (fun r' h => hl r' (by simp [h])) (fun j hj => by
      have := hf (j + 1) (by simpa using hj)
      rwa [show pos + 192 + 192 * j + 160 = pos + 192 * (j + 1) + 160 by ring])

theorem p2VerifyLoop_sound {C : Curve F G1 G2 GT} (hC : C.Lawful) (n : Nat) : ∀ (i : Nat) (c0 : Phase2.Contribution G1 G2) (d : G1) (h : Bytes)
    (s s' : St (Rd × Rd)) (fin : Phase2.Contribution G1 G2), (p2VerifyLoop C n i c0 d h).run s = (.ok fin, s') →
    ∃ (rs : List (Phase2.Contribution G1 G2)) (xs : List F), rs.length = n ∧ Chain2By C d h rs xs ∧
      fin = rs.getLast?.getD c0 ∧ linesWith verifying s'.out = linesWith verifying s.out ++ hashLines i (rs.map (·.hash)) := by
  induction n with
  | zero =>
    intro i c0 d h s s' fin hrun
    simp only [p2VerifyLoop, Go.pure_run, Prod.mk.injEq, Except.ok.injEq] at hrun
    exact ⟨[], [], rfl, trivial, by simp [hrun.1], by rw [← hrun.2]; simp [hashLines]⟩
  | succ n ih =>
    intro i c0 d h s s' fin hrun
    unfold p2VerifyLoop at hrun
    obtain ⟨c, s1, h1, hrun⟩ := Go.bind_eq_ok hrun
    rw [Go.bind_ok (println_run _ _)] at hrun
    obtain ⟨_, s2, h2, hrun⟩ := Go.bind_eq_ok hrun
    rw [quiet_run] at h1 h2
    simp only [Go.lift_run, Prod.mk.injEq] at h1 h2
    obtain ⟨h1, rfl⟩ := h1
    obtain ⟨h2, rfl⟩ := h2
    obtain ⟨x, hx⟩ := (verifyContribution2_iff hC c d h).mp h2
    obtain ⟨rs, xs, hl, hch, hfin, hlines⟩ := ih _ _ _ _ _ _ _ hrun
    refine ⟨c :: rs, x :: xs, by simp [hl], ⟨hx, hch⟩, ?_, ?_⟩
    · rw [hfin, List.getLast?_cons]
      cases rs with
      | nil => simp
      | cons a rs => simp [List.getLast?_cons]
    rw [hlines]
    simp only [linesWith_append, List.append_assoc, List.map_cons, hashLines]
    congr 1
    simp [linesWith, hashLine_starts, -String.reduceToList]

end
end ZkSetup
