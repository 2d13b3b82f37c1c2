import Verif.Props.Attest
import Verif.Spec.Cli
/-
C58: the numbers that the commands print (power, numbers of contributions, numbers of the hashes) are those of the files.
-/
set_option linter.unusedSectionVars false

namespace ZkSetup
open Console

/-! ### numbers -/

theorem digitChar_inv (c : Char) (h : c.isDigit = true) : ∃ d < 10, c = Nat.digitChar d := by
  simp only [Char.isDigit, Bool.and_eq_true, decide_eq_true_eq] at h
  obtain ⟨h1, h2⟩ := h
  have h1' : 48 ≤ c.toNat := h1
  have h2' : c.toNat ≤ 57 := h2
  have hall : ∀ d < 10, (Nat.digitChar d).toNat = 48 + d := by decide
  refine ⟨c.toNat - 48, by omega, ?_⟩
  apply Char.toNat_inj.1
  rw [hall _ (by omega)]
  omega

theorem ofDigitChars_map (ds : List Nat) (h : ∀ d ∈ ds, d < 10) :
    Nat.ofDigitChars 10 (ds.map Nat.digitChar) 0 = Nat.ofDigits 10 ds.reverse := by
  induction ds using List.reverseRecOn with
  | nil => rfl
  | append_singleton ds d ih =>
    rw [List.map_append, Nat.ofDigitChars_append, ih (fun x hx => h x (by simp [hx])), List.map_singleton,
      Nat.ofDigitChars_cons_digitChar_of_lt_ten (h d (by simp)), Nat.ofDigitChars_nil, List.reverse_append]
    simp only [List.reverse_cons, List.reverse_nil, List.nil_append, List.singleton_append, Nat.ofDigits_cons]
    simp [Nat.add_comm]

theorem decimal_repr (n : Nat) : Decimal (toString n).toList n := by
  have hd : ∀ c ∈ Nat.toDigits 10 n, ∃ d < 10, c = Nat.digitChar d := fun c hc =>
    digitChar_inv c (Nat.isDigit_of_mem_toDigits (by decide) (by decide) hc)
  have : ∀ cs : List Char, (∀ c ∈ cs, ∃ d < 10, c = Nat.digitChar d) → ∃ ds : List Nat, (∀ d ∈ ds, d < 10) ∧ cs = ds.map Nat.digitChar := by
    intro cs
    induction cs with
    | nil => intro _; exact ⟨[], by simp, rfl⟩
    | cons c cs ih =>
      intro h
      obtain ⟨ds, h1, h2⟩ := ih fun x hx => h x (by simp [hx])
      obtain ⟨d, h3, h4⟩ := h c (by simp)
      exact ⟨d :: ds, by simpa [h3] using h1, by simp [h2, h4]⟩
  obtain ⟨ds, h1, h2⟩ := this _ hd
  have hl : (toString n).toList = Nat.toDigits 10 n := by rw [Nat.toString_eq_repr, Nat.toList_repr]
  refine ⟨ds, ?_, h1, by rw [hl, h2], ?_⟩
  · rintro rfl
    have := Nat.length_toDigits_pos (b := 10) (n := n)
    rw [h2] at this
    simp at this
  · rw [← ofDigitChars_map ds h1, ← h2, Nat.ofDigitChars_ten_toDigits]

theorem denotes_nat (n : Nat) : Denotes (toString n) n := .inl ⟨n, decimal_repr n, rfl⟩

theorem denotes_int (i : Int) : Denotes (toString i) i := by
  cases i with
  | ofNat n => exact denotes_nat n
  | negSucc n =>
    refine .inr (.inr ⟨(toString (n + 1)).toList, n + 1, ?_, decimal_repr _, rfl⟩)
    show (("-" ++ toString (n + 1) : String)).toList = _
    rw [String.toList_append]
    rfl

/-- digits -/
theorem nat_chars (n : Nat) (c : Char) (hc : c ∈ (toString n).toList) : c.isDigit = true := by
  rw [Nat.toString_eq_repr, Nat.toList_repr] at hc
  exact Nat.isDigit_of_mem_toDigits (by decide) (by decide) hc

theorem int_chars (i : Int) (c : Char) (hc : c ∈ (toString i).toList) : c.isDigit = true ∨ c = '-' := by
  cases i with
  | ofNat n => exact .inl (nat_chars n c hc)
  | negSucc n =>
    have : (toString (Int.negSucc n)).toList = '-' :: (toString (n + 1)).toList := by
      show (("-" ++ toString (n + 1) : String)).toList = _
      rw [String.toList_append]
      rfl
    rw [this, List.mem_cons] at hc
    exact hc.symm.imp_left (nat_chars _ c)

theorem digit_ne (c d : Char) (hc : c.isDigit = true) (hd : d.isDigit = false) : c ≠ d := by
  rintro rfl
  rw [hc] at hd
  cases hd

/-! ### words -/

theorem lastWord_of (l : String) (p : List Char) (w : String) (h : l.toList = p ++ ' ' :: w.toList) (hw : ∀ c ∈ w.toList, c ≠ ' ') :
    String.ofList (lastWord l) = w := by
  unfold lastWord
  rw [h, List.reverse_append, List.reverse_cons, List.append_assoc, List.takeWhile_append_of_pos (by
    intro c hc; simpa using hw c (by simpa using hc))]
  simp

theorem wordBehind_of (p l : String) (w : String) (q : List Char) (h : l.toList = p.toList ++ (w.toList ++ ' ' :: q))
    (hw : ∀ c ∈ w.toList, c ≠ ' ') : wordBehind p l = w := by
  unfold wordBehind
  rw [h, List.drop_left, List.takeWhile_append_of_pos (by intro c hc; simpa using hw c hc)]
  simp

theorem hashLine_number (i : Nat) (b : Bytes) : wordBehind "Verifying contribution " (hashLine i b) = toString (i + 1) :=
  wordBehind_of _ _ _ ("with Hash := ".toList ++ (hex b).toList)
    (by unfold hashLine; simp only [String.toList_append, List.append_assoc]; rfl)
    fun c hc => digit_ne c ' ' (nat_chars _ c hc) (by decide)

theorem hashLine_no_sign (i : Nat) (b : Bytes) : (hashLine i b).toList.contains '#' = false := by
  unfold hashLine
  rw [Bool.eq_false_iff, ne_eq, List.contains_iff_mem]
  simp only [String.toList_append, List.mem_append, not_or]
  refine ⟨⟨⟨by decide, fun h => ?_⟩, by decide⟩, fun h => ?_⟩
  · exact absurd rfl (digit_ne _ '#' (nat_chars _ _ h) (by decide))
  · unfold hex at h
    rw [String.toList_ofList] at h
    simp only [List.mem_flatMap, List.mem_cons, List.not_mem_nil, or_false] at h
    have hd : ∀ n < 16, hexDigit n ≠ '#' := by decide
    obtain ⟨x, -, h | h⟩ := h
    · have := x.toNat_lt; exact hd _ (by omega) h.symm
    · exact hd _ (by omega) h.symm

theorem ownHashLine_no_sign (b : Bytes) : (ownHashLine b).toList.contains '#' = false := by
  unfold ownHashLine
  rw [Bool.eq_false_iff, ne_eq, List.contains_iff_mem]
  simp only [String.toList_append, List.mem_append, not_or]
  refine ⟨by decide, fun h => ?_⟩
  unfold hex at h
  rw [String.toList_ofList] at h
  simp only [List.mem_flatMap, List.mem_cons, List.not_mem_nil, or_false] at h
  have hd : ∀ n < 16, hexDigit n ≠ '#' := by decide
  obtain ⟨x, -, h | h⟩ := h
  · have := x.toNat_lt; exact hd _ (by omega) h.symm
  · exact hd _ (by omega) h.symm

/-! ### programs that print no line of a kind -/

/-- `x` prints no line with `q` -/
def Console.Hush {σ α : Type} (q : String → Bool) (x : Go (St σ) α) : Prop := ∀ s, (x.run s).2.out.filter q = s.out.filter q

/-- `x` prints the line `l` with `q` once, or none if it fails -/
def Console.Once {σ α : Type} (q : String → Bool) (l : String) (x : Go (St σ) α) : Prop :=
  ∀ s, (x.run s).2.out.filter q = s.out.filter q ++ [l] ∨
    ((x.run s).2.out.filter q = s.out.filter q ∧ ∃ e, (x.run s).1 = .error e)

namespace Console
variable {σ α β : Type} {q : String → Bool} {l : String}

theorem Hush.quiet (x : Go σ α) : Hush q (quiet x) := fun _ => rfl
theorem Hush.pure (a : α) : Hush q (pure a : Go (St σ) α) := fun _ => rfl
theorem Hush.println {l : String} (h : q l = false) : Hush q (println l : Go (St σ) Unit) := by
  intro s
  simp [h]

theorem Hush.bind {x : Go (St σ) α} {k : α → Go (St σ) β} (h : Hush q x) (hk : ∀ a, Hush q (k a)) : Hush q (x >>= k) := by
  intro s
  have hs := h s
  rw [Go.bind_run]
  cases hx : x.run s with
  | mk r s' =>
    rw [hx] at hs
    cases r with
    | ok a => exact (hk a s').trans hs
    | error e => exact hs

theorem Once.bind {x : Go (St σ) α} {k : α → Go (St σ) β} (h : Hush q x) (hk : ∀ a, Once q l (k a)) : Once q l (x >>= k) := by
  intro s
  have hs := h s
  rw [Go.bind_run]
  cases hx : x.run s with
  | mk r s' =>
    rw [hx] at hs
    simp only at hs
    cases r with
    | ok a =>
      have := hk a s'
      rw [hs] at this
      exact this
    | error e => exact .inr ⟨hs, e, rfl⟩

theorem Once.println {k : Unit → Go (St σ) β} (hq : q l = true) (hk : Hush q (k ())) : Once q l (println l >>= k) := by
  intro s
  rw [Go.bind_ok (println_run l s)]
  left
  rw [hk]
  simp [hq]

theorem Once.fresh {x : Go (St σ) α} (h : Once q l x) (st : σ) : (x.run ⟨st, []⟩).2.out.filter q = [l] ∨
    ((x.run ⟨st, []⟩).2.out.filter q = [] ∧ ∃ e, (x.run ⟨st, []⟩).1 = .error e) := h ⟨st, []⟩

theorem Hush.first {k : Unit → Go (St σ) β} (hq : q l = true) (hk : Hush q (k ())) (s : St σ) :
    ((Console.println l >>= k).run s).2.out.filter q = s.out.filter q ++ [l] := by
  rw [Go.bind_ok (println_run l s), hk]
  simp [hq]

theorem Mute.first {p : String} {k : Unit → Go (St σ) β} (hq : p.toList.isPrefixOf l.toList = true) (hk : Mute p (k ())) (s : St σ) :
    linesWith p ((Console.println l >>= k).run s).2.out = linesWith p s.out ++ [l] := by
  rw [Go.bind_ok (println_run l s), hk]
  simp [linesWith, hq, -String.reduceToList]

end Console

macro "hush" : tactic => `(tactic| repeat' first
  | exact Console.Hush.quiet _
  | exact Console.Hush.pure _
  | exact Console.Hush.println (ownHashLine_no_sign _)
  | exact Console.Hush.println (by decide)
  | refine Console.Hush.bind ?_ fun _ => ?_)

/-- lines with the sign -/
abbrev signed (l : String) : Bool := l.toList.contains '#'

section
variable {F G1 G2 GT : Type} [Field F] [AddCommGroup G1] [Module F G1] [AddCommGroup G2] [Module F G2] [AddCommGroup GT] [Module F GT]
variable [DecidableEq G1] [DecidableEq G2] [DecidableEq GT]

theorem p1VerifyLoop_hush (C : Curve F G1 G2 GT) (n : Nat) : ∀ (i : Nat) (cur prev : Phase1.Contribution G1 G2) (rd : Rd),
    Hush signed (p1VerifyLoop C n i cur prev rd) := by
  induction n with
  | zero => intro i cur prev rd; exact .pure _
  | succ n ih =>
    exact fun i cur prev rd => .bind (.println (hashLine_no_sign _ _)) fun _ => .bind (.quiet _) fun _ => .bind (.quiet _) fun _ => ih _ _ _ _

theorem p2VerifyLoop_hush (C : Curve F G1 G2 GT) (n : Nat) : ∀ (i : Nat) (c : Phase2.Contribution G1 G2) (d : G1) (h : Bytes),
    Hush signed (p2VerifyLoop C n i c d h) := by
  induction n with
  | zero => intro i c d h; exact .pure _
  | succ n ih => exact fun i c d h => .bind (.quiet _) fun _ => .bind (.println (hashLine_no_sign _ _)) fun _ => .bind (.quiet _) fun _ => ih _ _ _ _

/-- the first line of `p1c`, `p1v`, `p1vt` -/
theorem powerLine_read (p n : Nat) (out : List String)
    (h1 : linesWith "Power := " out = ["Power := " ++ toString p ++ " and  #Contributions := " ++ toString n])
    (h2 : out.filter signed = ["Power := " ++ toString p ++ " and  #Contributions := " ++ toString n]) :
    statedPowers out = [toString p] ∧ statedCounts out = [toString n] := by
  unfold statedPowers statedCounts
  rw [h1, show (out.filter fun l => l.toList.contains '#') = out.filter signed from rfl, h2]
  simp only [List.map_cons, List.map_nil, List.cons.injEq, and_true]
  refine ⟨wordBehind_of _ _ _ ("and  #Contributions := ".toList ++ (toString n).toList) ?_ fun c hc => digit_ne c ' ' (nat_chars _ c hc) (by decide),
    lastWord_of _ ("Power := ".toList ++ ((toString p).toList ++ " and  #Contributions :=".toList)) _ ?_
      fun c hc => digit_ne c ' ' (nat_chars _ c hc) (by decide)⟩
  · simp only [String.toList_append, List.append_assoc]; rfl
  · simp only [String.toList_append, List.append_assoc]; rfl

theorem powerLine_starts (p n : String) : "Power := ".toList.isPrefixOf ("Power := " ++ p ++ " and  #Contributions := " ++ n).toList = true := by
  simp only [String.toList_append, List.append_assoc]; simp [-String.reduceToList]

theorem powerLine_signed (p n : String) : signed ("Power := " ++ p ++ " and  #Contributions := " ++ n) = true := by
  unfold signed
  rw [List.contains_iff_mem]
  simp only [String.toList_append, List.mem_append]
  exact .inl (.inr (by decide))

theorem ownHashLine_no_power (b : Bytes) : "Power := ".toList.isPrefixOf (ownHashLine b).toList = false := by
  unfold ownHashLine; simp only [String.toList_append]; rfl

theorem getUint16_toNat (x y : UInt8) : (getUint16 [x, y]).toNat = 256 * x.toNat + y.toNat := by
  unfold getUint16
  have := x.toNat_lt
  have := y.toNat_lt
  simp [beValue]
  omega

theorem p1ContributeBody_first (C : Curve F G1 G2 GT) (par : Par) (b : Nat) (rnd : Phase1.Rand F) (header : Phase1.Header) (s : St IOSt) :
    ((p1ContributeBody C par b rnd header).run s).2.out.filter signed = s.out.filter signed ++
      ["Power := " ++ toString header.power.toNat ++ " and  #Contributions := " ++ toString header.contributions.toNat] ∧
    linesWith "Power := " ((p1ContributeBody C par b rnd header).run s).2.out = linesWith "Power := " s.out ++
      ["Power := " ++ toString header.power.toNat ++ " and  #Contributions := " ++ toString header.contributions.toNat] := by
  unfold p1ContributeBody
  constructor
  · exact Hush.first (powerLine_signed _ _) (.bind (.quiet _) fun _ => .bind (.println (by decide)) fun _ => .bind (.println (by decide)) fun _ =>
      .bind (.quiet _) fun _ => .bind (.println (by decide)) fun _ => .bind (.quiet _) fun _ => .bind (.println (by decide)) fun _ =>
      .bind (.quiet _) fun _ => .bind (.println (by decide)) fun _ => .bind (.quiet _) fun _ => .bind (.println (by decide)) fun _ =>
      .bind (.quiet _) fun _ => .bind (.quiet _) fun _ => .bind (.quiet _) fun _ => .bind (.quiet _) fun _ =>
      .bind (.println (by decide)) fun _ => .println (ownHashLine_no_sign _)) s
  · exact Mute.first (powerLine_starts _ _) (.bind (.quiet _ _) fun _ => .bind (.println (by decide)) fun _ => .bind (.println (by decide)) fun _ =>
      .bind (.quiet _ _) fun _ => .bind (.println (by decide)) fun _ => .bind (.quiet _ _) fun _ => .bind (.println (by decide)) fun _ =>
      .bind (.quiet _ _) fun _ => .bind (.println (by decide)) fun _ => .bind (.quiet _ _) fun _ => .bind (.println (by decide)) fun _ =>
      .bind (.quiet _ _) fun _ => .bind (.quiet _ _) fun _ => .bind (.quiet _ _) fun _ => .bind (.quiet _ _) fun _ =>
      .bind (.println (by decide)) fun _ => .println (ownHashLine_no_power _)) s

theorem p1_header (p a b : UInt8) (rest : Bytes) :
    Phase1.Header.readFrom.run (Rd.file (p :: a :: b :: rest) 0) = (.ok ⟨p, getUint16 [a, b]⟩, ⟨0, 3, rest⟩) := rfl

/-- **C58**, the output of a phase 1 contribution: it states the power and the number of contributions in the header of its input,
whatever else happens. -/
theorem C58_p1_contribute_numbers (C : Curve F G1 G2 GT) (par : Par) (b : Nat) (rnd : Phase1.Rand F) (p x y : UInt8) (rest : Bytes) :
    ∃ v w, statedPowers (p1Contribute C par b rnd (p :: x :: y :: rest)).2.2 = [v] ∧ Denotes v p.toNat ∧
      statedCounts (p1Contribute C par b rnd (p :: x :: y :: rest)).2.2 = [w] ∧ Denotes w (256 * x.toNat + y.toNat : Nat) := by
  unfold p1Contribute
  rw [p1_header]
  dsimp only
  obtain ⟨hs, hl⟩ := p1ContributeBody_first C par b rnd ⟨p, getUint16 [x, y]⟩ ⟨⟨Rd.buffered 4096 rest, []⟩, []⟩
  obtain ⟨h1, h2⟩ := powerLine_read _ _ _ hl hs
  exact ⟨_, _, h1, denotes_nat _, h2, by rw [getUint16_toNat]; exact denotes_nat _⟩

/-! ### phase 1 verification -/

theorem p1VerifyLoop_mutePower (C : Curve F G1 G2 GT) (n : Nat) : ∀ (i : Nat) (cur prev : Phase1.Contribution G1 G2) (rd : Rd),
    Mute "Power := " (p1VerifyLoop C n i cur prev rd) := by
  induction n with
  | zero => intro i cur prev rd; exact .pure _ _
  | succ n ih =>
    intro i cur prev rd
    exact .bind (.println (hashLine_starts_not _ _ _ _ (by decide))) fun _ => .bind (.quiet _ _) fun _ =>
      .bind (.quiet _ _) fun _ => ih _ _ _ _

theorem p1ReadSections_hush (C : Curve F G1 G2 GT) (par : Par) (pol : Phase1.MsmPolicy) (b : Nat) (vr : Phase1.VerifyRand F) (N : Int) :
    Hush signed (p1ReadSections C par pol b vr N) ∧ Mute "Power := " (p1ReadSections C par pol b vr N) := by
  unfold p1ReadSections
  constructor
  · exact .bind (.println (by decide)) fun _ => .bind (.quiet _) fun _ => .bind (.println (by decide)) fun _ => .bind (.quiet _) fun _ =>
      .bind (.println (by decide)) fun _ => .bind (.quiet _) fun _ => .bind (.println (by decide)) fun _ => .bind (.quiet _) fun _ =>
      .bind (.println (by decide)) fun _ => .bind (.quiet _) fun _ => .pure _
  · mute

theorem p1VerifyRest_hush (C : Curve F G1 G2 GT) (tr : Option Bytes) (count : Nat) (rd : Rd) (tau1 alpha1 beta1 : G1 × G1)
    (tau2 : G2 × G2) (betaG2 : G2) : Hush signed (p1VerifyRest C tr count rd tau1 alpha1 beta1 tau2 betaG2) ∧
      Mute "Power := " (p1VerifyRest C tr count rd tau1 alpha1 beta1 tau2 betaG2) := by
  unfold p1VerifyRest
  constructor
  · exact .bind (.quiet _) fun _ => .bind (p1VerifyLoop_hush C _ _ _ _ _) fun _ =>
      .bind (.println (by decide)) fun _ => .bind (.quiet _) fun _ => .bind (.println (by decide)) fun _ => .bind (.quiet _) fun _ =>
      .bind (.println (by decide)) fun _ => .bind (.quiet _) fun _ => .bind (.println (by decide)) fun _ => .bind (.quiet _) fun _ =>
      .bind (.println (by decide)) fun _ => .bind (.quiet _) fun _ => .println (by decide)
  · exact .bind (.quiet _ _) fun _ => .bind (p1VerifyLoop_mutePower C _ _ _ _ _) fun _ =>
      .bind (.println (by decide)) fun _ => .bind (.quiet _ _) fun _ => .bind (.println (by decide)) fun _ => .bind (.quiet _ _) fun _ =>
      .bind (.println (by decide)) fun _ => .bind (.quiet _ _) fun _ => .bind (.println (by decide)) fun _ => .bind (.quiet _ _) fun _ =>
      .bind (.println (by decide)) fun _ => .bind (.quiet _ _) fun _ => .println (by decide)

/-- **C58**, the output of a phase 1 verification: it states the power and the number of contributions in the header of its input,
whatever else happens. -/
theorem C58_p1_verify_numbers (C : Curve F G1 G2 GT) (par : Par) (pol : Phase1.MsmPolicy) (b : Nat) (vr : Phase1.VerifyRand F)
    (p x y : UInt8) (rest : Bytes) (tr : Option Bytes) :
    ∃ v w, statedPowers (p1Verify C par pol b vr (p :: x :: y :: rest) tr).2 = [v] ∧ Denotes v p.toNat ∧
      statedCounts (p1Verify C par pol b vr (p :: x :: y :: rest) tr).2 = [w] ∧ Denotes w (256 * x.toNat + y.toNat : Nat) := by
  suffices h : linesWith "Power := " (p1Verify C par pol b vr (p :: x :: y :: rest) tr).2
        = ["Power := " ++ toString p.toNat ++ " and  #Contributions := " ++ toString (getUint16 [x, y]).toNat] ∧
      (p1Verify C par pol b vr (p :: x :: y :: rest) tr).2.filter signed
        = ["Power := " ++ toString p.toNat ++ " and  #Contributions := " ++ toString (getUint16 [x, y]).toNat] by
    obtain ⟨h1, h2⟩ := powerLine_read _ _ _ h.1 h.2
    exact ⟨_, _, h1, denotes_nat _, h2, by rw [getUint16_toNat]; exact denotes_nat _⟩
  unfold p1Verify
  rw [p1_header]
  dsimp only
  have e1 := powerLine_starts (toString p.toNat) (toString (getUint16 [x, y]).toNat)
  have e2 := powerLine_signed (toString p.toNat) (toString (getUint16 [x, y]).toNat)
  generalize "Power := " ++ toString p.toNat ++ " and  #Contributions := " ++ toString (getUint16 [x, y]).toNat = first at e1 e2 ⊢
  have f1 : linesWith "Power := " [first] = [first] := by simp [linesWith, e1, -String.reduceToList]
  have f2 : [first].filter signed = [first] := by rw [List.filter_cons_of_pos e2, List.filter_nil]
  obtain ⟨m2, m1⟩ := p1ReadSections_hush C par pol b vr (Phase1.goPow2 p)
  have m1 := m1 ⟨Rd.buffered (2 ^ 20) rest, [first]⟩
  have m2 := m2 ⟨Rd.buffered (2 ^ 20) rest, [first]⟩
  rw [f1] at m1
  rw [f2] at m2
  cases hx : (p1ReadSections C par pol b vr (Phase1.goPow2 p)).run ⟨Rd.buffered (2 ^ 20) rest, [first]⟩ with
  | mk r s =>
    rw [hx] at m1 m2
    cases r with
    | error e => exact ⟨m1, m2⟩
    | ok v =>
      obtain ⟨n2, n1⟩ := p1VerifyRest_hush C tr (getUint16 [x, y]).toNat s.st v.1 v.2.1 v.2.2.1 v.2.2.2.1 v.2.2.2.2
      exact ⟨(n1 ⟨(), s.out⟩).trans m1, (n2 ⟨(), s.out⟩).trans m2⟩

/-! ### phase 2 -/

theorem countLine_read (p : String) (i : Int) (out : List String) (h : out.filter signed = [p ++ "#Contributions := " ++ toString i]) :
    statedCounts out = [toString i] := by
  unfold statedCounts
  rw [show (out.filter fun l => l.toList.contains '#') = out.filter signed from rfl, h]
  simp only [List.map_cons, List.map_nil, List.cons.injEq, and_true]
  refine lastWord_of _ (p.toList ++ "#Contributions :=".toList) _ ?_ fun c hc => ?_
  · simp only [String.toList_append, List.append_assoc]; rfl
  · rcases int_chars i c hc with h | rfl
    · exact digit_ne c ' ' h (by decide)
    · decide

theorem countLine_signed (p n : String) : signed (p ++ "#Contributions := " ++ n) = true := by
  unfold signed
  rw [List.contains_iff_mem]
  simp only [String.toList_append, List.mem_append]
  exact .inl (.inr (by decide))

/-- **C58**, the output of a phase 2 contribution: it states the number of contributions in the header of its input. -/
theorem C58_p2_contribute_numbers (C : Curve F G1 G2 GT) (H : Phase2.HeaderCodec) (par : Par) (b : Nat) (rnd : Phase2.Rand F) (input : Bytes)
    (header : Phase2.Header) (rd : Rd) (h : (Phase2.Header.read H).run (Rd.buffered 4096 input) = (.ok header, rd)) :
    ∃ w, statedCounts (p2Contribute C H par b rnd input).2.2 = [w] ∧ Denotes w header.contributions := by
  refine ⟨_, countLine_read "Current " header.contributions _ ?_, denotes_int _⟩
  unfold p2Contribute p2ContributeBody
  dsimp only
  have hq : (quiet (IOSt.onRd (Phase2.Header.read H)) : Go (St IOSt) _).run ⟨⟨Rd.buffered 4096 input, []⟩, []⟩
      = (.ok header, ⟨⟨rd, []⟩, []⟩) := quiet_ok (IOSt.onRd_ok h)
  rw [Go.bind_ok hq]
  exact Hush.first (countLine_signed "Current " _) (.bind (.quiet _) fun _ => .bind (.println (by decide)) fun _ =>
    .bind (.println (by decide)) fun _ => .bind (.quiet _) fun _ => .bind (.quiet _) fun _ => .bind (.quiet _) fun _ => .bind (.quiet _) fun _ =>
    .bind (.quiet _) fun _ => .bind (.quiet _) fun _ => .bind (.println (by decide)) fun _ => .println (ownHashLine_no_sign _)) _

/-- **C58**, the output of a phase 2 verification: if it accepts, it has stated the number of contributions in the header of its input;
otherwise it has stated this number or none. -/
theorem C58_p2_verify_numbers (C : Curve F G1 G2 GT) (H : Phase2.HeaderCodec) (par : Par) (b : Nat) (vr : Phase2.VerifyRand F)
    (input origin : Bytes) (header : Phase2.Header) (rd : Rd)
    (h : (Phase2.Header.read H).run (Rd.buffered 4096 input) = (.ok header, rd)) :
    (∃ w, statedCounts (p2Verify C H par b vr input origin).2 = [w] ∧ Denotes w header.contributions) ∨
    (statedCounts (p2Verify C H par b vr input origin).2 = [] ∧ ∃ e, (p2Verify C H par b vr input origin).1 = .error e) := by
  suffices hs : (p2Verify C H par b vr input origin).2.filter signed = ["" ++ "#Contributions := " ++ toString header.contributions] ∨
      ((p2Verify C H par b vr input origin).2.filter signed = [] ∧ ∃ e, (p2Verify C H par b vr input origin).1 = .error e) by
    rcases hs with hs | ⟨hs, he⟩
    · exact .inl ⟨_, countLine_read "" header.contributions _ hs, denotes_int _⟩
    · refine .inr ⟨?_, he⟩
      unfold statedCounts
      rw [show ((p2Verify C H par b vr input origin).2.filter fun l => l.toList.contains '#') = _ from hs]
      rfl
  unfold p2Verify p2VerifyBody
  dsimp only
  have hq : (quiet (Phase2.onInput (Phase2.Header.read H)) : Go (St (Rd × Rd)) _).run ⟨(Rd.buffered 4096 input, Rd.buffered 4096 origin), []⟩
      = (.ok header, ⟨(rd, Rd.buffered 4096 origin), []⟩) := quiet_ok (onInput_ok h)
  rw [Go.bind_ok hq]
  have e : ("" ++ "#Contributions := " ++ toString header.contributions : String) = "#Contributions := " ++ toString header.contributions := by
    rw [show ("" ++ "#Contributions := " : String) = "#Contributions := " by decide]
  rw [e]
  have hsig : signed ("#Contributions := " ++ toString header.contributions) = true := by
    rw [← e]; exact countLine_signed "" _
  exact Once.fresh (
    .bind (.quiet _) fun orgHeader => .bind (.quiet _) fun _ => .bind (.quiet _) fun _ => .bind (.quiet _) fun g1 =>
    .bind (.quiet _) fun g2 => .bind (.quiet _) fun d1 => .bind (.quiet _) fun d2 => .bind (.quiet _) fun _ => .bind (.println (by decide)) fun _ =>
    .bind (.quiet _) fun _ => .bind (.println (by decide)) fun _ => .bind (.quiet _) fun _ => .println hsig (.bind
      (p2VerifyLoop_hush C _ _ _ _ _) fun _ => .bind (.println (by decide)) fun _ => .bind (.quiet _) fun _ => .println (by decide))) _

/-- **C58**, phase 2: for a file with any number of contributions. -/
theorem C58_p2_file_numbers {C : Curve F G1 G2 GT} (hC : C.Lawful) {H : Phase2.HeaderCodec} (hH : H.Lawful) (par : Par) (b : Nat)
    (rnd : Phase2.Rand F) (vr : Phase2.VerifyRand F) (f : P2File G1 G2) (hf : f.WF) (junk origin : Bytes) :
    (∃ w, statedCounts (p2Contribute C H par b rnd (f.encode C H ++ junk)).2.2 = [w] ∧ Denotes w f.records.length) ∧
    ((∃ w, statedCounts (p2Verify C H par b vr (f.encode C H ++ junk) origin).2 = [w] ∧ Denotes w f.records.length) ∨
      (statedCounts (p2Verify C H par b vr (f.encode C H ++ junk) origin).2 = [] ∧
        ∃ e, (p2Verify C H par b vr (f.encode C H ++ junk) origin).1 = .error e)) :=
  ⟨C58_p2_contribute_numbers C H par b rnd _ f.header _ (P2File.header_read hC hH hf 4096 junk),
    C58_p2_verify_numbers C H par b vr _ origin f.header _ (P2File.header_read hC hH hf 4096 junk)⟩

/-! ### the numbers of the hashes -/

/-- `x` prints hashes numbered from `i + 1` -/
def Console.Numbered {σ α : Type} (i : Nat) (x : Go (St σ) α) : Prop :=
  ∀ s, ∃ hs, linesWith verifying (x.run s).2.out = linesWith verifying s.out ++ hashLines i hs

theorem Console.Numbered.mute {σ α : Type} {i : Nat} {x : Go (St σ) α} (h : Mute verifying x) : Numbered i x :=
  fun s => ⟨[], by rw [h s]; simp [hashLines]⟩

theorem Console.Numbered.after {σ α β : Type} {i : Nat} {x : Go (St σ) α} {k : α → Go (St σ) β} (h : Mute verifying x)
    (hk : ∀ a, Numbered i (k a)) : Numbered i (x >>= k) := by
  intro s
  have hs := h s
  rw [Go.bind_run]
  cases hx : x.run s with
  | mk r s' =>
    rw [hx] at hs
    cases r with
    | ok a =>
      obtain ⟨l, hl⟩ := hk a s'
      exact ⟨l, by rw [← hs]; exact hl⟩
    | error e => exact ⟨[], by simpa [hashLines] using hs⟩

theorem Console.Numbered.then {σ α β : Type} {i : Nat} {x : Go (St σ) α} {k : α → Go (St σ) β} (h : Numbered i x)
    (hk : ∀ a, Mute verifying (k a)) : Numbered i (x >>= k) := by
  intro s
  obtain ⟨l, hs⟩ := h s
  rw [Go.bind_run]
  cases hx : x.run s with
  | mk r s' =>
    rw [hx] at hs
    cases r with
    | ok a => exact ⟨l, by rw [← hs]; exact hk a s'⟩
    | error e => exact ⟨l, hs⟩

theorem Console.Numbered.hash {σ β : Type} {i : Nat} {b : Bytes} {k : Unit → Go (St σ) β} (hk : Numbered (i + 1) (k ())) :
    Numbered i (println (hashLine i b) >>= k) := by
  intro s
  rw [Go.bind_ok (println_run _ s)]
  obtain ⟨l, hl⟩ := hk ⟨s.st, s.out ++ [hashLine i b]⟩
  refine ⟨b :: l, ?_⟩
  rw [hl]
  simp only [linesWith_append, List.append_assoc, hashLines]
  congr 1
  simp [linesWith, hashLine_starts, -String.reduceToList]

theorem p1VerifyLoop_numbered (C : Curve F G1 G2 GT) (n : Nat) : ∀ (i : Nat) (cur prev : Phase1.Contribution G1 G2) (rd : Rd),
    Numbered i (p1VerifyLoop C n i cur prev rd) := by
  induction n with
  | zero => intro i cur prev rd; exact .mute (.pure _ _)
  | succ n ih => exact fun i cur prev rd => .hash (.after (.quiet _ _) fun _ => .after (.quiet _ _) fun _ => ih _ _ _ _)

theorem p2VerifyLoop_numbered (C : Curve F G1 G2 GT) (n : Nat) : ∀ (i : Nat) (c : Phase2.Contribution G1 G2) (d : G1) (h : Bytes),
    Numbered i (p2VerifyLoop C n i c d h) := by
  induction n with
  | zero => intro i c d h; exact .mute (.pure _ _)
  | succ n ih => exact fun i c d h => .after (.quiet _ _) fun _ => .hash (.after (.quiet _ _) fun _ => ih _ _ _ _)

/-- the numbers that are read in such lines -/
theorem trackedNumbers_of {out : List String} {hs : List Bytes} (h : linesWith verifying out = hashLines 0 hs) (i : Nat) (w : String)
    (hw : (trackedNumbers out)[i]? = some w) : Denotes w (i + 1 : Nat) := by
  have key : ∀ (hs : List Bytes) (j i : Nat), ((hashLines j hs).map (wordBehind verifying))[i]? = some w → w = toString (j + i + 1) := by
    intro hs
    induction hs with
    | nil => intro j i h; simp [hashLines] at h
    | cons b hs ih =>
      intro j i h
      cases i with
      | zero =>
        simp only [hashLines, List.map_cons, List.getElem?_cons_zero, Option.some.injEq] at h
        rw [← h, hashLine_number]
      | succ i =>
        simp only [hashLines, List.map_cons, List.getElem?_cons_succ] at h
        rw [ih _ _ h, show j + 1 + i + 1 = j + (i + 1) + 1 by omega]
  unfold trackedNumbers at hw
  rw [show linesWith "Verifying contribution " out = _ from h] at hw
  have := key hs 0 i hw
  rw [Nat.zero_add] at this
  rw [this]
  exact denotes_nat _

/-- **C58**: phase 1 verification numbers the hashes 1, 2, 3, …, whatever the files. -/
theorem C58_p1_numbered (C : Curve F G1 G2 GT) (par : Par) (pol : Phase1.MsmPolicy) (b : Nat) (vr : Phase1.VerifyRand F)
    (input : Bytes) (tr : Option Bytes) (i : Nat) (w : String)
    (hw : (trackedNumbers (p1Verify C par pol b vr input tr).2)[i]? = some w) : Denotes w (i + 1 : Nat) := by
  rcases p1Verify_split C par pol b vr input tr _ _ rfl with ⟨-, -, h⟩ | ⟨header, rd, v, s, -, -, -, h4, s', h5, h6⟩
  · exact trackedNumbers_of (hs := []) h i w hw
  · have hn : Numbered 0 (p1VerifyRest C tr header.contributions.toNat s.st v.1 v.2.1 v.2.2.1 v.2.2.2.1 v.2.2.2.2) := by
      unfold p1VerifyRest
      exact .after (.quiet _ _) fun _ => .then (p1VerifyLoop_numbered C _ _ _ _ _) fun _ =>
        .bind (.println (by decide)) fun _ => .bind (.quiet _ _) fun _ => .bind (.println (by decide)) fun _ => .bind (.quiet _ _) fun _ =>
        .bind (.println (by decide)) fun _ => .bind (.quiet _ _) fun _ => .bind (.println (by decide)) fun _ => .bind (.quiet _ _) fun _ =>
        .bind (.println (by decide)) fun _ => .bind (.quiet _ _) fun _ => .println (by decide)
    obtain ⟨hs, hl⟩ := hn ⟨(), s.out⟩
    rw [h5] at hl
    simp only [h4, List.nil_append, h6] at hl
    exact trackedNumbers_of hl i w hw

/-- **C58**: so does phase 2 verification. -/
theorem C58_p2_numbered (C : Curve F G1 G2 GT) (H : Phase2.HeaderCodec) (par : Par) (b : Nat) (vr : Phase2.VerifyRand F)
    (input origin : Bytes) (i : Nat) (w : String)
    (hw : (trackedNumbers (p2Verify C H par b vr input origin).2)[i]? = some w) : Denotes w (i + 1 : Nat) := by
  have hn : Numbered 0 (p2VerifyBody C H par b vr) := by
    unfold p2VerifyBody
    refine .after (.quiet _ _) fun _ => .after (.quiet _ _) fun _ => .after (.quiet _ _) fun _ => .after (.quiet _ _) fun _ =>
      .after (.quiet _ _) fun _ => .after (.quiet _ _) fun _ => .after (.quiet _ _) fun _ => .after (.quiet _ _) fun _ =>
      .after (.quiet _ _) fun _ => .after (.println (by decide)) fun _ => .after (.quiet _ _) fun _ => .after (.println (by decide)) fun _ =>
      .after (.quiet _ _) fun _ => .after (.println ?_) fun _ => .then (p2VerifyLoop_numbered C _ _ _ _ _) fun _ =>
      .bind (.println (by decide)) fun _ => .bind (.quiet _ _) fun _ => .println (by decide)
    simp only [String.toList_append]; rfl
  obtain ⟨hs, hl⟩ := hn ⟨(Rd.buffered 4096 input, Rd.buffered 4096 origin), []⟩
  exact trackedNumbers_of (hl.trans (List.nil_append _)) i w hw

end

/-! ### non-triviality -/

-- a header of power 4 with 258 contributions, and nothing behind it
example : statedPowers (p1Verify Toy.curve Toy.par .strict Phase1.batchSize Toy.vr [4, 1, 2] none).2 = ["4"] ∧
    statedCounts (p1Verify Toy.curve Toy.par .strict Phase1.batchSize Toy.vr [4, 1, 2] none).2 = ["258"] := by decide +kernel

example := C58_p1_contribute_numbers Toy.curve Toy.par Phase1.batchSize Toy.rnd 4 1 2 []
example := C58_p1_verify_numbers Toy.curve Toy.par .strict Phase1.batchSize Toy.vr 4 1 2 [] none
example : Denotes "258" 258 := denotes_nat 258

example := C58_p2_file_numbers Toy.lawful Gob.lawful Toy.par Phase1.batchSize Toy.p2rnd Toy.p2vr Toy.p2 Toy.p2_wf [1] []

-- the lines of an accepted file with two contributions are numbered
example : ∃ w, (trackedNumbers Toy.cleanLines)[1]? = some w ∧ Denotes w 2 := by
  have hl : (trackedNumbers Toy.cleanLines).length = 2 := by
    have := congrArg List.length Toy.cleanLines_hashes
    rw [List.length_map] at this
    unfold trackedHashes at this
    rw [List.length_map] at this
    unfold trackedNumbers
    rw [List.length_map, this]
    decide +kernel
  have hw : (trackedNumbers Toy.cleanLines)[1]? = some _ := List.getElem?_eq_getElem (by omega)
  exact ⟨_, hw, C58_p1_numbered Toy.curve Toy.par .strict Phase1.batchSize Toy.vr _ none 1 _ hw⟩

end ZkSetup
