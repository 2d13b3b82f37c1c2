import Mathlib.Tactic.IntervalCases
import Verif.Model.Cli
import Verif.Spec.Cli
/-
`strconv.Atoi`, and which files a command writes.
-/
set_option linter.unusedSectionVars false
namespace ZkSetup.Cli

theorem digit_eq_some (c : Char) (d : Nat) : digit c = some d ↔ d < 10 ∧ c = Nat.digitChar d := by
  constructor
  · intro h
    unfold digit at h
    split at h
    · rename_i hc
      obtain ⟨h0, h9⟩ := hc
      have h0 : 48 ≤ c.toNat := h0
      have h9 : c.toNat ≤ 57 := h9
      have hd : c.toNat - 48 = d := by simpa using h
      have hc : c = Char.ofNat (48 + d) := by
        rw [show 48 + d = c.toNat by omega, Char.ofNat_toNat]
      refine ⟨by omega, ?_⟩
      rw [hc]
      have : d < 10 := by omega
      interval_cases d <;> rfl
    · simp at h
  · rintro ⟨hd, rfl⟩
    interval_cases d <;> rfl

theorem atoiDigits_iff (cs : List Char) : ∀ acc n, atoiDigits acc cs = some n ↔
    ∃ ds : List Nat, (∀ d ∈ ds, d < 10) ∧ cs = ds.map Nat.digitChar ∧ n = ds.foldl (fun a d => a * 10 + d) acc := by
  induction cs with
  | nil =>
    intro acc n
    constructor
    · intro h
      exact ⟨[], by simp, rfl, by simpa [atoiDigits] using h.symm⟩
    · rintro ⟨ds, -, h, rfl⟩
      rw [List.map_eq_nil_iff.mp h.symm]
      rfl
  | cons c cs ih =>
    intro acc n
    constructor
    · intro h
      cases hd : digit c with
      | none => simp [atoiDigits, hd] at h
      | some d =>
        simp only [atoiDigits, hd] at h
        obtain ⟨ds, h1, h2, h3⟩ := (ih _ _).mp h
        obtain ⟨h4, h5⟩ := (digit_eq_some c d).mp hd
        refine ⟨d :: ds, ?_, by rw [h2, h5]; rfl, h3⟩
        intro x hx
        rcases List.mem_cons.mp hx with rfl | hx
        · exact h4
        · exact h1 x hx
    · rintro ⟨ds, h1, h2, h3⟩
      cases ds with
      | nil => simp at h2
      | cons d ds =>
        simp only [List.map_cons, List.cons.injEq] at h2
        have hd := (digit_eq_some c d).mpr ⟨h1 d (by simp), h2.1⟩
        simp only [atoiDigits, hd]
        exact (ih _ _).mpr ⟨ds, fun x hx => h1 x (by simp [hx]), h2.2, h3⟩

theorem foldl_digits (ds : List Nat) : ds.foldl (fun a d => a * 10 + d) 0 = Nat.ofDigits 10 ds.reverse := by
  rw [Nat.ofDigits_eq_foldr, List.foldr_reverse]
  congr 1
  funext a d
  simp only [Nat.cast_id]
  ring

theorem atoiNat_iff (cs : List Char) (n : Nat) : atoiNat cs = some n ↔ Decimal cs n := by
  cases cs with
  | nil =>
    constructor
    · intro h; simp [atoiNat] at h
    · rintro ⟨ds, h, -, h2, -⟩
      exact absurd (List.map_eq_nil_iff.mp h2.symm) h
  | cons c cs =>
    rw [show atoiNat (c :: cs) = atoiDigits 0 (c :: cs) from rfl, atoiDigits_iff]
    constructor
    · rintro ⟨ds, h1, h2, h3⟩
      refine ⟨ds, ?_, h1, h2, h3.trans (foldl_digits ds)⟩
      rintro rfl
      simp at h2
    · rintro ⟨ds, -, h1, h2, h3⟩
      exact ⟨ds, h1, h2, h3.trans (foldl_digits ds).symm⟩

theorem decimal_head {c : Char} {cs : List Char} {n : Nat} (h : Decimal (c :: cs) n) : c ≠ '+' ∧ c ≠ '-' := by
  obtain ⟨ds, -, h1, h2, -⟩ := h
  cases ds with
  | nil => simp at h2
  | cons d ds =>
    simp only [List.map_cons, List.cons.injEq] at h2
    have hd := h1 d (by simp)
    rw [h2.1]
    interval_cases d <;> decide

theorem atoiSigned_iff (s : String) (i : Int) : atoiSigned s.toList = some i ↔ Denotes s i := by
  unfold Denotes
  cases hs : s.toList with
  | nil =>
    constructor
    · intro h; simp [atoiSigned, atoiNat] at h
    · rintro (⟨n, h, -⟩ | ⟨cs, n, h, -⟩ | ⟨cs, n, h, -⟩)
      · simpa [atoiNat] using (atoiNat_iff [] n).mpr h
      · simp at h
      · simp at h
  | cons c cs =>
    by_cases hm : c = '-'
    · subst hm
      simp only [atoiSigned, Option.map_eq_some_iff, atoiNat_iff]
      constructor
      · rintro ⟨n, h, rfl⟩
        exact .inr (.inr ⟨cs, n, rfl, h, rfl⟩)
      · rintro (⟨n, h, -⟩ | ⟨cs', n, h, -⟩ | ⟨cs', n, h, h2, rfl⟩)
        · exact absurd rfl (decimal_head h).2
        · simp at h
        · simp only [List.cons.injEq, true_and] at h
          exact ⟨n, h ▸ h2, rfl⟩
    by_cases hp : c = '+'
    · subst hp
      simp only [atoiSigned, Option.map_eq_some_iff, atoiNat_iff]
      constructor
      · rintro ⟨n, h, rfl⟩
        exact .inr (.inl ⟨cs, n, rfl, h, rfl⟩)
      · rintro (⟨n, h, -⟩ | ⟨cs', n, h, h2, rfl⟩ | ⟨cs', n, h, -⟩)
        · exact absurd rfl (decimal_head h).1
        · simp only [List.cons.injEq, true_and] at h
          exact ⟨n, h ▸ h2, rfl⟩
        · simp at h
    have he : atoiSigned (c :: cs) = (atoiNat (c :: cs)).map fun n : Nat => (n : Int) := by
      unfold atoiSigned
      split
      · rename_i h; simp only [List.cons.injEq] at h; exact absurd h.1 hm
      · rename_i h; simp only [List.cons.injEq] at h; exact absurd h.1 hp
      · rfl
    rw [he]
    simp only [Option.map_eq_some_iff, atoiNat_iff]
    constructor
    · rintro ⟨n, h, rfl⟩
      exact .inl ⟨n, h, rfl⟩
    · rintro (⟨n, h, rfl⟩ | ⟨cs', n, h, -⟩ | ⟨cs', n, h, -⟩)
      · exact ⟨n, h, rfl⟩
      · simp only [List.cons.injEq] at h; exact absurd h.1 hp
      · simp only [List.cons.injEq] at h; exact absurd h.1 hm

theorem atoi_iff (s : String) (i : Int) : atoi s = .ok i ↔ Denotes s i ∧ -(2 ^ 63) ≤ i ∧ i < 2 ^ 63 := by
  unfold atoi
  rw [← atoiSigned_iff]
  cases h : atoiSigned s.toList with
  | none => simp
  | some j =>
    dsimp only
    split
    · rename_i hr
      simp only [Except.ok.injEq, Option.some.injEq]
      constructor
      · rintro rfl; exact ⟨rfl, hr⟩
      · exact fun h => h.1
    · rename_i hr
      simp only [reduceCtorEq, Option.some.injEq, false_iff]
      rintro ⟨rfl, h⟩
      exact hr h

theorem atoi_error {s : String} (h : ∀ i, Denotes s i → -(2 ^ 63) ≤ i → i < 2 ^ 63 → False) : ∃ m, atoi s = .error (.err m) := by
  cases hs : atoi s with
  | ok i =>
    obtain ⟨h1, h2, h3⟩ := (atoi_iff s i).mp hs
    exact (h i h1 h2 h3).elim
  | error e =>
    unfold atoi at hs
    split at hs
    · split at hs
      · simp at hs
      · exact ⟨_, hs.symm⟩
    · exact ⟨_, hs.symm⟩

theorem set_self (fs : FS) (p : String) (bs : Bytes) : fs.set p bs p = some bs := by simp [FS.set]

theorem set_other (fs : FS) {p q : String} (bs : Bytes) (h : q ≠ p) : fs.set p bs q = fs q := by simp [FS.set, h]

section
variable {F G1 G2 GT : Type} [Field F] [AddCommGroup G1] [Module F G1] [AddCommGroup G2]
  [Module F G2] [AddCommGroup GT] [Module F GT] [DecidableEq G1] [DecidableEq G2] [DecidableEq GT]

theorem length_two {args : List String} (h : args.length = 2) : ∃ a b, args = [a, b] := by
  match args, h with
  | [a, b], _ => exact ⟨a, b, rfl⟩

theorem length_four {args : List String} (h : args.length = 4) : ∃ a b c d, args = [a, b, c, d] := by
  rcases args with _ | ⟨a, _ | ⟨b, _ | ⟨c, _ | ⟨d, _ | ⟨e, l⟩⟩⟩⟩⟩ <;> simp_all

theorem length_six {args : List String} (h : args.length = 6) : ∃ a b c d e f, args = [a, b, c, d, e, f] := by
  rcases args with _ | ⟨a, _ | ⟨b, _ | ⟨c, _ | ⟨d, _ | ⟨e, _ | ⟨f, _ | ⟨g, l⟩⟩⟩⟩⟩⟩⟩ <;> simp_all

theorem withFiles_frame {O : Type} {ph2 : String} {body : Bytes → Bytes → Except Fail Unit × Option O} {save : FS → O → FS}
    {q : String} (hs : ∀ fs o, save fs o q = fs q) (fs : FS) : (withFiles ph2 body save fs).2 q = fs q := by
  unfold withFiles
  split
  · rfl
  · split
    · rfl
    · rename_i a _ _ b _
      dsimp only
      cases (body a b).2 with
      | some o => exact hs _ _
      | none => rfl

theorem inOrder_frame {first second : FS → Except Fail Unit × FS} {q : String} (h1 : ∀ fs, (first fs).2 q = fs q)
    (h2 : ∀ fs, (second fs).2 q = fs q) (fs : FS) : (inOrder first second fs).2 q = fs q := by
  unfold inOrder
  have := h1 fs
  split
  · rename_i h; rw [h] at this; exact this
  · rename_i h; rw [h] at this; rw [h2]; exact this

end
end ZkSetup.Cli
