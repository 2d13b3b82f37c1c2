import Verif.Proofs.Phase1IO
import Verif.Props.Common
import Mathlib.Tactic.Ring
/-
Batched scaling of a section.
-/
set_option linter.unusedSectionVars false

namespace ZkSetup

open Phase1

section
variable {F : Type} [Field F]

theorem powers_eq (a b : F) (n : Nat) : powers a b n = (List.range n).map fun i => a * b ^ i := by
  induction n generalizing a with
  | zero => rfl
  | succ n ih =>
    rw [powers, ih, List.range_succ_eq_map]
    simp [pow_succ', mul_assoc]

theorem powers_last (a b : F) (n : Nat) (h : 0 < n) : (powers a b n).getLastD 0 * b = a * b ^ n := by
  obtain ⟨n, rfl⟩ : ∃ m, n = m + 1 := ⟨n - 1, by omega⟩
  rw [powers_eq, List.range_succ, List.map_append]
  simp [pow_succ, mul_assoc]

variable {G : Type} [AddCommGroup G] [Module F G]

/-- scaling with a start power -/
def scaledFrom (m start τ : F) (ps : List G) : List G := ps.mapIdx fun i p => (m * (start * τ ^ i)) • p

theorem scaledFrom_one (m τ : F) (ps : List G) : scaledFrom m 1 τ ps = scaled m τ ps := by
  simp [scaledFrom, scaled]

@[simp] theorem scaledFrom_length (m s τ : F) (ps : List G) : (scaledFrom m s τ ps).length = ps.length := by
  simp [scaledFrom]

@[simp] theorem scaled_length (m τ : F) (ps : List G) : (scaled m τ ps).length = ps.length := by
  simp [scaled]

theorem scaledFrom_split (m s τ : F) (ps : List G) (k : Nat) (hk : k ≤ ps.length) :
    scaledFrom m s τ ps
      = scaledFrom m s τ (ps.take k) ++ scaledFrom m (s * τ ^ k) τ (ps.drop k) := by
  have hps : ps = ps.take k ++ ps.drop k := by simp
  conv_lhs => rw [hps]
  unfold scaledFrom
  rw [List.mapIdx_append]
  congr 1
  apply List.ext_getElem?
  intro i
  have : (ps.take k).length = k := by simp [hk]
  simp only [List.getElem?_mapIdx, this]
  congr 1
  funext p
  congr 1
  rw [pow_add]; ring

theorem encodeN_append (c : Codec G) (a b : List G) : c.encodeN (a ++ b) = c.encodeN a ++ c.encodeN b := by
  simp [Codec.encodeN]

variable [DecidableEq G]

theorem scaleLoop_spec {c : Codec G} (hc : c.Lawful) (par : Par) (b : Nat) (hb : 0 < b) (tau : F)
    (mult : Option F) (o : Nat) (n : Nat) :
    ∀ (pts : List G), pts.length = n → ∀ (buff : List G), min n b ≤ buff.length → o < buff.length →
      ∀ (start : F) (fp : G),
    ∃ p, (∀ (cap pos : Nat) (ys out : Bytes),
      (scaleLoop c par b tau mult (fun l => l[o]?) n buff start fp).run
        ⟨⟨cap, pos, c.encodeN pts ++ ys⟩, out⟩
      = (.ok p, ⟨⟨cap, pos + c.size * n, ys⟩, out ++ c.encodeN (scaledFrom (mult.getD 1) start tau pts)⟩)) ∧
      (fp ≠ 0 → p = fp) ∧
      (fp = 0 → o < n → o < b → (scaledFrom (mult.getD 1) start tau pts).getD o 0 ≠ 0 →
        p = (scaledFrom (mult.getD 1) start tau pts).getD o 0) ∧
      (fp = 0 → o ≤ 1 → (∀ i, o ≤ i → buff.getD i 0 = 0) →
        (∀ i, o ≤ i → (scaledFrom (mult.getD 1) start tau pts).getD i 0 = 0) → p = 0) := by
  induction n using Nat.strong_induction_on with
  | _ n ih =>
    intro pts hn buff hbl ho start fp
    by_cases h0 : 0 < n ∧ 0 < b
    swap
    · have hn0 : n = 0 := by omega
      subst hn0
      have : pts = [] := List.length_eq_zero_iff.mp hn
      subst this
      exact ⟨fp, by intros; rw [scaleLoop, dif_neg h0]; simp [Codec.encodeN, scaledFrom], fun _ => rfl, by omega, fun h _ _ _ => h⟩
    · generalize hrc : min n b = rc at *
      have hrc0 : 0 < rc := by omega
      have hrcn : rc ≤ n := by omega
      have htl : (pts.take rc).length = rc := by simp; omega
      have hdl : (pts.drop rc).length = n - rc := by simp; omega
      -- the scalars
      generalize hsc : applyMultiplicand par mult (powers start tau rc) = scalars
      have hscal : ∀ i < rc, scalars.getD i 0 = mult.getD 1 * (start * tau ^ i) := by
        intro i hi
        cases mult with
        | none =>
          subst hsc
          simp [applyMultiplicand, powers_eq, List.getD_eq_getElem?_getD, List.getElem?_map, List.getElem?_range hi]
        | some m =>
          subst hsc
          simp only [applyMultiplicand, C02_batchMul, powers_eq]
          simp [List.getD_eq_getElem?_getD, List.getElem?_map, List.getElem?_range hi, mul_comm]
      -- the batch after scaling
      generalize hbuff : par.mapIdx rc (fun i p => scalars.getD i 0 • p) (pts.take rc ++ buff.drop rc)
        = buff'
      have hb' : buff' = scaledFrom (mult.getD 1) start tau (pts.take rc) ++ buff.drop rc := by
        rw [← hbuff, Par.mapIdx_eq', List.mapIdx_append]
        congr 1
        · unfold scaledFrom
          apply List.ext_getElem?
          intro i
          simp only [List.getElem?_mapIdx]
          by_cases hi : i < rc
          · rw [hscal i hi]; simp [hi]
          · rw [List.getElem?_eq_none (by omega)]; rfl
        · apply List.ext_getElem?
          intro i
          simp only [List.getElem?_mapIdx, htl]
          have : ¬ i + rc < rc := by omega
          simp [this]
      have htake : buff'.take rc = scaledFrom (mult.getD 1) start tau (pts.take rc) := by
        rw [hb', List.take_left' (by simp; omega)]
      have hlen' : buff'.length = buff.length := by
        rw [hb']; simp; omega
      obtain ⟨q, hq⟩ : ∃ q, buff'[o]? = some q := ⟨buff'[o], List.getElem?_eq_getElem (by omega)⟩
      have hfirst : ∀ st : IOSt, (keepFirst fp buff'[o]?).run st = (.ok (if fp = 0 then q else fp), st) := by
        intro st
        rw [hq]
        unfold keepFirst
        split <;> rfl
      obtain ⟨p, hp, hp1, hp2, hp3⟩ := ih (n - rc) (by omega) (pts.drop rc) hdl buff'
        (by omega) (by omega) (start * tau ^ rc) (if fp = 0 then q else fp)
      have hsplit := scaledFrom_split (mult.getD 1) start tau pts rc (by omega)
      have hqv : q = buff'.getD o 0 := by rw [List.getD_eq_getElem?_getD, hq]; rfl
      refine ⟨p, ?_, ?_, ?_, ?_⟩
      · intro cap pos ys out
        have hdec := Codec.decodeN_encodeN hc cap pos (pts.take rc) (c.encodeN (pts.drop rc) ++ ys)
        rw [htl] at hdec
        have hin : c.encodeN pts ++ ys = c.encodeN (pts.take rc) ++ (c.encodeN (pts.drop rc) ++ ys) := by
          rw [← List.append_assoc, ← encodeN_append, List.take_append_drop]
        rw [scaleLoop, dif_pos h0, hin]
        simp only [hrc]
        rw [Go.bind_ok (IOSt.onRd_ok hdec)]
        simp only [hsc, hbuff]
        rw [Go.bind_ok (IOSt.emit_run _ _), Go.bind_ok (hfirst _), powers_last _ _ _ hrc0, htake]
        rw [hp, hsplit, encodeN_append, List.append_assoc]
        have : pos + c.size * rc + c.size * (n - rc) = pos + c.size * n := by
          rw [Nat.add_assoc, ← Nat.mul_add]; congr 2; omega
        rw [this]
      · intro hfp
        rw [if_neg hfp] at hp1
        exact hp1 hfp
      · intro hfp hon hob hne
        rw [if_pos hfp] at hp1
        have ho' : o < rc := by omega
        have : (scaledFrom (mult.getD 1) start tau pts).getD o 0 = q := by
          rw [hqv, hsplit, hb', List.getD_eq_getElem?_getD, List.getD_eq_getElem?_getD,
            List.getElem?_append_left (by simp; omega), List.getElem?_append_left (by simp; omega)]
        rw [this] at hne ⊢
        exact hp1 hne
      · intro hfp ho1 hbz hsz
        have hbz' : ∀ i, o ≤ i → buff'.getD i 0 = 0 := by
          intro i hi
          rw [hb', List.getD_eq_getElem?_getD]
          by_cases hir : i < rc
          · have := hsz i hi
            rw [hsplit, List.getD_eq_getElem?_getD, List.getElem?_append_left (by simp; omega)] at this
            rw [List.getElem?_append_left (by simp; omega), this]
          · rw [List.getElem?_append_right (by simp; omega), List.getElem?_drop]
            have := hbz i hi
            rw [List.getD_eq_getElem?_getD] at this
            have e : rc + (i - (scaledFrom (mult.getD 1) start tau (pts.take rc)).length) = i := by
              simp only [scaledFrom_length, htl]; omega
            rw [e, this]
        have hq0 : q = 0 := by rw [hqv]; exact hbz' o le_rfl
        refine hp3 (by rw [if_pos hfp, hq0]) ho1 hbz' ?_
        intro i hi
        have := hsz (rc + i) (by omega)
        rw [hsplit, List.getD_eq_getElem?_getD,
          List.getElem?_append_right (by simp only [scaledFrom_length, htl]; omega)] at this
        rw [List.getD_eq_getElem?_getD, ← this]
        congr 2
        simp only [scaledFrom_length, htl]; omega

end
end ZkSetup
