import Verif.Model.AliasInit
import Verif.Proofs.Cli
/-
`p2n` and `p2np` with any file names, compared with the model in which all files are different.
-/
set_option linter.unusedSectionVars false

namespace ZkSetup

open Phase2 Cli
open Phase1 (makeLen goPow2)

/-- From states related by `R` the two programs have the same result; after a success the states are related by `S`, after a
failure by `T`. -/
def Alike {σ τ α : Type} (R S T : σ → τ → Prop) (x : Go σ α) (y : Go τ α) : Prop :=
  ∀ s t, R s t → (y.run t).1 = (x.run s).1 ∧ ((∃ a, (x.run s).1 = .ok a) → S (x.run s).2 (y.run t).2) ∧
    ((∃ e, (x.run s).1 = .error e) → T (x.run s).2 (y.run t).2)

namespace Alike
variable {σ τ α β : Type} {R S T U : σ → τ → Prop}

theorem bind {x : Go σ α} {y : Go τ α} {f : α → Go σ β} {g : α → Go τ β} (h : Alike R S T x y)
    (hf : ∀ a, Alike S U T (f a) (g a)) : Alike R U T (x >>= f) (y >>= g) := by
  intro s t hst
  obtain ⟨h1, h2, h3⟩ := h s t hst
  rcases hx : x.run s with ⟨r, s'⟩
  rcases hy : y.run t with ⟨r', t'⟩
  rw [hx, hy] at h1 h2 h3
  simp only at h1 h2 h3
  subst h1
  cases r' with
  | error e =>
    rw [Go.bind_error hx, Go.bind_error hy]
    exact ⟨rfl, fun ⟨_, ha⟩ => by simp at ha, fun _ => h3 ⟨e, rfl⟩⟩
  | ok a =>
    rw [Go.bind_ok hx, Go.bind_ok hy]
    exact hf a s' t' (h2 ⟨a, rfl⟩)

theorem lift (hT : ∀ s t, R s t → T s t) (r : Except Fail α) : Alike R R T (Go.lift r) (Go.lift r) :=
  fun s t h => ⟨rfl, fun _ => h, fun _ => hT s t h⟩

theorem pure (a : α) : Alike R R T (Pure.pure a) (Pure.pure a) := fun _ _ h => ⟨rfl, fun _ => h, fun ⟨_, he⟩ => by simp at he⟩

theorem weaken {S' : σ → τ → Prop} {x : Go σ α} {y : Go τ α} (h : Alike R S T x y) (hS : ∀ s t, S s t → S' s t) : Alike R S' T x y :=
  fun s t hst => ⟨(h s t hst).1, fun ha => hS _ _ ((h s t hst).2.1 ha), (h s t hst).2.2⟩

/-- a step that always succeeds -/
theorem step {f : σ → σ} {g : τ → τ} {u : σ → α} (h : ∀ s t, R s t → S (f s) (g t)) {w : τ → α} (hv : ∀ s t, R s t → w t = u s) :
    Alike R S T ⟨fun s => (.ok (u s), f s)⟩ ⟨fun t => (.ok (w t), g t)⟩ :=
  fun s t hst => ⟨by simp [hv s t hst], fun _ => h s t hst, fun ⟨_, he⟩ => by simp at he⟩

end Alike

section
variable {F G1 G2 GT : Type} [Field F] [AddCommGroup G1] [Module F G1] [AddCommGroup G2]
  [Module F G2] [AddCommGroup GT] [Module F GT] {σ τ : Type} {R S T : σ → τ → Prop}
  {o : InitOps F G1 G2 σ} {p : InitOps F G1 G2 τ}

theorem processHeader_alike (hT : ∀ s t, R s t → T s t) (H : HeaderCodec) (h1 : Alike R R T o.load p.load) (h2 : Alike R R T o.ph1 p.ph1)
    (h3 : ∀ b, Alike R S T (o.emitPh2 b) (p.emitPh2 b)) : Alike R S T (processHeaderOn o H) (processHeaderOn p H) := by
  unfold processHeaderOn
  exact h1.bind fun _ => (Alike.lift hT _).bind fun _ => h2.bind fun _ => (Alike.lift hT _).bind fun _ =>
    (Alike.lift hT _).bind fun _ => (h3 _).bind fun _ => Alike.pure _

theorem processLagrange_alike (hT : ∀ s t, S s t → T s t) (C : Curve F G1 G2 GT) (par : Par) (dom : Nat → Lagrange.Domain F)
    (hd1 : Phase1.Header) (hd2 : Header) (h1 : Alike R S T o.createLag p.createLag) (h2 : Alike S S T o.ph1 p.ph1)
    (h3 : ∀ b, Alike S S T (o.emitLag b) (p.emitLag b)) :
    Alike R S T (processLagrangeOn o C par dom hd1 hd2) (processLagrangeOn p C par dom hd1 hd2) := by
  unfold processLagrangeOn
  exact h1.bind fun _ => h2.bind fun _ => (Alike.lift hT _).bind fun _ => (h3 _).bind fun _ => h2.bind fun _ => (Alike.lift hT _).bind fun _ =>
    (h3 _).bind fun _ => h2.bind fun _ => (Alike.lift hT _).bind fun _ => (h3 _).bind fun _ => h2.bind fun _ =>
    (Alike.lift hT _).bind fun _ => h3 _

theorem processEvaluations_alike (hT : ∀ s t, S s t → T s t) (C : Curve F G1 G2 GT) (hd1 : Phase1.Header) (hd2 : Header)
    (h1 : Alike R R T o.openLag p.openLag) (h2 : Alike R S T o.createEvals p.createEvals) (h3 : Alike S S T o.ph1 p.ph1)
    (h4 : ∀ b, Alike S S T (o.emitEvals b) (p.emitEvals b)) (h5 : Alike S S T o.load p.load) :
    Alike R S T (processEvaluationsOn o C hd1 hd2) (processEvaluationsOn p C hd1 hd2) := by
  unfold processEvaluationsOn
  exact h1.bind fun _ => h2.bind fun _ => h3.bind fun _ => (Alike.lift hT _).bind fun _ => (h4 _).bind fun _ => (h4 _).bind fun _ =>
    (h4 _).bind fun _ => h5.bind fun _ => (Alike.lift hT _).bind fun _ => (Alike.lift hT _).bind fun _ => (Alike.lift hT _).bind fun _ =>
    (h4 _).bind fun _ => (Alike.lift hT _).bind fun _ => (h4 _).bind fun _ => (Alike.lift hT _).bind fun _ => (Alike.lift hT _).bind fun _ =>
    h4 _

theorem processDeltaAndZ_alike (hT : ∀ s t, R s t → T s t) (C : Curve F G1 G2 GT) (hd2 : Header) (h1 : Alike R R T o.ph1 p.ph1)
    (h2 : ∀ b, Alike R R T (o.emitPh2 b) (p.emitPh2 b)) : Alike R R T (processDeltaAndZOn o C hd2) (processDeltaAndZOn p C hd2) := by
  unfold processDeltaAndZOn
  exact h1.bind fun _ => (h2 _).bind fun _ => (h2 _).bind fun _ => (Alike.lift hT _).bind fun _ => (Alike.lift hT _).bind fun _ => h2 _

theorem processPVCKK_alike (hT : ∀ s t, R s t → T s t) (C : Curve F G1 G2 GT) (cb : Commitment → Bytes) (hd2 : Header)
    (h1 : Alike R R T o.load p.load) (h2 : Alike R R T o.openLag p.openLag)
    (h3 : ∀ a b c d, Alike R S T (o.finish a b c d) (p.finish a b c d)) :
    Alike R S T (processPVCKKOn o C cb hd2) (processPVCKKOn p C cb hd2) := by
  unfold processPVCKKOn
  exact h1.bind fun _ => h2.bind fun _ => (Alike.lift hT _).bind fun _ => (Alike.lift hT _).bind fun _ => (Alike.lift hT _).bind fun _ =>
    (Alike.lift hT _).bind fun _ => (Alike.lift hT _).bind fun _ => (Alike.lift hT _).bind fun _ => h3 _ _ _ _

end

/-! ### all files different -/

theorem writeAt_end (a b : Bytes) : writeAt a a.length b = a ++ b := by
  unfold writeAt
  split
  · simp [*]
  · simp

theorem old_set (fs : FS) (p : String) (bs : Bytes) : old (fs.set p bs) p = bs := by simp [old, FS.set]

theorem old_set_ne (fs : FS) {p q : String} (bs : Bytes) (h : q ≠ p) : old (fs.set p bs) q = old fs q := by simp [old, FS.set, h]

theorem passedOn_append (bs : Bytes) : Keys.passedOn bs ++ bs.drop (Keys.passedOn bs).length = bs := by
  unfold Keys.passedOn
  rw [List.length_take]
  by_cases h : 4096 * ((bs.length - 1) / 4096) ≤ bs.length
  · rw [Nat.min_eq_left h, List.take_append_drop]
  · rw [Nat.min_eq_right (by omega), List.take_of_length_le (by omega), List.drop_length, List.append_nil]

/-- The files with their names hold what the state of `Model/Phase2Init.lean` says; all others are as they were. -/
structure Apart (fs : FS) (out : String) (s : InitSt) (t : NamedSt) : Prop where
  ph2 : t.fs out = some s.ph2
  off : t.off = s.ph2.length
  lag : old t.fs "srs.lag" = s.lag
  evals : old t.fs "evals" = s.evals
  other : ∀ q, q ≠ out → q ≠ "srs.lag" → q ≠ "evals" → t.fs q = fs q

namespace Apart
variable {F G1 G2 GT : Type} [Field F] [AddCommGroup G1] [Module F G1] [AddCommGroup G2]
  [Module F G2] [AddCommGroup GT] [Module F GT] {fs : FS} {inp out : String}

theorem emitPh2 (h1 : out ≠ "srs.lag") (h2 : out ≠ "evals") (b : Bytes) :
    Alike (Apart fs out) (Apart fs out) (Apart fs out) (Phase2.emitPh2 b) (NamedSt.emitPh2 out b) := by
  refine Alike.step (fun s t h => ?_) (fun _ _ _ => rfl)
  have ho : old t.fs out = s.ph2 := by simp [old, h.ph2]
  exact {
    ph2 := by
      simp only [set_self]
      rw [ho, h.off, writeAt_end]
    off := by simp [h.off]
    lag := by rw [← h.lag]; exact old_set_ne _ _ h1.symm
    evals := by rw [← h.evals]; exact old_set_ne _ _ h2.symm
    other := fun q q1 q2 q3 => by rw [← h.other q q1 q2 q3]; exact set_other _ _ q1 }

theorem setLag (h1 : out ≠ "srs.lag") (f : Bytes → Bytes) :
    Alike (Apart fs out) (Apart fs out) (Apart fs out) ⟨fun s => (.ok (), { s with lag := f s.lag })⟩
      ⟨fun t => (.ok (), { t with fs := t.fs.set "srs.lag" (f (old t.fs "srs.lag")) })⟩ := by
  refine Alike.step (fun s t h => ?_) (fun _ _ _ => rfl)
  exact {
    ph2 := by rw [← h.ph2]; exact set_other _ _ h1
    off := h.off
    lag := by rw [← h.lag]; exact old_set _ _ _
    evals := by rw [← h.evals]; exact old_set_ne _ _ (by decide)
    other := fun q q1 q2 q3 => by rw [← h.other q q1 q2 q3]; exact set_other _ _ q2 }

theorem setEvals (h2 : out ≠ "evals") (f : Bytes → Bytes) :
    Alike (Apart fs out) (Apart fs out) (Apart fs out) ⟨fun s => (.ok (), { s with evals := f s.evals })⟩
      ⟨fun t => (.ok (), { t with fs := t.fs.set "evals" (f (old t.fs "evals")) })⟩ := by
  refine Alike.step (fun s t h => ?_) (fun _ _ _ => rfl)
  exact {
    ph2 := by rw [← h.ph2]; exact set_other _ _ h2
    off := h.off
    lag := by rw [← h.lag]; exact old_set_ne _ _ (by decide)
    evals := by rw [← h.evals]; exact old_set _ _ _
    other := fun q q1 q2 q3 => by rw [← h.other q q1 q2 q3]; exact set_other _ _ q3 }

theorem finish (h1 : out ≠ "srs.lag") (h2 : out ≠ "evals") (a b c d : Bytes) (r : Except Fail (Loaded F G1 G2)) (file : Bytes) :
    Alike (Apart fs out) (Apart fs out) (Apart fs out) ((plainInit file r).finish a b c d) (NamedSt.finish out a b c d) := by
  have h : Alike (Apart fs out) (Apart fs out) (Apart fs out)
      (do
        Phase2.emitPh2 (Keys.passedOn a)
        Phase2.emitEvals b
        Phase2.emitEvals c
        Phase2.emitEvals d
        Phase2.emitPh2 (a.drop (Keys.passedOn a).length)) (NamedSt.finish out a b c d) := by
    unfold NamedSt.finish
    exact (emitPh2 h1 h2 _).bind fun _ => (setEvals h2 (· ++ b)).bind fun _ => (setEvals h2 (· ++ c)).bind fun _ =>
      (setEvals h2 (· ++ d)).bind fun _ => emitPh2 h1 h2 _
  have he : (plainInit file r).finish a b c d = (do
        Phase2.emitPh2 (Keys.passedOn a)
        Phase2.emitEvals b
        Phase2.emitEvals c
        Phase2.emitEvals d
        Phase2.emitPh2 (a.drop (Keys.passedOn a).length)) := by
    simp only [plainInit, Bind.bind, Go.andThen, Phase2.emitPh2, Phase2.emitEvals]
    congr 1
    funext s
    simp only [List.append_assoc, passedOn_append]
  rw [he]
  exact h

/-- With four different names, the run with names does what the model with separate files says. -/
theorem init (C : Curve F G1 G2 GT) (E : InitEnv F) (par : Par) (h1 : out ≠ "srs.lag") (h2 : out ≠ "evals") (h3 : inp ≠ out)
    (h4 : inp ≠ "srs.lag") (h5 : inp ≠ "evals") (load : FS → Except Fail (Loaded F G1 G2)) (r : Except Fail (Loaded F G1 G2))
    (hload : ∀ t : FS, (∀ q, q ≠ out → q ≠ "srs.lag" → q ≠ "evals" → t q = fs q) → load t = r) :
    Alike (Apart fs out) (Apart fs out) (Apart fs out) (initOn (plainInit (old fs inp) r) C E par)
      (initOn (namedInit inp out load) C E par) := by
  have hT : ∀ s t, Apart fs out s t → Apart fs out s t := fun _ _ h => h
  have hl : Alike (Apart fs out) (Apart fs out) (Apart fs out) (plainInit (old fs inp) r).load (namedInit inp out load).load :=
    fun s t h => ⟨hload t.fs h.other, fun _ => h, fun _ => h⟩
  have hp : Alike (Apart fs out) (Apart fs out) (Apart fs out) (plainInit (old fs inp) r).ph1 (namedInit inp out load).ph1 :=
    Alike.step (fun _ _ h => h) fun s t h => by simp only [old]; rw [h.other inp h3 h4 h5]
  have ho : Alike (Apart fs out) (Apart fs out) (Apart fs out) (plainInit (old fs inp) r).openLag (namedInit inp out load).openLag :=
    Alike.step (fun _ _ h => h) fun s t h => h.lag
  unfold initOn
  exact (processHeader_alike hT E.header hl hp (emitPh2 h1 h2)).bind fun _ =>
    (processLagrange_alike hT C par E.dom _ _ (setLag h1 fun _ => []) hp fun b => setLag h1 (· ++ b)).bind fun _ =>
    (processEvaluations_alike hT C _ _ ho (setEvals h2 fun _ => []) hp (fun b => setEvals h2 (· ++ b)) hl).bind fun _ =>
    (processDeltaAndZ_alike hT C _ hp (emitPh2 h1 h2)).bind fun _ =>
    processPVCKK_alike hT C E.cmtBytes _ hl ho fun a b c d => finish h1 h2 a b c d r _

end Apart

/-! ### the phase 2 file is `evals` -/

theorem writeAt_length (a b : Bytes) (k : Nat) (hb : b ≠ []) : (writeAt a k b).length = max a.length (k + b.length) := by
  unfold writeAt
  rw [if_neg hb]
  simp only [List.length_append, List.length_take, List.length_replicate, List.length_drop]
  omega

/-- two writes in a row -/
theorem writeAt_twice (a x y : Bytes) (k : Nat) : writeAt (writeAt a k x) (k + x.length) y = writeAt a k (x ++ y) := by
  by_cases hx : x = []
  · simp [hx, writeAt]
  by_cases hy : y = []
  · simp [hy, writeAt]
  have hl := writeAt_length a x k hx
  have hp : (List.take k (a ++ List.replicate (k - a.length) 0)).length = k := by
    simp only [List.length_take, List.length_append, List.length_replicate]
    omega
  rw [writeAt, if_neg hy, Nat.sub_eq_zero_of_le (by omega), List.replicate_zero, List.append_nil]
  have e : writeAt a k x = List.take k (a ++ List.replicate (k - a.length) 0) ++ x ++ a.drop (k + x.length) := by
    rw [writeAt, if_neg hx]
  have hl2 : (List.take k (a ++ List.replicate (k - a.length) 0) ++ x).length = k + x.length := by rw [List.length_append, hp]
  have e2 : writeAt a k (x ++ y) = List.take k (a ++ List.replicate (k - a.length) 0) ++ (x ++ y) ++ a.drop (k + (x ++ y).length) := by
    rw [writeAt, if_neg (by simp [hx])]
  rw [e2, e, List.take_left' hl2, ← List.drop_drop, List.drop_left' hl2, List.drop_drop, List.length_append, List.append_assoc _ x y,
    Nat.add_assoc]

/-- before `os.Create("evals")` -/
structure Evals1 (fs : FS) (s : InitSt) (t : NamedSt) : Prop where
  file : t.fs "evals" = some s.ph2
  off : t.off = s.ph2.length
  lag : old t.fs "srs.lag" = s.lag
  other : ∀ q, q ≠ "srs.lag" → q ≠ "evals" → t.fs q = fs q

/-- while the evaluations are written -/
structure Evals2 (fs : FS) (ph2 : Bytes) (s : InitSt) (t : NamedSt) : Prop where
  file : t.fs "evals" = some s.evals
  ph2 : s.ph2 = ph2
  off : t.off = s.ph2.length
  lag : old t.fs "srs.lag" = s.lag
  other : ∀ q, q ≠ "srs.lag" → q ≠ "evals" → t.fs q = fs q

/-- while [δ]₁, [δ]₂ and Z are written -/
structure Evals3 (fs : FS) (hd ev : Bytes) (s : InitSt) (t : NamedSt) : Prop where
  file : ∃ dz, s.ph2 = hd ++ dz ∧ t.fs "evals" = some (writeAt ev hd.length dz)
  evals : s.evals = ev
  off : t.off = s.ph2.length
  lag : old t.fs "srs.lag" = s.lag
  other : ∀ q, q ≠ "srs.lag" → q ≠ "evals" → t.fs q = fs q

/-- at the end; `s` is the state of the run with separate files -/
structure Evals4 (fs : FS) (hd dz ev : Bytes) (s : InitSt) (t : NamedSt) : Prop where
  file : ∃ pk ev1, s.ph2 = hd ++ dz ++ pk ∧ s.evals = ev ++ ev1 ∧ t.fs "evals" =
    some (writeAt (writeAt ev hd.length (dz ++ Keys.passedOn pk) ++ ev1) (hd.length + dz.length + (Keys.passedOn pk).length)
      (pk.drop (Keys.passedOn pk).length))
  lag : old t.fs "srs.lag" = s.lag
  other : ∀ q, q ≠ "srs.lag" → q ≠ "evals" → t.fs q = fs q

section
variable {F G1 G2 GT : Type} [Field F] [AddCommGroup G1] [Module F G1] [AddCommGroup G2]
  [Module F G2] [AddCommGroup GT] [Module F GT] {fs : FS} {inp : String}

theorem finish_evals {hd dz ev : Bytes} {s : InitSt} {t : NamedSt} (h : Evals3 fs hd ev s t) (hs : s.ph2 = hd ++ dz) (a b c d : Bytes) :
    ∃ t', (NamedSt.finish "evals" a b c d).run t = (.ok (), t') ∧
      Evals4 fs hd dz ev { s with ph2 := s.ph2 ++ a, evals := s.evals ++ b ++ c ++ d } t' := by
  obtain ⟨dz', e1, e2⟩ := h.file
  have : dz' = dz := List.append_cancel_left (e1.symm.trans hs)
  subst this
  refine ⟨_, rfl, ⟨⟨a, b ++ c ++ d, by simp [hs], by simp [h.evals], ?_⟩, ?_, fun q q1 q2 => ?_⟩⟩
  · have e3 : ∀ (f : FS) (x : Bytes), old (f.set "evals" x) "evals" = x := fun f x => old_set f "evals" x
    simp only [set_self, e3, NamedSt.append, NamedSt.emitPh2]
    have e4 : old t.fs "evals" = writeAt ev hd.length dz' := by simp [old, e2]
    rw [e4, h.off, hs, List.length_append, writeAt_twice]
    simp only [List.append_assoc]
  · rw [show s.lag = old t.fs "srs.lag" from h.lag.symm]
    simp [old, FS.set, NamedSt.append, NamedSt.emitPh2]
  · rw [← h.other q q1 q2]
    simp [FS.set, NamedSt.append, NamedSt.emitPh2, q2]

theorem init_evals (C : Curve F G1 G2 GT) (E : InitEnv F) (par : Par) (h1 : inp ≠ "srs.lag") (h2 : inp ≠ "evals")
    (load : FS → Except Fail (Loaded F G1 G2)) (r : Except Fail (Loaded F G1 G2))
    (hload : ∀ t : FS, (∀ q, q ≠ "srs.lag" → q ≠ "evals" → t q = fs q) → load t = r) (ev : Bytes) :
    ((initOn (namedInit inp "evals" load) C E par).run ⟨fs.set "evals" [], 0⟩).1 =
      ((initOn (plainInit (old fs inp) r) C E par).run ⟨[], old fs "srs.lag", ev⟩).1 ∧
    ∀ st, (initOn (plainInit (old fs inp) r) C E par).run ⟨[], old fs "srs.lag", ev⟩ = (.ok (), st) →
      ∃ hd1 hd2 s1 s2 s3 s4 dz, (processHeaderOn (plainInit (old fs inp) r) E.header).run ⟨[], old fs "srs.lag", ev⟩ = (.ok (hd1, hd2), s1) ∧
        (processLagrangeOn (plainInit (old fs inp) r) C par E.dom hd1 hd2).run s1 = (.ok (), s2) ∧
        (processEvaluationsOn (plainInit (old fs inp) r) C hd1 hd2).run s2 = (.ok (), s3) ∧
        (processDeltaAndZOn (plainInit (old fs inp) r) C hd2).run s3 = (.ok (), s4) ∧
        (processPVCKKOn (plainInit (old fs inp) r) C E.cmtBytes hd2).run s4 = (.ok (), st) ∧ s4.ph2 = s3.ph2 ++ dz ∧
        Evals4 fs s3.ph2 dz s3.evals st ((initOn (namedInit inp "evals" load) C E par).run ⟨fs.set "evals" [], 0⟩).2 := by
  let T : InitSt → NamedSt → Prop := fun _ _ => True
  let P := plainInit (old fs inp) r
  let N := namedInit inp "evals" load
  have hS0 : Evals1 fs ⟨[], old fs "srs.lag", ev⟩ ⟨fs.set "evals" [], 0⟩ :=
    ⟨by simp [FS.set], rfl, old_set_ne _ _ (by decide), fun q _ q2 => set_other _ _ q2⟩
  -- the stages
  have a1 : Alike (Evals1 fs) (Evals1 fs) T (processHeaderOn P E.header) (processHeaderOn N E.header) := by
    refine processHeader_alike (fun _ _ _ => trivial) _ (fun s t h => ⟨hload t.fs h.other, fun _ => h, fun _ => trivial⟩)
      (Alike.step (fun _ _ h => h) fun s t h => by simp only [old]; rw [h.other inp h1 h2])
      fun b => Alike.step (fun s t h => ?_) (fun _ _ _ => rfl)
    have ho : old t.fs "evals" = s.ph2 := by simp [old, h.file]
    exact ⟨by simp only [set_self]; rw [ho, h.off, writeAt_end], by simp [h.off],
      by rw [← h.lag]; exact old_set_ne _ _ (by decide), fun q q1 q2 => by rw [← h.other q q1 q2]; exact set_other _ _ q2⟩
  have a2 : ∀ x y, Alike (Evals1 fs) (Evals1 fs) T (processLagrangeOn P C par E.dom x y) (processLagrangeOn N C par E.dom x y) := by
    have hset : ∀ f : Bytes → Bytes, Alike (Evals1 fs) (Evals1 fs) T ⟨fun s => (.ok (), { s with lag := f s.lag })⟩
        ⟨fun t => (.ok (), { t with fs := t.fs.set "srs.lag" (f (old t.fs "srs.lag")) })⟩ := by
      refine fun f => Alike.step (fun s t h => ?_) (fun _ _ _ => rfl)
      exact ⟨by rw [← h.file]; simp [FS.set], h.off, by rw [← h.lag]; exact old_set _ _ _,
        fun q q1 q2 => by rw [← h.other q q1 q2]; exact set_other _ _ q1⟩
    exact fun x y => processLagrange_alike (fun _ _ _ => trivial) _ _ _ _ _ (hset fun _ => [])
      (Alike.step (fun _ _ h => h) fun s t h => by simp only [old]; rw [h.other inp h1 h2]) fun b => hset (· ++ b)
  have a3 : ∀ ph2 x y, Alike (fun s t => Evals1 fs s t ∧ s.ph2 = ph2) (Evals2 fs ph2) T (processEvaluationsOn P C x y)
      (processEvaluationsOn N C x y) := by
    intro ph2 x y
    refine processEvaluations_alike (fun _ _ _ => trivial) _ _ _ (Alike.step (fun _ _ h => h) fun s t h => h.1.lag)
      (Alike.step (fun s t h => ?_) (fun _ _ _ => rfl))
      (Alike.step (fun _ _ h => h) fun s t h => by simp only [old]; rw [h.other inp h1 h2])
      (fun b => Alike.step (fun s t h => ?_) (fun _ _ _ => rfl))
      (fun s t h => ⟨hload t.fs h.other, fun _ => h, fun _ => trivial⟩)
    · exact ⟨by simp [FS.set], h.2, h.1.off, by rw [← h.1.lag]; exact old_set_ne _ _ (by decide),
        fun q q1 q2 => by rw [← h.1.other q q1 q2]; exact set_other _ _ q2⟩
    · have ho : old t.fs "evals" = s.evals := by simp [old, h.file]
      exact ⟨by simp only [set_self]; rw [ho], h.ph2, h.off, by rw [← h.lag]; exact old_set_ne _ _ (by decide),
        fun q q1 q2 => by rw [← h.other q q1 q2]; exact set_other _ _ q2⟩
  have a4 : ∀ hd ev y, Alike (Evals3 fs hd ev) (Evals3 fs hd ev) T (processDeltaAndZOn P C y) (processDeltaAndZOn N C y) := by
    intro hd ev y
    refine processDeltaAndZ_alike (fun _ _ _ => trivial) _ _
      (Alike.step (fun _ _ h => h) fun s t h => by simp only [old]; rw [h.other inp h1 h2])
      fun b => Alike.step (fun s t h => ?_) (fun _ _ _ => rfl)
    obtain ⟨dz, e1, e2⟩ := h.file
    have ho : old t.fs "evals" = writeAt ev hd.length dz := by simp [old, e2]
    exact ⟨⟨dz ++ b, by simp [e1], by simp only [set_self]; rw [ho, h.off, e1, List.length_append, writeAt_twice]⟩, h.evals,
      by simp [h.off], by rw [← h.lag]; exact old_set_ne _ _ (by decide),
      fun q q1 q2 => by rw [← h.other q q1 q2]; exact set_other _ _ q2⟩
  have a5 : ∀ hd dz ev y, Alike (fun s t => Evals3 fs hd ev s t ∧ s.ph2 = hd ++ dz) (Evals4 fs hd dz ev) T
      (processPVCKKOn P C E.cmtBytes y) (processPVCKKOn N C E.cmtBytes y) := by
    intro hd dz ev y
    refine processPVCKK_alike (fun _ _ _ => trivial) _ _ _ (fun s t h => ⟨hload t.fs h.1.other, fun _ => h, fun _ => trivial⟩)
      (Alike.step (fun _ _ h => h) fun s t h => h.1.lag) fun a b c d s t h => ?_
    obtain ⟨t', e, h'⟩ := finish_evals h.1 h.2 a b c d
    change ((NamedSt.finish "evals" a b c d).run t).1 = _ ∧ _
    refine ⟨by rw [e]; rfl, fun _ => ?_, fun _ => trivial⟩
    change Evals4 _ _ _ _ _ ((NamedSt.finish "evals" a b c d).run t).2
    rw [e]
    exact h'
  have c2 : ∀ ph2 s t, Evals2 fs ph2 s t → Evals3 fs s.ph2 s.evals s t := fun ph2 s t h =>
    ⟨⟨[], by simp, by rw [h.file]; simp [writeAt]⟩, rfl, h.off, h.lag, h.other⟩
  have all : Alike (Evals1 fs) (fun _ _ => True) T (initOn P C E par) (initOn N C E par) := by
    unfold initOn
    refine a1.bind fun x => (a2 x.1 x.2).bind fun _ => Alike.bind (S := fun s t => ∃ hd ev, Evals3 fs hd ev s t) ?_ fun _ =>
      Alike.bind (S := fun s t => ∃ hd ev, Evals3 fs hd ev s t) ?_ fun _ => ?_
    · intro s t h
      obtain ⟨g1, g2, g3⟩ := a3 s.ph2 x.1 x.2 s t ⟨h, rfl⟩
      exact ⟨g1, fun ha => ⟨_, _, c2 _ _ _ (g2 ha)⟩, g3⟩
    · rintro s t ⟨hd, ev, h⟩
      obtain ⟨g1, g2, g3⟩ := a4 hd ev x.2 s t h
      exact ⟨g1, fun ha => ⟨_, _, g2 ha⟩, g3⟩
    · rintro s t ⟨hd, ev, h⟩
      obtain ⟨dz, e, _⟩ := h.file
      obtain ⟨g1, g2, g3⟩ := a5 hd dz ev x.2 s t ⟨h, e⟩
      exact ⟨g1, fun _ => trivial, g3⟩
  refine ⟨(all _ _ hS0).1, fun st hst => ?_⟩
  unfold initOn at hst
  obtain ⟨⟨x, y⟩, s1, r1, hst⟩ := Go.bind_eq_ok hst
  obtain ⟨_, s2, r2, hst⟩ := Go.bind_eq_ok hst
  obtain ⟨_, s3, r3, hst⟩ := Go.bind_eq_ok hst
  obtain ⟨_, s4, r4, r5⟩ := Go.bind_eq_ok hst
  have b1 := a1 _ _ hS0
  rw [show (processHeaderOn P E.header).run _ = _ from r1] at b1
  rcases n1 : (processHeaderOn N E.header).run ⟨fs.set "evals" [], 0⟩ with ⟨y1, t1⟩
  rw [n1] at b1
  obtain ⟨rfl, g1, -⟩ := b1
  have b2 := a2 x y _ _ (g1 ⟨_, rfl⟩)
  rw [show (processLagrangeOn P C par E.dom x y).run _ = _ from r2] at b2
  rcases n2 : (processLagrangeOn N C par E.dom x y).run t1 with ⟨y2, t2⟩
  rw [n2] at b2
  obtain ⟨rfl, g2, -⟩ := b2
  have b3 := a3 s2.ph2 x y _ _ ⟨g2 ⟨_, rfl⟩, rfl⟩
  rw [show (processEvaluationsOn P C x y).run _ = _ from r3] at b3
  rcases n3 : (processEvaluationsOn N C x y).run t2 with ⟨y3, t3⟩
  rw [n3] at b3
  obtain ⟨rfl, g3, -⟩ := b3
  have b4 := a4 s3.ph2 s3.evals y _ _ (c2 _ _ _ (g3 ⟨_, rfl⟩))
  rw [show (processDeltaAndZOn P C y).run _ = _ from r4] at b4
  rcases n4 : (processDeltaAndZOn N C y).run t3 with ⟨y4, t4⟩
  rw [n4] at b4
  obtain ⟨rfl, g4, -⟩ := b4
  obtain ⟨dz, e, _⟩ := (g4 ⟨_, rfl⟩).file
  have b5 := a5 s3.ph2 dz s3.evals y _ _ ⟨g4 ⟨_, rfl⟩, e⟩
  rw [show (processPVCKKOn P C E.cmtBytes y).run _ = _ from r5] at b5
  rcases n5 : (processPVCKKOn N C E.cmtBytes y).run t4 with ⟨y5, t5⟩
  rw [n5] at b5
  obtain ⟨rfl, g5, -⟩ := b5
  refine ⟨x, y, s1, s2, s3, s4, dz, r1, r2, r3, r4, r5, e, ?_⟩
  have hN : (initOn N C E par).run ⟨fs.set "evals" [], 0⟩ = (.ok (), t5) := by
    unfold initOn
    rw [Go.bind_ok n1, Go.bind_ok n2, Go.bind_ok n3, Go.bind_ok n4]
    exact n5
  change Evals4 fs s3.ph2 dz s3.evals st ((initOn N C E par).run ⟨fs.set "evals" [], 0⟩).2
  rw [hN]
  exact g5 ⟨_, rfl⟩

end
end ZkSetup
