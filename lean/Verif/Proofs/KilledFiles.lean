import Verif.Proofs.Killed
/-
A run that is killed compared with the complete run: what there is of `srs.lag` and `evals`.
-/
set_option linter.unusedSectionVars false

namespace ZkSetup.Proofs

open Phase2 Cli

/-- The two programs, where the complete one succeeds: they do the same, or the second is killed in a state that has to do with the states
before and after as `R` says. The complete one keeps to `Q`. -/
def Torn {α : Type} (Q : FS → FS → Prop) (R : FS → FS → FS → Prop) (x : Go NamedSt α) (y : Go KilledSt α) : Prop :=
  ∀ s n m a s', x.run s = (.ok a, s') → Q s.fs s'.fs ∧
    ((∃ n', y.run ⟨s, n, m⟩ = (.ok a, ⟨s', n', m⟩)) ∨ ∃ t, y.run ⟨s, n, m⟩ = (.error killed, t) ∧ R s.fs t.st.fs s'.fs)

theorem Torn.bind {α β : Type} {Q1 Q2 Q : FS → FS → Prop} {R1 R2 R : FS → FS → FS → Prop} {x : Go NamedSt α} {y : Go KilledSt α}
    {f : α → Go NamedSt β} {g : α → Go KilledSt β} (h : Torn Q1 R1 x y) (hf : ∀ a, Torn Q2 R2 (f a) (g a))
    (hQ : ∀ a b c, Q1 a b → Q2 b c → Q a c) (hR1 : ∀ a t b c, R1 a t b → Q2 b c → R a t c) (hR2 : ∀ a b t c, Q1 a b → R2 b t c → R a t c) :
    Torn Q R (x >>= f) (y >>= g) := by
  intro s n m b s' hr
  obtain ⟨a, s1, hx, hfx⟩ := Go.bind_eq_ok hr
  obtain ⟨q1, h1⟩ := h s n m a s1 hx
  rcases h1 with ⟨n', hy⟩ | ⟨t, hy, r1⟩
  · obtain ⟨q2, h2⟩ := hf a s1 n' m b s' hfx
    refine ⟨hQ _ _ _ q1 q2, ?_⟩
    rw [Go.bind_ok hy]
    rcases h2 with h2 | ⟨t, h2, r2⟩
    · exact Or.inl h2
    · exact Or.inr ⟨t, h2, hR2 _ _ _ _ q1 r2⟩
  · obtain ⟨q2, -⟩ := hf a s1 n m b s' hfx
    exact ⟨hQ _ _ _ q1 q2, Or.inr ⟨t, Go.bind_error hy, hR1 _ _ _ _ r1 q2⟩⟩

/-- the file `p` is left alone -/
def Spares {α : Type} (p : String) : Go NamedSt α → Go KilledSt α → Prop :=
  Torn (fun a b => b p = a p) (fun a t b => t p = a p ∧ b p = a p)

/-- the file `p` is added to -/
def Grows {α : Type} (p : String) : Go NamedSt α → Go KilledSt α → Prop :=
  Torn (fun a b => ∃ e, old b p = old a p ++ e) (fun _ t b => ∃ e, old b p = old t p ++ e)

/-- the file `p` is written anew -/
def Anew {α : Type} (p : String) : Go NamedSt α → Go KilledSt α → Prop :=
  Torn (fun _ _ => True) (fun a t b => t p = a p ∨ ∃ e, old b p = old t p ++ e)

section
variable {α β : Type} {p : String} {x : Go NamedSt α} {y : Go KilledSt α} {f : α → Go NamedSt β} {g : α → Go KilledSt β}

theorem Spares.grows (h : Spares p x y) : Grows p x y := by
  intro s n m a s' hr
  obtain ⟨q, h⟩ := h s n m a s' hr
  refine ⟨⟨[], by simp [old, q]⟩, ?_⟩
  rcases h with h | ⟨t, h, r1, r2⟩
  · exact Or.inl h
  · exact Or.inr ⟨t, h, [], by simp [old, r1, r2]⟩

theorem Spares.bind (h : Spares p x y) (hf : ∀ a, Spares p (f a) (g a)) : Spares p (x >>= f) (y >>= g) :=
  Torn.bind h hf (fun _ _ _ e1 e2 => e2.trans e1) (fun _ _ _ _ e1 e2 => ⟨e1.1, e2.trans e1.2⟩) fun _ _ _ _ e1 e2 => ⟨e2.1.trans e1, e2.2.trans e1⟩

theorem Grows.bind (h : Grows p x y) (hf : ∀ a, Grows p (f a) (g a)) : Grows p (x >>= f) (y >>= g) :=
  Torn.bind h hf (fun _ _ _ ⟨b, e1⟩ ⟨c, e2⟩ => ⟨b ++ c, by rw [e2, e1, List.append_assoc]⟩)
    (fun _ _ _ _ ⟨b, e1⟩ ⟨c, e2⟩ => ⟨b ++ c, by rw [e2, e1, List.append_assoc]⟩) fun _ _ _ _ _ e2 => e2

theorem Spares.bind_anew (h : Spares p x y) (hf : ∀ a, Anew p (f a) (g a)) : Anew p (x >>= f) (y >>= g) :=
  Torn.bind h hf (fun _ _ _ _ _ => trivial) (fun _ _ _ _ e1 _ => Or.inl e1.1) fun _ _ _ _ e1 e2 => e2.imp (fun e => e.trans e1) id

theorem Anew.bind (h : Anew p x y) (hf : ∀ a, Grows p (f a) (g a)) : Anew p (x >>= f) (y >>= g) :=
  Torn.bind h hf (fun _ _ _ _ _ => trivial)
    (fun _ _ _ _ e1 ⟨c, e2⟩ => e1.imp id fun ⟨b, e1⟩ => ⟨b ++ c, by rw [e2, e1, List.append_assoc]⟩) fun _ _ _ _ _ e2 => Or.inr e2

theorem Spares.lift (r : Except Fail α) : Spares p (Go.lift r) (Go.lift r) := by
  intro s n m a s' hr
  simp only [Go.lift_run, Prod.mk.injEq] at hr ⊢
  obtain ⟨rfl, rfl⟩ := hr
  exact ⟨rfl, Or.inl ⟨n, rfl, rfl⟩⟩

theorem Spares.look {op : Go NamedSt α} (h : ∀ s, (op.run s).2 = s) : Spares p op (KilledSt.look op) := by
  intro s n m a s' hr
  have e := h s
  rw [hr] at e
  simp only at e
  subst e
  exact ⟨rfl, Or.inl ⟨n, by simp [KilledSt.look, hr]⟩⟩

theorem Spares.act {op : Go NamedSt Unit} {torn : Nat → Go NamedSt Unit} (h1 : ∀ s, (op.run s).1 = .ok ()) (h2 : ∀ s, (op.run s).2.fs p = s.fs p)
    (h3 : ∀ k s, ((torn k).run s).2.fs p = s.fs p) : Spares p op (KilledSt.act op torn) := by
  intro s n m a s' hr
  have e2 := h2 s
  rw [hr] at e2
  refine ⟨e2, ?_⟩
  cases n with
  | zero => exact Or.inr ⟨_, rfl, h3 _ _, e2⟩
  | succ n => exact Or.inl ⟨n, by simp [KilledSt.act, hr]⟩

theorem Spares.emitPh2 {out : String} (h : p ≠ out) (b : Bytes) : Spares p (NamedSt.emitPh2 out b) (KilledSt.emitPh2 out b) :=
  Spares.act (fun _ => rfl) (fun _ => set_other _ _ h) fun _ _ => set_other _ _ h

theorem Spares.append {r : String} (h : p ≠ r) (b : Bytes) : Spares p (NamedSt.append r b) (KilledSt.append r b) :=
  Spares.act (fun _ => rfl) (fun _ => set_other _ _ h) fun _ _ => set_other _ _ h

theorem Spares.create {r : String} (h : p ≠ r) : Spares p (NamedSt.create r) (KilledSt.create r) :=
  Spares.act (fun _ => rfl) (fun _ => set_other _ _ h) fun _ _ => rfl

theorem Grows.append (b : Bytes) : Grows p (NamedSt.append p b) (KilledSt.append p b) := by
  intro s n m a s' hr
  simp only [NamedSt.append, Prod.mk.injEq, true_and] at hr
  subst hr
  refine ⟨⟨b, by simp only [old_set]⟩, ?_⟩
  cases n with
  | zero => exact Or.inr ⟨_, rfl, b.drop m, by simp [NamedSt.append, old_set, List.append_assoc]⟩
  | succ n => exact Or.inl ⟨n, rfl⟩

theorem Anew.create : Anew p (NamedSt.create p) (KilledSt.create p) := by
  intro s n m a s' hr
  simp only [NamedSt.create, Prod.mk.injEq, true_and] at hr
  subst hr
  refine ⟨trivial, ?_⟩
  cases n with
  | zero => exact Or.inr ⟨_, rfl, Or.inl rfl⟩
  | succ n => exact Or.inl ⟨n, rfl⟩

end

section
variable {F G1 G2 GT : Type} [Field F] [AddCommGroup G1] [Module F G1] [AddCommGroup G2]
  [Module F G2] [AddCommGroup GT] [Module F GT] {inp out p : String} {load : FS → Except Fail (Loaded F G1 G2)}

theorem header_spares (hp : p ≠ out) (H : HeaderCodec) :
    Spares p (processHeaderOn (namedInit inp out load) H) (processHeaderOn (killedInit inp out load) H) := by
  have a5 : Spares p (namedInit inp out load).load (killedInit inp out load).load := Spares.look fun _ => rfl
  have a4 : ∀ q, Spares p (NamedSt.contents q) (KilledSt.look (NamedSt.contents q)) := fun q => Spares.look fun _ => rfl
  unfold processHeaderOn
  exact a5.bind fun _ => (Spares.lift _).bind fun _ => (a4 _).bind fun _ => (Spares.lift _).bind fun _ => (Spares.lift _).bind fun _ =>
    (Spares.emitPh2 hp _).bind fun _ => Spares.lift (.ok _)

variable (C : Curve F G1 G2 GT)

theorem lagrange_spares (hp : p ≠ "srs.lag") (par : Par) (dom : Nat → Lagrange.Domain F) (h1 : Phase1.Header) (h2 : Header) :
    Spares p (processLagrangeOn (namedInit inp out load) C par dom h1 h2) (processLagrangeOn (killedInit inp out load) C par dom h1 h2) := by
  have a4 : ∀ q, Spares p (NamedSt.contents q) (KilledSt.look (NamedSt.contents q)) := fun q => Spares.look fun _ => rfl
  have a3 : ∀ b, Spares p (NamedSt.append "srs.lag" b) (KilledSt.append "srs.lag" b) := fun b => Spares.append hp b
  unfold processLagrangeOn
  exact (Spares.create hp).bind fun _ => (a4 _).bind fun _ => (Spares.lift _).bind fun _ => (a3 _).bind fun _ => (a4 _).bind fun _ =>
    (Spares.lift _).bind fun _ => (a3 _).bind fun _ => (a4 _).bind fun _ => (Spares.lift _).bind fun _ => (a3 _).bind fun _ =>
    (a4 _).bind fun _ => (Spares.lift _).bind fun _ => a3 _

theorem lagrange_anew (par : Par) (dom : Nat → Lagrange.Domain F) (h1 : Phase1.Header) (h2 : Header) :
    Anew "srs.lag" (processLagrangeOn (namedInit inp out load) C par dom h1 h2) (processLagrangeOn (killedInit inp out load) C par dom h1 h2) := by
  have a4 : ∀ q, Grows "srs.lag" (NamedSt.contents q) (KilledSt.look (NamedSt.contents q)) := fun q => (Spares.look fun _ => rfl).grows
  have a3 : ∀ b, Grows "srs.lag" (NamedSt.append "srs.lag" b) (KilledSt.append "srs.lag" b) := fun b => Grows.append b
  have l : ∀ {α : Type} (r : Except Fail α), Grows "srs.lag" (Go.lift r) (Go.lift r) := fun r => (Spares.lift r).grows
  unfold processLagrangeOn
  exact Anew.create.bind fun _ => (a4 _).bind fun _ => (l _).bind fun _ => (a3 _).bind fun _ => (a4 _).bind fun _ =>
    (l _).bind fun _ => (a3 _).bind fun _ => (a4 _).bind fun _ => (l _).bind fun _ => (a3 _).bind fun _ =>
    (a4 _).bind fun _ => (l _).bind fun _ => a3 _

theorem evaluations_spares (hp : p ≠ "evals") (h1 : Phase1.Header) (h2 : Header) :
    Spares p (processEvaluationsOn (namedInit inp out load) C h1 h2) (processEvaluationsOn (killedInit inp out load) C h1 h2) := by
  have a5 : Spares p (namedInit inp out load).load (killedInit inp out load).load := Spares.look fun _ => rfl
  have a4 : ∀ q, Spares p (NamedSt.contents q) (KilledSt.look (NamedSt.contents q)) := fun q => Spares.look fun _ => rfl
  have a3 : ∀ b, Spares p (NamedSt.append "evals" b) (KilledSt.append "evals" b) := fun b => Spares.append hp b
  have l : ∀ {α : Type} (r : Except Fail α), Spares p (Go.lift r) (Go.lift r) := fun r => Spares.lift r
  unfold processEvaluationsOn
  exact (a4 _).bind fun _ => (Spares.create hp).bind fun _ => (a4 _).bind fun _ => (l _).bind fun _ => (a3 _).bind fun _ =>
    (a3 _).bind fun _ => (a3 _).bind fun _ => a5.bind fun _ => (l _).bind fun _ => (l _).bind fun _ =>
    (l _).bind fun _ => (a3 _).bind fun _ => (l _).bind fun _ => (a3 _).bind fun _ => (l _).bind fun _ =>
    (l _).bind fun _ => a3 _

theorem evaluations_anew (h1 : Phase1.Header) (h2 : Header) :
    Anew "evals" (processEvaluationsOn (namedInit inp out load) C h1 h2) (processEvaluationsOn (killedInit inp out load) C h1 h2) := by
  have a5 : Grows "evals" (namedInit inp out load).load (killedInit inp out load).load := (Spares.look fun _ => rfl).grows
  have a0 : ∀ q, Spares "evals" (NamedSt.contents q) (KilledSt.look (NamedSt.contents q)) := fun q => Spares.look fun _ => rfl
  have a4 := fun q => (a0 q).grows
  have a3 : ∀ b, Grows "evals" (NamedSt.append "evals" b) (KilledSt.append "evals" b) := fun b => Grows.append b
  have l : ∀ {α : Type} (r : Except Fail α), Grows "evals" (Go.lift r) (Go.lift r) := fun r => (Spares.lift r).grows
  unfold processEvaluationsOn
  exact (a0 _).bind_anew fun _ => Anew.create.bind fun _ => (a4 _).bind fun _ => (l _).bind fun _ => (a3 _).bind fun _ =>
    (a3 _).bind fun _ => (a3 _).bind fun _ => a5.bind fun _ => (l _).bind fun _ => (l _).bind fun _ =>
    (l _).bind fun _ => (a3 _).bind fun _ => (l _).bind fun _ => (a3 _).bind fun _ => (l _).bind fun _ =>
    (l _).bind fun _ => a3 _

theorem deltaZ_spares (hp : p ≠ out) (h2 : Header) :
    Spares p (processDeltaAndZOn (namedInit inp out load) C h2) (processDeltaAndZOn (killedInit inp out load) C h2) := by
  have a4 : ∀ q, Spares p (NamedSt.contents q) (KilledSt.look (NamedSt.contents q)) := fun q => Spares.look fun _ => rfl
  have a1 : ∀ b, Spares p (NamedSt.emitPh2 out b) (KilledSt.emitPh2 out b) := fun b => Spares.emitPh2 hp b
  unfold processDeltaAndZOn
  exact (a4 _).bind fun _ => (a1 _).bind fun _ => (a1 _).bind fun _ => (Spares.lift _).bind fun _ => (Spares.lift _).bind fun _ => a1 _

theorem pvckk_grows (hp : p ≠ out) (ha : ∀ b, Grows p (NamedSt.append "evals" b) (KilledSt.append "evals" b)) (cmt : Commitment → Bytes)
    (h2 : Header) : Grows p (processPVCKKOn (namedInit inp out load) C cmt h2) (processPVCKKOn (killedInit inp out load) C cmt h2) := by
  have a5 : Grows p (namedInit inp out load).load (killedInit inp out load).load := (Spares.look fun _ => rfl).grows
  have a4 : ∀ q, Grows p (NamedSt.contents q) (KilledSt.look (NamedSt.contents q)) := fun q => (Spares.look fun _ => rfl).grows
  have a1 : ∀ b, Grows p (NamedSt.emitPh2 out b) (KilledSt.emitPh2 out b) := fun b => (Spares.emitPh2 hp b).grows
  have l : ∀ {α : Type} (r : Except Fail α), Grows p (Go.lift r) (Go.lift r) := fun r => (Spares.lift r).grows
  unfold processPVCKKOn
  exact a5.bind fun _ => (a4 _).bind fun _ => (l _).bind fun _ => (l _).bind fun _ => (l _).bind fun _ =>
    (l _).bind fun _ => (l _).bind fun _ => (l _).bind fun _ =>
    (a1 _).bind fun _ => (ha _).bind fun _ => (ha _).bind fun _ => (ha _).bind fun _ => a1 _

theorem killedInit_lag (hp : "srs.lag" ≠ out) (E : InitEnv F) (par : Par) :
    Anew "srs.lag" (initOn (namedInit inp out load) C E par) (initOn (killedInit inp out load) C E par) := by
  unfold initOn
  refine Spares.bind_anew (header_spares hp _) fun h => ?_
  refine Anew.bind (lagrange_anew C par E.dom h.1 h.2) fun _ => ?_
  refine Grows.bind (evaluations_spares C (by decide) h.1 h.2).grows fun _ => ?_
  refine Grows.bind (deltaZ_spares C hp h.2).grows fun _ => ?_
  exact pvckk_grows C hp (fun b => (Spares.append (by decide) b).grows) E.cmtBytes h.2

theorem killedInit_evals (hp : "evals" ≠ out) (E : InitEnv F) (par : Par) :
    Anew "evals" (initOn (namedInit inp out load) C E par) (initOn (killedInit inp out load) C E par) := by
  unfold initOn
  refine Spares.bind_anew (header_spares hp _) fun h => ?_
  refine Spares.bind_anew (lagrange_spares C (by decide) par E.dom h.1 h.2) fun _ => ?_
  refine Anew.bind (evaluations_anew C h.1 h.2) fun _ => ?_
  refine Grows.bind (deltaZ_spares C hp h.2).grows fun _ => ?_
  exact pvckk_grows C hp (fun b => Grows.append b) E.cmtBytes h.2

end
end ZkSetup.Proofs
