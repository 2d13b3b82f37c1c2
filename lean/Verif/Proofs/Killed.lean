import Verif.Model.Killed
import Verif.Proofs.AliasInit
import Verif.Proofs.InitRun
/-
A run that is killed compared with the complete run: of the phase 2 file there is a beginning of what there will be.
-/
set_option linter.unusedSectionVars false

namespace ZkSetup.Proofs

open Phase2 Cli
open Phase1 (makeLen goPow2)

/-- the position of the phase 2 file's handle is the end of the file -/
def AtEnd (out : String) (s : NamedSt) : Prop := s.off = (old s.fs out).length

/-- A program `x` and the program `y` that may be killed: where `x` succeeds, it adds to the phase 2 file (if `last`, at least a byte), and
`y` does the same or has been killed and has written a part of it (if `last`, not all of it, unless all is done). -/
def Cut {α : Type} (out : String) (last : Prop) (x : Go NamedSt α) (y : Go KilledSt α) : Prop :=
  ∀ s n m a s', AtEnd out s → x.run s = (.ok a, s') →
    AtEnd out s' ∧ (∃ b, old s'.fs out = old s.fs out ++ b ∧ (last → b ≠ [])) ∧
    ((∃ n', y.run ⟨s, n, m⟩ = (.ok a, ⟨s', n', m⟩)) ∨
      ∃ t, y.run ⟨s, n, m⟩ = (.error killed, t) ∧ ∃ b, old s'.fs out = old t.st.fs out ++ b ∧ (last → b ≠ [] ∨ t.st = s'))

namespace Cut
variable {α β : Type} {out : String} {last : Prop}

theorem bind_of {x : Go NamedSt α} {y : Go KilledSt α} {f : α → Go NamedSt β} {g : α → Go KilledSt β} (h : Cut out False x y)
    (hf : ∀ a, (∃ s s', x.run s = (.ok a, s')) → Cut out last (f a) (g a)) : Cut out last (x >>= f) (y >>= g) := by
  intro s n m b s' hs hr
  obtain ⟨a, s1, hx, hfx⟩ := Go.bind_eq_ok hr
  obtain ⟨h1, ⟨b1, e1, -⟩, h3⟩ := h s n m a s1 hs hx
  rcases h3 with ⟨n', hy⟩ | ⟨t, hy, b2, e2, -⟩
  · obtain ⟨k1, ⟨b3, e3, l3⟩, k3⟩ := hf a ⟨_, _, hx⟩ s1 n' m b s' h1 hfx
    refine ⟨k1, ⟨b1 ++ b3, by rw [e3, e1, List.append_assoc], fun l => by simp [l3 l]⟩, ?_⟩
    rw [Go.bind_ok hy]
    exact k3
  · obtain ⟨k1, ⟨b3, e3, l3⟩, -⟩ := hf a ⟨_, _, hx⟩ s1 n m b s' h1 hfx
    refine ⟨k1, ⟨b1 ++ b3, by rw [e3, e1, List.append_assoc], fun l => by simp [l3 l]⟩, Or.inr ⟨t, Go.bind_error hy, b2 ++ b3, ?_, ?_⟩⟩
    · rw [e3, e2, List.append_assoc]
    · exact fun l => Or.inl (by simp [l3 l])

theorem bind {x : Go NamedSt α} {y : Go KilledSt α} {f : α → Go NamedSt β} {g : α → Go KilledSt β} (h : Cut out False x y)
    (hf : ∀ a, Cut out last (f a) (g a)) : Cut out last (x >>= f) (y >>= g) := h.bind_of fun a _ => hf a

theorem lift (r : Except Fail α) : Cut out False (Go.lift r) (Go.lift r) := by
  intro s n m a s' hs hr
  simp only [Go.lift_run, Prod.mk.injEq] at hr ⊢
  obtain ⟨rfl, rfl⟩ := hr
  exact ⟨hs, ⟨[], by simp⟩, Or.inl ⟨n, rfl, rfl⟩⟩

theorem pure (a : α) : Cut out False (Pure.pure a) (Pure.pure a) := lift (.ok a)

theorem look {op : Go NamedSt α} (h : ∀ s, (op.run s).2 = s) : Cut out False op (KilledSt.look op) := by
  intro s n m a s' hs hr
  have e := h s
  rw [hr] at e
  simp only at e
  subst e
  exact ⟨hs, ⟨[], by simp⟩, Or.inl ⟨n, by simp [KilledSt.look, hr]⟩⟩

theorem other {path : String} (h : path ≠ out) (f : Bytes → Bytes) (torn : Nat → Go NamedSt Unit)
    (ht : ∀ k s, old ((torn k).run s).2.fs out = old s.fs out) :
    Cut out False ⟨fun s => (.ok (), { s with fs := s.fs.set path (f (old s.fs path)) })⟩
      (KilledSt.act ⟨fun s => (.ok (), { s with fs := s.fs.set path (f (old s.fs path)) })⟩ torn) := by
  intro s n m a s' hs hr
  simp only [Prod.mk.injEq, true_and] at hr
  subst hr
  have e : old (s.fs.set path (f (old s.fs path))) out = old s.fs out := old_set_ne _ _ (Ne.symm h)
  refine ⟨?_, ⟨[], by simp [e]⟩, ?_⟩
  · unfold AtEnd
    rw [e]
    exact hs
  · cases n with
    | zero => exact Or.inr ⟨_, rfl, [], by simp only [e, ht, List.append_nil], fun h => h.elim⟩
    | succ n => exact Or.inl ⟨n, rfl⟩

theorem append {path : String} (h : path ≠ out) (bs : Bytes) : Cut out False (NamedSt.append path bs) (KilledSt.append path bs) :=
  other h (· ++ bs) _ fun _ _ => old_set_ne _ _ (Ne.symm h)

theorem create {path : String} (h : path ≠ out) : Cut out False (NamedSt.create path) (KilledSt.create path) :=
  other h (fun _ => []) _ fun _ _ => rfl

theorem emit_end {out : String} {s : NamedSt} (hs : AtEnd out s) (bs : Bytes) :
    (NamedSt.emitPh2 out bs).run s = (.ok (), ⟨s.fs.set out (old s.fs out ++ bs), s.off + bs.length⟩) := by
  simp only [NamedSt.emitPh2]
  rw [show s.off = _ from hs, writeAt_end]

theorem emitPh2 (bs : Bytes) (hb : last → bs ≠ []) : Cut out last (NamedSt.emitPh2 out bs) (KilledSt.emitPh2 out bs) := by
  intro s n m a s' hs hr
  rw [emit_end hs] at hr
  simp only [Prod.mk.injEq, true_and] at hr
  subst hr
  refine ⟨?_, ⟨bs, by simp only [old_set], hb⟩, ?_⟩
  · unfold AtEnd
    simp only [old_set, List.length_append]
    rw [show s.off = _ from hs]
  · cases n with
    | zero =>
      refine Or.inr ⟨_, rfl, bs.drop m, ?_, fun l => ?_⟩
      · simp only [emit_end hs, old_set, List.append_assoc, List.take_append_drop]
      · simp only [emit_end hs]
        by_cases hm : bs.length ≤ m
        · exact Or.inr (by rw [List.take_of_length_le hm])
        · exact Or.inl (by simpa using hm)
    | succ n =>
      refine Or.inl ⟨n, ?_⟩
      simp only [KilledSt.emitPh2, KilledSt.act, emit_end hs]

theorem tail_ne {a : Bytes} (ha : a ≠ []) : a.drop (Keys.passedOn a).length ≠ [] := by
  have : 0 < a.length := List.length_pos_iff.mpr ha
  simp only [Keys.passedOn, List.length_take, ne_eq, List.drop_eq_nil_iff, not_le]
  omega

theorem finish (h2 : out ≠ "evals") (a b c d : Bytes) (ha : last → a ≠ []) :
    Cut out last (NamedSt.finish out a b c d) (KilledSt.finish out a b c d) := by
  unfold NamedSt.finish KilledSt.finish
  exact (emitPh2 _ (fun h => h.elim)).bind fun _ => (append h2.symm _).bind fun _ => (append h2.symm _).bind fun _ =>
    (append h2.symm _).bind fun _ => emitPh2 _ fun l => tail_ne (ha l)

end Cut

section
variable {F G1 G2 GT : Type} [Field F] [AddCommGroup G1] [Module F G1] [AddCommGroup G2]
  [Module F G2] [AddCommGroup GT] [Module F GT] {inp out : String} {load : FS → Except Fail (Loaded F G1 G2)}

theorem load_cut : Cut out False (namedInit inp out load).load (killedInit inp out load).load := Cut.look fun _ => rfl

theorem ph1_cut : Cut out False (namedInit inp out load).ph1 (killedInit inp out load).ph1 := Cut.look fun _ => rfl

theorem lag_cut : Cut out False (namedInit inp out load).openLag (killedInit inp out load).openLag := Cut.look fun _ => rfl

theorem ph2_cut (b : Bytes) : Cut out False ((namedInit inp out load).emitPh2 b) ((killedInit inp out load).emitPh2 b) :=
  Cut.emitPh2 _ fun h => h.elim

theorem processHeader_cut (H : HeaderCodec) :
    Cut out False (processHeaderOn (namedInit inp out load) H) (processHeaderOn (killedInit inp out load) H) := by
  unfold processHeaderOn
  exact load_cut.bind fun _ => (Cut.lift _).bind fun _ => ph1_cut.bind fun _ => (Cut.lift _).bind fun _ =>
    (Cut.lift _).bind fun _ => (ph2_cut _).bind fun _ => Cut.pure _

theorem processLagrange_cut (h1 : out ≠ "srs.lag") (C : Curve F G1 G2 GT) (par : Par) (dom : Nat → Lagrange.Domain F)
    (hd1 : Phase1.Header) (hd2 : Header) :
    Cut out False (processLagrangeOn (namedInit inp out load) C par dom hd1 hd2) (processLagrangeOn (killedInit inp out load) C par dom hd1 hd2) := by
  have e : ∀ b, Cut out False ((namedInit inp out load).emitLag b) ((killedInit inp out load).emitLag b) := fun b => Cut.append h1.symm b
  have c : Cut out False (namedInit inp out load).createLag (killedInit inp out load).createLag := Cut.create h1.symm
  unfold processLagrangeOn
  exact c.bind fun _ => ph1_cut.bind fun _ => (Cut.lift _).bind fun _ => (e _).bind fun _ => ph1_cut.bind fun _ => (Cut.lift _).bind fun _ =>
    (e _).bind fun _ => ph1_cut.bind fun _ => (Cut.lift _).bind fun _ => (e _).bind fun _ => ph1_cut.bind fun _ =>
    (Cut.lift _).bind fun _ => e _

theorem processEvaluations_cut (h2 : out ≠ "evals") (C : Curve F G1 G2 GT) (hd1 : Phase1.Header) (hd2 : Header) :
    Cut out False (processEvaluationsOn (namedInit inp out load) C hd1 hd2) (processEvaluationsOn (killedInit inp out load) C hd1 hd2) := by
  have e : ∀ b, Cut out False ((namedInit inp out load).emitEvals b) ((killedInit inp out load).emitEvals b) := fun b => Cut.append h2.symm b
  have c : Cut out False (namedInit inp out load).createEvals (killedInit inp out load).createEvals := Cut.create h2.symm
  unfold processEvaluationsOn
  exact lag_cut.bind fun _ => c.bind fun _ => ph1_cut.bind fun _ => (Cut.lift _).bind fun _ => (e _).bind fun _ => (e _).bind fun _ =>
    (e _).bind fun _ => load_cut.bind fun _ => (Cut.lift _).bind fun _ => (Cut.lift _).bind fun _ => (Cut.lift _).bind fun _ =>
    (e _).bind fun _ => (Cut.lift _).bind fun _ => (e _).bind fun _ => (Cut.lift _).bind fun _ => (Cut.lift _).bind fun _ => e _

theorem processDeltaAndZ_cut (C : Curve F G1 G2 GT) (hd2 : Header) :
    Cut out False (processDeltaAndZOn (namedInit inp out load) C hd2) (processDeltaAndZOn (killedInit inp out load) C hd2) := by
  unfold processDeltaAndZOn
  exact ph1_cut.bind fun _ => (ph2_cut _).bind fun _ => (ph2_cut _).bind fun _ => (Cut.lift _).bind fun _ => (Cut.lift _).bind fun _ => ph2_cut _

theorem processPVCKK_cut (h2 : out ≠ "evals") (C : Curve F G1 G2 GT) (hC : C.c1.Lawful)
    (cb : Commitment → Bytes) (hd2 : Header) :
    Cut out (0 < hd2.witness) (processPVCKKOn (namedInit inp out load) C cb hd2) (processPVCKKOn (killedInit inp out load) C cb hd2) := by
  unfold processPVCKKOn
  refine load_cut.bind fun r => lag_cut.bind fun _ => (Cut.lift _).bind fun _ => (Cut.lift _).bind fun _ => (Cut.lift _).bind fun _ =>
    (Cut.lift _).bind fun _ => (Cut.lift _).bind fun _ => (Cut.lift _).bind_of fun x hx => Cut.finish h2 _ _ _ _ fun hw => ?_
  obtain ⟨s, s', hx⟩ := hx
  simp only [Go.lift_run, Prod.mk.injEq] at hx
  obtain ⟨pkk, vkk, ckk⟩ := x
  have h := (filterL_lengths hx.1).1
  have hs := hC.size_pos
  have hl := Codec.encodeN_length hC pkk
  intro he
  rw [show C.c1.encodeN pkk = [] from he] at hl
  have : pkk.length ≠ 0 := by omega
  have := Nat.mul_pos hs (Nat.pos_of_ne_zero this)
  simp only [List.length_nil] at hl
  omega

/-- the header that is written is the one of the constraint system that is read first -/
theorem processHeader_of {H : HeaderCodec} {s s' : NamedSt} {hd1 : Phase1.Header} {hd2 : Header}
    (h : (processHeaderOn (namedInit (F := F) (G1 := G1) (G2 := G2) inp out load) H).run s = (.ok (hd1, hd2), s')) :
    ∃ l d, load s.fs = .ok l ∧ hd2 = circuitHeader l.base l.nb d := by
  unfold processHeaderOn at h
  obtain ⟨l, s1, h1, h⟩ := Go.bind_eq_ok h
  obtain ⟨d, s2, h2, h⟩ := Go.bind_eq_ok h
  obtain ⟨f, s3, h3, h⟩ := Go.bind_eq_ok h
  obtain ⟨p, s4, h4, h⟩ := Go.bind_eq_ok h
  obtain ⟨c, s5, h5, h⟩ := Go.bind_eq_ok h
  obtain ⟨u, s6, h6, h⟩ := Go.bind_eq_ok h
  simp only [Go.pure_run, Prod.mk.injEq, Except.ok.injEq] at h
  simp only [namedInit, Prod.mk.injEq] at h1
  exact ⟨l, d, h1.1, h.1.2.symm⟩

/-- The run of the initialisation that is killed, compared with a complete run that succeeds. -/
theorem init_cut (h1 : out ≠ "srs.lag") (h2 : out ≠ "evals") (C : Curve F G1 G2 GT) (hC : C.c1.Lawful) (E : InitEnv F) (par : Par)
    (s s' : NamedSt) (hs : AtEnd out s) (hw : ∀ l, load s.fs = .ok l → ∀ c d, 0 < (circuitHeader l.base c d).witness)
    (h : (initOn (namedInit inp out load) C E par).run s = (.ok (), s')) (n m : Nat) :
    (∃ n', (initOn (killedInit inp out load) C E par).run ⟨s, n, m⟩ = (.ok (), ⟨s', n', m⟩)) ∨
      ∃ t, (initOn (killedInit inp out load) C E par).run ⟨s, n, m⟩ = (.error killed, t) ∧
        ∃ b, old s'.fs out = old t.st.fs out ++ b ∧ (b ≠ [] ∨ t.st = s') := by
  unfold initOn at h ⊢
  obtain ⟨⟨hd1, hd2⟩, s1, e1, h⟩ := Go.bind_eq_ok h
  obtain ⟨l, d, hl, rfl⟩ := processHeader_of e1
  obtain ⟨k1, -, k3⟩ := processHeader_cut E.header s n m _ _ hs e1
  have rest := (processLagrange_cut (inp := inp) (load := load) h1 C par E.dom hd1 (circuitHeader l.base l.nb d)).bind fun _ =>
    (processEvaluations_cut (inp := inp) (load := load) h2 C hd1 (circuitHeader l.base l.nb d)).bind fun _ =>
    (processDeltaAndZ_cut (inp := inp) (load := load) C (circuitHeader l.base l.nb d)).bind fun _ =>
    processPVCKK_cut (inp := inp) (load := load) h2 C hC E.cmtBytes (circuitHeader l.base l.nb d)
  have hpos := hw l hl l.nb d
  rcases k3 with ⟨n', hy⟩ | ⟨t, hy, b, e2, -⟩
  · rw [Go.bind_ok hy]
    rcases (rest s1 n' m () s' k1 h).2.2 with h | ⟨t, ht, b, e, hb⟩
    · exact Or.inl h
    · exact Or.inr ⟨t, ht, b, e, hb hpos⟩
  · obtain ⟨-, ⟨b', e3, hb'⟩, -⟩ := rest s1 n m () s' k1 h
    refine Or.inr ⟨t, Go.bind_error hy, b ++ b', ?_, Or.inl ?_⟩
    · rw [e3, e2, List.append_assoc]
    · simp [hb' hpos]

end

/-! ### a run that is given enough operations -/

/-- `y` with a certain number of operations does what `x` does. -/
def Costs {α : Type} (x : Go NamedSt α) (y : Go KilledSt α) : Prop :=
  ∀ s, ∃ N, ∀ n m, y.run ⟨s, N + n, m⟩ = ((x.run s).1, ⟨(x.run s).2, n, m⟩)

namespace Costs
variable {α β : Type}

theorem bind {x : Go NamedSt α} {y : Go KilledSt α} {f : α → Go NamedSt β} {g : α → Go KilledSt β} (h : Costs x y)
    (hf : ∀ a, Costs (f a) (g a)) : Costs (x >>= f) (y >>= g) := by
  intro s
  obtain ⟨N, hN⟩ := h s
  rcases hx : x.run s with ⟨r, s'⟩
  rw [hx] at hN
  cases r with
  | error e => exact ⟨N, fun n m => by rw [Go.bind_error hx, Go.bind_error (hN n m)]⟩
  | ok a =>
    obtain ⟨M, hM⟩ := hf a s'
    exact ⟨N + M, fun n m => by rw [Nat.add_assoc, Go.bind_ok hx, Go.bind_ok (hN (M + n) m), hM]⟩

theorem lift (r : Except Fail α) : Costs (Go.lift r) (Go.lift r) := fun s => ⟨0, fun n m => by simp [Go.lift_run]⟩

theorem pure (a : α) : Costs (Pure.pure a) (Pure.pure a) := lift (.ok a)

theorem look (op : Go NamedSt α) : Costs op (KilledSt.look op) := fun s => ⟨0, fun n m => by simp [KilledSt.look]⟩

theorem act (op : Go NamedSt Unit) (torn : Nat → Go NamedSt Unit) : Costs op (KilledSt.act op torn) :=
  fun s => ⟨1, fun n m => by rw [Nat.add_comm]; rfl⟩

theorem emitPh2 (out : String) (b : Bytes) : Costs (NamedSt.emitPh2 out b) (KilledSt.emitPh2 out b) := act _ _

theorem append (path : String) (b : Bytes) : Costs (NamedSt.append path b) (KilledSt.append path b) := act _ _

theorem create (path : String) : Costs (NamedSt.create path) (KilledSt.create path) := act _ _

theorem init {F G1 G2 GT : Type} [Field F] [AddCommGroup G1] [Module F G1] [AddCommGroup G2] [Module F G2] [AddCommGroup GT] [Module F GT]
    (C : Curve F G1 G2 GT) (E : InitEnv F) (par : Par) (inp out : String) (load : FS → Except Fail (Loaded F G1 G2)) :
    Costs (initOn (namedInit inp out load) C E par) (initOn (killedInit inp out load) C E par) := by
  have l : Costs (namedInit inp out load).load (killedInit inp out load).load := look _
  have p : Costs (namedInit inp out load).ph1 (killedInit inp out load).ph1 := look _
  have g : Costs (namedInit inp out load).openLag (killedInit inp out load).openLag := look _
  have e2 : ∀ b, Costs ((namedInit inp out load).emitPh2 b) ((killedInit inp out load).emitPh2 b) := emitPh2 out
  have el : ∀ b, Costs ((namedInit inp out load).emitLag b) ((killedInit inp out load).emitLag b) := append _
  have ee : ∀ b, Costs ((namedInit inp out load).emitEvals b) ((killedInit inp out load).emitEvals b) := append _
  have cl : Costs (namedInit inp out load).createLag (killedInit inp out load).createLag := create _
  have ce : Costs (namedInit inp out load).createEvals (killedInit inp out load).createEvals := create _
  have fi : ∀ a b c d, Costs ((namedInit inp out load).finish a b c d) ((killedInit inp out load).finish a b c d) := fun a b c d =>
    (emitPh2 out _).bind fun _ => (append _ _).bind fun _ => (append _ _).bind fun _ => (append _ _).bind fun _ => emitPh2 out _
  unfold initOn
  refine Costs.bind ?_ fun _ => Costs.bind ?_ fun _ => Costs.bind ?_ fun _ => Costs.bind ?_ fun _ => ?_
  · unfold processHeaderOn
    exact l.bind fun _ => (lift _).bind fun _ => p.bind fun _ => (lift _).bind fun _ => (lift _).bind fun _ => (e2 _).bind fun _ => pure _
  · unfold processLagrangeOn
    exact cl.bind fun _ => p.bind fun _ => (lift _).bind fun _ => (el _).bind fun _ => p.bind fun _ => (lift _).bind fun _ =>
      (el _).bind fun _ => p.bind fun _ => (lift _).bind fun _ => (el _).bind fun _ => p.bind fun _ => (lift _).bind fun _ => el _
  · unfold processEvaluationsOn
    exact g.bind fun _ => ce.bind fun _ => p.bind fun _ => (lift _).bind fun _ => (ee _).bind fun _ => (ee _).bind fun _ =>
      (ee _).bind fun _ => l.bind fun _ => (lift _).bind fun _ => (lift _).bind fun _ => (lift _).bind fun _ =>
      (ee _).bind fun _ => (lift _).bind fun _ => (ee _).bind fun _ => (lift _).bind fun _ => (lift _).bind fun _ => ee _
  · unfold processDeltaAndZOn
    exact p.bind fun _ => (e2 _).bind fun _ => (e2 _).bind fun _ => (lift _).bind fun _ => (lift _).bind fun _ => e2 _
  · unfold processPVCKKOn
    exact l.bind fun _ => g.bind fun _ => (lift _).bind fun _ => (lift _).bind fun _ => (lift _).bind fun _ =>
      (lift _).bind fun _ => (lift _).bind fun _ => (lift _).bind fun _ => fi _ _ _ _

end Costs

end ZkSetup.Proofs
