import Verif.Model.Alias
import Verif.Spec.Phase2
/-
The extraction of keys from a file that is also written, compared with the extraction from the part of that file which had been loaded.
-/
set_option linter.unusedSectionVars false

namespace ZkSetup

open Phase2 Keys
open Phase1 (makeLen wrap64)

/-- An action that looks at nothing but the bytes ahead; if it succeeds, at nothing but the bytes it consumes. -/
def OnlyReads {α : Type} (x : Go Rd α) : Prop :=
  ∀ rest, ∃ r k, k ≤ rest.length ∧ (∀ cap pos, x.run ⟨cap, pos, rest⟩ = (r, ⟨cap, pos + k, rest.drop k⟩)) ∧
    ∀ a, r = .ok a → ∀ cap pos more, x.run ⟨cap, pos, rest ++ more⟩ = (.ok a, ⟨cap, pos + k, (rest ++ more).drop k⟩)

namespace OnlyReads
variable {α β : Type}

theorem readFull (n : Nat) : OnlyReads (Rd.readFull n) := by
  intro rest
  by_cases h : n ≤ rest.length
  · refine ⟨.ok (rest.take n), n, h, fun cap pos => by simp [Rd.readFull, h, Rd.adv], fun a ha cap pos more => ?_⟩
    have : n ≤ (rest ++ more).length := by simp only [List.length_append]; omega
    cases ha
    simp only [Rd.readFull, this, if_true, Rd.adv]
    rw [List.take_append_of_le_length h]
  · exact ⟨.error (.err "EOF"), rest.length, le_refl _, fun cap pos => by simp [Rd.readFull, h, Rd.adv], by simp⟩

theorem pure (a : α) : OnlyReads (Pure.pure a : Go Rd α) :=
  fun rest => ⟨.ok a, 0, by omega, fun cap pos => by simp, fun b hb cap pos more => by cases hb; simp⟩

theorem fail (e : Fail) : OnlyReads (Go.fail e : Go Rd α) :=
  fun rest => ⟨.error e, 0, by omega, fun cap pos => by simp, by simp⟩

theorem bind {x : Go Rd α} {f : α → Go Rd β} (hx : OnlyReads x) (hf : ∀ a, OnlyReads (f a)) : OnlyReads (x >>= f) := by
  intro rest
  obtain ⟨r, k, hk, h1, h2⟩ := hx rest
  cases r with
  | error e => exact ⟨.error e, k, hk, fun cap pos => Go.bind_error (h1 cap pos), by simp⟩
  | ok a =>
    obtain ⟨r', k', hk', h1', h2'⟩ := hf a (rest.drop k)
    have hl : k + k' ≤ rest.length := by
      rw [List.length_drop] at hk'
      omega
    refine ⟨r', k + k', hl, fun cap pos => ?_, fun b hb cap pos more => ?_⟩
    · rw [Go.bind_ok (h1 cap pos), h1' cap (pos + k), List.drop_drop, Nat.add_assoc]
    · rw [Go.bind_ok (h2 a rfl cap pos more), List.drop_append_of_le_length hk, h2' b hb cap (pos + k) more,
        ← List.drop_append_of_le_length hk, List.drop_drop, Nat.add_assoc]

variable {G : Type} (c : Codec G)

theorem decode : OnlyReads c.decode := by
  have hset : ∀ b, OnlyReads (c.set b) := by
    intro b
    unfold Codec.set
    split
    · exact OnlyReads.pure _
    · exact fail _
  refine (readFull _).bind fun b => ?_
  split
  · exact hset _
  · exact (readFull _).bind fun _ => hset _

theorem decodeN (n : Nat) : OnlyReads (c.decodeN n) := by
  induction n with
  | zero => exact OnlyReads.pure _
  | succ n ih => exact (decode c).bind fun _ => ih.bind fun _ => OnlyReads.pure _

end OnlyReads

/-- The states correspond: what is ahead in the phase 2 reader is what the other one has loaded. -/
structure SameAlias {O : Type} (s : KeySt O) (t : AliasSt O) : Prop where
  ahead : t.buf = s.ph2.rest
  evals : t.evals = s.evals
  out : t.out = s.out

/-- `y` does, on a file that is also written, what `x` does on the part of the file that had been loaded: if `x` succeeds, or if nothing
has been passed on to the file. -/
def Follows {O α : Type} (written : O → Bytes) (x : Go (KeySt O) α) (y : Go (AliasSt O) α) : Prop :=
  ∀ s t, SameAlias s t → (written s.out).length ≤ (written (x.run s).2.out).length ∧
    ((∃ a, (x.run s).1 = .ok a) ∨ (written (x.run s).2.out).length ≤ 4096 →
      (y.run t).1 = (x.run s).1 ∧ (y.run t).2.out = (x.run s).2.out ∧ ∀ a, (x.run s).1 = .ok a → SameAlias (x.run s).2 (y.run t).2)

theorem passedOn_short {bs : Bytes} (h : bs.length ≤ 4096) : passedOn bs = [] := by
  unfold passedOn
  have : (bs.length - 1) / 4096 = 0 := Nat.div_eq_of_lt (by omega)
  rw [this]
  rfl

namespace Follows
variable {O α β : Type} {written : O → Bytes}

theorem bind {x : Go (KeySt O) α} {y : Go (AliasSt O) α} {f : α → Go (KeySt O) β} {g : α → Go (AliasSt O) β}
    (h : Follows written x y) (hf : ∀ a, Follows written (f a) (g a)) : Follows written (x >>= f) (y >>= g) := by
  intro s t hst
  obtain ⟨hl, h⟩ := h s t hst
  cases hx : x.run s with
  | mk r s' =>
    rw [hx] at hl h
    cases r with
    | error e =>
      rw [Go.bind_error hx]
      refine ⟨hl, fun hc => ?_⟩
      obtain ⟨h1, h2, -⟩ := h (hc.imp (fun ⟨_, ha⟩ => by simp at ha) id)
      cases hy : y.run t with
      | mk r' t' =>
        rw [hy] at h1 h2
        simp only at h1 h2
        subst h1
        rw [Go.bind_error hy]
        exact ⟨rfl, h2, fun a ha => by simp at ha⟩
    | ok a =>
      rw [Go.bind_ok hx]
      obtain ⟨h1, h2, h3⟩ := h (.inl ⟨a, rfl⟩)
      cases hy : y.run t with
      | mk r' t' =>
        rw [hy] at h1 h2 h3
        simp only at h1 h2
        subst h1
        rw [Go.bind_ok hy]
        obtain ⟨hl', h'⟩ := hf a s' t' (h3 a rfl)
        exact ⟨hl.trans hl', h'⟩

theorem pure (a : α) : Follows written (Pure.pure a) (Pure.pure a) :=
  fun _ _ h => ⟨le_refl _, fun _ => ⟨rfl, h.out, fun _ _ => h⟩⟩

theorem lift (r : Except Fail α) : Follows written (Go.lift r) (Go.lift r) :=
  fun _ _ h => ⟨le_refl _, fun _ => ⟨rfl, h.out, fun _ _ => h⟩⟩

theorem write (f : O → O) (hf : ∀ o, (written o).length ≤ (written (f o)).length) :
    Follows written (KeySt.write f) (AliasSt.write f) :=
  fun _ _ h => ⟨hf _, fun _ => ⟨rfl, congrArg f h.out, fun _ _ => ⟨h.ahead, h.evals, congrArg f h.out⟩⟩⟩

theorem onEvals (x : Go Rd α) : Follows written (KeySt.onEvals x) (AliasSt.onEvals x) := by
  rintro ⟨p, e, o⟩ ⟨b, n, e', o'⟩ ⟨h1, h2, h3⟩
  simp only at h1 h2 h3
  subst h1 h2 h3
  exact ⟨le_refl _, fun _ => ⟨rfl, rfl, fun _ _ => ⟨rfl, rfl, rfl⟩⟩⟩

theorem seekEvals (evals : Bytes) (pos : Int) :
    Follows written (Keys.seekEvals (O := O) evals pos) (AliasSt.seekEvals evals pos) := by
  rintro ⟨p, e, o⟩ ⟨b, n, e', o'⟩ ⟨h1, h2, h3⟩
  simp only at h1 h2 h3
  subst h1 h2 h3
  unfold Keys.seekEvals AliasSt.seekEvals
  by_cases h : 0 ≤ pos
  · simp only [h, if_true]
    exact ⟨le_refl _, fun _ => ⟨trivial, trivial, fun _ _ => ⟨rfl, rfl, rfl⟩⟩⟩
  · simp only [h, if_false]
    exact ⟨le_refl _, fun _ => ⟨trivial, trivial, fun _ h => by simp at h⟩⟩

theorem onPh2 {x : Go Rd α} (hx : OnlyReads x) : Follows written (KeySt.onPh2 x) (AliasSt.onPh2 written x) := by
  rintro ⟨⟨cap, pos, rest⟩, e, o⟩ ⟨b, n, e', o'⟩ ⟨h1, h2, h3⟩
  simp only at h1 h2 h3
  subst h1 h2 h3
  obtain ⟨r, k, hk, hr, hm⟩ := hx b
  unfold KeySt.onPh2 AliasSt.onPh2
  simp only [hr]
  refine ⟨le_refl _, fun hc => ?_⟩
  cases r with
  | ok a =>
    simp only [Rd.buffered, hm a rfl]
    refine ⟨trivial, trivial, fun _ _ => ⟨?_, rfl, rfl⟩⟩
    have h0 : loaded (k - b.length) (List.drop n (passedOn (written o'))).length = 0 := by
      unfold loaded
      have : k - b.length = 0 := by omega
      rw [this]
      simp
    simp only [Nat.zero_add, h0, List.take_zero, List.append_nil]
  | error err =>
    have hs : (written o').length ≤ 4096 := by
      rcases hc with ⟨a, ha⟩ | hc
      · simp at ha
      · exact hc
    simp only [passedOn_short hs, List.drop_nil, List.append_nil, Rd.buffered, hr]
    exact ⟨trivial, trivial, fun a ha => by simp at ha⟩

end Follows

section
variable {F G1 G2 GT : Type} [Field F] [AddCommGroup G1] [Module F G1] [AddCommGroup G2]
  [Module F G2] [AddCommGroup GT] [Module F GT] [DecidableEq G1] [DecidableEq G2]

theorem append_longer (bs : Bytes) : ∀ o : Bytes, (id o).length ≤ (id (o ++ bs)).length := by
  intro o
  simp

theorem pkBody_follows (C : Curve F G1 G2 GT) (E : KeyEnv G1) (evals : Bytes) (h : Header) :
    Follows id (pkBody C E h) (pkBodyOn (aliasOps id evals) C E h) := by
  unfold pkBody pkBodyOn
  refine (Follows.lift _).bind fun d => ?_
  refine (Follows.write _ (append_longer _)).bind fun _ => ?_
  refine (Follows.onEvals _).bind fun _ => ?_
  refine (Follows.write _ (append_longer _)).bind fun _ => ?_
  refine (Follows.onEvals _).bind fun _ => ?_
  refine (Follows.write _ (append_longer _)).bind fun _ => ?_
  refine (Follows.onPh2 (.decode _)).bind fun _ => ?_
  refine (Follows.write _ (append_longer _)).bind fun _ => ?_
  refine (Follows.onEvals _).bind fun _ => ?_
  refine (Follows.onPh2 (.decode _)).bind fun _ => ?_
  refine (Follows.onEvals _).bind fun _ => ?_
  refine (Follows.write _ (append_longer _)).bind fun _ => ?_
  refine (Follows.onEvals _).bind fun _ => ?_
  refine (Follows.write _ (append_longer _)).bind fun _ => ?_
  refine (Follows.lift _).bind fun _ => ?_
  refine (Follows.onPh2 (.decodeN _ _)).bind fun _ => ?_
  refine (Follows.write _ (append_longer _)).bind fun _ => ?_
  refine (Follows.lift _).bind fun _ => ?_
  refine (Follows.onPh2 (.decodeN _ _)).bind fun _ => ?_
  refine (Follows.write _ (append_longer _)).bind fun _ => ?_
  refine (Follows.write _ (append_longer _)).bind fun _ => ?_
  refine (Follows.write _ (append_longer _)).bind fun _ => ?_
  refine (Follows.onEvals _).bind fun _ => ?_
  refine (Follows.write _ (append_longer _)).bind fun _ => ?_
  refine (Follows.write _ (append_longer _)).bind fun _ => ?_
  refine (Follows.write _ (append_longer _)).bind fun _ => ?_
  refine (Follows.write _ (append_longer _)).bind fun _ => ?_
  refine (Follows.write _ (append_longer _)).bind fun _ => ?_
  exact Follows.write _ (append_longer _)

/-- an output of `extractSplitPK` that only grows -/
structure Grows (file : SplitPK → Bytes) : Prop where
  e : ∀ bs o, (file o).length ≤ (file (.toE bs o)).length
  a : ∀ bs o, (file o).length ≤ (file (.toA bs o)).length
  b1 : ∀ bs o, (file o).length ≤ (file (.toB1 bs o)).length
  z : ∀ bs o, (file o).length ≤ (file (.toZ bs o)).length
  k : ∀ bs o, (file o).length ≤ (file (.toK bs o)).length
  b2 : ∀ bs o, (file o).length ≤ (file (.toB2 bs o)).length

theorem splitPkBody_follows (C : Curve F G1 G2 GT) {file : SplitPK → Bytes} (hg : Grows file) (evals : Bytes) (h : Header) :
    Follows file (splitPkBody C h) (splitPkBodyOn (aliasOps file evals) C h) := by
  unfold splitPkBody splitPkBodyOn
  refine (Follows.write _ (hg.e _)).bind fun _ => ?_
  refine (Follows.onEvals _).bind fun _ => ?_
  refine (Follows.write _ (hg.e _)).bind fun _ => ?_
  refine (Follows.onEvals _).bind fun _ => ?_
  refine (Follows.write _ (hg.e _)).bind fun _ => ?_
  refine (Follows.onPh2 (.decode _)).bind fun _ => ?_
  refine (Follows.write _ (hg.e _)).bind fun _ => ?_
  refine (Follows.onEvals _).bind fun _ => ?_
  refine (Follows.onPh2 (.decode _)).bind fun _ => ?_
  refine (Follows.onEvals _).bind fun _ => ?_
  refine (Follows.write _ (hg.a _)).bind fun _ => ?_
  refine (Follows.onEvals _).bind fun _ => ?_
  refine (Follows.write _ (hg.b1 _)).bind fun _ => ?_
  refine (Follows.lift _).bind fun _ => ?_
  refine (Follows.onPh2 (.decodeN _ _)).bind fun _ => ?_
  refine (Follows.write _ (hg.z _)).bind fun _ => ?_
  refine (Follows.lift _).bind fun _ => ?_
  refine (Follows.onPh2 (.decodeN _ _)).bind fun _ => ?_
  refine (Follows.write _ (hg.k _)).bind fun _ => ?_
  refine (Follows.write _ (hg.e _)).bind fun _ => ?_
  refine (Follows.write _ (hg.e _)).bind fun _ => ?_
  refine (Follows.onEvals _).bind fun _ => ?_
  refine (Follows.write _ (hg.b2 _)).bind fun _ => ?_
  refine (Follows.write _ (hg.e _)).bind fun _ => ?_
  refine (Follows.write _ (hg.e _)).bind fun _ => ?_
  refine (Follows.write _ (hg.e _)).bind fun _ => ?_
  refine (Follows.write _ (hg.e _)).bind fun _ => ?_
  exact Follows.write _ (hg.e _)

theorem readVK_follows {O : Type} {written : O → Bytes} (C : Curve F G1 G2 GT) (E : KeyEnv G1) (evals : Bytes) (h : Header) :
    Follows written (readVK C E evals h) (readVKOn (aliasOps written evals) C E h) := by
  unfold readVK readVKOn
  refine (Follows.onEvals _).bind fun _ => ?_
  refine (Follows.onEvals _).bind fun _ => ?_
  refine (Follows.onEvals _).bind fun _ => ?_
  refine (Follows.onPh2 (.decode _)).bind fun _ => ?_
  refine (Follows.onPh2 (.decode _)).bind fun _ => ?_
  refine (Follows.seekEvals _ _).bind fun _ => ?_
  refine (Follows.onEvals _).bind fun _ => ?_
  refine (Follows.onEvals _).bind fun _ => ?_
  refine (Follows.lift _).bind fun _ => ?_
  exact Follows.pure _

theorem vkBody_follows (C : Curve F G1 G2 GT) (E : KeyEnv G1) (evals : Bytes) (h : Header) :
    Follows id (vkBody C E evals h) (vkBodyOn (aliasOps id evals) C E h) := by
  unfold vkBody vkBodyOn
  exact (readVK_follows C E evals h).bind fun _ => Follows.write _ (append_longer _)

theorem splitVkBody_follows (C : Curve F G1 G2 GT) (E : KeyEnv G1) (evals : Bytes) (h : Header) :
    Follows SplitVK.vk (splitVkBody C E evals h) (splitVkBodyOn (aliasOps SplitVK.vk evals) C E h) := by
  unfold splitVkBody splitVkBodyOn
  refine (readVK_follows C E evals h).bind fun _ => (Follows.write _ fun o => ?_).bind fun _ => Follows.write _ fun o => ?_
  · simp
  · exact le_refl _

/-- An extraction from a file that is also written, if the header lies in the first 4096 bytes: what it does with the first 4096 bytes
alone, if that succeeds or if the file to be written comes out with at most 4096 bytes. -/
theorem extract_alias {O : Type} {written : O → Bytes} {H : HeaderCodec} (hH : H.Lawful) (ph2 evals : Bytes) (empty : O)
    {body : Header → Go (KeySt O) Unit} {body' : Header → Go (AliasSt O) Unit} (hb : ∀ h, Follows written (body h) (body' h))
    {h : Header} {r : Rd} (hd : H.dec.run (Rd.buffered 4096 ph2) = (.ok h, r)) (hk : ph2.length ≤ r.rest.length + 4096)
    {res : Except Fail Unit} {out : O} (he : extract H (ph2.take 4096) evals empty body = (res, some out))
    (hc : res = .ok () ∨ (written out).length ≤ 4096) :
    extractAlias H ph2 evals empty body' = (res, some out) := by
  obtain ⟨used, hu, hall⟩ := hH.dec_local _ _ _ hd
  simp only [Rd.buffered] at hu
  have hlen := congrArg List.length hu
  simp only [List.length_append] at hlen
  have hpos : used ≠ [] := by
    rintro rfl
    have h1 := hall 0 0 (H.enc ⟨0, 0, 0, 0, 0, 0, 0⟩)
    have h2 := hall 0 0 (H.enc ⟨1, 0, 0, 0, 0, 0, 0⟩)
    have d1 := hH.dec_enc ⟨0, 0, 0, 0, 0, 0, 0⟩ (by constructor <;> decide) 0 0 []
    have d2 := hH.dec_enc ⟨1, 0, 0, 0, 0, 0, 0⟩ (by constructor <;> decide) 0 0 []
    simp only [List.nil_append, List.append_nil] at h1 h2 d1 d2
    rw [d1] at h1
    rw [d2] at h2
    simp only [Prod.mk.injEq, Except.ok.injEq] at h1 h2
    have := h1.1.trans h2.1.symm
    simp at this
  have hup := List.length_pos_iff.mpr hpos
  have hn : loaded (ph2.length - r.rest.length) ph2.length = min ph2.length 4096 := by
    unfold loaded
    have : (ph2.length - r.rest.length + 4095) / 4096 = 1 := by omega
    rw [this]
  have htake : ph2.take (min ph2.length 4096) = ph2.take 4096 := by
    rw [Nat.min_comm, ← List.take_take, List.take_length]
  have hcut : ph2.take 4096 = used ++ r.rest.take (4096 - used.length) := by
    conv_lhs => rw [hu]
    rw [List.take_append, List.take_of_length_le (by omega)]
  have hd' := hall 4096 0 (r.rest.take (4096 - used.length))
  rw [← hcut] at hd'
  unfold extract Header.read Rd.buffered at he
  rw [hd'] at he
  simp only at he
  unfold extractAlias Header.read
  rw [hd]
  simp only [hn, htake]
  have hdrop : (ph2.take 4096).drop (ph2.length - r.rest.length) = r.rest.take (4096 - used.length) := by
    have : ph2.length - r.rest.length = used.length := by omega
    rw [this, hcut, List.drop_left]
  rw [hdrop]
  obtain ⟨-, hf⟩ := hb h ⟨⟨4096, 0 + used.length, r.rest.take (4096 - used.length)⟩, Rd.buffered 4096 evals, empty⟩
    ⟨r.rest.take (4096 - used.length), min ph2.length 4096, Rd.buffered 4096 evals, empty⟩ ⟨rfl, rfl, rfl⟩
  simp only [Rd.buffered] at hf
  simp only [Prod.mk.injEq, Option.some.injEq] at he
  obtain ⟨e1, e2⟩ := he
  rw [e1, e2] at hf
  obtain ⟨f1, f2, -⟩ := hf (hc.imp (fun h => ⟨(), h⟩) id)
  simp only [Rd.buffered, Prod.mk.injEq, Option.some.injEq]
  exact ⟨f1, f2⟩

/-- The same, with nothing to be known about the header: if the first 4096 bytes alone lead to a file, then the header lies in them. -/
theorem extract_alias_start {O : Type} {written : O → Bytes} {H : HeaderCodec} (hH : H.Lawful) (ph2 evals : Bytes) (empty : O)
    {body : Header → Go (KeySt O) Unit} {body' : Header → Go (AliasSt O) Unit} (hb : ∀ h, Follows written (body h) (body' h))
    {res : Except Fail Unit} {out : O} (he : extract H (ph2.take 4096) evals empty body = (res, some out))
    (hc : res = .ok () ∨ (written out).length ≤ 4096) :
    extractAlias H ph2 evals empty body' = (res, some out) := by
  have hd : ∃ h r, H.dec.run (Rd.buffered 4096 (ph2.take 4096)) = (.ok h, r) := by
    unfold extract Header.read at he
    cases hd : H.dec.run (Rd.buffered 4096 (ph2.take 4096)) with
    | mk x r =>
      cases x with
      | ok h => exact ⟨h, r, rfl⟩
      | error e =>
        rw [hd] at he
        simp at he
  obtain ⟨h, r, hd⟩ := hd
  obtain ⟨used, hu, hall⟩ := hH.dec_local _ _ _ hd
  simp only [Rd.buffered] at hu
  have hlen := congrArg List.length hu
  simp only [List.length_append, List.length_take] at hlen
  have hfull : ph2 = used ++ (r.rest ++ ph2.drop 4096) := by
    rw [← List.append_assoc, ← hu, List.take_append_drop]
  have hd' := hall 4096 0 (r.rest ++ ph2.drop 4096)
  rw [← hfull] at hd'
  refine extract_alias hH ph2 evals empty hb hd' ?_ he hc
  have := congrArg List.length hfull
  simp only [List.length_append] at this ⊢
  omega

end
end ZkSetup
