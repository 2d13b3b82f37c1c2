import Verif.Props.Cli
import Verif.Proofs.Keys
import Verif.Proofs.Phase1Truncate
import Verif.Proofs.Gob
/-
C71: a failed extraction never leaves a complete pair of keys, so the keys in the directory come from one run.
-/
set_option linter.unusedSectionVars false

namespace ZkSetup

open Keys KeySt Cli Phase1

section
variable {F G1 G2 GT : Type} [Field F] [AddCommGroup G1] [Module F G1] [AddCommGroup G2]
  [Module F G2] [AddCommGroup GT] [Module F GT]

/-- The bytes are a complete proving key in gnark's layout, for some contents; `L` is the number of bytes of the FFT domain. -/
def IsPK (C : Curve F G1 G2 GT) (L : Nat) (bs : Bytes) : Prop :=
  ∃ (domain : Bytes) (k : ProvingKey G1 G2), domain.length = L ∧ k.a.length < 2 ^ 32 ∧ k.b1.length < 2 ^ 32 ∧ k.z.length < 2 ^ 32 ∧
    k.k.length < 2 ^ 32 ∧ bs = k.encode C domain

/-- The bytes are a complete verifying key, for some contents. -/
def IsVK (C : Curve F G1 G2 GT) (bs : Bytes) : Prop :=
  ∃ (commitmentKey info : Bytes) (k : VerifyKey G1 G2), bs = k.encode C commitmentKey info

/-- The first of the files of a split proving key is complete. -/
def IsSplitE (C : Curve F G1 G2 GT) (bs : Bytes) : Prop := ∃ k : ProvingKey G1 G2, bs = (k.encodeSplit C).e

end

namespace OneRun

/-- what a failing run leaves has the property -/
def FailsWith {O α : Type} (P : O → Prop) (x : Go (KeySt O) α) (o : O) : Prop :=
  ∀ r1 r2 e s', x.run ⟨r1, r2, o⟩ = (.error e, s') → P s'.out

section
variable {O α β : Type} {P : O → Prop} {o : O}

theorem FailsWith.lift {r : Except Fail α} {k : α → Go (KeySt O) β} (h0 : P o) (h : ∀ a, r = .ok a → FailsWith P (k a) o) :
    FailsWith P (Go.lift r >>= k) o := by
  intro r1 r2 e s' hr
  cases r with
  | error e' =>
    rw [Go.bind_error (e := e') (s' := ⟨r1, r2, o⟩) rfl] at hr
    simp only [Prod.mk.injEq] at hr
    rw [← hr.2]; exact h0
  | ok a =>
    rw [Go.bind_ok (a := a) (s' := ⟨r1, r2, o⟩) rfl] at hr
    exact h a rfl _ _ _ _ hr

theorem FailsWith.evals {x : Go Rd α} {k : α → Go (KeySt O) β} (h0 : P o)
    (h : ∀ a rd rd', x.run rd = (.ok a, rd') → FailsWith P (k a) o) : FailsWith P (onEvals x >>= k) o := by
  intro r1 r2 e s' hr
  cases hx : x.run r2 with
  | mk r rd =>
    cases r with
    | error e' =>
      rw [Go.bind_error (e := e') (s' := ⟨r1, rd, o⟩) (by simp [onEvals, hx])] at hr
      simp only [Prod.mk.injEq] at hr
      rw [← hr.2]; exact h0
    | ok a =>
      rw [Go.bind_ok (a := a) (s' := ⟨r1, rd, o⟩) (by simp [onEvals, hx])] at hr
      exact h a _ _ hx _ _ _ _ hr

theorem FailsWith.ph2 {x : Go Rd α} {k : α → Go (KeySt O) β} (h0 : P o)
    (h : ∀ a rd rd', x.run rd = (.ok a, rd') → FailsWith P (k a) o) : FailsWith P (onPh2 x >>= k) o := by
  intro r1 r2 e s' hr
  cases hx : x.run r1 with
  | mk r rd =>
    cases r with
    | error e' =>
      rw [Go.bind_error (e := e') (s' := ⟨rd, r2, o⟩) (by simp [onPh2, hx])] at hr
      simp only [Prod.mk.injEq] at hr
      rw [← hr.2]; exact h0
    | ok a =>
      rw [Go.bind_ok (a := a) (s' := ⟨rd, r2, o⟩) (by simp [onPh2, hx])] at hr
      exact h a _ _ hx _ _ _ _ hr

theorem FailsWith.write {f : O → O} {k : Unit → Go (KeySt O) β} (h : FailsWith P (k ()) (f o)) : FailsWith P (KeySt.write f >>= k) o := by
  intro r1 r2 e s' hr
  rw [Go.bind_ok (a := ()) (s' := ⟨r1, r2, f o⟩) rfl] at hr
  exact h _ _ _ _ hr

theorem FailsWith.last {f : O → O} : FailsWith P (KeySt.write f) o := by
  intro r1 r2 e s' hr
  simp [KeySt.write] at hr

theorem FailsWith.seek {evals : Bytes} {pos : Int} {k : Unit → Go (KeySt O) β} (h0 : P o) (h : FailsWith P (k ()) o) :
    FailsWith P (seekEvals evals pos >>= k) o := by
  intro r1 r2 e s' hr
  by_cases hp : 0 ≤ pos
  · rw [Go.bind_ok (a := ()) (s' := ⟨r1, Rd.buffered 4096 (evals.drop pos.toNat), o⟩) (by simp [seekEvals, hp])] at hr
    exact h _ _ _ _ hr
  · rw [Go.bind_error (e := .err "seek: invalid argument") (s' := ⟨r1, r2, o⟩) (by simp [seekEvals, hp])] at hr
    simp only [Prod.mk.injEq] at hr
    rw [← hr.2]; exact h0

end

section
variable {F G1 G2 GT : Type} [Field F] [AddCommGroup G1] [Module F G1] [AddCommGroup G2]
  [Module F G2] [AddCommGroup GT] [Module F GT] [DecidableEq G1] [DecidableEq G2] [DecidableEq GT]
variable {C : Curve F G1 G2 GT} (hC : C.Lawful)
include hC

omit hC [DecidableEq G1] [DecidableEq G2] [DecidableEq GT] [AddCommGroup GT] [Module F GT] in
theorem slice_peel {G : Type} {bytes : G → Bytes} {n : Nat} (hb : ∀ p, (bytes p).length = n) {a b : List G} (ha : a.length < 2 ^ 32)
    (hb' : b.length < 2 ^ 32) {X Y : Bytes} (h : sliceOf bytes a ++ X = sliceOf bytes b ++ Y) : X = Y := by
  unfold sliceOf at h
  simp only [List.append_assoc] at h
  have h4 := (List.append_inj h (by simp)).1
  have hlen : a.length = b.length := by
    have := congrArg beValue h4
    rwa [beValue_beBytes _ _ (by simpa using ha), beValue_beBytes _ _ (by simpa using hb')] at this
  have h5 := (List.append_inj h (by simp)).2
  refine (List.append_inj h5 ?_).2
  have : ∀ l : List G, (l.flatMap bytes).length = n * l.length := by
    intro l
    induction l with
    | nil => rfl
    | cons p l ih => simp only [List.flatMap_cons, List.length_append, List.length_cons, ih, hb, Nat.mul_succ]; omega
  rw [this, this, hlen]

omit hC in
/-- a complete key that begins with `out` continues with `T` -/
def At (C : Curve F G1 G2 GT) (L : Nat) (T : ProvingKey G1 G2 → Bytes) (out : Bytes) : Prop :=
  ∀ (domain : Bytes) (k : ProvingKey G1 G2), domain.length = L → k.a.length < 2 ^ 32 → k.b1.length < 2 ^ 32 → k.z.length < 2 ^ 32 →
    k.k.length < 2 ^ 32 → ∀ X, k.encode C domain = out ++ X → X = T k

omit hC in
theorem At.incomplete {L : Nat} {T : ProvingKey G1 G2 → Bytes} {out : Bytes} (h : At C L T out) (hT : ∀ k, T k ≠ []) : ¬ IsPK C L out := by
  rintro ⟨domain, k, hd, h1, h2, h3, h4, rfl⟩
  exact hT k (h domain k hd h1 h2 h3 h4 [] (by simp)).symm

omit hC in
theorem At.fixed {L n : Nat} {T : ProvingKey G1 G2 → Bytes} {out field : Bytes} {f : ProvingKey G1 G2 → Bytes}
    (h : At C L (fun k => f k ++ T k) out) (h1 : field.length = n) (h2 : ∀ k, (f k).length = n) : At C L T (out ++ field) := by
  intro domain k hd a1 a2 a3 a4 X hX
  rw [List.append_assoc] at hX
  exact (List.append_inj (h domain k hd a1 a2 a3 a4 _ hX) (by rw [h1, h2])).2

omit hC in
theorem At.slice {G : Type} {bytes : G → Bytes} {n L : Nat} (hb : ∀ p, (bytes p).length = n) {T : ProvingKey G1 G2 → Bytes} {out : Bytes}
    {f : ProvingKey G1 G2 → List G} (h : At C L (fun k => sliceOf bytes (f k) ++ T k) out) {ps : List G} (hp : ps.length < 2 ^ 32)
    (hf : ∀ k : ProvingKey G1 G2, k.a.length < 2 ^ 32 → k.b1.length < 2 ^ 32 → k.z.length < 2 ^ 32 → k.k.length < 2 ^ 32 → (f k).length < 2 ^ 32) :
    At C L T (out ++ sliceOf bytes ps) := by
  intro domain k hd a1 a2 a3 a4 X hX
  rw [List.append_assoc] at hX
  exact slice_peel hb hp (hf k a1 a2 a3 a4) (h domain k hd a1 a2 a3 a4 _ hX)

omit hC in
/-- the part of a key that is written after the points of G2 have been read -/
def keyEnd (C : Curve F G1 G2 GT) (k : ProvingKey G1 G2) : Bytes :=
  sliceOf C.c2.bytes k.b2 ++ (beBytes 8 k.wires ++ (beBytes 8 (k.infinityA.count true) ++ (beBytes 8 (k.infinityB.count true)
    ++ (mapBytes k.infinityA ++ mapBytes k.infinityB))))

omit hC in
theorem slice_count {G : Type} (c : Codec G) {rd rd' : Rd} {ps : List G} (h : c.decodeSlice.run rd = (.ok ps, rd')) : ps.length < 2 ^ 32 := by
  unfold Codec.decodeSlice at h
  obtain ⟨b, rd1, h1, h2⟩ := Go.bind_eq_ok h
  rw [decodeN_length c _ _ _ _ h2]
  have hl : b.length = 4 := by
    unfold Rd.readFull at h1
    simp only at h1
    split at h1
    · simp only [Prod.mk.injEq, Except.ok.injEq] at h1
      rw [← h1.1]; simp; omega
    · cases h1
  have := Gob.beValue_lt b
  rw [hl] at this
  simpa using this

omit hC in
theorem filter_count {G : Type} [AddCommGroup G] [DecidableEq G] {ps : List G} (h : ps.length < 2 ^ 32) : (filterInfinity ps).1.length < 2 ^ 32 := by
  rw [filterInfinity_eq]
  exact lt_of_le_of_lt (List.length_filter_le _ _) h

omit hC in
theorem not_isPK_nil (L : Nat) : ¬ IsPK C L [] := by
  rintro ⟨domain, k, -, -, -, -, -, h⟩
  have := congrArg List.length h
  simp only [ProvingKey.encode, List.length_append, beBytes_length, List.length_nil] at this
  omega

theorem pkBody_fails (E : KeyEnv G1) (L : Nat) (hL : ∀ n, (E.domain n).length = L) (header : Phase2.Header)
    (hd : header.domain ≤ 2 ^ 32) (hw : header.witness < 2 ^ 32) : FailsWith (fun o => ¬ IsPK C L o) (pkBody C E header) [] := by
  have b1 := hC.codec1.bytes_length
  have b2 := hC.codec2.bytes_length
  have s1 := hC.codec1.size_pos
  have s2 := hC.codec2.size_pos
  have ne1 : ∀ (p : G1) (X : Bytes), C.c1.bytes p ++ X ≠ [] := fun p X h => by
    have := congrArg List.length h; simp [b1] at this; omega
  have nes : ∀ {G : Type} (bytes : G → Bytes) (ps : List G) (X : Bytes), sliceOf bytes ps ++ X ≠ [] := fun bytes ps X h => by
    have := congrArg List.length h; simp [sliceOf] at this
  let T9 : ProvingKey G1 G2 → Bytes := keyEnd C
  let T8 : ProvingKey G1 G2 → Bytes := fun k => C.c2.bytes k.delta2 ++ T9 k
  let T7 : ProvingKey G1 G2 → Bytes := fun k => C.c2.bytes k.beta2 ++ T8 k
  let T6 : ProvingKey G1 G2 → Bytes := fun k => sliceOf C.c1.bytes k.k ++ T7 k
  let T5 : ProvingKey G1 G2 → Bytes := fun k => sliceOf C.c1.bytes k.z ++ T6 k
  let T4 : ProvingKey G1 G2 → Bytes := fun k => sliceOf C.c1.bytes k.b1 ++ T5 k
  let T3 : ProvingKey G1 G2 → Bytes := fun k => sliceOf C.c1.bytes k.a ++ T4 k
  let T2 : ProvingKey G1 G2 → Bytes := fun k => C.c1.bytes k.delta1 ++ T3 k
  let T1 : ProvingKey G1 G2 → Bytes := fun k => C.c1.bytes k.beta1 ++ T2 k
  let T0 : ProvingKey G1 G2 → Bytes := fun k => C.c1.bytes k.alpha1 ++ T1 k
  have hn0 : ¬ IsPK C L [] := not_isPK_nil L
  unfold pkBody
  refine .lift hn0 fun d hdom => .write ?_
  have hdl : d.length = L := by
    unfold domainBytes at hdom
    split at hdom
    · cases hdom
    · cases hdom; exact hL _
  have a0 : At C L T0 ([] ++ d) := by
    intro domain k hdl' _ _ _ _ X hX
    unfold ProvingKey.encode at hX
    simp only [List.append_assoc, List.nil_append] at hX
    exact (List.append_inj hX (by rw [hdl, hdl'])).2.symm
  refine .evals (a0.incomplete fun k => ne1 _ _) fun alpha _ _ _ => .write ?_
  have a1 : At C L T1 _ := At.fixed (n := C.c1.size) a0 (b1 alpha) fun k => b1 _
  refine .evals (a1.incomplete fun k => ne1 _ _) fun beta _ _ _ => .write ?_
  have a2 : At C L T2 _ := At.fixed (n := C.c1.size) a1 (b1 beta) fun k => b1 _
  refine .ph2 (a2.incomplete fun k => ne1 _ _) fun delta _ _ _ => .write ?_
  have a3 : At C L T3 _ := At.fixed (n := C.c1.size) a2 (b1 delta) fun k => b1 _
  have i3 := a3.incomplete fun k => nes C.c1.bytes k.a (T4 k)
  refine .evals i3 fun beta2 _ _ _ => .ph2 i3 fun delta2 _ _ _ => .evals i3 fun psA _ _ hA => .write ?_
  have a4 : At C L T4 _ := At.slice b1 a3 (filter_count (slice_count _ hA)) fun k h _ _ _ => h
  refine .evals (a4.incomplete fun k => nes C.c1.bytes k.b1 (T5 k)) fun psB _ _ hB => .write ?_
  have a5 : At C L T5 _ := At.slice b1 a4 (filter_count (slice_count _ hB)) fun k _ h _ _ => h
  have i5 := a5.incomplete fun k => nes C.c1.bytes k.z (T6 k)
  refine .lift i5 fun n hn => .ph2 i5 fun z _ _ hz => .write ?_
  have hzl : z.length < 2 ^ 32 := by
    rw [decodeN_length _ _ _ _ _ hz]
    unfold makeLen at hn
    split at hn
    · cases hn
    · cases hn; omega
  have a6 : At C L T6 _ := At.slice b1 a5 hzl fun k _ _ h _ => h
  have i6 := a6.incomplete fun k => nes C.c1.bytes k.k (T7 k)
  refine .lift i6 fun m hm => .ph2 i6 fun pkk _ _ hk => .write (.write (.write ?_))
  have hkl : pkk.length < 2 ^ 32 := by
    rw [decodeN_length _ _ _ _ _ hk]
    unfold makeLen at hm
    split at hm
    · cases hm
    · cases hm; omega
  have a7 : At C L T7 _ := At.slice b1 a6 hkl fun k _ _ _ h => h
  have a8 : At C L T8 _ := At.fixed (n := C.c2.size) a7 (b2 beta2) fun k => b2 _
  have a9 : At C L T9 _ := At.fixed (n := C.c2.size) a8 (b2 delta2) fun k => b2 _
  exact .evals (a9.incomplete fun k => nes C.c2.bytes k.b2 _) fun _ _ _ _ => .write (.write (.write (.write (.write .last))))


theorem splitPkBody_fails (header : Phase2.Header) :
    FailsWith (fun o => ¬ IsSplitE C o.e) (splitPkBody C header) ⟨[], [], [], [], [], []⟩ := by
  have b1 := hC.codec1.raw_length
  have b2 := hC.codec2.raw_length
  have short : ∀ o : SplitPK, o.e.length ≤ 8 + 6 * C.c1.size + 4 * C.c2.size → ¬ IsSplitE C o.e := by
    rintro o ho ⟨k, hk⟩
    rw [hk] at ho
    simp only [ProvingKey.encodeSplit, List.length_append, beBytes_length, b1, b2] at ho
    omega
  unfold splitPkBody
  have w : ∀ {o : SplitPK} {bs : Bytes}, (o.toE bs).e.length = o.e.length + bs.length := by
    intro o bs; simp [SplitPK.toE]
  have hu : ∀ n, (uint64Bytes n).length = 8 := fun n => by simp [uint64Bytes]
  refine .write (.evals (short _ ?_) fun alpha _ _ _ => .write (.evals (short _ ?_) fun beta _ _ _ => .write (.ph2 (short _ ?_)
    fun delta _ _ _ => .write (.evals (short _ ?_) fun beta2 _ _ _ => .ph2 (short _ ?_) fun delta2 _ _ _ => .evals (short _ ?_)
    fun _ _ _ _ => .write (.evals (short _ ?_) fun _ _ _ _ => .write (.lift (short _ ?_) fun _ _ => .ph2 (short _ ?_) fun _ _ _ _ =>
    .write (.lift (short _ ?_) fun _ _ => .ph2 (short _ ?_) fun _ _ _ _ => .write (.write (.write (.evals (short _ ?_) fun _ _ _ _ =>
    .write (.write (.write (.write (.write .last))))))))))))))
  all_goals simp only [w, SplitPK.toA, SplitPK.toB1, SplitPK.toZ, SplitPK.toK, b1, b2, hu, List.length_nil]; omega

omit hC in
theorem readVK_fails {O : Type} (E : KeyEnv G1) (evals : Bytes) (header : Phase2.Header) (o : O) :
    FailsWith (· = o) (readVK C E evals header) o := by
  unfold readVK
  exact .evals rfl fun _ _ _ _ => .evals rfl fun _ _ _ _ => .evals rfl fun _ _ _ _ => .ph2 rfl fun _ _ _ _ => .ph2 rfl fun _ _ _ _ =>
    .seek rfl (.evals rfl fun _ _ _ _ => .evals rfl fun _ _ _ _ => .lift rfl fun _ _ => fun _ _ _ _ h => by simp at h)

omit hC in
/-- nothing is written before the key has been read -/
theorem readVK_then {O : Type} (E : KeyEnv G1) (evals : Bytes) (header : Phase2.Header) (o : O)
    (k : VerifyingKey G1 G2 → Go (KeySt O) Unit) (hk : ∀ vk o', FailsWith (fun _ => False) (k vk) o') :
    FailsWith (· = o) (readVK C E evals header >>= k) o := by
  intro r1 r2 e s' hr
  cases hx : (readVK (O := O) C E evals header).run ⟨r1, r2, o⟩ with
  | mk r st =>
    cases r with
    | error e' =>
      rw [Go.bind_error hx] at hr
      simp only [Prod.mk.injEq] at hr
      rw [← hr.2]
      exact readVK_fails E evals header o _ _ _ _ hx
    | ok vk =>
      rw [Go.bind_ok hx] at hr
      exact (hk vk st.out _ _ _ _ hr).elim

omit hC in
theorem extract_fails {O : Type} (H : Phase2.HeaderCodec) (ph2 evals : Bytes) (empty : O) (body : Phase2.Header → Go (KeySt O) Unit)
    (P : O → Prop) (h : ∀ header rd, (Phase2.Header.read H).run (Rd.buffered 4096 ph2) = (.ok header, rd) → FailsWith P (body header) empty)
    {e : Fail} {o : Option O} (hr : extract H ph2 evals empty body = (.error e, o)) : o = none ∨ ∃ out, o = some out ∧ P out := by
  unfold extract at hr
  split at hr
  · simp only [Prod.mk.injEq] at hr
    exact .inl hr.2.symm
  · rename_i header rd hh
    simp only [Prod.mk.injEq] at hr
    exact .inr ⟨_, hr.2.symm, h header rd hh _ _ _ _ (Prod.ext hr.1 rfl)⟩

omit hC in
theorem extract_created {O : Type} (H : Phase2.HeaderCodec) (ph2 evals : Bytes) (empty : O) (body : Phase2.Header → Go (KeySt O) Unit)
    {o : Option O} (hr : extract H ph2 evals empty body = (.ok (), o)) :
    (∃ out, o = some out) ∧ ∃ header rd, (Phase2.Header.read H).run (Rd.buffered 4096 ph2) = (.ok header, rd) := by
  unfold extract at hr
  split at hr
  · simp at hr
  · rename_i header rd hh
    simp only [Prod.mk.injEq] at hr
    exact ⟨⟨_, hr.2.symm⟩, header, rd, hh⟩

omit hC in
theorem extract_some_of_header {O : Type} (H : Phase2.HeaderCodec) (ph2 evals : Bytes) (empty : O) (body : Phase2.Header → Go (KeySt O) Unit)
    {header : Phase2.Header} {rd : Rd} (h : (Phase2.Header.read H).run (Rd.buffered 4096 ph2) = (.ok header, rd)) :
    (extract H ph2 evals empty body).2 ≠ none := by
  unfold extract
  rw [h]
  simp

end
end OneRun

open OneRun

section
variable {F G1 G2 GT : Type} [Field F] [AddCommGroup G1] [Module F G1] [AddCommGroup G2]
  [Module F G2] [AddCommGroup GT] [Module F GT] [DecidableEq G1] [DecidableEq G2] [DecidableEq GT]
variable {C : Curve F G1 G2 GT} (hC : C.Lawful)
include hC

/-- The counts in the header of a phase 2 file are numbers of points that gnark's `uint32` can hold. -/
def SmallHeader (H : Phase2.HeaderCodec) (ph2 : Bytes) : Prop :=
  ∀ h rd, (Phase2.Header.read H).run (Rd.buffered 4096 ph2) = (.ok h, rd) → h.domain ≤ 2 ^ 32 ∧ h.witness < 2 ^ 32

omit hC in
theorem bothKeys_fails {P V : Type} {pk : Except Fail Unit × Option P} {vk : Except Fail Unit × Option V} {e : Fail} {fl : KeyFiles P V}
    (h : bothKeys pk vk = (.error e, fl)) :
    ((∃ e, pk = (.error e, fl.pk)) ∧ fl.vk = none) ∨ (pk = (.ok (), fl.pk) ∧ ∃ e, vk = (.error e, fl.vk)) := by
  obtain ⟨p, po⟩ := pk
  obtain ⟨v, vo⟩ := vk
  cases p with
  | error e' =>
    simp only [bothKeys, Prod.mk.injEq] at h
    obtain ⟨-, rfl⟩ := h
    exact .inl ⟨⟨_, rfl⟩, rfl⟩
  | ok a =>
    simp only [bothKeys, Prod.mk.injEq] at h
    obtain ⟨rfl, rfl⟩ := h
    exact .inr ⟨rfl, _, rfl⟩

/-- **C71**, one extraction: if `ExtractKeys` fails, then either neither file has been touched, or `pk` is no complete proving key and
`vk` has not been touched, or `pk` is the complete result and `vk` is empty. -/
theorem C71_failed (E : KeyEnv G1) (L : Nat) (hL : ∀ n, (E.domain n).length = L) (ph2 evals : Bytes) (hs : SmallHeader E.header ph2)
    (e : Fail) (fl : KeyFiles Bytes Bytes) (h : extractKeys C E ph2 evals = (.error e, fl)) :
    (fl.pk = none ∧ fl.vk = none) ∨ (∃ pk, fl.pk = some pk ∧ ¬ IsPK C L pk ∧ fl.vk = none) ∨
      (∃ pk, fl.pk = some pk ∧ extractPK C E ph2 evals = (.ok (), some pk) ∧ fl.vk = some []) := by
  obtain ⟨⟨e', hp⟩, hv⟩ | ⟨hp, e', hv⟩ := bothKeys_fails h
  · obtain hn | ⟨out, ho, hP⟩ := extract_fails _ _ _ _ _ _ (fun header rd hh => pkBody_fails hC E L hL header (hs _ _ hh).1 (hs _ _ hh).2) hp
    · exact .inl ⟨hn, hv⟩
    · exact .inr (.inl ⟨out, ho, hP, hv⟩)
  · obtain ⟨⟨out, ho⟩, header, rd, hh⟩ := extract_created _ _ _ _ _ hp
    refine .inr (.inr ⟨out, ho, by rw [hp, ho], ?_⟩)
    obtain hn | ⟨vk, hvk, hP⟩ := extract_fails _ _ _ _ _ (· = ([] : Bytes))
      (fun header rd hh => readVK_then E evals header [] _ fun _ _ => .last) hv
    · have := extract_some_of_header E.header ph2 evals [] (vkBody C E evals) hh
      rw [show extract E.header ph2 evals [] (vkBody C E evals) = extractVK C E ph2 evals from rfl, hv] at this
      exact absurd hn this
    · rw [hvk, hP]

/-- **C71**, one extraction of split keys: if `ExtractSplitKeys` fails, then either no file has been touched, or the first file of
the proving key is incomplete and the files of the verifying key have not been touched, or the six files of the proving key are the
complete result, `.vk.save` is empty and `.pk.CommitmentKey.save` has not been touched. -/
theorem C71_split_failed (E : KeyEnv G1) (ph2 evals : Bytes) (e : Fail) (fl : KeyFiles SplitPK SplitVK)
    (h : extractSplitKeys C E ph2 evals = (.error e, fl)) :
    (fl.pk = none ∧ fl.vk = none) ∨ (∃ pk, fl.pk = some pk ∧ ¬ IsSplitE C pk.e ∧ fl.vk = none) ∨
      (∃ pk, fl.pk = some pk ∧ extractSplitPK C E ph2 evals = (.ok (), some pk) ∧ fl.vk = some ⟨[], none⟩) := by
  obtain ⟨⟨e', hp⟩, hv⟩ | ⟨hp, e', hv⟩ := bothKeys_fails h
  · obtain hn | ⟨out, ho, hP⟩ := extract_fails _ _ _ _ _ _ (fun header rd hh => splitPkBody_fails hC header) hp
    · exact .inl ⟨hn, hv⟩
    · exact .inr (.inl ⟨out, ho, hP, hv⟩)
  · obtain ⟨⟨out, ho⟩, header, rd, hh⟩ := extract_created _ _ _ _ _ hp
    refine .inr (.inr ⟨out, ho, by rw [hp, ho], ?_⟩)
    obtain hn | ⟨vk, hvk, hP⟩ := extract_fails _ _ _ _ _ (· = (⟨[], none⟩ : SplitVK))
      (fun header rd hh => readVK_then E evals header _ _ fun _ _ => .write .last) hv
    · have := extract_some_of_header E.header ph2 evals ⟨[], none⟩ (splitVkBody C E evals) hh
      rw [show extract E.header ph2 evals ⟨[], none⟩ (splitVkBody C E evals) = extractSplitVK C E ph2 evals from rfl, hv] at this
      exact absurd hn this
    · rw [hvk, hP]

/-! ### The directory -/

/-- If the directory has a complete proving key and a complete verifying key, then one extraction has made both. -/
def KeysOfOneRun (C : Curve F G1 G2 GT) (E : KeyEnv G1) (L : Nat) (fs : FS) : Prop :=
  ∀ pk vk, fs "pk" = some pk → fs "vk" = some vk → IsPK C L pk → IsVK C vk →
    ∃ ph2 evals, extractPK C E ph2 evals = (.ok (), some pk) ∧ extractVK C E ph2 evals = (.ok (), some vk)

/-- The commands of the tool that leave `pk` and `vk` to the extraction: those that do not write the two files, and `key` with the
name of a phase 2 file other than `pk`. -/
def LeavesKeys (E : KeyEnv G1) (name : String) (args : List String) (fs : FS) : Prop :=
  ("pk" ∉ outputs name args ∧ "vk" ∉ outputs name args) ∨
    ∃ path, name = "key" ∧ args = [path] ∧ path ≠ "pk" ∧ ∀ ph2, fs path = some ph2 → SmallHeader E.header ph2

theorem not_isVK_nil : ¬ IsVK C [] := by
  rintro ⟨ck, info, k, h⟩
  have h' := congrArg List.length h
  have b1 := hC.codec1.raw_length k.alpha1
  have b0 := hC.codec1.size_pos
  simp only [VerifyKey.encode, List.length_append, List.length_nil, b1] at h'
  omega

omit hC in
/-- what `key` does to the two files -/
theorem key_files (E : Env F G1) (d : Draws F) (path : String) (fs : FS) (hp : path ≠ "pk") :
    (exec C E d "key" [path] fs).2 = fs ∨ ∃ ph2 evals, fs path = some ph2 ∧ fs "evals" = some evals ∧
      let r := extractKeys C E.keys ph2 evals
      (exec C E d "key" [path] fs).1 = r.1 ∧
      (exec C E d "key" [path] fs).2 "pk" = (r.2.pk <|> fs "pk") ∧ (exec C E d "key" [path] fs).2 "vk" = (r.2.vk <|> fs "vk") := by
  cases h1 : fs path with
  | none => left; simp [exec, key, inOrder, withFiles, openFile, arg, h1]
  | some ph2 =>
  cases h2 : fs "evals" with
  | none => left; simp [exec, key, inOrder, withFiles, openFile, arg, h1, h2]
  | some evals =>
  right
  refine ⟨ph2, evals, rfl, rfl, ?_⟩
  simp only [exec, key, inOrder, withFiles, openFile, arg, List.getD_cons_zero, h1, h2, extractKeys]
  rcases hpk : extractPK C E.keys ph2 evals with ⟨rp, op⟩
  cases rp with
  | error e => cases op <;> simp [bothKeys, FS.set]
  | ok a =>
    rcases hvk : extractVK C E.keys ph2 evals with ⟨rv, ov⟩
    cases op <;> cases ov <;> simp [bothKeys, FS.set, h1, h2, hp, hvk]

/-- **C71**, one command: it keeps the property that complete keys in the directory come from one run, whether it succeeds or not. -/
theorem C71_step (E : Env F G1) (L : Nat) (hL : ∀ n, (E.keys.domain n).length = L) (d : Draws F) (name : String) (args : List String)
    (fs : FS) (hc : LeavesKeys E.keys name args fs) (h : KeysOfOneRun C E.keys L fs) :
    KeysOfOneRun C E.keys L (exec C E d name args fs).2 := by
  obtain ⟨h1, h2⟩ | ⟨path, rfl, rfl, hp, hs⟩ := hc
  · intro pk vk hpk hvk
    rw [C45_frame_partial E d name args fs _ h1] at hpk
    rw [C45_frame_partial E d name args fs _ h2] at hvk
    exact h pk vk hpk hvk
  · obtain h0 | ⟨ph2, evals, a1, a2, a3, a4, a5⟩ := key_files (C := C) E d path fs hp
    · rw [h0]; exact h
    · intro pk vk hpk hvk ipk ivk
      rw [a4] at hpk
      rw [a5] at hvk
      rcases hr : extractKeys C E.keys ph2 evals with ⟨r, fl⟩
      rw [hr] at hpk hvk
      cases r with
      | error e =>
        obtain ⟨b1, b2⟩ | ⟨pk', b1, b2, b3⟩ | ⟨pk', b1, b2, b3⟩ := C71_failed hC E.keys L hL ph2 evals (hs ph2 a1) e fl hr
        · rw [b1] at hpk
          rw [b2] at hvk
          exact h pk vk hpk hvk ipk ivk
        · rw [b1] at hpk
          cases hpk
          exact absurd ipk b2
        · rw [b3] at hvk
          cases hvk
          exact absurd ivk (not_isVK_nil hC)
      | ok a =>
        rcases hx : extractPK C E.keys ph2 evals with ⟨rp, op⟩
        rcases hy : extractVK C E.keys ph2 evals with ⟨rv, ov⟩
        rw [extractKeys, hx, hy] at hr
        cases rp with
        | error e => simp [bothKeys] at hr
        | ok a' =>
          simp only [bothKeys, Prod.mk.injEq] at hr
          obtain ⟨rfl, rfl⟩ := hr
          obtain ⟨⟨o1, rfl⟩, -⟩ := extract_created _ _ _ _ _ hx
          obtain ⟨⟨o2, rfl⟩, -⟩ := extract_created _ _ _ _ _ hy
          cases hpk
          cases hvk
          exact ⟨ph2, evals, hx, hy⟩

/-- every command of the sequence leaves the keys to the extraction, in the directory it finds -/
def AllLeaveKeys (C : Curve F G1 G2 GT) (E : Env F G1) : List (Command F) → FS → Prop
  | [], _ => True
  | c :: cs, fs => LeavesKeys E.keys c.name c.args fs ∧ AllLeaveKeys C E cs (exec C E c.draws c.name c.args fs).2

/-- **C71**: whatever sequence of commands is run, and whichever of them fail, complete keys found in the directory come from one
run of the extraction. -/
theorem C71_session (E : Env F G1) (L : Nat) (hL : ∀ n, (E.keys.domain n).length = L) (cmds : List (Command F)) (fs : FS)
    (hc : AllLeaveKeys C E cmds fs) (h : KeysOfOneRun C E.keys L fs) : KeysOfOneRun C E.keys L (execAll C E cmds fs) := by
  induction cmds generalizing fs with
  | nil => exact h
  | cons c cs ih => exact ih _ hc.2 (C71_step hC E L hL c.draws c.name c.args fs hc.1 h)

omit hC in
/-- A directory without keys has the property. -/
theorem C71_start (E : KeyEnv G1) (L : Nat) (fs : FS) (h : fs "pk" = none ∨ fs "vk" = none) : KeysOfOneRun C E L fs := by
  intro pk vk h1 h2
  obtain h | h := h
  · rw [h] at h1; cases h1
  · rw [h] at h2; cases h2

end

/-! ### non-triviality -/

namespace Toy

/-- evaluations for `p2`, with some points at infinity -/
def p2evals : Evals K K := ⟨1, 2, 3, [1, 0, 2, 3, 4], [0, 0, 5, 6, 7], [0, 0, 5, 6, 7], [8, 9], [], []⟩

def p2bytes : Bytes := p2.encode curve Gob.headerCodec

def p2evalsBytes : Bytes := p2evals.encode curve

/-- the directory before the extraction -/
def keyDir (evals : Bytes) : FS := FS.set (FS.set (fun _ => none) "ph2" p2bytes) "evals" evals

theorem p2bytes_small : SmallHeader keyEnv.header p2bytes := by
  have hc : (match ((Phase2.Header.read Gob.headerCodec).run (Rd.buffered 4096 p2bytes)).1 with
    | .ok h => decide (h.domain ≤ 2 ^ 32 ∧ h.witness < 2 ^ 32)
    | .error _ => true) = true := by decide +kernel
  intro h rd hr
  rw [show keyEnv.header = Gob.headerCodec from rfl] at hr
  rw [hr] at hc
  exact of_decide_eq_true hc

/-- how an extraction ends: whether it succeeds, and the lengths of the two files -/
def keyLengths (r : Except Fail Unit × KeyFiles Bytes Bytes) : Bool × Option Nat × Option Nat :=
  (match r.1 with | .ok _ => true | .error _ => false, r.2.pk.map List.length, r.2.vk.map List.length)

def splitLengths (r : Except Fail Unit × KeyFiles SplitPK SplitVK) : Bool × Option (Nat × Nat) × Option (Nat × Option Nat) :=
  (match r.1 with | .ok _ => true | .error _ => false, r.2.pk.map fun o => (o.e.length, o.b2.length),
    r.2.vk.map fun o => (o.vk.length, o.commitmentKey.map List.length))

end Toy

-- the extraction of one pair of keys, with evaluations that are complete, cut in the verifying key, and cut in the proving key
example : Toy.keyLengths (extractKeys Toy.curve Toy.keyEnv Toy.p2bytes Toy.p2evalsBytes) = (true, some 894, some 710) := by decide +kernel
example : Toy.keyLengths (extractKeys Toy.curve Toy.keyEnv Toy.p2bytes (Toy.p2evalsBytes.take 800)) = (false, some 894, some 0) := by
  decide +kernel
example : Toy.keyLengths (extractKeys Toy.curve Toy.keyEnv Toy.p2bytes (Toy.p2evalsBytes.take 300)) = (false, some 236, none) := by
  decide +kernel
example : Toy.keyLengths (extractKeys Toy.curve Toy.keyEnv (Toy.p2bytes.take 10) Toy.p2evalsBytes) = (false, none, none) := by
  decide +kernel
example : Toy.splitLengths (extractSplitKeys Toy.curve Toy.keyEnv Toy.p2bytes Toy.p2evalsBytes) = (true, some (490, 388), some (710, some 2)) := by
  decide +kernel
example : Toy.splitLengths (extractSplitKeys Toy.curve Toy.keyEnv Toy.p2bytes (Toy.p2evalsBytes.take 800)) = (false, some (490, 388), some (0, none)) := by
  decide +kernel
example : Toy.splitLengths (extractSplitKeys Toy.curve Toy.keyEnv Toy.p2bytes (Toy.p2evalsBytes.take 300)) = (false, some (200, 0), none) := by
  decide +kernel

-- each of the three cases of `C71_failed` and `C71_split_failed` occurs above
example := fun e fl => C71_failed Toy.lawful Toy.keyEnv 8 (fun _ => beBytes_length _ _) Toy.p2bytes (Toy.p2evalsBytes.take 800) Toy.p2bytes_small e fl
example := fun e fl => C71_split_failed Toy.lawful Toy.keyEnv Toy.p2bytes (Toy.p2evalsBytes.take 300) e fl

-- a session: an extraction, a command that spoils `evals`, an extraction that fails
example : KeysOfOneRun Toy.curve Toy.keyEnv 8 (execAll Toy.curve Toy.cliEnv
    [⟨Toy.draws, "key", ["ph2"]⟩, ⟨Toy.draws, "p1n", ["3", "evals"]⟩, ⟨Toy.draws, "key", ["ph2"]⟩] (Toy.keyDir Toy.p2evalsBytes)) := by
  have h0 : Toy.keyDir Toy.p2evalsBytes "ph2" = some Toy.p2bytes := by simp [Toy.keyDir, FS.set]
  refine C71_session Toy.lawful Toy.cliEnv 8 (fun _ => beBytes_length _ _) _ _ ⟨.inr ⟨"ph2", rfl, rfl, by decide, ?_⟩,
    .inl (by simp [outputs]), .inr ⟨"ph2", rfl, rfl, by decide, ?_⟩, trivial⟩ (C71_start _ _ _ (.inl rfl))
  · intro ph2 h
    rw [h0] at h
    exact Option.some.inj h ▸ Toy.p2bytes_small
  · intro ph2 h
    rw [C45_frame_partial _ _ _ _ _ _ (by simp [outputs]), C45_frame_partial _ _ _ _ _ _ (by simp [outputs]), h0] at h
    exact Option.some.inj h ▸ Toy.p2bytes_small

end ZkSetup
