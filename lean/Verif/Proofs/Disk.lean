import Verif.Model.Disk
/-
What is on the disk after writing through `bufio.Writer`s while the disk fills up.
-/
set_option linter.unusedSectionVars false

namespace ZkSetup.Disk

theorem take_append_of_ge {α : Type} {xs : List α} {k : Nat} (h : k ≤ xs.length) (ys : List α) :
    (xs ++ ys).take k = xs.take k := List.take_append_of_le_length h

/-- The writer has been given the bytes `T` in all: without an error they are in the file and the buffer, after an error the
file holds what fits. -/
structure Holds (cap size : Nat) (T : Bytes) (w : Writer) : Prop where
  capEq : w.file.cap = cap
  sizeEq : w.size = size
  buf : w.buf.length ≤ size
  fits : w.file.data.length ≤ cap
  good : w.failed = false → w.file.data ++ w.buf = T
  bad : w.failed = true → cap < T.length ∧ w.file.data = T.take cap

variable {cap size : Nat} {T : Bytes} {w : Writer}

theorem File.write_data (f : File) (p : Bytes) (h : f.data.length ≤ f.cap) :
    (f.write p).2.data = (f.data ++ p).take f.cap ∧ (f.write p).2.cap = f.cap ∧
      (f.write p).2.data.length ≤ f.cap ∧
      ((f.write p).1 = true → (f.write p).2.data = f.data ++ p) ∧
      ((f.write p).1 = false → f.cap < (f.data ++ p).length) := by
  have h1 : (f.write p).2.data = (f.data ++ p).take f.cap := by
    simp only [File.write]
    rw [List.take_append, List.take_of_length_le h]
  refine ⟨h1, rfl, by rw [h1]; simp, ?_, ?_⟩
  · intro hok
    simp only [File.write, decide_eq_true_eq] at hok
    rw [h1, List.take_of_length_le (by rw [List.length_append]; exact hok)]
  · intro hok
    simp only [File.write, decide_eq_false_iff_not] at hok
    rw [List.length_append]; omega

theorem Holds.flush (h : Holds cap size T w) : Holds cap size T w.flush := by
  unfold Writer.flush
  cases hfl : w.failed with
  | true => simpa [hfl] using h
  | false =>
    have hg := h.good hfl
    obtain ⟨a1, a2, a3, a4, a5⟩ := File.write_data w.file w.buf (by rw [h.capEq]; exact h.fits)
    rw [if_neg (by simp)]
    cases hok : (w.file.write w.buf).1 with
    | true =>
      rw [if_pos rfl]
      exact ⟨by simp only; rw [a2, h.capEq], h.sizeEq, by simp, by simp only; rw [← h.capEq]; exact a3,
        fun _ => by simp only; rw [a4 hok, List.append_nil, hg], fun hb => by simp [hfl] at hb⟩
    | false =>
      rw [if_neg (by simp)]
      have := a5 hok
      rw [hg, h.capEq] at this
      exact ⟨by simp only; rw [a2, h.capEq], h.sizeEq, by simp, by simp only; rw [← h.capEq]; exact a3,
        fun hb => by simp at hb, fun _ => ⟨this, by simp only; rw [a1, hg, h.capEq]⟩⟩

theorem flush_buf (hf : w.failed = false) : w.flush.buf = [] := by
  unfold Writer.flush
  rw [hf, if_neg (by simp)]
  split <;> rfl

/-- after a `Flush` the file holds what fits of everything -/
theorem Holds.flushed (h : Holds cap size T w) : w.flush.file.data = T.take cap := by
  have h' := h.flush
  cases hfl : w.flush.failed with
  | true => exact (h'.bad hfl).2
  | false =>
    have hw : w.failed = false := by
      cases hw : w.failed with
      | false => rfl
      | true => rw [Writer.flush, if_pos hw, hw] at hfl; exact absurd hfl (by simp)
    have hg := h'.good hfl
    rw [flush_buf hw, List.append_nil] at hg
    have := h'.fits
    rw [hg] at this ⊢
    rw [List.take_of_length_le this]

theorem Holds.direct (h : Holds cap size T w) (hf : w.failed = false) (hb : w.buf = []) (p : Bytes) :
    Holds cap size (T ++ p) (w.direct p) := by
  have hg := h.good hf
  rw [hb, List.append_nil] at hg
  obtain ⟨a1, a2, a3, a4, a5⟩ := File.write_data w.file p (by rw [h.capEq]; exact h.fits)
  refine ⟨by simp only [Writer.direct]; rw [a2, h.capEq], h.sizeEq, h.buf,
    by simp only [Writer.direct]; rw [← h.capEq]; exact a3, ?_, ?_⟩
  · intro hok
    simp only [Writer.direct, Bool.not_eq_false'] at hok
    simp only [Writer.direct, hb, List.append_nil]
    rw [a4 hok, hg]
  · intro hok
    simp only [Writer.direct, Bool.not_eq_true'] at hok
    have := a5 hok
    rw [hg, h.capEq] at this
    simp only [Writer.direct]
    exact ⟨this, by rw [a1, hg, h.capEq]⟩

theorem Holds.put (h : Holds cap size T w) (hf : w.failed = false) (hb : w.buf = []) (p : Bytes) :
    Holds cap size (T ++ p) (w.put p) := by
  unfold Writer.put
  split
  · rename_i hp
    have hg := h.good hf
    rw [hb, List.append_nil] at hg
    exact ⟨h.capEq, h.sizeEq, by simp only; rw [← h.sizeEq]; exact hp, h.fits, fun _ => by simp only; rw [hg],
      fun hb => by simp [hf] at hb⟩
  · exact h.direct hf hb p

theorem Holds.write (h : Holds cap size T w) (p : Bytes) : Holds cap size (T ++ p) (w.write p) := by
  unfold Writer.write
  by_cases hf : w.failed = true
  · rw [if_pos hf]
    obtain ⟨b1, b2⟩ := h.bad hf
    exact ⟨h.capEq, h.sizeEq, h.buf, h.fits, fun hg => by simp [hf] at hg,
      fun _ => ⟨by rw [List.length_append]; omega, by rw [take_append_of_ge (by omega), b2]⟩⟩
  · rw [if_neg hf]
    have hf : w.failed = false := by simpa using hf
    have hg := h.good hf
    split
    · rename_i hp
      rw [h.sizeEq] at hp
      have := h.buf
      exact ⟨h.capEq, h.sizeEq, by simp only [List.length_append]; omega, h.fits,
        fun _ => by simp only; rw [← List.append_assoc, hg], fun hb => by simp [hf] at hb⟩
    · rename_i hp
      split
      · rename_i he
        exact h.direct hf (List.isEmpty_iff.mp he) p
      · simp only
        have h1 : Holds cap size (T ++ p.take (w.size - w.buf.length))
            { w with buf := w.buf ++ p.take (w.size - w.buf.length) } := by
          have := h.buf
          refine ⟨h.capEq, h.sizeEq, ?_, h.fits, fun _ => by simp only; rw [← List.append_assoc, hg],
            fun hb => by simp [hf] at hb⟩
          have := h.sizeEq
          simp only [List.length_append, List.length_take]
          omega
        have h2 := h1.flush
        have hnil : ({ w with buf := w.buf ++ p.take (w.size - w.buf.length) } : Writer).flush.buf = [] := flush_buf hf
        split
        · rename_i hff
          obtain ⟨b1, b2⟩ := h2.bad hff
          refine ⟨h2.capEq, h2.sizeEq, h2.buf, h2.fits, fun hg => by simp [hff] at hg, fun _ => ?_⟩
          have e : T ++ p = (T ++ p.take (w.size - w.buf.length)) ++ p.drop (w.size - w.buf.length) := by
            rw [List.append_assoc, List.take_append_drop]
          rw [e]
          exact ⟨by rw [List.length_append]; omega, by rw [take_append_of_ge (by omega)]; exact b2⟩
        · rename_i hff
          have h3 := h2.put (by simpa using hff) hnil (p.drop (w.size - w.buf.length))
          rwa [List.append_assoc, List.take_append_drop] at h3

/-- everything the calls are given -/
def allBytes (cs : List Call) : Bytes := cs.flatMap (·.bytes)

theorem allBytes_append (cs ds : List Call) : allBytes (cs ++ ds) = allBytes cs ++ allBytes ds := List.flatMap_append

theorem runCalls_holds (cs : List Call) : ∀ (w : Writer) (T : Bytes), Holds cap size T w →
    ((runCalls w cs).1 = true → Holds cap size (T ++ allBytes cs) (runCalls w cs).2) ∧
    ((runCalls w cs).1 = false → cap < (T ++ allBytes cs).length ∧ (runCalls w cs).2.failed = true ∧
      (runCalls w cs).2.file.data = (T ++ allBytes cs).take cap ∧ (runCalls w cs).2.file.cap = cap) := by
  induction cs with
  | nil => intro w T h; exact ⟨fun _ => by simpa [runCalls, allBytes] using h, fun hb => by simp [runCalls] at hb⟩
  | cons c cs ih =>
    intro w T h
    have hw := h.write c.bytes
    rw [runCalls]
    have e : T ++ allBytes (c :: cs) = (T ++ c.bytes) ++ allBytes cs := by simp [allBytes]
    split
    · rename_i hc
      refine ⟨fun hb => by simp at hb, fun _ => ?_⟩
      simp only [Bool.and_eq_true] at hc
      obtain ⟨b1, b2⟩ := hw.bad hc.2
      rw [e]
      refine ⟨by rw [List.length_append]; omega, hc.2, by rw [take_append_of_ge (by omega)]; exact b2, hw.capEq⟩
    · rw [e]
      exact ih _ _ hw

/-- calls that are not checked never stop the function -/
theorem runCalls_unchecked (cs : List Call) (h : ∀ c ∈ cs, c.checked = false) : ∀ w, (runCalls w cs).1 = true := by
  induction cs with
  | nil => intro w; rfl
  | cons c cs ih =>
    intro w
    rw [runCalls, h c (by simp), Bool.false_and, if_neg (by simp)]
    exact ih (fun c hc => h c (by simp [hc])) _

theorem runCalls_append (cs ds : List Call) : ∀ w, runCalls w (cs ++ ds)
    = if (runCalls w cs).1 then runCalls (runCalls w cs).2 ds else runCalls w cs := by
  induction cs with
  | nil => intro w; rfl
  | cons c cs ih =>
    intro w
    simp only [List.cons_append, runCalls]
    split
    · simp
    · rw [ih]

/-- If checked calls after a good state pass, no error has happened. -/
theorem runCalls_checked (cs : List Call) (h : ∀ c ∈ cs, c.checked = true) : ∀ w, w.failed = false →
    (runCalls w cs).1 = true → (runCalls w cs).2.failed = false := by
  induction cs with
  | nil => intro w hw _; exact hw
  | cons c cs ih =>
    intro w hw hr
    rw [runCalls, h c (by simp), Bool.true_and] at hr ⊢
    split at hr
    · simp at hr
    · rename_i hf
      rw [if_neg hf]
      exact ih (fun c hc => h c (by simp [hc])) _ (by simpa using hf) hr

theorem new_holds (f : File) (hf : f.data.length ≤ f.cap) (size : Nat) : Holds f.cap size f.data ⟨f, size, [], false⟩ :=
  ⟨rfl, rfl, Nat.zero_le _, hf, fun _ => List.append_nil _, fun h => by simp at h⟩

theorem flush_cap (w : Writer) : w.flush.file.cap = w.file.cap := by
  unfold Writer.flush
  split
  · rfl
  · split <;> rfl

/-- everything a part is given -/
def Part.all (p : Part) : Bytes := allBytes p.calls

/-- One part: the file holds what fits, and the part only stops if not everything fits. -/
theorem runPart_spec (f : File) (hf : f.data.length ≤ f.cap) (p : Part) :
    (runPart f p).2.cap = f.cap ∧ (runPart f p).2.data = (f.data ++ p.all).take f.cap ∧
      ((runPart f p).1 = false → f.cap < (f.data ++ p.all).length) := by
  obtain ⟨h1, h2⟩ := runCalls_holds p.calls _ _ (new_holds f hf p.size)
  unfold runPart Part.all
  simp only
  cases hr : (runCalls ⟨f, p.size, [], false⟩ p.calls).1 with
  | true =>
    have := h1 hr
    exact ⟨by rw [flush_cap, this.capEq], this.flushed, fun hb => by simp at hb⟩
  | false =>
    obtain ⟨a, b, c, d⟩ := h2 hr
    refine ⟨by rw [flush_cap, d], ?_, fun _ => a⟩
    rw [Writer.flush, if_pos b, c]

/-- everything the parts are given -/
def allParts (ps : List Part) : Bytes := ps.flatMap Part.all

/-- **The disk afterwards**: whatever is reported, the file holds as much of the whole output as fits. An error is only
reported if not everything fits. -/
theorem runParts_spec (ps : List Part) : ∀ (f : File), f.data.length ≤ f.cap →
    (runParts f ps).2.data = (f.data ++ allParts ps).take f.cap ∧ (runParts f ps).2.cap = f.cap ∧
      ((runParts f ps).1 = false → f.cap < (f.data ++ allParts ps).length) := by
  induction ps with
  | nil => intro f hf; simp [runParts, allParts, List.take_of_length_le hf]
  | cons p ps ih =>
    intro f hf
    obtain ⟨h1, h2, h3⟩ := runPart_spec f hf p
    have e : f.data ++ allParts (p :: ps) = (f.data ++ p.all) ++ allParts ps := by simp [allParts]
    rw [runParts]
    cases hr : (runPart f p).1 with
    | false =>
      have := h3 hr
      rw [if_neg (by simp), e]
      exact ⟨by rw [take_append_of_ge (by omega)]; exact h2, h1, fun _ => by rw [List.length_append]; omega⟩
    | true =>
      rw [if_pos rfl, e]
      obtain ⟨i1, i2, i3⟩ := ih (runPart f p).2 (by rw [h1, h2]; simp)
      rw [h1, h2] at i1 i3
      refine ⟨?_, by rw [i2, h1], ?_⟩
      · rw [i1]
        rcases Nat.lt_or_ge f.cap (f.data ++ p.all).length with hl | hl
        · rw [take_append_of_ge (xs := List.take f.cap (f.data ++ p.all)) (by rw [List.length_take]; omega), List.take_take,
            Nat.min_self, take_append_of_ge (xs := f.data ++ p.all) (by omega)]
        · rw [List.take_of_length_le hl]
      · intro hb
        have := i3 hb
        simp only [List.length_append, List.length_take] at this ⊢
        omega

theorem runParts_append (ps qs : List Part) : ∀ f, runParts f (ps ++ qs)
    = if (runParts f ps).1 then runParts (runParts f ps).2 qs else runParts f ps := by
  induction ps with
  | nil => intro f; rfl
  | cons p ps ih =>
    intro f
    simp only [List.cons_append, runParts]
    split
    · rw [ih]
    · simp

theorem pieces_all (ch : Bool) : ∀ (ks : List Nat) (out : Bytes), ks ≠ [] → allBytes (pieces ch ks out) = out := by
  intro ks
  induction ks with
  | nil => intro out h; exact absurd rfl h
  | cons k ks ih =>
    intro out _
    cases ks with
    | nil => simp [pieces, allBytes]
    | cons k' ks =>
      have := ih (out.drop k) (by simp)
      unfold allBytes at this ⊢
      rw [pieces, List.flatMap_cons, this, List.take_append_drop]
      simp

theorem pieces_checked (ch : Bool) : ∀ (ks : List Nat) (out : Bytes), ∀ c ∈ pieces ch ks out, c.checked = ch := by
  intro ks
  induction ks with
  | nil => intro out c hc; simp [pieces] at hc
  | cons k ks ih =>
    intro out c hc
    cases ks with
    | nil => simp [pieces] at hc; rw [hc]
    | cons k' ks =>
      rw [pieces] at hc
      · rcases List.mem_cons.mp hc with rfl | hc
        · rfl
        · exact ih _ _ hc
      · simp

/-- A last part with checked calls, then unchecked ones. -/
theorem runPart_tail (f : File) (hf : f.data.length ≤ f.cap) (size : Nat) (cs ds : List Call)
    (hc : ∀ c ∈ cs, c.checked = true) (hd : ∀ c ∈ ds, c.checked = false) :
    ((f.data ++ allBytes cs).length ≤ f.cap → (runPart f ⟨size, cs ++ ds⟩).1 = true) ∧
    ((runPart f ⟨size, cs ++ ds⟩).1 = true → (f.data ++ allBytes cs).length ≤ f.cap + size) := by
  obtain ⟨h1, h2⟩ := runCalls_holds cs _ _ (new_holds f hf size)
  unfold runPart
  simp only
  rw [runCalls_append]
  constructor
  · intro hfit
    have hr : (runCalls ⟨f, size, [], false⟩ cs).1 = true := by
      by_contra hb
      have := (h2 (by simpa using hb)).1
      omega
    rw [if_pos hr]
    exact runCalls_unchecked ds hd _
  · intro hr
    have hr' : (runCalls ⟨f, size, [], false⟩ cs).1 = true := by
      by_contra hb
      rw [if_neg hb] at hr
      exact hb hr
    have hh := h1 hr'
    have hg := hh.good (runCalls_checked cs hc _ rfl hr')
    rw [← hg, List.length_append]
    have := hh.buf
    have := hh.fits
    omega

/-- small checked calls: a call that fits the buffer leaves at least its last byte there -/
theorem write_keeps (h : Holds cap size T w) (hf : w.failed = false) (p : Bytes) (hp : p ≠ []) (hps : p.length ≤ size)
    (hok : (T ++ p).length ≤ cap + 1) : (w.write p).failed = false := by
  by_contra hb
  have hb : (w.write p).failed = true := by simpa using hb
  have hg := h.good hf
  have hlp := List.length_pos_iff.mpr hp
  unfold Writer.write at hb
  rw [if_neg (by simp [hf])] at hb
  split at hb
  · simp [hf] at hb
  · rename_i hlt
    rw [h.sizeEq] at hlt
    split at hb
    · rename_i he
      rw [List.isEmpty_iff.mp he] at hlt
      simp at hlt; omega
    · simp only at hb
      have hbuf := h.buf
      have hsz := h.sizeEq
      have h1 : Holds cap size (T ++ p.take (w.size - w.buf.length))
          { w with buf := w.buf ++ p.take (w.size - w.buf.length) } :=
        ⟨h.capEq, h.sizeEq, by simp only [List.length_append, List.length_take]; omega, h.fits,
          fun _ => by simp only; rw [← List.append_assoc, hg], fun hb => by simp [hf] at hb⟩
      split at hb
      · rename_i hff
        have := (h1.flush.bad hff).1
        simp only [List.length_append, List.length_take] at this hok
        omega
      · rename_i hff
        unfold Writer.put at hb
        have hs2 := h1.flush.sizeEq
        rw [if_pos (by rw [hs2]; simp; omega)] at hb
        exact hff hb

theorem runCalls_keeps (cs : List Call) (hn : ∀ c ∈ cs, c.bytes ≠ [] ∧ c.bytes.length ≤ size) : ∀ (w : Writer) (T : Bytes),
    Holds cap size T w → w.failed = false → (T ++ allBytes cs).length ≤ cap + 1 → (runCalls w cs).1 = true := by
  induction cs with
  | nil => intro w T _ _ _; rfl
  | cons c cs ih =>
    intro w T h hf hok
    have e : T ++ allBytes (c :: cs) = (T ++ c.bytes) ++ allBytes cs := by simp [allBytes]
    rw [e] at hok
    obtain ⟨hn1, hn2⟩ := hn c (by simp)
    have hw := write_keeps h hf c.bytes hn1 hn2 (by rw [List.length_append] at hok; omega)
    rw [runCalls, hw, Bool.and_false, if_neg (by simp)]
    exact ih (fun c hc => hn c (by simp [hc])) _ _ (h.write c.bytes) hw hok

/-- While nothing has failed, whole buffers have been written: after `t` bytes, `(t-1)/size` of them. -/
theorem runCalls_exact (hs : 0 < size) (d0 : Nat) (cs : List Call) (hn : ∀ c ∈ cs, c.checked = true ∧ c.bytes.length ≤ size) :
    ∀ (w : Writer) (T : Bytes) (t : Nat), Holds cap size T w → w.failed = false → T.length = d0 + t →
      w.file.data.length = d0 + size * ((t - 1) / size) →
      ((runCalls w cs).1 = true ↔ d0 + size * ((t + (allBytes cs).length - 1) / size) ≤ cap) := by
  induction cs with
  | nil =>
    intro w T t h _ _ hd
    simp only [runCalls, allBytes, List.flatMap_nil, List.length_nil, Nat.add_zero, true_iff]
    rw [← hd]; exact h.fits
  | cons c cs ih =>
    intro w T t h hf hT hd
    obtain ⟨hc1, hc2⟩ := hn c (by simp)
    have hg := h.good hf
    have hbuf := h.buf
    have hsz := h.sizeEq
    have hw := h.write c.bytes
    have e : (allBytes (c :: cs)).length = c.bytes.length + (allBytes cs).length := by simp [allBytes]
    have hlen : w.file.data.length + w.buf.length = d0 + t := by rw [← hT, ← hg, List.length_append]
    have ih := ih fun c hc => hn c (by simp [hc])
    rw [runCalls, hc1, Bool.true_and, e, ← Nat.add_assoc]
    have hdm := Nat.div_add_mod (t - 1) size
    have hml := Nat.mod_lt (t - 1) hs
    by_cases hfit : c.bytes.length ≤ w.size - w.buf.length
    · have hwe : w.write c.bytes = { w with buf := w.buf ++ c.bytes } := by
        unfold Writer.write
        rw [if_neg (by simp [hf]), if_pos hfit]
      have hnf : (w.write c.bytes).failed = false := by rw [hwe]; exact hf
      rw [hnf, if_neg (by simp)]
      refine ih _ _ _ hw hnf (by rw [List.length_append]; omega) ?_
      rw [hwe]
      simp only
      rw [hd]
      congr 2
      rw [eq_comm, Nat.div_eq_iff hs]
      have : (t - 1) / size * size = size * ((t - 1) / size) := Nat.mul_comm _ _
      omega
    · have hne : w.buf ≠ [] := by
        intro h0
        rw [h0, hsz] at hfit
        simp at hfit; omega
      have hk : (t + c.bytes.length - 1) / size = (t - 1) / size + 1 := by
        rw [Nat.div_eq_iff hs]
        have : ((t - 1) / size + 1) * size = size * ((t - 1) / size) + size := by rw [Nat.mul_comm, Nat.mul_succ]
        have := List.length_pos_iff.mpr hne
        omega
      have hmono : (t - 1) / size + 1 ≤ (t + c.bytes.length + (allBytes cs).length - 1) / size := by
        rw [← hk]; exact Nat.div_le_div_right (by omega)
      have hwe : w.write c.bytes = (if ({ w with buf := w.buf ++ c.bytes.take (w.size - w.buf.length) } : Writer).flush.failed
          then ({ w with buf := w.buf ++ c.bytes.take (w.size - w.buf.length) } : Writer).flush
          else ({ w with buf := w.buf ++ c.bytes.take (w.size - w.buf.length) } : Writer).flush.put
            (c.bytes.drop (w.size - w.buf.length))) := by
        unfold Writer.write
        rw [if_neg (by simp [hf]), if_neg hfit, if_neg (by simpa using hne)]
      have h1 : Holds cap size (T ++ c.bytes.take (w.size - w.buf.length))
          { w with buf := w.buf ++ c.bytes.take (w.size - w.buf.length) } :=
        ⟨h.capEq, h.sizeEq, by simp only [List.length_append, List.length_take]; omega, h.fits,
          fun _ => by simp only; rw [← List.append_assoc, hg], fun hb => by simp [hf] at hb⟩
      have hTl : (T ++ c.bytes.take (w.size - w.buf.length)).length = d0 + size * ((t - 1) / size + 1) := by
        rw [List.length_append, List.length_take, Nat.mul_succ]
        omega
      by_cases hff : ({ w with buf := w.buf ++ c.bytes.take (w.size - w.buf.length) } : Writer).flush.failed = true
      · have hb := (h1.flush.bad hff).1
        rw [hwe, if_pos hff, if_pos hff]
        simp only [Bool.false_eq_true, false_iff, Nat.not_le]
        have := Nat.mul_le_mul_left size hmono
        omega
      · have hff' : ({ w with buf := w.buf ++ c.bytes.take (w.size - w.buf.length) } : Writer).flush.failed = false := by
          simpa using hff
        have hput : w.write c.bytes = { ({ w with buf := w.buf ++ c.bytes.take (w.size - w.buf.length) } : Writer).flush with
            buf := c.bytes.drop (w.size - w.buf.length) } := by
          rw [hwe, if_neg hff]
          unfold Writer.put
          rw [if_pos]
          have := h1.flush.sizeEq
          rw [this, List.length_drop]; omega
        have hnf : (w.write c.bytes).failed = false := by rw [hput]; exact hff'
        rw [hnf, if_neg (by simp)]
        refine ih _ _ _ hw hnf (by rw [List.length_append]; omega) ?_
        rw [hput, hk]
        simp only
        have hg' := h1.flush.good hff'
        rw [flush_buf (by exact hf), List.append_nil] at hg'
        rw [hg', hTl]

/-- Exactly when a part with small checked calls, then unchecked ones, carries on to its end: if its last full buffer can be
written. -/
theorem runPart_exact (f : File) (hf : f.data.length ≤ f.cap) {size : Nat} (hs : 0 < size) (cs ds : List Call)
    (hc : ∀ c ∈ cs, c.checked = true ∧ c.bytes.length ≤ size) (hd : ∀ c ∈ ds, c.checked = false) :
    (runPart f ⟨size, cs ++ ds⟩).1 = true
      ↔ f.data.length + size * (((allBytes cs).length - 1) / size) ≤ f.cap := by
  have h := runCalls_exact hs f.data.length cs hc _ f.data 0 (new_holds f hf size) rfl rfl (by simp)
  rw [Nat.zero_add] at h
  rw [← h]
  unfold runPart
  simp only
  rw [runCalls_append]
  constructor
  · intro hr
    by_contra hb
    rw [if_neg hb] at hr
    exact hb hr
  · intro hr
    rw [if_pos hr]
    exact runCalls_unchecked ds hd _

/-- writing without a buffer -/
theorem runPart_direct (f : File) (hf : f.data.length ≤ f.cap) (cs : List Call) (hc : ∀ c ∈ cs, c.checked = true) :
    (runPart f ⟨0, cs⟩).1 = true ↔ f.data.length + (allBytes cs).length ≤ f.cap := by
  obtain ⟨h1, h2⟩ := runPart_tail f hf 0 cs [] hc (by simp)
  rw [List.append_nil, List.length_append] at h1 h2
  exact ⟨h2, h1⟩

/-- the file after a part, if it held what fits of `T` -/
theorem runPart_file (cap : Nat) (T : Bytes) (p : Part) :
    (runPart ⟨cap, T.take cap⟩ p).2 = ⟨cap, (T ++ p.all).take cap⟩ := by
  obtain ⟨h1, h2, -⟩ := runPart_spec ⟨cap, T.take cap⟩ (by simp) p
  have : (T.take cap ++ p.all).take cap = (T ++ p.all).take cap := by
    rcases Nat.le_total cap T.length with hl | hl
    · rw [take_append_of_ge (by simp; omega), take_append_of_ge hl, List.take_take, Nat.min_self]
    · rw [List.take_of_length_le hl]
  simp only [this] at h1 h2
  cases hp : (runPart ⟨cap, T.take cap⟩ p).2 with
  | mk c d => rw [hp] at h1 h2; simp only at h1 h2; rw [h1, h2]

/-- parts are done one after the other -/
theorem runParts_cons_iff (cap : Nat) (T : Bytes) (p : Part) (ps : List Part) :
    (runParts ⟨cap, T.take cap⟩ (p :: ps)).1 = true
      ↔ (runPart ⟨cap, T.take cap⟩ p).1 = true ∧ (runParts ⟨cap, (T ++ p.all).take cap⟩ ps).1 = true := by
  rw [runParts, runPart_file]
  split
  · rename_i h; simp [h]
  · rename_i h; simp [h]

theorem buffered_iff (cap : Nat) (T : Bytes) {size : Nat} (hs : 0 < size) (cs ds : List Call)
    (hc : ∀ c ∈ cs, c.checked = true ∧ c.bytes.length ≤ size) (hd : ∀ c ∈ ds, c.checked = false) :
    (runPart ⟨cap, T.take cap⟩ ⟨size, cs ++ ds⟩).1 = true
      ↔ min cap T.length + size * (((allBytes cs).length - 1) / size) ≤ cap := by
  have := runPart_exact ⟨cap, T.take cap⟩ (by simp) hs cs ds hc hd
  simpa using this

theorem direct_iff (cap : Nat) (T : Bytes) (cs : List Call) (hc : ∀ c ∈ cs, c.checked = true) :
    (runPart ⟨cap, T.take cap⟩ ⟨0, cs⟩).1 = true ↔ min cap T.length + (allBytes cs).length ≤ cap := by
  have := runPart_direct ⟨cap, T.take cap⟩ (by simp) cs hc
  simpa using this

theorem unchecked_iff (f : File) (size : Nat) (cs : List Call) (hc : ∀ c ∈ cs, c.checked = false) :
    (runPart f ⟨size, cs⟩).1 = true := runCalls_unchecked cs hc _

theorem pieces_le (ch : Bool) (m : Nat) : ∀ (ks : List Nat) (out : Bytes), (∀ k ∈ ks, k ≤ m) → out.length ≤ ks.sum →
    ∀ c ∈ pieces ch ks out, c.checked = ch ∧ c.bytes.length ≤ m := by
  intro ks
  induction ks with
  | nil => intro out _ _ c hc; simp [pieces] at hc
  | cons k ks ih =>
    intro out hm hl c hc
    have hk := hm k (by simp)
    rw [List.sum_cons] at hl
    cases ks with
    | nil =>
      simp only [pieces, List.mem_singleton] at hc
      rw [hc]
      simp at hl
      exact ⟨rfl, by show out.length ≤ m; omega⟩
    | cons k' ks =>
      rw [pieces] at hc
      · rcases List.mem_cons.mp hc with rfl | hc
        · exact ⟨rfl, by simp; omega⟩
        · exact ih _ (fun k hk => hm k (by simp [hk])) (by rw [List.length_drop]; omega) c hc
      · simp

/-- what a function that wrote these parts has left on the disk and reports -/
theorem report_spec {α : Type} (cap : Nat) (a : α) (ps : List Part) (out : Bytes) (h : allParts ps = out) :
    (report cap a ps).2 = out.take cap ∧ (out.length ≤ cap → report cap a ps = (.ok a, out)) ∧
      ((∃ r, (report cap a ps).1 = .ok r) ↔ (runParts ⟨cap, []⟩ ps).1 = true) ∧
      (∀ r, (report cap a ps).1 = .ok r → r = a) := by
  obtain ⟨h1, -, h3⟩ := runParts_spec ps ⟨cap, []⟩ (Nat.zero_le _)
  simp only [List.nil_append, h] at h1 h3
  unfold report
  cases hr : (runParts ⟨cap, []⟩ ps).1 with
  | true =>
    rw [if_pos rfl]
    refine ⟨h1, fun hl => by rw [h1, List.take_of_length_le hl], by simp, ?_⟩
    intro r hr; exact (Except.ok.inj hr).symm
  | false =>
    rw [if_neg (by simp)]
    have := h3 hr
    refine ⟨h1, fun hl => by omega, by simp, ?_⟩
    intro r hr; simp at hr

end ZkSetup.Disk
