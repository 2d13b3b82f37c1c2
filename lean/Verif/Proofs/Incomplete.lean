import Verif.Props.Phase1Truncate
import Verif.Props.Phase2Truncate
import Verif.Props.Phase2Straddle
/-
`Contribute` on files that are cut off: how many bytes successful reads take, and what the copying of records does at the end of the
file.
-/
set_option linter.unusedSectionVars false

namespace ZkSetup

open Phase1

/-- A successful run takes at least `k` bytes from the reader `g` of the state, and keeps positions that are multiples of 32. -/
def Takes {σ α : Type} (g : σ → Rd) (k : Nat) (x : Go σ α) : Prop :=
  ∀ s a s', x.run s = (.ok a, s') →
    (g s').cap = (g s).cap ∧ (32 ∣ (g s).pos → 32 ∣ (g s').pos) ∧ (g s').rest.length + k ≤ (g s).rest.length

section
variable {σ α β : Type} {g : σ → Rd}

theorem Takes.pure (a : α) : Takes g 0 (pure a : Go σ α) := by
  rintro s b s' h
  cases h
  exact ⟨rfl, id, le_rfl⟩

theorem Takes.fail (e : Fail) (k : Nat) : Takes g k (Go.fail e : Go σ α) := by
  rintro s b s' h
  cases h

theorem Takes.lift (x : Except Fail α) : Takes g 0 (Go.lift x : Go σ α) := by
  rintro s b s' h
  obtain ⟨-, rfl⟩ := Prod.mk.inj h
  exact ⟨rfl, id, le_rfl⟩

theorem Takes.bind {x : Go σ α} {f : α → Go σ β} {j k : Nat} (hx : Takes g j x) (hf : ∀ a, Takes g k (f a)) :
    Takes g (j + k) (x >>= f) := by
  intro s b s' h
  obtain ⟨a, s1, h1, h2⟩ := Go.bind_eq_ok h
  obtain ⟨c1, p1, l1⟩ := hx _ _ _ h1
  obtain ⟨c2, p2, l2⟩ := hf a _ _ _ h2
  exact ⟨c2.trans c1, fun hp => p2 (p1 hp), by omega⟩

theorem Takes.mono {x : Go σ α} {j k : Nat} (hx : Takes g j x) (h : k ≤ j) : Takes g k x := by
  intro s a s' hr
  obtain ⟨c1, p1, l1⟩ := hx _ _ _ hr
  exact ⟨c1, p1, by omega⟩

theorem Takes.onRd {x : Go Rd α} {k : Nat} (hx : Takes id k x) : Takes IOSt.rd k (IOSt.onRd x) := by
  intro s a s' h
  unfold IOSt.onRd at h
  simp only [Prod.mk.injEq] at h
  obtain ⟨h1, rfl⟩ := h
  exact hx s.rd a _ (Prod.ext h1 rfl)

theorem Takes.emit (bs : Bytes) : Takes IOSt.rd 0 (IOSt.emit bs) := by
  intro s a s' h
  cases h
  exact ⟨rfl, id, le_rfl⟩

theorem Takes.readField {κ : Type} {dec : Go Rd α} {upd : α → κ → κ} {k : Nat} (hx : Takes id k dec) :
    Takes Prod.snd k (readField dec upd) := by
  intro s a s' h
  unfold Phase1.readField at h
  simp only at h
  split at h
  · rename_i b r hb
    obtain ⟨-, rfl⟩ := Prod.mk.inj h
    exact hx _ _ _ hb
  · cases h

theorem Takes.readPoint {G κ : Type} {c : Codec G} {get : κ → G} {upd : G → κ → κ} {k : Nat} (hx : Takes id k c.decode) :
    Takes Prod.snd k (readPoint c get upd) := by
  intro s a s' h
  unfold Phase1.readPoint at h
  simp only at h
  split at h
  · rename_i b r hb
    obtain ⟨-, rfl⟩ := Prod.mk.inj h
    exact hx _ _ _ hb
  · cases h

theorem Takes.readFull (k : Nat) (hk : 32 ∣ k) : Takes id k (Rd.readFull k) := by
  intro s a s' h
  have := readFull_len h
  unfold Rd.readFull at h
  simp only at h
  split at h
  · obtain ⟨-, rfl⟩ := Prod.mk.inj h
    refine ⟨rfl, fun hp => ?_, by simp only [id]; omega⟩
    simp only [id, Rd.adv_pos] at hp ⊢
    omega
  · cases h

theorem Takes.set {G : Type} (c : Codec G) (b : Bytes) : Takes id 0 (c.set b) := by
  unfold Codec.set
  split
  · exact .pure _
  · exact .fail _ _

theorem Takes.decode {G : Type} (c : Codec G) (h32 : 32 ∣ c.size) : Takes id c.size c.decode := by
  unfold Codec.decode
  refine Takes.mono (.bind (k := 0) (.readFull _ h32) fun b => ?_) (by omega)
  split
  · exact .set _ _
  · exact Takes.mono (.bind (.readFull _ h32) fun _ => .set _ _) (by omega)

theorem Takes.decodeN {G : Type} (c : Codec G) (h32 : 32 ∣ c.size) (n : Nat) : Takes id (c.size * n) (c.decodeN n) := by
  induction n with
  | zero => exact .pure _
  | succ n ih =>
    unfold Codec.decodeN
    exact Takes.mono (.bind (.decode c h32) fun _ => .bind ih fun _ => .pure _) (by rw [Nat.mul_succ]; omega)

end

section
variable {F : Type} [Field F] {G : Type} [AddCommGroup G] [Module F G] [DecidableEq G]

theorem keepFirst_takes (p : G) (cand : Option G) : Takes IOSt.rd 0 (keepFirst p cand) := by
  unfold keepFirst
  split
  · split
    · exact .pure _
    · exact .fail _ _
  · exact .pure _

theorem scaleLoop_takes (c : Codec G) (h32 : 32 ∣ c.size) (par : Par) (b : Nat) (hb : 0 < b) (tau : F) (mult : Option F)
    (first : List G → Option G) (n : Nat) : ∀ (buff : List G) (s : F) (p : G),
    Takes IOSt.rd (c.size * n) (Phase1.scaleLoop c par b tau mult first n buff s p) := by
  induction n using Nat.strong_induction_on with
  | _ n ih =>
    intro buff s p
    rw [Phase1.scaleLoop]
    by_cases h0 : 0 < n ∧ 0 < b
    · rw [dif_pos h0]
      refine Takes.mono (.bind (.onRd (.decodeN c h32 _)) fun _ => .bind (.emit _) fun _ => .bind (keepFirst_takes _ _) fun _ =>
        ih (n - min n b) (by omega) _ _ _) ?_
      have : c.size * n = c.size * min n b + c.size * (n - min n b) := by
        rw [← Nat.mul_add]; congr 1; omega
      omega
    · have : n = 0 := by omega
      subst this
      rw [dif_neg h0]
      exact .pure _

theorem makeLen_nonneg {N : Int} {b k : Nat} (h : makeLen (min N b) = .ok k) : 0 ≤ N := by
  unfold makeLen at h
  split at h
  · cases h
  · omega

end

section
variable {F G1 G2 GT : Type} [Field F] [AddCommGroup G1] [Module F G1] [AddCommGroup G2]
  [Module F G2] [AddCommGroup GT] [Module F GT] [DecidableEq G1] [DecidableEq G2] [DecidableEq GT]
variable {C : Curve F G1 G2 GT} (hC : C.Lawful)
include hC

theorem scaleG1_takes (par : Par) (b : Nat) (hb : 0 < b) (N : Int) (tau : F) (mult : Option F) :
    Takes IOSt.rd (32 * N.toNat) (scaleG1 C par b N tau mult) := by
  have h := hC.size1
  unfold scaleG1
  exact Takes.mono (.bind (.lift _) fun _ => scaleLoop_takes C.c1 (by omega) par b hb _ _ _ _ _ _ _) (by rw [h]; omega)

theorem scaleG2_takes (par : Par) (b : Nat) (hb : 0 < b) (N : Int) (tau : F) :
    Takes IOSt.rd (64 * N.toNat) (scaleG2 C par b N tau) := by
  have h := hC.size2
  unfold scaleG2
  exact Takes.mono (.bind (.lift _) fun _ => scaleLoop_takes C.c2 (by omega) par b hb _ _ _ _ _ _ _) (by rw [h]; omega)


omit hC in
/-- the hash: at a position that is a multiple of 32, at least one byte is there, and 32 are taken unless the file ends -/
theorem readHash_takes (rd rd' : Rd) (h : Bytes) (hcap : 32 ∣ rd.cap) (hpos : 32 ∣ rd.pos) (hr : Phase1.readHash.run rd = (.ok h, rd')) :
    rd'.cap = rd.cap ∧ 32 ∣ rd'.pos ∧ 0 < rd.rest.length ∧ (rd'.rest = [] ∨ rd'.rest.length + 32 = rd.rest.length) := by
  unfold Phase1.readHash at hr
  obtain ⟨b, rd1, h1, h2⟩ := Go.bind_eq_ok hr
  cases h2
  have hblock : min 32 (rd.block 32) = 32 := by
    unfold Rd.block
    split
    · rfl
    · rename_i hc
      obtain ⟨c, hc'⟩ := hcap
      obtain ⟨p, hp'⟩ := hpos
      rw [hc', hp', Nat.mul_mod_mul_left]
      have : p % c < c := Nat.mod_lt _ (by omega)
      omega
  unfold Rd.read at h1
  simp only [hblock] at h1
  split at h1
  · cases h1
  · rename_i hne
    obtain ⟨-, rfl⟩ := Prod.mk.inj h1
    have : 0 < rd.rest.length := by
      rw [List.length_pos_iff]
      intro h0
      exact hne (by simp [h0])
    refine ⟨rfl, by simp only [Rd.adv_pos]; omega, this, ?_⟩
    simp only [Rd.adv_rest]
    rcases Nat.lt_or_ge rd.rest.length 32 with hl | hl
    · exact .inl (List.drop_of_length_le (by omega))
    · exact .inr (by rw [List.length_drop]; omega)

/-- a record: more than 608 bytes are there, and 640 are taken unless the file ends -/
theorem record_takes (s s' : Contribution G1 G2 × Rd) (hcap : 32 ∣ s.2.cap) (hpos : 32 ∣ s.2.pos)
    (hr : (Contribution.readFrom C).run s = (.ok (), s')) :
    s'.2.cap = s.2.cap ∧ 32 ∣ s'.2.pos ∧ 608 < s.2.rest.length ∧ (s'.2.rest = [] ∨ s'.2.rest.length + 640 ≤ s.2.rest.length) := by
  have h1 := hC.size1
  have h2 := hC.size2
  have t1 : ∀ (get : Contribution G1 G2 → G1) (upd : G1 → Contribution G1 G2 → Contribution G1 G2),
      Takes Prod.snd 32 (readPoint C.c1 get upd) := fun _ _ =>
    .readPoint (Takes.mono (.decode C.c1 (by omega)) (by omega))
  have t2 : ∀ (get : Contribution G1 G2 → G2) (upd : G2 → Contribution G1 G2 → Contribution G1 G2),
      Takes Prod.snd 64 (readPoint C.c2 get upd) := fun _ _ =>
    .readPoint (Takes.mono (.decode C.c2 (by omega)) (by omega))
  have step : ∀ {k j : Nat} {x : Go (Contribution G1 G2 × Rd) Unit} {f : Unit → Go (Contribution G1 G2 × Rd) Unit}
      {s0 : Contribution G1 G2 × Rd}, Takes Prod.snd k x → (x >>= f).run s0 = (.ok (), s') →
      (s0.2.cap = s.2.cap ∧ 32 ∣ s0.2.pos ∧ s0.2.rest.length + j ≤ s.2.rest.length) →
      ∃ s1, (f ()).run s1 = (.ok (), s') ∧ s1.2.cap = s.2.cap ∧ 32 ∣ s1.2.pos ∧ s1.2.rest.length + (j + k) ≤ s.2.rest.length := by
    intro k j x f s0 ht hrun hs
    obtain ⟨⟨⟩, s1, e1, e2⟩ := Go.bind_eq_ok hrun
    obtain ⟨a, b, c⟩ := ht _ _ _ e1
    exact ⟨s1, e2, a.trans hs.1, b hs.2.1, by omega⟩
  unfold Contribution.readFrom at hr
  obtain ⟨_, hr, i⟩ := step (j := 0) (t1 _ _) hr ⟨rfl, hpos, le_rfl⟩
  obtain ⟨_, hr, i⟩ := step (t1 _ _) hr i
  obtain ⟨_, hr, i⟩ := step (t1 _ _) hr i
  obtain ⟨_, hr, i⟩ := step (t2 _ _) hr i
  obtain ⟨_, hr, i⟩ := step (t2 _ _) hr i
  obtain ⟨_, hr, i⟩ := step (t1 _ _) hr i
  obtain ⟨_, hr, i⟩ := step (t1 _ _) hr i
  obtain ⟨_, hr, i⟩ := step (t2 _ _) hr i
  obtain ⟨_, hr, i⟩ := step (t1 _ _) hr i
  obtain ⟨_, hr, i⟩ := step (t1 _ _) hr i
  obtain ⟨_, hr, i⟩ := step (t2 _ _) hr i
  obtain ⟨_, hr, i⟩ := step (t1 _ _) hr i
  obtain ⟨_, hr, i⟩ := step (t1 _ _) hr i
  obtain ⟨_, hr, i⟩ := step (t2 _ _) hr i
  obtain ⟨⟨⟩, s1, e1, hr⟩ := Go.bind_eq_ok hr
  obtain ⟨-, rfl⟩ := Prod.mk.inj e1
  unfold readField at hr
  simp only at hr
  split at hr
  · rename_i b r hb
    obtain ⟨-, rfl⟩ := Prod.mk.inj hr
    obtain ⟨c1, c2, c3, c4⟩ := readHash_takes _ _ _ (by rw [i.1]; exact hcap) i.2.1 hb
    refine ⟨c1.trans i.1, c2, by omega, ?_⟩
    rcases c4 with c4 | c4
    · exact .inl c4
    · exact .inr (by simp only; omega)
  · cases hr

theorem copy_takes (n : Nat) : ∀ (c0 c : Contribution G1 G2) (s s' : IOSt), 32 ∣ s.rd.cap → 32 ∣ s.rd.pos →
    (copyContributions C n c0).run s = (.ok c, s') → n = 0 ∨ 640 * n < s.rd.rest.length + 32 := by
  induction n with
  | zero => intros; exact .inl rfl
  | succ n ih =>
    intro c0 c s s' hcap hpos h
    right
    unfold copyContributions at h
    obtain ⟨c1, s1, h1, h⟩ := Go.bind_eq_ok h
    obtain ⟨⟨⟩, s2, h2, h⟩ := Go.bind_eq_ok h
    simp only at h1
    split at h1
    · rename_i c2 rd hr
      obtain ⟨-, rfl⟩ := Prod.mk.inj h1
      cases h2
      obtain ⟨a1, a2, a3, a4⟩ := record_takes hC _ _ hcap hpos hr
      rcases ih _ _ _ _ (by simp only at a1 ⊢; rw [a1]; exact hcap) a2 h with rfl | h3
      · simp only at a3; omega
      · simp only at h3 a4 a3
        rcases a4 with a4 | a4
        · rw [a4] at h3
          have : n = 0 := by simp at h3; omega
          omega
        · omega
    · cases h1

/-- `Contribute` reads the parameters and, but for 31 bytes, the records. -/
theorem contributeBody_takes (par : Par) (b : Nat) (hb : 0 < b) (rnd : Rand F) (h : Phase1.Header) (rest : Bytes) (hash : Bytes) (s' : IOSt)
    (hr : (contributeBody C par b rnd h).run ⟨Rd.buffered 4096 rest, []⟩ = (.ok hash, s')) :
    h.power.toNat ≤ 62 ∧ 192 * 2 ^ h.power.toNat + 32 ≤ rest.length ∧
      (0 < h.contributions.toNat → 192 * 2 ^ h.power.toNat + 32 + 640 * h.contributions.toNat < rest.length + 32) := by
  have hs2 := hC.size2
  have hp : h.power.toNat ≤ 62 := by
    by_contra hp
    unfold contributeBody at hr
    obtain ⟨_, s1, h1, hr⟩ := Go.bind_eq_ok hr
    obtain ⟨_, s2, h2, hr⟩ := Go.bind_eq_ok hr
    obtain ⟨_, s3, h3, hr⟩ := Go.bind_eq_ok hr
    unfold scaleG1 at h3
    obtain ⟨k, s4, h4, -⟩ := Go.bind_eq_ok h3
    have h5 := makeLen_nonneg (Prod.mk.inj h4).1
    unfold goPow2 at h5
    rw [if_neg hp] at h5
    omega
  refine ⟨hp, ?_⟩
  have hN := goPow2_eq hp
  have hN' := wrap_tau hp
  have hpos : 0 < 2 ^ h.power.toNat := Nat.pow_pos (by omega)
  unfold contributeBody at hr
  have step : ∀ {α : Type} {k j : Nat} {x : Go IOSt α} {f : α → Go IOSt Bytes}
      {s0 : IOSt}, Takes IOSt.rd k x → (x >>= f).run s0 = (.ok hash, s') →
      (s0.rd.cap = 4096 ∧ 32 ∣ s0.rd.pos ∧ s0.rd.rest.length + j ≤ rest.length) →
      ∃ a s1, (f a).run s1 = (.ok hash, s') ∧ s1.rd.cap = 4096 ∧ 32 ∣ s1.rd.pos ∧ s1.rd.rest.length + (j + k) ≤ rest.length := by
    intro α k j x f s0 ht hrun hs
    obtain ⟨v, s1, e1, e2⟩ := Go.bind_eq_ok hrun
    obtain ⟨a, b, c⟩ := ht _ _ _ e1
    exact ⟨v, s1, e2, a.trans hs.1, b hs.2.1, by omega⟩
  obtain ⟨_, _, hr, i⟩ := step (j := 0) (.emit _) hr ⟨rfl, by simp [Rd.buffered], by simp [Rd.buffered]⟩
  obtain ⟨_, _, hr, i⟩ := step (scaleG1_takes hC par b hb _ _ _) hr i
  obtain ⟨_, _, hr, i⟩ := step (scaleG1_takes hC par b hb _ _ _) hr i
  obtain ⟨_, _, hr, i⟩ := step (scaleG1_takes hC par b hb _ _ _) hr i
  obtain ⟨_, _, hr, i⟩ := step (scaleG2_takes hC par b hb _ _) hr i
  obtain ⟨_, _, hr, i⟩ := step (.onRd (.decode C.c2 (by omega))) hr i
  obtain ⟨_, _, hr, i⟩ := step (.emit _) hr i
  obtain ⟨c, s1, h1, -⟩ := Go.bind_eq_ok hr
  rw [hN', hN] at i
  simp only [hs2, Int.toNat_natCast] at i
  refine ⟨by omega, fun hc => ?_⟩
  have e : (h.contributions + 1 - 1).toNat = h.contributions.toNat := by rw [UInt16.add_sub_cancel]
  rcases copy_takes hC _ _ _ _ _ (by rw [i.1]; decide) i.2.1 h1 with h0 | h0
  · simp only [e] at h0; omega
  · simp only [e] at h0; omega


/-- the records as `Contribute` copies them when all but `k` bytes of the last hash are missing -/
def cutLast (k : Nat) : List (Contribution G1 G2) → List (Contribution G1 G2)
  | [] => []
  | [r] => [{ r with hash := cutHash k r.hash }]
  | r :: q :: rs => r :: cutLast k (q :: rs)

omit hC in
theorem cutLast_length (k : Nat) : ∀ rs : List (Contribution G1 G2), (cutLast k rs).length = rs.length
  | [] => rfl
  | [_] => rfl
  | _ :: q :: rs => by simp [cutLast, cutLast_length k (q :: rs)]

omit hC in
theorem cutLast_hash (k : Nat) (hk : k ≤ 32) : ∀ rs : List (Contribution G1 G2), (∀ r ∈ rs, r.hash.length = 32) →
    ∀ r ∈ cutLast k rs, r.hash.length = 32
  | [], _, r, hr => by simp [cutLast] at hr
  | [q], h, r, hr => by
    simp only [cutLast, List.mem_singleton] at hr
    rw [hr]
    exact cutHash_length k hk _ (h q (by simp))
  | a :: q :: rs, h, r, hr => by
    simp only [cutLast, List.mem_cons] at hr
    rcases hr with rfl | hr
    · exact h _ (by simp)
    · exact cutLast_hash k hk (q :: rs) (fun x hx => h x (by simp [hx])) r hr

omit hC in
theorem cutLast_append (k : Nat) (pre : List (Contribution G1 G2)) (r : Contribution G1 G2) :
    cutLast k (pre ++ [r]) = pre ++ [{ r with hash := cutHash k r.hash }] := by
  induction pre with
  | nil => rfl
  | cons a pre ih =>
    cases pre with
    | nil => rfl
    | cons b pre => simpa [cutLast] using ih

/-- copying records when the last hash is cut off: the missing bytes become zeros -/
theorem copy_cut (k : Nat) (hk0 : 0 < k) (hk : k < 32) : ∀ (rs : List (Contribution G1 G2)) (_ : rs ≠ [])
    (_ : ∀ r ∈ rs, r.hash.length = 32) (c0 : Contribution G1 G2) (cap pos : Nat) (_ : 32 ∣ cap ∧ 32 ∣ pos) (out : Bytes),
    ∃ rd', (copyContributions C rs.length c0).run
        ⟨⟨cap, pos, (rs.flatMap (recordBytes C)).take (640 * rs.length - (32 - k))⟩, out⟩
      = (.ok ((cutLast k rs).getLast?.getD c0), ⟨rd', out ++ (cutLast k rs).flatMap (recordBytes C)⟩) := by
  intro rs
  induction rs with
  | nil => intro h; exact absurd rfl h
  | cons r rs ih =>
    intro _ hr c0 cap pos hal out
    have hl := hr r (by simp)
    have hrl := recordBytes_length hC r hl
    simp only [List.length_cons, copyContributions, List.flatMap_cons]
    cases rs with
    | nil =>
      obtain ⟨e, rd', hrun, -, he, -⟩ := record_read_hash_cut hC r c0 cap pos (640 * ([] : List (Contribution G1 G2)).length.succ - (32 - k))
        (List.flatMap (recordBytes C) []) hl hal (by simp; omega) (by simp; omega)
      rw [he (by simp; omega)] at hrun
      have h1 : 640 * ([] : List (Contribution G1 G2)).length.succ - (32 - k) - 608 = k := by simp; omega
      have h2 : 640 - (640 * ([] : List (Contribution G1 G2)).length.succ - (32 - k)) = 32 - k := by simp; omega
      rw [h1, h2] at hrun
      refine ⟨rd', ?_⟩
      clear h1 h2
      rw [Go.bind_ok (a := { r with hash := cutHash k r.hash }) (s' := ⟨rd', out⟩) (by
        simp only [Nat.succ_eq_add_one] at hrun
        simp only [hrun]; rfl)]
      rw [Go.bind_ok (IOSt.emit_run _ _), contribution_writeTo]
      simp [copyContributions, cutLast]
    | cons q rs =>
      obtain ⟨rd', hi⟩ := ih (by simp) (fun r' h => hr r' (by simp [h])) r cap (pos + 640) ⟨hal.1, by omega⟩
        (out ++ recordBytes C r)
      have ht : (recordBytes C r ++ (q :: rs).flatMap (recordBytes C)).take (640 * ((q :: rs).length + 1) - (32 - k))
          = recordBytes C r ++ ((q :: rs).flatMap (recordBytes C)).take (640 * (q :: rs).length - (32 - k)) := by
        rw [List.take_append, List.take_of_length_le (by simp only [List.length_cons]; omega), hrl]
        have e : 640 * ((q :: rs).length + 1) - (32 - k) - 640 = 640 * (q :: rs).length - (32 - k) := by
          simp only [List.length_cons]; omega
        rw [e]
      rw [ht]
      have hread := record_read hC r c0 cap pos (((q :: rs).flatMap (recordBytes C)).take (640 * (q :: rs).length - (32 - k)))
        hl (.inr hal)
      refine ⟨rd', ?_⟩
      rw [Go.bind_ok (a := r)
        (s' := ⟨⟨cap, pos + 640, ((q :: rs).flatMap (recordBytes C)).take (640 * (q :: rs).length - (32 - k))⟩, out⟩)
        (by simp only [hread])]
      rw [Go.bind_ok (IOSt.emit_run _ _), contribution_writeTo]
      simp only [List.length_cons] at hi ⊢
      rw [hi]
      have hne : cutLast k (q :: rs) ≠ [] := by
        intro h0
        have := cutLast_length k (q :: rs)
        rw [h0] at this
        simp at this
      congr 1
      · congr 1
        obtain ⟨a, as, has⟩ := List.exists_cons_of_ne_nil hne
        simp only [cutLast, has, List.getLast?_cons_cons]
        rw [List.getLast?_eq_some_getLast (by simp)]
        rfl
      · simp [cutLast]

/-- After the parameters, `Contribute` depends on the rest of the file only through the copying of the records. -/
theorem contribute_params (par : Par) (b : Nat) (hb : 2 ≤ b) (rnd : Rand F) (f : P1File G1 G2) (hf : f.WF)
    (hp : 1 ≤ f.power.toNat) :
    ∃ t1 a1 b1 t2, ∀ (rs : List (Contribution G1 G2)) (T : Bytes), rs.length = f.records.length →
      (∀ pos out, 32 ∣ pos → ∃ rd', (copyContributions C rs.length Contribution.zero).run ⟨⟨4096, pos, T⟩, out⟩
        = (.ok (rs.getLast?.getD Contribution.zero), ⟨rd', out ++ rs.flatMap (recordBytes C)⟩)) →
      contribute C par b rnd ([f.power, UInt8.ofNat (f.records.length / 256), UInt8.ofNat (f.records.length % 256)]
        ++ f.params C ++ T) = (.ok (newRecord C rnd (lastHash rs) t1 a1 b1 t2 (rnd.beta • f.betaG2)).hash,
          Header.writeTo ⟨f.power, UInt16.ofNat (f.records.length + 1)⟩
            ++ (f.update rnd (newRecord C rnd (lastHash rs) t1 a1 b1 t2 (rnd.beta • f.betaG2))).params C
            ++ rs.flatMap (recordBytes C)
            ++ recordBytes C (newRecord C rnd (lastHash rs) t1 a1 b1 t2 (rnd.beta • f.betaG2))) := by
  have hN2 : 2 ≤ 2 ^ f.power.toNat := by
    calc 2 = 2 ^ 1 := rfl
      _ ≤ 2 ^ f.power.toNat := Nat.pow_le_pow_right (by omega) hp
  have hlt := hf.tauG1
  have hla := hf.alphaG1
  have hlb := hf.betaG1
  have hl2 := hf.tauG2
  have hcnt := hf.count
  obtain ⟨t1, ht1, -⟩ := scaleG1_spec hC par b (wrap64 (2 * goPow2 f.power - 1)) rnd.tau none f.tauG1
    (by rw [wrap_tau hf.power, hlt]) (by simp; omega)
  obtain ⟨a1, ha1, -⟩ := scaleG1_spec hC par b (goPow2 f.power) rnd.tau (some rnd.alpha) f.alphaG1
    (by rw [goPow2_eq hf.power, hla]) (by simp; omega)
  obtain ⟨b1, hb1, -⟩ := scaleG1_spec hC par b (goPow2 f.power) rnd.tau (some rnd.beta) f.betaG1
    (by rw [goPow2_eq hf.power, hlb]) (by simp; omega)
  obtain ⟨t2, ht2, -⟩ := scaleG2_spec hC par b (goPow2 f.power) rnd.tau f.tauG2
    (by rw [goPow2_eq hf.power, hl2]) (by omega)
  refine ⟨t1, a1, b1, t2, ?_⟩
  intro rs T hrs hT
  have henc : [f.power, UInt8.ofNat (f.records.length / 256), UInt8.ofNat (f.records.length % 256)] ++ f.params C ++ T
      = Header.writeTo ⟨f.power, UInt16.ofNat f.records.length⟩
      ++ (f.tauG1.flatMap C.c1.bytes ++ (f.alphaG1.flatMap C.c1.bytes ++ (f.betaG1.flatMap C.c1.bytes
      ++ (f.tauG2.flatMap C.c2.bytes ++ (C.c2.bytes f.betaG2 ++ T))))) := by
    rw [header_encode _ _ hcnt]
    simp [P1File.params]
  unfold contribute
  rw [henc, header_read]
  simp only
  unfold contributeBody Rd.buffered
  rw [Go.bind_ok (IOSt.emit_run _ _)]
  simp only []
  rw [Go.bind_ok (ht1 ..), Go.bind_ok (ha1 ..), Go.bind_ok (hb1 ..), Go.bind_ok (ht2 ..)]
  rw [Go.bind_ok (IOSt.onRd_ok (Codec.decode_bytes hC.codec2 _ _ _ _))]
  rw [Go.bind_ok (IOSt.emit_run _ _)]
  have hn : (UInt16.ofNat f.records.length + 1 - 1).toNat = rs.length := by
    rw [UInt16.add_sub_cancel]
    simp; omega
  simp only [hn]
  obtain ⟨rd', hrun⟩ := hT (0 + 32 * f.tauG1.length + 32 * f.alphaG1.length + 32 * f.betaG1.length + 64 * f.tauG2.length
    + C.c2.size) _ (by rw [hC.size2]; omega)
  rw [Go.bind_ok hrun]
  simp only [lastHash_eq]
  rw [Go.bind_ok (IOSt.emit_run _ _)]
  simp only [Go.pure_run, genPublicKey_eq, contribution_writeTo, computeHash_eq]
  congr 1
  have hadd : UInt16.ofNat f.records.length + 1 = UInt16.ofNat (f.records.length + 1) := by
    rw [UInt16.ofNat_add]; rfl
  simp only [List.nil_append, List.append_assoc, P1File.params, P1File.update, Option.getD_none,
    Option.getD_some, hadd]
  rfl

/-- `Contribute` on a file whose last hash is cut off is `Contribute` on the file with zeros in place of the missing bytes. -/
theorem contribute_hash_cut (par : Par) (b : Nat) (hb : 2 ≤ b) (rnd : Rand F) (f : P1File G1 G2) (hf : f.WF)
    (hp : 1 ≤ f.power.toNat) (hne : f.records ≠ []) (k : Nat) (hk0 : 0 < k) (hk : k < 32) :
    contribute C par b rnd ((f.encode C).take ((f.encode C).length - (32 - k)))
      = contribute C par b rnd (({ f with records := cutLast k f.records } : P1File G1 G2).encode C) := by
  have hpl := params_length hC f hf
  have hrl := records_length hC f.records hf.hash
  have henc : f.encode C = [f.power, UInt8.ofNat (f.records.length / 256), UInt8.ofNat (f.records.length % 256)]
      ++ f.params C ++ f.records.flatMap (recordBytes C) := rfl
  have hr0 : 0 < f.records.length := List.length_pos_iff.mpr hne
  have htake : (f.encode C).take ((f.encode C).length - (32 - k)) = [f.power, UInt8.ofNat (f.records.length / 256),
      UInt8.ofNat (f.records.length % 256)] ++ f.params C
        ++ (f.records.flatMap (recordBytes C)).take (640 * f.records.length - (32 - k)) := by
    rw [henc, List.length_append, hpl, hrl, List.take_append, List.take_of_length_le (by omega), hpl]
    congr 2
    omega
  have henc' : ({ f with records := cutLast k f.records } : P1File G1 G2).encode C
      = [f.power, UInt8.ofNat (f.records.length / 256), UInt8.ofNat (f.records.length % 256)] ++ f.params C
        ++ (cutLast k f.records).flatMap (recordBytes C) := by
    simp only [P1File.encode, P1File.params, cutLast_length]
  have hcl := cutLast_length k f.records
  obtain ⟨t1, a1, b1, t2, h⟩ := contribute_params hC par b hb rnd f hf hp
  rw [htake, henc', h (cutLast k f.records) _ hcl, h (cutLast k f.records) _ hcl]
  · intro pos out hpos
    have := copy_spec hC (cutLast k f.records) (cutLast_hash k (by omega) _ hf.hash) Contribution.zero 4096 pos
      (.inr ⟨by decide, hpos⟩) [] out
    rw [List.append_nil] at this
    exact ⟨_, this⟩
  · intro pos out hpos
    rw [hcl]
    exact copy_cut hC k hk0 hk f.records hne hf.hash _ _ _ ⟨by decide, hpos⟩ _

end
end ZkSetup
