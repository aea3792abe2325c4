import Verif.Lemmas.AppData
/-!
# Lemmas about decoders that run out of input, and about absence of panics
-/

namespace Bac

/-- `m` always returns. -/
def Total {α : Type} (m : D α) : Prop := ∀ d, ∃ a d', m d = .ok (a, d')

theorem Total.pure {α : Type} (a : α) : Total (pure a : D α) := fun d => ⟨a, d, rfl⟩

theorem Total.bind {α β : Type} {m : D α} {f : α → D β} (h1 : Total m) (h2 : ∀ a, Total (f a)) :
    Total (m >>= f) := by
  intro d
  obtain ⟨a, d', h⟩ := h1 d
  obtain ⟨b, d'', h'⟩ := h2 a d'
  exact ⟨b, d'', by rw [D.bind_apply, h]; exact h'⟩

theorem Total.ite {α : Type} {c : Prop} [Decidable c] {m1 m2 : D α} (h1 : Total m1)
    (h2 : Total m2) : Total (if c then m1 else m2) := by
  split <;> assumption

/-- A decoder whose input ran out: error recorded, nothing left, nothing to unread. -/
def Dec.Failed (d : Dec) : Prop := d.err ≠ none ∧ d.buf = [] ∧ d.prev = none

/-- `m` run on a failed decoder leaves it failed (if it returns). -/
def KeepsFailed {α : Type} (m : D α) : Prop :=
  ∀ d a d', d.Failed → m d = .ok (a, d') → d'.Failed

/-- `m` run on a decoder that is either error-free or failed leaves it so. -/
def KeepsInv {α : Type} (m : D α) : Prop :=
  ∀ d a d', (d.err ≠ none → d.Failed) → m d = .ok (a, d') → (d'.err ≠ none → d'.Failed)

theorem ok_bind_inv {α β : Type} {x : Outcome α} {f : α → Outcome β} {b : β}
    (h : x.bind f = .ok b) : ∃ a, x = .ok a ∧ f a = .ok b := by
  cases x with
  | ok a => exact ⟨a, rfl, h⟩
  | panic k => cases h
  | diverge => cases h

theorem D.bind_inv {α β : Type} {m : D α} {f : α → D β} {d d' : Dec} {b : β}
    (h : (m >>= f) d = .ok (b, d')) : ∃ a d1, m d = .ok (a, d1) ∧ f a d1 = .ok (b, d') := by
  obtain ⟨⟨a, d1⟩, h1, h2⟩ := ok_bind_inv h
  exact ⟨a, d1, h1, h2⟩

/-- Both preservation facts at once. -/
def Sticky {α : Type} (m : D α) : Prop := KeepsFailed m ∧ KeepsInv m

theorem Sticky.pure {α : Type} (a : α) : Sticky (pure a : D α) := by
  constructor
  · intro d b d' h h'; cases h'; exact h
  · intro d b d' h h'; cases h'; exact h

theorem Sticky.bind {α β : Type} {m : D α} {f : α → D β} (h1 : Sticky m)
    (h2 : ∀ a, Sticky (f a)) : Sticky (m >>= f) := by
  constructor
  · intro d b d' h h'
    obtain ⟨a, d1, e1, e2⟩ := D.bind_inv h'
    exact (h2 a).1 _ _ _ (h1.1 _ _ _ h e1) e2
  · intro d b d' h h'
    obtain ⟨a, d1, e1, e2⟩ := D.bind_inv h'
    exact (h2 a).2 _ _ _ (h1.2 _ _ _ h e1) e2

theorem Sticky.ite {α : Type} {c : Prop} [Decidable c] {m1 m2 : D α} (h1 : Sticky m1)
    (h2 : Sticky m2) : Sticky (if c then m1 else m2) := by
  split <;> assumption

theorem Sticky.panic {α : Type} (k : PanicKind) : Sticky (D.panic k : D α) := by
  constructor
  · intro d b d' h h'; cases h'
  · intro d b d' h h'; cases h'

/-- `m` needs `n` octets: with at least `n` it consumes exactly `n` without error. -/
def Consumes {α : Type} (m : D α) (n : Nat) : Prop :=
  ∀ d, d.err = none → n ≤ d.buf.length →
    ∃ a p, m d = .ok (a, ⟨d.buf.drop n, p, none⟩)

/-- `m` fails when fewer than `n` octets are left. -/
def FailsBelow {α : Type} (m : D α) (n : Nat) : Prop :=
  ∀ d, d.err = none → d.buf.length < n → ∃ a d', m d = .ok (a, d') ∧ d'.Failed

theorem Consumes.pure {α : Type} (a : α) : Consumes (pure a : D α) 0 := by
  intro d h _
  refine ⟨a, d.prev, ?_⟩
  rcases d with ⟨b, p, e⟩
  simp only at h; subst h; rfl

theorem Consumes.bind {α β : Type} {m : D α} {f : α → D β} {n k : Nat} (h1 : Consumes m n)
    (h2 : ∀ a, Consumes (f a) k) : Consumes (m >>= f) (n + k) := by
  intro d he hl
  obtain ⟨a, p, h⟩ := h1 d he (by omega)
  obtain ⟨b, q, h'⟩ := h2 a ⟨d.buf.drop n, p, none⟩ rfl (by simp; omega)
  refine ⟨b, q, ?_⟩
  rw [D.bind_apply, h]
  show f a _ = _
  rw [h', List.drop_drop]

theorem FailsBelow.bind {α β : Type} {m : D α} {f : α → D β} {n k : Nat} (hc : Consumes m n)
    (hf : FailsBelow m n) (ht : ∀ a, Total (f a)) (hs : ∀ a, Sticky (f a))
    (h2 : ∀ a, FailsBelow (f a) k) : FailsBelow (m >>= f) (n + k) := by
  intro d he hl
  by_cases hn : d.buf.length < n
  · obtain ⟨a, d1, h, hF⟩ := hf d he hn
    obtain ⟨b, d2, h'⟩ := ht a d1
    exact ⟨b, d2, by rw [D.bind_apply, h]; exact h', (hs a).1 _ _ _ hF h'⟩
  · obtain ⟨a, p, h⟩ := hc d he (by omega)
    obtain ⟨b, d2, h', hF⟩ := h2 a ⟨d.buf.drop n, p, none⟩ rfl (by simp; omega)
    exact ⟨b, d2, by rw [D.bind_apply, h]; exact h', hF⟩

/-- Nothing fails below zero octets. -/
theorem FailsBelow.zero {α : Type} (m : D α) : FailsBelow m 0 := by
  intro d _ h; omega

namespace Dec

/-! ## Primitive reads -/

theorem total_readN (n : Nat) : Total (readN n) := by
  intro d
  unfold readN
  split
  · exact ⟨_, _, rfl⟩
  · split_ifs <;> exact ⟨_, _, rfl⟩

theorem sticky_readN (n : Nat) : Sticky (readN n) := by
  constructor
  · intro d a d' h h'
    unfold readN at h'
    split at h'
    · cases h'; exact h
    · rename_i he; exact absurd he h.1
  · intro d a d' h h' hne
    unfold readN at h'
    split at h'
    · rename_i he
      cases h'; exact h (by rw [he]; simp)
    · rename_i he
      split_ifs at h'
      · cases h'; exact h hne
      · cases h'; exact absurd rfl hne
      · cases h'; exact ⟨hne, rfl, rfl⟩
      · cases h'; exact ⟨hne, rfl, rfl⟩

theorem consumes_readN (n : Nat) : Consumes (readN n) n := by
  intro d he hl
  unfold readN
  rw [he]
  by_cases h : n = 0
  · subst h
    refine ⟨some [], d.prev, ?_⟩
    rcases d with ⟨b, p, e⟩
    simp only at he; subst he; rfl
  · simp only [h, if_false, hl, if_true]
    exact ⟨_, _, rfl⟩

theorem failsBelow_readN (n : Nat) : FailsBelow (readN n) n := by
  intro d he hl
  unfold readN
  rw [he]
  have h0 : n ≠ 0 := by omega
  have h1 : ¬ n ≤ d.buf.length := by omega
  simp only [h0, if_false, h1]
  exact ⟨_, _, rfl, by simp [Failed]⟩

/-- What all operations built from `readN` by a pure continuation share. -/
theorem read_then {α : Type} (n : Nat) (f : Option (List UInt8) → D α)
    (hf : ∀ r, ∃ a, f r = pure a) :
    Total (readN n >>= f) ∧ Sticky (readN n >>= f) ∧ Consumes (readN n >>= f) n ∧
      FailsBelow (readN n >>= f) n := by
  have ht : ∀ r, Total (f r) := fun r => by obtain ⟨a, h⟩ := hf r; rw [h]; exact Total.pure a
  have hs : ∀ r, Sticky (f r) := fun r => by obtain ⟨a, h⟩ := hf r; rw [h]; exact Sticky.pure a
  have hc : ∀ r, Consumes (f r) 0 := fun r => by
    obtain ⟨a, h⟩ := hf r; rw [h]; exact Consumes.pure a
  refine ⟨(total_readN n).bind ht, (sticky_readN n).bind hs, ?_, ?_⟩
  · exact (consumes_readN n).bind hc
  · exact FailsBelow.bind (consumes_readN n) (failsBelow_readN n) ht hs (fun r => FailsBelow.zero _)

theorem u8_all : Total u8 ∧ Sticky u8 ∧ Consumes u8 1 ∧ FailsBelow u8 1 := by
  unfold u8
  apply read_then
  intro r
  split <;> exact ⟨_, rfl⟩

theorem u16_all : Total u16 ∧ Sticky u16 ∧ Consumes u16 2 ∧ FailsBelow u16 2 := by
  unfold u16
  apply read_then
  intro r
  split <;> exact ⟨_, rfl⟩

theorem u32_all : Total u32 ∧ Sticky u32 ∧ Consumes u32 4 ∧ FailsBelow u32 4 := by
  unfold u32
  apply read_then
  intro r
  split <;> exact ⟨_, rfl⟩

theorem u64_all : Total u64 ∧ Sticky u64 ∧ Consumes u64 8 ∧ FailsBelow u64 8 := by
  unfold u64
  apply read_then
  intro r
  split <;> exact ⟨_, rfl⟩

theorem bytes_all (n : Nat) :
    Total (bytes n) ∧ Sticky (bytes n) ∧ Consumes (bytes n) n ∧ FailsBelow (bytes n) n := by
  unfold bytes
  apply read_then
  intro r
  split <;> exact ⟨_, rfl⟩

/-- Sequencing for the four facts. -/
theorem all_bind {α β : Type} {m : D α} {f : α → D β} {n k : Nat}
    (h1 : Total m ∧ Sticky m ∧ Consumes m n ∧ FailsBelow m n)
    (h2 : ∀ a, Total (f a) ∧ Sticky (f a) ∧ Consumes (f a) k ∧ FailsBelow (f a) k) :
    Total (m >>= f) ∧ Sticky (m >>= f) ∧ Consumes (m >>= f) (n + k) ∧
      FailsBelow (m >>= f) (n + k) :=
  ⟨h1.1.bind fun a => (h2 a).1, h1.2.1.bind fun a => (h2 a).2.1,
   h1.2.2.1.bind fun a => (h2 a).2.2.1,
   FailsBelow.bind h1.2.2.1 h1.2.2.2 (fun a => (h2 a).1) (fun a => (h2 a).2.1)
    (fun a => (h2 a).2.2.2)⟩

theorem all_pure {α : Type} (a : α) : Total (pure a : D α) ∧ Sticky (pure a : D α) ∧
    Consumes (pure a : D α) 0 ∧ FailsBelow (pure a : D α) 0 :=
  ⟨Total.pure a, Sticky.pure a, Consumes.pure a, FailsBelow.zero _⟩

theorem error_all : Total error ∧ Sticky error := by
  refine ⟨fun d => ⟨_, _, rfl⟩, ?_, ?_⟩
  · intro d a d' h h'; cases h'; exact h
  · intro d a d' h h'; cases h'; exact h

theorem unsigned24_all :
    Total unsigned24 ∧ Sticky unsigned24 ∧ Consumes unsigned24 3 ∧ FailsBelow unsigned24 3 := by
  unfold unsigned24
  exact all_bind (n := 1) (k := 2) u8_all fun _ => all_bind (n := 1) (k := 1) u8_all fun _ =>
    all_bind (n := 1) (k := 0) u8_all fun _ => all_pure _

theorem signed24_all :
    Total signed24 ∧ Sticky signed24 ∧ Consumes signed24 3 ∧ FailsBelow signed24 3 := by
  unfold signed24
  exact all_bind (n := 1) (k := 2) u8_all fun _ => all_bind (n := 1) (k := 1) u8_all fun _ =>
    all_bind (n := 1) (k := 0) u8_all fun _ => all_pure _

theorem unsigned_total (n : Nat) : Total (unsigned n) ∧ Sticky (unsigned n) := by
  unfold unsigned
  split
  · exact ⟨u8_all.1.bind fun _ => Total.pure _, u8_all.2.1.bind fun _ => Sticky.pure _⟩
  · exact ⟨u16_all.1.bind fun _ => Total.pure _, u16_all.2.1.bind fun _ => Sticky.pure _⟩
  · exact ⟨unsigned24_all.1, unsigned24_all.2.1⟩
  · exact ⟨u32_all.1, u32_all.2.1⟩
  · exact ⟨Total.pure _, Sticky.pure _⟩

theorem unsigned_all (n : Nat) (h1 : 1 ≤ n) (h4 : n ≤ 4) :
    Total (unsigned n) ∧ Sticky (unsigned n) ∧ Consumes (unsigned n) n ∧
      FailsBelow (unsigned n) n := by
  have : n = 1 ∨ n = 2 ∨ n = 3 ∨ n = 4 := by omega
  rcases this with rfl | rfl | rfl | rfl
  · exact all_bind (n := 1) (k := 0) u8_all fun _ => all_pure _
  · exact all_bind (n := 2) (k := 0) u16_all fun _ => all_pure _
  · exact unsigned24_all
  · exact u32_all

theorem signed_total (n : Nat) : Total (signed n) ∧ Sticky (signed n) := by
  unfold signed
  split
  · exact ⟨u8_all.1.bind fun _ => Total.pure _, u8_all.2.1.bind fun _ => Sticky.pure _⟩
  · exact ⟨u16_all.1.bind fun _ => Total.pure _, u16_all.2.1.bind fun _ => Sticky.pure _⟩
  · exact ⟨signed24_all.1, signed24_all.2.1⟩
  · exact ⟨u32_all.1.bind fun _ => Total.pure _, u32_all.2.1.bind fun _ => Sticky.pure _⟩
  · exact ⟨Total.pure _, Sticky.pure _⟩

theorem signed_all (n : Nat) (h1 : 1 ≤ n) (h4 : n ≤ 4) :
    Total (signed n) ∧ Sticky (signed n) ∧ Consumes (signed n) n ∧ FailsBelow (signed n) n := by
  have : n = 1 ∨ n = 2 ∨ n = 3 ∨ n = 4 := by omega
  rcases this with rfl | rfl | rfl | rfl
  · exact all_bind (n := 1) (k := 0) u8_all fun _ => all_pure _
  · exact all_bind (n := 2) (k := 0) u16_all fun _ => all_pure _
  · exact signed24_all
  · exact all_bind (n := 4) (k := 0) u32_all fun _ => all_pure _

theorem objectId_all :
    Total objectId ∧ Sticky objectId ∧ Consumes objectId 4 ∧ FailsBelow objectId 4 :=
  all_bind (n := 4) (k := 0) u32_all fun _ => all_pure _

theorem tagNumber_total : Total tagNumber ∧ Sticky tagNumber := by
  unfold tagNumber
  constructor
  · refine u8_all.1.bind fun m => Total.ite ?_ (Total.pure _)
    exact u8_all.1.bind fun _ => Total.pure _
  · refine u8_all.2.1.bind fun m => Sticky.ite ?_ (Sticky.pure _)
    exact u8_all.2.1.bind fun _ => Sticky.pure _

theorem value_total (m : UInt8) : Total (value m) ∧ Sticky (value m) := by
  unfold value
  constructor
  · refine Total.ite (u8_all.1.bind fun v => Total.ite u32_all.1 (Total.ite ?_ (Total.pure _)))
      (Total.ite (Total.pure _) (Total.pure _))
    exact u16_all.1.bind fun _ => Total.pure _
  · refine Sticky.ite (u8_all.2.1.bind fun v => Sticky.ite u32_all.2.1
      (Sticky.ite ?_ (Sticky.pure _))) (Sticky.ite (Sticky.pure _) (Sticky.pure _))
    exact u16_all.2.1.bind fun _ => Sticky.pure _

theorem tagNumberAndValue_total : Total tagNumberAndValue ∧ Sticky tagNumberAndValue := by
  unfold tagNumberAndValue
  exact ⟨tagNumber_total.1.bind fun _ => (value_total _).1.bind fun _ => Total.pure _,
    tagNumber_total.2.bind fun _ => (value_total _).2.bind fun _ => Sticky.pure _⟩

/-! ## Raw reads -/

theorem total_rawRead (n : Nat) : Total (rawRead n) := by
  intro d
  unfold rawRead
  split_ifs <;> exact ⟨_, _, rfl⟩

theorem sticky_rawRead (n : Nat) (hn : n ≠ 0) : Sticky (rawRead n) := by
  constructor
  · intro d a d' h h'
    unfold rawRead at h'
    simp only [hn, if_false, h.2.1, if_true] at h'
    cases h'
    exact ⟨by simp, rfl, rfl⟩
  · intro d a d' h h' hne
    unfold rawRead at h'
    simp only [hn, if_false] at h'
    split_ifs at h'
    · cases h'; exact ⟨by simp, rfl, rfl⟩
    · cases h'; exact absurd rfl hne

theorem date_total (dt : Date) (n : Nat) : Total (date dt n) ∧ Sticky (date dt n) := by
  unfold date
  by_cases hn : n = 0
  · simp only [hn, if_true]; exact ⟨Total.pure _, Sticky.pure _⟩
  simp only [hn, if_false]
  constructor
  · refine (total_rawRead n).bind fun _ => error_all.1.bind fun _ => Total.ite (Total.pure _) ?_
    split <;> exact Total.pure _
  · refine (sticky_rawRead n hn).bind fun _ => error_all.2.bind fun _ =>
      Sticky.ite (Sticky.pure _) ?_
    split <;> exact Sticky.pure _

theorem time_sticky (t : Time) (n : Nat) : Sticky (time t n) := by
  unfold time
  by_cases hn : n = 0
  · simp only [hn, if_true]; exact Sticky.pure _
  simp only [hn, if_false]
  refine (sticky_rawRead n hn).bind fun _ => error_all.2.bind fun _ =>
    Sticky.ite (Sticky.pure _) ?_
  split
  · exact Sticky.pure _
  · exact Sticky.panic _

theorem string_sticky (len : Int) : Sticky (string len) := by
  unfold string
  refine u8_all.2.1.bind fun _ => Sticky.ite (Sticky.ite (Sticky.panic _) ?_) (Sticky.pure _)
  exact (bytes_all _).2.1.bind fun _ => error_all.2.bind fun _ => Sticky.pure _

/-! ## Bit strings never index out of range -/

theorem bitStringLoop_ok (data : List UInt8) (n i : Nat) (bs : BitString)
    (hd : i + n < data.length) (hv : i + n ≤ bs.value.length) (h15 : i + n ≤ 15) :
    ∃ bs', bitStringLoop data n i bs = .ok bs' ∧ bs'.value.length = bs.value.length := by
  induction n generalizing i bs with
  | zero => exact ⟨bs, rfl, rfl⟩
  | succ n ih =>
    have hi : i + 1 < data.length := by omega
    have hset : bs.setByte (UInt8.ofNat i) (byteReverseBits data[i + 1])
        = .ok { bs with value := bs.value.set i (byteReverseBits data[i + 1]) } := by
      have hn : (UInt8.ofNat i).toNat = i := by simp; omega
      have hlt : UInt8.ofNat i < 15 := by
        rw [UInt8.lt_iff_toNat_lt, hn]; exact show i < 15 by omega
      unfold BitString.setByte
      rw [hn]
      simp only [hlt, if_true, show i < bs.value.length by omega]
    obtain ⟨bs', h1, h2⟩ := ih (i + 1)
      { bs with value := bs.value.set i (byteReverseBits data[i + 1]) } (by omega)
      (by simp; omega) (by omega)
    refine ⟨bs', ?_, by rw [h2]; simp⟩
    unfold bitStringLoop
    rw [List.getElem?_eq_getElem hi]
    simp only [hset, Outcome.ok_bind]
    exact h1

theorem bytes_length (n : Nat) (d d' : Dec) (l : List UInt8) (h : bytes n d = .ok (l, d')) :
    l.length = n := by
  obtain ⟨r, d1, h1, h2⟩ := D.bind_inv h
  unfold readN at h1
  split at h1
  · cases h1; cases h2; simp
  · split_ifs at h1 with h0 hle
    · cases h1; cases h2; simp [h0]
    · cases h1; cases h2; simp; omega
    · cases h1; cases h2; simp
    · cases h1; cases h2; simp

theorem bitStringOf_ok (n : Nat) (data : List UInt8) (hl : data.length = n) (hn : n ≠ 0) :
    ∃ b, bitStringOf n data = .ok b := by
  unfold bitStringOf
  simp only
  split_ifs with hb
  · have hb' : (UInt8.ofNat (n - 1)).toNat ≤ 15 := by
      rw [UInt8.le_iff_toNat_le] at hb; exact hb
    have hle : (UInt8.ofNat (n - 1)).toNat ≤ n - 1 := by
      simp only [UInt8.toNat_ofNat']; exact Nat.mod_le _ _
    have hv : (BitString.new (n - 1)).value.length = min (n - 1) 15 := by
      simp [BitString.new, BitString.maxBytes]
    obtain ⟨bs', h1, _⟩ := bitStringLoop_ok data
      (UInt8.ofNat (n - 1)).toNat 0 (BitString.new (n - 1)) (by omega) (by rw [hv]; omega) (by omega)
    rw [h1]
    cases data with
    | nil => simp at hl; omega
    | cons b0 r => exact ⟨_, rfl⟩
  · exact ⟨_, rfl⟩

theorem bitString_total (n : Nat) : Total (bitString n) ∧ Sticky (bitString n) := by
  unfold bitString
  by_cases hn : n = 0
  · simp only [hn, if_true]; exact ⟨Total.pure _, Sticky.pure _⟩
  simp only [hn, if_false]
  have key : ∀ (data : List UInt8) (d : Dec), data.length = n →
      ∃ b, (D.lift (bitStringOf n data) >>= fun bs => pure (some bs)) d
        = (Outcome.ok (b, d) : Outcome (Option BitString × Dec)) := by
    intro data d hl
    obtain ⟨b, hb⟩ := bitStringOf_ok n data hl hn
    exact ⟨some b, by rw [hb]; rfl⟩
  refine ⟨?_, ?_, ?_⟩
  · intro d
    obtain ⟨l, d1, h⟩ := (bytes_all n).1 d
    obtain ⟨b, hb⟩ := key l d1 (bytes_length n d d1 l h)
    refine ⟨b, d1, ?_⟩
    rw [D.bind_apply, h]
    exact hb
  · intro d a d' hF h'
    obtain ⟨l, d1, h1, h2⟩ := D.bind_inv h'
    obtain ⟨b, hb⟩ := key l d1 (bytes_length n d d1 l h1)
    have := hb.symm.trans h2
    cases this
    exact (bytes_all n).2.1.1 _ _ _ hF h1
  · intro d a d' hI h'
    obtain ⟨l, d1, h1, h2⟩ := D.bind_inv h'
    obtain ⟨b, hb⟩ := key l d1 (bytes_length n d d1 l h1)
    have := hb.symm.trans h2
    cases this
    exact (bytes_all n).2.1.2 _ _ _ hI h1

/-! ## Application values -/

theorem appDataOfTag_sticky (tag : UInt8) (len : Nat) : Sticky (appDataOfTag tag len) := by
  have key : ∀ {α : Type} (m : D α) (f : α → Scalar), Sticky m →
      Sticky (m >>= fun v => error >>= fun e => (pure (f v, e) : D (Scalar × Option GoErr))) :=
    fun m f h => h.bind fun _ => error_all.2.bind fun _ => Sticky.pure _
  unfold appDataOfTag
  split
  · exact Sticky.pure _
  · exact error_all.2.bind fun _ => Sticky.pure _
  · exact key _ .uint (unsigned_total len).2
  · exact key _ .int (signed_total len).2
  · exact key _ .real u32_all.2.1
  · exact key _ .double u64_all.2.1
  · exact key _ .octets (bytes_all len).2.1
  · exact (string_sticky _).bind fun _ => Sticky.pure _
  · exact key _ .bits (bitString_total len).2
  · exact key _ .uint (unsigned_total len).2
  · exact key _ .date (date_total _ len).2
  · exact key _ .time (time_sticky _ len)
  · exact key _ .objId objectId_all.2.1
  · exact Sticky.pure _

theorem appData_sticky : Sticky appData := by
  unfold appData
  exact tagNumberAndValue_total.2.bind fun _ => appDataOfTag_sticky _ _

theorem appDataOfTag_total (tag : UInt8) (len : Nat) (h7 : tag ≠ 7) (h11 : tag ≠ 11) :
    Total (appDataOfTag tag len) := by
  have h7' : tag.toNat ≠ 7 := fun h => h7 (UInt8.toNat_inj.mp h)
  have h11' : tag.toNat ≠ 11 := fun h => h11 (UInt8.toNat_inj.mp h)
  have key : ∀ {α : Type} (m : D α) (f : α → Scalar), Total m →
      Total (m >>= fun v => error >>= fun e => (pure (f v, e) : D (Scalar × Option GoErr))) :=
    fun m f h => h.bind fun _ => error_all.1.bind fun _ => Total.pure _
  unfold appDataOfTag
  split
  · exact Total.pure _
  · exact error_all.1.bind fun _ => Total.pure _
  · exact key _ .uint (unsigned_total len).1
  · exact key _ .int (signed_total len).1
  · exact key _ .real u32_all.1
  · exact key _ .double u64_all.1
  · exact key _ .octets (bytes_all len).1
  · contradiction
  · exact key _ .bits (bitString_total len).1
  · exact key _ .uint (unsigned_total len).1
  · exact key _ .date (date_total _ len).1
  · contradiction
  · exact key _ .objId objectId_all.1
  · exact Total.pure _

end Dec

end Bac
