import Verif.Model.AddrText
import Verif.Props.Values
/-!
# C12, C157: exactly which bit strings are read; their texts
-/

namespace Bac.Props
open Bac

/-! ## C12 exactly -/

theorem getValueFrom_length (bs : BitString) (n i : Nat) (l : List Bool) (h : bs.getValueFrom n i = .ok l) : l.length = n := by
  induction n generalizing i l with
  | zero => cases h; rfl
  | succ n ih =>
    unfold BitString.getValueFrom at h
    obtain ⟨b, _, h⟩ := ok_bind_inv h
    obtain ⟨r, h1, h⟩ := ok_bind_inv h
    cases h
    rw [List.length_cons, ih _ _ h1]

theorem getValueFrom_some (bs : BitString) (n i : Nat) (h : ∀ j, i ≤ j → j < i + n → ∃ b, bs.bit (UInt8.ofNat j) = .ok b) :
    ∃ l, bs.getValueFrom n i = .ok l := by
  induction n generalizing i with
  | zero => exact ⟨[], rfl⟩
  | succ n ih =>
    obtain ⟨b, hb⟩ := h i (Nat.le_refl _) (by omega)
    obtain ⟨l, hl⟩ := ih (i + 1) fun j h1 h2 => h j (by omega) (by omega)
    exact ⟨b :: l, by unfold BitString.getValueFrom; rw [hb, Outcome.ok_bind, hl]; rfl⟩

/-- A bit string whose octets suffice for the bits announced, or that has fifteen of them, is read. -/
theorem getValue_some (bs : BitString) (h : bs.bitUsed.toNat ≤ 8 * bs.value.length ∨ 15 ≤ bs.value.length) :
    ∃ l, bs.getValue = .ok l := by
  refine getValueFrom_some bs _ 0 fun j _ hj => ?_
  rw [Nat.zero_add] at hj
  have hn : (UInt8.ofNat j).toNat = j := by
    have := bs.bitUsed.toNat_lt
    simp
    omega
  rw [BitString.bit_eq, hn]
  split
  · have : j / 8 < bs.value.length := by omega
    rw [List.getElem?_eq_getElem this]
    exact ⟨_, rfl⟩
  · exact ⟨_, rfl⟩

theorem Parses.unique {α : Type} {m : D α} {bs : List UInt8} {a b : α} (h1 : Parses m bs a) (h2 : Parses m bs b) : a = b := by
  have := (h1 none []).symm.trans (h2 none [])
  injection this with this
  injection this

/-- What a bit string is decoded to, whatever its contents. -/
theorem bits_parses (u : UInt8) (data : List UInt8) : ∃ bs, Dec.bitStringOf (data.length + 1) (u :: data) = .ok bs ∧
    Parses (Dec.appDataOfTag 8 (data.length + 1)) (u :: data) (.bits (some bs), none) ∧
    bs.value.length = min data.length 15 ∧
    (bs.bitUsed = 0 ∨ bs.bitUsed = UInt8.ofNat data.length * 8 - (u &&& 7)) := by
  have key : ∃ bs, Dec.bitStringOf (data.length + 1) (u :: data) = .ok bs ∧ bs.value.length = min data.length 15 ∧
      (bs.bitUsed = 0 ∨ bs.bitUsed = UInt8.ofNat data.length * 8 - (u &&& 7)) := by
    unfold Dec.bitStringOf
    simp only [Nat.add_sub_cancel]
    split
    · next h =>
      have hle : (UInt8.ofNat data.length).toNat ≤ 15 := h
      have hle' : (UInt8.ofNat data.length).toNat ≤ data.length := by simp; omega
      obtain ⟨bs', h1, h2, _, _⟩ := Dec.bitStringLoop_value (u :: data) (UInt8.ofNat data.length).toNat 0
        (BitString.new data.length) (by simp; omega) (by simp only [BitString.new, BitString.maxBytes, List.length_replicate]; omega)
        (by omega)
      rw [h1, Outcome.ok_bind]
      refine ⟨_, rfl, ?_, Or.inr rfl⟩
      show bs'.value.length = _
      rw [h2]
      simp [BitString.new, BitString.maxBytes]
    · exact ⟨_, rfl, by simp [BitString.new, BitString.maxBytes], Or.inl rfl⟩
  obtain ⟨bs, h1, h2, h3⟩ := key
  refine ⟨bs, h1, ?_, h2, h3⟩
  refine Dec.Parses.withError (f := Scalar.bits) (m := Dec.bitString (data.length + 1)) ?_
  unfold Dec.bitString
  rw [if_neg (by omega)]
  have hb := Dec.parses_bytes (u :: data)
  rw [List.length_cons] at hb
  refine Parses.bind' hb ?_
  rw [h1]
  intro p rest
  rfl

/-- C12, exactly: of the bit strings that the standard allows, those of up to fifteen octets are decoded to their bits, and
no others. -/
theorem C12_exact (u : UInt8) (data : List UInt8) (hu : u.toNat < 8) (h0 : data = [] → u = 0) :
    (∃ bs, Parses (Dec.appDataOfTag 8 (data.length + 1)) (u :: data) (.bits (some bs), none) ∧
      bs.getValue = .ok ((Spec.bitsOf data).take (8 * data.length - u.toNat))) ↔ data.length ≤ 15 := by
  constructor
  · rintro ⟨bs, h1, h2⟩
    by_contra hlen
    have hl := getValueFrom_length _ _ _ _ h2
    rw [List.length_take, bitsOf_eq, List.length_map, List.length_range] at hl
    have hb := bs.bitUsed.toNat_lt
    obtain ⟨bs', h3, h4⟩ := C12_fails_long u data (by omega) (by omega)
    have := Parses.unique h1 h3
    injection this with this
    injection this with this
    injection this with this
    subst this
    rw [h4] at h2
    have := getValueFrom_length _ _ _ _ h4
    rw [List.length_nil] at this
    omega
  · intro h
    obtain ⟨bs, h1, _, h2⟩ := C12_bitstring_partial u data hu h h0
    exact ⟨bs, h1, h2⟩

/-- C12, exactly when what was decoded cannot be read: there is no octet, and bits of it are said to be unused. -/
theorem C12_crash_iff (u : UInt8) (data : List UInt8) :
    (∃ bs, Parses (Dec.appDataOfTag 8 (data.length + 1)) (u :: data) (.bits (some bs), none) ∧ bs.getValue.Panics) ↔
      data = [] ∧ u.toNat % 8 ≠ 0 := by
  obtain ⟨bs, h1, h2, h3, h4⟩ := bits_parses u data
  have hu : (u &&& 7).toNat = u.toNat % 8 := by
    rw [UInt8.toNat_and]
    exact Nat.and_two_pow_sub_one_eq_mod u.toNat 3
  have hp : (∃ bs, Parses (Dec.appDataOfTag 8 (data.length + 1)) (u :: data) (.bits (some bs), none) ∧ bs.getValue.Panics) ↔
      bs.getValue.Panics := by
    constructor
    · rintro ⟨bs', h5, h6⟩
      have := Parses.unique h2 h5
      injection this with this
      injection this with this
      injection this with this
      exact this ▸ h6
    · exact fun h => ⟨bs, h2, h⟩
  rw [hp]
  constructor
  · intro hpan
    have hno : ¬ (bs.bitUsed.toNat ≤ 8 * bs.value.length ∨ 15 ≤ bs.value.length) := by
      intro h
      obtain ⟨l, hl⟩ := getValue_some bs h
      rw [hl] at hpan
      cases hpan
    have hlen : data.length < 15 := by omega
    rcases h4 with h4 | h4
    · exact absurd (Or.inl (by rw [h4]; exact Nat.zero_le _)) hno
    · have hb : bs.bitUsed.toNat = (8 * data.length + (256 - u.toNat % 8)) % 256 := by
        rw [h4, UInt8.toNat_sub, hu, UInt8.toNat_mul, UInt8.toNat_ofNat']
        show (2 ^ 8 - u.toNat % 8 + data.length % 2 ^ 8 * 8 % 2 ^ 8) % 2 ^ 8 = _
        omega
      refine ⟨?_, ?_⟩
      · by_contra hne
        have := List.length_pos_iff.2 hne
        omega
      · intro hz
        omega
  · rintro ⟨rfl, hu'⟩
    have hv : bs.value = [] := List.length_eq_zero_iff.1 (by rw [h3]; rfl)
    have hb : bs.bitUsed.toNat ≠ 0 := by
      rw [bitStringOf_short u [] (by simp)] at h1
      cases h1
      show (0 * 8 - (u &&& 7)).toNat ≠ 0
      rw [UInt8.toNat_sub, hu]
      show (2 ^ 8 - u.toNat % 8 + 0) % 2 ^ 8 ≠ 0
      omega
    obtain ⟨n, hn⟩ := Nat.exists_eq_succ_of_ne_zero hb
    unfold BitString.getValue
    rw [hn]
    unfold BitString.getValueFrom
    have : bs.bit (UInt8.ofNat 0) = .panic .indexOutOfRange := by
      rw [BitString.bit_eq, if_pos (by decide), hv]
      rfl
    rw [this]
    trivial

/-- Sixteen octets are too many; five unused bits of no octet crash. -/
example : ¬ (List.replicate 16 (0xFF : UInt8)).length ≤ 15 ∧ ([] : List UInt8) = [] ∧ (0x15 : UInt8).toNat % 8 ≠ 0 := by
  decide

/-! ## C157 The text of a bit string -/

theorem boolText_cons (b c : Bool) (x y : List Nat) (h : boolText b ++ x = boolText c ++ y) : b = c ∧ x = y := by
  cases b <;> cases c <;> simp [boolText] at h <;> exact ⟨rfl, h⟩

theorem boolsTail_inj (l l' : List Bool) (h : boolsTail l = boolsTail l') : l = l' := by
  induction l generalizing l' with
  | nil => cases l' with
    | nil => rfl
    | cons b l' => simp [boolsTail] at h
  | cons b l ih => cases l' with
    | nil => simp [boolsTail] at h
    | cons c l' =>
      simp only [boolsTail, List.append_assoc] at h
      obtain ⟨h1, h2⟩ := boolText_cons b c _ _ (List.append_cancel_left h)
      rw [h1, ih l' h2]

theorem boolsText_inj (l l' : List Bool) (h : boolsText l = boolsText l') : l = l' := by
  cases l with
  | nil => cases l' with
    | nil => rfl
    | cons c l' => cases c <;> simp [boolsText, boolText] at h
  | cons b l => cases l' with
    | nil => cases b <;> simp [boolsText, boolText] at h
    | cons c l' =>
      simp only [boolsText, List.append_assoc] at h
      obtain ⟨h1, h2⟩ := boolText_cons b c _ _ (List.append_cancel_left h)
      rw [h1, boolsTail_inj l l' h2]

/-- C157: bit strings with the same text have the same bits, and conversely. -/
theorem C157_text (a b : BitString) (s t : List Nat) (ha : a.text = .ok s) (hb : b.text = .ok t) :
    s = t ↔ a.getValue = b.getValue := by
  obtain ⟨x, h1, h2⟩ := ok_bind_inv ha
  obtain ⟨y, h3, h4⟩ := ok_bind_inv hb
  cases h2
  cases h4
  rw [h1, h3]
  exact ⟨fun h => by rw [boolsText_inj x y h], fun h => by injection h with h; rw [h]⟩

/-- C157: a bit string that was received and has a text tells its bits. -/
theorem C157_received (u : UInt8) (data : List UInt8) (hu : u.toNat < 8) (h0 : data = [] → u = 0) (hk : data.length ≤ 15) :
    ∃ bs, Parses (Dec.appDataOfTag 8 (data.length + 1)) (u :: data) (.bits (some bs), none) ∧
      ∀ t, bs.text = .ok t ↔ t = boolsText ((Spec.bitsOf data).take (8 * data.length - u.toNat)) := by
  obtain ⟨bs, h1, _, h2⟩ := C12_bitstring_partial u data hu hk h0
  refine ⟨bs, h1, fun t => ?_⟩
  unfold BitString.text
  rw [h2, Outcome.ok_bind]
  exact ⟨fun h => by cases h; rfl, fun h => by rw [h]; rfl⟩

/-- C157 fails: a bit string of no octet with unused bits is received and has no text; making it crashes. -/
theorem C157_fails (u : UInt8) (h : u.toNat % 8 ≠ 0) :
    ∃ bs, Parses (Dec.appDataOfTag 8 1) [u] (.bits (some bs), none) ∧ bs.text.Panics := by
  obtain ⟨bs, h1, h2⟩ := (C12_crash_iff u []).2 ⟨rfl, h⟩
  refine ⟨bs, h1, ?_⟩
  unfold BitString.text
  cases hv : bs.getValue with
  | panic p => trivial
  | ok l => rw [hv] at h2; cases h2
  | _ => rw [hv] at h2; cases h2

/-- Three bits. -/
example : BitString.text ⟨3, [0x05]⟩ = .ok t!"[true,false,true]" ∧ BitString.text ⟨0, []⟩ = .ok t!"[]" := by decide +kernel

end Bac.Props
