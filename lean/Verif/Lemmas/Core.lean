import Verif.Model.Decoder
import Verif.Spec.Wire
import Verif.Spec.Run
import Mathlib.Tactic.NormNum
/-!
# Basic lemmas about bytes, the encoder and the decoder
-/

namespace Bac

/-- Statements about all 256 octets can be checked by evaluation. -/
instance decForallU8 (P : UInt8 → Prop) [DecidablePred P] : Decidable (∀ x, P x) :=
  decidable_of_iff (∀ i : Fin 256, P (UInt8.ofFin i))
    ⟨fun h x => by simpa using h x.toFin, fun h _ => h _⟩

/-! ## Big-endian -/

theorem or_shl (a b i : Nat) (h : b < 2 ^ i) : b ||| a <<< i = a * 2 ^ i + b := by
  rw [Nat.or_comm, ← Nat.shiftLeft_add_eq_or_of_lt h, Nat.shiftLeft_eq]

theorem rd16_toNat (a b : UInt8) : (rd16 a b).toNat = a.toNat * 256 + b.toNat := by
  have ha := a.toNat_lt; have hb := b.toNat_lt
  unfold rd16
  simp only [UInt16.toNat_or, UInt8.toNat_toUInt16, UInt16.toNat_shiftLeft]
  simp only [UInt16.toNat_ofNat]
  norm_num
  rw [Nat.mod_eq_of_lt (by rw [Nat.shiftLeft_eq]; omega), or_shl _ _ 8 (by omega)]
  omega

theorem rd32_toNat (a b c d : UInt8) : (rd32 a b c d).toNat =
    a.toNat * 2 ^ 24 + b.toNat * 2 ^ 16 + c.toNat * 256 + d.toNat := by
  have ha := a.toNat_lt; have hb := b.toNat_lt; have hc := c.toNat_lt; have hd := d.toNat_lt
  unfold rd32
  simp only [UInt32.toNat_or, UInt8.toNat_toUInt32, UInt32.toNat_shiftLeft]
  simp only [UInt32.toNat_ofNat]
  norm_num
  rw [Nat.mod_eq_of_lt (by rw [Nat.shiftLeft_eq]; omega),
    Nat.mod_eq_of_lt (by rw [Nat.shiftLeft_eq]; omega),
    Nat.mod_eq_of_lt (by rw [Nat.shiftLeft_eq]; omega)]
  rw [or_shl _ _ 8 (by omega), or_shl _ _ 16 (by omega), or_shl _ _ 24 (by omega)]
  omega

theorem rd64_toNat (a b c d e f g h : UInt8) : (rd64 a b c d e f g h).toNat =
    a.toNat * 2 ^ 56 + b.toNat * 2 ^ 48 + c.toNat * 2 ^ 40 + d.toNat * 2 ^ 32
      + e.toNat * 2 ^ 24 + f.toNat * 2 ^ 16 + g.toNat * 256 + h.toNat := by
  have ha := a.toNat_lt; have hb := b.toNat_lt; have hc := c.toNat_lt; have hd := d.toNat_lt
  have he := e.toNat_lt; have hf := f.toNat_lt; have hg := g.toNat_lt; have hh := h.toNat_lt
  unfold rd64
  simp only [UInt64.toNat_or, UInt8.toNat_toUInt64, UInt64.toNat_shiftLeft]
  simp only [UInt64.toNat_ofNat]
  norm_num
  rw [Nat.mod_eq_of_lt (by rw [Nat.shiftLeft_eq]; omega),
    Nat.mod_eq_of_lt (by rw [Nat.shiftLeft_eq]; omega),
    Nat.mod_eq_of_lt (by rw [Nat.shiftLeft_eq]; omega),
    Nat.mod_eq_of_lt (by rw [Nat.shiftLeft_eq]; omega),
    Nat.mod_eq_of_lt (by rw [Nat.shiftLeft_eq]; omega),
    Nat.mod_eq_of_lt (by rw [Nat.shiftLeft_eq]; omega),
    Nat.mod_eq_of_lt (by rw [Nat.shiftLeft_eq]; omega)]
  rw [or_shl _ _ 8 (by omega), or_shl _ _ 16 (by omega), or_shl _ _ 24 (by omega),
    or_shl _ _ 32 (by omega), or_shl _ _ 40 (by omega), or_shl _ _ 48 (by omega),
    or_shl _ _ 56 (by omega)]
  omega

theorem rd16_be (x : UInt16) : rd16 (x >>> 8).toUInt8 x.toUInt8 = x := by
  apply UInt16.toNat_inj.mp
  have := x.toNat_lt
  rw [rd16_toNat]
  simp [Nat.shiftRight_eq_div_pow]
  omega

theorem rd32_be (x : UInt32) :
    rd32 (x >>> 24).toUInt8 (x >>> 16).toUInt8 (x >>> 8).toUInt8 x.toUInt8 = x := by
  apply UInt32.toNat_inj.mp
  have := x.toNat_lt
  rw [rd32_toNat]
  simp [Nat.shiftRight_eq_div_pow]
  omega

theorem rd64_be (x : UInt64) :
    rd64 (x >>> 56).toUInt8 (x >>> 48).toUInt8 (x >>> 40).toUInt8 (x >>> 32).toUInt8
      (x >>> 24).toUInt8 (x >>> 16).toUInt8 (x >>> 8).toUInt8 x.toUInt8 = x := by
  apply UInt64.toNat_inj.mp
  have := x.toNat_lt
  rw [rd64_toNat]
  simp [Nat.shiftRight_eq_div_pow]
  omega

theorem u8_ofNat_eq {a : UInt8} {n : Nat} (h : a.toNat = n % 256) : a = UInt8.ofNat n := by
  apply UInt8.toNat_inj.mp; simp [h]

theorem be16_spec (x : UInt16) : be16 x = Spec.bigEndian 2 x.toNat := by
  have := x.toNat_lt
  simp only [be16, Spec.bigEndian, List.nil_append, List.cons_append]
  congr 1
  · apply u8_ofNat_eq; simp [Nat.shiftRight_eq_div_pow]
  · congr 1
    apply u8_ofNat_eq; simp

theorem be32_spec (x : UInt32) : be32 x = Spec.bigEndian 4 x.toNat := by
  have := x.toNat_lt
  simp only [be32, Spec.bigEndian, List.nil_append, List.cons_append]
  congr 1
  · apply u8_ofNat_eq; simp [Nat.shiftRight_eq_div_pow]; omega
  congr 1
  · apply u8_ofNat_eq; simp [Nat.shiftRight_eq_div_pow]; omega
  congr 1
  · apply u8_ofNat_eq; simp [Nat.shiftRight_eq_div_pow]
  congr 1
  apply u8_ofNat_eq; simp

/-! ## Encoder -/

namespace Enc

@[simp] theorem write_write (e : Enc) (a b : List UInt8) :
    (e.write a).write b = e.write (a ++ b) := by
  rcases e with ⟨buf, err⟩
  cases err <;> simp [write]

@[simp] theorem write_nil (e : Enc) : e.write [] = e := by
  rcases e with ⟨buf, err⟩
  cases err <;> simp [write]

@[simp] theorem write_err (e : Enc) (a : List UInt8) : (e.write a).err = e.err := by
  rcases e with ⟨buf, err⟩
  cases err <;> simp [write]

theorem write_buf (e : Enc) (a : List UInt8) (h : e.err = none) :
    (e.write a).buf = e.buf ++ a := by
  rcases e with ⟨buf, err⟩
  cases err <;> simp_all [write]

theorem new_write_buf (a : List UInt8) : (Enc.new.write a).buf = a := by
  simp [new, write]

end Enc

/-! ## Decoder: reading a known prefix -/

@[simp] theorem lastOr_nil (p) : lastOr p [] = p := by simp [lastOr]

theorem lastOr_append (p a b) : lastOr (lastOr p a) b = lastOr p (a ++ b) := by
  unfold lastOr
  rw [List.getLast?_append]
  cases b.getLast? <;> simp

theorem D.bind_apply {α β : Type} (x : D α) (f : α → D β) (d : Dec) :
    (x >>= f) d = (x d).bind fun p => f p.1 p.2 := rfl

theorem D.pure_apply {α : Type} (a : α) (d : Dec) : (pure a : D α) d = .ok (a, d) := rfl

theorem Parses.pure {α : Type} (a : α) : Parses (pure a : D α) [] a := by
  intro p rest; simp [D.pure_apply]

theorem Parses.bind {α β : Type} {m : D α} {f : α → D β} {as bs : List UInt8} {a : α} {b : β}
    (h1 : Parses m as a) (h2 : Parses (f a) bs b) : Parses (m >>= f) (as ++ bs) b := by
  intro p rest
  rw [D.bind_apply, List.append_assoc, h1]
  show f a _ = _
  rw [h2, lastOr_append]

/-- `bind` where the second part reads nothing. -/
theorem Parses.bind' {α β : Type} {m : D α} {f : α → D β} {as : List UInt8} {a : α} {b : β}
    (h1 : Parses m as a) (h2 : Parses (f a) [] b) : Parses (m >>= f) as b := by
  simpa using Parses.bind h1 h2

/-- `bind` where the first part reads nothing. -/
theorem Parses.bind0 {α β : Type} {m : D α} {f : α → D β} {bs : List UInt8} {a : α} {b : β}
    (h1 : Parses m [] a) (h2 : Parses (f a) bs b) : Parses (m >>= f) bs b := by
  simpa using Parses.bind h1 h2

namespace Dec

theorem parses_error : Parses error [] none := by intro p rest; rfl

theorem parses_readN (bs : List UInt8) : Parses (readN bs.length) bs (some bs) := by
  intro p rest
  unfold readN
  cases bs with
  | nil => simp
  | cons b bs =>
    simp [lastOr, List.getLast?_cons]

theorem parses_u8 (b : UInt8) : Parses u8 [b] b := by
  have := Parses.bind' (f := fun r => match r with
    | some [a] => (Pure.pure a : D UInt8)
    | _ => Pure.pure 0) (parses_readN [b]) (Parses.pure b)
  exact this

theorem parses_u16 (a b : UInt8) : Parses u16 [a, b] (rd16 a b) := by
  exact Parses.bind' (parses_readN [a, b]) (Parses.pure _)

theorem parses_u32 (a b c d : UInt8) : Parses u32 [a, b, c, d] (rd32 a b c d) := by
  exact Parses.bind' (parses_readN [a, b, c, d]) (Parses.pure _)

theorem parses_u64 (a b c d e f g h : UInt8) :
    Parses u64 [a, b, c, d, e, f, g, h] (rd64 a b c d e f g h) := by
  exact Parses.bind' (parses_readN [a, b, c, d, e, f, g, h]) (Parses.pure _)

theorem parses_bytes (bs : List UInt8) : Parses (bytes bs.length) bs bs := by
  exact Parses.bind' (parses_readN bs) (Parses.pure _)

theorem parses_be16 (x : UInt16) : Parses u16 (be16 x) x := by
  have := parses_u16 (x >>> 8).toUInt8 x.toUInt8
  rwa [rd16_be] at this

theorem parses_be32 (x : UInt32) : Parses u32 (be32 x) x := by
  have := parses_u32 (x >>> 24).toUInt8 (x >>> 16).toUInt8 (x >>> 8).toUInt8 x.toUInt8
  rwa [rd32_be] at this

theorem parses_be64 (x : UInt64) : Parses u64 (be64 x) x := by
  have := parses_u64 (x >>> 56).toUInt8 (x >>> 48).toUInt8 (x >>> 40).toUInt8 (x >>> 32).toUInt8
    (x >>> 24).toUInt8 (x >>> 16).toUInt8 (x >>> 8).toUInt8 x.toUInt8
  rwa [rd64_be] at this

end Dec

end Bac
