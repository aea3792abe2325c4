import Verif.Lemmas.Failure
/-!
# Bit strings, helper lemmas
-/

namespace Bac

/-- The bit a reversed octet shows at position `j` is bit `7 - j` of the octet. -/
theorem reverse_bit : ∀ (b : UInt8) (j : Fin 8),
    ((byteReverseBits b &&& (1 <<< UInt8.ofNat j.val)) != 0) = b.toNat.testBit (7 - j.val) := by
  decide +kernel

theorem or_mask_bit : ∀ (b : UInt8) (i j : Fin 8),
    (((b ||| (1 <<< UInt8.ofNat i.val)) &&& (1 <<< UInt8.ofNat j.val)) != 0)
      = (if i = j then true else (b &&& (1 <<< UInt8.ofNat j.val)) != 0) := by
  decide +kernel

theorem and_mask_bit : ∀ (b : UInt8) (i j : Fin 8),
    (((b &&& ~~~(1 <<< UInt8.ofNat i.val)) &&& (1 <<< UInt8.ofNat j.val)) != 0)
      = (if i = j then false else (b &&& (1 <<< UInt8.ofNat j.val)) != 0) := by
  decide +kernel

theorem bit_offset : ∀ i : UInt8, i - i / 8 * 8 = UInt8.ofNat (i.toNat % 8) := by
  decide +kernel

theorem bit_index : ∀ i : UInt8, (i / 8).toNat = i.toNat / 8 := by decide +kernel

theorem bit_index_lt : ∀ i : UInt8, (i / 8 < 15) ↔ i.toNat < 120 := by decide +kernel

theorem bit_lt120 : ∀ i : UInt8, (i < 120) ↔ i.toNat < 120 := by decide +kernel

/-- `Bit` in terms of the octet and the mask. -/
theorem BitString.bit_eq (bs : BitString) (i : UInt8) :
    bs.bit i = if i.toNat < 120 then
        (match bs.value[i.toNat / 8]? with
         | none => .panic .indexOutOfRange
         | some b => .ok ((b &&& (1 <<< UInt8.ofNat (i.toNat % 8))) != 0))
      else .ok false := by
  unfold BitString.bit
  simp only [bit_offset, bit_index, bit_lt120]
  rfl

/-- The loop of the decoder copies the reversed octets. -/
theorem Dec.bitStringLoop_value (data : List UInt8) (n i : Nat) (bs : BitString)
    (hd : i + n < data.length) (hv : i + n ≤ bs.value.length) (h15 : i + n ≤ 15) :
    ∃ bs', Dec.bitStringLoop data n i bs = .ok bs' ∧ bs'.value.length = bs.value.length ∧
      bs'.bitUsed = bs.bitUsed ∧
      ∀ j, bs'.value[j]? = if i ≤ j ∧ j < i + n then (data[j + 1]?).map byteReverseBits
        else bs.value[j]? := by
  induction n generalizing i bs with
  | zero => exact ⟨bs, rfl, rfl, rfl, fun j => by rw [if_neg (by omega)]⟩
  | succ n ih =>
    have hi : i + 1 < data.length := by omega
    have hset : bs.setByte (UInt8.ofNat i) (byteReverseBits data[i + 1])
        = .ok { bs with value := bs.value.set i (byteReverseBits data[i + 1]) } := by
      have hn : (UInt8.ofNat i).toNat = i := by simp; omega
      have hlt : UInt8.ofNat i < 15 := by
        rw [UInt8.lt_iff_toNat_lt, hn]; exact show i < 15 by omega
      unfold BitString.setByte
      rw [hn]
      simp only [hlt, if_true, show i < bs.value.length by omega]
    obtain ⟨bs', h1, h2, h3, h4⟩ := ih (i + 1)
      { bs with value := bs.value.set i (byteReverseBits data[i + 1]) } (by omega)
      (by simp; omega) (by omega)
    refine ⟨bs', ?_, by rw [h2]; simp, h3, ?_⟩
    · unfold bitStringLoop
      rw [List.getElem?_eq_getElem hi]
      simp only [hset, Outcome.ok_bind]
      exact h1
    · intro j
      rw [h4 j]
      by_cases hj : j = i
      · subst hj
        rw [if_neg (by omega), if_pos (by omega)]
        simp only
        rw [List.getElem?_set_self (by omega), List.getElem?_eq_getElem hi]
        rfl
      · by_cases hr : i + 1 ≤ j ∧ j < i + 1 + n
        · rw [if_pos hr, if_pos (by omega)]
        · rw [if_neg hr, if_neg (by omega)]
          simp only
          rw [List.getElem?_set_ne (by omega)]

/-- `GetValue` when every bit asked for is available. -/
theorem BitString.getValueFrom_ok (bs : BitString) (f : Nat → Bool) (n i : Nat) (h120 : i + n ≤ 120)
    (hf : ∀ j, j < 120 → j < i + n → bs.bit (UInt8.ofNat j) = .ok (f j)) :
    bs.getValueFrom n i = .ok ((List.range n).map fun j => f (i + j)) := by
  induction n generalizing i with
  | zero => rfl
  | succ n ih =>
    unfold BitString.getValueFrom
    rw [hf i (by omega) (by omega), Outcome.ok_bind,
      ih (i + 1) (by omega) (fun j h1 h2 => hf j h1 (by omega)), Outcome.ok_bind]
    show Outcome.ok _ = _
    rw [List.range_succ_eq_map]
    simp only [List.map_cons, List.map_map, Nat.add_zero, Outcome.ok.injEq, List.cons.injEq,
      true_and]
    apply List.map_congr_left
    intro j _
    show f (i + 1 + j) = f (i + (j + 1))
    congr 1
    omega

end Bac
