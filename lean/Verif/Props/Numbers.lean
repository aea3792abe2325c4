import Verif.Props.WriteCmd
import Verif.Props.Exactly
/-!
# C123: exactly which whole numbers are written
-/

namespace Bac.Props
open Bac

/-- C123, exactly which whole numbers the write command writes as they were given: those of up to 24 bits followed by zeros. -/
theorem C123_exact_number (t : Parsers) (n : Nat) (ht : C123_Parses t n) (hn : n < 2 ^ 32) :
    (∃ x, t.uint32 ((decimal n).map UInt8.ofNat) = (x, true) ∧ x.toNat = n) ↔ ∃ m k, m < 2 ^ 24 ∧ n = m * 2 ^ k := by
  obtain ⟨h1, bits, h2, h4, h3⟩ := ht
  have hv : (UInt32.ofNat n).toNat = n := UInt32.toNat_ofNat_of_lt' hn
  have hnear := float_nearest (UInt32.ofNat n)
  have he : priorityEntry (.uint (UInt32.ofNat n)) = .ok (some (float32OfUInt32 (UInt32.ofNat n))) := rfl
  have key := C101_exact (UInt32.ofNat n)
  rw [hv] at hnear key
  rw [← key, he]
  constructor
  · rintro ⟨x, hx, hxn⟩
    rw [hx] at h3
    simp only [hxn] at h3
    refine ⟨_, rfl, ?_, ?_⟩
    · have := hnear.1
      omega
    · have hle := hnear.2 bits h2.1
      unfold Spec.realError at hle
      rw [h3] at hle
      omega
  · rintro ⟨f, hf, hr⟩
    injection hf with hf
    injection hf with hf
    subst hf
    refine ⟨_, Prod.ext rfl h1, ?_⟩
    have hle := h2.2 _ hnear.1
    unfold Spec.realError at hle
    rw [hr.2, h3] at hle
    generalize (t.uint32 ((decimal n).map UInt8.ofNat)).1.toNat = m at *
    have : m * 2 ^ 150 = n * 2 ^ 150 := by omega
    exact Nat.eq_of_mul_eq_mul_right (by decide) this

/-- 2^24 + 2 can be written, 2^24 + 1 cannot. -/
example : (∃ m k, m < 2 ^ 24 ∧ 16777218 = m * 2 ^ k) ∧ ¬ ∃ m k, m < 2 ^ 24 ∧ 16777217 = m * 2 ^ k := by
  refine ⟨⟨8388609, 1, by decide, rfl⟩, ?_⟩
  rintro ⟨m, k, hm, h⟩
  cases k with
  | zero => omega
  | succ k =>
    rw [Nat.pow_succ, ← Nat.mul_assoc] at h
    omega

end Bac.Props
