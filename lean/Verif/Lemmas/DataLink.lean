import Verif.Model.DataLink
import Verif.Spec.DataLink
import Mathlib.Tactic.IntervalCases
/-!
# Lemmas about the data link
-/

namespace Bac

theorem to4_four {ip : List UInt8} (h : ip.length = 4) : to4 ip = ip := by simp [to4, h]

@[simp] theorem to4_ipv4 (a b c d : UInt8) : to4 (ipv4 a b c d) = [a, b, c, d] := by
  simp [to4, ipv4]

@[simp] theorem to4_quad (a b c d : UInt8) : to4 [a, b, c, d] = [a, b, c, d] := by
  simp [to4]

/-- Only IPv4 addresses, in one of the two forms, have a `To4`. -/
theorem to4_ne_nil {ip : List UInt8} (h : to4 ip ≠ []) :
    ∃ a b c d, (ip = [a, b, c, d] ∨ ip = ipv4 a b c d) ∧ to4 ip = [a, b, c, d] := by
  unfold to4 at h ⊢
  split at h
  next h4 =>
    match ip, h4 with
    | [a, b, c, d], _ => exact ⟨a, b, c, d, Or.inl rfl, by simp⟩
  next h4 =>
    split at h
    next h16 =>
      obtain ⟨hl, ht⟩ := h16
      have hd : (ip.drop 12).length = 4 := by simp [hl]
      have hsplit := List.take_append_drop 12 ip
      match hdr : ip.drop 12, hd with
      | [a, b, c, d], _ =>
        refine ⟨a, b, c, d, Or.inr ?_, ?_⟩
        · rw [← hsplit, ht, hdr]; rfl
        · rw [if_neg h4, if_pos ⟨hl, ht⟩]
    next => exact absurd rfl h

/-- The two octets of a port. -/
theorem port_octets (port : Nat) (h : port < 65536) :
    ((UInt16.ofInt port >>> 8).toUInt8).toNat * 256 + ((UInt16.ofInt port &&& 0x00FF).toUInt8).toNat = port := by
  have e : (UInt16.ofInt (port : Int)) = UInt16.ofNat port := by
    apply UInt16.toNat_inj.1
    simp [UInt16.ofInt]
    omega
  rw [e]
  have h1 : ((UInt16.ofNat port >>> 8).toUInt8).toNat = port / 256 := by
    simp [Nat.shiftRight_eq_div_pow]
    omega
  have h2 : ((UInt16.ofNat port &&& 0x00FF).toUInt8).toNat = port % 256 := by
    have := Nat.and_two_pow_sub_one_eq_mod port 8
    have hlt : port &&& 255 < 256 := by simp at this; omega
    have e255 : (255 : UInt16).toNat = 255 := rfl
    rw [UInt16.toNat_toUInt8, UInt16.toNat_and, UInt16.toNat_ofNat_of_lt' h, e255, Nat.mod_eq_of_lt hlt]
    exact this
  omega

/-- What `UDPToAddress` builds from four octets and a port. -/
theorem udpToAddress_quad (a b c d : UInt8) (port : Nat) (h : port < 65536) :
    ∃ A, udpToAddress [a, b, c, d] port = .ok A ∧ Spec.IsEndpoint A.mac a b c d port ∧
      A.macLen = 6 ∧ A.net = 0 ∧ A.len = 0 ∧ A.adr = [] :=
  ⟨_, rfl, ⟨_, _, rfl, (port_octets port h).symm⟩, rfl, rfl, rfl, rfl⟩

/-- Reading an endpoint back. -/
theorem udpAddr_endpoint {A : Address} {a b c d : UInt8} {port : Nat} (h : Spec.IsEndpoint A.mac a b c d port) :
    A.udpAddr = some ((a, b, c, d), port) := by
  obtain ⟨hi, lo, hm, hp⟩ := h
  have hlo := lo.toNat_lt
  rw [Address.udpAddr, hm]
  simp only [Option.some.injEq, Prod.mk.injEq, true_and]
  rw [← Nat.shiftLeft_add_eq_or_of_lt hlo, Nat.shiftLeft_eq]
  omega

/-- One octet of the broadcast address: the last value with the same leading bits. -/
theorem broadcast_octet : ∀ (k : Fin 8) (x : UInt8),
    ((x &&& ~~~((0xFF : UInt8) >>> UInt8.ofNat k.val) ||| ~~~ ~~~((0xFF : UInt8) >>> UInt8.ofNat k.val))).toNat =
      x.toNat / 2 ^ (8 - k.val) * 2 ^ (8 - k.val) + (2 ^ (8 - k.val) - 1) := by
  have h : ∀ (k : Fin 8) (x : Fin 256),
    ((UInt8.ofFin x &&& ~~~((0xFF : UInt8) >>> UInt8.ofNat k.val) ||| ~~~ ~~~((0xFF : UInt8) >>> UInt8.ofNat k.val))).toNat =
      x.val / 2 ^ (8 - k.val) * 2 ^ (8 - k.val) + (2 ^ (8 - k.val) - 1) := by
    decide +kernel
  intro k x
  exact h k x.toFin

/-- One octet of a mask with `k` ones, and the octet of the broadcast address. -/
def bcastOctet (k : Nat) (x : UInt8) : UInt8 :=
  x &&& ~~~((0xFF : UInt8) >>> UInt8.ofNat k) ||| ~~~ ~~~((0xFF : UInt8) >>> UInt8.ofNat k)

theorem bcastOctet_toNat (k : Nat) (hk : k < 8) (x : UInt8) :
    (bcastOctet k x).toNat = x.toNat / 2 ^ (8 - k) * 2 ^ (8 - k) + (2 ^ (8 - k) - 1) :=
  broadcast_octet ⟨k, hk⟩ x

theorem bcast_full (x : UInt8) : (x &&& 0xFF ||| ~~~(0xFF : UInt8)) = x := by
  have h : ∀ x : Fin 256, (UInt8.ofFin x &&& 0xFF ||| ~~~(0xFF : UInt8)) = UInt8.ofFin x := by decide +kernel
  exact h x.toFin

theorem bcast_none (x : UInt8) : (x &&& ~~~255 ||| 255) = 255 := by
  have h : ∀ x : Fin 256, (UInt8.ofFin x &&& ~~~255 ||| 255) = 255 := by decide +kernel
  exact h x.toFin

/-- The four octets of the broadcast address lie at the end of the subnet. -/
theorem broadcast_last (a b c d : UInt8) (p : Nat) (hp : p ≤ 32) (cd : CIDR)
    (h : parseCIDR (.v4 a b c d) p = some cd) :
    ∃ e f g i, broadcastOf cd = [e, f, g, i] ∧
      Spec.IsLast p (Spec.ipNumber a b c d) (Spec.ipNumber e f g i) := by
  have ha := a.toNat_lt
  have hb := b.toNat_lt
  have hc := c.toNat_lt
  have hd := d.toNat_lt
  have n255 : (255 : UInt8).toNat = 255 := rfl
  rw [parseCIDR, if_pos (by omega)] at h
  simp only [Option.some.injEq] at h
  subst h
  simp only [Int.toNat_natCast, broadcastOf]
  by_cases h8 : p < 8
  · refine ⟨bcastOctet p a, 255, 255, 255, ?_, ?_⟩
    · simp [cidrMask, show ¬ 8 ≤ p by omega, bcastOctet, bcast_none]
    · simp only [Spec.IsLast, Spec.SameSubnet, Spec.ipNumber, bcastOctet_toNat p h8]
      interval_cases p <;>
        (refine ⟨?_, ?_, fun y hy hs => ?_⟩ <;>
          simp only [n255, Nat.reduceSub, Nat.reducePow] at * <;> omega)
  by_cases h16 : p < 16
  · refine ⟨a, bcastOctet (p - 8) b, 255, 255, ?_, ?_⟩
    · simp [cidrMask, show 8 ≤ p by omega, show ¬ 8 ≤ p - 8 by omega, bcastOctet, bcast_full, bcast_none]
    · simp only [Spec.IsLast, Spec.SameSubnet, Spec.ipNumber, bcastOctet_toNat (p - 8) (show p - 8 < 8 by omega)]
      interval_cases p <;>
        (refine ⟨?_, ?_, fun y hy hs => ?_⟩ <;>
          simp only [n255, Nat.reduceSub, Nat.reducePow] at * <;> omega)
  by_cases h24 : p < 24
  · refine ⟨a, b, bcastOctet (p - 16) c, 255, ?_, ?_⟩
    · simp [cidrMask, show 8 ≤ p by omega, show 8 ≤ p - 8 by omega, show ¬ 8 ≤ p - 16 by omega, bcastOctet, bcast_full, bcast_none, show p - 8 - 8 = p - 16 by omega]
    · simp only [Spec.IsLast, Spec.SameSubnet, Spec.ipNumber, bcastOctet_toNat (p - 16) (show p - 16 < 8 by omega)]
      interval_cases p <;>
        (refine ⟨?_, ?_, fun y hy hs => ?_⟩ <;>
          simp only [n255, Nat.reduceSub, Nat.reducePow] at * <;> omega)
  by_cases h32 : p < 32
  · refine ⟨a, b, c, bcastOctet (p - 24) d, ?_, ?_⟩
    · simp [cidrMask, show 8 ≤ p by omega, show 8 ≤ p - 8 by omega, show 8 ≤ p - 16 by omega, show ¬ 8 ≤ p - 24 by omega, show p - 8 - 8 = p - 16 by omega, show p - 16 - 8 = p - 24 by omega, bcastOctet, bcast_full, bcast_none]
    · simp only [Spec.IsLast, Spec.SameSubnet, Spec.ipNumber, bcastOctet_toNat (p - 24) (show p - 24 < 8 by omega)]
      interval_cases p <;>
        (refine ⟨?_, ?_, fun y hy hs => ?_⟩ <;>
          simp only [n255, Nat.reduceSub, Nat.reducePow] at * <;> omega)
  · obtain rfl : p = 32 := by omega
    refine ⟨a, b, c, d, ?_, ?_⟩
    · simp [cidrMask, bcast_full]
    · simp only [Spec.IsLast, Spec.SameSubnet, Spec.ipNumber]
      refine ⟨?_, ?_, fun y hy hs => ?_⟩ <;> simp only [Nat.reduceSub, Nat.reducePow] at * <;> omega

/-- Opening a link for an IPv4 address. -/
theorem dataLink_v4 (free : Int → Bool) (a b c d : UInt8) (p : Nat) (hp : p ≤ 32) (port : Int)
    (hfree : free (resolvePort (if port = 0 then 0xBAC0 else port)) = true) :
    ∃ l e f g i, dataLink free (.v4 a b c d) p port = .ok (.ok l) ∧
      l.listen = resolvePort (if port = 0 then 0xBAC0 else port) ∧
      udpToAddress [a, b, c, d] (if port = 0 then 0xBAC0 else port) = .ok l.my ∧
      Spec.IsEndpoint l.broadcast.mac e f g i 47808 ∧
      Spec.IsLast p (Spec.ipNumber a b c d) (Spec.ipNumber e f g i) := by
  cases hc : parseCIDR (.v4 a b c d) p with
  | none =>
    rw [parseCIDR, if_pos (by omega)] at hc
    cases hc
  | some cd =>
    obtain ⟨e, f, g, i, hb, hlast⟩ := broadcast_last a b c d p hp cd hc
    have hip : cd.ip = ipv4 a b c d := by
      rw [parseCIDR, if_pos (by omega)] at hc
      cases hc
      rfl
    obtain ⟨A, hA, hE, _⟩ := udpToAddress_quad e f g i 47808 (by decide)
    refine ⟨⟨resolvePort (if port = 0 then 0xBAC0 else port), _, A⟩, e, f, g, i, ?_, rfl, rfl, hE, hlast⟩
    simp only [dataLink, hc, hfree, hb, hip, ipPortToAddress, to4_ipv4, to4_quad]
    rw [show ((0xBAC0 : Int)) = ((47808 : Nat) : Int) from rfl, hA]
    rfl

/-- A prefix length out of range is refused. -/
theorem dataLink_bad (free : Int → Bool) (a b c d : UInt8) (ones port : Int)
    (h : ones < 0 ∨ 32 < ones) : dataLink free (.v4 a b c d) ones port = .ok (.error .cidr) := by
  simp only [dataLink]
  rw [parseCIDR, if_neg (by omega)]

/-- The characters of a number, by the number of its digits. -/
theorem decimal_cases (n : Nat) :
    (n < 10 ∧ decimal n = [48 + n]) ∨
    (10 ≤ n ∧ n < 100 ∧ decimal n = [48 + n / 10, 48 + n % 10]) ∨
    (100 ≤ n ∧ n < 1000 ∧ decimal n = [48 + n / 100, 48 + n / 10 % 10, 48 + n % 10]) ∨
    (1000 ≤ n ∧ n < 10000 ∧ decimal n = [48 + n / 1000, 48 + n / 100 % 10, 48 + n / 10 % 10, 48 + n % 10]) ∨
    (10000 ≤ n ∧ n < 100000 ∧ decimal n =
      [48 + n / 10000, 48 + n / 1000 % 10, 48 + n / 100 % 10, 48 + n / 10 % 10, 48 + n % 10]) ∨
    (100000 ≤ n ∧ ∃ a b c d e f t, decimal n = a :: b :: c :: d :: e :: f :: t) := by
  have step : ∀ m, 10 ≤ m → decimal m = decimal (m / 10) ++ [48 + m % 10] := by
    intro m hm
    rw [decimal, dif_neg (by omega)]
  have one : ∀ m, m < 10 → decimal m = [48 + m] := by
    intro m hm
    rw [decimal, dif_pos hm]
  have two : ∀ m, 10 ≤ m → m < 100 → decimal m = [48 + m / 10, 48 + m % 10] := by
    intro m h1 h2
    rw [step m h1, one _ (by omega)]
    rfl
  have three : ∀ m, 100 ≤ m → m < 1000 → decimal m = [48 + m / 100, 48 + m / 10 % 10, 48 + m % 10] := by
    intro m h1 h2
    rw [step m (by omega), two _ (by omega) (by omega), Nat.div_div_eq_div_mul]
    rfl
  have four : ∀ m, 1000 ≤ m → m < 10000 → decimal m =
      [48 + m / 1000, 48 + m / 100 % 10, 48 + m / 10 % 10, 48 + m % 10] := by
    intro m h1 h2
    rw [step m (by omega), three _ (by omega) (by omega), Nat.div_div_eq_div_mul, Nat.div_div_eq_div_mul]
    rfl
  have five : ∀ m, 10000 ≤ m → m < 100000 → decimal m =
      [48 + m / 10000, 48 + m / 1000 % 10, 48 + m / 100 % 10, 48 + m / 10 % 10, 48 + m % 10] := by
    intro m h1 h2
    rw [step m (by omega), four _ (by omega) (by omega), Nat.div_div_eq_div_mul, Nat.div_div_eq_div_mul,
      Nat.div_div_eq_div_mul]
    rfl
  have six : ∀ m, 100000 ≤ m → ∃ a b c d e f t, decimal m = a :: b :: c :: d :: e :: f :: t := by
    intro m
    induction m using Nat.strongRecOn with
    | ind m ih =>
      intro h
      rw [step m (by omega)]
      by_cases hm : m / 10 < 100000
      · rw [five _ (by omega) hm]
        exact ⟨_, _, _, _, _, _, [], rfl⟩
      · obtain ⟨a, b, c, d, e, f, t, ht⟩ := ih (m / 10) (by omega) (by omega)
        rw [ht]
        exact ⟨a, b, c, d, e, f, t ++ [48 + m % 10], rfl⟩
  by_cases h1 : n < 10
  · exact .inl ⟨h1, one n h1⟩
  by_cases h2 : n < 100
  · exact .inr (.inl ⟨by omega, h2, two n (by omega) h2⟩)
  by_cases h3 : n < 1000
  · exact .inr (.inr (.inl ⟨by omega, h3, three n (by omega) h3⟩))
  by_cases h4 : n < 10000
  · exact .inr (.inr (.inr (.inl ⟨by omega, h4, four n (by omega) h4⟩)))
  by_cases h5 : n < 100000
  · exact .inr (.inr (.inr (.inr (.inl ⟨by omega, h5, five n (by omega) h5⟩))))
  · exact .inr (.inr (.inr (.inr (.inr ⟨by omega, six n (by omega)⟩))))

end Bac
