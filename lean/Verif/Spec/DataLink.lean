/-!
# IPv4 subnets, independently of the code

An IPv4 address is a number below 2^32; the subnet of prefix length `p` of an
address consists of the addresses that agree with it in the first `p` bits.
-/

namespace Spec

/-- The number of the address `a.b.c.d`. -/
def ipNumber (a b c d : UInt8) : Nat :=
  a.toNat * 2 ^ 24 + b.toNat * 2 ^ 16 + c.toNat * 2 ^ 8 + d.toNat

/-- Two addresses agree in their first `p` of 32 bits. -/
def SameSubnet (p x y : Nat) : Prop := x / 2 ^ (32 - p) = y / 2 ^ (32 - p)

/-- `x` is the last address of the subnet of `host`. -/
def IsLast (p host x : Nat) : Prop :=
  x < 2 ^ 32 ∧ SameSubnet p host x ∧ ∀ y, y < 2 ^ 32 → SameSubnet p host y → y ≤ x

/-- A UDP endpoint in the six octets of a BACnet/IP address: the IPv4 address and
the port, high octet first. -/
def IsEndpoint (m : List UInt8) (a b c d : UInt8) (port : Nat) : Prop :=
  ∃ hi lo : UInt8, m = [a, b, c, d, hi, lo] ∧ port = hi.toNat * 256 + lo.toNat

end Spec
