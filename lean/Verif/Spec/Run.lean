import Verif.Model.Decoder
/-!
# What it means to read a known byte sequence

The one notion used to state round-trip properties of decoders.
-/

namespace Bac

/-- What `UnreadByte` would restore after `bs` has been read. -/
def lastOr (p : Option UInt8) (bs : List UInt8) : Option UInt8 := bs.getLast?.or p

/-- Running `m` on any decoder without recorded error whose input starts with
`bs` returns `a`, consumes exactly `bs`, leaves whatever follows, and records no
error. -/
def Parses {α : Type} (m : D α) (bs : List UInt8) (a : α) : Prop :=
  ∀ p rest, m ⟨bs ++ rest, p, none⟩ = .ok (a, ⟨rest, lastOr p bs, none⟩)

end Bac
