/-!
# Results of Go functions, byte order

Ground notions shared by the whole model.
-/

namespace Bac

/-- Go run-time panics that the modelled code can raise.
For example the slice at device.go:238, the indexing at objectlist.go:156, the send at tsm/transactions.go:75. -/
inductive PanicKind where
  | indexOutOfRange
  | sliceBounds
  | makesliceLen
  | typeAssertion
  | nilMapWrite
  | nilDeref
  | divideByZero
  | sendOnClosedChannel
  deriving DecidableEq, Repr

/-- Errors (`error` values).  Texts are not modelled, only which error it is.
`eof`/`unexpectedEof` are the two errors of `io.ReadFull`.
They are kept in the field `err` of encoding/encoder.go:11-14 and encoding/decoder.go:10-13. -/
inductive GoErr where
  | eof
  | unexpectedEof
  /-- encoding/appdata.go:125 -/
  | unknownType
  /-- encoding/appdata.go:182 -/
  | unsupportedTag (tag : UInt8)
  /-- encoding/string.go: unknown character set -/
  | badCharset (t : UInt8)
  /-- encoding/string.go: the UCS-2 transformer failed -/
  | ucs2
  /-- encoding/validate.go:9-14 -/
  | invalidObjectType
  /-- encoding/validate.go:16-21 -/
  | invalidPropertyType
  /-- encoding/apdu.go: PDU type not supported -/
  | unsupportedPdu
  /-- encoding/readprop.go: not enough data -/
  | missingParameters
  /-- encoding/error.go: ErrorIncorrectTag -/
  | incorrectTag (expected got : UInt8)
  /-- encoding/error.go: ErrorWrongTagType -/
  | wrongTagType
  /-- encoding/readmultipleack.go: property access error -/
  | accessError (cls code : UInt32)
  /-- binary.Write of a type without fixed size -/
  | binaryInvalidType
  /-- bytes.Buffer: nothing to unread -/
  | cannotUnread
  /-- device answered with an Error PDU (device.go:223) -/
  | device (cls : UInt16) (code : UInt32)
  /-- any other error text -/
  | other (n : Nat)
  deriving DecidableEq, Repr

/-- Result of running a Go function: normal return, panic, or no return.
Not in the code: Go's return, panic and endless loop (for example encoding/readmultipleack.go:158-206) made explicit. -/
inductive Outcome (α : Type) where
  | ok (a : α)
  | panic (k : PanicKind)
  | diverge
  deriving DecidableEq, Repr

namespace Outcome

/-- Sequencing.  Not in the code: one statement after the other. -/
def bind {α β : Type} (x : Outcome α) (f : α → Outcome β) : Outcome β :=
  match x with
  | ok a => f a
  | panic k => panic k
  | diverge => diverge

instance : Monad Outcome where
  pure := Outcome.ok
  bind := Outcome.bind

@[simp] theorem pure_eq {α : Type} (a : α) : (pure a : Outcome α) = ok a := rfl
@[simp] theorem ok_bind {α β : Type} (a : α) (f : α → Outcome β) : (ok a >>= f) = f a := rfl
@[simp] theorem panic_bind {α β : Type} (k) (f : α → Outcome β) :
    (panic k >>= f) = panic k := rfl
@[simp] theorem diverge_bind {α β : Type} (f : α → Outcome β) :
    (diverge >>= f) = diverge := rfl

/-- The function returned (normally), i.e. neither panicked nor ran forever.  Not in the code. -/
def Returns {α : Type} : Outcome α → Prop
  | ok _ => True
  | _ => False

instance {α : Type} (x : Outcome α) : Decidable x.Returns := by
  cases x <;> simp only [Returns] <;> infer_instance

/-- The function panicked.  Not in the code. -/
def Panics {α : Type} : Outcome α → Prop
  | panic _ => True
  | _ => False

instance {α : Type} (x : Outcome α) : Decidable x.Panics := by
  cases x <;> simp only [Panics] <;> infer_instance

@[simp] theorem returns_ok {α : Type} (a : α) : (ok a).Returns := trivial
@[simp] theorem not_returns_panic {α : Type} (k) : ¬ (panic k : Outcome α).Returns := id
@[simp] theorem not_returns_diverge {α : Type} : ¬ (diverge : Outcome α).Returns := id
@[simp] theorem panics_panic {α : Type} (k) : (panic k : Outcome α).Panics := trivial
@[simp] theorem not_panics_ok {α : Type} (a : α) : ¬ (ok a).Panics := id
@[simp] theorem not_panics_diverge {α : Type} : ¬ (diverge : Outcome α).Panics := id

end Outcome

/-! ## Big-endian byte order (`binary.BigEndian`, encoding/encoder.go:9) -/

/-- `binary.Write` of a `uint16`.  Big-endian by encoding/encoder.go:9, 36. -/
def be16 (x : UInt16) : List UInt8 := [(x >>> 8).toUInt8, x.toUInt8]

/-- `binary.Write` of a `uint32` (also `int32`, `float32` through their bits).
Big-endian by encoding/encoder.go:9, 36. -/
def be32 (x : UInt32) : List UInt8 :=
  [(x >>> 24).toUInt8, (x >>> 16).toUInt8, (x >>> 8).toUInt8, x.toUInt8]

/-- `binary.Write` of a `uint64` (`float64` through its bits).  Big-endian by encoding/encoder.go:9, 36. -/
def be64 (x : UInt64) : List UInt8 :=
  [(x >>> 56).toUInt8, (x >>> 48).toUInt8, (x >>> 40).toUInt8, (x >>> 32).toUInt8,
   (x >>> 24).toUInt8, (x >>> 16).toUInt8, (x >>> 8).toUInt8, x.toUInt8]

/-- `binary.BigEndian.Uint16`.  Used by `binary.Read`, encoding/decoder.go:55 with encoding/encoder.go:9. -/
def rd16 (a b : UInt8) : UInt16 := b.toUInt16 ||| (a.toUInt16 <<< 8)

/-- `binary.BigEndian.Uint32`.  Used by `binary.Read`, encoding/decoder.go:55 with encoding/encoder.go:9. -/
def rd32 (a b c d : UInt8) : UInt32 :=
  d.toUInt32 ||| (c.toUInt32 <<< 8) ||| (b.toUInt32 <<< 16) ||| (a.toUInt32 <<< 24)

/-- `binary.BigEndian.Uint64`.  Used by `binary.Read`, encoding/decoder.go:55 with encoding/encoder.go:9. -/
def rd64 (a b c d e f g h : UInt8) : UInt64 :=
  h.toUInt64 ||| (g.toUInt64 <<< 8) ||| (f.toUInt64 <<< 16) ||| (e.toUInt64 <<< 24)
    ||| (d.toUInt64 <<< 32) ||| (c.toUInt64 <<< 40) ||| (b.toUInt64 <<< 48)
    ||| (a.toUInt64 <<< 56)

end Bac
