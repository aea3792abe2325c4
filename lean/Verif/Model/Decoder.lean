import Verif.Model.Encoder
/-!
# encoding/decoder.go, string.go, date.go, appdata.go: the decoder
-/

namespace Bac

/-- encoding/decoder.go:10-13 `Decoder` over a `bytes.Buffer`:
`buf` is the unread part, `prev` the byte `UnreadByte` would restore (present
iff the last buffer operation was a read of at least one byte), `err` the
recorded error. -/
structure Dec where
  buf : List UInt8 := []
  prev : Option UInt8 := none
  err : Option GoErr := none
  deriving DecidableEq, Repr, Inhabited

/-- Decoder methods: state transformers that may panic or diverge.  The methods of encoding/decoder.go:10-13. -/
def D (α : Type) : Type := Dec → Outcome (α × Dec)

namespace D

instance : Monad D where
  pure a := fun d => .ok (a, d)
  bind x f := fun d => (x d).bind fun p => f p.1 p.2

/-- Read the decoder state.  The fields of encoding/decoder.go:10-13. -/
def get : D Dec := fun d => .ok (d, d)
/-- Modify the decoder state.  The fields of encoding/decoder.go:10-13. -/
def modify (f : Dec → Dec) : D Unit := fun d => .ok ((), f d)
/-- Panic.  Not in the code: a Go panic within a method of encoding/decoder.go:10-13. -/
def panic {α : Type} (k : PanicKind) : D α := fun _ => .panic k
/-- Run a function that does not touch the decoder.  Not in the code. -/
def lift {α : Type} (x : Outcome α) : D α := fun d => x.bind fun a => .ok (a, d)
/-- No result within the given fuel.  The loops of encoding/readmultipleack.go:158-237 have no bound. -/
def diverge {α : Type} : D α := fun _ => .diverge

end D

namespace Dec

/-- encoding/decoder.go:18-23 `NewDecoder`. -/
def new (b : List UInt8) : Dec := { buf := b }

/-- encoding/decoder.go:15-17 `len` / `d.buff.Len()`. -/
def len : D Nat := fun d => .ok (d.buf.length, d)

/-- encoding/decoder.go:25-27 `Error`. -/
def error : D (Option GoErr) := fun d => .ok (d.err, d)

/-- encoding/decoder.go:50-56 `decode` = `binary.Read` of `n` bytes; `none` when
the destination was left unchanged.  (`io.ReadFull`: on short input everything
left is consumed and EOF / ErrUnexpectedEOF is recorded; the following read on
the empty buffer resets it, so nothing can be unread. Reading 0 bytes touches
nothing.) -/
def readN (n : Nat) : D (Option (List UInt8)) := fun d =>
  match d.err with
  | some _ => .ok (none, d)
  | none =>
    if n = 0 then .ok (some [], d)
    else if n ≤ d.buf.length then
      .ok (some (d.buf.take n),
        { buf := d.buf.drop n, prev := (d.buf.take n).getLast?, err := none })
    else
      .ok (none, { buf := [], prev := none,
                   err := some (if d.buf = [] then .eof else .unexpectedEof) })

/-- encoding/decoder.go:37-39 `Read` = `bytes.Buffer.Read` into a fresh slice of
`n` zero bytes, with the error assigned to `d.err` by the caller
(decoder.go:42, date.go:50, date.go:82): a short read is not an error, any
earlier error is overwritten, and reading zero bytes succeeds even at the end. -/
def rawRead (n : Nat) : D (List UInt8) := fun d =>
  if n = 0 then
    .ok ([], { buf := d.buf, prev := none, err := none })
  else if d.buf = [] then
    .ok (List.replicate n 0, { buf := [], prev := none, err := some .eof })
  else
    .ok (d.buf.take n ++ List.replicate (n - d.buf.length) 0,
      { buf := d.buf.drop n, prev := (d.buf.take n).getLast?, err := none })

/-- `bytes.Buffer.Read` into a fresh slice of `n > 0` bytes *without* touching
`d.err` (readmultipleack.go:188); returns the error. -/
def rawReadErr (n : Nat) : D (Option GoErr) := fun d =>
  if d.buf = [] then
    .ok (some .eof, { d with buf := [], prev := none })
  else
    .ok (none, { d with buf := d.buf.drop n, prev := (d.buf.take n).getLast? })

/-- encoding/decoder.go:46-48 `UnreadByte`; the returned error is ignored by the
only caller. -/
def unreadByte : D Unit := fun d =>
  match d.prev with
  | some b => .ok ((), { d with buf := b :: d.buf, prev := none })
  | none => .ok ((), d)

/-- `d.decode(&x)` for a one-byte variable initialised to zero.  encoding/decoder.go:50-56. -/
def u8 : D UInt8 := do
  match ← readN 1 with
  | some [a] => pure a
  | _ => pure 0

/-- `d.decode(&x)` for a `uint16` initialised to zero.  encoding/decoder.go:50-56. -/
def u16 : D UInt16 := do
  match ← readN 2 with
  | some [a, b] => pure (rd16 a b)
  | _ => pure 0

/-- `d.decode(&x)` for a `uint32` (`float32`) initialised to zero.  encoding/decoder.go:50-56. -/
def u32 : D UInt32 := do
  match ← readN 4 with
  | some [a, b, c, e] => pure (rd32 a b c e)
  | _ => pure 0

/-- `d.decode(&x)` for a `float64` initialised to zero.  encoding/decoder.go:50-56. -/
def u64 : D UInt64 := do
  match ← readN 8 with
  | some [a, b, c, e, f, g, h, i] => pure (rd64 a b c e f g h i)
  | _ => pure 0

/-- `d.decode(b)` for `b := make([]byte, n)`.  encoding/decoder.go:50-56. -/
def bytes (n : Nat) : D (List UInt8) := do
  match ← readN n with
  | some l => pure l
  | none => pure (List.replicate n 0)

/-- encoding/decoder.go:63-71 `tagNumber`. -/
def tagNumber : D (UInt8 × UInt8) := do
  let meta_ ← u8
  if isExtendedTagNumber meta_ then
    let tag ← u8
    pure (tag, meta_)
  else
    pure (meta_ >>> 4, meta_)

/-- encoding/decoder.go:73-97 `value`. -/
def value (meta_ : UInt8) : D UInt32 := do
  if isExtendedValue meta_ then
    let val ← u8
    if val = 255 then u32
    else if val = 254 then do
      let p ← u16
      pure p.toUInt32
    else pure val.toUInt32
  else if isOpening meta_ || isClosing meta_ then
    pure 0
  else
    pure (meta_ &&& 0x07).toUInt32

/-- encoding/decoder.go:98-103 `tagNumberAndValue`. -/
def tagNumberAndValue : D (UInt8 × UInt8 × UInt32) := do
  let (tag, meta_) ← tagNumber
  let v ← value meta_
  pure (tag, meta_, v)

/-- encoding/decoder.go:105-111 `objectId`. -/
def objectId : D ObjectID := do
  let v ← u32
  pure ⟨((v >>> 22) &&& maxObject).toUInt16, v &&& maxInstance⟩

/-- encoding/decoder.go:117-128 `unsigned24`. -/
def unsigned24 : D UInt32 := do
  let a ← u8
  let b ← u8
  let c ← u8
  let x : UInt32 := (a.toUInt32 <<< 16) &&& 0x00ff0000
  let x : UInt32 := x ||| ((b.toUInt32 <<< 8) &&& 0x0000ff00)
  let x : UInt32 := x ||| (c.toUInt32 &&& 0x000000ff)
  pure x

/-- encoding/decoder.go:130-149 `unsigned`; the `int` length always comes from a
uint32, so it is a `Nat` here. -/
def unsigned (length : Nat) : D UInt32 :=
  match length with
  | 1 => do pure (← u8).toUInt32
  | 2 => do pure (← u16).toUInt32
  | 3 => unsigned24
  | 4 => u32
  | _ => pure 0

/-- encoding/decoder.go:113-115 `enumerated`. -/
def enumerated (length : Nat) : D UInt32 := unsigned length

/-- encoding/decoder.go:151-162 `signed24`. -/
def signed24 : D Int32 := do
  let a ← u8
  let b ← u8
  let c ← u8
  let x : Int32 := (a.toInt8.toInt32 <<< 16) &&& 0x00ff0000
  let x : Int32 := x ||| ((b.toInt8.toInt32 <<< 8) &&& 0x0000ff00)
  let x : Int32 := x ||| (c.toInt8.toInt32 &&& 0x000000ff)
  pure x

/-- encoding/decoder.go:164-183 `signed`. -/
def signed (length : Nat) : D Int32 :=
  match length with
  | 1 => do pure (← u8).toInt8.toInt32
  | 2 => do pure (← u16).toInt16.toInt32
  | 3 => signed24
  | 4 => do pure (← u32).toInt32
  | _ => pure 0

end Dec

/-! ## btypes/bitstring.go -/

namespace BitString

/-- btypes/bitstring.go:5 `MaxBitStringBytes`. -/
def maxBytes : Nat := 15

/-- btypes/bitstring.go:12-20 `NewBitString`; callers pass `length-1 ≥ 0`. -/
def new (bufferSize : Nat) : BitString :=
  ⟨0, List.replicate (min bufferSize maxBytes) 0⟩

/-- btypes/bitstring.go:84-90 `SetByte` on a non-nil receiver; `bs.Value[index]`
out of range panics. The boolean result is dropped. -/
def setByte (bs : BitString) (index : UInt8) (v : UInt8) : Outcome BitString :=
  if index < 15 then
    if index.toNat < bs.value.length then
      .ok { bs with value := bs.value.set index.toNat v }
    else .panic .indexOutOfRange
  else .ok bs

/-- btypes/bitstring.go:92-98 `SetBitsUsed` (uint8 arithmetic). -/
def setBitsUsed (bs : BitString) (byteUsed bitsUnused : UInt8) : BitString :=
  { bs with bitUsed := byteUsed * 8 - bitsUnused }

/-- btypes/bitstring.go:39-54 `SetBit`. -/
def setBit (bs : BitString) (bitNumber : UInt8) (v : Bool) : Outcome BitString :=
  let byteNumber := bitNumber / 8
  if byteNumber < 15 then
    let used := if bs.bitUsed < bitNumber + 1 then bitNumber + 1 else bs.bitUsed
    let mask : UInt8 := 1 <<< (bitNumber - byteNumber * 8)
    match bs.value[byteNumber.toNat]? with
    | none => .panic .indexOutOfRange
    | some old =>
      .ok ⟨used, bs.value.set byteNumber.toNat (if v then old ||| mask else old &&& ~~~mask)⟩
  else .ok bs

/-- btypes/bitstring.go:56-64 `Bit`. -/
def bit (bs : BitString) (bitNumber : UInt8) : Outcome Bool :=
  let byteNumber := bitNumber / 8
  if bitNumber < 120 then
    let mask : UInt8 := 1 <<< (bitNumber - byteNumber * 8)
    match bs.value[byteNumber.toNat]? with
    | none => .panic .indexOutOfRange
    | some b => .ok ((b &&& mask) != 0)
  else .ok false

/-- btypes/bitstring.go:22-32: the loop of `GetValue`, from bit `i`. -/
def getValueFrom (bs : BitString) : Nat → Nat → Outcome (List Bool)
  | 0, _ => .ok []
  | n + 1, i => do
    let b ← bs.bit (UInt8.ofNat i)
    let rest ← getValueFrom bs n (i + 1)
    pure (b :: rest)

/-- btypes/bitstring.go:22-32 `GetValue` (also what `String` prints). -/
def getValue (bs : BitString) : Outcome (List Bool) := getValueFrom bs bs.bitUsed.toNat 0

/-- btypes/bitstring.go:70-75 `BytesUsed` (non-nil receiver). -/
def bytesUsed (bs : BitString) : UInt8 :=
  if bs.bitUsed > 0 then (bs.bitUsed - 1) / 8 + 1 else 0

/-- btypes/bitstring.go:77-82 `Byte` (non-nil receiver). -/
def byte (bs : BitString) (index : UInt8) : Outcome UInt8 :=
  if index < 15 then
    match bs.value[index.toNat]? with
    | none => .panic .indexOutOfRange
    | some b => .ok b
  else .ok 0

/-- btypes/bitstring.go:100-105 `BitsCapacity` (non-nil receiver). -/
def bitsCapacity (bs : BitString) : UInt8 := UInt8.ofNat (bs.value.length * 8)

end BitString

namespace Dec

/-- encoding/decoder.go:196-199: the copy loop, `n` bytes from index `i`. -/
def bitStringLoop (data : List UInt8) : Nat → Nat → BitString → Outcome BitString
  | 0, _, bs => .ok bs
  | n + 1, i, bs =>
    match data[i + 1]? with
    | none => .panic .indexOutOfRange
    | some b => do
      let bs ← bs.setByte (UInt8.ofNat i) (byteReverseBits b)
      bitStringLoop data n (i + 1) bs

/-- encoding/decoder.go:192-203: from the `length` contents octets to the bit
string; `bytesUsed` is the `uint8` of line 194. -/
def bitStringOf (length : Nat) (data : List UInt8) : Outcome BitString :=
  let bs := BitString.new (length - 1)
  let bytesUsed := UInt8.ofNat (length - 1)
  if bytesUsed ≤ 15 then do
    let bs ← bitStringLoop data bytesUsed.toNat 0 bs
    match data with
    | b0 :: _ => .ok (bs.setBitsUsed bytesUsed (b0 &&& 0x07))
    | [] => .panic .indexOutOfRange
  else .ok bs

/-- encoding/decoder.go:185-204 `bitString`; `none` is the nil pointer. -/
def bitString (length : Nat) : D (Option BitString) := do
  if length = 0 then pure none
  else
    let data ← bytes length
    let bs ← D.lift (bitStringOf length data)
    pure (some bs)

/-- UTF-8 encoding of a code point < 0x110000 that is not a surrogate
(`utf8.EncodeRune`).  Within encoding/string.go:22-30. -/
def utf8Encode (r : Nat) : List UInt8 :=
  if r < 0x80 then [UInt8.ofNat r]
  else if r < 0x800 then [UInt8.ofNat (0xC0 + r / 64), UInt8.ofNat (0x80 + r % 64)]
  else if r < 0x10000 then
    [UInt8.ofNat (0xE0 + r / 4096), UInt8.ofNat (0x80 + r / 64 % 64), UInt8.ofNat (0x80 + r % 64)]
  else
    [UInt8.ofNat (0xF0 + r / 262144), UInt8.ofNat (0x80 + r / 4096 % 64),
     UInt8.ofNat (0x80 + r / 64 % 64), UInt8.ofNat (0x80 + r % 64)]

/-- encoding/string.go:22-30 `decodeUCS2`: `unicode.UTF16(BigEndian, IgnoreBOM)`
of golang.org/x/text v0.3.7 (a dependency, transcribed from its published
source): unpaired surrogates and a trailing single byte become U+FFFD; it never
fails on a complete string. -/
def decodeUCS2 : List UInt8 → List UInt8
  | [] => []
  | [_] => utf8Encode 0xFFFD
  | a :: b :: c :: e :: rest =>
    let x := a.toNat * 256 + b.toNat
    let y := c.toNat * 256 + e.toNat
    if 0xD800 ≤ x ∧ x < 0xE000 then
      if 0xDC00 ≤ y ∧ y < 0xE000 then
        utf8Encode (if x < 0xDC00 then (x - 0xD800) * 1024 + (y - 0xDC00) + 0x10000 else 0xFFFD)
          ++ decodeUCS2 rest
      else utf8Encode 0xFFFD ++ decodeUCS2 (c :: e :: rest)
    else utf8Encode x ++ decodeUCS2 (c :: e :: rest)
  | a :: b :: rest =>
    let x := a.toNat * 256 + b.toNat
    (if 0xD800 ≤ x ∧ x < 0xE000 then utf8Encode 0xFFFD else utf8Encode x) ++ decodeUCS2 rest

/-- encoding/string.go:32-56 `string`: returns the string and the error.
`make([]byte, len)` panics for a negative length. -/
def string (len : Int) : D (List UInt8 × Option GoErr) := do
  let t ← u8
  if t = 0 ∨ t = 4 then
    if len < 0 then D.panic .makesliceLen
    else
      let b ← bytes len.toNat
      let s := if t = 4 then decodeUCS2 b else b
      let err ← error
      pure (s, err)
  else
    pure ([], some (.badCharset t))

/-- encoding/date.go:45-67 `date` into an existing `Date` (line 58 looks at its
year); epochYear = 1990. -/
def date (dt : Date) (length : Nat) : D Date := do
  if length = 0 then pure dt
  else
    let data ← rawRead length
    let err ← error
    if err.isSome then pure dt
    else
      match data with
      | y :: m :: dd :: w :: _ =>
        pure { year := if dt.year ≠ 0xFF then (y.toNat : Int) + 1990 else (y.toNat : Int),
               month := m.toNat, day := dd.toNat, dow := w.toNat }
      | _ => pure dt

/-- encoding/date.go:77-91 `time`; `data[1..3]` panics when `length < 4`. -/
def time (t : Time) (length : Nat) : D Time := do
  if length = 0 then pure t
  else
    let data ← rawRead length
    let err ← error
    if err.isSome then pure t
    else
      match data with
      | h :: m :: s :: ms :: _ =>
        pure { hour := h.toNat, minute := m.toNat, second := s.toNat,
               millisecond := (ms.toNat : Int) * 10 }
      | _ => D.panic .indexOutOfRange

/-- encoding/decoder.go:41-44 `Skip`. -/
def skip (n : Nat) : D Unit := do
  let _ ← rawRead n
  pure ()

/-- encoding/appdata.go:133-184 `AppDataOfTag`: value and returned error. Every
case except Null and the default returns `d.Error()`. -/
def appDataOfTag (tag : UInt8) (len : Nat) : D (Scalar × Option GoErr) :=
  match tag.toNat with
  | 0 => pure (.null, none)
  | 1 => do pure (.bool (decide (len > 0)), ← error)
  | 2 => do
    let v ← unsigned len
    pure (.uint v, ← error)
  | 3 => do
    let v ← signed len
    pure (.int v, ← error)
  | 4 => do
    let v ← u32
    pure (.real v, ← error)
  | 5 => do
    let v ← u64
    pure (.double v, ← error)
  | 6 => do
    let v ← bytes len
    pure (.octets v, ← error)
  | 7 => do
    let (s, err) ← string ((len : Int) - 1)
    pure (.str s, err)
  | 8 => do
    let v ← bitString len
    pure (.bits v, ← error)
  | 9 => do
    let v ← enumerated len
    pure (.uint v, ← error)
  | 10 => do
    let v ← date {} len
    pure (.date v, ← error)
  | 11 => do
    let v ← time {} len
    pure (.time v, ← error)
  | 12 => do
    let v ← objectId
    pure (.objId v, ← error)
  | _ => pure (.nil, some (.unsupportedTag tag))

/-- encoding/appdata.go:185-188 `AppData`. -/
def appData : D (Scalar × Option GoErr) := do
  let (tag, _, lenvalue) ← tagNumberAndValue
  appDataOfTag tag lenvalue.toNat

end Dec

end Bac
