import Verif.Lemmas.WriteCmd
import Verif.Props.Names
/-!
# C123: the command write
-/

namespace Bac.Props

open Spec (AppVal Means RealIs NearestReal realError realTimes2p150)

variable {t : Parsers} {f : WriteFlags}

/-- The flags name object and property: small enough numbers, and a property number or one
of the names listed.  The object list is the one of a device. -/
def C123_Names (t : Parsers) (f : WriteFlags) (ty inst prop : Nat) : Prop :=
  f.objectType = ty ∧ ty ≤ 1023 ∧ f.objectId = inst ∧ inst ≤ 4194303 ∧ prop ≤ 4194303 ∧ (prop = 76 → ty = 8) ∧
  (t.atoi f.property = some (prop : Int) ∨
    t.atoi f.property = none ∧ ∃ e ∈ Spec.propertyWords, e.1.flatten = f.property ∧ e.2 = prop)

theorem for_of (ty inst prop : Nat) (h1 : f.objectType = ty) (h2 : ty ≤ 1023) (h3 : f.objectId = inst)
    (h4 : inst ≤ 4194303) (h5 : prop ≤ 4194303) (h6 : prop = 76 → ty = 8) (h7 : (f.prop t).toNat = prop) :
    WriteFlags.For t f ty inst prop := by
  refine ⟨?_, ?_, h7, h2, h4, h5⟩
  · have e : f.objType t = ty := by
      unfold WriteFlags.objType
      split
      · rename_i hc
        rw [hc] at h7
        rw [h6 h7.symm]; rfl
      · exact h1
    rw [e]
    have := toNat_ofInt16 ty
    omega
  · rw [h3]
    have := toNat_ofInt32 inst
    omega

theorem for_names {ty inst prop : Nat} (h : C123_Names t f ty inst prop) : WriteFlags.For t f ty inst prop := by
  obtain ⟨h1, h2, h3, h4, h5, h6, h7⟩ := h
  refine for_of ty inst prop h1 h2 h3 h4 h5 h6 ?_
  unfold WriteFlags.prop
  rcases h7 with h7 | ⟨h7, e, he, e1, e2⟩
  · rw [h7]
    have := toNat_ofInt32 prop
    simp only
    omega
  · rw [h7]
    have hp : (UInt32.ofNat prop).toNat = prop := UInt32.toNat_ofNat_of_lt' (by show _ < 2 ^ 32; omega)
    have : propertyGet f.property = some (UInt32.ofNat prop) := (C70_names.1 _ _).2 ⟨e, he, e1, by rw [hp]; exact e2⟩
    simp only [this, Option.getD_some, hp]

/-- The datagrams: one that carries the read, if any, then one or two that carry the write. -/
def C123_Sends (f : WriteFlags) (sent : List Sent) (read write : List UInt8) : Prop :=
  ∃ a ws, sent = a :: ws ∧ Carries f.dest a read ∧ ws ≠ [] ∧ ws.length ≤ 2 ∧ ∀ s ∈ ws, Carries f.dest s write

/-- The priority is the flag, none for 0. -/
def C123_priority (n : Nat) : Option Nat := if n = 0 then none else some n

/-- What has to be written, given the value that is there: the value given, in its type. -/
def C123_New (t : Parsers) (text : List UInt8) (binary : Prop) : AppVal → AppVal → Prop
  | .real _, .real b => ¬ binary ∧ t.float32 text = (b, true)
  | .unsigned _, .unsigned n => ¬ binary ∧ ∃ x, t.uint32 text = (x, true) ∧ x.toNat = n
  | .enum _, .enum n => binary ∧ ∃ x, t.uint32 text = (x, true) ∧ x.toNat = n
  | .chars _, .chars s => ¬ binary ∧ s = text ∧ text.length + 1 < 2 ^ 32
  | _, _ => False

/-- From the model: what is written for a value read. -/
theorem command_writes {ty inst prop : Nat} (h : WriteFlags.For t f ty inst prop) (fuel : Nat) (my : Address)
    (hmy : my.net = 0) (rid wid : UInt8) (rs ws : Nat → Attempt) (old v : AppVal) (hold : C71_Readable old) (hf : 1 < fuel)
    (hrs : rs 0 = ⟨none, .bytes (readAck f rid ty inst prop [old])⟩) (hn : f.isNull = false) (hval : f.value ≠ [])
    (hm : ∀ s, DecodedAs s old → C29_Meant (f.request t (f.convert t (.one s))).object
      ⟨f.prop t, f.index, f.convert t (.one s), UInt8.ofNat f.priority⟩ v) :
    C123_Sends f (writeCommand fuel my t f (some rid) (some wid) rs ws).1
      (Spec.readProperty rid ty inst (WriteFlags.ref f prop))
      (Spec.writeProperty wid ty inst (WriteFlags.ref f prop) v.encoding (C123_priority (f.priority % 256))) ∧
    ∃ r, (writeCommand fuel my t f (some rid) (some wid) rs ws).2 = .ok (.written r) := by
  obtain ⟨a, ss, ha, hss, e⟩ := command_answered h fuel my hmy rid (some wid) rs ws [old]
    (by intro v hv; rw [List.mem_singleton] at hv; rw [hv]; exact hold) hf hrs hn hval
  obtain ⟨s, rfl⟩ : ∃ s, ss = [s] := by
    cases hss with
    | cons h1 h2 => cases h2; exact ⟨_, rfl⟩
  have hs : DecodedAs s old := by cases hss with | cons h1 h2 => exact h1
  have hm := hm s hs
  simp only [List.length_singleton, if_true, List.head!_cons] at e
  obtain ⟨w1, w2, w3, w4⟩ := write_run h my hmy _ v hm wid ws
  rw [e]
  exact ⟨⟨a, _, rfl, ha, w1, w2, w3⟩, w4⟩

/-- C123.  Real, unsigned and text properties, and the present value of binary outputs and
values: the command reads the property named and then writes the value given, in its type,
at the priority given.  (Missing: the cases of the theorems below.) -/
theorem C123_partial {ty inst prop : Nat} (h : C123_Names t f ty inst prop) (fuel : Nat) (my : Address)
    (hmy : my.net = 0) (rid wid : UInt8) (rs ws : Nat → Attempt) (old new : AppVal) (hold : C71_Readable old) (hf : 1 < fuel)
    (hrs : rs 0 = ⟨none, .bytes (readAck f rid ty inst prop [old])⟩) (hn : f.isNull = false) (hval : f.value ≠ [])
    (hnew : C123_New t f.value ((ty = 4 ∨ ty = 5) ∧ prop = 85) old new) (hpri : f.priority < 256) :
    C123_Sends f (writeCommand fuel my t f (some rid) (some wid) rs ws).1
      (Spec.readProperty rid ty inst (WriteFlags.ref f prop))
      (Spec.writeProperty wid ty inst (WriteFlags.ref f prop) new.encoding (C123_priority f.priority)) ∧
    ∃ r, (writeCommand fuel my t f (some rid) (some wid) rs ws).2 = .ok (.written r) := by
  have hfor := for_names h
  rw [show f.priority = f.priority % 256 by omega] 
  refine command_writes hfor fuel my hmy rid wid rs ws old new hold hf hrs hn hval fun s hs => ?_
  unfold C29_Meant
  rw [hfor.binary]
  cases old <;> cases new <;> simp only [C123_New] at hnew
  case unsigned.unsigned n m =>
    obtain ⟨hb, x, hx, rfl⟩ := hnew
    obtain ⟨y, rfl, _⟩ := decoded_unsigned hs
    exact Or.inr ⟨hb, .uint x, by simp only [WriteFlags.convert, hx], ⟨x, rfl, rfl⟩, x.toNat_lt, trivial⟩
  case real.real a b =>
    obtain ⟨hb, hx⟩ := hnew
    rw [show s = .real a from hs.1]
    exact Or.inr ⟨hb, .real b, by simp only [WriteFlags.convert, hx], rfl, trivial, trivial⟩
  case chars.chars a b =>
    obtain ⟨hb, rfl, hl⟩ := hnew
    rw [show s = .str a from hs.1]
    exact Or.inr ⟨hb, .str f.value, rfl, rfl, hl, trivial⟩
  case enum.enum n m =>
    obtain ⟨hb, x, hx, rfl⟩ := hnew
    obtain ⟨y, rfl, _⟩ := decoded_enum hs
    exact Or.inl ⟨hb, Or.inr ⟨x, by simp only [WriteFlags.convert, hx], rfl⟩⟩

/-- C123, null: without reading, null is written to the property named. -/
theorem C123_null_partial {ty inst prop : Nat} (h : C123_Names t f ty inst prop) (fuel : Nat) (my : Address)
    (hmy : my.net = 0) (rid : Option UInt8) (wid : UInt8) (rs ws : Nat → Attempt) (hn : f.isNull = true)
    (hpri : f.priority < 256) :
    (writeCommand fuel my t f rid (some wid) rs ws).1 ≠ [] ∧
    (∀ s ∈ (writeCommand fuel my t f rid (some wid) rs ws).1, Carries f.dest s
      (Spec.writeProperty wid ty inst (WriteFlags.ref f prop) AppVal.null.encoding (C123_priority f.priority))) ∧
    ∃ r, (writeCommand fuel my t f rid (some wid) rs ws).2 = .ok (.written r) := by
  have e : writeCommand fuel my t f rid (some wid) rs ws = f.write t my (.one .null) (some wid) ws := by
    unfold writeCommand; rw [if_pos hn]
  rw [e, show f.priority = f.priority % 256 by omega]
  obtain ⟨w1, _, w3, w4⟩ := write_run (for_names h) my hmy (.one .null) .null (by
    unfold C29_Meant
    by_cases hb : IsBinaryPresentValue (f.request t (.one .null)).object
      ⟨f.prop t, f.index, .one .null, UInt8.ofNat f.priority⟩
    · exact Or.inl ⟨hb, Or.inl ⟨rfl, rfl⟩⟩
    · exact Or.inr ⟨hb, .null, rfl, rfl, trivial, trivial⟩) wid ws
  exact ⟨w1, w3, w4⟩

/-- C123: when the read fails, or no value is given, nothing is written. -/
theorem C123_stops (fuel : Nat) (my : Address) (rid wid : Option UInt8) (rs ws : Nat → Attempt) (hn : f.isNull = false)
    (h : f.value = [] ∨ ∃ e, (clientReadProperty fuel my f.dest (f.request t (.one .nil)) rid rs).2 = .ok (.error e)) :
    (writeCommand fuel my t f rid wid rs ws).1.length ≤ 1 ∧
    ∀ r, (writeCommand fuel my t f rid wid rs ws).2 ≠ .ok (.written r) := by
  have hl : (clientReadProperty fuel my f.dest (f.request t (.one .nil)) rid rs).1.length ≤ 1 := by
    rcases clientReadProperty_cases fuel my f.dest (f.request t (.one .nil)) rid with ⟨r, _, e⟩ | ⟨pack, e⟩
    · rw [e]; simp
    · rw [e]
      obtain ⟨k, hk, hk', _⟩ := attempts_sent f.dest.addr.setLength pack (readStep fuel) rs 1 0 (.failed .noId)
      rw [hk', List.length_replicate]; exact hk
  unfold writeCommand
  rw [if_neg (by rw [hn]; decide)]
  simp only
  generalize clientReadProperty fuel my f.dest (f.request t (.one .nil)) rid rs = q at *
  obtain ⟨q1, q2⟩ := q
  cases q2 with
  | panic k => exact ⟨hl, fun r h => by cases h⟩
  | diverge => exact ⟨hl, fun r h => by cases h⟩
  | ok x =>
    cases x with
    | error e => exact ⟨hl, fun r h => by cases h⟩
    | ok out =>
      rcases h with h | ⟨e, h⟩
      · simp only [if_pos h]
        generalize out.object.properties = l
        cases l <;> exact ⟨hl, fun r h => by cases h⟩
      · cases h

/-- C123 fails: a name that is not known is not refused.  The command reads property 0 and
writes to it. -/
theorem C123_fails_name (ty inst : Nat) (h1 : f.objectType = ty) (h2 : ty ≤ 1023) (h3 : f.objectId = inst)
    (h4 : inst ≤ 4194303) (ha : t.atoi f.property = none) (hw : ∀ e ∈ Spec.propertyWords, e.1.flatten ≠ f.property)
    (fuel : Nat) (my : Address) (hmy : my.net = 0) (rid : Option UInt8) (wid : UInt8) (rs ws : Nat → Attempt)
    (hn : f.isNull = true) :
    (writeCommand fuel my t f rid (some wid) rs ws).1 ≠ [] ∧
    (∀ s ∈ (writeCommand fuel my t f rid (some wid) rs ws).1, Carries f.dest s
      (Spec.writeProperty wid ty inst (WriteFlags.ref f 0) AppVal.null.encoding (C123_priority (f.priority % 256)))) := by
  have hp : f.prop t = 0 := by
    unfold WriteFlags.prop
    rw [ha]
    cases hg : propertyGet f.property with
    | none => rfl
    | some p =>
      obtain ⟨e, he, h, _⟩ := (C70_names.1 _ _).1 hg
      exact absurd h (hw e he)
  have hfor : WriteFlags.For t f ty inst 0 := for_of ty inst 0 h1 h2 h3 h4 (by decide) (fun h => by cases h) (by rw [hp]; rfl)
  have e : writeCommand fuel my t f rid (some wid) rs ws = f.write t my (.one .null) (some wid) ws := by
    unfold writeCommand; rw [if_pos hn]
  rw [e]
  obtain ⟨w1, _, w3, _⟩ := write_run hfor my hmy (.one .null) .null (by
    unfold C29_Meant
    rw [hfor.binary]
    exact Or.inr ⟨fun h => (by cases h.2), .null, rfl, rfl, trivial, trivial⟩) wid ws
  exact ⟨w1, w3⟩

/-- C123 fails: text that is not a number is not refused.  For a real property the number
that came with the error is written (`ParseFloat` returns 0 for a syntax error). -/
theorem C123_fails_value {ty inst prop : Nat} (h : C123_Names t f ty inst prop) (fuel : Nat) (my : Address)
    (hmy : my.net = 0) (rid wid : UInt8) (rs ws : Nat → Attempt) (old b : UInt32) (hf : 1 < fuel)
    (hrs : rs 0 = ⟨none, .bytes (readAck f rid ty inst prop [.real old])⟩) (hn : f.isNull = false) (hval : f.value ≠ [])
    (hbad : t.float32 f.value = (b, false)) (hb : ¬ ((ty = 4 ∨ ty = 5) ∧ prop = 85)) :
    C123_Sends f (writeCommand fuel my t f (some rid) (some wid) rs ws).1
      (Spec.readProperty rid ty inst (WriteFlags.ref f prop))
      (Spec.writeProperty wid ty inst (WriteFlags.ref f prop) (AppVal.real b).encoding
        (C123_priority (f.priority % 256))) := by
  have hfor := for_names h
  refine (command_writes hfor fuel my hmy rid wid rs ws (.real old) (.real b) ⟨trivial, trivial⟩ hf hrs hn hval
    fun s hs => ?_).1
  unfold C29_Meant
  rw [hfor.binary, show s = .real old from hs.1]
  exact Or.inr ⟨hb, .real b, by simp only [WriteFlags.convert, hbad], rfl, trivial, trivial⟩

/-- C123 fails: an enumerated property other than the present value of a binary output or
value is written as an unsigned number. -/
theorem C123_fails_enum {ty inst prop : Nat} (h : C123_Names t f ty inst prop) (fuel : Nat) (my : Address)
    (hmy : my.net = 0) (rid wid : UInt8) (rs ws : Nat → Attempt) (old : Nat) (x : UInt32) (hold : old < 2 ^ 32) (hf : 1 < fuel)
    (hrs : rs 0 = ⟨none, .bytes (readAck f rid ty inst prop [.enum old])⟩) (hn : f.isNull = false) (hval : f.value ≠ [])
    (hx : t.uint32 f.value = (x, true)) (hb : ¬ ((ty = 4 ∨ ty = 5) ∧ prop = 85)) :
    C123_Sends f (writeCommand fuel my t f (some rid) (some wid) rs ws).1
      (Spec.readProperty rid ty inst (WriteFlags.ref f prop))
      (Spec.writeProperty wid ty inst (WriteFlags.ref f prop) (AppVal.unsigned x.toNat).encoding
        (C123_priority (f.priority % 256))) := by
  have hfor := for_names h
  refine (command_writes hfor fuel my hmy rid wid rs ws (.enum old) (.unsigned x.toNat) ⟨hold, trivial⟩ hf hrs hn hval
    fun s hs => ?_).1
  unfold C29_Meant
  obtain ⟨y, rfl, _⟩ := decoded_enum hs
  rw [hfor.binary]
  exact Or.inr ⟨hb, .uint x, by simp only [WriteFlags.convert, hx], ⟨x, rfl, rfl⟩, x.toNat_lt, trivial⟩

/-- C123 fails: priorities are taken modulo 256; 256 writes without priority, 264 at 8. -/
theorem C123_fails_priority (fuel : Nat) (my : Address) (rid wid : Option UInt8) (rs ws : Nat → Attempt) (k : Nat) :
    writeCommand fuel my t { f with priority := f.priority + 256 * k } rid wid rs ws =
      writeCommand fuel my t f rid wid rs ws := by
  have e : UInt8.ofNat (f.priority + 256 * k) = UInt8.ofNat f.priority := by
    apply UInt8.toNat_inj.mp
    rw [UInt8.toNat_ofNat', UInt8.toNat_ofNat']
    omega
  have hr : ∀ data, WriteFlags.request t { f with priority := f.priority + 256 * k } data = f.request t data := by
    intro data
    unfold WriteFlags.request
    simp only [e]
    rfl
  unfold writeCommand WriteFlags.write
  simp only [hr]
  rfl

/-- C123 fails: for the present value of a binary output or value, a device that answers
anything but a number crashes the command. -/
theorem C123_fails_crash {ty inst : Nat} (h : C123_Names t f ty inst 85) (hty : ty = 4 ∨ ty = 5) (fuel : Nat) (my : Address)
    (hmy : my.net = 0) (rid wid : UInt8) (rs ws : Nat → Attempt) (old : AppVal) (hold : C71_Readable old) (hf : 1 < fuel)
    (hrs : rs 0 = ⟨none, .bytes (readAck f rid ty inst 85 [old])⟩) (hn : f.isNull = false) (hval : f.value ≠ [])
    (hnot : ∀ n, old ≠ .unsigned n ∧ old ≠ .enum n) :
    (writeCommand fuel my t f (some rid) (some wid) rs ws).2.Panics := by
  have hfor := for_names h
  obtain ⟨a, ss, ha, hss, e⟩ := command_answered hfor fuel my hmy rid (some wid) rs ws [old]
    (by intro v hv; rw [List.mem_singleton] at hv; rw [hv]; exact hold) hf hrs hn hval
  obtain ⟨s, rfl⟩ : ∃ s, ss = [s] := by
    cases hss with
    | cons h1 h2 => cases h2; exact ⟨_, rfl⟩
  have hs : DecodedAs s old := by cases hss with | cons h1 h2 => exact h1
  simp only [List.length_singleton, if_true, List.head!_cons] at e
  rw [e]
  have hd : f.convert t (.one s) ≠ .one .null ∧ ∀ x, f.convert t (.one s) ≠ .one (.uint x) := by
    have hu : ∀ x, s ≠ .uint x := by
      rintro x rfl
      have := hs.1
      cases old with
      | unsigned n => exact (hnot n).1 rfl
      | enum n => exact (hnot n).2 rfl
      | _ => simp [Means] at this
    cases s with
    | uint x => exact absurd rfl (hu x)
    | _ => exact ⟨by simp [WriteFlags.convert], fun x => by simp [WriteFlags.convert]⟩
  exact write_panics hfor my hmy _ ⟨hty, rfl⟩ hd wid ws

/-- C123: when the value there is of a type the command does not handle, or not a single
value, and the property is not the present value of a binary output or value, nothing is
written and an error is reported. -/
theorem C123_other_partial {ty inst prop : Nat} (h : C123_Names t f ty inst prop) (hb : ¬ ((ty = 4 ∨ ty = 5) ∧ prop = 85))
    (fuel : Nat) (my : Address) (hmy : my.net = 0) (rid wid : UInt8) (rs ws : Nat → Attempt) (vs : List AppVal)
    (hvs : ∀ v ∈ vs, C71_Readable v) (hf : vs.length < fuel)
    (hrs : rs 0 = ⟨none, .bytes (readAck f rid ty inst prop vs)⟩) (hn : f.isNull = false) (hval : f.value ≠ [])
    (hother : ∀ v, vs = [v] → match v with
      | .real _ | .unsigned _ | .enum _ | .double _ | .chars _ => False
      | _ => True) :
    (writeCommand fuel my t f (some rid) (some wid) rs ws).1.length = 1 ∧
    (∀ s ∈ (writeCommand fuel my t f (some rid) (some wid) rs ws).1,
      Carries f.dest s (Spec.readProperty rid ty inst (WriteFlags.ref f prop))) ∧
    ∃ e, (writeCommand fuel my t f (some rid) (some wid) rs ws).2 = .ok (.written (.error e)) := by
  have hfor := for_names h
  obtain ⟨a, ss, ha, hss, e⟩ := command_answered hfor fuel my hmy rid (some wid) rs ws vs hvs hf hrs hn hval
  have hc : f.convert t (if ss.length = 1 then .one ss.head! else .many ss) = .one .nil := by
    by_cases hl : ss.length = 1
    · obtain ⟨s, rfl⟩ := List.length_eq_one_iff.1 hl
      cases hss with
      | @cons _ v _ l h1 h2 =>
        cases h2
        have ho := hother _ rfl
        rw [if_pos hl, List.head!_cons]
        have hm := h1.1
        cases v <;> simp only [Means] at hm ho
        case null => rw [hm]; rfl
        case bool => rw [hm]; rfl
        case signed => obtain ⟨x, rfl, _⟩ := hm; rfl
        case octets => rw [hm]; rfl
        case bits => obtain ⟨x, rfl, _⟩ := hm; rfl
        case date => rw [hm]; rfl
        case time => rw [hm]; rfl
        case objId => obtain ⟨x, rfl, _⟩ := hm; rfl
    · rw [if_neg hl]; rfl
  rw [hc, write_refused hfor my hmy hb wid ws] at e
  rw [e]
  exact ⟨rfl, fun s hs => by rw [List.mem_singleton.1 hs]; exact ha, _, rfl⟩

/-! ### Numbers -/

/-- What package strconv promises for a whole number below 2^31: no error and the nearest
number of single precision, here turned into a `uint32`. -/
def C123_Parses (t : Parsers) (n : Nat) : Prop :=
  (t.uint32 ((decimal n).map UInt8.ofNat)).2 = true ∧
    ∃ bits, NearestReal bits n ∧ RealIs bits (t.uint32 ((decimal n).map UInt8.ofNat)).1.toNat

/-- Whole numbers above 2^24 with a single-precision representation are even. -/
theorem realIs_even {bits n : Nat} (h : RealIs bits n) (hn : 2 ^ 24 < n) : n % 2 = 0 := by
  obtain ⟨_, h⟩ := h
  unfold realTimes2p150 at h
  by_cases he : bits / 2 ^ 23 = 0
  · rw [if_pos he] at h
    exfalso
    have h1 : bits % 2 ^ 23 < 2 ^ 23 := Nat.mod_lt _ (by decide)
    have h2 : 2 ^ 24 * 2 ^ 150 < n * 2 ^ 150 := Nat.mul_lt_mul_of_pos_right hn (by decide)
    omega
  · rw [if_neg he] at h
    have hm : 2 ^ 23 + bits % 2 ^ 23 < 2 ^ 24 := by have := Nat.mod_lt bits (show 0 < 2 ^ 23 by decide); omega
    generalize 2 ^ 23 + bits % 2 ^ 23 = m at *
    generalize bits / 2 ^ 23 = e at *
    have hgt : 150 < e := by
      rcases Nat.lt_or_ge 150 e with h' | h'
      · exact h'
      · exfalso
        have h1 : m * 2 ^ e ≤ m * 2 ^ 150 := Nat.mul_le_mul_left m (Nat.pow_le_pow_right (by decide) h')
        have h2 : m * 2 ^ 150 < 2 ^ 24 * 2 ^ 150 := Nat.mul_lt_mul_of_pos_right hm (by decide)
        have h3 : 2 ^ 24 * 2 ^ 150 < n * 2 ^ 150 := Nat.mul_lt_mul_of_pos_right hn (by decide)
        omega
    obtain ⟨k, rfl⟩ : ∃ k, e = k + 1 + 150 := ⟨e - 151, by omega⟩
    rw [Nat.pow_add, ← Nat.mul_assoc] at h
    have := Nat.eq_of_mul_eq_mul_right (by decide) h
    rw [← this, Nat.pow_succ, ← Nat.mul_assoc]
    exact Nat.mul_mod_left _ _

/-- C123, whole numbers: up to 2^24 the number written is the number given. -/
theorem C123_number_partial (n : Nat) (ht : C123_Parses t n) (hn : n ≤ 2 ^ 24) :
    ∃ x, t.uint32 ((decimal n).map UInt8.ofNat) = (x, true) ∧ x.toNat = n := by
  obtain ⟨h1, bits, h2, _, h3⟩ := ht
  refine ⟨_, Prod.ext rfl h1, ?_⟩
  have hv : (UInt32.ofNat n).toNat = n := UInt32.toNat_ofNat_of_lt' (by show _ < 2 ^ 32; omega)
  have hx := float_exact (UInt32.ofNat n) (by rw [hv]; exact hn)
  rw [hv] at hx
  have hle := h2.2 (float32OfUInt32 (UInt32.ofNat n)).toNat (by
    have := float_nearest (UInt32.ofNat n)
    exact this.1)
  unfold realError at hle
  rw [hx.2, h3] at hle
  generalize (t.uint32 ((decimal n).map UInt8.ofNat)).1.toNat = m at *
  have : m * 2 ^ 150 = n * 2 ^ 150 := by omega
  exact Nat.eq_of_mul_eq_mul_right (by decide) this

/-- C123 fails: for every odd number above 2^24 another number is written. -/
theorem C123_fails_number {ty inst prop : Nat} (h : C123_Names t f ty inst prop) (fuel : Nat) (my : Address)
    (hmy : my.net = 0) (rid wid : UInt8) (rs ws : Nat → Attempt) (old n : Nat) (hold : old < 2 ^ 32) (hf : 1 < fuel)
    (hrs : rs 0 = ⟨none, .bytes (readAck f rid ty inst prop [.unsigned old])⟩) (hn : f.isNull = false)
    (hpri : f.priority < 256) (hb : ¬ ((ty = 4 ∨ ty = 5) ∧ prop = 85)) (ht : C123_Parses t n)
    (hval : f.value = (decimal n).map UInt8.ofNat) (hlo : 2 ^ 24 < n) (hodd : n % 2 = 1) :
    ∃ m, m ≠ n ∧ C123_Sends f (writeCommand fuel my t f (some rid) (some wid) rs ws).1
      (Spec.readProperty rid ty inst (WriteFlags.ref f prop))
      (Spec.writeProperty wid ty inst (WriteFlags.ref f prop) (AppVal.unsigned m).encoding (C123_priority f.priority)) := by
  obtain ⟨h1, bits, _, h3⟩ := ht
  rw [← hval] at h1 h3
  refine ⟨(t.uint32 f.value).1.toNat, fun hc => ?_, ?_⟩
  · rw [hc] at h3
    have := realIs_even h3 hlo
    omega
  · refine (C123_partial h fuel my hmy rid wid rs ws (.unsigned old) (.unsigned _) ⟨hold, trivial⟩ hf hrs hn ?_
      ⟨hb, _, Prod.ext rfl h1, rfl⟩ hpri).1
    rw [hval]
    unfold decimal
    split <;> simp

/-! ### Where it goes -/

/-- C123: address, port, network and MAC are the ones given, when they fit. -/
theorem C123_dest_partial (a b c d : UInt8) (hip : f.ip = .v4 a b c d) (port : Nat) (hp : f.port = port) (hport : port < 65536)
    (net mac : Nat) (hnet : f.network = net) (hmac : f.mstp = mac) (h1 : net < 65536) (h2 : mac < 256) :
    f.dest.addr.udpAddr = some ((a, b, c, d), port) ∧ f.dest.addr.net.toNat = net ∧
      f.dest.addr.adr.map UInt8.toNat = [mac] := by
  have e1 := toNat_ofInt16 port
  have e2 := toNat_ofInt16 net
  have e3 := toNat_ofInt8 mac
  refine ⟨?_, ?_, ?_⟩
  · have : f.dest.addr.mac = [a, b, c, d] ++ be16 (UInt16.ofInt f.port) := by
      show packIP4 f.ip ++ _ = _
      rw [hip]; rfl
    unfold Address.udpAddr
    rw [this, hp]
    generalize UInt16.ofInt (port : Int) = q at *
    obtain rfl : q.toNat = port := by omega
    simp only [be16, List.cons_append, List.nil_append, Option.some.injEq, Prod.mk.injEq, true_and]
    have hlo : q.toUInt8.toNat < 2 ^ 8 := q.toUInt8.toNat_lt
    rw [← Nat.shiftLeft_add_eq_or_of_lt hlo, Nat.shiftLeft_eq]
    have := q.toNat_lt
    simp [Nat.shiftRight_eq_div_pow]
    omega
  · show (UInt16.ofInt f.network).toNat = net
    rw [hnet]; omega
  · show [(UInt8.ofInt f.mstp).toNat] = [mac]
    rw [hmac]
    congr 1; omega

/-! ### Examples -/

/-- A parser that knows the digits 0 to 9 and 255 for the property. -/
def exampleParsers : Parsers where
  atoi s := if s = t!"85" then some 85 else none
  uint32 s := match s with
    | [c] => (c.toUInt32 - 48, true)
    | _ => (0, false)
  float32 s := if s = [49] then (0x3F800000, true) else (0, false)
  float64 _ := (0, false)

def exampleFlags : WriteFlags :=
  { ip := .v4 10 0 0 9, objectId := 5, objectType := 2, property := t!"PresentValue", value := [49], priority := 8 }

/-- Analog value 5 is 0.0; "1" writes 1.0 at priority 8; "x" writes 0.0. -/
example : (∀ ws, C123_Sends exampleFlags (writeCommand 9 {} exampleParsers exampleFlags (some 3) (some 4)
      (fun _ => ⟨none, .bytes (readAck exampleFlags 3 2 5 85 [.real 0])⟩) ws).1
      (Spec.readProperty 3 2 5 ⟨85, none⟩) (Spec.writeProperty 4 2 5 ⟨85, none⟩ [0x44, 0x3F, 0x80, 0, 0] (some 8))) ∧
    ∀ ws, C123_Sends { exampleFlags with value := [120] } (writeCommand 9 {} exampleParsers
      { exampleFlags with value := [120] } (some 3) (some 4)
      (fun _ => ⟨none, .bytes (readAck { exampleFlags with value := [120] } 3 2 5 85 [.real 0])⟩) ws).1
      (Spec.readProperty 3 2 5 ⟨85, none⟩) (Spec.writeProperty 4 2 5 ⟨85, none⟩ [0x44, 0, 0, 0, 0] (some 8)) := by
  have hnames : ∀ v, C123_Names exampleParsers { exampleFlags with value := v } 2 5 85 := by
    intro v
    refine ⟨rfl, by decide, rfl, by decide, by decide, by decide, Or.inr ⟨rfl, ([t!"Present", t!"Value"], 85), ?_, rfl, rfl⟩⟩
    decide +kernel
  constructor
  · intro ws
    exact (C123_partial (hnames [49]) 9 {} rfl 3 4 _ ws (.real 0) (.real 0x3F800000) ⟨trivial, trivial⟩ (by decide) rfl rfl
      (by decide) ⟨by decide, rfl⟩ (by decide)).1
  · intro ws
    exact C123_fails_value (hnames [120]) 9 {} rfl 3 4 _ ws 0 0 (by decide) rfl rfl (by decide) rfl (by decide)

/-- Multi-state value 5 is 1; "16777217" writes another number. -/
def exampleFloat : Parsers := { exampleParsers with uint32 := fun _ => (16777216, true) }

example (ws : Nat → Attempt) : ∃ m, m ≠ 16777217 ∧ C123_Sends { exampleFlags with objectType := 19, value := (decimal 16777217).map UInt8.ofNat }
      (writeCommand 9 {} exampleFloat { exampleFlags with objectType := 19, value := (decimal 16777217).map UInt8.ofNat }
      (some 3) (some 4) (fun _ => ⟨none, .bytes (readAck exampleFlags 3 19 5 85 [.unsigned 1])⟩) ws).1
      (Spec.readProperty 3 19 5 ⟨85, none⟩) (Spec.writeProperty 4 19 5 ⟨85, none⟩ (AppVal.unsigned m).encoding (some 8)) := by
  have hp : C123_Parses exampleFloat 16777217 := ⟨rfl, 0x4B800000, by
    have := float_nearest 16777217
    rw [show float32OfUInt32 16777217 = 0x4B800000 by decide +kernel] at this
    exact this, by unfold RealIs; decide +kernel⟩
  have hnames : C123_Names exampleFloat { exampleFlags with objectType := 19, value := (decimal 16777217).map UInt8.ofNat } 19 5 85 := by
    refine ⟨rfl, by decide, rfl, by decide, by decide, by decide, Or.inr ⟨rfl, ([t!"Present", t!"Value"], 85), ?_, rfl, rfl⟩⟩
    decide +kernel
  exact C123_fails_number hnames 9 {} rfl 3 4
    (fun _ => ⟨none, .bytes (readAck exampleFlags 3 19 5 85 [.unsigned 1])⟩) ws 1 16777217 (by decide) (by decide) rfl rfl
    (by decide) (by decide) hp rfl (by decide) (by decide)

/-- A misspelled name: null is written to property 0. -/
example : ∀ s ∈ (writeCommand 9 {} exampleParsers { exampleFlags with property := t!"PresentVal", isNull := true }
      none (some 4) (fun _ => {}) (fun _ => {})).1,
    Carries exampleFlags.dest s (Spec.writeProperty 4 2 5 ⟨0, none⟩ [0x00] (some 8)) :=
  (C123_fails_name (f := { exampleFlags with property := t!"PresentVal", isNull := true }) 2 5 rfl (by decide) rfl (by decide) rfl
    (by decide +kernel) 9 {} rfl none 4 (fun _ => {}) (fun _ => {}) rfl).2

end Bac.Props
