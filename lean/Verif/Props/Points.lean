import Verif.Props.NetObjects
/-!
# C103 - C108, C110, C111: points, names and the store of package network
-/

namespace Bac.Props

open Spec (AppVal Means)

/-! ## C103, C104 Reading a present value -/

theorem present_ok {α : Type} {net : Reader} {d : NetDevice} {f : PropertyData → α} {p : Point} {c c' : Calls} {out : PropertyData}
    (h : d.read net (some (p.whole 85)) c = (c', .ok (.ok out))) :
    readPresentValue net d f (some p) c = (c', .ok (.ok (f out))) := (N.bind_ok h).trans rfl

theorem present_error {α : Type} {net : Reader} {d : NetDevice} {f : PropertyData → α} {p : Point} {c c' : Calls} {e : NetErr}
    (h : d.read net (some (p.whole 85)) c = (c', .ok (.error e))) :
    readPresentValue net d f (some p) c = (c', .ok (.error e)) := (N.bind_ok h).trans rfl

/-- A read of the present value answered with one value. -/
theorem present_answered {α : Type} (w : Wire) (hmy : w.my.net = 0) (d : NetDevice) (f : PropertyData → α) (p : Point)
    (hp : C04_Valid ⟨p.typ, p.inst⟩) (v : AppVal) (hv : C71_Readable v) (hf : 1 < w.fuel) (c : Calls)
    (h : Answered w c.length (p.whole 85) [v]) :
    ∃ c' s out, DecodedAs s v ∧ out.object.properties = [⟨85, arrayAll, .one s, 0⟩] ∧
      readPresentValue w.reader d f (some p) c = (c', .ok (.ok (f out))) := by
  obtain ⟨s, out, h1, h2, h3⟩ := read_single w hmy d.dev.target (p.whole 85) (whole_valid hp 85 (by decide)) c.length v hv hf h
  exact ⟨_, s, out, h1, h2, present_ok (read_of w.reader d (p.whole 85) c (.ok out) h3)⟩

theorem toFloat32_one {d : PropertyData} {p : Property} (h : d.object.properties = [p]) {s : Scalar}
    (hs : p.data = .one s) : toFloat32 d = (match s with | .real b => b | _ => 0) := by
  unfold toFloat32; rw [h]; simp only [hs]
  cases s <;> rfl

/-- C103: a present value sent as a REAL is returned bit by bit, an error of the client is
returned as error.  Missing: values of other types (`C103_fails`) and answers with several
values. -/
theorem C103_partial (w : Wire) (hmy : w.my.net = 0) (d : NetDevice) (p : Point)
    (hp : C04_Valid ⟨p.typ, p.inst⟩) (hf : 1 < w.fuel) (c : Calls) :
    (∀ b, Answered w c.length (p.whole 85) [.real b] → ∃ c', pointReadFloat32 w.reader d (some p) c = (c', .ok (.ok b))) ∧
    (∀ e, w.reader c.length d.dev.target (p.whole 85).request = .ok (.error e) →
      ∃ c', pointReadFloat32 w.reader d (some p) c = (c', .ok (.error (.call e)))) := by
  constructor
  · intro b h
    obtain ⟨c', s, out, h1, h2, h3⟩ := present_answered w hmy d toFloat32 p hp (.real b) ⟨trivial, trivial⟩ hf c h
    refine ⟨c', h3.trans ?_⟩
    rw [toFloat32_one h2 rfl, decoded_real h1]
  · intro e h
    exact ⟨_, present_error (read_of w.reader d (p.whole 85) c (.error e) h)⟩

/-- C103 fails: a present value of any other type - among them the unsigned and
enumerated values of binary and multi-state objects - is returned as 0, without error. -/
theorem C103_fails (w : Wire) (hmy : w.my.net = 0) (d : NetDevice) (p : Point)
    (hp : C04_Valid ⟨p.typ, p.inst⟩) (hf : 1 < w.fuel) (c : Calls) (v : AppVal) (hv : C71_Readable v) (hr : ∀ b, v ≠ .real b)
    (h : Answered w c.length (p.whole 85) [v]) : ∃ c', pointReadFloat32 w.reader d (some p) c = (c', .ok (.ok 0)) := by
  obtain ⟨c', s, out, h1, h2, h3⟩ := present_answered w hmy d toFloat32 p hp v hv hf c h
  refine ⟨c', h3.trans ?_⟩
  rw [toFloat32_one h2 rfl]
  have hs : ∀ b, s ≠ .real b := by
    rintro b rfl
    have := h1.1
    cases v <;> simp [Means] at this
    exact hr _ rfl
  cases s
  case real b => exact absurd rfl (hs b)
  all_goals rfl

/-- C103 fails: a nil point crashes. -/
theorem C103_fails_nil (net : Reader) (d : NetDevice) (c : Calls) : (pointReadFloat32 net d none c).2.Panics := trivial

example : (pointReadFloat32 (exampleReader fun _ => some (.one (.real 0x41200000))) {} (some ⟨1, 2, 0⟩) []).2 = .ok (.ok 0x41200000) ∧
    (pointReadFloat32 (exampleReader fun _ => some (.one (.double 0x4024000000000000))) {} (some ⟨1, 2, 0⟩) []).2 = .ok (.ok 0) ∧
    (pointReadFloat32 (exampleReader fun _ => none) {} (some ⟨1, 2, 0⟩) []).2 = .ok (.error (.call .timeout)) := by decide +kernel

/-- C104: an unsigned or enumerated present value is returned, an error of the client is
returned as error.  Missing: as in C103. -/
theorem C104_partial (w : Wire) (hmy : w.my.net = 0) (d : NetDevice) (p : Point)
    (hp : C04_Valid ⟨p.typ, p.inst⟩) (hf : 1 < w.fuel) (c : Calls) :
    (∀ n v, v = .unsigned n ∨ v = .enum n → n < 2 ^ 32 → Answered w c.length (p.whole 85) [v] →
      ∃ c' x, pointReadBool w.reader d (some p) c = (c', .ok (.ok x)) ∧
        pointReadMultiState w.reader d (some p) c = (c', .ok (.ok x)) ∧ x.toNat = n) ∧
    (∀ e, w.reader c.length d.dev.target (p.whole 85).request = .ok (.error e) →
      ∃ c', pointReadBool w.reader d (some p) c = (c', .ok (.error (.call e))) ∧
        pointReadMultiState w.reader d (some p) c = (c', .ok (.error (.call e)))) := by
  constructor
  · intro n v hv hn h
    obtain ⟨c', s, out, h1, h2, h3⟩ := present_answered w hmy d toUint32 p hp v
      (by rcases hv with rfl | rfl <;> exact ⟨hn, trivial⟩) hf c h
    obtain ⟨x, hx, hxn⟩ : ∃ x : UInt32, s = .uint x ∧ x.toNat = n := by
      rcases hv with rfl | rfl
      · exact decoded_unsigned h1
      · exact decoded_enum h1
    subst hx
    have e := toUint32_one h2 rfl
    rw [e] at h3
    exact ⟨c', x, h3, h3, hxn⟩
  · intro e h
    exact ⟨_, present_error (read_of w.reader d (p.whole 85) c (.error e) h), present_error (read_of w.reader d (p.whole 85) c (.error e) h)⟩

/-- C104 fails: a present value of any other type, for example a REAL or a BOOLEAN, is
returned as 0, without error. -/
theorem C104_fails (w : Wire) (hmy : w.my.net = 0) (d : NetDevice) (p : Point)
    (hp : C04_Valid ⟨p.typ, p.inst⟩) (hf : 1 < w.fuel) (c : Calls) (v : AppVal) (hv : C71_Readable v)
    (hr : ∀ n, v ≠ .unsigned n ∧ v ≠ .enum n) (h : Answered w c.length (p.whole 85) [v]) :
    ∃ c', pointReadBool w.reader d (some p) c = (c', .ok (.ok 0)) ∧
      pointReadMultiState w.reader d (some p) c = (c', .ok (.ok 0)) := by
  obtain ⟨c', s, out, h1, h2, h3⟩ := present_answered w hmy d toUint32 p hp v hv hf c h
  have hs : ∀ b, s ≠ .uint b := by
    rintro b rfl
    have := h1.1
    cases v <;> simp [Means] at this
    · exact (hr _).1 rfl
    · exact (hr _).2 rfl
  have e : toUint32 out = 0 := by
    unfold toUint32
    rw [h2]
    cases s
    case uint b => exact absurd rfl (hs b)
    all_goals rfl
  rw [e] at h3
  exact ⟨c', h3, h3⟩

example : (pointReadBool (exampleReader fun _ => some (.one (.uint 1))) {} (some ⟨1, 5, 0⟩) []).2 = .ok (.ok 1) ∧
    (pointReadBool (exampleReader fun _ => some (.one (.bool true))) {} (some ⟨1, 5, 0⟩) []).2 = .ok (.ok 0) := by decide +kernel

/-! ## C105 Writing a present value -/

/-- C105: the value of `PointWriteAnalogue` goes out as a REAL, bit by bit, to the present
value of the point at the priority of the point; an acknowledgement makes the call
succeed.  Missing: binary outputs and values (`C105_fails_binary`) and object types above
1023 (as `C65_fails_type`). -/
theorem C105_analogue_partial (d : NetDevice) (my : Address) (hmy : my.net = 0) (id : UInt8) (script : Nat → Attempt)
    (p : Point) (hp : C04_Valid ⟨p.typ, p.inst⟩) (hb : p.typ.toNat ≠ 4 ∧ p.typ.toNat ≠ 5) (bits : UInt32)
    (ha : d.dev.addr.net = 0 ∨ d.dev.addr.adr.length = 1) :
    (∀ s ∈ (pointWriteAnalogue d my (some id) script p bits).1, Carries d.dev.target s
      (Spec.writeProperty id p.typ.toNat p.inst.toNat ⟨85, none⟩ (AppVal.real bits).encoding
        (if p.writePriority.toNat = 0 then none else some p.writePriority.toNat))) ∧
    (pointWriteAnalogue d my (some id) script p bits).1 ≠ [] ∧
    (script 0 = ⟨none, .bytes (Spec.simpleAck id 15)⟩ → (pointWriteAnalogue d my (some id) script p bits).2 = .ok (.ok ())) := by
  obtain ⟨h1, h2, _, _, h3⟩ := write_sends d my hmy id script
    { inst := p.inst, typ := p.typ, prop := 85, value := .real bits, priority := p.writePriority } (.real bits) rfl hp
    (show (85 : UInt32).toNat ≤ 4194303 by decide) (.real bits)
    (Or.inr ⟨fun h => by
      rcases h.1 with h | h
      · exact hb.1 h
      · exact hb.2 h, .real bits, rfl, rfl, trivial, trivial⟩) ha
  exact ⟨h1, h2, fun hs => (h3 hs).2⟩

/-- C105 fails: writing an analogue value to a binary output or binary value crashes,
before anything is sent. -/
theorem C105_fails_binary (d : NetDevice) (my : Address) (hmy : my.net = 0) (id : UInt8) (script : Nat → Attempt)
    (p : Point) (hb : p.typ = 4 ∨ p.typ = 5) (bits : UInt32) :
    ∃ k, pointWriteAnalogue d my (some id) script p bits = ([], .panic k) := by
  have hv : isValidObjectType p.typ = none := by rcases hb with h | h <;> rw [h] <;> rfl
  have key : ∀ pre : List UInt8, ∃ k, (⟨pre, none⟩ : Enc).writeProperty id
      (NetWrite.request { inst := p.inst, typ := p.typ, prop := 85, value := .real bits, priority := p.writePriority } (.real bits)) = .panic k := by
    intro pre
    rcases hb with h | h <;> rw [h] <;> exact ⟨_, rfl⟩
  obtain ⟨k, hk⟩ := key (requestOctets d.dev.target.addr.setLength)
  refine ⟨k, ?_⟩
  have e : clientWriteProperty my d.dev.target (NetWrite.request { inst := p.inst, typ := p.typ, prop := 85, value := .real bits, priority := p.writePriority } (.real bits))
      (some id) script = ([], .panic k) := by
    unfold clientWriteProperty
    simp only [npdu_request my _ hmy, Outcome.ok_bind, hk]
  unfold pointWriteAnalogue NetDevice.write NetWrite.toSend
  simp only [Bool.false_eq_true, if_false, e]

/-- The type a number is written as: enumerated for binary outputs and values, else
unsigned. -/
def C105_Number (typ : UInt16) (n : Nat) : AppVal := if typ.toNat = 4 ∨ typ.toNat = 5 then .enum n else .unsigned n

/-- C105: the number of `PointWriteBool` and `PointWriteMultiState` goes out as
enumerated (binary outputs and values) or unsigned. -/
theorem C105_number_partial (d : NetDevice) (my : Address) (hmy : my.net = 0) (id : UInt8) (script : Nat → Attempt)
    (p : Point) (hp : C04_Valid ⟨p.typ, p.inst⟩) (v : UInt32)
    (ha : d.dev.addr.net = 0 ∨ d.dev.addr.adr.length = 1) :
    (∀ s ∈ (pointWriteUint d my (some id) script p v).1, Carries d.dev.target s
      (Spec.writeProperty id p.typ.toNat p.inst.toNat ⟨85, none⟩ (C105_Number p.typ v.toNat).encoding
        (if p.writePriority.toNat = 0 then none else some p.writePriority.toNat))) ∧
    (pointWriteUint d my (some id) script p v).1 ≠ [] ∧
    (script 0 = ⟨none, .bytes (Spec.simpleAck id 15)⟩ → (pointWriteUint d my (some id) script p v).2 = .ok (.ok ())) := by
  obtain ⟨h1, h2, _, _, h3⟩ := write_sends d my hmy id script
    { inst := p.inst, typ := p.typ, prop := 85, value := .uint v, priority := p.writePriority } (.uint v) rfl hp
    (show (85 : UInt32).toNat ≤ 4194303 by decide) (C105_Number p.typ v.toNat)
    (by
      unfold C105_Number
      by_cases hb : p.typ.toNat = 4 ∨ p.typ.toNat = 5
      · rw [if_pos hb]
        exact Or.inl ⟨⟨hb, rfl⟩, Or.inr ⟨v, rfl, rfl⟩⟩
      · rw [if_neg hb]
        exact Or.inr ⟨fun h => hb h.1, .uint v, rfl, ⟨v, rfl, rfl⟩, v.toNat_lt, trivial⟩) ha
  exact ⟨h1, h2, fun hs => (h3 hs).2⟩

/-- C105 fails: a binary input (its present value is enumerated, and writable when out of
service) is sent an unsigned; these octets are no encoding of the enumerated value. -/
theorem C105_fails_input (d : NetDevice) (my : Address) (hmy : my.net = 0) (id : UInt8) (script : Nat → Attempt)
    (p : Point) (ht : p.typ = 3) (hi : p.inst.toNat < 2 ^ 22) (v : UInt32)
    (ha : d.dev.addr.net = 0 ∨ d.dev.addr.adr.length = 1) :
    (∀ s ∈ (pointWriteUint d my (some id) script p v).1, Carries d.dev.target s
      (Spec.writeProperty id 3 p.inst.toNat ⟨85, none⟩ (AppVal.unsigned v.toNat).encoding
        (if p.writePriority.toNat = 0 then none else some p.writePriority.toNat))) ∧
    (pointWriteUint d my (some id) script p v).1 ≠ [] ∧
    (AppVal.unsigned v.toNat).encoding ≠ (AppVal.enum v.toNat).encoding := by
  obtain ⟨h1, h2, _⟩ := C105_number_partial d my hmy id script p ⟨by rw [ht]; exact (by decide : (3 : UInt16).toNat < 2 ^ 10), by have := hi; dsimp only; omega⟩ v ha
  have e : C105_Number p.typ v.toNat = .unsigned v.toNat := by rw [ht]; rfl
  have e3 : p.typ.toNat = 3 := by rw [ht]; rfl
  rw [e, e3] at h1
  refine ⟨h1, h2, fun h => ?_⟩
  have h' := congrArg (fun l => (l.headD 0).toNat) h
  simp only [AppVal.encoding, AppVal.tag, Spec.tagHeader, Spec.numNibble, List.cons_append, List.nil_append, List.headD_cons,
    Bool.false_eq_true, if_false] at h'
  have hl : ∀ n, Spec.lenBits n ≤ 5 := by intro n; unfold Spec.lenBits; split <;> omega
  have h5 := hl (AppVal.unsigned v.toNat).lenField
  have h6 := hl (AppVal.enum v.toNat).lenField
  simp only [show (2 : Nat) ≤ 14 by omega, show (9 : Nat) ≤ 14 by omega, if_true] at h'
  rw [UInt8.toNat_ofNat_of_lt' (by simp only [UInt8.size]; omega), UInt8.toNat_ofNat_of_lt' (by simp only [UInt8.size]; omega)] at h'
  omega

/-- Binary value 1 := 1 at priority 8; analog value 1 := 10.0. -/
example : (pointWriteUint (NetDevice.made { ip := .v4 10 0 0 9 }) {} (some 3) (fun _ => ⟨none, .bytes [0x20, 3, 15]⟩) ⟨1, 5, 8⟩ 1) =
    ([⟨(NetDevice.made { ip := .v4 10 0 0 9 }).dev.addr.setLength,
      [0x81, 10, 0, 23, 1, 4, 0, 5, 3, 15, 0x0C, 1, 0x40, 0, 1, 0x19, 85, 0x3E, 0x91, 1, 0x3F, 0x49, 8]⟩], .ok (.ok ())) := by decide +kernel
example : (pointWriteAnalogue (NetDevice.made { ip := .v4 10 0 0 9 }) {} (some 3) (fun _ => {}) ⟨1, 5, 8⟩ 0x41200000).2 =
    .panic .typeAssertion := by decide +kernel

/-! ## C106 Which points are writable -/

/-- C106 fails: every point is reported to be writable, among them analog inputs. -/
theorem C106_fails (p : Point) : isPointWriteable p = true := by
  unfold isPointWriteable
  by_cases h : p.typ = 4
  · rw [if_neg (by simpa using h), if_pos (by rw [h]; decide)]
  · rw [if_pos h]

/-- The classification of analog and binary points is that of the standard's numbers:
analog input, output, value 0, 1, 2; binary input, output, value 3, 4, 5. -/
theorem C106_kinds_partial (p : Point) :
    (isPointFloat p = true ↔ p.typ.toNat ≤ 2) ∧ (isPointBool p = true ↔ 3 ≤ p.typ.toNat ∧ p.typ.toNat ≤ 5) := by
  have e : ∀ k : UInt16, p.typ = k ↔ p.typ.toNat = k.toNat := fun k => UInt16.toNat_inj.symm
  unfold isPointFloat isPointBool
  simp only [Bool.or_eq_true, decide_eq_true_eq, e]
  have e0 : (0 : UInt16).toNat = 0 := rfl
  have e1 : (1 : UInt16).toNat = 1 := rfl
  have e2 : (2 : UInt16).toNat = 2 := rfl
  have e3 : (3 : UInt16).toNat = 3 := rfl
  have e4 : (4 : UInt16).toNat = 4 := rfl
  have e5 : (5 : UInt16).toNat = 5 := rfl
  rw [e0, e1, e2, e3, e4, e5]
  omega

example : isPointWriteable ⟨1, 0, 0⟩ = true ∧ isPointBool ⟨1, 0, 0⟩ = false ∧ isPointFloat ⟨1, 0, 0⟩ = true := by decide

/-! ## C107 Failed reads are reported -/

theorem unit_step {net : Reader} {d : NetDevice} {p : Point} {resp : PointDetails} {c c' : Calls} {r : Except NetErr PropertyData}
    {u : UInt32} {s : List Nat} (hb : ¬ isPointBool p = true) (e : d.read net (some (p.whole 117)) c = (c', .ok r))
    (hu : toUint32 (dataOf r) = u) (hs : Bac.unitString u.toUInt16 = .ok s) :
    unitDetails net d p resp c = (c', .ok { resp with unit := u, unitString := s }) := by
  subst hu
  unfold unitDetails
  rw [if_neg hb]
  refine (N.bind_ok e).trans ?_
  exact (N.bind_ok (m := N.lift (Bac.unitString (toUint32 (dataOf r)).toUInt16)) (by rw [N.lift_apply, hs])).trans rfl

theorem details_step {net : Reader} {d : NetDevice} {p : Point} {c c' : Calls} {r : Except NetErr PropertyData}
    {name : List UInt8} (e : d.read net (some (p.whole 77)) c = (c', .ok r)) (hn : toStr (dataOf r) = name) :
    pointDetails net d p c =
      unitDetails net d p { name := name, inst := p.inst, typ := p.typ, pointType := objectTypeString p.typ } c' := by
  subst hn
  exact N.bind_ok e

/-- C107 fails: a device that answers no read gives details without an error: the name is
empty, the unit 0. -/
theorem C107_fails (net : Reader) (hfail : ∀ n dev rp, ∃ e, net n dev rp = .ok (.error e)) (d : NetDevice) (p : Point)
    (c : Calls) : ∃ c' x, pointDetails net d p c = (c', .ok x) ∧ x.name = [] ∧ x.unit = 0 := by
  have hr : ∀ prop c, ∃ c' e, d.read net (some (p.whole prop)) c = (c', .ok (.error e)) := by
    intro prop c
    obtain ⟨e, he⟩ := hfail c.length d.dev.target (p.whole prop).request
    exact ⟨_, _, read_of net d (p.whole prop) c (.error e) he⟩
  obtain ⟨c1, e, e1⟩ := hr 77 c
  rw [details_step (name := []) e1 rfl]
  by_cases hb : isPointBool p = true
  · refine ⟨c1, { inst := p.inst, typ := p.typ, pointType := objectTypeString p.typ }, ?_, rfl, rfl⟩
    unfold unitDetails
    rw [if_pos hb]
    rfl
  · obtain ⟨c2, e', e2⟩ := hr 117 c1
    obtain ⟨s, hs, _⟩ := C100_texts.1 (0 : UInt32).toUInt16
    exact ⟨c2, _, unit_step (u := 0) hb e2 rfl hs, rfl, rfl⟩

/-- C107.  The reads of present values, strings and priority arrays report the error of
the client.  Missing: the details of points and devices (`C107_fails`, `C109_fails`). -/
theorem C107_partial (net : Reader) (d : NetDevice) (p : Point) (c : Calls) (e : CallErr) :
    (net c.length d.dev.target (p.whole 87).request = .ok (.error e) →
      ∃ c', pointReadPriority net d p c = (c', .ok (.error (.call e)))) ∧
    (∀ o, net c.length d.dev.target o.request = .ok (.error e) →
      ∃ c', readString net d (some o) c = (c', .ok (.error (.call e)))) ∧
    (net c.length d.dev.target (p.whole 85).request = .ok (.error e) →
      ∃ c', pointReadFloat32 net d (some p) c = (c', .ok (.error (.call e)))) := by
  refine ⟨fun h => ?_, fun o h => ?_, fun h => ?_⟩
  · exact ⟨_, (N.bind_ok (read_of net d (p.whole 87) c (.error e) h)).trans rfl⟩
  · exact ⟨_, (N.bind_ok (read_of net d o c (.error e) h)).trans rfl⟩
  · exact ⟨_, present_error (read_of net d (p.whole 85) c (.error e) h)⟩

example : (pointDetails (exampleReader fun _ => none) {} ⟨1, 5, 0⟩ []).2 =
    .ok { inst := 1, typ := 5, pointType := objectTypeString 5 } := by decide +kernel

/-! ## C108 The unit of a point -/

/-- C108: the unit answered is reported with its number and, up to 65535, with its text.
Missing: numbers of more than 16 bits (`C108_fails`). -/
theorem C108_partial (w : Wire) (hmy : w.my.net = 0) (d : NetDevice) (p : Point) (hp : C04_Valid ⟨p.typ, p.inst⟩)
    (hf : 1 < w.fuel) (hbool : isPointBool p = false) (name : List UInt8) (hname : name.length + 1 < 2 ^ 32) (u : Nat)
    (hu : u < 65536) (c : Calls) (h1 : Answered w c.length (p.whole 77) [.chars name])
    (h2 : Answered w (c.length + 1) (p.whole 117) [.enum u]) :
    ∃ c' x, pointDetails w.reader d p c = (c', .ok x) ∧ x.name = name ∧ x.unit.toNat = u ∧
      C100_Text Spec.unitNames t!"Unit" u x.unitString := by
  obtain ⟨s1, o1, d1, p1, r1⟩ := read_single w hmy d.dev.target (p.whole 77) (whole_valid hp 77 (by decide)) c.length (.chars name) ⟨hname, trivial⟩ hf h1
  have e1 := read_of w.reader d (p.whole 77) c (.ok o1) r1
  obtain ⟨s2, o2, d2, p2, r2⟩ := read_single w hmy d.dev.target (p.whole 117) (whole_valid hp 117 (by decide)) (c.length + 1) (.enum u)
    ⟨show u < 2 ^ 32 by omega, trivial⟩ hf h2
  have e2 := read_of w.reader d (p.whole 117) (c ++ [(d.dev.target, (p.whole 77).request)]) (.ok o2)
    (by rw [List.length_append]; exact r2)
  obtain ⟨x, hx, hxn⟩ := decoded_enum d2
  have hu2 : toUint32 o2 = x := toUint32_one p2 (by rw [hx])
  have hn1 : toStr o1 = name := toStr_one p1 (by rw [show s1 = .str name from d1.1])
  obtain ⟨s, hs, hst⟩ := C100_texts.1 x.toUInt16
  have hx16 : x.toUInt16.toNat = u := by rw [UInt32.toNat_toUInt16, hxn]; omega
  rw [hx16] at hst
  refine ⟨_, _, (details_step e1 hn1).trans (unit_step (u := x) (by simp [hbool]) e2 hu2 hs), rfl, hxn, hst⟩

/-- C108 fails: the text of a number of more than 16 bits is that of its low 16 bits: the
unit 65536 + n is reported as the unit n. -/
theorem C108_fails (x : UInt32) : ∃ s, Bac.unitString x.toUInt16 = .ok s ∧
    C100_Text Spec.unitNames t!"Unit" (x.toNat % 65536) s := by
  obtain ⟨s, hs, hst⟩ := C100_texts.1 x.toUInt16
  refine ⟨s, hs, ?_⟩
  rw [UInt32.toNat_toUInt16] at hst
  exact hst

/-- The unit 65598 is reported as degrees Celsius. -/
example : Bac.unitString (65598 : UInt32).toUInt16 = .ok (t!"DegreesCelsius") := by decide +kernel

/-! ## C110 Names -/

theorem string_step {net : Reader} {d : NetDevice} {o : NetObject} {c c' : Calls} {out : PropertyData}
    {name : List UInt8} (e : d.read net (some o) c = (c', .ok (.ok out))) (hn : toStr out = name) :
    readString net d (some o) c = (c', .ok (.ok name)) := by
  subst hn
  exact (N.bind_ok e).trans rfl

/-- C110: a name is written as a character string (UTF-8) to the object name, without a
priority, and a name answered as such is returned octet by octet.  Missing: names of 2^32
octets and answers that are no character string (`C110_fails`). -/
theorem C110_partial (d : NetDevice) (w : Wire) (hmy : w.my.net = 0) (id : UInt8) (script : Nat → Attempt)
    (o : ObjectID) (ho : C04_Valid o) (name : List UInt8) (hn : name.length + 1 < 2 ^ 32)
    (ha : d.dev.addr.net = 0 ∨ d.dev.addr.adr.length = 1) (hf : 1 < w.fuel) (c : Calls) :
    (∀ s ∈ (writeName d w.my (some id) script o name).1, Carries d.dev.target s
      (Spec.writeProperty id o.typ.toNat o.inst.toNat ⟨77, none⟩ (AppVal.chars name).encoding none)) ∧
    (writeName d w.my (some id) script o name).1 ≠ [] ∧
    (script 0 = ⟨none, .bytes (Spec.simpleAck id 15)⟩ → (writeName d w.my (some id) script o name).2 = .ok (.ok ())) ∧
    (Answered w c.length ⟨o.inst, o.typ, 77, arrayAll⟩ [.chars name] →
      ∃ c', readString w.reader d (some ⟨o.inst, o.typ, 77, arrayAll⟩) c = (c', .ok (.ok name))) := by
  obtain ⟨h1, h2, _, _, h3⟩ := write_sends d w.my hmy id script
    { inst := o.inst, typ := o.typ, prop := 77, value := .str name } (.str name) rfl ho
    (show (77 : UInt32).toNat ≤ 4194303 by decide) (.chars name)
    (Or.inr ⟨fun h => absurd h.2 (by show ¬ (77 : UInt32).toNat = 85; decide), .str name, rfl, rfl, hn, trivial⟩) ha
  refine ⟨h1, h2, fun hs => (h3 hs).2, fun h => ?_⟩
  obtain ⟨s1, o1, d1, p1, r1⟩ := read_single w hmy d.dev.target ⟨o.inst, o.typ, 77, arrayAll⟩ ⟨ho, by show (77 : UInt32).toNat ≤ 4194303; decide⟩ c.length (.chars name)
    ⟨hn, trivial⟩ hf h
  have e1 := read_of w.reader d ⟨o.inst, o.typ, 77, arrayAll⟩ c (.ok o1) r1
  have hn1 : toStr o1 = name := toStr_one p1 (by rw [show s1 = .str name from d1.1])
  exact ⟨_, string_step e1 hn1⟩

/-- C110 fails: a name answered as anything but a character string, for example as an
octet string, is returned as the empty name, without error. -/
theorem C110_fails (w : Wire) (hmy : w.my.net = 0) (d : NetDevice) (o : NetObject) (ho : o.Valid) (hf : 1 < w.fuel) (c : Calls)
    (v : AppVal) (hv : C71_Readable v) (hr : ∀ l, v ≠ .chars l) (h : Answered w c.length o [v]) :
    ∃ c', readString w.reader d (some o) c = (c', .ok (.ok [])) := by
  obtain ⟨s, o1, d1, p1, r1⟩ := read_single w hmy d.dev.target o ho c.length v hv hf h
  have e1 := read_of w.reader d o c (.ok o1) r1
  have hs : ∀ b, s ≠ .str b := by
    rintro b rfl
    have := d1.1
    cases v <;> simp [Means] at this
    exact hr _ rfl
  have hn1 : toStr o1 = [] := by
    unfold toStr
    rw [p1]
    cases s
    case str b => exact absurd rfl (hs b)
    all_goals rfl
  exact ⟨_, string_step e1 hn1⟩

example : (writeName (NetDevice.made { ip := .v4 10 0 0 9 }) {} (some 3) (fun _ => ⟨none, .bytes [0x20, 3, 15]⟩) ⟨8, 9⟩ [72, 105]).1.map Sent.data =
    [[0x81, 10, 0, 23, 1, 4, 0, 5, 3, 15, 0x0C, 2, 0, 0, 9, 0x19, 77, 0x3E, 0x73, 0, 72, 105, 0x3F]] := by decide +kernel

/-! ## C111 The store -/

/-- C111: a device put into a store is the device found there under its key; entries under
other keys are unchanged. -/
theorem C111_device_partial (m : List (List Nat × Entry)) (key : List Nat) (d : NetDevice) :
    (∃ s, storeUpdateDevice (some m) key d = (s, d.made) ∧ storeGetDevice s key = .ok (.ok d.made) ∧
      ∀ key', key' ≠ key → storeGetDevice s key' = storeGetDevice (some m) key' ∧
        storeGetNetwork s key' = storeGetNetwork (some m) key') ∧
    ∃ net', newNetDevice (some ⟨some (some m)⟩) key d = .ok (some (net', d.made)) ∧
      ∃ s, net'.store = some s ∧ storeGetDevice s key = .ok (.ok d.made) := by
  refine ⟨⟨_, rfl, ?_, fun key' hk => ?_⟩, _, rfl, _, rfl, ?_⟩
  · simp only [storeGetDevice, mapGet_set, if_true]
  · simp only [storeGetDevice, storeGetNetwork, mapGet_set, if_neg hk, and_self]
  · simp only [storeGetDevice, mapGet_set, if_true]

/-- C111: a network put into a store is found under its key. -/
theorem C111_network_partial (m : List (List Nat × Entry)) (key : List Nat) :
    (∃ s, storeNewNetwork (some m) key = (s, .ok ()) ∧ ∃ b, storeGetNetwork s key = .ok (.ok b)) ∧
    ∃ net', newNetwork ⟨some (some m)⟩ key = .ok (.ok net') ∧ ∃ s, net'.store = some s ∧ storeGetNetwork s key = .ok (.ok true) := by
  refine ⟨⟨_, rfl, false, ?_⟩, _, rfl, _, rfl, ?_⟩
  · simp only [storeGetNetwork, mapGet_set, if_true]
  · simp only [storeGetNetwork, mapGet_set, if_true]

/-- C111 fails: asking for the network under the key of a device, or for the device under
the key of a network, crashes. -/
theorem C111_fails_kind (m : List (List Nat × Entry)) (key : List Nat) :
    (∀ d, mapGet key m = some (.device d) → storeGetNetwork (some m) key = .panic .typeAssertion) ∧
    (∀ b, mapGet key m = some (.network b) → storeGetDevice (some m) key = .panic .typeAssertion) := by
  constructor
  · intro d h; simp only [storeGetNetwork, h]
  · intro b h; simp only [storeGetDevice, h]

/-- C111 fails: a network made by the store and found there again has no store; making a
device in it crashes. -/
theorem C111_fails_network (m : List (List Nat × Entry)) (key devKey : List Nat) (d : NetDevice) :
    ∃ s, storeNewNetwork (some m) key = (s, .ok ()) ∧ storeGetNetwork s key = .ok (.ok false) ∧
      newNetDevice (some ⟨none⟩) devKey d = .panic .nilDeref := by
  refine ⟨_, rfl, ?_, rfl⟩
  simp only [storeGetNetwork, mapGet_set, if_true]

/-- C111 fails: without a network neither a device nor an error is returned. -/
theorem C111_fails_nil (key : List Nat) (d : NetDevice) : newNetDevice none key d = .ok none := rfl

example : storeGetDevice (storeUpdateDevice (some []) [1] { deviceId := 7 }).1 [1] = .ok (.ok (NetDevice.made { deviceId := 7 })) ∧
    storeGetNetwork (storeUpdateDevice (some []) [1] { deviceId := 7 }).1 [1] = .panic .typeAssertion := by decide +kernel

end Bac.Props
