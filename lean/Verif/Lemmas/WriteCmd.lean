import Verif.Model.WriteCmd
import Verif.Props.Network
/-!
# Lemmas about the command write
-/

namespace Bac.Props

open Spec (AppVal Means)

theorem toNat_ofInt32 (n : Int) : ((UInt32.ofInt n).toNat : Int) = n % 4294967296 := by
  unfold UInt32.ofInt
  rw [UInt32.toNat_ofNat_of_lt' (by show _ < 2 ^ 32; omega)]
  omega

/-- Object and property, as numbers, after the conversions. -/
structure WriteFlags.For (t : Parsers) (f : WriteFlags) (ty inst prop : Nat) : Prop where
  typ_eq : (UInt16.ofInt (f.objType t)).toNat = ty
  inst_eq : (UInt32.ofInt f.objectId).toNat = inst
  prop_eq : (f.prop t).toNat = prop
  ty_le : ty ≤ 1023
  inst_le : inst ≤ 4194303
  prop_le : prop ≤ 4194303

/-- The reference to the property. -/
def WriteFlags.ref (f : WriteFlags) (prop : Nat) : Spec.PropRef :=
  ⟨prop, if f.index = 0xFFFFFFFF then none else some f.index.toNat⟩

variable {t : Parsers} {f : WriteFlags} {ty inst prop : Nat}

theorem WriteFlags.For.valid (h : WriteFlags.For t f ty inst prop) (data : Value) :
    ValidRead (f.request t data) ⟨f.prop t, f.index, data, UInt8.ofNat f.priority⟩ := by
  refine ⟨⟨?_, ?_⟩, ⟨[], rfl⟩, ?_⟩
  · show (UInt16.ofInt (f.objType t)).toNat < _
    have := h.typ_eq; have := h.ty_le; omega
  · show (UInt32.ofInt f.objectId).toNat < _
    have := h.inst_eq; have := h.inst_le; omega
  · have := h.prop_eq; have := h.prop_le; show (f.prop t).toNat ≤ _; omega

theorem WriteFlags.For.ref (h : WriteFlags.For t f ty inst prop) (data : Value) (pri : UInt8) :
    (⟨f.prop t, f.index, data, pri⟩ : Property).ref = WriteFlags.ref f prop := by
  unfold Property.ref WriteFlags.ref
  rw [h.prop_eq]

theorem WriteFlags.For.binary (h : WriteFlags.For t f ty inst prop) (data : Value) (pri : UInt8) :
    IsBinaryPresentValue (f.request t data).object ⟨f.prop t, f.index, data, pri⟩ ↔ (ty = 4 ∨ ty = 5) ∧ prop = 85 := by
  unfold IsBinaryPresentValue
  show ((UInt16.ofInt (f.objType t)).toNat = 4 ∨ (UInt16.ofInt (f.objType t)).toNat = 5) ∧ (f.prop t).toNat = 85 ↔ _
  rw [h.typ_eq, h.prop_eq]

theorem dest_station (f : WriteFlags) : f.dest.addr.net = 0 ∨ f.dest.addr.adr.length = 1 := Or.inr rfl

/-- The write of a value the encoder can write. -/
theorem write_run (h : WriteFlags.For t f ty inst prop) (my : Address) (hmy : my.net = 0) (data : Value) (v : AppVal)
    (hm : C29_Meant (f.request t data).object ⟨f.prop t, f.index, data, UInt8.ofNat f.priority⟩ v)
    (id : UInt8) (ws : Nat → Attempt) :
    (f.write t my data (some id) ws).1 ≠ [] ∧ (f.write t my data (some id) ws).1.length ≤ 2 ∧
    (∀ s ∈ (f.write t my data (some id) ws).1, Carries f.dest s (Spec.writeProperty id ty inst (WriteFlags.ref f prop)
      v.encoding (if f.priority % 256 = 0 then none else some (f.priority % 256)))) ∧
    ∃ r, (f.write t my data (some id) ws).2 = .ok (.written r) := by
  have hcall := writeProperty_call my f.dest (f.request t data) _ v id ws hmy (h.valid data) hm
  have hret := (C81_ends_partial 0 my f.dest id ws hmy).2.1 (f.request t data) _ v (h.valid data) hm
  rw [h.ref data] at hcall
  have e1 : (f.request t data).object.id.typ.toNat = ty := h.typ_eq
  have e2 : (f.request t data).object.id.inst.toNat = inst := h.inst_eq
  have e3 : (UInt8.ofNat f.priority).toNat = f.priority % 256 := UInt8.toNat_ofNat' ..
  simp only [e1, e2, e3] at hcall
  obtain ⟨k, hk, hsent, hpos⟩ := attempts_sent f.dest.addr.setLength (requestOctets f.dest.addr.setLength ++
    Spec.writeProperty id ty inst (WriteFlags.ref f prop) v.encoding
      (if f.priority % 256 = 0 then none else some (f.priority % 256))) writeStep ws 2 0 (.failed .noId)
  have e4 : (f.write t my data (some id) ws).1 = (clientWriteProperty my f.dest (f.request t data) (some id) ws).1 := rfl
  refine ⟨?_, ?_, ?_, ?_⟩
  · rw [e4, hcall, hsent]
    intro h0
    have := congrArg List.length h0
    simp only [List.length_replicate, List.length_nil] at this
    have := hpos (by decide)
    omega
  · rw [e4, hcall, hsent]; simpa using hk
  · intro s hs
    rw [e4, hcall] at hs
    rw [mem_attempts hs]
    exact carries_datagram f.dest (dest_station f) _
  · have e5 : (f.write t my data (some id) ws).2 =
        (clientWriteProperty my f.dest (f.request t data) (some id) ws).2.bind fun r => .ok (.written r) := rfl
    rw [e5]
    revert hret
    cases (clientWriteProperty my f.dest (f.request t data) (some id) ws).2 with
    | ok r => exact fun _ => ⟨r, rfl⟩
    | panic k => exact fun h => h.elim
    | diverge => exact fun h => h.elim

/-- Anything but null and uint32 crashes the write of a binary present value. -/
theorem write_panics (h : WriteFlags.For t f ty inst prop) (my : Address) (hmy : my.net = 0) (data : Value)
    (hb : (ty = 4 ∨ ty = 5) ∧ prop = 85) (hd : data ≠ .one .null ∧ ∀ x, data ≠ .one (.uint x))
    (id : UInt8) (ws : Nat → Attempt) : (f.write t my data (some id) ws).2.Panics := by
  obtain ⟨h1, ⟨more, h2⟩, h3⟩ := h.valid data
  have hpt := (pointType_iff (f.request t data).object _ more h2).2 ((h.binary data _).2 hb)
  have ha : ∀ e : Enc, e.appData' data true = .panic .typeAssertion := by
    intro e
    unfold Enc.appData' Enc.appData
    rcases data with s | l
    · cases s
      case null => exact absurd rfl hd.1
      case uint x => exact absurd rfl (hd.2 x)
      all_goals rfl
    · rfl
  unfold WriteFlags.write clientWriteProperty
  simp only [npdu_request my _ hmy, Outcome.ok_bind]
  unfold Enc.writeProperty
  simp only [enc_pre, Enc.apdu_request, Enc.readPropertyHeader_ok _ _ _ more h1 h2 h3, Outcome.ok_bind, h2,
    Option.isSome_none, Bool.false_eq_true, if_false, hpt, ha]
  exact trivial

/-- The value nil is refused by the encoder. -/
theorem write_refused (h : WriteFlags.For t f ty inst prop) (my : Address) (hmy : my.net = 0)
    (hb : ¬ ((ty = 4 ∨ ty = 5) ∧ prop = 85)) (id : UInt8) (ws : Nat → Attempt) :
    f.write t my (.one .nil) (some id) ws = ([], .ok (.written (.error (.encode .unknownType)))) := by
  obtain ⟨h1, ⟨more, h2⟩, h3⟩ := h.valid (.one .nil)
  have hpt : pointTypeBOBV (f.request t (.one .nil)).object = false := by
    rw [← Bool.not_eq_true]
    intro hc
    exact hb ((h.binary _ _).1 ((pointType_iff (f.request t (.one .nil)).object _ more h2).1 hc))
  have ha : ∀ e : Enc, e.appData' (.one .nil) false = .ok { e with err := some .unknownType } := fun _ => rfl
  unfold WriteFlags.write clientWriteProperty
  simp only [npdu_request my _ hmy, Outcome.ok_bind]
  unfold Enc.writeProperty
  simp only [enc_pre, Enc.apdu_request, Enc.readPropertyHeader_ok _ _ _ more h1 h2 h3, Outcome.ok_bind, h2,
    Option.isSome_none, Bool.false_eq_true, if_false, hpt, ha, Enc.tagNum_close, optPriority_eq, Enc.write]
  rfl

/-- The acknowledgement of the read, with these values. -/
def readAck (f : WriteFlags) (id : UInt8) (ty inst prop : Nat) (vs : List AppVal) : List UInt8 :=
  Spec.complexAck id 12 (Spec.readPropertyAckBody ty inst (WriteFlags.ref f prop) (vs.flatMap AppVal.encoding))

/-- The command when the read is answered. -/
theorem command_answered (h : WriteFlags.For t f ty inst prop) (fuel : Nat) (my : Address) (hmy : my.net = 0)
    (rid : UInt8) (wid : Option UInt8) (rs ws : Nat → Attempt) (vs : List AppVal) (hvs : ∀ v ∈ vs, C71_Readable v)
    (hf : vs.length < fuel) (hrs : rs 0 = ⟨none, .bytes (readAck f rid ty inst prop vs)⟩)
    (hn : f.isNull = false) (hval : f.value ≠ []) :
    ∃ a ss, Carries f.dest a (Spec.readProperty rid ty inst (WriteFlags.ref f prop)) ∧ List.Forall₂ DecodedAs ss vs ∧
      writeCommand fuel my t f (some rid) wid rs ws =
        (a :: (f.write t my (f.convert t (if ss.length = 1 then .one ss.head! else .many ss)) wid ws).1,
          (f.write t my (f.convert t (if ss.length = 1 then .one ss.head! else .many ss)) wid ws).2) := by
  have e1 : (f.request t (.one .nil)).object.id.typ.toNat = ty := h.typ_eq
  have e2 : (f.request t (.one .nil)).object.id.inst.toNat = inst := h.inst_eq
  obtain ⟨ss, out, hss, _, hprops, hans⟩ := readAnswer_out fuel rid 12 (f.request t (.one .nil)).object.id
    ⟨f.prop t, f.index, .one .nil, UInt8.ofNat f.priority⟩ vs (h.valid (.one .nil)).1 hvs hf
  rw [h.ref, e1, e2] at hans
  have hcall := readProperty_call fuel my f.dest (f.request t (.one .nil)) _ rid rs hmy (h.valid (.one .nil))
  rw [h.ref, e1, e2, attempts_done (r := .ok out) (by rw [hrs]) (by
    rw [hrs]
    simp only [readStep, readAck, hans, Outcome.ok_bind]
    rfl)] at hcall
  refine ⟨_, ss, carries_datagram f.dest (dest_station f) _, hss, ?_⟩
  unfold writeCommand
  rw [if_neg (by rw [hn]; decide), hcall]
  simp only [hprops, if_neg hval]
  rfl

end Bac.Props
