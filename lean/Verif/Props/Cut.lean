import Verif.Props.AppData
import Verif.Props.Points
import Verif.Props.Incoming
/-!
# Exactly which cut values are reported, what wipes out an error, which lengths and datatypes are right
-/

namespace Bac.Props

open Spec (AppVal NetHeader)

/-! ## C10 Cut values -/

/-- C10, exactly: a value cut somewhere is reported with an error iff the tag header is complete. -/
theorem C10_exact (s : Scalar) (bs p : List UInt8) (hbig : ∀ l, s = .str l → l.length + 1 < 2 ^ 32)
    (henc : Enc.new.appData (.one s) false = .ok (none, ⟨bs, none⟩)) (hp : p <+: bs) (hne : p ≠ bs) :
    (∃ x e d, Dec.appData (Dec.new p) = .ok ((x, some e), d)) ↔ C10_headerLength s ≤ p.length := by
  refine ⟨fun ⟨x, e, d, h⟩ => ?_, C10_truncated_partial s bs p hbig henc hp hne⟩
  by_contra hh
  by_cases h0 : p = []
  · subst h0
    obtain ⟨d', h'⟩ := C10_fails_empty
    rw [h'] at h
    cases h
  · by_cases hs : ∃ l, s = .str l
    · obtain ⟨l, rfl⟩ := hs
      rw [C10_fails_header l p bs (hbig l rfl) henc hp h0 (by omega)] at h
      cases h
    · have h1 : C10_headerLength s = 1 := by
        cases s <;> first | rfl | exact absurd ⟨_, rfl⟩ hs
      have := List.length_pos_iff.2 h0
      omega

/-- A real cut after its tag is reported; "hello" cut after the first octet of its tag is not. -/
example : (∃ x e d, Dec.appData (Dec.new [0x44]) = .ok ((x, some e), d)) ∧
    ¬ ∃ x e d, Dec.appData (Dec.new [0x75]) = .ok ((x, some e), d) :=
  ⟨(C10_exact (.real 0) [0x44, 0, 0, 0, 0] [0x44] nofun (by decide +kernel) ⟨[0, 0, 0, 0], rfl⟩ (by decide)).2 (by decide),
    fun ⟨x, e, d, h⟩ => by
      rw [show Dec.appData (Dec.new [0x75]) = .panic .makesliceLen by decide +kernel] at h
      cases h⟩

/-! ## C11 Errors -/

theorem decOp_keeps (op : DecOp) : KeepsInv op.run := by
  by_cases h : op = .skip 0
  · subst h
    intro d a d' _ h' hne
    cases h'
    exact absurd rfl hne
  · exact (decOp_sticky op h).2

theorem runDecOps_keeps (ops : List DecOp) : KeepsInv (runDecOps ops) := by
  induction ops with
  | nil => exact (Sticky.pure _).2
  | cons op ops ih =>
    intro d a d' hI h'
    obtain ⟨x, d1, h1, h2⟩ := D.bind_inv h'
    exact ih d1 _ d' (decOp_keeps op d x d1 hI h1) h2

/-- C11, exactly: after any operations on any input, an operation that returns wipes out a recorded
error iff it is `Skip(0)`. -/
theorem C11_exact (input : List UInt8) (ops : List DecOp) (d d' : Dec) (h1 : runDecOps ops (Dec.new input) = .ok ((), d))
    (hf : d.err ≠ none) (op : DecOp) (h2 : op.run d = .ok ((), d')) : d'.err = none ↔ op = .skip 0 := by
  have hF : d.Failed := runDecOps_keeps ops _ _ _ (by simp [Dec.new]) h1 hf
  constructor
  · intro he
    by_contra h
    exact ((decOp_sticky op h).1 _ _ _ hF h2).1 he
  · intro h
    subst h
    cases h2
    rfl

/-- After a read beyond the end `Skip(0)` wipes out the error, `Skip(1)` does not. -/
example : ∃ d d1 d2, runDecOps [.u16] (Dec.new [1]) = .ok ((), d) ∧ d.err ≠ none ∧
    (DecOp.skip 0).run d = .ok ((), d1) ∧ d1.err = none ∧ (DecOp.skip 1).run d = .ok ((), d2) ∧ d2.err ≠ none :=
  ⟨_, _, _, rfl, by decide, rfl, rfl, rfl, by decide⟩

/-! ## C75 The address of an announced device -/

/-- C75, exactly: of a device that announces itself in a datagram (with the address the link gives
it: no length, no hardware address) the length recorded is that of the hardware address recorded iff
no hardware address was given. -/
theorem C75_exact (src : Address) (hsrc : src.len = 0 ∧ src.adr = []) (pending : UInt8 → Bool) (h : NetHeader) (hok : h.Ok)
    (f : UInt8) (hf : f = 10 ∨ f = 11) (i : IAm) (hi : C04_Valid i.id) :
    ∃ a, handleMsg src pending (Spec.frame f (h.octets ++ Spec.iAm i.id.typ.toNat i.id.inst.toNat
        i.maxApdu.toNat i.segmentation.toNat i.vendor.toNat)) =
      ([.publish i.id.inst.toNat (.iam { i with addr := a })], .ok ()) ∧
      (a.len.toNat = a.adr.length ↔ ∀ s, h.src = some s → s.adr = []) := by
  refine ⟨_, C75_direct src pending h hok f hf i hi, ?_⟩
  unfold C75_address
  cases hs : h.src with
  | none => simp [hsrc.1, hsrc.2]
  | some s =>
    simp only [hsrc.1, hsrc.2, Option.some.injEq, forall_eq']
    by_cases hn : s.adr = []
    · simp [hn]
    · simp only [hn, iff_false]
      show ¬ 0 = s.adr.length
      have := List.length_pos_iff.2 hn
      omega

/-- A device with hardware address 7 on network 5 is recorded with the length 0. -/
example : (C75_address {} ⟨1, false, 0, none, 255, some ⟨5, [7]⟩, none⟩).len = 0 ∧ (C75_address {} ⟨1, false, 0, none, 255, some ⟨5, [7]⟩, none⟩).adr = [7] := ⟨rfl, rfl⟩

/-! ## C105 The datatype of a point -/

/-- The number as the standard has the present value of a point with a number: enumerated for
binary inputs, outputs and values, else unsigned. -/
def C105_Standard (typ : UInt16) (n : Nat) : AppVal := if 3 ≤ typ.toNat ∧ typ.toNat ≤ 5 then .enum n else .unsigned n

theorem unsigned_enum (n : Nat) : (AppVal.unsigned n).encoding ≠ (AppVal.enum n).encoding := by
  intro h
  have h' := congrArg (fun l => (l.headD 0).toNat) h
  simp only [AppVal.encoding, AppVal.tag, Spec.tagHeader, Spec.numNibble, List.cons_append, List.nil_append, List.headD_cons,
    Bool.false_eq_true, if_false] at h'
  have hl : ∀ n, Spec.lenBits n ≤ 5 := by intro n; unfold Spec.lenBits; split <;> omega
  have h5 := hl (AppVal.unsigned n).lenField
  have h6 := hl (AppVal.enum n).lenField
  simp only [show (2 : Nat) ≤ 14 by omega, show (9 : Nat) ≤ 14 by omega, if_true] at h'
  rw [UInt8.toNat_ofNat_of_lt' (by simp only [UInt8.size]; omega), UInt8.toNat_ofNat_of_lt' (by simp only [UInt8.size]; omega)] at h'
  omega

/-- A datagram carries one request. -/
theorem carries_unique {dev : Device} {s : Sent} {x y : List UInt8} (hx : Carries dev s x) (hy : Carries dev s y) : x = y := by
  obtain ⟨_, k, h⟩ := hx
  obtain ⟨_, k', h'⟩ := hy
  rw [h] at h'
  have e : ∀ (k : UInt8) (p : List UInt8), (Spec.frame k p).drop 4 = p := fun k p => rfl
  have := congrArg (List.drop 4) h'
  rw [e, e] at this
  exact List.append_cancel_left this

theorem writeProperty_value {invoke : UInt8} {typ inst : Nat} {r : Spec.PropRef} {v w : List UInt8} {p : Option Nat}
    (h : Spec.writeProperty invoke typ inst r v p = Spec.writeProperty invoke typ inst r w p) : v = w := by
  unfold Spec.writeProperty at h
  have h := List.append_cancel_right (List.append_cancel_right h)
  exact List.append_cancel_left h

/-- C105, exactly: a number is sent in the datatype of the present value of the point iff the point
is no binary input. -/
theorem C105_exact (d : NetDevice) (my : Address) (hmy : my.net = 0) (id : UInt8) (script : Nat → Attempt)
    (p : Point) (hp : C04_Valid ⟨p.typ, p.inst⟩) (v : UInt32) (ha : d.dev.addr.net = 0 ∨ d.dev.addr.adr.length = 1) :
    (pointWriteUint d my (some id) script p v).1 ≠ [] ∧
    ∀ s ∈ (pointWriteUint d my (some id) script p v).1, (Carries d.dev.target s
      (Spec.writeProperty id p.typ.toNat p.inst.toNat ⟨85, none⟩ (C105_Standard p.typ v.toNat).encoding
        (if p.writePriority.toNat = 0 then none else some p.writePriority.toNat)) ↔ p.typ.toNat ≠ 3) := by
  obtain ⟨h1, h2, _⟩ := C105_number_partial d my hmy id script p hp v ha
  refine ⟨h2, fun s hs => ⟨fun h h3 => ?_, fun h3 => ?_⟩⟩
  · have e := writeProperty_value (carries_unique (h1 s hs) h)
    rw [C105_Number, C105_Standard, if_neg (by omega), if_pos (by omega)] at e
    exact unsigned_enum _ e
  · have e : C105_Standard p.typ v.toNat = C105_Number p.typ v.toNat := by
      unfold C105_Standard C105_Number
      by_cases h : p.typ.toNat = 4 ∨ p.typ.toNat = 5
      · rw [if_pos h, if_pos (by omega)]
      · rw [if_neg h, if_neg (by omega)]
    rw [e]
    exact h1 s hs

/-- C105, exactly: an analogue value is sent iff the point is no binary output or value; then it is
sent as the standard has it, else the process crashes. -/
theorem C105_exact_analogue (d : NetDevice) (my : Address) (hmy : my.net = 0) (id : UInt8) (script : Nat → Attempt)
    (p : Point) (hp : C04_Valid ⟨p.typ, p.inst⟩) (bits : UInt32) (ha : d.dev.addr.net = 0 ∨ d.dev.addr.adr.length = 1) :
    ((pointWriteAnalogue d my (some id) script p bits).1 ≠ [] ↔ p.typ.toNat ≠ 4 ∧ p.typ.toNat ≠ 5) ∧
    ((pointWriteAnalogue d my (some id) script p bits).1 = [] → (pointWriteAnalogue d my (some id) script p bits).2.Panics) := by
  by_cases hb : p.typ.toNat ≠ 4 ∧ p.typ.toNat ≠ 5
  · obtain ⟨_, h2, _⟩ := C105_analogue_partial d my hmy id script p hp hb bits ha
    exact ⟨⟨fun _ => hb, fun _ => h2⟩, fun h => absurd h h2⟩
  · have hb' : p.typ = 4 ∨ p.typ = 5 := by
      rw [← UInt16.toNat_inj, ← UInt16.toNat_inj]
      show p.typ.toNat = 4 ∨ p.typ.toNat = 5
      omega
    obtain ⟨k, hk⟩ := C105_fails_binary d my hmy id script p hb' bits
    rw [hk]
    exact ⟨⟨fun h => absurd rfl h, fun h => absurd h hb⟩, fun _ => trivial⟩

/-- Binary input and binary value 1. -/
example : C105_Standard 3 1 = .enum 1 ∧ C105_Number 3 1 = .unsigned 1 ∧ C105_Standard 5 1 = C105_Number 5 1 := by
  refine ⟨rfl, rfl, rfl⟩

end Bac.Props
