import Verif.Lemmas.Failure
import Verif.Props.Primitives
/-!
# C05-C11: application values, errors, truncation
-/

namespace Bac.Props
open Bac

/-! ## C05 Application values round-trip -/

/-- The int32 values whose highest octet (in the unsigned length chosen by the
encoder) has its sign bit set although the value is positive. -/
def C05_IntGap (v : Int) : Prop := (128 ≤ v ∧ v ≤ 255) ∨ (32768 ≤ v ∧ v ≤ 65535)

instance (v : Int) : Decidable (C05_IntGap v) := by unfold C05_IntGap; infer_instance

/-- Values for which the round trip is proved: every supported Go value except
int32 in the gap, object identifiers outside the BACnet range, and strings of
4 GiB and more. `Enumerated` has its own theorem (it comes back as `uint32`). -/
def C05_Good : Scalar → Prop
  | .null | .bool _ | .uint _ | .real _ | .double _ => True
  | .int v => ¬ C05_IntGap v.toInt
  | .str s => s.length + 1 < 2 ^ 32
  | .objId id => C04_Valid id
  | _ => False

/-- What an int32 decodes to after encoding, for every int32. -/
theorem C05_int_exact (v : Int32) :
    ∃ bs w, Enc.new.appData (.one (.int v)) false = .ok (none, ⟨bs, none⟩) ∧
      Parses Dec.appData bs (.int w, none) ∧
      w.toInt = if 128 ≤ v.toInt ∧ v.toInt ≤ 255 then v.toInt - 256
        else if 32768 ≤ v.toInt ∧ v.toInt ≤ 65535 then v.toInt - 65536 else v.toInt := by
  have hu := v.toUInt32.toNat_lt
  have hv : v.toInt = (v.toUInt32.toNat : Int).bmod (2 ^ 32) := by
    have := Dec.toInt_toInt32 v.toUInt32; simpa using this
  generalize hud : v.toUInt32 = u at *
  refine ⟨Spec.tagHeader 3 false (Spec.minOctets u.toNat) ++ Spec.unsignedOctets u.toNat, ?_⟩
  suffices H : ∃ w : Int32,
      Parses (Dec.signed (Spec.minOctets u.toNat)) (Spec.unsignedOctets u.toNat) w ∧
      w.toInt = if 128 ≤ v.toInt ∧ v.toInt ≤ 255 then v.toInt - 256
        else if 32768 ≤ v.toInt ∧ v.toInt ≤ 65535 then v.toInt - 65536 else v.toInt by
    obtain ⟨w, h1, h2⟩ := H
    refine ⟨w, ?_, ?_, h2⟩
    · rw [Enc.appData_int, hud]; simp [Enc.new, Enc.write]
    · rw [← Enc.ofNat_minOctets_toNat]
      refine Dec.parses_appData_of (num := 3) ?_
      rw [Enc.ofNat_minOctets_toNat]
      exact Dec.Parses.withError (f := .int) h1
  unfold Spec.unsignedOctets Spec.minOctets
  have hvv : v.toInt = if u.toNat < 2 ^ 31 then (u.toNat : Int) else (u.toNat : Int) - 2 ^ 32 := by
    rw [hv, Int.bmod_def]; split_ifs <;> omega
  have hcases : u.toNat < 256 ∨ (¬ u.toNat < 256 ∧ u.toNat < 256 ^ 2) ∨
      (¬ u.toNat < 256 ∧ ¬ u.toNat < 256 ^ 2 ∧ u.toNat < 256 ^ 3) ∨
      (¬ u.toNat < 256 ∧ ¬ u.toNat < 256 ^ 2 ∧ ¬ u.toNat < 256 ^ 3) := by omega
  rcases hcases with a | ⟨a, b⟩ | ⟨a, b, c⟩ | ⟨a, b, c⟩
  · rw [if_pos a]
    refine ⟨_, Dec.parses_signed1 _, ?_⟩
    rw [Int8.toInt_toInt32, Dec.toInt_toInt8]
    simp only [UInt8.toNat_ofNat', hvv]
    rw [Int.bmod_def]
    split_ifs <;> omega
  · rw [if_neg a, if_pos b]
    refine ⟨_, Dec.parses_signed2 _ _, ?_⟩
    rw [Int16.toInt_toInt32, Dec.toInt_toInt16, rd16_toNat]
    simp only [UInt8.toNat_ofNat', hvv]
    rw [Int.bmod_def]
    split_ifs <;> omega
  · rw [if_neg a, if_neg b, if_pos c]
    refine ⟨_, Dec.parses_signed24 _ _ _, ?_⟩
    rw [Dec.toInt_toInt32, rd32_toNat]
    simp only [UInt8.toNat_ofNat', hvv]
    rw [Int.bmod_def, show (0 : UInt8).toNat = 0 from rfl]
    split_ifs <;> omega
  · rw [if_neg a, if_neg b, if_neg c]
    refine ⟨_, Dec.parses_signed4 _ _ _ _, ?_⟩
    rw [Dec.toInt_toInt32, rd32_toNat]
    simp only [UInt8.toNat_ofNat', hvv]
    rw [Int.bmod_def]
    split_ifs <;> omega

/-- C05, the claim as stated fails: an int32 of 200 comes back as -56. -/
theorem C05_fails_int : ∃ v : Int32, ∃ bs w,
    Enc.new.appData (.one (.int v)) false = .ok (none, ⟨bs, none⟩) ∧
    Dec.appData (Dec.new bs) = .ok ((.int w, none), ⟨[], some 200, none⟩) ∧ w ≠ v :=
  ⟨200, [0x31, 200], -56, by decide +kernel, by decide +kernel, by decide +kernel⟩

/-- C05 for all values outside the gaps listed in `C05_Good`: the value comes
back, without error, and exactly the encoded octets are consumed. -/
theorem C05_roundtrip_partial (s : Scalar) (h : C05_Good s) :
    ∃ bs, Enc.new.appData (.one s) false = .ok (none, ⟨bs, none⟩) ∧
      Parses Dec.appData bs (s, none) := by
  have mk : ∀ bs, (Enc.new.write bs) = ⟨bs, none⟩ := fun bs => by simp [Enc.new, Enc.write]
  cases s <;> simp only [C05_Good] at h
  case null => exact ⟨_, by rw [Enc.appData_null, mk], Dec.parses_null⟩
  case bool b => exact ⟨_, by rw [Enc.appData_bool, mk], Dec.parses_bool b⟩
  case uint v => exact ⟨_, by rw [Enc.appData_uint, mk], Dec.parses_uint v⟩
  case real b => exact ⟨_, by rw [Enc.appData_real, mk], Dec.parses_real b⟩
  case double b =>
    exact ⟨_, by rw [Enc.appData_double, mk]; rfl, Dec.parses_double 4 b⟩
  case str l => exact ⟨_, by rw [Enc.appData_str _ _ h, mk], Dec.parses_str l h⟩
  case int v =>
    obtain ⟨bs, w, h1, h2, h3⟩ := C05_int_exact v
    refine ⟨bs, h1, ?_⟩
    have : w = v := by
      apply Int32.toInt_inj.mp
      rw [h3]
      unfold C05_IntGap at h
      push Not at h
      split_ifs <;> omega
    rwa [this] at h2
  case objId id =>
    refine ⟨_, by rw [Enc.appData_objId, mk], ?_⟩
    have := Dec.parses_objId (id.typ.toNat % 2 ^ 10) (id.inst.toNat % 2 ^ 22)
      (Nat.mod_lt _ (by norm_num)) (Nat.mod_lt _ (by norm_num))
    rw [Nat.mod_eq_of_lt h.1, Nat.mod_eq_of_lt h.2]
    rwa [Nat.mod_eq_of_lt h.1, Nat.mod_eq_of_lt h.2,
      show (⟨UInt16.ofNat id.typ.toNat, UInt32.ofNat id.inst.toNat⟩ : ObjectID) = id by
        rcases id with ⟨t, i⟩; simp] at this

/-- C05: an int32 comes back unchanged exactly when it is outside the gap. -/
theorem C05_int_iff (v : Int32) :
    (∃ bs, Enc.new.appData (.one (.int v)) false = .ok (none, ⟨bs, none⟩) ∧
      Parses Dec.appData bs (.int v, none)) ↔ ¬ C05_IntGap v.toInt := by
  refine ⟨fun ⟨bs, h1, h2⟩ hg => ?_, fun h => C05_roundtrip_partial (.int v) h⟩
  obtain ⟨bs', w, g1, g2, g3⟩ := C05_int_exact v
  have hb : bs = bs' := by rw [h1] at g1; simpa using g1
  subst hb
  have := (h2 none []).symm.trans (g2 none [])
  simp only [Outcome.ok.injEq, Prod.mk.injEq, Scalar.int.injEq, and_true] at this
  rw [← this] at g3
  unfold C05_IntGap at hg
  split_ifs at g3 <;> omega

/-- C05 for `Enumerated`: the number comes back (as a `uint32`). -/
theorem C05_enumerated (v : UInt32) :
    ∃ bs, Enc.new.appData (.one (.enum v)) false = .ok (none, ⟨bs, none⟩) ∧
      Parses Dec.appData bs (.uint v, none) :=
  ⟨_, by rw [Enc.appData_enum]; simp [Enc.new, Enc.write], Dec.parses_enum v⟩

/-- Hypotheses met: a negative integer, a string, a device identifier. -/
example : C05_Good (.int (-5)) ∧ C05_Good (.str [104, 105]) ∧ C05_Good (.objId ⟨8, 1234⟩) := by
  refine ⟨?_, ?_, ?_, ?_⟩
  · show ¬ C05_IntGap _; decide
  · show 2 + 1 < 2 ^ 32; decide
  all_goals decide

/-! ## C06 Announced length equals content length -/

/-- C06 fails for every float64: the header announces four octets, eight follow. -/
theorem C06_fails_double (b : UInt64) :
    ∃ bs content, Enc.new.appData (.one (.double b)) false = .ok (none, ⟨bs, none⟩) ∧
      bs = Spec.tagHeader 5 false 4 ++ content ∧ content.length = 8 :=
  ⟨_, Spec.bigEndian 8 b.toNat, by rw [Enc.appData_double]; simp [Enc.new, Enc.write], rfl,
    length_bigEndian _ _⟩

/-- C06 for every other accepted type but bool: header announcing `n`, then `n` octets.
Missing from the full claim: float64 (see `C06_fails_double`), strings of 4 GiB. -/
theorem C06_length_partial (s : Scalar)
    (h : match s with
      | .null | .uint _ | .int _ | .real _ | .enum _ | .objId _ => True
      | .str l => l.length + 1 < 2 ^ 32
      | _ => False) :
    ∃ bs tag content, Enc.new.appData (.one s) false = .ok (none, ⟨bs, none⟩) ∧
      bs = Spec.tagHeader tag false content.length ++ content ∧ tag ≤ 12 := by
  have mk : ∀ bs, (Enc.new.write bs) = ⟨bs, none⟩ := fun bs => by simp [Enc.new, Enc.write]
  cases s <;> simp only at h
  case null => exact ⟨_, 0, [], by rw [Enc.appData_null, mk]; rfl, rfl, by decide⟩
  case uint v => exact ⟨_, 2, _, by rw [Enc.appData_uint, mk]; rfl, rfl, by decide⟩
  case enum v => exact ⟨_, 9, _, by rw [Enc.appData_enum, mk]; rfl, rfl, by decide⟩
  case real v => exact ⟨_, 4, _, by rw [Enc.appData_real, mk]; rfl, rfl, by decide⟩
  case objId v => exact ⟨_, 12, _, by rw [Enc.appData_objId, mk]; rfl, rfl, by decide⟩
  case str l => exact ⟨_, 7, _, by rw [Enc.appData_str _ _ h, mk]; rfl, rfl, by decide⟩
  case int v =>
    refine ⟨_, 3, Spec.unsignedOctets v.toUInt32.toNat, by rw [Enc.appData_int, mk], ?_,
      by decide⟩
    rw [show (Spec.unsignedOctets v.toUInt32.toNat).length = Spec.minOctets v.toUInt32.toNat from
      length_bigEndian _ _]

/-- C06 for bool: no contents, the value is in the length field (clause 20.2.3). -/
theorem C06_bool (b : Bool) :
    Enc.new.appData (.one (.bool b)) false
      = .ok (none, ⟨Spec.tagHeader 1 false (if b then 1 else 0), none⟩) := by
  rw [Enc.appData_bool]; cases b <;> rfl

example : Enc.new.appData (.one (.str [104, 105])) false
    = .ok (none, ⟨[0x73, 0, 104, 105], none⟩) := by decide +kernel

/-! ## C05/C06 against the standard: the octets are the prescribed ones -/

/-- The encoder's octets are exactly those of the standard for every supported
value of kind null, bool, uint32, float32, Enumerated, string, valid ObjectID. -/
theorem C06_conforming_encoding (s : Scalar) (v : Spec.AppVal) (hm : Spec.Means s v) (hw : v.WF)
    (hk : match v with
      | .null | .bool _ | .unsigned _ | .real _ | .chars _ | .objId .. => True
      | .enum _ => ∃ x, s = .enum x
      | _ => False) :
    Enc.new.appData (.one s) false = .ok (none, ⟨v.encoding, none⟩) := by
  have mk : ∀ bs, (Enc.new.write bs) = ⟨bs, none⟩ := fun bs => by simp [Enc.new, Enc.write]
  cases v <;> simp only [Spec.Means, Spec.AppVal.WF] at hm hw hk
  case null => subst hm; rw [Enc.appData_null, mk]
  case bool b => subst hm; rw [Enc.appData_bool, mk]
  case unsigned n => obtain ⟨x, rfl, rfl⟩ := hm; rw [Enc.appData_uint, mk]
  case real b => subst hm; rw [Enc.appData_real, mk]
  case chars l => subst hm; rw [Enc.appData_str _ _ hw, mk]
  case enum n =>
    obtain ⟨y, rfl⟩ := hk
    obtain ⟨x, h, rfl⟩ := hm
    rcases h with h | h
    · cases h
    · cases h; rw [Enc.appData_enum, mk]
  case objId t i =>
    obtain ⟨id, rfl, rfl, rfl⟩ := hm
    rw [Enc.appData_objId, mk, Nat.mod_eq_of_lt hw.1, Nat.mod_eq_of_lt hw.2]

example : Spec.Means (.uint 70000) (.unsigned 70000) ∧ (Spec.AppVal.unsigned 70000).WF :=
  ⟨⟨70000, rfl, rfl⟩, by show 70000 < 2 ^ 32; decide⟩

/-! ## C07 Unsupported values are refused, errors are sticky -/

/-- The operations of the encoder. -/
inductive EncOp where
  | write (bs : List UInt8)
  | tag (t : TagInfo)
  | opening (n : UInt8)
  | closing (n : UInt8)
  | objectId (id : ObjectID)
  | contextObjectID (n : UInt8) (id : ObjectID)
  | unsigned (v : UInt32)
  | contextUnsigned (n : UInt8) (v : UInt32)
  | string (s : List UInt8)
  | date (d : Date)
  | time (t : Time)
  | appData (v : Value) (binary : Bool)

/-- Running one operation (the error returned by `AppData` is dropped). -/
def EncOp.run : EncOp → Enc → Outcome Enc
  | .write bs, e => .ok (e.write bs)
  | .tag t, e => .ok (e.tag t)
  | .opening n, e => .ok (e.openingTag n)
  | .closing n, e => .ok (e.closingTag n)
  | .objectId id, e => .ok (e.objectId id)
  | .contextObjectID n id, e => .ok (e.contextObjectID n id)
  | .unsigned v, e => .ok (e.unsigned v)
  | .contextUnsigned n v, e => .ok (e.contextUnsigned n v)
  | .string s, e => .ok (e.string s)
  | .date d, e => .ok (e.date d)
  | .time t, e => .ok (e.time t)
  | .appData v b, e => (e.appData v b).bind fun r => .ok r.2

/-- Running a sequence of operations. -/
def runEncOps : List EncOp → Enc → Outcome Enc
  | [], e => .ok e
  | op :: ops, e => (op.run e).bind fun e' => runEncOps ops e'

/-- The Go values `AppData` accepts. -/
def C07_Accepted : Value → Prop
  | .one (.null) | .one (.bool _) | .one (.uint _) | .one (.int _) | .one (.real _)
  | .one (.double _) | .one (.str _) | .one (.enum _) | .one (.objId _) => True
  | _ => False

/-- C07 (refused).  A value of any other kind (including `nil` and lists) is
refused: an error is returned, recorded, and nothing is written. -/
theorem C07_refused (e : Enc) (v : Value) (h : ¬ C07_Accepted v) :
    ∃ err, e.appData v false = .ok (some err, { e with err := some err }) := by
  cases v with
  | many l => exact ⟨_, rfl⟩
  | one s =>
    cases s <;> simp only [C07_Accepted, not_true_eq_false] at h
    all_goals exact ⟨_, rfl⟩

theorem enc_write_of_err (e : Enc) (bs : List UInt8) (h : e.err ≠ none) : e.write bs = e := by
  rcases e with ⟨b, err⟩
  cases err with
  | none => exact absurd rfl h
  | some x => rfl

/-- One step of C07. -/
theorem encOp_sticky (op : EncOp) (e e' : Enc) (h : e.err ≠ none) (hr : op.run e = .ok e') :
    e'.err ≠ none ∧ e'.buf = e.buf := by
  have hw := fun bs => enc_write_of_err e bs h
  have htag : ∀ t, e.tag t = e := by
    intro t
    unfold Enc.tag
    simp only [hw, ite_self]
  have hfin : ∀ v, e.unsigned v = e := by
    intro v
    unfold Enc.unsigned Enc.unsigned24
    simp only [hw, ite_self]
  have hob : ∀ v, e.objectId v = e := by intro v; unfold Enc.objectId; rw [hw]
  have hstr : ∀ v, e.string v = e := by intro v; unfold Enc.string; rw [hw, hw]
  have hbool : ∀ b, e.boolean b = e := fun b => htag _
  cases op <;> simp only [EncOp.run, Outcome.ok.injEq] at hr
  case write bs => rw [hw] at hr; subst hr; exact ⟨h, rfl⟩
  case tag t => rw [htag] at hr; subst hr; exact ⟨h, rfl⟩
  case opening n =>
    unfold Enc.openingTag Enc.tagNum at hr
    simp only [hw, ite_self] at hr; subst hr; exact ⟨h, rfl⟩
  case closing n =>
    unfold Enc.closingTag Enc.tagNum at hr
    simp only [hw, ite_self] at hr; subst hr; exact ⟨h, rfl⟩
  case objectId id => rw [hob] at hr; subst hr; exact ⟨h, rfl⟩
  case contextObjectID n id =>
    unfold Enc.contextObjectID at hr
    rw [htag, hob] at hr; subst hr; exact ⟨h, rfl⟩
  case unsigned v => rw [hfin] at hr; subst hr; exact ⟨h, rfl⟩
  case contextUnsigned n v =>
    unfold Enc.contextUnsigned at hr
    rw [htag, hfin] at hr; subst hr; exact ⟨h, rfl⟩
  case string s => rw [hstr] at hr; subst hr; exact ⟨h, rfl⟩
  case date d =>
    unfold Enc.date at hr
    simp only [hw, ite_self] at hr; subst hr; exact ⟨h, rfl⟩
  case time t =>
    unfold Enc.time at hr
    simp only [hw] at hr; subst hr; exact ⟨h, rfl⟩
  case appData v b =>
    obtain ⟨⟨r, e2⟩, h1, h2⟩ := ok_bind_inv hr
    simp only [Outcome.ok.injEq] at h2
    subst h2
    unfold Enc.appData at h1
    simp only [Enc.enumerated, htag, hfin, hob, hstr, hbool, hw] at h1
    split at h1
    · cases h1; exact ⟨h, rfl⟩
    · split at h1
      · split at h1
        · cases h1; exact ⟨h, rfl⟩
        · cases h1
      · split at h1
        all_goals first
          | (cases h1; exact ⟨h, rfl⟩)
          | (unfold Enc.fail at h1; cases h1; exact ⟨by simp, rfl⟩)

/-- C07 (sticky).  Once an error is recorded, every later sequence of encoder
operations that returns leaves the bytes unchanged and an error recorded. -/
theorem C07_error_sticky (ops : List EncOp) (e e' : Enc) (h : e.err ≠ none)
    (hr : runEncOps ops e = .ok e') : e'.err ≠ none ∧ e'.buf = e.buf := by
  induction ops generalizing e with
  | nil => cases hr; exact ⟨h, rfl⟩
  | cons op ops ih =>
    obtain ⟨e1, h1, h2⟩ := ok_bind_inv hr
    obtain ⟨a, b⟩ := encOp_sticky op e e1 h h1
    obtain ⟨c, d⟩ := ih e1 a h2
    exact ⟨c, d.trans b⟩

/-- C07 (both together): refusing a value, then anything. -/
theorem C07_unsupported_then_anything (e : Enc) (v : Value) (hv : ¬ C07_Accepted v)
    (ops : List EncOp) (e' : Enc) (hr : runEncOps (.appData v false :: ops) e = .ok e') :
    e'.err ≠ none ∧ e'.buf = e.buf := by
  obtain ⟨err, h⟩ := C07_refused e v hv
  obtain ⟨e1, h1, h2⟩ := ok_bind_inv hr
  simp only [EncOp.run, h, Outcome.bind, Outcome.ok.injEq] at h1
  subst h1
  exact C07_error_sticky ops { e with err := some err } _ (by simp) h2

/-- A `nil` value between two writes: the second write is suppressed. -/
example : ¬ C07_Accepted (.one .nil) ∧
    runEncOps [.write [1], .appData (.one .nil) false, .write [2], .appData (.one (.bool true)) false]
      Enc.new = .ok ⟨[1], some .unknownType⟩ := by
  exact ⟨id, by decide +kernel⟩

/-! ## C08 Signed integers are two's complement -/

/-- C08 fails for three octets: `FF FF FE` (-2) is decoded as 16777214. -/
theorem C08_fails_three : ∃ bs : List UInt8, ∃ x : Int32, bs.length = 3 ∧
    Dec.signed 3 (Dec.new bs) = .ok (x, ⟨[], some 254, none⟩) ∧ x.toInt ≠ Spec.signedValue bs :=
  ⟨[255, 255, 254], 16777214, rfl, by decide +kernel, by decide +kernel⟩

/-- C08 for 1, 2 and 4 octets, every content: the two's complement value. -/
theorem C08_signed_partial (bs : List UInt8)
    (h : bs.length = 1 ∨ bs.length = 2 ∨ bs.length = 4) :
    ∃ x : Int32, Parses (Dec.signed bs.length) bs x ∧ x.toInt = Spec.signedValue bs := by
  rcases h with h | h | h
  · match bs, h with
    | [a], _ =>
      refine ⟨_, Dec.parses_signed1 a, ?_⟩
      have := a.toNat_lt
      rw [Int8.toInt_toInt32, Dec.toInt_toInt8, Int.bmod_def]
      simp only [Spec.signedValue, Spec.value, List.foldl, List.length]
      split_ifs <;> omega
  · match bs, h with
    | [a, b], _ =>
      refine ⟨_, Dec.parses_signed2 a b, ?_⟩
      have := a.toNat_lt; have := b.toNat_lt
      rw [Int16.toInt_toInt32, Dec.toInt_toInt16, Int.bmod_def, rd16_toNat]
      simp only [Spec.signedValue, Spec.value, List.foldl, List.length]
      split_ifs <;> omega
  · match bs, h with
    | [a, b, c, d], _ =>
      refine ⟨_, Dec.parses_signed4 a b c d, ?_⟩
      have := a.toNat_lt; have := b.toNat_lt; have := c.toNat_lt; have := d.toNat_lt
      rw [Dec.toInt_toInt32, Int.bmod_def, rd32_toNat]
      simp only [Spec.signedValue, Spec.value, List.foldl, List.length]
      split_ifs <;> omega

/-- C08 for three octets, exactly: the octets are read as a non-negative number,
hence correctly iff the sign bit is clear. -/
theorem C08_signed_three_exact (a b c : UInt8) :
    ∃ x : Int32, Parses (Dec.signed 3) [a, b, c] x ∧ x.toInt = Spec.value [a, b, c] ∧
      (x.toInt = Spec.signedValue [a, b, c] ↔ a.toNat < 128) := by
  refine ⟨_, Dec.parses_signed24 a b c, ?_⟩
  have := a.toNat_lt; have := b.toNat_lt; have := c.toNat_lt
  rw [Dec.toInt_toInt32, Int.bmod_def, rd32_toNat, show (0 : UInt8).toNat = 0 from rfl]
  simp only [Spec.signedValue, Spec.value, List.foldl, List.length]
  constructor
  · split_ifs <;> omega
  · constructor <;> intro h <;> split_ifs at * <;> omega

example : Spec.signedValue [0xFF, 0x38] = -200 ∧ Spec.signedValue [0x80] = -128 := by
  decide +kernel

/-! ## C09 Decoding an application value never crashes the process -/

/-- C09, the claim as stated fails: three byte strings that crash the decoder.
`70 00` is a character string of announced length 0, `75` a cut-off header, and
`B2 01 02` a Time of two octets. -/
theorem C09_fails_crash :
    (Dec.appData (Dec.new [0x70, 0x00])).Panics ∧ (Dec.appData (Dec.new [0x75])).Panics ∧
    (Dec.appData (Dec.new [0xB2, 0x01, 0x02])).Panics := by decide +kernel

/-- When the decoder crashes, in terms of the tag read, the announced length and
the state after the header: a character string of length 0 whose character-set
octet is 0 or 4 or missing, or a Time of length 1..3 with at least one octet left. -/
def C09_Crash (tag : UInt8) (len : Nat) (d : Dec) : Prop :=
  (tag = 7 ∧ len = 0 ∧
    (d.err ≠ none ∨ d.buf = [] ∨ d.buf.head? = some 0 ∨ d.buf.head? = some 4)) ∨
  (tag = 11 ∧ 1 ≤ len ∧ len ≤ 3 ∧ d.buf ≠ [])

theorem string_run (n : Int) (d d1 : Dec) (t : UInt8) (h : Dec.u8 d = .ok (t, d1)) :
    Dec.string n d = if t = 0 ∨ t = 4 then
        (if n < 0 then .panic .makesliceLen
         else (Dec.bytes n.toNat d1).bind fun p =>
           .ok ((if t = 4 then Dec.decodeUCS2 p.1 else p.1, p.2.err), p.2))
      else .ok (([], some (.badCharset t)), d1) := by
  unfold Dec.string
  rw [D.bind_apply, h]
  simp only [Outcome.bind]
  by_cases ht : t = 0 ∨ t = 4
  · rw [if_pos ht, if_pos ht]
    by_cases hn : n < 0
    · rw [if_pos hn, if_pos hn]; rfl
    · rw [if_neg hn, if_neg hn]; rfl
  · rw [if_neg ht, if_neg ht]; rfl

theorem string_neg_panics (d : Dec) :
    (Dec.string (-1) d).Panics ↔
      (d.err ≠ none ∨ d.buf = [] ∨ d.buf.head? = some 0 ∨ d.buf.head? = some 4) := by
  rcases d with ⟨buf, prev, err⟩
  cases err with
  | some x => rw [string_run (-1) _ _ 0 rfl]; simp
  | none =>
    cases buf with
    | nil => rw [string_run (-1) _ _ 0 rfl]; simp
    | cons b rest =>
      rw [string_run (-1) ⟨b :: rest, prev, none⟩ ⟨rest, some b, none⟩ b (by rfl)]
      by_cases hb : b = 0 ∨ b = 4
      · simp [hb]
      · simp [hb]

theorem string_nonneg_returns (n : Nat) : Total (Dec.string (n : Int)) := by
  unfold Dec.string
  refine Dec.u8_all.1.bind fun t => Total.ite ?_ (Total.pure _)
  simp only [show ¬ ((n : Int) < 0) by omega, if_false]
  exact (Dec.bytes_all _).1.bind fun _ => Dec.error_all.1.bind fun _ => Total.pure _

theorem rawRead_length (n : Nat) (d d' : Dec) (l : List UInt8)
    (h : Dec.rawRead n d = .ok (l, d')) : l.length = n := by
  unfold Dec.rawRead at h
  split_ifs at h with h0 h1
  · cases h; simp [h0]
  · cases h; simp
  · cases h; simp; omega

theorem rawRead_err (n : Nat) (d d' : Dec) (l : List UInt8) (hn : n ≠ 0)
    (h : Dec.rawRead n d = .ok (l, d')) : d'.err = none ↔ d.buf ≠ [] := by
  unfold Dec.rawRead at h
  simp only [hn, if_false] at h
  split_ifs at h with h1
  · cases h; simp [h1]
  · cases h; simp [h1]

theorem time_panics (t : Time) (n : Nat) (d : Dec) :
    (Dec.time t n d).Panics ↔ (1 ≤ n ∧ n ≤ 3 ∧ d.buf ≠ []) := by
  unfold Dec.time
  by_cases hn : n = 0
  · simp [hn, D.pure_apply]
  simp only [hn, if_false]
  obtain ⟨l, d1, h⟩ := Dec.total_rawRead n d
  have hl := rawRead_length n d d1 l h
  have he := rawRead_err n d d1 l hn h
  rw [D.bind_apply, h]
  simp only [Outcome.bind, D.bind_apply, Dec.error]
  by_cases hb : d.buf = []
  · have : d1.err ≠ none := fun hc => he.mp hc hb
    have : d1.err.isSome = true := by cases h' : d1.err <;> simp_all
    simp [this, D.pure_apply, hb]
  · have h0 : d1.err = none := he.mpr hb
    simp only [h0, Option.isSome_none, Bool.false_eq_true, if_false]
    match l, hl with
    | [], hl => simp at hl; omega
    | [a], hl => simp at hl; subst hl; simp [D.panic, hb]
    | [a, b], hl => simp at hl; subst hl; simp [D.panic, hb]
    | [a, b, c], hl => simp at hl; subst hl; simp [D.panic, hb]
    | a :: b :: c :: e :: r, hl => simp at hl; simp [D.pure_apply]; omega

/-- C09, exactly: for every tag, every announced length and every decoder state
the value decoder crashes iff `C09_Crash` holds, and otherwise returns. -/
theorem C09_crash_iff (tag : UInt8) (len : Nat) (d : Dec) :
    ((Dec.appDataOfTag tag len d).Panics ↔ C09_Crash tag len d) ∧
    (¬ C09_Crash tag len d → (Dec.appDataOfTag tag len d).Returns) := by
  by_cases h7 : tag = 7
  · subst h7
    have hrun : Dec.appDataOfTag 7 len d
        = (Dec.string ((len : Int) - 1) d).bind fun p => .ok ((.str p.1.1, p.1.2), p.2) := rfl
    rw [hrun]
    by_cases hl : len = 0
    · subst hl
      have hs := string_neg_panics d
      norm_num
      have hsplit : (Dec.string (-1) d).Panics ∨ (Dec.string (-1) d).Returns := by
        obtain ⟨t, d1, ht⟩ := Dec.u8_all.1 d
        rw [string_run _ _ _ _ ht]
        by_cases h : t = 0 ∨ t = 4
        · left; simp [h]
        · right; simp [h]
      have hc : C09_Crash 7 0 d ↔ (Dec.string (-1) d).Panics := by
        rw [hs]; unfold C09_Crash; simp
      rw [hc]
      cases hx : Dec.string (-1) d with
      | ok r => simp [Outcome.bind]
      | panic k => simp [Outcome.bind]
      | diverge => rw [hx] at hsplit; simp at hsplit
    · obtain ⟨n, rfl⟩ : ∃ n, len = n + 1 := ⟨len - 1, by omega⟩
      obtain ⟨r, d1, h⟩ := string_nonneg_returns n d
      have e : ((n + 1 : Nat) : Int) - 1 = (n : Int) := by omega
      rw [e, h]
      simp [Outcome.bind, C09_Crash]
  · by_cases h11 : tag = 11
    · subst h11
      have ht := time_panics {} len d
      have hrun : Dec.appDataOfTag 11 len d
          = (Dec.time {} len d).bind fun p => .ok ((.time p.1, p.2.err), p.2) := rfl
      rw [hrun]
      have hc : C09_Crash 11 len d ↔ (Dec.time {} len d).Panics := by
        rw [ht]; unfold C09_Crash; simp
      rw [hc]
      have hsplit : (Dec.time {} len d).Panics ∨ (Dec.time {} len d).Returns := by
        unfold Dec.time
        split_ifs
        · right; simp [D.pure_apply]
        · obtain ⟨l, d1, h⟩ := Dec.total_rawRead len d
          rw [D.bind_apply, h]
          simp only [Outcome.bind, D.bind_apply, Dec.error]
          split_ifs
          · right; simp [D.pure_apply]
          · split
            · right; simp [D.pure_apply]
            · left; simp [D.panic]
      cases hx : Dec.time {} len d with
      | ok r => simp [Outcome.bind]
      | panic k => simp [Outcome.bind]
      | diverge => rw [hx] at hsplit; simp at hsplit
    · obtain ⟨a, d1, h⟩ := Dec.appDataOfTag_total tag len h7 h11 d
      rw [h]
      simp [C09_Crash, h7, h11]

/-- C09 for whole byte strings: `AppData` on `b` crashes iff the header of `b`
leads to `C09_Crash`; otherwise it returns.  The part of the claim that is
missing is exactly `C09_Crash`. -/
theorem C09_no_crash_partial (b : List UInt8) :
    ∃ tag meta_ v d, Dec.tagNumberAndValue (Dec.new b) = .ok ((tag, meta_, v), d) ∧
      ((Dec.appData (Dec.new b)).Panics ↔ C09_Crash tag v.toNat d) ∧
      (¬ C09_Crash tag v.toNat d → (Dec.appData (Dec.new b)).Returns) := by
  obtain ⟨⟨tag, meta_, v⟩, d, h⟩ := Dec.tagNumberAndValue_total.1 (Dec.new b)
  refine ⟨tag, meta_, v, d, h, ?_⟩
  have : Dec.appData (Dec.new b) = Dec.appDataOfTag tag v.toNat d := by
    unfold Dec.appData; rw [D.bind_apply, h]; rfl
  rw [this]
  exact C09_crash_iff tag v.toNat d

/-- Non-vacuous: arbitrary garbage that does not crash. -/
example : (Dec.appData (Dec.new [0xFF, 3, 9])).Returns ∧ (Dec.appData (Dec.new [0x82])).Returns := by
  decide +kernel

/-! ## C10 Truncated application values are reported -/

/-- C10 fails for the empty prefix: no input at all is decoded to Null with a nil error. -/
theorem C10_fails_empty :
    ∃ d, Dec.appData (Dec.new []) = .ok ((.null, none), d) := ⟨_, rfl⟩

/-- Octets of the tag header written for a value. -/
def C10_headerLength : Scalar → Nat
  | .str l => (Spec.tagHeader 7 false (l.length + 1)).length
  | _ => 1

theorem appData_short {num : UInt8} {v : UInt32} {q : List UInt8} {n : Nat}
    (hq : q.length < n)
    (h : ∀ d : Dec, d.err = none → d.buf.length < n →
      ∃ x e d', Dec.appDataOfTag num v.toNat d = .ok ((x, some e), d')) :
    ∃ x e d, Dec.appData (Dec.new (Spec.tagHeader num.toNat false v.toNat ++ q))
      = .ok ((x, some e), d) := by
  have := Dec.parses_tagHeader num false v none q
  obtain ⟨x, e, d, hx⟩ := h ⟨q, lastOr none (Spec.tagHeader num.toNat false v.toNat), none⟩ rfl hq
  refine ⟨x, e, d, ?_⟩
  unfold Dec.appData Dec.new
  rw [D.bind_apply, this]
  exact hx

theorem withError_short {α : Type} {m : D α} {n : Nat} {f : α → Scalar} (hf : FailsBelow m n)
    (d : Dec) (he : d.err = none) (hl : d.buf.length < n) :
    ∃ x e d', (m >>= fun v => Dec.error >>= fun e => (pure (f v, e) : D (Scalar × Option GoErr))) d
      = .ok ((x, some e), d') := by
  obtain ⟨a, d1, h1, h2⟩ := hf d he hl
  cases hd : d1.err with
  | none => exact absurd hd h2.1
  | some e =>
    refine ⟨f a, e, d1, ?_⟩
    rw [D.bind_apply, h1]
    simp only [Outcome.bind, D.bind_apply, Dec.error, hd]
    rfl

theorem split_prefix {p h c : List UInt8} (hp : p <+: h ++ c) (hl : h.length ≤ p.length)
    (hne : p ≠ h ++ c) : ∃ q, p = h ++ q ∧ q.length < c.length := by
  obtain ⟨t, ht⟩ := hp
  have h1 : h <+: p := List.prefix_of_prefix_length_le (List.prefix_append h c) ⟨t, ht⟩ hl
  obtain ⟨q, rfl⟩ := h1
  refine ⟨q, rfl, ?_⟩
  have hlen := congrArg List.length ht
  simp only [List.length_append] at hlen
  by_contra hc
  have : t = [] := List.length_eq_zero_iff.mp (by omega)
  subst this
  simp at ht
  exact hne (by rw [ht])

/-- C10 for every supported value and every proper prefix that contains the
complete tag header: an error is reported.  Missing: prefixes that end inside
the header: the empty one and those of `C10_fails_header`. -/
theorem C10_truncated_partial (s : Scalar) (bs p : List UInt8)
    (hbig : ∀ l, s = .str l → l.length + 1 < 2 ^ 32)
    (henc : Enc.new.appData (.one s) false = .ok (none, ⟨bs, none⟩))
    (hp : p <+: bs) (hne : p ≠ bs) (hh : C10_headerLength s ≤ p.length) :
    ∃ x e d, Dec.appData (Dec.new p) = .ok ((x, some e), d) := by
  have mk : ∀ bs, (Enc.new.write bs) = ⟨bs, none⟩ := fun bs => by simp [Enc.new, Enc.write]
  have hmo : ∀ v : Nat, 1 ≤ Spec.minOctets v := fun v => by
    unfold Spec.minOctets; split_ifs <;> omega
  have hone : ∀ (num len : Nat), num ≤ 14 → len ≤ 4 →
      (Spec.tagHeader num false len).length = 1 := by
    intro num len h1 h2
    simp [Spec.tagHeader, Spec.numExt, Spec.lenExt, h1, h2]
  have hunum : ∀ (num : UInt8) (u : UInt32), num.toNat ≤ 14 →
      (∀ n, 1 ≤ n → n ≤ 4 → ∀ d : Dec, d.err = none → d.buf.length < n →
        ∃ x e d', Dec.appDataOfTag num n d = .ok ((x, some e), d')) →
      bs = Spec.tagHeader num.toNat false (Spec.minOctets u.toNat)
        ++ Spec.unsignedOctets u.toNat → 1 ≤ p.length →
      ∃ x e d, Dec.appData (Dec.new p) = .ok ((x, some e), d) := by
    intro num u hnum hfail hbs hp1
    subst hbs
    obtain ⟨q, rfl, hq⟩ := split_prefix hp (by
      rw [hone num.toNat _ hnum (minOctets_le4 _)]; exact hp1) hne
    rw [show (Spec.unsignedOctets u.toNat).length = Spec.minOctets u.toNat from
      length_bigEndian _ _] at hq
    rw [← Enc.ofNat_minOctets_toNat]
    refine appData_short hq ?_
    rw [Enc.ofNat_minOctets_toNat]
    exact hfail _ (hmo _) (minOctets_le4 _)
  cases s <;> simp only [C10_headerLength] at hh
  case null =>
    rw [Enc.appData_null, mk] at henc; cases henc
    exfalso
    have hl := hp.length_le
    exact hne (hp.eq_of_length_le (by
      rw [show Spec.AppVal.null.encoding.length = 1 from rfl] at *; omega))
  case bool b =>
    rw [Enc.appData_bool, mk] at henc; cases henc
    exfalso
    exact hne (hp.eq_of_length_le (by
      cases b
      · rw [show (Spec.AppVal.bool false).encoding.length = 1 from rfl] at *; omega
      · rw [show (Spec.AppVal.bool true).encoding.length = 1 from rfl] at *; omega))
  case uint v =>
    rw [Enc.appData_uint, mk] at henc; cases henc
    refine hunum 2 v (by decide) (fun n h1 h4 d he hl => ?_) ?_ hh
    · exact withError_short (f := .uint) (Dec.unsigned_all n h1 h4).2.2.2 d he hl
    · simp only [Spec.AppVal.encoding, Spec.AppVal.tag, Spec.AppVal.lenField, Spec.AppVal.contents]
      rw [show (Spec.unsignedOctets v.toNat).length = Spec.minOctets v.toNat from
        length_bigEndian _ _]
      rfl
  case enum v =>
    rw [Enc.appData_enum, mk] at henc; cases henc
    refine hunum 9 v (by decide) (fun n h1 h4 d he hl => ?_) ?_ hh
    · exact withError_short (f := .uint) (Dec.unsigned_all n h1 h4).2.2.2 d he hl
    · simp only [Spec.AppVal.encoding, Spec.AppVal.tag, Spec.AppVal.lenField, Spec.AppVal.contents]
      rw [show (Spec.unsignedOctets v.toNat).length = Spec.minOctets v.toNat from
        length_bigEndian _ _]
      rfl
  case int v =>
    rw [Enc.appData_int, mk] at henc; cases henc
    refine hunum 3 v.toUInt32 (by decide) (fun n h1 h4 d he hl => ?_) rfl hh
    exact withError_short (f := .int) (Dec.signed_all n h1 h4).2.2.2 d he hl
  case real b =>
    rw [Enc.appData_real, mk] at henc; cases henc
    have he : (Spec.AppVal.real b).encoding
        = Spec.tagHeader (4 : UInt8).toNat false (4 : UInt32).toNat
          ++ Spec.bigEndian 4 b.toNat := by
      simp only [Spec.AppVal.encoding, Spec.AppVal.tag, Spec.AppVal.lenField,
        Spec.AppVal.contents, length_bigEndian]; rfl
    rw [he] at hp hne
    obtain ⟨q, rfl, hq⟩ := split_prefix hp hh hne
    rw [length_bigEndian] at hq
    exact appData_short hq fun d => withError_short (f := .real) Dec.u32_all.2.2.2 d
  case double b =>
    rw [Enc.appData_double, mk] at henc; cases henc
    obtain ⟨q, rfl, hq⟩ := split_prefix hp hh hne
    rw [length_bigEndian] at hq
    exact appData_short (num := 5) (v := 4) hq
      fun d => withError_short (f := .double) Dec.u64_all.2.2.2 d
  case objId id =>
    rw [Enc.appData_objId, mk] at henc; cases henc
    have he : ∀ t i, (Spec.AppVal.objId t i).encoding
        = Spec.tagHeader (12 : UInt8).toNat false (4 : UInt32).toNat ++ Spec.objectId t i := by
      intro t i
      simp only [Spec.AppVal.encoding, Spec.AppVal.tag, Spec.AppVal.lenField,
        Spec.AppVal.contents, Spec.objectId, length_bigEndian]; rfl
    rw [he] at hp hne
    obtain ⟨q, rfl, hq⟩ := split_prefix hp hh hne
    rw [show (Spec.objectId _ _).length = 4 from length_bigEndian _ _] at hq
    exact appData_short hq fun d => withError_short (f := .objId) Dec.objectId_all.2.2.2 d
  case str l =>
    have hl := hbig l rfl
    rw [Enc.appData_str _ _ hl, mk] at henc; cases henc
    simp only [Spec.AppVal.encoding, Spec.AppVal.tag, Spec.AppVal.lenField, Spec.AppVal.contents,
      List.length_cons] at hp hne
    obtain ⟨q, rfl, hq⟩ := split_prefix hp hh hne
    have hn : (UInt32.ofNat (l.length + 1)).toNat = l.length + 1 := UInt32.toNat_ofNat_of_lt' hl
    rw [← hn]
    refine appData_short (num := 7) hq ?_
    rw [hn]
    intro d he hlen
    have e1 : ((l.length + 1 : Nat) : Int) - 1 = (l.length : Int) := by omega
    have hrun : Dec.appDataOfTag 7 (l.length + 1) d
        = (Dec.string (l.length : Int) d).bind fun p => .ok ((.str p.1.1, p.1.2), p.2) := by
      rw [← e1]; rfl
    rw [hrun]
    have hstr : ∃ s e d', Dec.string (l.length : Int) d = .ok ((s, some e), d') := by
      have hnn : ¬ ((l.length : Int) < 0) := by omega
      rcases d with ⟨buf, prev, err⟩
      simp only at he; subst he
      cases buf with
      | nil =>
        obtain ⟨b, d2, hb⟩ := (Dec.bytes_all l.length).1 ⟨[], none, some .eof⟩
        have hF := (Dec.bytes_all l.length).2.1.1 _ _ _ ⟨by simp, rfl, rfl⟩ hb
        cases hd : d2.err with
        | none => exact absurd hd hF.1
        | some e =>
          refine ⟨b, e, d2, ?_⟩
          rw [string_run _ ⟨[], prev, none⟩ ⟨[], none, some .eof⟩ 0 rfl, if_pos (Or.inl rfl),
            if_neg hnn, Int.toNat_natCast, hb]
          simp [Outcome.bind, hd]
      | cons c rest =>
        simp only [List.length_cons] at hlen
        rw [string_run _ ⟨c :: rest, prev, none⟩ ⟨rest, some c, none⟩ c (by rfl)]
        by_cases hc : c = 0 ∨ c = 4
        · obtain ⟨b, d2, hb, hF⟩ := (Dec.bytes_all l.length).2.2.2 ⟨rest, some c, none⟩ rfl
            (by simpa using hlen)
          cases hd : d2.err with
          | none => exact absurd hd hF.1
          | some e =>
            refine ⟨if c = 4 then Dec.decodeUCS2 b else b, e, d2, ?_⟩
            rw [if_pos hc, if_neg hnn, Int.toNat_natCast, hb]
            simp only [Outcome.bind, hd]
        · exact ⟨_, _, _, by rw [if_neg hc]⟩
    obtain ⟨s, e, d', hs⟩ := hstr
    exact ⟨.str s, e, d', by rw [hs]; rfl⟩
  all_goals
    exfalso
    simp [Enc.appData, Enc.fail] at henc

/-- "hi" cut after its second octet. -/
example : Enc.new.appData (.one (.str [104, 105])) false
      = .ok (none, ⟨[0x73, 0, 104, 105], none⟩) ∧ [0x73, 0] <+: [0x73, 0, 104, 105] ∧
    Dec.appData (Dec.new [0x73, 0])
      = .ok ((.str [0, 0], some .eof), ⟨[], none, some .eof⟩) := by
  refine ⟨by decide +kernel, ⟨[104, 105], rfl⟩, by decide +kernel⟩

theorem cut_value (b : UInt8) (rest : List UInt8) (h : (b = 254 ∧ rest.length < 2) ∨ (b = 255 ∧ rest.length < 4)) (prev : Option UInt8) :
    ∃ e, Dec.value 0x75 ⟨b :: rest, prev, none⟩ = .ok (0, ⟨[], none, some e⟩) := by
  have h5 : isExtendedValue 0x75 = true := by decide
  refine ⟨if rest = [] then .eof else .unexpectedEof, ?_⟩
  unfold Dec.value
  rw [if_pos h5]
  rw [D.bind_apply, show Dec.u8 ⟨b :: rest, prev, none⟩ = .ok (b, ⟨rest, some b, none⟩) from Dec.parses_u8 b prev rest]
  dsimp only [Outcome.bind]
  rcases h with ⟨rfl, h⟩ | ⟨rfl, h⟩
  · rw [if_neg (by decide), if_pos rfl, D.bind_apply]
    have : Dec.u16 ⟨rest, some 254, none⟩ = .ok (0, ⟨[], none, some (if rest = [] then .eof else .unexpectedEof)⟩) := by
      unfold Dec.u16
      rw [D.bind_apply]
      simp only [Dec.readN, if_neg (show ¬ (2 : Nat) = 0 by omega), if_neg (show ¬ 2 ≤ rest.length by omega), Outcome.bind]
      rfl
    rw [this]
    rfl
  · rw [if_pos rfl]
    unfold Dec.u32
    rw [D.bind_apply]
    simp only [Dec.readN, if_neg (show ¬ (4 : Nat) = 0 by omega), if_neg (show ¬ 4 ≤ rest.length by omega), Outcome.bind]
    rfl

theorem cut_string (b : UInt8) (rest : List UInt8) (h : (b = 254 ∧ rest.length < 2) ∨ (b = 255 ∧ rest.length < 4)) :
    Dec.appData (Dec.new (0x75 :: b :: rest)) = .panic .makesliceLen := by
  have e : Dec.tagNumber ⟨0x75 :: b :: rest, none, none⟩ = .ok ((7, 0x75), ⟨b :: rest, some 0x75, none⟩) :=
    Dec.parses_tagNumber_header 7 false 5 (by omega) none (b :: rest)
  obtain ⟨x, e2⟩ := cut_value b rest h (some 0x75)
  unfold Dec.appData Dec.new Dec.tagNumberAndValue
  simp only [D.bind_apply, e, e2, Outcome.bind]
  rfl

/-- C10 fails inside the tag header: a string of four octets or more cut there crashes the decoder. -/
theorem C10_fails_header (l p : List UInt8) (bs : List UInt8) (hbig : l.length + 1 < 2 ^ 32)
    (henc : Enc.new.appData (.one (.str l)) false = .ok (none, ⟨bs, none⟩)) (hp : p <+: bs) (h0 : p ≠ [])
    (hh : p.length < C10_headerLength (.str l)) : Dec.appData (Dec.new p) = .panic .makesliceLen := by
  have mk : ∀ bs, (Enc.new.write bs) = ⟨bs, none⟩ := fun bs => by simp [Enc.new, Enc.write]
  rw [Enc.appData_str _ _ hbig, mk] at henc; cases henc
  simp only [Spec.AppVal.encoding, Spec.AppVal.tag, Spec.AppVal.lenField, Spec.AppVal.contents, List.length_cons] at hp
  rw [C10_headerLength] at hh
  obtain ⟨q, hq⟩ : p <+: Spec.tagHeader 7 false (l.length + 1) := List.prefix_of_prefix_length_le hp (List.prefix_append _ _) (le_of_lt hh)
  have hb : ∃ b, [b] ++ Spec.lenExt (l.length + 1) = Spec.tagHeader 7 false (l.length + 1) ∧ (4 < l.length + 1 → b = 0x75) := by
    refine ⟨UInt8.ofNat (Spec.numNibble 7 * 16 + 0 + Spec.lenBits (l.length + 1)), ?_, ?_⟩
    · simp [Spec.tagHeader, Spec.numExt]
    · intro h
      have : Spec.lenBits (l.length + 1) = 5 := by unfold Spec.lenBits; rw [if_neg (by omega)]
      rw [this]; rfl
  obtain ⟨b, hb1, hb2⟩ := hb
  rw [← hb1] at hq hh
  obtain ⟨c, p', rfl⟩ := List.exists_cons_of_ne_nil h0
  rw [List.cons_append, List.singleton_append, List.cons.injEq] at hq
  rw [List.singleton_append, List.length_cons, List.length_cons] at hh
  obtain ⟨rfl, hq⟩ := hq
  unfold Spec.lenExt at hq hh
  split_ifs at hq hh with a1 a2 a3
  · simp at hh
  · have : p' = [] := List.length_eq_zero_iff.1 (by simp only [List.length_singleton] at hh; omega)
    subst this
    rw [hb2 (by omega)]
    rfl
  · rw [hb2 (by omega)]
    simp only [List.length_cons, length_bigEndian] at hh
    match p', hq, hh with
    | [], _, _ => rfl
    | x :: r, hq, hh =>
      rw [List.cons_append, List.cons.injEq] at hq
      rw [hq.1]
      exact cut_string 254 r (Or.inl ⟨rfl, by simp only [List.length_cons] at hh; omega⟩)
  · rw [hb2 (by omega)]
    simp only [List.length_cons, length_bigEndian] at hh
    match p', hq, hh with
    | [], _, _ => rfl
    | x :: r, hq, hh =>
      rw [List.cons_append, List.cons.injEq] at hq
      rw [hq.1]
      exact cut_string 255 r (Or.inr ⟨rfl, by simp only [List.length_cons] at hh; omega⟩)

/-- The string "hello" cut after its first octet. -/
example : Enc.new.appData (.one (.str [104, 101, 108, 108, 111])) false = .ok (none, ⟨[0x75, 6, 0, 104, 101, 108, 108, 111], none⟩) ∧
    Dec.appData (Dec.new [0x75]) = .panic .makesliceLen := by
  refine ⟨by decide +kernel, by decide +kernel⟩

/-! ## C11 Decoder failure is final -/

/-- The operations of the decoder; results are dropped. -/
inductive DecOp where
  | u8 | u16 | u32 | u64
  | bytes (n : Nat)
  | tag
  | objectId
  | unsigned (n : Nat)
  | signed (n : Nat)
  | bitString (n : Nat)
  | string (n : Int)
  | date (n : Nat)
  | time (n : Nat)
  | skip (n : Nat)
  | unreadByte
  | appData

/-- Running one operation. -/
def DecOp.run : DecOp → D Unit
  | .u8 => Dec.u8 >>= fun _ => pure ()
  | .u16 => Dec.u16 >>= fun _ => pure ()
  | .u32 => Dec.u32 >>= fun _ => pure ()
  | .u64 => Dec.u64 >>= fun _ => pure ()
  | .bytes n => Dec.bytes n >>= fun _ => pure ()
  | .tag => Dec.tagNumberAndValue >>= fun _ => pure ()
  | .objectId => Dec.objectId >>= fun _ => pure ()
  | .unsigned n => Dec.unsigned n >>= fun _ => pure ()
  | .signed n => Dec.signed n >>= fun _ => pure ()
  | .bitString n => Dec.bitString n >>= fun _ => pure ()
  | .string n => Dec.string n >>= fun _ => pure ()
  | .date n => Dec.date {} n >>= fun _ => pure ()
  | .time n => Dec.time {} n >>= fun _ => pure ()
  | .skip n => Dec.skip n
  | .unreadByte => Dec.unreadByte
  | .appData => Dec.appData >>= fun _ => pure ()

/-- Running a sequence of operations. -/
def runDecOps : List DecOp → D Unit
  | [] => pure ()
  | op :: ops => op.run >>= fun _ => runDecOps ops

/-- C11, the claim as stated fails: `Skip(0)` wipes out a recorded error. -/
theorem C11_fails_skip0 : ∃ d d' : Dec,
    Dec.u16 (Dec.new [1]) = .ok (0, d) ∧ d.err = some .unexpectedEof ∧
    Dec.skip 0 d = .ok ((), d') ∧ d'.err = none :=
  ⟨_, _, rfl, rfl, rfl, rfl⟩

theorem decOp_sticky (op : DecOp) (h : op ≠ .skip 0) : Sticky op.run := by
  have k : ∀ {α : Type} {m : D α}, Sticky m → Sticky (m >>= fun _ => (pure () : D Unit)) :=
    fun h => h.bind fun _ => Sticky.pure _
  cases op <;> simp only [DecOp.run]
  case u8 => exact k Dec.u8_all.2.1
  case u16 => exact k Dec.u16_all.2.1
  case u32 => exact k Dec.u32_all.2.1
  case u64 => exact k Dec.u64_all.2.1
  case bytes n => exact k (Dec.bytes_all n).2.1
  case tag => exact k Dec.tagNumberAndValue_total.2
  case objectId => exact k Dec.objectId_all.2.1
  case unsigned n => exact k (Dec.unsigned_total n).2
  case signed n => exact k (Dec.signed_total n).2
  case bitString n => exact k (Dec.bitString_total n).2
  case string n => exact k (Dec.string_sticky n)
  case date n => exact k (Dec.date_total _ n).2
  case time n => exact k (Dec.time_sticky _ n)
  case skip n =>
    have hn : n ≠ 0 := fun e => h (by rw [e])
    exact k (Dec.sticky_rawRead n hn)
  case unreadByte =>
    constructor
    · intro d a d' hF h'
      unfold Dec.unreadByte at h'
      rw [hF.2.2] at h'
      cases h'; exact hF
    · intro d a d' hI h' hne
      unfold Dec.unreadByte at h'
      split at h'
      · rename_i b hb
        cases h'
        have := (hI hne).2.2
        rw [this] at hb; cases hb
      · cases h'; exact hI hne
  case appData => exact k Dec.appData_sticky

theorem runDecOps_sticky (ops : List DecOp) (h : ∀ op ∈ ops, op ≠ .skip 0) :
    Sticky (runDecOps ops) := by
  induction ops with
  | nil => exact Sticky.pure _
  | cons op ops ih =>
    exact (decOp_sticky op (h op (by simp))).bind fun _ => ih fun o ho => h o (by simp [ho])

/-- C11 for all inputs and all operation sequences without `Skip(0)`: whenever an
error has been recorded, nothing is left to read or to unread, and every later
sequence of operations that returns keeps an error recorded. -/
theorem C11_failure_final_partial (input : List UInt8) (ops later : List DecOp) (d d' : Dec)
    (hops : ∀ op ∈ ops, op ≠ .skip 0) (hlater : ∀ op ∈ later, op ≠ .skip 0)
    (h1 : runDecOps ops (Dec.new input) = .ok ((), d)) (hf : d.err ≠ none)
    (h2 : runDecOps later d = .ok ((), d')) :
    d.buf = [] ∧ d.prev = none ∧ d'.err ≠ none ∧ d'.buf = [] := by
  have hF : d.Failed := (runDecOps_sticky ops hops).2 _ _ _ (by simp [Dec.new]) h1 hf
  have hF' := (runDecOps_sticky later hlater).1 _ _ _ hF h2
  exact ⟨hF.2.1, hF.2.2, hF'.1, hF'.2.1⟩

/-- C11: after a failure every primitive read returns zero and changes nothing. -/
theorem C11_reads_zero (d : Dec) (h : d.err ≠ none) :
    Dec.u8 d = .ok (0, d) ∧ Dec.u16 d = .ok (0, d) ∧ Dec.u32 d = .ok (0, d) ∧
    Dec.u64 d = .ok (0, d) ∧ (∀ n, Dec.bytes n d = .ok (List.replicate n 0, d)) ∧
    (∀ n, Dec.unsigned n d = .ok (0, d)) ∧ (∀ n, Dec.signed n d = .ok (0, d)) ∧
    Dec.objectId d = .ok (⟨0, 0⟩, d) ∧ Dec.tagNumberAndValue d = .ok ((0, 0, 0), d) := by
  rcases d with ⟨buf, prev, err⟩
  cases err with
  | none => exact absurd rfl h
  | some e =>
    have k : ∀ {α : Type} {x y : α}, x = y →
        Outcome.ok (x, (⟨buf, prev, some e⟩ : Dec)) = .ok (y, ⟨buf, prev, some e⟩) :=
      fun h => by rw [h]
    have h8 : Dec.u8 ⟨buf, prev, some e⟩ = .ok (0, ⟨buf, prev, some e⟩) := rfl
    have hu24 : Dec.unsigned24 ⟨buf, prev, some e⟩ = .ok (0, ⟨buf, prev, some e⟩) :=
      k (by decide : (((((0 : UInt8).toUInt32 <<< 16) &&& (0x00ff0000 : UInt32))
        ||| (((0 : UInt8).toUInt32 <<< 8) &&& (0x0000ff00 : UInt32))
        ||| ((0 : UInt8).toUInt32 &&& (0x000000ff : UInt32))) : UInt32) = 0)
    have hs24 : Dec.signed24 ⟨buf, prev, some e⟩ = .ok (0, ⟨buf, prev, some e⟩) :=
      k (by decide : (((((0 : UInt8).toInt8.toInt32 <<< 16) &&& (0x00ff0000 : Int32))
        ||| (((0 : UInt8).toInt8.toInt32 <<< 8) &&& (0x0000ff00 : Int32))
        ||| ((0 : UInt8).toInt8.toInt32 &&& (0x000000ff : Int32))) : Int32) = 0)
    have hob : Dec.objectId ⟨buf, prev, some e⟩ = .ok (⟨0, 0⟩, ⟨buf, prev, some e⟩) :=
      k (by decide : (⟨(((0 : UInt32) >>> 22) &&& maxObject).toUInt16, 0 &&& maxInstance⟩ : ObjectID)
        = ⟨0, 0⟩)
    have htn : Dec.tagNumber ⟨buf, prev, some e⟩ = .ok ((0, 0), ⟨buf, prev, some e⟩) := by
      unfold Dec.tagNumber
      rw [D.bind_apply, h8]
      simp only [Outcome.bind]
      rw [if_neg (by decide)]
      exact k (by decide : (((0 : UInt8) >>> 4, (0 : UInt8)) = (0, 0)))
    have hv : Dec.value 0 ⟨buf, prev, some e⟩ = .ok (0, ⟨buf, prev, some e⟩) := by
      unfold Dec.value
      rw [if_neg (by decide), if_neg (by decide)]
      exact k (by decide : (((0 : UInt8) &&& 0x07).toUInt32 = 0))
    refine ⟨rfl, rfl, rfl, rfl, fun n => rfl, fun n => ?_, fun n => ?_, hob, ?_⟩
    · unfold Dec.unsigned; split
      · rfl
      · rfl
      · exact hu24
      · rfl
      · rfl
    · unfold Dec.signed; split
      · exact k (by decide : (0 : UInt8).toInt8.toInt32 = 0)
      · exact k (by decide : (0 : UInt16).toInt16.toInt32 = 0)
      · exact hs24
      · exact k (by decide : (0 : UInt32).toInt32 = 0)
      · rfl
    · unfold Dec.tagNumberAndValue
      rw [D.bind_apply, htn]
      simp only [Outcome.bind, D.bind_apply, hv]
      rfl

/-- A sequence meeting the hypotheses: two bytes read as a uint32, then more. -/
example : runDecOps [.u8, .u32] (Dec.new [1, 2, 3]) = .ok ((), ⟨[], none, some .unexpectedEof⟩) ∧
    runDecOps [.appData, .skip 3, .unreadByte] ⟨[], none, some .unexpectedEof⟩
      = .ok ((), ⟨[], none, some .eof⟩) := by decide +kernel

end Bac.Props
