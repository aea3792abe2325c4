import Verif.Lemmas.Network
import Verif.Lemmas.DataLink
/-!
# C64 - C68, C101, C102: priorities, configured devices, discovery and object lists of package network
-/

namespace Bac.Props

open Spec (AppVal Means NetAddr NetHeader IsActive NoneActive entryNumber NearestReal RealIs)

/-! ## C64 The active value of a priority array -/

/-- The conversion of a priority array crashes exactly when there is no property at all
or some entry is neither null nor a uint32. -/
theorem C64_crash_iff (d : PropertyData) (typ : UInt16) :
    (buildFloat32 d typ).Panics ↔ d.object.properties = [] ∨
      ∃ p more l, d.object.properties = p :: more ∧ p.data = .many l ∧
        ∃ s ∈ l, s ≠ .null ∧ ∀ v, s ≠ .uint v := by
  have hgood : ∀ s : Scalar, (s ≠ .null ∧ ∀ v, s ≠ .uint v) ↔ ¬ GoodEntry s := by
    intro s; unfold GoodEntry; simp
  unfold buildFloat32 toArr
  cases hp : d.object.properties with
  | nil => simp only [true_or, iff_true]; exact trivial
  | cons p more =>
    cases hd : p.data with
    | one s =>
      simp only [hd, Outcome.ok_bind, priorityLoop, Outcome.Panics, false_iff]
      rintro (h | ⟨p', more', l, h, h', _⟩)
      · cases h
      · obtain ⟨rfl, rfl⟩ := List.cons.inj h
        rw [hd] at h'; cases h'
    | many l =>
      simp only [hd, Outcome.ok_bind]
      constructor
      · intro h
        refine Or.inr ⟨p, more, l, rfl, hd, ?_⟩
        by_contra hc
        have hg : ∀ s ∈ l, GoodEntry s := by
          intro s hs
          by_contra hb
          exact hc ⟨s, hs, (hgood s).mpr hb⟩
        rw [priorityLoop_good l 0 _ hg] at h
        exact h
      · rintro (h | ⟨p', more', l', h, h', s, hs, hb⟩)
        · cases h
        · obtain ⟨rfl, rfl⟩ := List.cons.inj h
          rw [hd] at h'
          obtain rfl := Value.many.inj h'
          exact priorityLoop_bad l 0 _ ⟨s, hs, (hgood s).mp hb⟩

example : (buildFloat32 { object := { id := ⟨2, 1⟩, properties := [⟨87, arrayAll, .many [.null, .real 0x41200000], 0⟩] } } 2).Panics :=
  trivial
example : ¬ (buildFloat32 { object := { id := ⟨2, 1⟩, properties := [⟨87, arrayAll, .many [.null, .uint 7], 0⟩] } } 2).Panics := id

theorem whole_valid {p : Point} (hp : C04_Valid ⟨p.typ, p.inst⟩) (prop : UInt32) (h : prop.toNat ≤ 4194303) :
    (p.whole prop).Valid := ⟨hp, h⟩

theorem decoded_real {s : Scalar} {b : UInt32} (h : DecodedAs s (.real b)) : s = .real b := h.1

theorem decoded_unsigned {s : Scalar} {n : Nat} (h : DecodedAs s (.unsigned n)) : ∃ x : UInt32, s = .uint x ∧ x.toNat = n := h.1

theorem decoded_enum {s : Scalar} {n : Nat} (h : DecodedAs s (.enum n)) : ∃ x : UInt32, s = .uint x ∧ x.toNat = n := by
  obtain ⟨⟨x, h1 | h1, h2⟩, h3⟩ := h
  · exact ⟨x, h1, h2⟩
  · exact absurd h1 (h3 x)

theorem shape_many {ss : List Scalar} (h : ss.length ≠ 1) : shape ss = .many ss := by
  unfold shape; rw [if_neg h]

theorem shape_one (s : Scalar) : shape [s] = .one s := rfl

theorem forall2_length {α β : Type} {R : α → β → Prop} {l : List α} {m : List β} (h : List.Forall₂ R l m) :
    l.length = m.length := h.length_eq

/-- C64 fails: reading the priority array of any analog point crashes as soon as one of
its entries is a real number. -/
theorem C64_fails_real (w : Wire) (hmy : w.my.net = 0) (d : NetDevice) (p : Point) (hp : C04_Valid ⟨p.typ, p.inst⟩)
    (vs : List AppVal) (hvs : ∀ v ∈ vs, C71_Readable v) (hf : vs.length < w.fuel) (hlen : vs.length ≠ 1)
    (b : UInt32) (hb : AppVal.real b ∈ vs) (c : Calls) (h : Answered w c.length (p.whole 87) vs) :
    (pointReadPriority w.reader d p c).2.Panics := by
  obtain ⟨ss, out, hss, -, h2, h3⟩ := read_answered w hmy d (p.whole 87) (whole_valid hp 87 (by decide)) c vs hvs hf h
  have hmem : Scalar.real b ∈ ss := by
    clear h2 h3 hlen hf hvs h
    induction hss with
    | nil => simp at hb
    | cons h1 _ ih =>
      rcases List.mem_cons.mp hb with rfl | hb
      · rw [decoded_real h1]; simp
      · exact List.mem_cons_of_mem _ (ih hb)
  have hpan : (buildFloat32 out p.typ).Panics := by
    rw [C64_crash_iff]
    refine Or.inr ⟨_, [], ss, h2, ?_, .real b, hmem, by simp, by simp⟩
    exact shape_many (by rw [hss.length_eq]; exact hlen)
  cases hbf : buildFloat32 out p.typ with
  | ok x => rw [hbf] at hpan; exact absurd hpan id
  | diverge => rw [hbf] at hpan; exact absurd hpan id
  | panic k =>
    have e : pointReadPriority w.reader d p c = (c ++ [(d.dev.target, (p.whole 87).request)], .panic k) := by
      refine (N.bind_ok h3).trans ?_
      exact N.bind_panic (by rw [N.lift_apply, hbf])
    rw [e]; trivial

/-- C64 fails: the number of the active priority is not reported; the result is the same
whichever of the sixteen holds the value. -/
theorem C64_fails_number (v : UInt32) (m n : Fin 16) :
    highestFloat32 (fun j => if j = m then some v else none) =
      highestFloat32 (fun j => if j = n then some v else none) := by
  have : ∀ k : Fin 16, highestFloat32 (fun j => if j = k then some v else none) = some v := fun k =>
    highest_some k (by simp) fun i hi => by simp [Fin.ne_of_lt hi]
  rw [this, this]

/-- An entry as the standard has it in the priority array of a binary or multi-state
object: null, unsigned or enumerated. -/
def C64_Entry (v : AppVal) : Prop := v = .null ∨ ∃ n, v = .unsigned n ∨ v = .enum n

/-- C64.  Arrays of sixteen nulls, unsigned and enumerated values: the first that is not
null is reported, rounded to a single-precision number; none if all are null.
Missing: REAL entries (`C64_fails_real`) and the number (`C64_fails_number`). -/
theorem C64_partial (w : Wire) (hmy : w.my.net = 0) (d : NetDevice) (p : Point) (hp : C04_Valid ⟨p.typ, p.inst⟩)
    (vs : List AppVal) (hvs : ∀ v ∈ vs, C71_Readable v) (hf : vs.length < w.fuel) (hlen : vs.length = 16)
    (hent : ∀ v ∈ vs, C64_Entry v) (c : Calls) (h : Answered w c.length (p.whole 87) vs) :
    ∃ c' pri, pointReadPriority w.reader d p c = (c', .ok (.ok pri)) ∧
      (∀ n x, IsActive (vs.map entryNumber) n x →
        ∃ bits, highestFloat32 pri = some bits ∧ NearestReal bits.toNat x) ∧
      (NoneActive (vs.map entryNumber) → highestFloat32 pri = none) := by
  obtain ⟨ss, out, hss, -, h2, h3⟩ := read_answered w hmy d (p.whole 87) (whole_valid hp 87 (by decide)) c vs hvs hf h
  have hat : ∀ i : Nat, i < 16 → ∃ s v, ss[i]? = some s ∧ vs[i]? = some v ∧ DecodedAs s v ∧ C64_Entry v := by
    intro i hi
    have h1 : i < vs.length := by omega
    have h2 : i < ss.length := by rw [hss.length_eq]; exact h1
    refine ⟨ss[i], vs[i], List.getElem?_eq_getElem h2, List.getElem?_eq_getElem h1, ?_, hent _ (List.getElem_mem h1)⟩
    exact (List.forall₂_iff_get.mp hss).2 i h2 h1
  have hgood : ∀ s ∈ ss, GoodEntry s := by
    intro s hs
    obtain ⟨i, hi, rfl⟩ := List.mem_iff_getElem.mp hs
    have hl := hss.length_eq
    obtain ⟨s, v, e1, _, hd, he⟩ := hat i (by omega)
    rw [List.getElem?_eq_getElem hi] at e1
    obtain rfl := Option.some.inj e1
    rcases he with rfl | ⟨n, rfl | rfl⟩
    · exact Or.inl hd.1
    · obtain ⟨x, hx, _⟩ := decoded_unsigned hd; exact Or.inr ⟨x, hx⟩
    · obtain ⟨x, hx, _⟩ := decoded_enum hd; exact Or.inr ⟨x, hx⟩
  obtain ⟨pri, hbf, hpri⟩ : ∃ pri : Priorities, buildFloat32 out p.typ = .ok pri ∧
      ∀ (j : Fin 16) s, ss[j.val]? = some s → pri j = entryBits s := by
    unfold buildFloat32 toArr
    rw [h2]
    simp only [shape_many (show ss.length ≠ 1 by rw [hss.length_eq]; omega), Outcome.ok_bind]
    refine ⟨_, priorityLoop_good ss 0 _ hgood, fun j s hs => ?_⟩
    rw [if_neg (by omega), Nat.sub_zero, hs]
  have hslot : ∀ j : Fin 16, ∃ v, vs[j.val]? = some v ∧ C64_Entry v ∧
      ∃ s, DecodedAs s v ∧ pri j = entryBits s := by
    intro j
    obtain ⟨s, v, e1, e2, hd, he⟩ := hat j.val j.isLt
    exact ⟨v, e2, he, s, hd, hpri j s e1⟩
  refine ⟨c ++ [(d.dev.target, (p.whole 87).request)], pri, ?_, ?_, ?_⟩
  · refine (N.bind_ok h3).trans ?_
    refine (N.bind_ok (m := N.lift (buildFloat32 out p.typ)) (by rw [N.lift_apply, hbf])).trans ?_
    rfl
  · rintro n x ⟨h1, h16, hx, hbefore⟩
    obtain ⟨v, e2, he, s, hd, hs⟩ := hslot ⟨n - 1, by omega⟩
    rw [List.getElem?_map] at hx
    simp only at e2
    rw [e2] at hx
    simp only [Option.map_some, Option.some.injEq] at hx
    obtain ⟨y, hy, hyn⟩ : ∃ y : UInt32, s = .uint y ∧ y.toNat = x := by
      rcases he with rfl | ⟨m, rfl | rfl⟩
      · simp [entryNumber] at hx
      · simp only [entryNumber, Option.some.injEq] at hx; subst hx; exact decoded_unsigned hd
      · simp only [entryNumber, Option.some.injEq] at hx; subst hx; exact decoded_enum hd
    refine ⟨float32OfUInt32 y, highest_some ⟨n - 1, by omega⟩ ?_ ?_, by rw [← hyn]; exact float_nearest y⟩
    · rw [hs, hy]; rfl
    · intro m hm
      have hm' : m.val < n - 1 := hm
      obtain ⟨v', e2', he', s', hd', hs'⟩ := hslot m
      have := hbefore (m.val + 1) (by omega) (by omega)
      rw [Nat.add_sub_cancel, List.getElem?_map, e2'] at this
      simp only [Option.map_some, Option.some.injEq] at this
      rw [hs']
      rcases he' with rfl | ⟨k, rfl | rfl⟩
      · rw [show s' = .null from hd'.1]; rfl
      · simp [entryNumber] at this
      · simp [entryNumber] at this
  · intro hnone
    refine highest_none fun j => ?_
    obtain ⟨v', e2', he', s', hd', hs'⟩ := hslot j
    rw [hs']
    rcases he' with rfl | ⟨k, hk⟩
    · rw [show s' = .null from hd'.1]; rfl
    · refine absurd ?_ (hnone (j.val + 1) k (by omega) (by have := j.isLt; omega))
      rw [Nat.add_sub_cancel, List.getElem?_map, e2']
      rcases hk with rfl | rfl <;> rfl

/-- The array of the example below: null, 1, null, ... -/
def exampleArray : List AppVal := .null :: .enum 1 :: List.replicate 14 .null

theorem exampleArray_entry : ∀ v ∈ exampleArray, C71_Readable v ∧ C64_Entry v := by
  intro v hv
  simp only [exampleArray, List.mem_cons, List.mem_replicate] at hv
  rcases hv with rfl | rfl | ⟨_, rfl⟩
  · exact ⟨⟨trivial, trivial⟩, Or.inl rfl⟩
  · exact ⟨⟨show 1 < 2 ^ 32 by decide, trivial⟩, Or.inr ⟨1, Or.inr rfl⟩⟩
  · exact ⟨⟨trivial, trivial⟩, Or.inl rfl⟩

/-- A binary value with priority 2 active: 1.0 is reported. -/
example : ∃ c' pri bits, pointReadPriority (Wire.reader ⟨{}, 20, fun _ => some 3, fun _ _ => ⟨none, .bytes (Spec.complexAck 3 12
      (Spec.readPropertyAckBody 5 1 ⟨87, none⟩ (exampleArray.flatMap AppVal.encoding)))⟩⟩) {} ⟨1, 5, 0⟩ [] = (c', .ok (.ok pri)) ∧
    highestFloat32 pri = some bits ∧ NearestReal bits.toNat 1 := by
  obtain ⟨c', pri, h1, h2, _⟩ := C64_partial ⟨{}, 20, fun _ => some 3, fun _ _ => ⟨none, .bytes (Spec.complexAck 3 12
      (Spec.readPropertyAckBody 5 1 ⟨87, none⟩ (exampleArray.flatMap AppVal.encoding)))⟩⟩ rfl {} ⟨1, 5, 0⟩ (by unfold C04_Valid; decide)
    exampleArray (fun v hv => (exampleArray_entry v hv).1) (by decide) rfl (fun v hv => (exampleArray_entry v hv).2)
    [] ⟨3, rfl, rfl⟩
  obtain ⟨bits, h3, h4⟩ := h2 2 1 ⟨by decide, by decide, rfl, fun m hm1 hm2 => by
    obtain rfl : m = 1 := by omega
    rfl⟩
  exact ⟨c', pri, bits, h1, h3, h4⟩

/-! ## C101 Values of a priority array are not changed -/

/-- C101.  Up to 2^24 the number reported is the number received. -/
theorem C101_partial (v : UInt32) (h : v.toNat ≤ 2 ^ 24) : priorityEntry (.uint v) = .ok (some (float32OfUInt32 v)) ∧
    RealIs (float32OfUInt32 v).toNat v.toNat := ⟨rfl, float_exact v h⟩

/-- C101: for all others it is a nearest single-precision number. -/
theorem C101_nearest_partial (v : UInt32) : priorityEntry (.uint v) = .ok (some (float32OfUInt32 v)) ∧
    NearestReal (float32OfUInt32 v).toNat v.toNat := ⟨rfl, float_nearest v⟩

/-- C101 fails: an odd number above 2^24 is reported as another one. -/
theorem C101_fails (v : UInt32) (h : 2 ^ 24 < v.toNat) (hodd : v.toNat % 2 = 1) :
    ∃ bits, priorityEntry (.uint v) = .ok (some bits) ∧ ¬ RealIs bits.toNat v.toNat := by
  refine ⟨_, rfl, ?_⟩
  have h0 : v.toNat ≠ 0 := by omega
  rintro ⟨_, hr⟩
  have hk : ¬ v.toNat.log2 ≤ 23 := by
    intro hc
    have := Nat.lt_log2_self (n := v.toNat)
    have : 2 ^ (v.toNat.log2 + 1) ≤ 2 ^ 24 := Nat.pow_le_pow_right (by decide) (by omega)
    omega
  -- a number with this exponent is even
  generalize float32OfUInt32 v = f at hr
  unfold Spec.realTimes2p150 at hr
  have hlt := f.toNat_lt
  split at hr
  · have : f.toNat % 2 ^ 23 * 2 < v.toNat * 2 ^ 150 := by
      have h1 : f.toNat % 2 ^ 23 < 2 ^ 23 := Nat.mod_lt _ (by decide)
      have h2 : 1 * 2 ^ 150 ≤ v.toNat * 2 ^ 150 := Nat.mul_le_mul_right _ (by omega)
      omega
    omega
  · generalize he : f.toNat / 2 ^ 23 = e at *
    have hm : f.toNat % 2 ^ 23 < 2 ^ 23 := Nat.mod_lt _ (by decide)
    generalize f.toNat % 2 ^ 23 = m at *
    by_cases hle : e ≤ 150
    · have : (2 ^ 23 + m) * 2 ^ e < v.toNat * 2 ^ 150 := by
        have h1 : (2 ^ 23 + m) * 2 ^ e ≤ (2 ^ 23 + m) * 2 ^ 150 :=
          Nat.mul_le_mul_left _ (Nat.pow_le_pow_right (by decide) hle)
        have h2 : (2 ^ 23 + m) * 2 ^ 150 < v.toNat * 2 ^ 150 :=
          Nat.mul_lt_mul_of_pos_right (by omega) (Nat.two_pow_pos _)
        exact Nat.lt_of_le_of_lt h1 h2
      omega
    · obtain ⟨k, rfl⟩ : ∃ k, e = k + 1 + 150 := ⟨e - 151, by omega⟩
      rw [Nat.pow_add, ← Nat.mul_assoc] at hr
      have := Nat.eq_of_mul_eq_mul_right (Nat.two_pow_pos 150) hr
      rw [Nat.pow_succ 2 k, ← Nat.mul_assoc] at this
      omega

/-- 16777217 is reported as 16777216. -/
example : priorityEntry (.uint 16777217) = .ok (some 0x4B800000) ∧ RealIs 0x4B800000 16777216 :=
  ⟨by decide +kernel, by unfold RealIs; decide +kernel⟩

/-! ## Writes -/

/-- The datagram goes to the endpoint of the device and carries, behind a network header
for the station of the device, this request. -/
def Carries (dev : Device) (s : Sent) (request : List UInt8) : Prop :=
  s.dest.udpAddr = dev.addr.udpAddr ∧ ∃ kind, s.data = Spec.frame kind ((Spec.requestHeader
    (if dev.addr.net = 0 then none else some ⟨dev.addr.net.toNat, dev.addr.adr⟩)).octets ++ request)

theorem setLength_udp (a : Address) : a.setLength.udpAddr = a.udpAddr := by
  have : a.setLength.mac = a.mac := by unfold Address.setLength; split <;> rfl
  unfold Address.udpAddr; rw [this]

theorem carries_datagram (dev : Device) (ha : dev.addr.net = 0 ∨ dev.addr.adr.length = 1) (request : List UInt8) :
    Carries dev (datagram dev.addr.setLength (requestOctets dev.addr.setLength ++ request)) request := by
  have e := requestOctets_spec dev.addr.setLength (by
    rw [setLength_net]
    rcases ha with ha | ha
    · exact Or.inl ha
    · right; unfold Address.setLength; rw [if_pos (by omega)]; simp [ha])
  unfold station at e
  rw [setLength_net, setLength_adr] at e
  refine ⟨setLength_udp _, sendFunction dev.addr.setLength none, ?_⟩
  rw [← e, datagram_frame]

/-- What a write of package network sends and returns. -/
theorem write_sends (d : NetDevice) (my : Address) (hmy : my.net = 0) (id : UInt8) (script : Nat → Attempt)
    (w : NetWrite) (x : Scalar) (hx : w.toSend = .ok x) (hid : C04_Valid ⟨w.typ, w.inst⟩) (hprop : w.prop.toNat ≤ 4194303)
    (v : AppVal) (hm : C29_Meant (w.request x).object ⟨w.prop, arrayAll, .one x, w.priority⟩ v)
    (ha : d.dev.addr.net = 0 ∨ d.dev.addr.adr.length = 1) :
    (∀ s ∈ (d.write my (some id) script w).1, Carries d.dev.target s (Spec.writeProperty id w.typ.toNat w.inst.toNat
      ⟨w.prop.toNat, none⟩ v.encoding (if w.priority.toNat = 0 then none else some w.priority.toNat))) ∧
    (d.write my (some id) script w).1 ≠ [] ∧ (d.write my (some id) script w).1.length ≤ 2 ∧
    (d.write my (some id) script w).2.Returns ∧
    (script 0 = ⟨none, .bytes (Spec.simpleAck id 15)⟩ →
      (d.write my (some id) script w).1.length = 1 ∧ (d.write my (some id) script w).2 = .ok (.ok ())) := by
  have hv : ValidRead (w.request x) ⟨w.prop, arrayAll, .one x, w.priority⟩ := ⟨hid, ⟨[], rfl⟩, hprop⟩
  have hcall := writeProperty_call my d.dev.target (w.request x) _ v id script hmy hv hm
  have hret := (C81_ends_partial 0 my d.dev.target id script hmy).2.1 (w.request x) _ v hv hm
  have e1 : (d.write my (some id) script w).1 = (clientWriteProperty my d.dev.target (w.request x) (some id) script).1 := by
    unfold NetDevice.write
    rw [hx]
    simp only
    split <;> rename_i he <;> rw [he]
  have e2 : ∀ r, (clientWriteProperty my d.dev.target (w.request x) (some id) script).2 = .ok (.ok r) →
      (d.write my (some id) script w).2 = .ok (.ok ()) := by
    intro r hr
    unfold NetDevice.write
    rw [hx]
    simp only
    split <;> rename_i he <;> rw [he] at hr
    · cases hr
    · cases hr
    · cases hr
  have e3 : (d.write my (some id) script w).2.Returns := by
    unfold NetDevice.write
    rw [hx]
    simp only
    split <;> rename_i he <;> rw [he] at hret
    · trivial
    · trivial
    · exact hret.elim
    · exact hret.elim
  obtain ⟨k, hk, hsent, hpos⟩ := attempts_sent d.dev.target.addr.setLength (requestOctets d.dev.target.addr.setLength ++
    Spec.writeProperty id (w.request x).object.id.typ.toNat (w.request x).object.id.inst.toNat
      (⟨w.prop, arrayAll, .one x, w.priority⟩ : Property).ref v.encoding
      (if w.priority.toNat = 0 then none else some w.priority.toNat)) writeStep script 2 0 (.failed .noId)
  refine ⟨?_, ?_, ?_, e3, ?_⟩
  · intro s hs
    rw [e1, hcall] at hs
    rw [mem_attempts hs]
    exact carries_datagram d.dev.target ha _
  · rw [e1, hcall, hsent]
    intro h0
    have := congrArg List.length h0
    simp only [List.length_replicate, List.length_nil] at this
    have := hpos (by decide)
    omega
  · rw [e1, hcall, hsent, List.length_replicate]; exact hk
  · intro hs
    have hdone := attempts_done (α := Unit) (dest := d.dev.target.addr.setLength) (pack := requestOctets d.dev.target.addr.setLength ++
      Spec.writeProperty id (w.request x).object.id.typ.toNat (w.request x).object.id.inst.toNat
        (⟨w.prop, arrayAll, .one x, w.priority⟩ : Property).ref v.encoding
        (if w.priority.toNat = 0 then none else some w.priority.toNat)) (step := writeStep) (script := script) (n := 1) (i := 0)
      (last := .failed .noId) (r := .ok ()) (by rw [hs]) (by
        rw [hs]
        simp only [writeStep, Spec.simpleAck]
        rw [show [0x20, id, 15] = [0x20, id, 15] ++ [] from rfl, answerHeader_ack 0x20 id 15 (Or.inr rfl)]
        rfl)
    rw [hdone] at hcall
    rw [e1, hcall]
    exact ⟨rfl, e2 () (by rw [hcall])⟩

/-- Every device made by `NewDevice` has a hardware address of one octet. -/
theorem made_adr (d : NetDevice) : d.made.dev.addr.adr.length = 1 := rfl

/-! ## C65 Releasing a priority -/

/-- C65: outside 1..16, or without a point, the release is refused and nothing is sent. -/
theorem C65_refused (d : NetDevice) (my : Address) (invoke : Option UInt8) (script : Nat → Attempt)
    (p : Option Point) (pri : UInt8) (h : p = none ∨ ¬ (1 ≤ pri.toNat ∧ pri.toNat ≤ 16)) :
    ∃ e, pointReleasePriority d my invoke script p pri = ([], .ok (.error e)) := by
  unfold pointReleasePriority
  cases p with
  | none => exact ⟨_, rfl⟩
  | some p =>
    rcases h with h | h
    · cases h
    · refine ⟨.badPriority, ?_⟩
      simp only
      rw [if_pos]
      by_cases h1 : pri.toNat ≤ 16
      · right; show pri.toNat < (1 : UInt8).toNat; have : (1 : UInt8).toNat = 1 := rfl; omega
      · left; show (16 : UInt8).toNat < pri.toNat; have : (16 : UInt8).toNat = 16 := rfl; omega

theorem null_meant (o : Object) (p : Property) (h : p.data = .one .null) : C29_Meant o p .null := by
  by_cases hb : IsBinaryPresentValue o p
  · exact Or.inl ⟨hb, Or.inl ⟨h, rfl⟩⟩
  · exact Or.inr ⟨hb, .null, h, rfl, trivial, trivial⟩

/-- C65: every datagram of a release is a write of a null to the present value of the
point at exactly this priority; there is at least one, and an acknowledgement makes the
release succeed.  Missing: object types above 1023 (`C65_fails_type`). -/
theorem C65_release_partial (d : NetDevice) (my : Address) (hmy : my.net = 0) (id : UInt8) (script : Nat → Attempt)
    (p : Point) (hp : C04_Valid ⟨p.typ, p.inst⟩) (pri : UInt8) (h : 1 ≤ pri.toNat ∧ pri.toNat ≤ 16)
    (ha : d.dev.addr.net = 0 ∨ d.dev.addr.adr.length = 1) :
    (∀ s ∈ (pointReleasePriority d my (some id) script (some p) pri).1, Carries d.dev.target s
      (Spec.writeProperty id p.typ.toNat p.inst.toNat ⟨85, none⟩ [0x00] (some pri.toNat))) ∧
    (pointReleasePriority d my (some id) script (some p) pri).1 ≠ [] ∧
    (script 0 = ⟨none, .bytes (Spec.simpleAck id 15)⟩ →
      (pointReleasePriority d my (some id) script (some p) pri).2 = .ok (.ok ())) := by
  have e : pointReleasePriority d my (some id) script (some p) pri =
      d.write my (some id) script { inst := p.inst, typ := p.typ, prop := 85, null := true, priority := pri } := by
    unfold pointReleasePriority
    simp only
    rw [if_neg]
    rintro (h1 | h1)
    · have h1 : (16 : UInt8).toNat < pri.toNat := h1
      have : (16 : UInt8).toNat = 16 := rfl
      omega
    · have h1 : pri.toNat < (1 : UInt8).toNat := h1
      have : (1 : UInt8).toNat = 1 := rfl
      omega
  rw [e]
  obtain ⟨h1, h2, _, _, h3⟩ := write_sends d my hmy id script
    { inst := p.inst, typ := p.typ, prop := 85, null := true, priority := pri } .null rfl hp (show (85 : UInt32).toNat ≤ 4194303 by decide)
    .null (null_meant _ _ rfl) ha
  refine ⟨fun s hs => ?_, h2, fun hs => (h3 hs).2⟩
  have := h1 s hs
  simp only [if_neg (show ¬ pri.toNat = 0 by omega)] at this
  exact this

/-- The release of priority 8 of analog value 1, octet by octet. -/
example : (pointReleasePriority (NetDevice.made { ip := .v4 10 0 0 9 }) {} (some 3) (fun _ => {}) (some ⟨1, 2, 0⟩) 8).1.map Sent.data =
    List.replicate 2 [0x81, 10, 0, 22, 1, 4, 0, 5, 3, 15, 0x0C, 0, 0x80, 0, 1, 0x19, 85, 0x3E, 0x00, 0x3F, 0x49, 8] := by
  decide +kernel

/-- C65 fails: for a point with an object type above 1023 a request without object,
property, value and priority is sent. -/
theorem C65_fails_type (d : NetDevice) (my : Address) (hmy : my.net = 0) (id : UInt8) (script : Nat → Attempt)
    (p : Point) (ht : 1023 < p.typ.toNat) (pri : UInt8) (h : 1 ≤ pri.toNat ∧ pri.toNat ≤ 16) :
    (pointReleasePriority d my (some id) script (some p) pri).1 ≠ [] ∧
    ∀ s ∈ (pointReleasePriority d my (some id) script (some p) pri).1, ∃ header, s.data.drop 4 = header ++ [0, 5, id, 15] := by
  have e : pointReleasePriority d my (some id) script (some p) pri =
      d.write my (some id) script { inst := p.inst, typ := p.typ, prop := 85, null := true, priority := pri } := by
    unfold pointReleasePriority
    simp only
    rw [if_neg]
    rintro (h1 | h1)
    · have h1 : (16 : UInt8).toNat < pri.toNat := h1
      have : (16 : UInt8).toNat = 16 := rfl
      omega
    · have h1 : pri.toNat < (1 : UInt8).toNat := h1
      have : (1 : UInt8).toNat = 1 := rfl
      omega
  have e1 : (pointReleasePriority d my (some id) script (some p) pri).1 = (clientWriteProperty my d.dev.target
      (NetWrite.request { inst := p.inst, typ := p.typ, prop := 85, null := true, priority := pri } .null) (some id) script).1 := by
    rw [e]
    unfold NetDevice.write NetWrite.toSend
    simp only [if_true]
    split <;> rename_i he <;> rw [he]
  rw [e1]
  exact C80_fails_write my d.dev.target _ id script hmy (Or.inl ht) (by simp [NetWrite.request])

example : (pointReleasePriority (NetDevice.made { ip := .v4 10 0 0 9 }) {} (some 3) (fun _ => {}) (some ⟨1, 1024, 0⟩) 8).1.map Sent.data =
    List.replicate 2 [0x81, 10, 0, 10, 1, 4, 0, 5, 3, 15] := by decide +kernel

/-! ## C66 A configured device is addressed as configured -/

theorem sentTo_dest {dev : Device} {s : Sent} (h : SentTo dev s) : s.dest = dev.addr.setLength := by
  obtain ⟨my, hmy, id, script, h⟩ := h
  rcases h with ⟨fuel, rp, p, hv, h⟩ | ⟨wp, p, v, hv, hm, h⟩ | ⟨fuel, os, hv, h⟩
  · rw [readProperty_call fuel my dev rp p id script hmy hv] at h
    rw [mem_attempts h]; rfl
  · rw [writeProperty_call my dev wp p v id script hmy hv hm] at h
    rw [mem_attempts h]; rfl
  · rcases clientReadMulti_cases fuel my dev os (some id) with ⟨r, _, hr⟩ | ⟨pack, _, hr⟩
    · rw [hr] at h; simp at h
    · rw [hr] at h; rw [mem_attempts h]; rfl

theorem toNat_ofInt16 (n : Int) : ((UInt16.ofInt n).toNat : Int) = n % 65536 := by
  unfold UInt16.ofInt
  rw [UInt16.toNat_ofNat_of_lt' (by show _ < 2 ^ 16; omega)]
  omega

theorem toNat_ofInt8 (n : Int) : ((UInt8.ofInt n).toNat : Int) = n % 256 := by
  unfold UInt8.ofInt
  rw [UInt8.toNat_ofNat_of_lt' (by show _ < 2 ^ 8; omega)]
  omega

theorem made_udp (d : NetDevice) {a b c e : UInt8} (h : packIP4 d.ip = [a, b, c, e]) :
    d.made.dev.addr.udpAddr = some ((a, b, c, e), 47808) := by
  have : d.made.dev.addr.mac = [a, b, c, e, 0xBA, 0xC0] := by
    show packIP4 d.ip ++ be16 (UInt16.ofInt (if (0 : Int) = 0 then 0xBAC0 else 0)) = _
    rw [h]; rfl
  unfold Address.udpAddr
  rw [this]
  rfl

/-- C66.  An IPv4 address, the standard port (or none), a network number of 16 bits and a
MAC of 8 bits: every request of the client goes to this address and port, with a network
header for exactly this station.  The hypotheses say what is missing. -/
theorem C66_partial (d : NetDevice) (a b c e : UInt8) (hip : d.ip = .v4 a b c e)
    (_hport : d.port = 0 ∨ d.port = 47808) (hn : 0 ≤ d.networkNumber ∧ d.networkNumber < 65536)
    (hm : 0 ≤ d.macMSTP ∧ d.macMSTP < 256) (s : Sent) (hs : SentTo d.made.dev.target s) :
    s.dest.udpAddr = some ((a, b, c, e), 47808) ∧
    ∃ m : UInt8, (m.toNat : Int) = d.macMSTP ∧
      Addressed s.data (if d.networkNumber = 0 then none else some ⟨d.networkNumber.toNat, [m]⟩) := by
  have hnet : ∀ n : Int, 0 ≤ n → n < 65536 → ((UInt16.ofInt n).toNat : Int) = n := by
    intro n h1 h2
    have := toNat_ofInt16 n; omega
  have hmac : ∀ n : Int, 0 ≤ n → n < 256 → ((UInt8.ofInt n).toNat : Int) = n := by
    intro n h1 h2
    have := toNat_ofInt8 n; omega
  refine ⟨?_, UInt8.ofInt d.macMSTP, hmac _ hm.1 hm.2, ?_⟩
  · rw [sentTo_dest hs, setLength_udp]
    exact made_udp d (by rw [hip]; rfl)
  · have := C45_header_partial d.made.dev.target s hs (Or.inr (Or.inl rfl)) (by show 1 < 256; decide)
    have e1 : d.made.dev.target.addr.net = UInt16.ofInt d.networkNumber := rfl
    have e2 : d.made.dev.target.addr.adr = [UInt8.ofInt d.macMSTP] := rfl
    rw [e1, e2] at this
    have h0 := hnet _ hn.1 hn.2
    by_cases hz : d.networkNumber = 0
    · rw [if_pos hz]; rw [hz] at this; exact this
    · rw [if_neg hz]
      rw [if_neg] at this
      · rw [show d.networkNumber.toNat = (UInt16.ofInt d.networkNumber).toNat by omega]
        exact this
      · intro hc
        rw [hc] at h0
        exact hz (by rw [← h0]; rfl)

/-- C66 fails: whatever port is configured, the requests go to port 47808. -/
theorem C66_fails_port (d : NetDevice) (a b c e : UInt8) (hip : d.ip = .v4 a b c e) (port : Int)
    (_hport : d.port = port) (_h : port ≠ 47808) (s : Sent) (hs : SentTo d.made.dev.target s) :
    s.dest.udpAddr = some ((a, b, c, e), 47808) := by
  rw [sentTo_dest hs, setLength_udp]
  exact made_udp d (by rw [hip]; rfl)

/-- C66 fails: text that is not an IPv4 address gives a device at 0.0.0.0. -/
theorem C66_fails_ip (d : NetDevice) (hip : d.ip = .invalid ∨ ∃ o, d.ip = .v6 o ∧ (to4 o).length ≠ 4)
    (s : Sent) (hs : SentTo d.made.dev.target s) : s.dest.udpAddr = some ((0, 0, 0, 0), 47808) := by
  rw [sentTo_dest hs, setLength_udp]
  refine made_udp d ?_
  rcases hip with h | ⟨o, h, hl⟩
  · rw [h]; rfl
  · rw [h]
    unfold packIP4
    simp only
    split
    · rename_i h4; rw [h4] at hl; exact absurd rfl hl
    · rfl

/-- C66 fails: network numbers of more than 16 bits and MACs of more than 8 bits are cut
off: 65536 is the local network, 65536 + n the network n, MAC 256 the MAC 0. -/
theorem C66_fails_number (d : NetDevice) (s : Sent) (hs : SentTo d.made.dev.target s) :
    ∃ (n : UInt16) (m : UInt8), (n.toNat : Int) = d.networkNumber % 65536 ∧ (m.toNat : Int) = d.macMSTP % 256 ∧
      Addressed s.data (if n = 0 then none else some ⟨n.toNat, [m]⟩) := by
  refine ⟨UInt16.ofInt d.networkNumber, UInt8.ofInt d.macMSTP, ?_, ?_,
    C45_header_partial d.made.dev.target s hs (Or.inr (Or.inl rfl)) (by show 1 < 256; decide)⟩
  · exact toNat_ofInt16 _
  · exact toNat_ofInt8 _

/-- C66 fails: the device identifier of the device made is instance 0, whatever device id
is configured. -/
theorem C66_fails_id (d : NetDevice) : d.made.dev.id = ⟨8, 0⟩ ∧ d.made.dev.deviceId = d.deviceId := ⟨rfl, rfl⟩

/-- 10.0.0.9, port 47809, network 5, MAC 7: port 47808, DNET 5, DADR 7. -/
example : (clientReadProperty 9 {} (NetDevice.made { ip := .v4 10 0 0 9, port := 47809, networkNumber := 5, macMSTP := 7 }).dev.target
    { object := { id := ⟨2, 1⟩, properties := [⟨85, arrayAll, .one .nil, 0⟩] } } (some 3) (fun _ => {})).1.map Sent.data =
      [[0x81, 10, 0, 22, 1, 0x24, 0, 5, 1, 7, 255, 0, 5, 3, 12, 0x0C, 0, 0x80, 0, 1, 0x19, 85]] ∧
    (NetDevice.made { ip := .v4 10 0 0 9, port := 47809, networkNumber := 5, macMSTP := 7 }).dev.addr.mac =
      [10, 0, 0, 9, 0xBA, 0xC0] := by decide +kernel

end Bac.Props
