import Verif.Props.ObjectScan
import Verif.Props.Precise
import Verif.Props.Discovery
/-!
# C43, C79, C89, C92, C93: exactly which requests are transmitted, and for which devices `Objects` works
-/

namespace Bac.Props

open Bac
open _root_.Spec (Inventory firsts AppVal)

/-! ## C43 Oversized requests -/

theorem requestOctets_size (dev : Device) (a : Address) (h1 : a.net = dev.addr.net) (h2 : a.adr = dev.addr.adr) :
    (requestOctets a).length = headerSize dev := by
  rw [headerSize_eq]
  unfold requestOctets
  rw [h1, h2]
  split
  · rfl
  · simp [be16]
    omega

theorem attempts_some {α : Type} (dest : Address) (pack : List UInt8) (step : Recv → Outcome (Step α)) (script : Nat → Attempt) :
    (attempts dest pack step script 2 0 (.failed .noId)).1 ≠ [] := by
  obtain ⟨k, _, hk, hpos⟩ := attempts_sent dest pack step script 2 0 (.failed .noId)
  rw [hk]
  have := hpos (by omega)
  intro h
  have := congrArg List.length h
  simp only [List.length_replicate, List.length_nil] at this
  omega

/-- C43, the equivalence.  A multi-property request is transmitted exactly if the number of its octets,
network header included, *modulo 2³²*, is within the limit; otherwise the call returns the error that it is too large. -/
theorem C43_exact (fuel : Nat) (my : Address) (dev : Device) (os ws : List Object) (id : UInt8)
    (script : Nat → Attempt) (val : Property → AppVal) (hmy : my.net = 0) (hv : ∀ o ∈ os, C04_Valid o.id)
    (hv' : ∀ o ∈ ws, C04_Valid o.id) (hw : ∀ o ∈ ws, ∀ p ∈ o.properties, OwnType p.data (val p))
    (h0 : dev.maxApdu ≠ 0) :
    ((clientReadMulti fuel my dev os (some id) script).1 ≠ [] ↔
      (headerSize dev + (Spec.readMultiple id (os.map readSpecOf)).length) % 2 ^ 32 ≤ dev.maxApdu.toNat) ∧
    ((clientReadMulti fuel my dev os (some id) script).1 = [] →
      (clientReadMulti fuel my dev os (some id) script).2 = .ok (.error .tooLarge)) ∧
    ((clientWriteMulti my dev ws (some id) script).1 ≠ [] ↔
      (headerSize dev + (Spec.request id 16 ++ ws.flatMap (writtenObject 2 val)).length) % 2 ^ 32 ≤ dev.maxApdu.toNat) ∧
    ((clientWriteMulti my dev ws (some id) script).1 = [] →
      (clientWriteMulti my dev ws (some id) script).2 = .ok (.error .tooLarge)) := by
  have e1 : (readMultiPack dev id os).length = headerSize dev + (Spec.readMultiple id (os.map readSpecOf)).length := by
    unfold readMultiPack
    rw [List.length_append, requestOctets_size dev _ (setLength_net _) (setLength_adr _)]
  have e2 : (writeMultiPack dev id val ws).length =
      headerSize dev + (Spec.request id 16 ++ ws.flatMap (writtenObject 2 val)).length := by
    unfold writeMultiPack
    rw [List.length_append, requestOctets_size dev _ rfl rfl]
  have key : ∀ n : Nat, dev.maxApdu < UInt32.ofNat n ↔ ¬ n % 2 ^ 32 ≤ dev.maxApdu.toNat := by
    intro n
    rw [UInt32.lt_iff_toNat_lt, UInt32.toNat_ofNat']
    omega
  rw [readMulti_call fuel my dev os id script hmy hv h0, writeMulti_call my dev val ws id script hmy hv' hw, ← e1, ← e2]
  simp only [key]
  refine ⟨?_, ?_, ?_, ?_⟩
  all_goals split
  all_goals rename_i h
  · exact ⟨fun h => absurd rfl h, fun h' => absurd h' h⟩
  · exact ⟨fun _ => Decidable.of_not_not h, fun _ => attempts_some _ _ _ _⟩
  · exact fun _ => rfl
  · exact fun h => absurd h (attempts_some _ _ _ _)
  · exact ⟨fun h => absurd rfl h, fun h' => absurd h' h⟩
  · exact ⟨fun _ => Decidable.of_not_not h, fun _ => attempts_some _ _ _ _⟩
  · exact fun _ => rfl
  · exact fun h => absurd h (attempts_some _ _ _ _)

/-! ## C92 The requests of Objects respect the device's limit -/

/-- C92, the equivalence for names and descriptions: the question about `k` objects is transmitted exactly if
the limit is at least 6 + 11 k octets (10 + 11 k and the octets of the hardware address on another network). -/
theorem C92_exact (fuel : Nat) (my : Address) (dev : Device) (hmy : my.net = 0) (h0 : dev.maxApdu ≠ 0)
    (hadr : dev.addr.adr.length < 256) (id : UInt8) (ks : List ObjectID) (hk : ks.length ≤ 5) (hv : ∀ k ∈ ks, C04_Valid k)
    (script : Nat → Attempt) :
    (clientReadMulti fuel my dev (ks.map infoRequest) (some id) script).1 ≠ [] ↔
      (if dev.addr.net = 0 then 6 else 10 + dev.addr.adr.length) + 11 * ks.length ≤ dev.maxApdu.toNat := by
  rw [(C43_exact fuel my dev (ks.map infoRequest) [] id script (fun _ => .null) hmy (by
    intro x hx
    obtain ⟨k, hk, rfl⟩ := List.mem_map.1 hx
    exact hv k hk) (by simp) (by simp) h0).1, infoRequest_size, headerSize_eq]
  split <;> omega

/-- Four objects fit into 50 octets, five do not. -/
example : (clientReadMulti 9 {} { addr := { macLen := 6 }, maxApdu := 50 } ((List.replicate 4 ⟨0, 1⟩).map infoRequest) (some 1) (fun _ => {})).1 ≠ [] ∧
    (clientReadMulti 9 {} { addr := { macLen := 6 }, maxApdu := 50 } ((List.replicate 5 ⟨0, 1⟩).map infoRequest) (some 1) (fun _ => {})).1 = [] := by
  decide +kernel

/-! ## C93 Objects end to end -/

theorem nodup_length_le {α : Type} {a b : List α} (ha : a.Nodup) (h : ∀ x ∈ a, x ∈ b) : a.length ≤ b.length := by
  induction a generalizing b with
  | nil => simp
  | cons x a ih =>
    obtain ⟨b1, b2, rfl⟩ := List.append_of_mem (h x List.mem_cons_self)
    have hx := List.nodup_cons.1 ha
    have := ih (b := b1 ++ b2) hx.2 (by
      intro y hy
      have := h y (List.mem_cons_of_mem _ hy)
      simp only [List.mem_append, List.mem_cons] at this ⊢
      rcases this with h | rfl | h
      · exact Or.inl h
      · exact absurd hy hx.1
      · exact Or.inr h)
    simp only [List.length_append, List.length_cons] at this ⊢
    omega

theorem infoObjects_std (l : List Object) (h : ∀ o ∈ l, o.id.typ.toNat ≤ 128) : infoObjects l = l.map Object.id := by
  unfold infoObjects
  rw [List.filter_eq_self.2]
  intro o ho
  have := h o ho
  simp only [Bool.not_eq_true', decide_eq_false_iff_not]
  intro h
  have h : (128 : UInt16).toNat < o.id.typ.toNat := h
  have e : (128 : UInt16).toNat = 128 := rfl
  omega

theorem objects_refused (net : MultiReader) (ids : List ObjectID) (dev : ObjectID)
    (maxApdu : UInt32) (hm : 20 ≤ maxApdu.toNat) (hl : ids.length < 4294967296) (len : Outcome (Except CallErr PropertyData))
    (ht : C55_Told len (UInt32.ofNat ids.length))
    (hr : ∀ n first last, 1 ≤ first → first ≤ last → last ≤ ids.length → last + 1 - first ≤ maxApdu.toNat / 20 →
      rangeResult (net n (rangeRequest dev first last)) =
        .ok (.ok (((List.range' first (last + 1 - first)).filterMap fun i => ids[i - 1]?).map fun i => { id := i })))
    (hids : ∀ k ∈ ids, k.typ.toNat ≤ 128) (hne : ids ≠ []) (e : CallErr)
    (hinfo : ∀ n (ks : List ObjectID), ks.length = min 5 (firsts id ids).length → (∀ k ∈ ks, k ∈ ids) →
      net n (ks.map infoRequest) = .ok (.error e))
    (order : List Object → List Object) (ho : ∀ l, (order l).Perm l) :
    (clientObjects net order dev maxApdu len).result = .ok (.error (.read e)) := by
  obtain ⟨h1, h2⟩ := scan_of net ids dev maxApdu hm hl len ht hr
  have hf := fun i => ObjectMap.find_copy_ids ids [] i
  have hw : ObjectMap.WF (ObjectMap.copy [] (ids.map fun i => { id := i })) := ObjectMap.wf_nil.copy _
  unfold clientObjects
  dsimp only
  rw [h2, h1]
  dsimp only
  unfold allObjectInformation
  generalize hm0 : ObjectMap.copy [] (ids.map fun i => ({ id := i } : Object)) = m at *
  have hperm := ho m.slice
  generalize order m.slice = objs at *
  generalize (objectList net dev maxApdu len).requests = reqs
  have hin : ∀ i, i ∈ objs.map Object.id ↔ i ∈ ids := by
    intro i
    rw [(hperm.map Object.id).mem_iff, ObjectMap.mem_slice_ids hw, hf]
    by_cases h : i ∈ ids
    · simp [h]
    · simp [h, ObjectMap.find, mapGet]
  have hnd : (objs.map Object.id).Nodup := (hperm.map Object.id).nodup_iff.2 (ObjectMap.slice_nodup hw)
  have hlen : objs.length = (firsts id ids).length := by
    have hp : (objs.map Object.id).Perm (firsts id ids) := by
      refine perm_of_nodup hnd (by simpa using firsts_nodup id ids) ?_
      intro x
      rw [hin]
      constructor
      · intro hx
        obtain ⟨y, hy, e⟩ := firsts_complete id ids x hx
        have e : y = x := e
        exact e ▸ hy
      · exact firsts_subset _ _ _
    rw [← List.length_map (f := Object.id), hp.length_eq]
  have hobjs : objs ≠ [] := by
    obtain ⟨k, hk⟩ := List.exists_mem_of_length_pos (List.length_pos_iff.2 hne)
    intro e
    have := (hin k).2 hk
    rw [e] at this; cases this
  have hg : groupsOf objs.length objs = objs.take 5 :: groupsOf (objs.length - 1) (objs.drop 5) := by
    have hpos := List.length_pos_iff.2 hobjs
    cases hn : objs.length with
    | zero => omega
    | succ n => rw [groupsOf, if_neg hobjs]; rfl
  have hstd : infoObjects (objs.take 5) = (objs.take 5).map Object.id := by
    refine infoObjects_std _ fun o hot => hids o.id ((hin _).1 (List.mem_map.2 ⟨o, List.mem_of_mem_take hot, rfl⟩))
  rw [hg]
  unfold infoGroups
  dsimp only
  rw [hinfo _ (infoObjects (objs.take 5)) (by rw [hstd, List.length_map, List.length_take, hlen]) (by
    intro k hk
    rw [hstd] at hk
    obtain ⟨o, hok, rfl⟩ := List.mem_map.1 hk
    exact (hin _).1 (List.mem_map.2 ⟨o, List.mem_of_mem_take hok, rfl⟩))]

/-- The least limit of a device with `n` different objects for which `Objects` works. -/
def C93_least (dev : Device) (n : Nat) : Nat := (if dev.addr.net = 0 then 6 else 11) + 11 * min 5 n

/-- C93, the equivalence.  A device with `n` different objects of standard types, answering as in C93, with
a limit of at least 20 octets (25 on another network): `Objects` returns the table with names and descriptions if
the limit is at least 6 + 11 · min(5, n) (11 + 11 · min(5, n) on another network), and otherwise
an error, that the request is too large, in which case no name at all was asked for. -/
theorem C93_exact (my : Address) (dev : Device) (inv : Inventory) (obj : ObjectID) (hmy : my.net = 0)
    (ha : dev.addr.net = 0 ∨ dev.addr.adr.length = 1)
    (hd : dev.addr.net = 0 ∧ 20 ≤ dev.maxApdu.toNat ∨ 25 ≤ dev.maxApdu.toNat) (hobj : C04_Valid obj)
    (hl : inv.ids.length < 4294967295) (hids : ∀ k ∈ inv.ids, k.typ.toNat ≤ 128 ∧ k.inst.toNat < 2 ^ 22)
    (hnames : ∀ k ∈ inv.ids, (inv.name k).length < 2 ^ 31 ∧ (inv.description k).length < 2 ^ 31)
    (net : MultiReader) (hnet : ∀ n req, (∀ x ∈ inv.results (req.map readSpecOf), ObjOk x) → C93_Multi my dev inv req (net n req))
    (len : Outcome (Except CallErr PropertyData)) (hlen : C93_Len my dev inv obj len)
    (order : List Object → List Object) (ho : ∀ l, (order l).Perm l) :
    if C93_least dev (firsts id inv.ids).length ≤ dev.maxApdu.toNat then
      (clientObjects net order obj dev.maxApdu len).result = .ok (.ok ()) ∧
      ∀ id, (clientObjects net order obj dev.maxApdu len).objects.find id =
        if id ∈ inv.ids then some { id := id, name := inv.name id, description := inv.description id } else none
    else (clientObjects net order obj dev.maxApdu len).result = .ok (.error (.read .tooLarge)) := by
  have hvalid : ∀ k ∈ inv.ids, C04_Valid k := fun k hk => ⟨by have := (hids k hk).1; omega, (hids k hk).2⟩
  have hs : headerSize dev = if dev.addr.net = 0 then 2 else 7 := by
    rw [headerSize_eq]
    by_cases h : dev.addr.net = 0
    · rw [if_pos h, if_pos h]
    · rw [if_neg h, if_neg h]
      rcases ha with ha | ha
      · exact absurd ha h
      · rw [ha]
  have hrange : ∀ n first last, 1 ≤ first → first ≤ last → last ≤ inv.ids.length → last + 1 - first ≤ dev.maxApdu.toNat / 20 →
      rangeResult (net n (rangeRequest obj first last)) =
        .ok (.ok (((List.range' first (last + 1 - first)).filterMap fun i => inv.ids[i - 1]?).map fun i => { id := i })) := by
    intro n first last h1 h12 h2 h3
    refine range_octets my dev inv obj hmy ha hobj hl hvalid net hnet n first last h1 h12 h2 fun id => ?_
    have := rangeRequest_size obj id first last
    rw [hs]
    rcases hd with ⟨h, h2⟩ | h2
    · rw [if_pos h]; omega
    · split <;> omega
  have htold := len_result hlen hmy ha hobj (by omega)
  by_cases hfit : C93_least dev (firsts id inv.ids).length ≤ dev.maxApdu.toNat
  · rw [if_pos hfit]
    have hobjs := objects_of net inv.ids inv.name inv.description obj dev.maxApdu (by omega) (by omega) len
      htold hrange (by
        intro n ks hk hnd hin _
        refine info_octets my dev inv hmy ha hvalid hnames net hnet n ks (fun k h => (hin k h).1) fun id => ?_
        have := nodup_length_le hnd (b := firsts _root_.id inv.ids) (by
          intro k hk
          obtain ⟨y, hy, e⟩ := firsts_complete _root_.id inv.ids k (hin k hk).1
          have e : y = k := e
          exact e ▸ hy)
        rw [infoRequest_size, hs]
        unfold C93_least at hfit
        split at hfit <;> rename_i h <;> simp only [h, if_true, if_false] <;> omega) order ho
    refine ⟨hobjs.1, fun id => ?_⟩
    rw [hobjs.2]
    by_cases h : id ∈ inv.ids
    · rw [if_pos h, if_pos h, if_pos (hids id h).1]
    · rw [if_neg h, if_neg h]
  · rw [if_neg hfit]
    by_cases hne : inv.ids = []
    · exfalso
      apply hfit
      rw [hne]
      unfold C93_least
      show (if dev.addr.net = 0 then 6 else 11) + 11 * min 5 0 ≤ _
      split <;> omega
    · refine objects_refused net inv.ids obj dev.maxApdu (by omega) (by omega) len htold hrange (fun k hk => (hids k hk).1) hne _ ?_ order ho
      intro n ks hk hin
      obtain ⟨src, pending, h, f, id, d, N, hok, hf, h1, h2⟩ := hnet n _ (results_info_ok inv ks hin hvalid hnames)
      rw [← h2 N (Nat.le_refl _) (fun _ => ⟨none, d.toRecv⟩) rfl]
      have hx := C43_exact N my dev (ks.map infoRequest) [] id (fun _ => ⟨none, d.toRecv⟩) (fun _ => .null) hmy (by
        intro x hx
        obtain ⟨k, hk, rfl⟩ := List.mem_map.1 hx
        exact hvalid k (hin k hk)) (by simp) (by simp) (by
          intro h
          rw [h] at hd
          rcases hd with hd | hd
          · exact absurd hd.2 (by decide)
          · exact absurd hd (by decide))
      refine hx.2.1 ?_
      by_contra hc
      have := hx.1.1 hc
      apply hfit
      rw [infoRequest_size, hs, hk] at this
      unfold C93_least
      split at this <;> rename_i h <;> simp only [h, if_true, if_false] <;> omega

/-- The least limits of devices on the local network: four objects can be read with the smallest limit of the standard
(50 octets), five cannot. -/
example : C93_least {} 4 = 50 ∧ C93_least {} 5 = 61 ∧ C93_least {} 500 = 61 ∧ C93_least { addr := { net := 7, adr := [3] } } 5 = 66 := by
  decide

/-! ## C79 A complete write -/

theorem writeProperty_any (pre : List UInt8) (invoke : UInt8) (data : PropertyData) (p : Property)
    (more : List Property) (bs : List UInt8) (hid : C04_Valid data.object.id)
    (hp : data.object.properties = p :: more) (hpt : p.typ.toNat ≤ 4194303)
    (ha : Enc.new.appData p.data (pointTypeBOBV data.object) = .ok (none, ⟨bs, none⟩)) :
    (⟨pre, none⟩ : Enc).writeProperty invoke data = .ok (⟨pre ++ Spec.writeProperty invoke
      data.object.id.typ.toNat data.object.id.inst.toNat p.ref bs
      (if p.priority.toNat = 0 then none else some p.priority.toNat), none⟩, none) := by
  rw [enc_pre]
  unfold Enc.writeProperty
  simp only [Enc.apdu_request, Enc.readPropertyHeader_ok _ _ p more hid hp hpt, Outcome.ok_bind,
    hp, Enc.write_write, Option.isSome_none, Bool.false_eq_true, if_false, Enc.tagNum_open,
    Enc.appData'_any ha, Enc.tagNum_close, optPriority_eq, Enc.new_write, Outcome.pure_eq,
    Spec.writeProperty, List.append_assoc]
  have e4 : (3 + 1 : UInt8).toNat = 4 := rfl
  rw [e4]
  by_cases h : p.priority.toNat = 0 <;> simp [h, Enc.write]

/-- C79, the equivalence, for a write of one value the encoder accepts to anything but a binary present value of a device on the
local network or with a one-octet address: whatever happens to it, the call transmits the request of the
standard exactly if the value is one of C29 - no float64 and none of the int32 left out there. -/
theorem C79_exact (id : UInt8) (my : Address) (dev : Device) (hmy : my.net = 0)
    (ha : dev.addr.net = 0 ∨ dev.addr.adr.length = 1) (script : Nat → Attempt)
    (wp : PropertyData) (p : Property) (hvr : ValidRead wp p) (s : Scalar) (v : AppVal)
    (hb : ¬ IsBinaryPresentValue wp.object p) (hs : p.data = .one s) (hv : C29_own s = some v) (hw : v.WF) :
    (∃ dest kind, ⟨dest, Spec.frame kind ((Spec.requestHeader (if dev.addr.net = 0 then none else
            some ⟨dev.addr.net.toNat, dev.addr.adr⟩)).octets ++
          Spec.writeProperty id wp.object.id.typ.toNat wp.object.id.inst.toNat p.ref v.encoding
            (if p.priority.toNat = 0 then none else some p.priority.toNat))⟩ ∈ (clientWriteProperty my dev wp (some id) script).1) ↔
      C29_Right s := by
  obtain ⟨hid, ⟨more, hp⟩, hpt⟩ := hvr
  have hpt' : pointTypeBOBV wp.object = false := by
    rw [← Bool.not_eq_true]; exact fun hc => hb ((pointType_iff wp.object p more hp).mp hc)
  obtain ⟨bs, hbs⟩ : ∃ bs, Enc.new.appData (.one s) false = .ok (none, ⟨bs, none⟩) := by
    cases s <;> simp only [C29_own, Option.some.injEq, reduceCtorEq] at hv
    case null => exact ⟨_, by rw [Enc.appData_null, Enc.new_write]⟩
    case bool b => exact ⟨_, by rw [Enc.appData_bool, Enc.new_write]⟩
    case uint x => exact ⟨_, by rw [Enc.appData_uint, Enc.new_write]⟩
    case real x => exact ⟨_, by rw [Enc.appData_real, Enc.new_write]⟩
    case enum x => exact ⟨_, by rw [Enc.appData_enum, Enc.new_write]⟩
    case int x => exact ⟨_, by rw [Enc.appData_int, Enc.new_write]⟩
    case double x => exact ⟨_, by rw [Enc.appData_double, Enc.new_write]⟩
    case objId x => exact ⟨_, by rw [Enc.appData_objId, Enc.new_write]⟩
    case str l =>
      subst hv
      exact ⟨_, by rw [Enc.appData_str _ _ hw, Enc.new_write]⟩
  have happ : Enc.new.appData p.data (pointTypeBOBV wp.object) = .ok (none, ⟨bs, none⟩) := by
    rw [hpt', hs, hbs]
  rw [← C29_value_exact s v hv hw, hbs]
  simp only [Outcome.ok.injEq, Prod.mk.injEq, Enc.mk.injEq, and_true, true_and]
  have e := requestOctets_spec dev.addr.setLength (by
    rw [setLength_net]
    rcases ha with ha | ha
    · exact Or.inl ha
    · right; unfold Address.setLength; rw [if_pos (by omega)]; simp [ha])
  unfold station at e
  rw [setLength_net, setLength_adr] at e
  have hcall : (clientWriteProperty my dev wp (some id) script).1 = (attempts dev.addr.setLength (requestOctets dev.addr.setLength ++
      Spec.writeProperty id wp.object.id.typ.toNat wp.object.id.inst.toNat p.ref bs
        (if p.priority.toNat = 0 then none else some p.priority.toNat)) writeStep script 2 0 (.failed .noId)).1 := by
    unfold clientWriteProperty
    simp only [npdu_request my _ hmy, Outcome.ok_bind, writeProperty_any _ id wp p more bs hid hp hpt happ]
  rw [hcall, e]
  constructor
  · rintro ⟨dest, kind, hmem⟩
    have := congrArg Sent.data (mem_attempts hmem)
    rw [datagram_frame] at this
    simp only [Spec.frame, List.cons_append, List.nil_append, List.cons.injEq, true_and] at this
    have := (List.append_inj this.2 (by rw [length_bigEndian, length_bigEndian])).2
    have := List.append_cancel_left this
    simp only [Spec.writeProperty, List.append_cancel_right_eq, List.append_cancel_left_eq] at this
    exact this.symm
  · rintro rfl
    obtain ⟨k, _, hk, hpos⟩ := attempts_sent dev.addr.setLength ((Spec.requestHeader (if dev.addr.net = 0 then none else
            some ⟨dev.addr.net.toNat, dev.addr.adr⟩)).octets ++ Spec.writeProperty id wp.object.id.typ.toNat wp.object.id.inst.toNat p.ref v.encoding
        (if p.priority.toNat = 0 then none else some p.priority.toNat)) writeStep script 2 0 (.failed .noId)
    refine ⟨dev.addr.setLength, sendFunction dev.addr.setLength none, ?_⟩
    rw [hk, List.mem_replicate]
    refine ⟨by have := hpos (by omega); omega, ?_⟩
    rw [← datagram_frame]; rfl

/-- Writing the int32 200 and the int32 100 to property 4 of an analog value. -/
example : (clientWriteProperty {} { addr := { macLen := 6 } } { object := { id := ⟨2, 1⟩, properties := [⟨4, arrayAll, .one (.int 200), 0⟩] } }
      (some 3) (fun _ => {})).1.map (fun x => x.data.drop 13) = List.replicate 2 [0, 1, 0x19, 4, 0x3E, 0x31, 200, 0x3F] ∧
    (AppVal.signed 200).encoding = [0x32, 0, 200] ∧ ¬ C29_Right (.int 200) ∧ C29_Right (.int 100) := by
  refine ⟨by decide +kernel, by decide +kernel, ?_, ?_⟩ <;> simp [C29_Right]

/-! ## C89 The Who-Is request covers the requested range -/

/-- C89, the equivalence: the request sent asks for all the devices (instances up to 4194303) that the call would
return, exactly unless the upper limit is 2³² or more with a remainder below 4194303 and the lower limit is below 4194303. -/
theorem C89_exact (o : WhoIsOpts) (my broadcast : Address) (hmy : my.net = 0)
    (hb : broadcast.len = 0 ∧ broadcast.adr = []) :
    ∃ limits, whoIsPack my (o.dest broadcast) o.limits.1 o.limits.2 =
        .ok ((Spec.broadcastHeader (if o.globalBroadcast then 65535 else o.networkNumber.toNat)).octets ++ Spec.whoIs limits, none) ∧
      ((∀ inst : Nat, inst ≤ 4194303 → o.range.1 ≤ inst → (inst : Int) ≤ o.range.2 → Spec.asksFor limits inst) ↔
        ¬ (4294967296 ≤ o.high ∧ o.high % 4294967296 < 4194303 ∧ o.low < 4194303)) := by
  have hd : (o.dest broadcast).net.toNat = if o.globalBroadcast then 65535 else o.networkNumber.toNat := by
    unfold WhoIsOpts.dest; dsimp only; split <;> rfl
  unfold whoIsPack
  rw [npdu_broadcast my (o.dest broadcast) hmy hb, hd]
  obtain ⟨limits, hw, hl⟩ := whoIs_prefix (Spec.broadcastHeader (if o.globalBroadcast then 65535 else o.networkNumber.toNat)).octets
    (Int32.ofInt o.limits.1) (Int32.ofInt o.limits.2)
  refine ⟨limits, ?_, ?_⟩
  · simp only [Outcome.ok_bind, hw]
  · have e1 : o.limits.1 = if o.low ≤ 0 then 0 else o.low := rfl
    have e2 : o.limits.2 = if o.high ≤ 0 then 4194304 else o.high := rfl
    have e : o.range = o.limits := by
      unfold WhoIsOpts.range
      rw [if_neg]
      rw [e1, e2]
      split <;> split <;> omega
    rw [e, hl]
    have s : Int32.size = 4294967296 := rfl
    rw [Int32.toInt_ofInt, Int32.toInt_ofInt, s, Int.bmod_def, Int.bmod_def]
    constructor
    · rintro h ⟨h1, h2, h3⟩
      have := h 4194303 (by omega) (by rw [e1]; split <;> omega) (by rw [e2]; split <;> omega)
      rw [if_pos (by
        rw [e1, e2]
        split_ifs <;> omega)] at this
      simp only [Spec.asksFor] at this
      rw [e2] at this
      split_ifs at this <;> omega
    · intro h inst h1 h2 h3
      clear hl hw e
      generalize o.limits.1 = lo at *
      generalize o.limits.2 = hi at *
      split_ifs at e1 e2 ⊢ <;> first | trivial | (simp only [Spec.asksFor]; omega)

/-- 1..4294967301 asks for 1..5 only, 1..4299161600 for all devices. -/
example : (4294967296 ≤ (4294967301 : Int) ∧ (4294967301 : Int) % 4294967296 < 4194303) ∧
    ¬ (4299161600 : Int) % 4294967296 < 4194303 := by decide

end Bac.Props
