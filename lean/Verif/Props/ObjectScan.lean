import Verif.Props.ObjectList
import Verif.Props.EndToEnd
/-!
# C91 - C93: crashes and limits of `Objects`, and its result from the octets of a device
-/

namespace Bac.Props

open Spec (Inventory AppVal PropRef ReadResult ObjResult NetHeader)

/-! ## C91 Objects does not crash -/

theorem scanLoop_wf (net : MultiReader) (dev : ObjectID) (cs : List (Nat × Nat)) :
    ∀ reqs (m : ObjectMap), m.WF → (scanLoop net dev cs reqs m).objects.WF := by
  induction cs with
  | nil => intro reqs m h; exact h
  | cons c cs ih =>
    intro reqs m h
    unfold scanLoop
    dsimp only
    split
    · exact ih _ _ (h.copy _)
    · exact h
    · exact h
    · exact h

theorem objectList_wf (net : MultiReader) (dev : ObjectID) (maxApdu : UInt32) (len : Outcome (Except CallErr PropertyData)) :
    (objectList net dev maxApdu len).objects.WF := by
  unfold objectList
  split
  · dsimp only
    split
    · exact ObjectMap.wf_nil
    · exact scanLoop_wf net dev _ _ _ ObjectMap.wf_nil
  all_goals exact ObjectMap.wf_nil

theorem scanLoop_returns (net : MultiReader) (dev : ObjectID) (hn : ∀ n req, ∃ r, net n req = .ok r) (cs : List (Nat × Nat)) :
    ∀ reqs m, ∃ r, (scanLoop net dev cs reqs m).result = .ok r := by
  induction cs with
  | nil => intro reqs m; exact ⟨_, rfl⟩
  | cons c cs ih =>
    intro reqs m
    obtain ⟨r, hr⟩ := hn reqs.length (rangeRequest dev c.1 c.2)
    unfold scanLoop
    dsimp only
    rw [hr]
    match r with
    | .error e => exact ⟨_, rfl⟩
    | .ok [] => exact ⟨_, rfl⟩
    | .ok (o :: os) =>
      simp only [rangeResult]
      cases listedIds o.properties with
      | ok objs => exact ih _ _
      | error e => exact ⟨_, rfl⟩

/-- The type of the key has a map. -/
def HasType (m : ObjectMap) (k : ObjectID) : Prop := (mapGet k.typ m).isSome

theorem setInfo_returns {m : ObjectMap} {k : ObjectID} (h : HasType m k) (name description : List UInt8) :
    ∃ m', setInfo m k name description = .ok m' ∧ ∀ x, HasType m x → HasType m' x := by
  unfold setInfo
  unfold HasType at h
  cases hg : mapGet k.typ m with
  | none => rw [hg] at h; cases h
  | some sub =>
    refine ⟨_, rfl, fun x hx => ?_⟩
    unfold HasType at hx ⊢
    rw [mapGet_set]
    split
    · rfl
    · exact hx

theorem infoLoop_returns (resp : List Object) : ∀ (ks extra : List ObjectID) (m : ObjectMap), resp.length ≤ ks.length →
    (∀ o ∈ resp, 2 ≤ o.properties.length) → (∀ k ∈ ks, HasType m k) →
    ∃ m' r, infoLoop resp (ks ++ extra) m = (m', .ok r) ∧ ∀ x, HasType m x → HasType m' x := by
  induction resp with
  | nil => intro ks extra m _ _ _; exact ⟨m, _, rfl, fun _ h => h⟩
  | cons o resp ih =>
    intro ks extra m hl h2 hk
    cases ks with
    | nil => simp at hl
    | cons k ks =>
      have h2o := h2 o List.mem_cons_self
      unfold infoLoop
      match hp : o.properties with
      | [] => rw [hp] at h2o; simp at h2o
      | [p] => rw [hp] at h2o; simp at h2o
      | p :: q :: l =>
        simp only [List.cons_append]
        cases p.data.asString with
        | none => exact ⟨m, _, rfl, fun _ h => h⟩
        | some name =>
          cases q.data.asString with
          | none => exact ⟨m, _, rfl, fun _ h => h⟩
          | some description =>
            obtain ⟨m1, e1, h1⟩ := setInfo_returns (hk k List.mem_cons_self) name description
            simp only [e1]
            obtain ⟨m2, r, e2, h3⟩ := ih ks extra m1 (by simpa using hl) (fun x hx => h2 x (List.mem_cons_of_mem _ hx))
              (fun x hx => h1 x (hk x (List.mem_cons_of_mem _ hx)))
            exact ⟨m2, r, e2, fun x hx => h3 x (h1 x hx)⟩

/-- The answers to questions about objects are no longer than the questions, with two results each. -/
def C91_Fair (net : MultiReader) : Prop :=
  ∀ n (ks : List ObjectID) resp, net n (ks.map infoRequest) = .ok (.ok resp) →
    resp.length ≤ ks.length ∧ ∀ o ∈ resp, 2 ≤ o.properties.length

theorem infoGroups_returns (net : MultiReader) (hn : ∀ n req, ∃ r, net n req = .ok r) (hf : C91_Fair net) (gs : List (List Object)) :
    ∀ reqs (m : ObjectMap), (∀ g ∈ gs, ∀ o ∈ g, HasType m o.id) → ∃ r, (infoGroups net gs reqs m).result = .ok r := by
  induction gs with
  | nil => intro reqs m _; exact ⟨_, rfl⟩
  | cons g gs ih =>
    intro reqs m hm
    obtain ⟨r, hr⟩ := hn reqs.length ((infoObjects g).map infoRequest)
    unfold infoGroups
    dsimp only
    rw [hr]
    cases r with
    | error e => exact ⟨_, rfl⟩
    | ok resp =>
      obtain ⟨hl, h2⟩ := hf _ _ _ hr
      have hk : ∀ k ∈ infoObjects g, HasType m k := by
        intro k hk
        unfold infoObjects at hk
        obtain ⟨o, ho, rfl⟩ := List.mem_map.1 hk
        exact hm g List.mem_cons_self o (List.mem_filter.1 ho).1
      obtain ⟨m', r, e, hm'⟩ := infoLoop_returns resp (infoObjects g)
        (List.replicate (g.length - (infoObjects g).length) ⟨0, 0⟩) m hl h2 hk
      simp only [infoKeys, e]
      cases r with
      | error e => exact ⟨_, rfl⟩
      | ok u =>
        exact ih _ m' fun g' hg' o ho => hm' _ (hm g' (List.mem_cons_of_mem _ hg') o ho)

/-- C91 for devices that accept at least 20 octets, whose answers to questions about objects are fair and
when the read calls themselves return: `Objects` returns, whatever the answers contain otherwise.
Missing: the other cases crash, see `C91_fails_missing`, `C91_fails_extra`, `C55_fails`. -/
theorem C91_returns_partial (net : MultiReader) (hn : ∀ n req, ∃ r, net n req = .ok r) (hf : C91_Fair net)
    (order : List Object → List Object) (ho : ∀ l, (order l).Perm l) (dev : ObjectID) (maxApdu : UInt32)
    (hm : 20 ≤ maxApdu.toNat) (len : Except CallErr PropertyData) :
    ∃ r, (clientObjects net order dev maxApdu (.ok len)).result = .ok r := by
  have h0 : ¬ maxApdu.toNat / 20 = 0 := by omega
  have hr : ∃ r, (objectList net dev maxApdu (.ok len)).result = .ok r := by
    unfold objectList
    cases len with
    | error e => exact ⟨_, rfl⟩
    | ok d =>
      unfold objectListLen
      split
      · rename_i l _
        dsimp only
        rw [if_neg h0]
        exact scanLoop_returns net dev hn _ _ _
      · exact ⟨_, rfl⟩
      all_goals
        rename_i h
        dsimp only at h
        split at h
        · cases h
        · split at h <;> cases h
  obtain ⟨r, hr⟩ := hr
  have hw := objectList_wf net dev maxApdu (.ok len)
  unfold clientObjects
  dsimp only
  rw [hr]
  cases r with
  | error e => exact ⟨_, hr⟩
  | ok u =>
    refine infoGroups_returns net hn hf _ _ _ fun g hg o hog => ?_
    have hfl := groupsOf_flatten _ (order (objectList net dev maxApdu (.ok len)).objects.slice) (Nat.le_refl _)
    have hin : o ∈ order (objectList net dev maxApdu (.ok len)).objects.slice := by
      rw [← hfl]; exact List.mem_flatten.2 ⟨g, hg, hog⟩
    have := (ObjectMap.mem_slice hw o).1 ((ho _).mem_iff.1 hin)
    unfold ObjectMap.find at this
    unfold HasType
    cases h : mapGet o.id.typ (objectList net dev maxApdu (.ok len)).objects with
    | none => rw [h] at this; cases this
    | some s => rfl

/-- Results of one value each. -/
theorem carries_one {ps : List Property} {xs : List (PropRef × ReadResult)} (h : List.Forall₂ CarriesProp ps xs) :
    ∀ vs : List AppVal, xs.map Prod.snd = vs.map (fun v => .values [v]) →
      ∃ ss, List.Forall₂ Spec.Means ss vs ∧ ps.map Property.data = ss.map Value.one := by
  induction h with
  | nil =>
    intro vs hv
    cases vs with
    | nil => exact ⟨[], .nil, rfl⟩
    | cons v vs => simp at hv
  | cons hp _ ih =>
    intro vs hv
    cases vs with
    | nil => simp at hv
    | cons v vs =>
      simp only [List.map_cons, List.cons.injEq] at hv
      obtain ⟨ss, h1, h2⟩ := ih vs hv.2
      obtain ⟨_, vs', ss', e1, e2, e3⟩ := hp
      rw [hv.1] at e1
      injection e1 with e1
      subst e1
      cases e2 with
      | cons hm hn =>
        cases hn
        exact ⟨_ :: ss, .cons hm h1, by rw [List.map_cons, h2, e3]; rfl⟩

/-- C91 fails: a device that answers a question about objects with the name only, and leaves out the
description, crashes the client.  From the octets of the answer (in any frame, for any objects and any
name) to the index out of range. -/
theorem C91_fails_missing (src : Address) (pending : UInt8 → Bool) (h : NetHeader) (hok : h.Ok)
    (f : UInt8) (hf : f = 10 ∨ f = 11) (id : UInt8) (my : Address) (dev : Device) (hmy : my.net = 0)
    (ha : dev.addr.net = 0 ∨ dev.addr.adr.length = 1) (ks : List ObjectID) (hv : ∀ k ∈ ks, C04_Valid k)
    (hfit : (Spec.requestHeader (if dev.addr.net = 0 then none else some ⟨dev.addr.net.toNat, dev.addr.adr⟩)).octets.length
      + (Spec.readMultiple id ((ks.map infoRequest).map readSpecOf)).length ≤ dev.maxApdu.toNat)
    (o : ObjectID) (ho : C04_Valid o) (name : List UInt8) (hname : name.length + 1 < 2 ^ 32) (rs : List ObjResult)
    (hrs : ∀ r ∈ rs, ObjOk r) :
    ∃ d N out, handleMsg src pending (Spec.frame f (h.octets ++ Spec.complexAck id 14
        ((⟨o.typ.toNat, o.inst.toNat, [(⟨77, none⟩, .values [.chars name])]⟩ :: rs).flatMap ObjResult.octets)))
        = ([.deliver id d], .ok ()) ∧
      (∀ fuel ≥ N, ∀ script, script 0 = ⟨none, d.toRecv⟩ →
        (clientReadMulti fuel my dev (ks.map infoRequest) (some id) script).2 = .ok (.ok out)) ∧
      ∀ keys m, infoLoop out keys m = (m, .panic .indexOutOfRange) := by
  have hall : ∀ r ∈ (⟨o.typ.toNat, o.inst.toNat, [(⟨77, none⟩, .values [.chars name])]⟩ :: rs : List ObjResult), ObjOk r := by
    intro r hr
    rcases List.mem_cons.1 hr with rfl | hr
    · refine ⟨ho, by simp, ?_⟩
      intro x hx
      rw [List.mem_singleton] at hx
      subst hx
      refine ⟨⟨show (77 : Nat) < 2 ^ 32 by decide, by simp⟩, _, rfl, ?_⟩
      intro v hv
      rw [List.mem_singleton] at hv
      subst hv
      exact ⟨hname, trivial⟩
    · exact hrs r hr
  obtain ⟨d, kind, dest, out, N, h1, h2, h3⟩ := C78_readMulti_partial src pending h hok f hf id my dev hmy ha
    (ks.map infoRequest) (by
      intro x hx
      obtain ⟨k, hk, rfl⟩ := List.mem_map.1 hx
      exact hv k hk) hfit _ hall
  refine ⟨d, N, out, h1, fun fuel hfu script hs => by rw [h3 fuel hfu script hs], ?_⟩
  intro keys m
  cases h2 with
  | cons hc _ =>
    rename_i x xs _
    obtain ⟨ss, hss, hd⟩ := carries_one hc.2.2 [.chars name] rfl
    cases hss with
    | cons hm hn =>
      cases hn
      have hm : _ = _ := hm
      subst hm
      obtain ⟨p, hp, hpd⟩ : ∃ p, x.properties = [p] ∧ p.data = .one (.str name) := by
        match hx : x.properties, hd with
        | [p], hd => exact ⟨p, rfl, by simpa [hx] using hd⟩
        | [], hd => simp at hd
        | _ :: _ :: _, hd => simp at hd
      unfold infoLoop
      rw [hp]
      simp only [hpd, Value.asString]

theorem infoLoop_long (resp : List Object) : ∀ (ks : List ObjectID) (m : ObjectMap), ks.length < resp.length →
    (∀ o ∈ resp, ∃ a b, o.properties.map Property.data = [.one (.str a), .one (.str b)]) → (∀ k ∈ ks, HasType m k) →
    (infoLoop resp ks m).2 = .panic .indexOutOfRange := by
  induction resp with
  | nil => intro ks m h _ _; simp at h
  | cons o resp ih =>
    intro ks m hl h2 hk
    obtain ⟨a, b, hab⟩ := h2 o List.mem_cons_self
    obtain ⟨p, q, hps, hp, hq⟩ : ∃ p q, o.properties = [p, q] ∧ p.data = .one (.str a) ∧ q.data = .one (.str b) := by
      match hps : o.properties, hab with
      | [p, q], h =>
        simp only [List.map_cons, List.map_nil, List.cons.injEq, and_true] at h
        exact ⟨p, q, rfl, h.1, h.2⟩
      | [], h => simp at h
      | [_], h => simp at h
      | _ :: _ :: _ :: _, h => simp at h
    unfold infoLoop
    rw [hps]
    simp only [hp, hq, Value.asString]
    cases ks with
    | nil => rfl
    | cons k ks =>
      obtain ⟨m1, e1, h1⟩ := setInfo_returns (hk k List.mem_cons_self) a b
      simp only [e1]
      exact ih ks m1 (by simpa using hl) (fun x hx => h2 x (List.mem_cons_of_mem _ hx))
        (fun x hx => h1 x (hk x (List.mem_cons_of_mem _ hx)))

/-- C91 fails: a device that adds one object to each of its answers crashes the client, whatever its
objects (of standard types) are. -/
theorem C91_fails_extra (inv : Inventory) (x : ObjectID) (dev : ObjectID) (maxApdu : UInt32) (hm : 20 ≤ maxApdu.toNat)
    (hl : inv.ids.length < 4294967296) (hne : inv.ids ≠ []) (ht : ∀ k ∈ inv.ids, k.typ.toNat ≤ 128)
    (order : List Object → List Object) (ho : ∀ l, (order l).Perm l) :
    (clientObjects (fun _ req => .ok (.ok (inv.answer (req ++ [infoRequest x])))) order dev maxApdu (C58_len inv dev)).result =
      .panic .indexOutOfRange := by
  have hscan := scan_of (fun _ req => .ok (.ok (inv.answer (req ++ [infoRequest x])))) inv.ids dev maxApdu hm hl
    (C58_len inv dev) ⟨_, _, _, rfl, rfl, rfl⟩ (by
      intro n first last h1 _ h2 _
      have := server_range inv dev n first last h1 h2 hl
      unfold C58_server Inventory.answer rangeRequest at this
      unfold Inventory.answer rangeRequest
      simp only [List.map_cons, List.map_nil, List.cons_append, List.nil_append, rangeResult] at this ⊢
      exact this)
  have hw := objectList_wf (fun _ req => .ok (.ok (inv.answer (req ++ [infoRequest x])))) dev maxApdu (C58_len inv dev)
  obtain ⟨h1, h2⟩ := hscan
  unfold clientObjects
  dsimp only
  rw [h2]
  dsimp only
  unfold allObjectInformation
  generalize objectList (fun _ req => .ok (.ok (inv.answer (req ++ [infoRequest x])))) dev maxApdu (C58_len inv dev) = s at *
  have hperm := ho s.objects.slice
  generalize order s.objects.slice = objs at *
  have hfind : ∀ o ∈ objs, s.objects.find o.id = some o := fun o hin => (ObjectMap.mem_slice hw o).1 (hperm.mem_iff.1 hin)
  have hids : ∀ o ∈ objs, o.id ∈ inv.ids := by
    intro o hin
    have := hfind o hin
    rw [h1, ObjectMap.find_copy_ids] at this
    by_contra hc
    rw [if_neg hc] at this; cases this
  have hobjs : objs ≠ [] := by
    obtain ⟨k, hk⟩ := List.exists_mem_of_length_pos (List.length_pos_iff.2 hne)
    have : s.objects.find k = some { id := k } := by rw [h1, ObjectMap.find_copy_ids, if_pos hk]
    have := hperm.mem_iff.2 ((ObjectMap.mem_slice hw { id := k }).2 this)
    intro e
    rw [e] at this; cases this
  have hpos := List.length_pos_iff.2 hobjs
  have hg : groupsOf objs.length objs = objs.take 5 :: groupsOf (objs.length - 1) (objs.drop 5) := by
    cases hn : objs.length with
    | zero => omega
    | succ n => rw [groupsOf, if_neg hobjs]; rfl
  rw [hg]
  have hin : infoObjects (objs.take 5) = (objs.take 5).map Object.id := by
    unfold infoObjects
    rw [List.filter_eq_self.2]
    intro o hot
    have := ht o.id (hids o (List.mem_of_mem_take hot))
    simp only [Bool.not_eq_true', decide_eq_false_iff_not]
    intro h
    have h : (128 : UInt16).toNat < o.id.typ.toNat := h
    have e : (128 : UInt16).toNat = 128 := rfl
    omega
  have hkeys : infoKeys (objs.take 5) = (objs.take 5).map Object.id := by
    unfold infoKeys
    rw [hin, List.length_map, Nat.sub_self]; simp
  have hp : (infoLoop (inv.answer ((infoObjects (objs.take 5)).map infoRequest ++ [infoRequest x])) (infoKeys (objs.take 5)) s.objects).2 =
      .panic .indexOutOfRange := by
    refine infoLoop_long _ _ _ ?_ ?_ ?_
    · rw [hkeys, hin]
      unfold Inventory.answer
      simp
    · intro o hoa
      unfold Inventory.answer at hoa
      obtain ⟨y, hy, rfl⟩ := List.mem_map.1 hoa
      rw [← List.map_singleton, ← List.map_append] at hy
      obtain ⟨k, _, rfl⟩ := List.mem_map.1 hy
      exact ⟨inv.name k, inv.description k, rfl⟩
    · intro k hk
      rw [hkeys] at hk
      obtain ⟨o, hok, rfl⟩ := List.mem_map.1 hk
      have := hfind o (List.mem_of_mem_take hok)
      unfold ObjectMap.find at this
      unfold HasType
      cases h : mapGet o.id.typ s.objects with
      | none => rw [h] at this; cases this
      | some s => rfl
  unfold infoGroups
  dsimp only
  split
  · rename_i e; rw [e] at hp; cases hp
  · rename_i e; rw [e] at hp; exact hp

/-- The device [8,1] with one object; the answers have another one. -/
example : (clientObjects (fun _ req => .ok (.ok (Inventory.answer ⟨[⟨8, 1⟩], fun _ => [65], fun _ => []⟩ (req ++ [infoRequest ⟨0, 1⟩]))))
    id ⟨8, 1⟩ 50 (C58_len ⟨[⟨8, 1⟩], fun _ => [65], fun _ => []⟩ ⟨8, 1⟩)).result = .panic .indexOutOfRange := by decide +kernel

/-- The hypotheses of C91 hold for a device that answers in order, and for one that answers nothing but errors. -/
example : (∀ n req, ∃ r, C58_server ⟨[⟨8, 1⟩], fun _ => [65], fun _ => []⟩ n req = .ok r) ∧
    C91_Fair (C58_server ⟨[⟨8, 1⟩], fun _ => [65], fun _ => []⟩) ∧ C91_Fair (fun _ _ => .ok (.error .timeout)) := by
  refine ⟨fun _ _ => ⟨_, rfl⟩, ?_, ?_⟩
  · intro n ks resp h
    injection h with h
    injection h with h
    subst h
    refine ⟨by simp [Inventory.answer], ?_⟩
    intro o ho
    unfold Inventory.answer at ho
    obtain ⟨y, hy, rfl⟩ := List.mem_map.1 ho
    obtain ⟨k, _, rfl⟩ := List.mem_map.1 hy
    exact Nat.le_refl 2
  · intro n ks resp h
    injection h with h
    cases h

/-! ## C92 The requests of Objects fit the device -/

theorem ctxUnsigned_le (num v : Nat) (h : num ≤ 14) : (Spec.ctxUnsigned num v).length ≤ 5 := by
  unfold Spec.ctxUnsigned Spec.tagHeader Spec.unsignedOctets Spec.numExt Spec.lenExt
  have := minOctets_le4 v
  rw [if_pos h, if_pos this]
  simp only [List.length_append, length_bigEndian, List.length_cons, List.length_nil]
  omega

theorem ctxObjectId_len (num typ inst : Nat) (h : num ≤ 14) : (Spec.ctxObjectId num typ inst).length = 5 := by
  unfold Spec.ctxObjectId Spec.tagHeader Spec.objectId Spec.numExt Spec.lenExt
  rw [if_pos h, if_pos (show (4 : Nat) ≤ 4 by decide)]
  simp only [List.length_append, length_bigEndian, List.length_cons, List.length_nil]

/-- The size of the network header of a request. -/
def headerSize (dev : Device) : Nat :=
  (Spec.requestHeader (if dev.addr.net = 0 then none else some ⟨dev.addr.net.toNat, dev.addr.adr⟩)).octets.length

theorem headerSize_eq (dev : Device) : headerSize dev = if dev.addr.net = 0 then 2 else 6 + dev.addr.adr.length := by
  unfold headerSize
  by_cases h : dev.addr.net = 0
  · rw [if_pos h, if_pos h]; rfl
  · rw [if_neg h, if_neg h]
    simp [NetHeader.octets, Spec.requestHeader, Spec.NetAddr.octets, length_bigEndian]
    omega

theorem rangeRequest_size (dev : ObjectID) (id : UInt8) (first last : Nat) :
    (Spec.readMultiple id ((rangeRequest dev first last).map readSpecOf)).length ≤ 11 + 7 * (last + 1 - first) := by
  have hp : ∀ i : Nat, ((({ typ := 76, arrayIndex := UInt32.ofNat i } : Property).ref).octets 0 1).length ≤ 7 := by
    intro i
    unfold Property.ref PropRef.octets
    have h76 : (Spec.ctxUnsigned 0 (76 : UInt32).toNat).length = 2 := rfl
    rw [List.length_append, h76]
    split
    · have := ctxUnsigned_le 1 (by assumption) (by decide)
      omega
    · simp
  unfold Spec.readMultiple rangeRequest
  simp only [List.map_cons, List.map_nil, List.flatMap_cons, List.flatMap_nil, List.append_nil, readSpecOf, Spec.ReadSpec.octets,
    List.length_append, ctxObjectId_len 0 _ _ (by decide : 0 ≤ 14), List.map_map]
  have hq : (Spec.request id 14).length = 4 := rfl
  have ho : (Spec.openTag 1).length = 1 := rfl
  have hc : (Spec.closeTag 1).length = 1 := rfl
  rw [hq, ho, hc]
  have : ∀ l : List Nat, ((l.map (Property.ref ∘ fun i => ({ typ := 76, arrayIndex := UInt32.ofNat i } : Property))).flatMap
      fun p => p.octets 0 1).length ≤ 7 * l.length := by
    intro l
    induction l with
    | nil => simp
    | cons i l ih =>
      have := hp i
      simp only [List.map_cons, List.flatMap_cons, List.length_append, List.length_cons, Function.comp] at ih ⊢
      omega
  have := this (List.range' first (last + 1 - first))
  rw [List.length_range'] at this
  omega

theorem infoRequest_size (id : UInt8) (ks : List ObjectID) :
    (Spec.readMultiple id ((ks.map infoRequest).map readSpecOf)).length = 4 + 11 * ks.length := by
  unfold Spec.readMultiple
  have hq : (Spec.request id 14).length = 4 := rfl
  rw [List.length_append, hq]
  congr 1
  induction ks with
  | nil => rfl
  | cons k ks ih =>
    have hk : (readSpecOf (infoRequest k)).octets.length = 11 := by
      simp only [readSpecOf, Spec.ReadSpec.octets, List.length_append, ctxObjectId_len 0 _ _ (by decide : 0 ≤ 14), infoRequest]
      rfl
    simp only [List.map_cons, List.flatMap_cons, List.length_append, List.length_cons, hk] at ih ⊢
    omega

/-- C92 for the object list: every request of the scan (C55) is within the limit of every device on the
local network that accepts at least 20 octets, and of every device on another network that accepts at
least 50, with a hardware address of at most six octets. -/
theorem C92_scan_fits (dev : Device) (obj : ObjectID) (id : UInt8) (first last : Nat)
    (hd : dev.addr.net = 0 ∧ 20 ≤ dev.maxApdu.toNat ∨ dev.addr.adr.length ≤ 6 ∧ 50 ≤ dev.maxApdu.toNat)
    (hs : last + 1 - first ≤ dev.maxApdu.toNat / 20) :
    headerSize dev + (Spec.readMultiple id ((rangeRequest obj first last).map readSpecOf)).length ≤ dev.maxApdu.toNat := by
  have h1 := rangeRequest_size obj id first last
  rw [headerSize_eq]
  rcases hd with ⟨h, h2⟩ | ⟨h, h2⟩
  · rw [if_pos h]; omega
  · split <;> omega

/-- C92 for names and descriptions, for devices that accept at least 71 octets (hence for all the standard
limits but 50). -/
theorem C92_info_fits_partial (dev : Device) (id : UInt8) (ks : List ObjectID) (hk : ks.length ≤ 5)
    (hd : dev.addr.net = 0 ∧ 61 ≤ dev.maxApdu.toNat ∨ dev.addr.adr.length ≤ 6 ∧ 71 ≤ dev.maxApdu.toNat) :
    headerSize dev + (Spec.readMultiple id ((ks.map infoRequest).map readSpecOf)).length ≤ dev.maxApdu.toNat := by
  rw [infoRequest_size, headerSize_eq]
  rcases hd with ⟨h, h2⟩ | ⟨h, h2⟩
  · rw [if_pos h]; omega
  · split <;> omega

/-- C92 fails: for a device with the smallest limit of the standard, 50 octets, the question about five
objects is refused by the client itself, nothing is transmitted. -/
theorem C92_fails (fuel : Nat) (my : Address) (dev : Device) (hmy : my.net = 0) (hd : dev.maxApdu = 50)
    (hadr : dev.addr.adr.length ≤ 6) (id : UInt8)    (ks : List ObjectID) (hk : ks.length = 5) (hv : ∀ k ∈ ks, C04_Valid k) (script : Nat → Attempt) :
    clientReadMulti fuel my dev (ks.map infoRequest) (some id) script = ([], .ok (.error .tooLarge)) := by
  have hlen : (Spec.readMultiple id ((ks.map infoRequest).map readSpecOf)).length = 59 := by rw [infoRequest_size, hk]
  have hh : 2 ≤ (requestOctets dev.addr.setLength).length ∧ (requestOctets dev.addr.setLength).length < 2 ^ 20 := by
    unfold requestOctets
    rw [setLength_adr]
    split <;> simp [be16] <;> omega
  refine (C43_refused_partial fuel my dev (ks.map infoRequest) [] id script (fun _ => .null) hmy ?_ (by simp) (by simp) ?_).1 ?_ ?_
  · intro x hx
    obtain ⟨k, hk, rfl⟩ := List.mem_map.1 hx
    exact hv k hk
  · rw [hd]; decide
  · unfold readMultiPack
    rw [List.length_append, hlen, hd]
    show 50 < _
    omega
  · unfold readMultiPack
    rw [List.length_append, hlen]
    omega

/-! ## C93 Objects from the octets of a device -/

/-- `r` is the result of a `ReadMultiProperty` call for `req` that the device answers first: its answer,
under any network header, is delivered under the invoke id of the call. -/
def C93_Multi (my : Address) (dev : Device) (inv : Inventory) (req : List Object) (r : Outcome (Except CallErr (List Object))) : Prop :=
  ∃ src pending h f id d N, NetHeader.Ok h ∧ (f = 10 ∨ f = 11) ∧
    handleMsg src pending (Spec.frame f (h.octets ++ Spec.complexAck id 14
      ((inv.results (req.map readSpecOf)).flatMap ObjResult.octets))) = ([.deliver id d], .ok ()) ∧
    ∀ fuel ≥ N, ∀ script, script 0 = ⟨none, d.toRecv⟩ → (clientReadMulti fuel my dev req (some id) script).2 = r

/-- `r` is the result of the `ReadProperty` call for the length of the object list. -/
def C93_Len (my : Address) (dev : Device) (inv : Inventory) (obj : ObjectID) (r : Outcome (Except CallErr PropertyData)) : Prop :=
  ∃ src pending h f id d, NetHeader.Ok h ∧ (f = 10 ∨ f = 11) ∧
    handleMsg src pending (Spec.frame f (h.octets ++ Spec.complexAck id 12 (Spec.readPropertyAckBody obj.typ.toNat obj.inst.toNat
      ⟨76, some 0⟩ (AppVal.unsigned inv.ids.length).encoding))) = ([.deliver id d], .ok ()) ∧
    ∀ fuel ≥ 2, ∀ script, script 0 = ⟨none, d.toRecv⟩ → (clientReadProperty fuel my dev (listLenRequest obj) (some id) script).2 = r

theorem multi_result {my : Address} {dev : Device} {inv : Inventory} {req : List Object} {r : Outcome (Except CallErr (List Object))}
    (h : C93_Multi my dev inv req r) (hmy : my.net = 0) (ha : dev.addr.net = 0 ∨ dev.addr.adr.length = 1)
    (hv : ∀ o ∈ req, C04_Valid o.id)
    (hfit : ∀ id, headerSize dev + (Spec.readMultiple id (req.map readSpecOf)).length ≤ dev.maxApdu.toNat)
    (hr : ∀ x ∈ inv.results (req.map readSpecOf), ObjOk x) :
    ∃ out, r = .ok (.ok out) ∧ List.Forall₂ CarriesObj out (inv.results (req.map readSpecOf)) := by
  obtain ⟨src, pending, h, f, id, d, N, hok, hf, h1, h2⟩ := h
  obtain ⟨d', _, _, out, N', h1', h3, h4⟩ := C78_readMulti_partial src pending h hok f hf id my dev hmy ha req hv (hfit id) _ hr
  rw [h1] at h1'
  simp only [Prod.mk.injEq, List.cons.injEq, Effect.deliver.injEq, true_and, and_true] at h1'
  subst h1'
  have e := h2 (N + N') (by omega) (fun _ => ⟨none, d.toRecv⟩) rfl
  rw [h4 (N + N') (by omega) _ rfl] at e
  exact ⟨out, e.symm, h3⟩

theorem len_result {my : Address} {dev : Device} {inv : Inventory} {obj : ObjectID} {r : Outcome (Except CallErr PropertyData)}
    (h : C93_Len my dev inv obj r) (hmy : my.net = 0) (ha : dev.addr.net = 0 ∨ dev.addr.adr.length = 1)
    (hv : C04_Valid obj) (hl : inv.ids.length < 2 ^ 32) : C55_Told r (UInt32.ofNat inv.ids.length) := by
  obtain ⟨src, pending, h, f, id, d, hok, hf, h1, h2⟩ := h
  obtain ⟨d', _, _, out, ss, h1', h3, h4, h5, h6⟩ := C78_read_partial src pending h hok f hf id my dev hmy ha (listLenRequest obj)
    { typ := 76, arrayIndex := 0 } ⟨hv, ⟨[], rfl⟩, by decide⟩ [.unsigned inv.ids.length] (by
      intro v hv
      rw [List.mem_singleton] at hv
      subst hv
      exact ⟨hl, trivial⟩) 2 (by simp)
  have h1'' : handleMsg src pending (Spec.frame f (h.octets ++ Spec.complexAck id 12 (Spec.readPropertyAckBody obj.typ.toNat obj.inst.toNat
      ⟨76, some 0⟩ (AppVal.unsigned inv.ids.length).encoding))) = ([.deliver id d'], .ok ()) := by
    rw [← h1']
    simp only [List.flatMap_cons, List.flatMap_nil, List.append_nil]
    rfl
  rw [h1] at h1''
  simp only [Prod.mk.injEq, List.cons.injEq, Effect.deliver.injEq, true_and, and_true] at h1''
  subst h1''
  have e := h2 2 (Nat.le_refl _) (fun _ => ⟨none, d.toRecv⟩) rfl
  rw [h6 _ rfl] at e
  cases h3 with
  | cons hm hn =>
    cases hn
    obtain ⟨x, rfl, hx⟩ := hm
    refine ⟨out, _, _, e.symm, h5, ?_⟩
    have : x = UInt32.ofNat inv.ids.length := by
      apply UInt32.toNat_inj.1
      rw [hx, UInt32.toNat_ofNat']
      omega
    rw [← this]
    rfl

theorem means_ids (ss : List Scalar) (ids : List ObjectID)
    (h : List.Forall₂ Spec.Means ss (ids.map fun x => AppVal.objId x.typ.toNat x.inst.toNat)) : ss = ids.map Scalar.objId := by
  induction ids generalizing ss with
  | nil => cases h; rfl
  | cons i ids ih =>
    cases h with
    | cons hm hn =>
      obtain ⟨x, rfl, h1, h2⟩ := hm
      rw [ih _ hn, List.map_cons]
      congr 2
      cases x; cases i
      simp only [ObjectID.mk.injEq]
      exact ⟨UInt16.toNat_inj.1 h1, UInt32.toNat_inj.1 h2⟩

/-- The results a device gives for part of its object list. -/
theorem results_range (inv : Inventory) (obj : ObjectID) (first last : Nat) (h1 : 1 ≤ first) (h2 : last ≤ inv.ids.length)
    (h3 : inv.ids.length < 4294967295) :
    inv.results ((rangeRequest obj first last).map readSpecOf) = [⟨obj.typ.toNat, obj.inst.toNat,
      (List.range' first (last + 1 - first)).map fun i => (⟨76, some i⟩, inv.result obj.typ.toNat obj.inst.toNat ⟨76, some i⟩)⟩] := by
  unfold Inventory.results rangeRequest
  simp only [List.map_cons, List.map_nil, readSpecOf, List.map_map, List.cons.injEq, ObjResult.mk.injEq, true_and, and_true]
  refine List.map_congr_left fun i hi => ?_
  rw [List.mem_range'_1] at hi
  have hi' : (UInt32.ofNat i).toNat = i := by rw [UInt32.toNat_ofNat']; omega
  have hne : UInt32.ofNat i ≠ 0xFFFFFFFF := by
    intro e
    rw [e] at hi'
    have : (0xFFFFFFFF : UInt32).toNat = 4294967295 := rfl
    omega
  have : ({ typ := 76, arrayIndex := UInt32.ofNat i } : Property).ref = ⟨76, some i⟩ := by
    unfold Property.ref
    simp only [hne, if_false, hi']
    rfl
  simp only [Function.comp, this]

theorem result_at (inv : Inventory) (t n i : Nat) (h1 : 1 ≤ i) (x : ObjectID) (hx : inv.ids[i - 1]? = some x) :
    inv.result t n ⟨76, some i⟩ = .values [.objId x.typ.toNat x.inst.toNat] := by
  obtain ⟨j, rfl⟩ : ∃ j, i = j + 1 := ⟨i - 1, by omega⟩
  unfold Inventory.result
  rw [Nat.add_sub_cancel] at hx
  simp only [if_true, hx]

theorem results_info (inv : Inventory) (ks : List ObjectID) :
    inv.results ((ks.map infoRequest).map readSpecOf) = ks.map fun k => ⟨k.typ.toNat, k.inst.toNat,
      [(⟨77, none⟩, .values [.chars (inv.name k)]), (⟨28, none⟩, .values [.chars (inv.description k)])]⟩ := by
  unfold Inventory.results
  rw [List.map_map, List.map_map]
  refine List.map_congr_left fun k _ => ?_
  simp only [Function.comp, readSpecOf, infoRequest, List.map_cons, List.map_nil, Property.ref, Inventory.result]
  have e77 : (77 : UInt32).toNat = 77 := rfl
  have e28 : (28 : UInt32).toNat = 28 := rfl
  simp [e77, e28]

/-- The result of asking a device for part of its object list. -/
theorem range_octets (my : Address) (dev : Device) (inv : Inventory) (obj : ObjectID) (hmy : my.net = 0)
    (ha : dev.addr.net = 0 ∨ dev.addr.adr.length = 1) (hobj : C04_Valid obj) (hl : inv.ids.length < 4294967295)
    (hvalid : ∀ k ∈ inv.ids, C04_Valid k)
    (net : MultiReader) (hnet : ∀ n req, (∀ x ∈ inv.results (req.map readSpecOf), ObjOk x) → C93_Multi my dev inv req (net n req))
    (n first last : Nat) (h1 : 1 ≤ first) (h12 : first ≤ last) (h2 : last ≤ inv.ids.length)
    (hfit : ∀ id, headerSize dev + (Spec.readMultiple id ((rangeRequest obj first last).map readSpecOf)).length ≤ dev.maxApdu.toNat) :
    rangeResult (net n (rangeRequest obj first last)) =
      .ok (.ok (((List.range' first (last + 1 - first)).filterMap fun i => inv.ids[i - 1]?).map fun i => { id := i })) := by
  have hres := results_range inv obj first last h1 h2 hl
  have hat : ∀ i ∈ List.range' first (last + 1 - first), ∃ x, inv.ids[i - 1]? = some x ∧
      inv.result obj.typ.toNat obj.inst.toNat ⟨76, some i⟩ = .values [.objId x.typ.toNat x.inst.toNat] := by
    intro i hi
    rw [List.mem_range'_1] at hi
    have hlt : i - 1 < inv.ids.length := by omega
    exact ⟨_, List.getElem?_eq_getElem hlt, result_at inv _ _ i (by omega) _ (List.getElem?_eq_getElem hlt)⟩
  have hok : ∀ x ∈ inv.results ((rangeRequest obj first last).map readSpecOf), ObjOk x := by
    intro x hx
    rw [hres, List.mem_singleton] at hx
    subst hx
    refine ⟨hobj, ?_, ?_⟩
    · intro e
      have e := congrArg List.length e
      simp only [List.length_map, List.length_range', List.length_nil] at e
      omega
    · intro y hy
      obtain ⟨i, hi, rfl⟩ := List.mem_map.1 hy
      obtain ⟨x, hx, hr⟩ := hat i hi
      rw [List.mem_range'_1] at hi
      refine ⟨⟨show (76 : Nat) < 2 ^ 32 by decide, ?_⟩, _, hr, ?_⟩
      · intro j hj
        have hj : some i = some j := hj
        injection hj
        omega
      · intro v hv
        rw [List.mem_singleton] at hv
        subst hv
        exact ⟨hvalid x (List.mem_of_getElem? hx), trivial⟩
  obtain ⟨out, e, hc⟩ := multi_result (hnet n _ hok) hmy ha (by
    intro o hmem
    unfold rangeRequest at hmem
    rw [List.mem_singleton] at hmem
    subst hmem
    exact hobj) hfit hok
  rw [e]
  rw [hres] at hc
  cases hc with
  | cons hco hn =>
    cases hn
    rename_i o
    obtain ⟨ss, hss, hdata⟩ := carries_one hco.2.2
      (((List.range' first (last + 1 - first)).filterMap fun i => inv.ids[i - 1]?).map fun x => .objId x.typ.toNat x.inst.toNat) (by
        simp only [List.map_map]
        generalize List.range' first (last + 1 - first) = l at hat
        induction l with
        | nil => rfl
        | cons i l ih =>
          obtain ⟨x, hx, hr⟩ := hat i List.mem_cons_self
          rw [List.map_cons, List.filterMap_cons, ih fun j hj => hat j (List.mem_cons_of_mem _ hj)]
          simp only [hx, Function.comp, hr, List.map_cons])
    simp only [rangeResult]
    congr 1
    refine listedIds_of _ _ ?_
    rw [hdata, means_ids _ _ hss, List.map_map]
    rfl

theorem results_info_ok (inv : Inventory) (ks : List ObjectID) (hmem : ∀ k ∈ ks, k ∈ inv.ids) (hvalid : ∀ k ∈ inv.ids, C04_Valid k)
    (hnames : ∀ k ∈ inv.ids, (inv.name k).length < 2 ^ 31 ∧ (inv.description k).length < 2 ^ 31) :
    ∀ x ∈ inv.results ((ks.map infoRequest).map readSpecOf), ObjOk x := by
  have hres := results_info inv ks
  intro x hx
  rw [hres] at hx
  obtain ⟨k, hk, rfl⟩ := List.mem_map.1 hx
  have hn := hnames k (hmem k hk)
  refine ⟨hvalid k (hmem k hk), by simp, ?_⟩
  intro y hy
  simp only [List.mem_cons, List.not_mem_nil, or_false] at hy
  rcases hy with rfl | rfl
  · refine ⟨⟨show (77 : Nat) < 2 ^ 32 by decide, by simp⟩, _, rfl, ?_⟩
    intro v hv
    rw [List.mem_singleton] at hv
    subst hv
    exact ⟨show (inv.name k).length + 1 < 2 ^ 32 by omega, trivial⟩
  · refine ⟨⟨show (28 : Nat) < 2 ^ 32 by decide, by simp⟩, _, rfl, ?_⟩
    intro v hv
    rw [List.mem_singleton] at hv
    subst hv
    exact ⟨show (inv.description k).length + 1 < 2 ^ 32 by omega, trivial⟩

/-- The result of asking a device for names and descriptions. -/
theorem info_octets (my : Address) (dev : Device) (inv : Inventory) (hmy : my.net = 0)
    (ha : dev.addr.net = 0 ∨ dev.addr.adr.length = 1)
    (hvalid : ∀ k ∈ inv.ids, C04_Valid k)
    (hnames : ∀ k ∈ inv.ids, (inv.name k).length < 2 ^ 31 ∧ (inv.description k).length < 2 ^ 31)
    (net : MultiReader) (hnet : ∀ n req, (∀ x ∈ inv.results (req.map readSpecOf), ObjOk x) → C93_Multi my dev inv req (net n req))
    (n : Nat) (ks : List ObjectID) (hmem : ∀ k ∈ ks, k ∈ inv.ids)
    (hfit : ∀ id, headerSize dev + (Spec.readMultiple id ((ks.map infoRequest).map readSpecOf)).length ≤ dev.maxApdu.toNat) :
    ∃ resp, net n (ks.map infoRequest) = .ok (.ok resp) ∧
      resp.map (fun o => o.properties.map Property.data) =
        ks.map (fun k => [.one (.str (inv.name k)), .one (.str (inv.description k))]) := by
  have hres := results_info inv ks
  have hok := results_info_ok inv ks hmem hvalid hnames
  obtain ⟨out, e, hc⟩ := multi_result (hnet n _ hok) hmy ha (by
    intro o ho
    obtain ⟨k, hk, rfl⟩ := List.mem_map.1 ho
    exact hvalid k (hmem k hk)) hfit hok
  refine ⟨out, e, ?_⟩
  rw [hres] at hc
  clear e hres hok hnet hmem hfit
  induction ks generalizing out with
  | nil => cases hc; rfl
  | cons k ks ih =>
    cases hc with
    | cons hco hn =>
      obtain ⟨ss, hss, hdata⟩ := carries_one hco.2.2 [.chars (inv.name k), .chars (inv.description k)] rfl
      rw [List.map_cons, List.map_cons, ih _ hn, hdata]
      cases hss with
      | cons hm hss =>
        cases hss with
        | cons hm' hss =>
          cases hss
          have hm : _ = _ := hm
          have hm' : _ = _ := hm'
          subst hm hm'
          rfl

/-- C93.  For a device with any object list of valid identifiers of standard types, any names and
descriptions, whose answers arrive under any legal network headers and in time, `Objects` succeeds and
the table it returns holds exactly the listed objects, with the device's names and descriptions.
Missing: limits below 61 octets (71 on another network, C92), other types (C56); addresses as in C45. -/
theorem C93_objects_partial (my : Address) (dev : Device) (inv : Inventory) (obj : ObjectID) (hmy : my.net = 0)
    (ha : dev.addr.net = 0 ∨ dev.addr.adr.length = 1)
    (hd : dev.addr.net = 0 ∧ 61 ≤ dev.maxApdu.toNat ∨ 71 ≤ dev.maxApdu.toNat) (hobj : C04_Valid obj)
    (hl : inv.ids.length < 4294967295) (hids : ∀ k ∈ inv.ids, k.typ.toNat ≤ 128 ∧ k.inst.toNat < 2 ^ 22)
    (hnames : ∀ k ∈ inv.ids, (inv.name k).length < 2 ^ 31 ∧ (inv.description k).length < 2 ^ 31)
    (net : MultiReader) (hnet : ∀ n req, (∀ x ∈ inv.results (req.map readSpecOf), ObjOk x) → C93_Multi my dev inv req (net n req))
    (len : Outcome (Except CallErr PropertyData)) (hlen : C93_Len my dev inv obj len)
    (order : List Object → List Object) (ho : ∀ l, (order l).Perm l) :
    (clientObjects net order obj dev.maxApdu len).result = .ok (.ok ()) ∧
    ∀ id, (clientObjects net order obj dev.maxApdu len).objects.find id =
      if id ∈ inv.ids then some { id := id, name := inv.name id, description := inv.description id } else none := by
  have hvalid : ∀ k ∈ inv.ids, C04_Valid k := fun k hk => ⟨by have := (hids k hk).1; omega, (hids k hk).2⟩
  have hinfo : dev.addr.net = 0 ∧ 61 ≤ dev.maxApdu.toNat ∨ dev.addr.adr.length ≤ 6 ∧ 71 ≤ dev.maxApdu.toNat := by
    rcases ha with ha | ha
    · exact Or.inl ⟨ha, by omega⟩
    · rcases hd with hd | hd
      · exact Or.inl hd
      · exact Or.inr ⟨by omega, hd⟩
  have hscan : dev.addr.net = 0 ∧ 20 ≤ dev.maxApdu.toNat ∨ dev.addr.adr.length ≤ 6 ∧ 50 ≤ dev.maxApdu.toNat :=
    hinfo.imp (fun h => ⟨h.1, by omega⟩) (fun h => ⟨h.1, by omega⟩)
  have hobjs := objects_of net inv.ids inv.name inv.description obj dev.maxApdu (by omega) (by omega) len
    (len_result hlen hmy ha hobj (by omega)) ?_ ?_ order ho
  · refine ⟨hobjs.1, fun id => ?_⟩
    rw [hobjs.2]
    by_cases h : id ∈ inv.ids
    · rw [if_pos h, if_pos h, if_pos (hids id h).1]
    · rw [if_neg h, if_neg h]
  · intro n first last h1 h12 h2 h3
    exact range_octets my dev inv obj hmy ha hobj hl hvalid net hnet n first last h1 h12 h2
      (fun id => C92_scan_fits dev obj id first last hscan h3)
  · intro n ks hk _ hin _
    exact info_octets my dev inv hmy ha hvalid hnames net hnet n ks (fun k h => (hin k h).1)
      (fun id => C92_info_fits_partial dev id ks hk hinfo)

/-- Such calls exist for every request that fits: C93 is about the results of real calls. -/
theorem C93_answered (my : Address) (dev : Device) (inv : Inventory) (req : List Object) (hmy : my.net = 0)
    (ha : dev.addr.net = 0 ∨ dev.addr.adr.length = 1) (hv : ∀ o ∈ req, C04_Valid o.id)
    (hfit : headerSize dev + (Spec.readMultiple 1 (req.map readSpecOf)).length ≤ dev.maxApdu.toNat)
    (hr : ∀ x ∈ inv.results (req.map readSpecOf), ObjOk x) : ∃ r, C93_Multi my dev inv req r := by
  have hok : NetHeader.Ok (Spec.requestHeader none) :=
    ⟨rfl, show 0 < 4 by decide, by simp [Spec.requestHeader], by simp [Spec.requestHeader]⟩
  obtain ⟨d, _, _, out, N, h1, _, h3⟩ := C78_readMulti_partial {} (fun _ => true) (Spec.requestHeader none) hok 10 (Or.inl rfl) 1 my dev
    hmy ha req hv hfit _ hr
  exact ⟨_, {}, fun _ => true, Spec.requestHeader none, 10, 1, d, N, hok, Or.inl rfl, h1, fun fuel hf script hs => by rw [h3 fuel hf script hs]⟩

/-- The answer of a device to the question about its two objects, and to the one about its object list. -/
example : let inv : Inventory := ⟨[⟨8, 1⟩, ⟨0, 5⟩], fun id => [65, id.inst.toUInt8], fun _ => [66]⟩
    (inv.results (([⟨0, 5⟩].map infoRequest).map readSpecOf)).flatMap ObjResult.octets =
      [0x0C, 0, 0, 0, 5, 0x1E, 0x29, 77, 0x4E, 0x73, 0, 65, 5, 0x4F, 0x29, 28, 0x4E, 0x72, 0, 66, 0x4F, 0x1F] ∧
    (inv.results ((rangeRequest ⟨8, 1⟩ 1 2).map readSpecOf)).flatMap ObjResult.octets =
      [0x0C, 2, 0, 0, 1, 0x1E, 0x29, 76, 0x39, 1, 0x4E, 0xC4, 2, 0, 0, 1, 0x4F, 0x29, 76, 0x39, 2, 0x4E, 0xC4, 0, 0, 0, 5, 0x4F, 0x1F] := by
  decide +kernel

/-! ## C94 One missing property does not spoil the others -/

/-- C94 fails: when the device reports an error for a single property (which it lacks, say the optional
description), after any readable objects `rs` and results `xs` and before any others, the call sends the request twice
and returns an error; none of the values is returned. -/
theorem C94_fails (src : Address) (pending : UInt8 → Bool) (h : NetHeader) (hok : h.Ok)
    (f : UInt8) (hf : f = 10 ∨ f = 11) (id : UInt8) (my : Address) (dev : Device) (hmy : my.net = 0)
    (os : List Object) (hv : ∀ o ∈ os, C04_Valid o.id) (h0 : dev.maxApdu ≠ 0)
    (hfit : (readMultiPack dev id os).length ≤ dev.maxApdu.toNat)
    (rs : List ObjResult) (hrs : ∀ r ∈ rs, ObjOk r) (typ inst : Nat)
    (hid : typ < 2 ^ 10 ∧ inst < 2 ^ 22) (xs more : List (PropRef × ReadResult))
    (hxs : ∀ x ∈ xs, ResultOk x) (r : PropRef) (hr : RefOk r) (cls code : UInt32) (after : List ObjResult) :
    ∃ d N s, handleMsg src pending (Spec.frame f (h.octets ++ Spec.complexAck id 14
        ((rs ++ ⟨typ, inst, xs ++ (r, .error cls.toNat code.toNat) :: more⟩ :: after).flatMap ObjResult.octets))) = ([.deliver id d], .ok ()) ∧
      ∀ fuel ≥ N, ∀ script, script 0 = ⟨none, d.toRecv⟩ → script 1 = ⟨none, d.toRecv⟩ →
        clientReadMulti fuel my dev os (some id) script = ([s, s], .ok (.error (.failed (.decode (.accessError cls code))))) := by
  obtain ⟨objects, _, N, hN⟩ := C36_access_error rs hrs typ inst hid xs hxs r hr cls code
    (more.flatMap (fun p => p.2.octets p.1) ++ Spec.closeTag 1 ++ after.flatMap ObjResult.octets)
  have e : rs.flatMap ObjResult.octets ++ Spec.ctxObjectId 0 typ inst ++ Spec.openTag 1 ++ xs.flatMap (fun p => p.2.octets p.1) ++
      (ReadResult.error cls.toNat code.toNat).octets r ++
      (more.flatMap (fun p => p.2.octets p.1) ++ Spec.closeTag 1 ++ after.flatMap ObjResult.octets) =
      (rs ++ ⟨typ, inst, xs ++ (r, .error cls.toNat code.toNat) :: more⟩ :: after).flatMap ObjResult.octets := by
    rw [List.flatMap_append, List.flatMap_cons]
    unfold ObjResult.octets
    dsimp only
    rw [List.flatMap_append, List.flatMap_cons]
    simp only [List.append_assoc]
  rw [e] at hN
  refine ⟨_, N, datagram dev.addr.setLength (readMultiPack dev id os), (C72_acks src pending h hok f hf id 14 _).2, ?_⟩
  intro fuel hfu script h1 h2
  have hk : ¬ dev.maxApdu < UInt32.ofNat (readMultiPack dev id os).length := by
    have := dev.maxApdu.toNat_lt
    rw [UInt32.lt_iff_toNat_lt, UInt32.toNat_ofNat_of_lt' (by show (readMultiPack dev id os).length < 2 ^ 32; omega)]
    omega
  obtain ⟨d', hd'⟩ := hN fuel hfu (some 14)
  have hstep : ∀ i, script i = script 0 → readMultiStep fuel (script i).recv = .ok (.retry (.decode (.accessError cls code))) := by
    intro i hi
    rw [hi, h1]
    simp only [Delivered.toRecv, readMultiStep, Spec.complexAck]
    rw [answerHeader_ack 0x30 id 14 (Or.inl rfl)]
    simp only [Outcome.ok_bind, hd']
    rfl
  rw [readMulti_call fuel my dev os id script hmy hv h0, if_neg hk,
    attempts_retry (by rw [h1]) (hstep 0 rfl), attempts_retry (by rw [h2]) (hstep 1 (by rw [h1, h2]))]
  rfl

end Bac.Props
