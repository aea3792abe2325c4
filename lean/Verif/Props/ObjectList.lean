import Verif.Lemmas.ObjectList
/-!
# C55 - C58: reading the objects of a device
-/

namespace Bac.Props

open Spec (Inventory indices firsts)

/-! ## C55 The scan covers every index exactly once -/

theorem rangeRequest_indices (dev : ObjectID) (first last : Nat) (h : last < 4294967296) :
    indices (rangeRequest dev first last) = List.range' first (last + 1 - first) := by
  unfold indices rangeRequest
  simp only [List.flatMap_cons, List.flatMap_nil, List.append_nil, List.map_map]
  conv_rhs => rw [← List.map_id (List.range' first (last + 1 - first))]
  refine List.map_congr_left fun i hi => ?_
  rw [List.mem_range'_1] at hi
  show (UInt32.ofNat i).toNat = i
  rw [UInt32.toNat_ofNat']
  omega

theorem chunks_le (l scan : Nat) (hs : 0 < scan) : ∀ c ∈ scanChunks l scan, c.2 ≤ l := by
  intro c hc
  have h1 := (chunks_size l scan hs c hc).1
  have h2 : c.2 ∈ (scanChunks l scan).flatMap (fun c => List.range' c.1 (c.2 + 1 - c.1)) :=
    List.mem_flatMap.2 ⟨c, hc, List.mem_range'_1.2 (by omega)⟩
  rw [chunks_indices l scan hs, List.mem_range'_1] at h2
  omega

/-- The device told the length of its object list. -/
def C55_Told (len : Outcome (Except CallErr PropertyData)) (l : UInt32) : Prop :=
  ∃ r p ps, len = .ok (.ok r) ∧ r.object.properties = p :: ps ∧ p.data = .one (.uint l)

theorem objectList_told {net : MultiReader} {dev : ObjectID} {maxApdu : UInt32}
    {len : Outcome (Except CallErr PropertyData)} {l : UInt32} (h : C55_Told len l) (hm : 20 ≤ maxApdu.toNat) :
    objectList net dev maxApdu len = scanLoop net dev (scanChunks l.toNat (maxApdu.toNat / 20)) [] [] := by
  obtain ⟨r, p, ps, rfl, hp, hd⟩ := h
  have h0 : ¬ maxApdu.toNat / 20 = 0 := by omega
  unfold objectList objectListLen
  simp only [hp, hd, if_neg h0]

/-- C55, for devices that accept at least 20 octets: whatever the device answers, the indices asked
for are the first of 1..l, in order and each once; all of them, if the scan succeeds; every request
asks for elements of the object list of the device, at least one and at most the scan size.
Missing: smaller devices, see `C55_fails`. -/
theorem C55_covers_partial (net : MultiReader) (dev : ObjectID) (maxApdu : UInt32)
    (len : Outcome (Except CallErr PropertyData)) (l : UInt32) (h : C55_Told len l) (hm : 20 ≤ maxApdu.toNat) :
    (∃ rest, (objectList net dev maxApdu len).requests.flatMap indices ++ rest = List.range' 1 l.toNat) ∧
    ((objectList net dev maxApdu len).result = .ok (.ok ()) →
      (objectList net dev maxApdu len).requests.flatMap indices = List.range' 1 l.toNat) ∧
    ∀ req ∈ (objectList net dev maxApdu len).requests, ∃ o, req = [o] ∧ o.id = dev ∧
      (∀ p ∈ o.properties, p.typ = 76) ∧ 1 ≤ o.properties.length ∧ o.properties.length ≤ maxApdu.toNat / 20 := by
  rw [objectList_told h hm]
  have hs : 0 < maxApdu.toNat / 20 := by omega
  obtain ⟨n, hn, h1, h2⟩ := scanLoop_requests net dev (scanChunks l.toNat (maxApdu.toNat / 20)) [] []
  have hl := l.toNat_lt
  have hidx : ∀ cs : List (Nat × Nat), (∀ c ∈ cs, c ∈ scanChunks l.toNat (maxApdu.toNat / 20)) →
      (cs.map fun c => rangeRequest dev c.1 c.2).flatMap indices = cs.flatMap fun c => List.range' c.1 (c.2 + 1 - c.1) := by
    intro cs hcs
    rw [List.flatMap_map]
    refine List.flatMap_congr fun c hc => ?_
    have := chunks_le l.toNat _ hs c (hcs c hc)
    exact rangeRequest_indices dev c.1 c.2 (by omega)
  rw [h1, List.nil_append]
  refine ⟨⟨((scanChunks l.toNat (maxApdu.toNat / 20)).drop n).flatMap fun c => List.range' c.1 (c.2 + 1 - c.1), ?_⟩, ?_, ?_⟩
  · rw [hidx _ (fun c hc => List.mem_of_mem_take hc), ← List.flatMap_append, List.take_append_drop,
      chunks_indices _ _ hs]
  · intro hr
    rw [h2 hr, List.take_length, hidx _ (fun c hc => hc), chunks_indices _ _ hs]
  · intro req hreq
    obtain ⟨c, hc, rfl⟩ := List.mem_map.1 hreq
    have hsz := chunks_size l.toNat _ hs c (List.mem_of_mem_take hc)
    refine ⟨_, rfl, rfl, ?_, ?_⟩
    · intro p hp
      obtain ⟨i, _, rfl⟩ := List.mem_map.1 hp
      rfl
    · simpa using hsz

/-- C55 fails for every device that accepts less than 20 octets (in particular for devices whose limit
is not known, 0): the scan size is zero and the division panics, which ends the process. -/
theorem C55_fails (net : MultiReader) (dev : ObjectID) (maxApdu : UInt32)
    (len : Outcome (Except CallErr PropertyData)) (l : UInt32) (h : C55_Told len l) (hm : maxApdu.toNat < 20) :
    (objectList net dev maxApdu len).result = .panic .divideByZero := by
  obtain ⟨r, p, ps, rfl, hp, hd⟩ := h
  have h0 : maxApdu.toNat / 20 = 0 := by omega
  unfold objectList objectListLen
  simp only [hp, hd, if_pos h0]

example : scanChunks 7 3 = [(1, 3), (4, 6), (7, 7)] ∧ scanChunks 6 3 = [(1, 3), (4, 6)] ∧ scanChunks 0 3 = [] := by decide

/-! ## C58 The table contains exactly the listed objects -/

/-- The `ReadMultiProperty` of a device with the inventory. -/
def C58_server (inv : Inventory) : MultiReader := fun _ req => .ok (.ok (inv.answer req))

/-- The `ReadProperty` of its length. -/
def C58_len (inv : Inventory) (dev : ObjectID) : Outcome (Except CallErr PropertyData) :=
  .ok (.ok { object := { id := dev, properties := [{ typ := 76, arrayIndex := 0, data := inv.value dev { typ := 76, arrayIndex := 0 } }] } })

theorem server_range (inv : Inventory) (dev : ObjectID) (n first last : Nat) (h1 : 1 ≤ first)
    (h2 : last ≤ inv.ids.length) (h3 : inv.ids.length < 4294967296) :
    rangeResult (C58_server inv n (rangeRequest dev first last)) =
      .ok (.ok (((List.range' first (last + 1 - first)).filterMap fun i => inv.ids[i - 1]?).map fun i => { id := i })) := by
  unfold C58_server Inventory.answer rangeRequest
  simp only [List.map_cons, List.map_nil, rangeResult]
  congr 1
  refine listedIds_of _ _ ?_
  simp only [List.map_map]
  have : ∀ i ∈ List.range' first (last + 1 - first), ∃ x, inv.ids[i - 1]? = some x ∧
      inv.value dev { typ := 76, arrayIndex := UInt32.ofNat i } = .one (.objId x) := by
    intro i hi
    rw [List.mem_range'_1] at hi
    have hlt : i - 1 < inv.ids.length := by omega
    refine ⟨inv.ids[i - 1], List.getElem?_eq_getElem hlt, ?_⟩
    have hi' : (UInt32.ofNat i).toNat = i := by rw [UInt32.toNat_ofNat']; omega
    have h0 : UInt32.ofNat i ≠ 0 := by
      intro e
      rw [e] at hi'
      have : (0 : UInt32).toNat = 0 := rfl
      omega
    unfold Inventory.value
    rw [if_pos rfl, if_neg h0]
    simp only [hi', List.getElem?_eq_getElem hlt]
  generalize List.range' first (last + 1 - first) = l at this ⊢
  induction l with
  | nil => rfl
  | cons i l ih =>
    obtain ⟨x, hx, hv⟩ := this i List.mem_cons_self
    have ih := ih fun j hj => this j (List.mem_cons_of_mem _ hj)
    simp only [List.map_cons, List.filterMap_cons, hx, ih]
    congr 1

theorem range_ids (ids : List ObjectID) : (List.range' 1 ids.length).filterMap (fun i => ids[i - 1]?) = ids := by
  induction ids using List.reverseRecOn with
  | nil => rfl
  | append_singleton l a ih =>
    rw [List.length_append, List.length_singleton, ← List.range'_append_1, List.filterMap_append]
    have e : (List.range' 1 l.length).filterMap (fun i => (l ++ [a])[i - 1]?) =
        (List.range' 1 l.length).filterMap (fun i => l[i - 1]?) := by
      refine List.filterMap_congr fun i hi => ?_
      rw [List.mem_range'_1] at hi
      rw [List.getElem?_append_left (by omega)]
    rw [e, ih]
    simp [Nat.add_comm]

theorem scan_of (net : MultiReader) (ids : List ObjectID) (dev : ObjectID) (maxApdu : UInt32) (hm : 20 ≤ maxApdu.toNat)
    (hl : ids.length < 4294967296) (len : Outcome (Except CallErr PropertyData))
    (ht : C55_Told len (UInt32.ofNat ids.length))
    (hr : ∀ n first last, 1 ≤ first → first ≤ last → last ≤ ids.length → last + 1 - first ≤ maxApdu.toNat / 20 →
      rangeResult (net n (rangeRequest dev first last)) =
        .ok (.ok (((List.range' first (last + 1 - first)).filterMap fun i => ids[i - 1]?).map fun i => { id := i }))) :
    (objectList net dev maxApdu len).objects = ObjectMap.copy [] (ids.map fun i => { id := i }) ∧
    (objectList net dev maxApdu len).result = .ok (.ok ()) := by
  have hs : 0 < maxApdu.toNat / 20 := by omega
  have hlen : (UInt32.ofNat ids.length).toNat = ids.length := by rw [UInt32.toNat_ofNat']; omega
  rw [objectList_told ht hm, hlen]
  have hans := scanLoop_answers net dev
    (fun c => (List.range' c.1 (c.2 + 1 - c.1)).filterMap fun i => ids[i - 1]?)
    (scanChunks ids.length (maxApdu.toNat / 20)) (by
      intro n c hc
      have hsz := chunks_size _ _ hs c hc
      have h1 : 1 ≤ c.1 := by
        have h2 : c.1 ∈ (scanChunks ids.length (maxApdu.toNat / 20)).flatMap (fun c => List.range' c.1 (c.2 + 1 - c.1)) :=
          List.mem_flatMap.2 ⟨c, hc, List.mem_range'_1.2 (by omega)⟩
        rw [chunks_indices _ _ hs, List.mem_range'_1] at h2
        exact h2.1
      exact hr n c.1 c.2 h1 (by omega) (chunks_le _ _ hs c hc) (by omega)) [] []
  rw [hans]
  refine ⟨?_, rfl⟩
  have e : (scanChunks ids.length (maxApdu.toNat / 20)).flatMap
      (fun c => (List.range' c.1 (c.2 + 1 - c.1)).filterMap fun i => ids[i - 1]?) = ids := by
    rw [← List.filterMap_flatMap, chunks_indices _ _ hs, range_ids]
  rw [e]

theorem scan_server (inv : Inventory) (dev : ObjectID) (maxApdu : UInt32) (hm : 20 ≤ maxApdu.toNat)
    (hl : inv.ids.length < 4294967296) :
    (objectList (C58_server inv) dev maxApdu (C58_len inv dev)).objects =
      ObjectMap.copy [] (inv.ids.map fun i => { id := i }) ∧
    (objectList (C58_server inv) dev maxApdu (C58_len inv dev)).result = .ok (.ok ()) :=
  scan_of _ _ _ _ hm hl _ ⟨_, _, _, rfl, rfl, rfl⟩ fun n first last h1 _ h2 _ => server_range inv dev n first last h1 h2 hl

/-- C58.  After scanning a device with any object list, the table has an entry for exactly the listed
identifiers; `ObjectSlice` gives each of them once; `Len` is the number of different identifiers. -/
theorem C58_table (inv : Inventory) (dev : ObjectID) (maxApdu : UInt32) (hm : 20 ≤ maxApdu.toNat)
    (hl : inv.ids.length < 4294967296) :
    (objectList (C58_server inv) dev maxApdu (C58_len inv dev)).result = .ok (.ok ()) ∧
    (∀ id, (objectList (C58_server inv) dev maxApdu (C58_len inv dev)).objects.find id =
      if id ∈ inv.ids then some { id := id } else none) ∧
    ((objectList (C58_server inv) dev maxApdu (C58_len inv dev)).objects.slice.map Object.id).Perm (firsts id inv.ids) ∧
    (objectList (C58_server inv) dev maxApdu (C58_len inv dev)).objects.len = (firsts id inv.ids).length := by
  obtain ⟨h1, h2⟩ := scan_server inv dev maxApdu hm hl
  rw [h1]
  have hf := fun i => ObjectMap.find_copy_ids inv.ids [] i
  have hw : ObjectMap.WF (ObjectMap.copy [] (inv.ids.map fun i => { id := i })) := ObjectMap.wf_nil.copy _
  have hp : ((ObjectMap.copy [] (inv.ids.map fun i => { id := i })).slice.map Object.id).Perm (firsts id inv.ids) := by
    refine perm_of_nodup (ObjectMap.slice_nodup hw) (by simpa using firsts_nodup id inv.ids) ?_
    intro x
    rw [ObjectMap.mem_slice_ids hw, hf]
    constructor
    · intro hs
      by_cases hx : x ∈ inv.ids
      · obtain ⟨y, hy, e⟩ := firsts_complete id inv.ids x hx
        have e : y = x := e
        exact e ▸ hy
      · rw [if_neg hx] at hs; cases hs
    · intro hx
      rw [if_pos (firsts_subset _ _ _ hx)]; rfl
  refine ⟨h2, ?_, hp, ?_⟩
  · intro i; rw [hf]; rfl
  · rw [ObjectMap.len_slice, ← List.length_map (f := Object.id), hp.length_eq]

example : (objectList (C58_server ⟨[⟨8, 1⟩, ⟨0, 5⟩, ⟨0, 6⟩, ⟨0, 5⟩], fun _ => [], fun _ => []⟩) ⟨8, 1⟩ 50
      (C58_len ⟨[⟨8, 1⟩, ⟨0, 5⟩, ⟨0, 6⟩, ⟨0, 5⟩], fun _ => [], fun _ => []⟩ ⟨8, 1⟩)).objects =
    [(8, [(1, { id := ⟨8, 1⟩ })]), (0, [(5, { id := ⟨0, 5⟩ }), (6, { id := ⟨0, 6⟩ })])] := by decide +kernel

/-! ## C56 Every object is asked about exactly once -/

/-- C56 for objects of the standard types: whatever the device answers, names and descriptions are
requested of the first of the objects, in order and each once; of all, if no error occurs; in groups of
one to five.  Missing: objects of other types, see `C56_fails`. -/
theorem C56_groups_partial (net : MultiReader) (objs : List Object) (reqs : List (List Object)) (m : ObjectMap)
    (ht : ∀ o ∈ objs, o.id.typ.toNat ≤ 128) :
    ∃ made, (allObjectInformation net objs reqs m).requests = reqs ++ made ∧
      (∃ rest, made.flatten.map Object.id ++ rest = objs.map Object.id) ∧
      ((allObjectInformation net objs reqs m).result = .ok (.ok ()) → made.flatten.map Object.id = objs.map Object.id) ∧
      ∀ req ∈ made, 1 ≤ req.length ∧ req.length ≤ 5 ∧
        ∀ o ∈ req, o.properties.map (fun p => (p.typ, p.arrayIndex)) = [(77, 0xFFFFFFFF), (28, 0xFFFFFFFF)] := by
  obtain ⟨n, hn, _, h1, h2⟩ := infoGroups_requests net (groupsOf objs.length objs) reqs m
  have hfl := groupsOf_flatten objs.length objs (Nat.le_refl _)
  have hin : ∀ g ∈ groupsOf objs.length objs, infoObjects g = g.map Object.id := by
    intro g hg
    unfold infoObjects
    rw [List.filter_eq_self.2]
    intro o ho
    have : o ∈ objs := hfl ▸ List.mem_flatten.2 ⟨g, hg, ho⟩
    have := ht o this
    simp only [Bool.not_eq_true', decide_eq_false_iff_not]
    intro h
    have h : (128 : UInt16).toNat < o.id.typ.toNat := h
    have e : (128 : UInt16).toNat = 128 := rfl
    omega
  have hids : ∀ gs : List (List Object), (∀ g ∈ gs, g ∈ groupsOf objs.length objs) →
      (gs.map fun g => (infoObjects g).map infoRequest).flatten.map Object.id = gs.flatten.map Object.id := by
    intro gs hgs
    rw [List.map_flatten, List.map_flatten, List.map_map]
    congr 1
    refine List.map_congr_left fun g hg => ?_
    simp only [Function.comp, List.map_map, hin g (hgs g hg)]
    exact List.map_congr_left fun o _ => rfl
  refine ⟨(List.take n (groupsOf objs.length objs)).map fun g => (infoObjects g).map infoRequest, h1, ?_, ?_, ?_⟩
  · refine ⟨((groupsOf objs.length objs).drop n).flatten.map Object.id, ?_⟩
    rw [hids _ (fun g hg => List.mem_of_mem_take hg), ← List.map_append, ← List.flatten_append, List.take_append_drop, hfl]
  · intro hr
    rw [h2 hr, List.take_length, hids _ (fun g hg => hg), hfl]
  · intro req hreq
    obtain ⟨g, hg, rfl⟩ := List.mem_map.1 hreq
    have hsz := groupsOf_size _ _ g (List.mem_of_mem_take hg)
    rw [hin g (List.mem_of_mem_take hg)]
    refine ⟨by simpa using hsz.1, by simpa using hsz.2, ?_⟩
    intro o ho
    obtain ⟨k, _, rfl⟩ := List.mem_map.1 ho
    rfl

/-- C56 fails for every object of a type above 128 (all proprietary types, 128 to 1023, but the first):
it is never asked about. -/
theorem C56_fails (net : MultiReader) (objs : List Object) (m : ObjectMap) (id : ObjectID) (h : 128 < id.typ.toNat) :
    ∀ req ∈ (allObjectInformation net objs [] m).requests, ∀ o ∈ req, o.id ≠ id := by
  intro req hreq o ho e
  obtain ⟨n, _, _, h1, _⟩ := infoGroups_requests net (groupsOf objs.length objs) [] m
  have hreq : req ∈ (infoGroups net (groupsOf objs.length objs) [] m).requests := hreq
  rw [h1, List.nil_append] at hreq
  obtain ⟨g, _, rfl⟩ := List.mem_map.1 hreq
  obtain ⟨k, hk, rfl⟩ := List.mem_map.1 ho
  unfold infoObjects at hk
  obtain ⟨x, hx, rfl⟩ := List.mem_map.1 hk
  have hx2 := (List.mem_filter.1 hx).2
  simp only [Bool.not_eq_true', decide_eq_false_iff_not] at hx2
  have e : x.id = id := e
  rw [e] at hx2
  exact hx2 (show (128 : UInt16).toNat < id.typ.toNat from h)

/-- C56 fails: if all objects of a group are of such types a request without any object is sent. -/
theorem C56_fails_empty (net : MultiReader) (m : ObjectMap) (o : Object) (h : 128 < o.id.typ.toNat) :
    (allObjectInformation net [o] [] m).requests = [[]] := by
  have hg : groupsOf 1 [o] = [[o]] := rfl
  obtain ⟨n, hn, h0, h1, _⟩ := infoGroups_requests net (groupsOf 1 [o]) [] m
  rw [hg] at hn h0
  have hn1 : n = 1 := by
    have := h0 (by simp)
    simp only [List.length_singleton] at hn
    omega
  have hi : infoObjects [o] = [] := by
    unfold infoObjects
    rw [List.filter_cons, if_neg]
    · rfl
    · have hlt : (128 : UInt16) < o.id.typ := h
      simpa using hlt
  show (infoGroups net (groupsOf 1 [o]) [] m).requests = _
  rw [h1, hg, hn1]
  simp [hi]

example : groupsOf 7 (List.replicate 7 {}) = [List.replicate 5 {}, List.replicate 2 {}] := by decide +kernel

/-! ## C57 Names are attached to the object they belong to -/

theorem sublist_flatten_mem {α : Type} {g : List α} {gs : List (List α)} (h : g ∈ gs) : g.Sublist gs.flatten := by
  induction gs with
  | nil => cases h
  | cons x gs ih =>
    rw [List.flatten_cons]
    rcases List.mem_cons.1 h with rfl | h
    · exact List.sublist_append_left _ _
    · exact (ih h).trans (List.sublist_append_right _ _)

theorem objects_of (net : MultiReader) (ids : List ObjectID) (name description : ObjectID → List UInt8) (dev : ObjectID)
    (maxApdu : UInt32) (hm : 20 ≤ maxApdu.toNat) (hl : ids.length < 4294967296) (len : Outcome (Except CallErr PropertyData))
    (ht : C55_Told len (UInt32.ofNat ids.length))
    (hr : ∀ n first last, 1 ≤ first → first ≤ last → last ≤ ids.length → last + 1 - first ≤ maxApdu.toNat / 20 →
      rangeResult (net n (rangeRequest dev first last)) =
        .ok (.ok (((List.range' first (last + 1 - first)).filterMap fun i => ids[i - 1]?).map fun i => { id := i })))
    (hinfo : ∀ n (ks : List ObjectID), ks.length ≤ 5 → ks.Nodup → (∀ k ∈ ks, k ∈ ids ∧ k.typ.toNat ≤ 128) →
      (ks = [] → ∃ k ∈ ids, 128 < k.typ.toNat) → ∃ resp, net n (ks.map infoRequest) = .ok (.ok resp) ∧
        resp.map (fun o => o.properties.map Property.data) = ks.map (fun k => [.one (.str (name k)), .one (.str (description k))]))
    (order : List Object → List Object) (ho : ∀ l, (order l).Perm l) :
    (clientObjects net order dev maxApdu len).result = .ok (.ok ()) ∧
    ∀ id, (clientObjects net order dev maxApdu len).objects.find id =
      if id ∈ ids then
        if id.typ.toNat ≤ 128 then some { id := id, name := name id, description := description id }
        else some { id := id }
      else none := by
  obtain ⟨h1, h2⟩ := scan_of net ids dev maxApdu hm hl len ht hr
  have hf := fun i => ObjectMap.find_copy_ids ids [] i
  have hw : ObjectMap.WF (ObjectMap.copy [] (ids.map fun i => { id := i })) := ObjectMap.wf_nil.copy _
  unfold clientObjects
  dsimp only
  rw [h2, h1]
  dsimp only
  unfold allObjectInformation
  generalize hm0 : ObjectMap.copy [] (ids.map fun i => ({ id := i } : Object)) = m at *
  have hperm := ho m.slice
  generalize order m.slice = objs at *
  generalize (objectList net dev maxApdu len).requests = reqs
  have hfl := groupsOf_flatten objs.length objs (Nat.le_refl _)
  have hmem : ∀ id, id ∈ (groupsOf objs.length objs).flatMap infoObjects ↔ id ∈ ids ∧ id.typ.toNat ≤ 128 := by
    intro id
    have e : (groupsOf objs.length objs).flatMap infoObjects = infoObjects objs := by
      conv_rhs => rw [← hfl]
      unfold infoObjects
      rw [List.filter_flatten, List.map_flatten, List.map_map, List.flatMap_def]
      rfl
    have h128 : (128 : UInt16).toNat = 128 := rfl
    rw [e]
    unfold infoObjects
    simp only [List.mem_map, List.mem_filter, Bool.not_eq_true', decide_eq_false_iff_not]
    constructor
    · rintro ⟨o, ⟨hin, ht⟩, rfl⟩
      have hin := (ObjectMap.mem_slice hw o).1 (hperm.mem_iff.1 hin)
      rw [hf] at hin
      refine ⟨?_, ?_⟩
      · by_contra hc
        rw [if_neg hc] at hin; cases hin
      · have ht : ¬ (128 : UInt16).toNat < o.id.typ.toNat := ht
        omega
    · rintro ⟨hin, ht⟩
      refine ⟨{ id := id }, ⟨hperm.mem_iff.2 ((ObjectMap.mem_slice hw _).2 ?_), ?_⟩, rfl⟩
      · rw [hf, if_pos hin]
      · show ¬ (128 : UInt16).toNat < id.typ.toNat
        omega
  have hsome : ∀ g ∈ groupsOf objs.length objs, ∀ k ∈ infoObjects g, (m.find k).isSome := by
    intro g hg k hk
    have := (hmem k).1 (List.mem_flatMap.2 ⟨g, hg, hk⟩)
    rw [hf, if_pos this.1]; rfl
  obtain ⟨a1, a2⟩ := infoGroups_answers name description net (groupsOf objs.length objs) reqs m hw hsome
    (by
      intro n g hg
      refine hinfo n (infoObjects g) ?_ ?_ ?_ ?_
      rotate_left
      · have hs : (infoObjects g).Sublist (objs.map Object.id) := by
          unfold infoObjects
          exact (List.filter_sublist.trans (by conv_rhs => rw [← hfl]
                                               exact sublist_flatten_mem hg)).map _
        exact hs.nodup ((hperm.map Object.id).nodup_iff.2 (ObjectMap.slice_nodup hw))
      rotate_left 2
      · have := (groupsOf_size _ _ g hg).2
        have h2 : (infoObjects g).length ≤ g.length := by unfold infoObjects; rw [List.length_map]; exact List.length_filter_le _ _
        omega
      · intro k hk
        exact (hmem k).1 (List.mem_flatMap.2 ⟨g, hg, hk⟩)
      · intro he
        obtain ⟨o, og⟩ := List.exists_mem_of_length_pos (show 0 < g.length from (groupsOf_size _ _ g hg).1)
        have oin : o ∈ objs := by rw [← hfl]; exact List.mem_flatten.2 ⟨g, hg, og⟩
        have oin := (ObjectMap.mem_slice hw o).1 (hperm.mem_iff.1 oin)
        rw [hf] at oin
        refine ⟨o.id, ?_, ?_⟩
        · by_contra hc
          rw [if_neg hc] at oin; cases oin
        · by_contra hc
          have : o.id ∈ infoObjects g := by
            unfold infoObjects
            refine List.mem_map.2 ⟨o, List.mem_filter.2 ⟨og, ?_⟩, rfl⟩
            simp only [Bool.not_eq_true', decide_eq_false_iff_not]
            exact fun h => hc (show (128 : UInt16).toNat < o.id.typ.toNat from h)
          rw [he] at this; cases this)
  refine ⟨a1, ?_⟩
  intro id
  rw [a2, hf]
  by_cases h1 : id ∈ ids <;> by_cases h2 : id.typ.toNat ≤ 128 <;> simp [hmem, h1, h2, ObjectMap.find, mapGet, Object.named]

/-- C57 for devices that answer in the order of the request: the table returned by `Objects` holds, for
every listed identifier of a standard type, the name and description that the device has for it, whatever
the order in which Go walks through its maps.  Missing: answers in another order (`C57_fails`) and other
types (C56). -/
theorem C57_names_partial (inv : Inventory) (dev : ObjectID) (maxApdu : UInt32) (hm : 20 ≤ maxApdu.toNat)
    (hl : inv.ids.length < 4294967296) (order : List Object → List Object) (ho : ∀ l, (order l).Perm l) :
    (clientObjects (C58_server inv) order dev maxApdu (C58_len inv dev)).result = .ok (.ok ()) ∧
    ∀ id, (clientObjects (C58_server inv) order dev maxApdu (C58_len inv dev)).objects.find id =
      if id ∈ inv.ids then
        if id.typ.toNat ≤ 128 then some { id := id, name := inv.name id, description := inv.description id }
        else some { id := id }
      else none := by
  refine objects_of _ _ _ _ _ _ hm hl _ ⟨_, _, _, rfl, rfl, rfl⟩
    (fun n first last h1 _ h2 _ => server_range inv dev n first last h1 h2 hl) ?_ order ho
  intro n ks _ _ _ _
  refine ⟨_, rfl, ?_⟩
  unfold Inventory.answer
  rw [List.map_map, List.map_map]
  exact List.map_congr_left fun k _ => rfl

/-- A device with two objects and a proprietary one, asked in reverse order. -/
example : let inv : Inventory := ⟨[⟨8, 1⟩, ⟨0, 5⟩, ⟨200, 1⟩], fun id => [65, id.inst.toUInt8], fun _ => [66]⟩
    let s := clientObjects (C58_server inv) List.reverse ⟨8, 1⟩ 50 (C58_len inv ⟨8, 1⟩)
    s.objects = [(8, [(1, { name := [65, 1], description := [66], id := ⟨8, 1⟩ })]),
      (0, [(5, { name := [65, 5], description := [66], id := ⟨0, 5⟩ })]), (200, [(1, { id := ⟨200, 1⟩ })])] ∧
    s.requests.length = 3 := by decide +kernel

/-- C57 fails: the identifiers in the answer are not looked at.  A device that answers about the two
objects in reverse order gets their names exchanged. -/
theorem C57_fails : ∃ net : MultiReader,
    (∀ n req, net n req = .ok (.ok ((Inventory.answer ⟨[], fun id => [id.inst.toUInt8], fun _ => []⟩ req).reverse))) ∧
    ((allObjectInformation net [{ id := ⟨0, 1⟩ }, { id := ⟨0, 2⟩ }] [] [(0, [(1, { id := ⟨0, 1⟩ }), (2, { id := ⟨0, 2⟩ })])]).objects.find ⟨0, 1⟩).map
      Object.name = some [2] := by
  refine ⟨_, fun _ _ => rfl, ?_⟩
  decide +kernel

end Bac.Props
