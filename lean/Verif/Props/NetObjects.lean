import Verif.Props.NetDiscover
/-!
# C68, C112, C113: the object list of a device in package network
-/

namespace Bac.Props

open Spec (AppVal Means)

/-! ## C68 The object list of a device is complete -/

theorem list_valid {inst : UInt32} (h : inst.toNat < 2 ^ 22) (i : UInt32) : (listObject inst i).Valid :=
  ⟨⟨by show (8 : UInt16).toNat < 2 ^ 10; decide, h⟩, by show (76 : UInt32).toNat ≤ 4194303; decide⟩

/-- The read of the whole list succeeded. -/
theorem readObjectList_ok {net : Reader} {d : NetDevice} {inst : UInt32} {c c' : Calls} {out : PropertyData} {p : Property}
    {l : List Scalar} {ids : List ObjectID}
    (h : d.read net (some (listObject inst arrayAll)) c = (c', .ok (.ok out))) (hp : out.object.properties = [p])
    (ha : toArr out = .ok l) (hi : asObjectIDs l = .ok ids) : readObjectList net d inst c = (c', .ok (.ok ids)) := by
  refine (N.bind_ok h).trans ?_
  simp only [hp, List.cons_ne_nil, if_false, ha]
  refine (N.bind_ok (m := N.lift (.ok l)) (N.lift_apply _ _)).trans ?_
  exact (N.bind_ok (m := N.lift (asObjectIDs l)) (by rw [N.lift_apply, hi])).trans rfl

/-- The read of the whole list failed. -/
theorem readObjectList_error {net : Reader} {d : NetDevice} {inst : UInt32} {c c' : Calls} {e : NetErr}
    (h : d.read net (some (listObject inst arrayAll)) c = (c', .ok (.error e))) :
    readObjectList net d inst c = deviceObjectsBuilder net d inst c' := (N.bind_ok h).trans rfl

theorem toArr_many {d : PropertyData} {p : Property} {l : List Scalar} (h : d.object.properties = [p]) (hl : p.data = .many l) :
    toArr d = .ok l := by
  unfold toArr; rw [h]; simp only [hl]

theorem toArr_one {d : PropertyData} {p : Property} {s : Scalar} (h : d.object.properties = [p]) (hl : p.data = .one s) :
    toArr d = .ok [] := by
  unfold toArr; rw [h]; simp only [hl]

/-- C68: a list of any length other than 1, sent as a whole, is returned as it is.
Missing: length 1 (`C68_fails_single`). -/
theorem C68_whole_partial (w : Wire) (hmy : w.my.net = 0) (d : NetDevice) (inst : UInt32) (hinst : inst.toNat < 2 ^ 22)
    (ids : List ObjectID) (hids : ∀ i ∈ ids, C04_Valid i) (hf : ids.length < w.fuel) (hlen : ids.length ≠ 1) (c : Calls)
    (h : Answered w c.length (listObject inst arrayAll) (idValues ids)) :
    ∃ c', deviceObjects w.reader d inst none c = (c', .ok (d, .ok ids)) := by
  have hl : (idValues ids).length = ids.length := by simp [idValues]
  obtain ⟨ss, out, h1, -, h3, h4⟩ := read_answered w hmy d _ (list_valid hinst arrayAll) c _ (idValues_readable hids)
    (by rw [hl]; exact hf) h
  have hss := decoded_ids h1
  refine ⟨_, (N.bind_ok (readObjectList_ok h4 h3 (toArr_many h3 (shape_many ?_)) ?_)).trans rfl⟩
  · rw [h1.length_eq, hl]; exact hlen
  · rw [hss]; exact asObjectIDs_map ids

/-- C68 fails: a device whose list has one entry is reported to have no objects. -/
theorem C68_fails_single (w : Wire) (hmy : w.my.net = 0) (d : NetDevice) (inst : UInt32) (hinst : inst.toNat < 2 ^ 22)
    (i : ObjectID) (hi : C04_Valid i) (hf : 1 < w.fuel) (c : Calls)
    (h : Answered w c.length (listObject inst arrayAll) (idValues [i])) :
    ∃ c', deviceObjects w.reader d inst none c = (c', .ok (d, .ok [])) := by
  obtain ⟨ss, out, h1, -, h3, h4⟩ := read_answered w hmy d _ (list_valid hinst arrayAll) c _
    (idValues_readable (ids := [i]) (by simpa using hi)) (by simpa [idValues] using hf) h
  have hss : ss = [.objId i] := decoded_ids h1
  refine ⟨_, (N.bind_ok (readObjectList_ok (l := []) (ids := []) h4 h3 ?_ rfl)).trans rfl⟩
  rw [hss] at h3
  exact toArr_one h3 rfl

theorem builderLoop_step {net : Reader} {d : NetDevice} {inst : UInt32} {n i : Nat} {c c1 c2 : Calls}
    {r : Except NetErr PropertyData} {id : ObjectID} {ids : List ObjectID}
    (h1 : d.read net (some (listObject inst (UInt32.ofNat i))) c = (c1, .ok r)) (h2 : elementID (dataOf r) = .ok id)
    (h3 : builderLoop net d inst n (i + 1) c1 = (c2, .ok ids)) :
    builderLoop net d inst (n + 1) i c = (c2, .ok (id :: ids)) := by
  refine (N.bind_ok h1).trans ?_
  refine (N.bind_ok (m := N.lift (elementID (dataOf r))) (by rw [N.lift_apply, h2])).trans ?_
  exact (N.bind_ok h3).trans rfl

theorem builderLoop_answered (w : Wire) (hmy : w.my.net = 0) (hf : 1 < w.fuel) (d : NetDevice) (inst : UInt32)
    (hinst : inst.toNat < 2 ^ 22) (ids : List ObjectID) : ∀ (i : Nat) (c : Calls), (∀ x ∈ ids, C04_Valid x) →
    (∀ (k : Nat) x, ids[k]? = some x → Answered w (c.length + k) (listObject inst (UInt32.ofNat (i + k))) (idValues [x])) →
    ∃ c', builderLoop w.reader d inst ids.length i c = (c', .ok ids) ∧ c'.length = c.length + ids.length := by
  induction ids with
  | nil => intro i c _ _; exact ⟨c, rfl, rfl⟩
  | cons x ids ih =>
    intro i c hv h
    have h0 := h 0 x rfl
    rw [Nat.add_zero, Nat.add_zero] at h0
    have hx := hv x List.mem_cons_self
    obtain ⟨ss, out, h1, -, h3, h4⟩ := read_answered w hmy d _ (list_valid hinst (UInt32.ofNat i)) c _
      (idValues_readable (ids := [x]) (by simpa using hx)) (by simpa [idValues] using hf) h0
    have hss : ss = [.objId x] := decoded_ids h1
    obtain ⟨c', e, l⟩ := ih (i + 1) (c ++ [(d.dev.target, (listObject inst (UInt32.ofNat i)).request)])
      (fun y hy => hv y (List.mem_cons_of_mem _ hy)) (fun k y hk => by
        have := h (k + 1) y (by simpa using hk)
        rw [List.length_append, List.length_singleton, Nat.add_assoc, Nat.add_comm 1 k, Nat.add_assoc, Nat.add_comm 1 k]
        exact this)
    refine ⟨c', builderLoop_step h4 ?_ e, ?_⟩
    · show elementID out = _
      unfold elementID; rw [h3, hss]; rfl
    · rw [l]; simp; omega

theorem builder_step {net : Reader} {d : NetDevice} {inst : UInt32} {c c1 c2 : Calls} {out : PropertyData} {n : Nat}
    {ids : List ObjectID} (h1 : d.read net (some (listObject inst 0)) c = (c1, .ok (.ok out)))
    (hn : (toUint32 out).toNat = n) (h2 : builderLoop net d inst n 1 c1 = (c2, .ok ids)) :
    deviceObjectsBuilder net d inst c = (c2, .ok (.ok ids)) := by
  subst hn
  exact (N.bind_ok h1).trans ((N.bind_ok h2).trans rfl)

/-- C68: a device that refuses the whole list and answers its length and every element:
all elements are returned, in their order, for a list of any length. -/
theorem C68_elements_partial (w : Wire) (hmy : w.my.net = 0) (hf : 1 < w.fuel) (d : NetDevice) (inst : UInt32)
    (hinst : inst.toNat < 2 ^ 22) (ids : List ObjectID) (hids : ∀ i ∈ ids, C04_Valid i) (hlen : ids.length < 2 ^ 32)
    (c : Calls) (e : CallErr) (hrefuse : w.reader c.length d.dev.target (listObject inst arrayAll).request = .ok (.error e))
    (hcount : Answered w (c.length + 1) (listObject inst 0) [.unsigned ids.length])
    (h : ∀ (k : Nat) x, ids[k]? = some x →
      Answered w (c.length + 2 + k) (listObject inst (UInt32.ofNat (1 + k))) (idValues [x])) :
    ∃ c', deviceObjects w.reader d inst none c = (c', .ok (d, .ok ids)) := by
  have e1 := read_of w.reader d (listObject inst arrayAll) c (.error e) hrefuse
  obtain ⟨ss, out, h1, -, h3, h4⟩ := read_answered w hmy d _ (list_valid hinst 0)
    (c ++ [(d.dev.target, (listObject inst arrayAll).request)]) [.unsigned ids.length]
    (by intro v hv; rw [List.mem_singleton.mp hv]; exact ⟨hlen, trivial⟩) (by simpa using hf)
    (by rw [List.length_append]; exact hcount)
  have hn : (toUint32 out).toNat = ids.length := by
    cases h1 with
    | cons hd hnil =>
      cases hnil
      obtain ⟨x, hx, hxn⟩ := decoded_unsigned hd
      rw [← hxn]
      refine congrArg UInt32.toNat (toUint32_one h3 ?_)
      rw [hx]; rfl
  obtain ⟨c', e2, _⟩ := builderLoop_answered w hmy hf d inst hinst ids 1
    (c ++ [(d.dev.target, (listObject inst arrayAll).request)] ++ [(d.dev.target, (listObject inst 0).request)]) hids
    (by
      intro k x hk
      have := h k x hk
      simp only [List.length_append, List.length_singleton]
      exact this)
  exact ⟨c', (N.bind_ok ((readObjectList_error e1).trans (builder_step h4 hn e2))).trans rfl⟩

/-- C68 fails: if in the element-wise reading one element is not answered, the process
crashes. -/
theorem C68_fails_element (net : Reader) (d : NetDevice) (inst : UInt32) (n : Nat) : ∀ (i : Nat) (c : Calls) (k : Nat), k < n →
    (∀ j < k, ∃ out id, net (c.length + j) d.dev.target (listObject inst (UInt32.ofNat (i + j))).request = .ok (.ok out) ∧ elementID out = .ok id) →
    (∃ e, net (c.length + k) d.dev.target (listObject inst (UInt32.ofNat (i + k))).request = .ok (.error e)) →
    (builderLoop net d inst n i c).2.Panics := by
  induction n with
  | zero => intro i c k hk; omega
  | succ n ih =>
    intro i c k hk hok hfail
    cases k with
    | zero =>
      obtain ⟨e, he⟩ := hfail
      have h1 := read_of net d (listObject inst (UInt32.ofNat i)) c (.error e) he
      have : builderLoop net d inst (n + 1) i c = (c ++ [(d.dev.target, (listObject inst (UInt32.ofNat i)).request)], .panic .indexOutOfRange) := by
        refine (N.bind_ok h1).trans ?_
        exact N.bind_panic rfl
      rw [this]; trivial
    | succ k =>
      obtain ⟨out, id, h0, hid⟩ := hok 0 (by omega)
      have h1 := read_of net d (listObject inst (UInt32.ofNat i)) c (.ok out) h0
      have e : ∀ j, (c ++ [(d.dev.target, (listObject inst (UInt32.ofNat i)).request)]).length + j = c.length + (j + 1) := by
        intro j; simp; omega
      have hp := ih (i + 1) (c ++ [(d.dev.target, (listObject inst (UInt32.ofNat i)).request)]) k (by omega)
        (fun j hj => by
          obtain ⟨o, x, a, b⟩ := hok (j + 1) (by omega)
          refine ⟨o, x, ?_, b⟩
          rw [e, show i + 1 + j = i + (j + 1) by omega]; exact a)
        (by
          obtain ⟨x, hx⟩ := hfail
          refine ⟨x, ?_⟩
          rw [e, show i + 1 + k = i + (k + 1) by omega]; exact hx)
      have : builderLoop net d inst (n + 1) i c =
          (do let ids ← builderLoop net d inst n (i + 1); pure (id :: ids) : N (List ObjectID))
            (c ++ [(d.dev.target, (listObject inst (UInt32.ofNat i)).request)]) := by
        refine (N.bind_ok h1).trans ?_
        exact (N.bind_ok (m := N.lift (elementID out)) (by rw [N.lift_apply, hid]))
      rw [this]
      rcases hb : builderLoop net d inst n (i + 1) (c ++ [(d.dev.target, (listObject inst (UInt32.ofNat i)).request)]) with ⟨c2, x | x | _⟩
      · rw [hb] at hp; exact hp.elim
      · rw [N.bind_panic hb]; trivial
      · rw [hb] at hp; exact hp.elim

/-- C68 fails, the call as a whole: the whole list is refused, the length is answered,
and an element is not. -/
theorem C68_fails_crash (net : Reader) (d : NetDevice) (inst : UInt32) (c : Calls) (e e' : CallErr) (out : PropertyData) (k : Nat)
    (h1 : net c.length d.dev.target (listObject inst arrayAll).request = .ok (.error e))
    (h2 : net (c.length + 1) d.dev.target (listObject inst 0).request = .ok (.ok out)) (hk : k < (toUint32 out).toNat)
    (h3 : ∀ j < k, ∃ o id, net (c.length + 2 + j) d.dev.target (listObject inst (UInt32.ofNat (1 + j))).request = .ok (.ok o) ∧ elementID o = .ok id)
    (h4 : net (c.length + 2 + k) d.dev.target (listObject inst (UInt32.ofNat (1 + k))).request = .ok (.error e')) :
    (deviceObjects net d inst none c).2.Panics := by
  have e1 := read_of net d (listObject inst arrayAll) c (.error e) h1
  have e2 := read_of net d (listObject inst 0) (c ++ [(d.dev.target, (listObject inst arrayAll).request)]) (.ok out)
    (by rw [List.length_append]; exact h2)
  have hl : (c ++ [(d.dev.target, (listObject inst arrayAll).request)] ++ [(d.dev.target, (listObject inst 0).request)]).length = c.length + 2 := by
    simp
  have hp := C68_fails_element net d inst (toUint32 out).toNat 1
    (c ++ [(d.dev.target, (listObject inst arrayAll).request)] ++ [(d.dev.target, (listObject inst 0).request)]) k hk
    (by rw [hl]; exact h3) ⟨e', by rw [hl]; exact h4⟩
  rcases hb : builderLoop net d inst (toUint32 out).toNat 1
    (c ++ [(d.dev.target, (listObject inst arrayAll).request)] ++ [(d.dev.target, (listObject inst 0).request)]) with ⟨c2, x | x | _⟩
  · rw [hb] at hp; exact hp.elim
  · have : readObjectList net d inst c = (c2, .panic x) :=
      (readObjectList_error e1).trans ((N.bind_ok e2).trans (N.bind_panic hb))
    have : deviceObjects net d inst none c = (c2, .panic x) := N.bind_panic this
    rw [this]; trivial
  · rw [hb] at hp; exact hp.elim

/-- A reader by the array index asked for. -/
def exampleReader (f : UInt32 → Option Value) : Reader := fun _ _ rp =>
  match rp.object.properties with
  | [p] =>
    match f p.arrayIndex with
    | some v => .ok (.ok { object := { id := rp.object.id, properties := [{ p with data := v }] } })
    | none => .ok (.error .timeout)
  | _ => .ok (.error .timeout)

/-- Two objects as a whole; one object; element by element; element 2 lost. -/
example :
    (deviceObjects (exampleReader fun _ => some (.many [.objId ⟨8, 9⟩, .objId ⟨2, 1⟩])) {} 9 none []).2 = .ok ({}, .ok [⟨8, 9⟩, ⟨2, 1⟩]) ∧
    (deviceObjects (exampleReader fun _ => some (.one (.objId ⟨8, 9⟩))) {} 9 none []).2 = .ok ({}, .ok []) ∧
    (deviceObjects (exampleReader fun i => if i = 0 then some (.one (.uint 2)) else if i = 1 then some (.one (.objId ⟨8, 9⟩)) else
      if i = 2 then some (.one (.objId ⟨2, 1⟩)) else none) {} 9 none []).2 = .ok ({}, .ok [⟨8, 9⟩, ⟨2, 1⟩]) ∧
    (deviceObjects (exampleReader fun i => if i = 0 then some (.one (.uint 2)) else if i = 1 then some (.one (.objId ⟨8, 9⟩)) else none)
      {} 9 none []).2 = .panic .indexOutOfRange := by decide +kernel

/-! ## C112 The points of a device -/

/-- The entry for an object. -/
def C112_Entry (o : ObjectID) (x : PointDetails) : Prop := x.inst = o.inst ∧ x.typ = o.typ ∧ x.pointType = objectTypeString o.typ

theorem pointDetails_run {net : Reader} (h : net.Returns) (d : NetDevice) (p : Point) (c : Calls) :
    ∃ c' x, pointDetails net d p c = (c', .ok x) ∧ C112_Entry ⟨p.typ, p.inst⟩ x := by
  obtain ⟨c1, r, e1, _⟩ := N.Runs.read (P := fun _ _ => True) h d (p.whole 77) trivial c
  have : pointDetails net d p c = unitDetails net d p
      { name := toStr (dataOf r), inst := p.inst, typ := p.typ, pointType := objectTypeString p.typ } (c ++ c1) := N.bind_ok e1
  rw [this]
  unfold unitDetails
  split
  · exact ⟨_, _, rfl, rfl, rfl, rfl⟩
  · obtain ⟨c2, r2, e2, _⟩ := N.Runs.read (P := fun _ _ => True) h d (p.whole 117) trivial (c ++ c1)
    obtain ⟨s, hs, _⟩ := C100_texts.1 (toUint32 (dataOf r2)).toUInt16
    refine ⟨c ++ c1 ++ c2, { name := toStr (dataOf r), unit := toUint32 (dataOf r2), unitString := s, inst := p.inst, typ := p.typ, pointType := objectTypeString p.typ }, ?_, rfl, rfl, rfl⟩
    refine (N.bind_ok e2).trans ?_
    refine (N.bind_ok (m := N.lift (Bac.unitString (toUint32 (dataOf r2)).toUInt16)) (a := s) (by rw [N.lift_apply, hs])).trans ?_
    rfl

theorem pointsLoop_run {net : Reader} (h : net.Returns) (d : NetDevice) (ids : List ObjectID) : ∀ c : Calls,
    ∃ c' l, pointsLoop net d ids c = (c', .ok l) ∧ List.Forall₂ C112_Entry (ids.filter fun o => o.typ ≠ 8) l := by
  induction ids with
  | nil => intro c; exact ⟨c, [], rfl, .nil⟩
  | cons o ids ih =>
    intro c
    by_cases ho : o.typ ≠ 8
    · obtain ⟨c1, x, e1, hx⟩ := pointDetails_run h d { inst := o.inst, typ := o.typ } c
      obtain ⟨c2, l, e2, hl⟩ := ih c1
      refine ⟨c2, x :: l, ?_, ?_⟩
      · unfold pointsLoop
        rw [if_pos ho]
        exact (N.bind_ok e1).trans ((N.bind_ok e2).trans rfl)
      · rw [List.filter_cons_of_pos (by simpa using ho)]
        exact .cons hx hl
    · obtain ⟨c2, l, e2, hl⟩ := ih c
      refine ⟨c2, l, ?_, ?_⟩
      · unfold pointsLoop
        rw [if_neg ho]
        exact e2
      · rw [List.filter_cons_of_neg (by simpa using ho)]
        exact hl

/-- C112: for every list of objects, whatever the reads of the details return, the points
are the objects that are not devices: one entry each, in their order, with the type
in words. -/
theorem C112_points {net : Reader} (h : net.Returns) (d d' : NetDevice) (inst : UInt32)
    (whois : Except NetErr (List FoundDevice)) (c c1 : Calls) (ids : List ObjectID)
    (hobj : deviceObjects net d inst (some whois) c = (c1, .ok (d', .ok ids))) :
    ∃ c' l, getDevicePoints net d inst whois c = (c', .ok (d', .ok l)) ∧
      List.Forall₂ C112_Entry (ids.filter fun o => o.typ ≠ 8) l := by
  obtain ⟨c', l, e, hl⟩ := pointsLoop_run h d' ids c1
  exact ⟨c', l, (N.bind_ok hobj).trans ((N.bind_ok e).trans rfl), hl⟩

/-- C112: no points when there is no list. -/
theorem C112_error {net : Reader} (d d' : NetDevice) (inst : UInt32) (whois : Except NetErr (List FoundDevice)) (c c1 : Calls)
    (e : NetErr) (hobj : deviceObjects net d inst (some whois) c = (c1, .ok (d', .error e))) :
    getDevicePoints net d inst whois c = (c1, .ok (d', .error e)) := (N.bind_ok hobj).trans rfl

example : (getDevicePoints (exampleReader fun _ => some (.many [.objId ⟨8, 9⟩, .objId ⟨5, 1⟩, .objId ⟨5, 2⟩])) {} 9 (.ok []) []).2 =
    .ok ({}, .ok [{ inst := 1, typ := 5, pointType := objectTypeString 5 }, { inst := 2, typ := 5, pointType := objectTypeString 5 }]) := by
  decide +kernel

/-! ## C113 Limits learned are used -/

theorem learn_dev (d : NetDevice) (inst : UInt32) (found : List FoundDevice) : (d.learn inst found).dev = d.dev := by
  unfold NetDevice.learn
  induction found generalizing d with
  | nil => rfl
  | cons f fs ih => rw [List.foldl_cons, ih]; split <;> rfl

/-- C113 fails: whatever limits the Who-Is brings, the device the requests go to keeps
the limits it had. -/
theorem C113_fails {net : Reader} (d d' : NetDevice) (inst : UInt32) (found : List FoundDevice) (c c' : Calls)
    (r : Except NetErr (List ObjectID)) (h : deviceObjects net d inst (some (.ok found)) c = (c', .ok (d', r))) :
    d'.dev.target = d.dev.target := by
  obtain ⟨a, c1, _, h2⟩ := N.bind_inv h
  have h2 : (c1, Outcome.ok (d.learn inst found, a)) = (c', .ok (d', r)) := h2
  simp only [Prod.mk.injEq, Outcome.ok.injEq] at h2
  rw [← h2.2.1, learn_dev]

/-- C113.  The fields of the device are the limits of the last device found with this
instance; they are unchanged when there is none.  Missing: the use in requests
(`C113_fails`). -/
theorem C113_fields_partial (d : NetDevice) (inst : UInt32) (found : List FoundDevice) :
    ((found.filter fun f => f.id.inst = inst) = [] → d.learn inst found = d) ∧
    ∀ f, (found.filter fun f => f.id.inst = inst).getLast? = some f →
      (d.learn inst found).maxApdu = f.maxApdu ∧ (d.learn inst found).segmentation = f.segmentation := by
  induction found generalizing d with
  | nil => exact ⟨fun _ => rfl, by simp⟩
  | cons g fs ih =>
    have step : d.learn inst (g :: fs) =
        (if g.id.inst = inst then { d with maxApdu := g.maxApdu, segmentation := g.segmentation } else d).learn inst fs := rfl
    by_cases hg : g.id.inst = inst
    · rw [step, if_pos hg, List.filter_cons_of_pos (by simpa using hg)]
      refine ⟨by simp, fun f hf => ?_⟩
      have ih' := ih { d with maxApdu := g.maxApdu, segmentation := g.segmentation }
      cases hfs : fs.filter fun f => f.id.inst = inst with
      | nil =>
        rw [hfs] at hf
        simp only [List.getLast?_singleton, Option.some.injEq] at hf
        rw [ih'.1 hfs, ← hf]
        exact ⟨rfl, rfl⟩
      | cons x xs =>
        rw [hfs, List.getLast?_cons_cons] at hf
        exact ih'.2 f (by rw [hfs]; exact hf)
    · rw [step, if_neg hg, List.filter_cons_of_neg (by simpa using hg)]
      exact ih d

example : ((NetDevice.made {}).learn 9 [{ id := ⟨8, 9⟩, maxApdu := 480 }, { id := ⟨8, 3⟩, maxApdu := 50 }]).maxApdu = 480 ∧
    ((NetDevice.made {}).learn 9 [{ id := ⟨8, 9⟩, maxApdu := 480 }]).dev.target.maxApdu = 0 := by decide +kernel

end Bac.Props
