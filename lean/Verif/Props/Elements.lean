import Verif.Lemmas.Elements
import Verif.Props.ReadMultiple
import Mathlib.Data.List.Forall2
/-!
# C83–C85: context-tagged elements and date-times in ReadPropertyMultiple acknowledgements
-/

namespace Bac.Props

open Spec (AppVal Means PropRef ReadResult ObjResult Element)

/-- The Go value `s` is what element `e` says, up to the year of a date (C14: the code
adds 1990 instead of 1900). -/
def ReadAs (s : Scalar) : Element → Prop
  | .app v => Means s v
  | .ctx _ v => Means s v
  | .dateTime y m d w h mi sec c =>
      ∃ dt t, s = .datetime dt t ∧ dt.year = 1990 + y.toNat ∧ dt.month = m.toNat ∧
        dt.day = d.toNat ∧ dt.dow = w.toNat ∧ t.hour = h.toNat ∧ t.minute = mi.toNat ∧
        t.second = sec.toNat ∧ t.millisecond = 10 * c.toNat

/-- Elements covered by the positive results for property `prop`: readable
application values, date-times, and components with the datatype of the standard,
Booleans and the actual and requested shed levels excepted. -/
def ElementOk (prop : Nat) : Element → Prop
  | .app v => C71_Readable v
  | .ctx n v => Spec.contextType prop n = some v.tag ∧ C71_Readable v ∧ v.tag ≠ 1 ∧
      prop ≠ 212 ∧ prop ≠ 218
  | .dateTime .. => True

/-- Is it a context-tagged component? -/
def isComponent : Element → Bool
  | .ctx _ _ => true
  | _ => false

/-- The table of the code agrees with the standard for everything in `ElementOk`. -/
theorem tagTypeInContext_spec (prop : UInt32) (n k : Nat) (h : Spec.contextType prop.toNat n = some k)
    (h1 : prop.toNat ≠ 212) (h2 : prop.toNat ≠ 218) :
    n ≤ 8 ∧ tagTypeInContext prop (UInt8.ofNat n) = UInt8.ofNat k ∧ (k = 1 ∨ k = 2 ∨ k = 4 ∨ k = 9 ∨ k = 12) := by
  revert h
  unfold Spec.contextType tagTypeInContext
  generalize prop.toNat = p at *
  split
  all_goals first
    | (intro h; cases h; exact absurd rfl h1)
    | (intro h; cases h; exact absurd rfl h2)
    | (intro h; cases h; exact ⟨by decide, by decide, by decide⟩)
    | (intro h; cases h)

/-- A component with the datatype of the standard is read as its value, and makes the
decoder append the unfinished object to the result. -/
theorem ctx_element (prop : UInt32) (n : Nat) (v : AppVal) (h : ElementOk prop.toNat (.ctx n v)) :
    ∃ s, Means s v ∧ ∀ fuel, GElem fuel prop (Element.ctx n v).octets s 1 := by
  obtain ⟨h1, ⟨hw, hx⟩, hb, h2, h3⟩ := h
  obtain ⟨hn, ht, hk⟩ := tagTypeInContext_spec prop n v.tag h1 h2 h3
  have en : (UInt8.ofNat n).toNat = n := UInt8.toNat_ofNat_of_lt' (show n < 256 by omega)
  have key : ∀ (len : UInt32) (c : List UInt8) (s : Scalar), c.length = len.toNat →
      Spec.contextContents v = c → Parses (Dec.appDataOfTag (UInt8.ofNat v.tag) len.toNat) c (s, none) →
      ∀ fuel, GElem fuel prop (Element.ctx n v).octets s 1 := by
    intro len c s hl hc hp fuel
    have := Dec.gelem_ctx fuel prop (UInt8.ofNat n) len c s (by
      rw [ht]; rcases hk with hk | hk | hk | hk | hk <;> rw [hk] <;> decide) (by rw [ht]; exact hp)
    rw [en] at this
    rw [show (Element.ctx n v).octets = Spec.tagHeader n true (Spec.contextContents v).length ++
      Spec.contextContents v from rfl, hc, hl]
    exact this
  cases v <;> simp only [AppVal.tag] at hk hb key <;> try omega
  case unsigned k =>
    simp only [AppVal.WF] at hw
    have e : (UInt32.ofNat k).toNat = k := UInt32.toNat_ofNat_of_lt' hw
    refine ⟨.uint (UInt32.ofNat k), ⟨_, rfl, e⟩, ?_⟩
    refine key (UInt32.ofNat (Spec.minOctets (UInt32.ofNat k).toNat)) (Spec.unsignedOctets (UInt32.ofNat k).toNat) _ ?_ ?_ ?_
    · rw [Enc.ofNat_minOctets_toNat]; exact length_bigEndian _ _
    · rw [e]; rfl
    · exact Dec.Parses.withError (f := .uint) (Dec.parses_unsigned' (UInt32.ofNat k))
  case enum k =>
    simp only [AppVal.WF] at hw
    have e : (UInt32.ofNat k).toNat = k := UInt32.toNat_ofNat_of_lt' hw
    refine ⟨.uint (UInt32.ofNat k), ⟨_, Or.inl rfl, e⟩, ?_⟩
    refine key (UInt32.ofNat (Spec.minOctets (UInt32.ofNat k).toNat)) (Spec.unsignedOctets (UInt32.ofNat k).toNat) _ ?_ ?_ ?_
    · rw [Enc.ofNat_minOctets_toNat]; exact length_bigEndian _ _
    · rw [e]; rfl
    · exact Dec.Parses.withError (f := .uint) (Dec.parses_unsigned' (UInt32.ofNat k))
  case real b =>
    refine ⟨.real b, rfl, key 4 (Spec.bigEndian 4 b.toNat) _ (length_bigEndian _ _) rfl ?_⟩
    rw [← be32_spec]
    exact Dec.Parses.withError (f := .real) (Dec.parses_be32 b)
  case objId t i =>
    simp only [AppVal.WF] at hw
    refine ⟨.objId ⟨UInt16.ofNat t, UInt32.ofNat i⟩, ⟨_, rfl, ?_, ?_⟩,
      key 4 (Spec.objectId t i) _ (length_bigEndian _ _) rfl ?_⟩
    · show (UInt16.ofNat t).toNat = t
      exact UInt16.toNat_ofNat_of_lt' (lt_trans hw.1 (by norm_num))
    · show (UInt32.ofNat i).toNat = i
      exact UInt32.toNat_ofNat_of_lt' (lt_trans hw.2 (by norm_num))
    · exact Dec.Parses.withError (f := .objId) (Dec.parses_objectId t i hw.1 hw.2)

theorem gelems_of (prop : UInt32) (es : List Element) (h : ∀ e ∈ es, ElementOk prop.toNat e) :
    ∃ l : List (List UInt8 × Scalar × Nat), (∀ fuel ≥ 3, ∀ x ∈ l, GElem fuel prop x.1 x.2.1 x.2.2) ∧
      l.flatMap Prod.fst = es.flatMap Element.octets ∧ l.length = es.length ∧
      List.Forall₂ ReadAs (l.map (·.2.1)) es ∧ (l.map (·.2.2)).sum = es.countP isComponent := by
  induction es with
  | nil => exact ⟨[], by simp, rfl, rfl, List.Forall₂.nil, rfl⟩
  | cons e es ih =>
    obtain ⟨l, h1, h2, h3, h4, h5⟩ := ih fun w hw => h w (by simp [hw])
    have he := h e (by simp)
    have : ∃ s, ReadAs s e ∧ ∀ fuel ≥ 3, GElem fuel prop e.octets s (if isComponent e then 1 else 0) := by
      cases e with
      | app v =>
        obtain ⟨s, h6, h7⟩ := C71_conforming_value_partial v he
        exact ⟨s, h7, fun fuel _ => (elem_of_parses v s h6).gelem fuel prop⟩
      | ctx n v =>
        obtain ⟨s, h6, h7⟩ := ctx_element prop n v he
        exact ⟨s, h6, fun fuel _ => h7 fuel⟩
      | dateTime y m d w hh mi s c =>
        refine ⟨_, ⟨_, _, rfl, ?_, rfl, rfl, rfl, rfl, rfl, rfl, ?_⟩,
          fun fuel hf => Dec.gelem_dateTime fuel hf prop y m d w hh mi s c⟩
        · simp only; omega
        · simp only; omega
    obtain ⟨s, h6, h7⟩ := this
    refine ⟨(e.octets, s, if isComponent e then 1 else 0) :: l, ?_, by simp [h2], by simp [h3],
      List.Forall₂.cons h6 h4, ?_⟩
    · intro fuel hf x hx
      rcases List.mem_cons.mp hx with rfl | hx
      · exact h7 fuel hf
      · exact h1 fuel hf x hx
    · rw [List.map_cons, List.sum_cons, h5, List.countP_cons]
      exact Nat.add_comm _ _

/-- The octets of an acknowledgement: objects `rs`, then one more object with results
`xs` and the property `r` with the elements `es`. -/
def ackWith (rs : List ObjResult) (typ inst : Nat) (xs : List (PropRef × ReadResult)) (r : PropRef)
    (es : List Element) : List UInt8 :=
  Before rs typ inst xs r ++ Spec.openTag 4 ++
    (es.flatMap Element.octets ++ (Spec.closeTag 4 ++ (Spec.closeTag 1 ++ [])))

/-- Decoding of an acknowledgement whose last property has the elements `l`. -/
theorem ack_run (rs : List ObjResult) (hrs : ∀ r ∈ rs, ObjOk r) (typ inst : Nat)
    (hid : typ < 2 ^ 10 ∧ inst < 2 ^ 22) (xs : List (PropRef × ReadResult))
    (hxs : ∀ x ∈ xs, ResultOk x) (r : PropRef) (hr : RefOk r) (es : List Element) :
    ∃ objects obj ty ix, List.Forall₂ CarriesObj objects rs ∧ CarriesObj obj ⟨typ, inst, xs⟩ ∧
      (∀ p : Property, p.typ = ty → p.arrayIndex = ix → p.ref = r) ∧ ty.toNat = r.prop ∧
      ∀ l : List (List UInt8 × Scalar × Nat), l ≠ [] →
        (∀ fuel ≥ 3, ∀ x ∈ l, GElem fuel ty x.1 x.2.1 x.2.2) →
        l.flatMap Prod.fst = es.flatMap Element.octets →
        Decodes (ackWith rs typ inst xs r es)
          (objects ++ List.replicate (l.map (·.2.2)).sum obj ++ [{ obj with properties := obj.properties ++
            [{ typ := ty, arrayIndex := ix, data := unlist (l.map (·.2.1)) }] }]) none := by
  obtain ⟨objects, h1, N, ty, ix, obj, h2, h3, h⟩ := before_run_full rs hrs typ inst hid xs hxs r hr 4 0x4E
    (Spec.openTag 4) Dec.open4 (by simp [Spec.openTag]) (by decide) (by decide)
  have hty : ty.toNat = r.prop := by
    have := h3 ⟨ty, ix, .one .nil, 0⟩ rfl rfl
    rw [← this]
    rfl
  refine ⟨objects, obj, ty, ix, h1, h2, h3, hty, ?_⟩
  intro l hne g1 g2
  refine ⟨N + l.length + 3, ?_⟩
  intro fuel hf p
  obtain ⟨q, K, k1, k2, k3⟩ := h fuel (by omega) (es.flatMap Element.octets ++ (Spec.closeTag 4 ++ (Spec.closeTag 1 ++ []))) p
  obtain ⟨q2, hq2⟩ := Dec.rpmResult_gelems fuel ty ix obj objects l hne (g1 fuel (by omega)) (by omega) [] q
  refine ⟨⟨[], q2, none⟩, ?_⟩
  unfold ackWith
  rw [k1, ← g2, D.run_bind hq2, k3]

/-- C83, C84, C85 together.  The exact result of decoding an acknowledgement with
components and date-times: the objects before; the unfinished last object, once for
every component; and the last object with the values of all elements. -/
theorem C83_exact (rs : List ObjResult) (hrs : ∀ r ∈ rs, ObjOk r) (typ inst : Nat)
    (hid : typ < 2 ^ 10 ∧ inst < 2 ^ 22) (xs : List (PropRef × ReadResult))
    (hxs : ∀ x ∈ xs, ResultOk x) (r : PropRef) (hr : RefOk r) (es : List Element) (hne : es ≠ [])
    (hes : ∀ e ∈ es, ElementOk r.prop e) :
    ∃ objects obj p ss, List.Forall₂ CarriesObj objects rs ∧ CarriesObj obj ⟨typ, inst, xs⟩ ∧
      p.ref = r ∧ List.Forall₂ ReadAs ss es ∧ p.data = unlist ss ∧
      Decodes (ackWith rs typ inst xs r es)
        (objects ++ List.replicate (es.countP isComponent) obj ++
          [{ obj with properties := obj.properties ++ [p] }]) none := by
  obtain ⟨objects, obj, ty, ix, h1, h2, h3, hty, h⟩ := ack_run rs hrs typ inst hid xs hxs r hr es
  obtain ⟨l, g1, g2, g3, g4, g5⟩ := gelems_of ty es (by rw [hty]; exact hes)
  refine ⟨objects, obj, { typ := ty, arrayIndex := ix, data := unlist (l.map (·.2.1)) }, l.map (·.2.1),
    h1, h2, h3 _ rfl rfl, g4, rfl, ?_⟩
  rw [← g5]
  exact h l (by intro hl; rw [hl] at g3; exact hne (List.length_eq_zero_iff.mp g3.symm)) g1 g2

/-! ## C83 One entry per object -/

/-- C83 fails: for every acknowledgement with at least one component the list of
objects returned is longer than the list of objects in the acknowledgement. -/
theorem C83_fails (rs : List ObjResult) (hrs : ∀ r ∈ rs, ObjOk r) (typ inst : Nat)
    (hid : typ < 2 ^ 10 ∧ inst < 2 ^ 22) (xs : List (PropRef × ReadResult))
    (hxs : ∀ x ∈ xs, ResultOk x) (r : PropRef) (hr : RefOk r) (es : List Element)
    (hes : ∀ e ∈ es, ElementOk r.prop e) (n : Nat) (v : AppVal) (hc : .ctx n v ∈ es) :
    ∃ objects, Decodes (ackWith rs typ inst xs r es) objects none ∧ rs.length + 1 < objects.length := by
  obtain ⟨objects, obj, p, ss, h1, _, _, _, _, h6⟩ := C83_exact rs hrs typ inst hid xs hxs r hr es
    (List.ne_nil_of_mem hc) hes
  refine ⟨_, h6, ?_⟩
  have : 0 < es.countP isComponent := List.countP_pos_iff.mpr ⟨_, hc, rfl⟩
  simp only [List.length_append, List.length_replicate, List.length_singleton, h1.length_eq]
  omega

/-- C83 for acknowledgements without components: one entry per object, in order.
Missing: components (`C83_fails`). -/
theorem C83_count_partial (rs : List ObjResult) (hrs : ∀ r ∈ rs, ObjOk r) (typ inst : Nat)
    (hid : typ < 2 ^ 10 ∧ inst < 2 ^ 22) (xs : List (PropRef × ReadResult))
    (hxs : ∀ x ∈ xs, ResultOk x) (r : PropRef) (hr : RefOk r) (es : List Element) (hne : es ≠ [])
    (hes : ∀ e ∈ es, ElementOk r.prop e) (hc : ∀ n v, Element.ctx n v ∉ es) :
    ∃ objects, Decodes (ackWith rs typ inst xs r es) objects none ∧
      List.Forall₂ (fun (o : Object) (x : Nat × Nat) => o.id.typ.toNat = x.1 ∧ o.id.inst.toNat = x.2)
        objects (rs.map (fun r => (r.typ, r.inst)) ++ [(typ, inst)]) := by
  obtain ⟨objects, obj, p, ss, h1, h2, _, _, _, h6⟩ := C83_exact rs hrs typ inst hid xs hxs r hr es hne hes
  refine ⟨_, h6, ?_⟩
  have : es.countP isComponent = 0 := by
    rw [List.countP_eq_zero]
    intro e he hh
    cases e with
    | ctx n v => exact hc n v he
    | app v => simp [isComponent] at hh
    | dateTime => simp [isComponent] at hh
  rw [this, List.replicate_zero, List.append_nil]
  refine List.rel_append ?_ (List.Forall₂.cons ⟨h2.1, h2.2.1⟩ List.Forall₂.nil)
  rw [List.forall₂_map_right_iff]
  exact h1.imp fun a b h => ⟨h.1, h.2.1⟩

/-! ## C84 Datatypes of components -/

/-- C84 for the components of `ElementOk`: the property's value is the list of the
component's values, each with the datatype the standard gives it.  Missing: Booleans
(`C84_fails_bool`) and the actual and requested shed levels (`C84_fails_shed`). -/
theorem C84_typed_partial (rs : List ObjResult) (hrs : ∀ r ∈ rs, ObjOk r) (typ inst : Nat)
    (hid : typ < 2 ^ 10 ∧ inst < 2 ^ 22) (xs : List (PropRef × ReadResult))
    (hxs : ∀ x ∈ xs, ResultOk x) (r : PropRef) (hr : RefOk r) (cs : List (Nat × AppVal)) (hne : cs ≠ [])
    (hes : ∀ c ∈ cs, ElementOk r.prop (.ctx c.1 c.2)) :
    ∃ objects, Decodes (ackWith rs typ inst xs r (cs.map fun c => .ctx c.1 c.2)) objects none ∧
      ∃ o ∈ objects, o.id.typ.toNat = typ ∧ o.id.inst.toNat = inst ∧ ∃ p ∈ o.properties, p.ref = r ∧
        ∃ ss, List.Forall₂ (fun s c => Means s c.2) ss cs ∧ p.data = unlist ss := by
  obtain ⟨objects, obj, p, ss, _, h2, h3, h4, h5, h6⟩ := C83_exact rs hrs typ inst hid xs hxs r hr
    (cs.map fun c => .ctx c.1 c.2) (by simpa using hne) (by
      intro e he
      obtain ⟨c, hc, rfl⟩ := List.mem_map.mp he
      exact hes c hc)
  refine ⟨_, h6, { obj with properties := obj.properties ++ [p] }, by simp, h2.1, h2.2.1, p, by simp, h3, ss, ?_, h5⟩
  rw [List.forall₂_map_right_iff] at h4
  exact h4.imp fun a b h => h

/-- The components of a Boolean type. -/
theorem boolean_components (prop n : Nat) (h : Spec.contextType prop n = some 1) :
    (prop = 2 ∧ (n = 7 ∨ n = 8)) ∨ (prop = 152 ∧ n = 2) := by
  revert h
  unfold Spec.contextType
  split <;> simp

/-- C84 fails for Booleans: whatever its value, a Boolean component is read as `true`,
and its contents octet as a Null of its own. -/
theorem C84_fails_bool (rs : List ObjResult) (hrs : ∀ r ∈ rs, ObjOk r) (typ inst : Nat)
    (hid : typ < 2 ^ 10 ∧ inst < 2 ^ 22) (xs : List (PropRef × ReadResult))
    (hxs : ∀ x ∈ xs, ResultOk x) (r : PropRef) (hr : RefOk r) (n : Nat)
    (hn : Spec.contextType r.prop n = some 1) (b : Bool) :
    ∃ objects, Decodes (ackWith rs typ inst xs r [.ctx n (.bool b)]) objects none ∧
      ∃ o ∈ objects, o.id.typ.toNat = typ ∧ o.id.inst.toNat = inst ∧ ∃ p ∈ o.properties, p.ref = r ∧
        p.data = .many [.bool true, .null] := by
  obtain ⟨objects, obj, ty, ix, h1, h2, h3, hty, h⟩ := ack_run rs hrs typ inst hid xs hxs r hr
    [.ctx n (.bool b)]
  have hb := boolean_components _ _ hn
  obtain ⟨hn8, ht, _⟩ := tagTypeInContext_spec ty n 1 (by rw [hty]; exact hn)
    (by rw [hty]; rcases hb with hb | hb <;> omega) (by rw [hty]; rcases hb with hb | hb <;> omega)
  have en : (UInt8.ofNat n).toNat = n := UInt8.toNat_ofNat_of_lt' (show n < 256 by omega)
  have g1 : ∀ fuel, GElem fuel ty (Spec.tagHeader n true 1) (.bool true) 1 := by
    intro fuel
    have := Dec.gelem_ctx fuel ty (UInt8.ofNat n) 1 [] (.bool true) (by rw [ht]; decide) (by
      rw [ht]; intro p r; rfl)
    rw [en, List.append_nil] at this
    exact this
  have g2 : ∀ fuel, GElem fuel ty [if b then 1 else 0] .null 0 := by
    intro fuel
    refine Elem.gelem ⟨[if b then 1 else 0], [], 0, if b then 1 else 0, rfl, ?_, ?_, ?_, ?_⟩ fuel ty
    · cases b
      · exact Dec.parses_tagNumber_header 0 false 0 (by decide)
      · exact Dec.parses_tagNumber_header 0 false 1 (by decide)
    · cases b <;> decide
    · cases b <;> decide
    · intro p r; cases b <;> rfl
  refine ⟨_, h [(Spec.tagHeader n true 1, .bool true, 1), ([if b then 1 else 0], .null, 0)] (by simp) ?_ ?_,
    { obj with properties := obj.properties ++ [{ typ := ty, arrayIndex := ix, data := .many [.bool true, .null] }] },
    ?_, h2.1, h2.2.1, _, List.mem_append_right _ (List.mem_singleton.mpr rfl), h3 _ rfl rfl, rfl⟩
  · intro fuel _ x hx
    simp only [List.mem_cons, List.not_mem_nil, or_false] at hx
    rcases hx with rfl | rfl
    · exact g1 fuel
    · exact g2 fuel
  · simp [Element.octets, Spec.contextContents]
  · exact List.mem_append_right _ (List.mem_singleton.mpr rfl)

/-- C84 fails for the actual and requested shed levels: an amount (REAL) is read as the
unsigned integer with the same bits. -/
theorem C84_fails_shed (rs : List ObjResult) (hrs : ∀ r ∈ rs, ObjOk r) (typ inst : Nat)
    (hid : typ < 2 ^ 10 ∧ inst < 2 ^ 22) (xs : List (PropRef × ReadResult))
    (hxs : ∀ x ∈ xs, ResultOk x) (r : PropRef) (hr : RefOk r) (hp : r.prop = 212 ∨ r.prop = 218) (b : UInt32) :
    ∃ objects, Decodes (ackWith rs typ inst xs r [.ctx 2 (.real b)]) objects none ∧
      ∃ o ∈ objects, o.id.typ.toNat = typ ∧ o.id.inst.toNat = inst ∧ ∃ p ∈ o.properties, p.ref = r ∧
        p.data = .one (.uint b) := by
  obtain ⟨objects, obj, ty, ix, h1, h2, h3, hty, h⟩ := ack_run rs hrs typ inst hid xs hxs r hr
    [.ctx 2 (.real b)]
  have ht : tagTypeInContext ty 2 = 2 := by
    unfold tagTypeInContext
    rw [hty]
    rcases hp with hp | hp <;> rw [hp] <;> rfl
  have g1 : ∀ fuel, GElem fuel ty (Element.ctx 2 (.real b)).octets (.uint b) 1 := by
    intro fuel
    refine Dec.gelem_ctx fuel ty 2 4 (Spec.bigEndian 4 b.toNat) (.uint b) (by rw [ht]; decide) ?_
    rw [ht, ← be32_spec]
    exact Dec.Parses.withError (f := .uint) (Dec.parses_be32 b)
  refine ⟨_, h [((Element.ctx 2 (.real b)).octets, .uint b, 1)] (by simp) ?_ (by simp),
    { obj with properties := obj.properties ++ [{ typ := ty, arrayIndex := ix, data := .one (.uint b) }] },
    ?_, h2.1, h2.2.1, _, List.mem_append_right _ (List.mem_singleton.mpr rfl), h3 _ rfl rfl, rfl⟩
  · intro fuel _ x hx
    simp only [List.mem_cons, List.not_mem_nil, or_false] at hx
    subst hx
    exact g1 fuel
  · exact List.mem_append_right _ (List.mem_singleton.mpr rfl)

/-! ## C85 Date-times -/

/-- C85 except for the year: any list of date-times is decoded to one value each, with
month, day, day of week and time as transmitted.  The year is 90 too late
(`C85_fails`). -/
theorem C85_dateTimes_partial (rs : List ObjResult) (hrs : ∀ r ∈ rs, ObjOk r) (typ inst : Nat)
    (hid : typ < 2 ^ 10 ∧ inst < 2 ^ 22) (xs : List (PropRef × ReadResult))
    (hxs : ∀ x ∈ xs, ResultOk x) (r : PropRef) (hr : RefOk r) (es : List Element) (hne : es ≠ [])
    (hes : ∀ e ∈ es, ∃ y m d w h mi s c, e = .dateTime y m d w h mi s c) :
    ∃ objects, Decodes (ackWith rs typ inst xs r es) objects none ∧ objects.length = rs.length + 1 ∧
      ∃ o ∈ objects, o.id.typ.toNat = typ ∧ o.id.inst.toNat = inst ∧ ∃ p ∈ o.properties, p.ref = r ∧
        ∃ ss, List.Forall₂ ReadAs ss es ∧ p.data = unlist ss := by
  obtain ⟨objects, obj, p, ss, h1, h2, h3, h4, h5, h6⟩ := C83_exact rs hrs typ inst hid xs hxs r hr es hne (by
    intro e he
    obtain ⟨y, m, d, w, h, mi, s, c, rfl⟩ := hes e he
    exact trivial)
  have : es.countP isComponent = 0 := by
    rw [List.countP_eq_zero]
    intro e he hh
    obtain ⟨y, m, d, w, h, mi, s, c, rfl⟩ := hes e he
    simp [isComponent] at hh
  rw [this] at h6
  refine ⟨_, h6, ?_, { obj with properties := obj.properties ++ [p] }, by simp, h2.1, h2.2.1, p, by simp, h3, ss, h4, h5⟩
  simp [h1.length_eq]

/-- C85 fails: the year of a date-time is never the one transmitted. -/
theorem C85_fails (rs : List ObjResult) (hrs : ∀ r ∈ rs, ObjOk r) (typ inst : Nat)
    (hid : typ < 2 ^ 10 ∧ inst < 2 ^ 22) (xs : List (PropRef × ReadResult))
    (hxs : ∀ x ∈ xs, ResultOk x) (r : PropRef) (hr : RefOk r) (y m d w h mi sec c : UInt8) :
    ∃ objects, Decodes (ackWith rs typ inst xs r [.dateTime y m d w h mi sec c]) objects none ∧
      ∃ o ∈ objects, ∃ p ∈ o.properties, p.ref = r ∧ ∃ dt t, p.data = .one (.datetime dt t) ∧
        dt.year ≠ 1900 + y.toNat := by
  obtain ⟨objects, h1, _, o, h2, _, _, p, h3, h4, ss, h5, h6⟩ := C85_dateTimes_partial rs hrs typ inst hid xs hxs
    r hr [.dateTime y m d w h mi sec c] (by simp) (by
      intro e he
      exact ⟨y, m, d, w, h, mi, sec, c, List.mem_singleton.mp he⟩)
  rcases h5 with _ | ⟨h7, h8⟩
  cases h8
  obtain ⟨dt, t, rfl, hy, _⟩ := h7
  exact ⟨objects, h1, o, h2, p, h3, h4, dt, t, h6, by omega⟩

/-! ## C86 Results without a value -/

/-- C86 fails: a property identifier without value or error, which the standard does not
allow, goes unnoticed when the next identifier has the same number of octets: the
answer is decoded without error as if the identifier were not there. -/
theorem C86_fails (typ inst : Nat) (prop : Nat) (x : PropRef × ReadResult) (xs : List (PropRef × ReadResult))
    (hok : ObjOk ⟨typ, inst, x :: xs⟩) (hp : prop < 2 ^ 32)
    (hsize : Spec.minOctets prop = Spec.minOctets x.1.prop) :
    ∃ obj, CarriesObj obj ⟨typ, inst, x :: xs⟩ ∧
      Decodes (Spec.ctxObjectId 0 typ inst ++ (Spec.openTag 1 ++ (Spec.ctxUnsigned 2 prop ++
        ((x :: xs).flatMap (fun p => p.2.octets p.1) ++ Spec.closeTag 1)))) [obj] none := by
  obtain ⟨o, h1, h2, N, h3⟩ := rpmObj_of ⟨typ, inst, x :: xs⟩ hok
  have e0 : (UInt32.ofNat prop).toNat = prop := UInt32.toNat_ofNat_of_lt' hp
  refine ⟨o.toObj, h2, N + o.props.length + 2, ?_⟩
  intro fuel hf p
  obtain ⟨n, rfl⟩ : ∃ n, fuel = n + 2 := ⟨fuel - 2, by omega⟩
  have e1 : o.id.typ.toNat = typ := h2.1
  have e2 : o.id.inst.toNat = inst := h2.2.1
  have h4 : List.Forall₂ CarriesProp (o.props.map RpmProp.toProp) (x :: xs) := h2.2.2
  cases hps : o.props with
  | nil => rw [hps] at h4; cases h4
  | cons y ys =>
    rw [hps] at h4
    rcases h4 with _ | ⟨h5, h6⟩
    have hy : y.typ.toNat = x.1.prop := by
      have := h5.1
      rw [← this]
      rfl
    have hoct : o.props.flatMap RpmProp.octets = (x :: xs).flatMap (fun p => p.2.octets p.1) := by
      have := h1
      unfold RpmObj.octets ObjResult.octets at this
      dsimp only at this
      rw [e1, e2] at this
      simp only [List.append_assoc] at this
      exact List.append_cancel_right (List.append_cancel_left (List.append_cancel_left this))
    obtain ⟨q, hq⟩ := Dec.rpmObjects_bare (n + 2) (n + 1) [] o (h3 _ (by omega)) (UInt32.ofNat prop) y ys hps
      (by rw [e0, hy]; exact hsize) (by omega) [] p
    rw [e0, e1, e2, hoct, List.append_nil] at hq
    refine ⟨⟨[], q, none⟩, ?_⟩
    unfold Dec.readMultipleAck
    rw [D.bind_apply, hq]
    rfl

/-- C86 fails for brackets as well: a closing tag that closes nothing, inside a
date-time, goes unnoticed; the value is the one without it. -/
theorem C86_fails_brackets (fuel : Nat) (hf : 4 ≤ fuel) (prop : UInt32) (t : Nat) (ht : t < 10) (h2 : t ≠ 2)
    (y m d w h mi s c : UInt8) : ∃ v,
    GElem fuel prop (Element.dateTime y m d w h mi s c).octets v 0 ∧
    GElem fuel prop (Spec.openTag 2 ++ Spec.closeTag t ++ (AppVal.date y m d w).encoding ++
        (AppVal.time h mi s c).encoding ++ Spec.closeTag 2) v 0 :=
  ⟨_, Dec.gelem_dateTime fuel (by omega) prop y m d w h mi s c,
    Dec.gelem_dateTime_extra fuel hf prop t ht h2 y m d w h mi s c⟩

/-- Present value without result, then units. -/
example : decoded 9 [0x0C, 0, 0, 0, 1, 0x1E, 0x29, 85, 0x29, 117, 0x4E, 0x91, 62, 0x4F, 0x1F]
    = .ok ([{ id := ⟨0, 1⟩, properties := [⟨117, arrayAll, .one (.uint 62), 0⟩] }], none) := by decide +kernel

/-! ## Instances -/

/-- A trend log's log-device-object-property: object, property, device. -/
def C83_sample : List Element := [.ctx 0 (.objId 0 5), .ctx 1 (.enum 85), .ctx 3 (.objId 8 99)]

example : ackWith [] 20 1 [] ⟨132, none⟩ C83_sample
    = [0x0C, 5, 0, 0, 1, 0x1E, 0x29, 132, 0x4E, 0x0C, 0, 0, 0, 5, 0x19, 85, 0x3C, 2, 0, 0, 99, 0x4F, 0x1F] := by
  decide +kernel

example : ∀ e ∈ C83_sample, ElementOk 132 e := by
  simp only [C83_sample, List.mem_cons, List.not_mem_nil, or_false]
  rintro e (rfl | rfl | rfl) <;>
    simp [ElementOk, Spec.contextType, AppVal.tag, C71_Readable, AppVal.WF]

example : decoded 9 (ackWith [] 20 1 [] ⟨132, none⟩ C83_sample)
    = .ok ([{ id := ⟨20, 1⟩ }, { id := ⟨20, 1⟩ }, { id := ⟨20, 1⟩ },
            { id := ⟨20, 1⟩, properties := [⟨132, arrayAll, .many [.objId ⟨0, 5⟩, .uint 85, .objId ⟨8, 99⟩], 0⟩] }],
           none) := by decide +kernel

example : decoded 9 (ackWith [] 8 1 [] ⟨152, none⟩ [.ctx 2 (.bool false)])
    = .ok ([{ id := ⟨8, 1⟩ }, { id := ⟨8, 1⟩, properties := [⟨152, arrayAll, .many [.bool true, .null], 0⟩] }],
           none) := by decide +kernel

example : decoded 9 (ackWith [] 0 1 [] ⟨130, none⟩ [.dateTime 126 11 16 1 12 30 0 0])
    = .ok ([{ id := ⟨0, 1⟩, properties := [⟨130, arrayAll, .one (.datetime ⟨2116, 11, 16, 1⟩ ⟨12, 30, 0, 0⟩), 0⟩] }],
           none) := by decide +kernel

end Bac.Props
