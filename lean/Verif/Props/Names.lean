import Verif.Lemmas.Names
/-!
# Names and object tables in JSON (C59, C69, C70, C100)
-/

namespace Bac.Props

/-! ## C59 Object tables in JSON -/

/-- A table as Go maps are: every key occurs once. -/
def C59_Map {κ : Type} (m : List (κ × List (UInt32 × Object))) : Prop :=
  (m.map Prod.fst).Nodup ∧ ∀ e ∈ m, (e.2.map Prod.fst).Nodup

/-- What is assumed of the package json: unmarshalling the marshalled map gives a map
with the same keys and the same entries, in any order. -/
def C59_Read (m m' : NamedMap) : Prop :=
  C59_Map m' ∧ (∀ k, k ∈ m'.map Prod.fst ↔ k ∈ m.map Prod.fst) ∧
    ∀ k i, (mapGet k m').bind (mapGet i) = (mapGet k m).bind (mapGet i)

/-- C59, the first half: in the marshalled map every object of the table is found under
the name of its type and its instance, and nothing else; types never share a name. -/
theorem C59_marshal (om : ObjectMap) (hm : C59_Map om) :
    (∀ t i, (mapGet (objectTypeString t) (marshalMap om)).bind (mapGet i) = om.find ⟨t, i⟩) ∧
    ∀ k, k ∈ (marshalMap om).map Prod.fst ↔ ∃ t ∈ om.map Prod.fst, objectTypeString t = k := by
  constructor
  · intro t i
    rw [marshalMap_eq]
    by_cases ht : t ∈ om.map Prod.fst
    · have := lookup2_rekey objectTypeString om hm.1 hm.2 (fun a _ b _ h => objectTypeString_inj h) [] t ht i
      simp only [lookup2] at this
      rw [this]
      simp [mapGet, ObjectMap.find]
    · have := lookup2_rekey_other objectTypeString om hm.2 [] (objectTypeString t)
        (fun e he h => ht (objectTypeString_inj h ▸ List.mem_map.2 ⟨e, he, rfl⟩)) i
      simp only [lookup2] at this
      rw [this, ObjectMap.find, mapGet_none ht]
      rfl
  · intro k
    rw [marshalMap_eq, rekey_keys]
    simp

/-- C59 for tables of named types: read back into an empty table, in any order, the
same objects are found at the same places. -/
theorem C59_partial (om : ObjectMap) (hm : C59_Map om) (hnamed : ∀ t ∈ om.map Prod.fst, t ∈ Spec.namedTypes)
    (m' : NamedMap) (hr : C59_Read (marshalMap om) m') :
    ∃ r, unmarshalMap (some []) m' = .ok r ∧ ∀ id, r.find id = om.find id := by
  obtain ⟨⟨hn', hs'⟩, hkeys, hlook⟩ := hr
  obtain ⟨hmar, hmk⟩ := C59_marshal om hm
  refine ⟨_, unmarshalMap_eq [] m', fun id => ?_⟩
  have hback : ∀ k ∈ m'.map Prod.fst, ∃ t ∈ om.map Prod.fst, objectTypeString t = k ∧ getType k = t := by
    intro k hk
    obtain ⟨t, ht, e⟩ := (hmk k).1 ((hkeys k).1 hk)
    exact ⟨t, ht, e, by rw [← e]; exact getType_named t (hnamed t ht)⟩
  by_cases h : ∃ k ∈ m'.map Prod.fst, getType k = id.typ
  · obtain ⟨k, hk, hkt⟩ := h
    obtain ⟨t, ht, e, e'⟩ := hback k hk
    have := lookup2_rekey getType m' hn' hs' (fun a ha b hb h => by
      obtain ⟨ta, _, ea, ga⟩ := hback a ha
      obtain ⟨tb, _, eb, gb⟩ := hback b hb
      rw [← ea, ← eb, ← ga, ← gb, h]) [] k hk id.inst
    simp only [lookup2] at this
    rw [hkt] at this
    rw [ObjectMap.find, this, hlook, ← e, hmar]
    rw [show t = id.typ by rw [← e', hkt]]
    simp [mapGet]
  · have := lookup2_rekey_other getType m' hs' [] id.typ (fun e he hh => h ⟨e.1, List.mem_map.2 ⟨e, he, rfl⟩, hh⟩) id.inst
    simp only [lookup2] at this
    rw [ObjectMap.find, this, ObjectMap.find, mapGet_none (m := om)]
    · rfl
    · intro ht
      exact h ⟨_, (hkeys _).2 ((hmk _).2 ⟨_, ht, rfl⟩), getType_named _ (hnamed _ ht)⟩

/-- C59 fails for every other type: its objects are not found at their place any more. -/
theorem C59_fails_unknown (om : ObjectMap) (t : UInt16) (ht : t ∉ Spec.namedTypes) (i : UInt32) (o : Object)
    (_ : om.find ⟨t, i⟩ = some o) (m' : NamedMap) (_ : C59_Read (marshalMap om) m') :
    ∃ r, unmarshalMap (some []) m' = .ok r ∧ r.find ⟨t, i⟩ = none := by
  refine ⟨_, unmarshalMap_eq [] m', ?_⟩
  rw [ObjectMap.find, mapGet_none]
  · rfl
  · rw [rekey_keys]
    rintro (h | h)
    · simp at h
    · obtain ⟨s, _, e⟩ := List.mem_map.1 h
      have hh := getType_mem s
      rw [e] at hh
      exact ht hh

/-- C59 fails for a table read into a variable of its type that was not made before:
the process crashes, for every table that is not empty. -/
theorem C59_fails_nil (om : ObjectMap) (hne : om ≠ []) (m' : NamedMap) (hr : C59_Read (marshalMap om) m') :
    unmarshalMap none m' = .panic .nilMapWrite := by
  cases m' with
  | cons => rfl
  | nil =>
    obtain ⟨e, rest, rfl⟩ := List.exists_cons_of_ne_nil hne
    have : objectTypeString e.1 ∈ (marshalMap (e :: rest)).map Prod.fst := by
      rw [marshalMap_eq, rekey_keys]
      simp
    have := (hr.2.1 _).2 this
    simp at this

/-- An object of the type 23 (accumulator) comes back as analog input, in the place of
another object. -/
example : let om : ObjectMap := [(0, [(7, { id := ⟨0, 7⟩, name := [65] })]), (23, [(7, { id := ⟨23, 7⟩, name := [66] })])]
    (match unmarshalMap (some []) (marshalMap om) with
      | .ok r => some ((r.find ⟨23, 7⟩).isSome, (r.find ⟨0, 7⟩).map Object.name)
      | _ => none) = some (false, some [66]) := by decide +kernel
example : let om : ObjectMap := [(2, [(7, { id := ⟨2, 7⟩, name := [65] })]), (40, [(7, { id := ⟨40, 7⟩, name := [66] })])]
    unmarshalMap (some []) (marshalMap om) = .ok om := by decide +kernel

/-! ## C69 The table of services -/

/-- C69, names and numbers: names are unique, and the number of each service is the bit
the standard assigns to it. -/
theorem C69_numbers : (supportedList.map Service.name).Nodup ∧
    ∀ s ∈ supportedList, (s.name, s.number.toNat) ∈ Spec.serviceBits := by
  constructor <;> decide +kernel

/-- C69, lookup: in whatever order the map is walked, the service found under the name
printed for a service is that service. -/
theorem C69_lookup (order : List Service) (hp : order.Perm supportedList) (s : Service) (hs : s ∈ supportedList) :
    serviceGetType order (serviceGetString s) = some s := by
  have hinj : ∀ a ∈ supportedList, ∀ b ∈ supportedList, a.name = b.name → a = b := by decide +kernel
  rw [serviceGetString, if_pos hs, serviceGetType]
  cases hf : order.find? (fun t => s.name = t.name) with
  | none =>
    rw [List.find?_eq_none] at hf
    exact absurd (decide_eq_true rfl) (hf s (hp.mem_iff.2 hs))
  | some t =>
    have h1 := List.find?_some hf
    have h2 := List.mem_of_find?_eq_some hf
    simp only [decide_eq_true_eq] at h1
    rw [hinj s hs t (hp.mem_iff.1 h2) h1]

/-- C69 fails for the positions: exactly the first thirteen are the bits of the standard;
from readPropertyMultiple on every position is the bit of another service. -/
theorem C69_fails (s : Service) (hs : s ∈ supportedList) :
    (s.name, s.index) ∈ Spec.serviceBits ↔ s.index < 13 := by
  revert s
  decide +kernel

example : (supportedList.find? (fun s => s.name = t!"whoIs")).map (fun s => (s.number.toNat, s.index)) = some (34, 31) ∧
    (t!"unconfirmedTextMessage", 31) ∈ Spec.serviceBits := by decide +kernel

/-! ## C70 Names of properties -/

/-- C70 fails for every property: what is printed is never accepted. -/
theorem C70_fails (p : UInt32) : propertyGet (propertyString p) = none := by
  unfold propertyString
  cases hg : mapGet p propertyStrMapping with
  | none => show propertyGet (t!"Unknown") = none; decide +kernel
  | some s =>
    have h : ∀ e ∈ propertyStrMapping, propertyGet (e.2 ++ t!" (" ++ decimal e.1.toNat ++ t!")") = none := by
      have h0 : ∀ e ∈ propertyTypeMapping, e.1.getLast? ≠ some 41 := by decide +kernel
      intro e _
      cases hh : propertyGet (e.2 ++ t!" (" ++ decimal e.1.toNat ++ t!")") with
      | none => rfl
      | some q =>
        exact absurd List.getLast?_concat (h0 _ (mapGet_mem hh))
    exact h _ (mapGet_mem hg)

/-- C70, what holds: every name listed by `Keys` gives its property, every property has
one name, and the same properties have a text to print. -/
theorem C70_keys_partial :
    (∀ e ∈ propertyTypeMapping, propertyGet e.1 = some e.2) ∧
    (propertyTypeMapping.map Prod.snd).Nodup ∧
    ∀ p, p ∈ propertyTypeMapping.map Prod.snd ↔ p ∈ propertyStrMapping.map Prod.fst := by
  refine ⟨by decide +kernel, by decide +kernel, fun p => ?_⟩
  constructor <;> intro h
  · have : ∀ p ∈ propertyTypeMapping.map Prod.snd, p ∈ propertyStrMapping.map Prod.fst := by decide +kernel
    exact this p h
  · have : ∀ p ∈ propertyStrMapping.map Prod.fst, p ∈ propertyTypeMapping.map Prod.snd := by decide +kernel
    exact this p h

/-- C70, the names: the texts accepted are exactly the names of the thirteen properties
written without blanks, each for the number the standard gives to the property; printed
is the name with blanks and the number, but for the units, which come out under a name
of the program. -/
theorem C70_names :
    (∀ s p, propertyGet s = some p ↔ ∃ e ∈ Spec.propertyWords, e.1.flatten = s ∧ e.2 = p.toNat) ∧
    (∀ e ∈ Spec.propertyWords, e.2 ≠ 117 →
      propertyString (.ofNat e.2) = List.intercalate (t!" ") e.1 ++ t!" (" ++ decimal e.2 ++ t!")") ∧
    propertyString 117 = t!"PropUnits (117)" := by
  refine ⟨fun s p => ⟨fun h => ?_, fun ⟨e, he, h1, h2⟩ => ?_⟩, by decide +kernel, by decide +kernel⟩
  · have := mapGet_mem h
    have hall : ∀ d ∈ propertyTypeMapping, ∃ e ∈ Spec.propertyWords, e.1.flatten = d.1 ∧ e.2 = d.2.toNat := by
      decide +kernel
    exact hall _ this
  · have hall : ∀ e ∈ Spec.propertyWords, propertyGet e.1.flatten = some (.ofNat e.2) := by decide +kernel
    rw [← h1, hall e he, h2, UInt32.ofNat_toNat]

example : propertyString 85 = t!"Present Value (85)" ∧ propertyGet (t!"PresentValue") = some 85 := by
  decide +kernel

/-! ## C100 Names of enumerations -/

/-- The text for a number: the identifier that has this number, or the type and the
number in parentheses. -/
def C100_Text (names : List (List Nat × Nat)) (typ : List Nat) (i : Nat) (s : List Nat) : Prop :=
  (s, i) ∈ names ∨ (∀ e ∈ names, e.2 ≠ i) ∧ s = typ ++ [40] ++ decimal i ++ [41]

/-- Checking a generated function: the numbers of its runs by evaluation, all others by
the default case. -/
theorem stringer_text (runs : List Run) (names : List (List Nat × Nat)) (typ : List Nat)
    (h1 : ∀ r ∈ runs, ∀ k < r.last + 1 - r.first, ∃ e ∈ names, e.2 = r.first + k ∧ stringer runs typ (r.first + k) = .ok e.1)
    (h2 : ∀ e ∈ names, ∃ r ∈ runs, r.first ≤ e.2 ∧ e.2 ≤ r.last) (i : Nat) :
    ∃ s, stringer runs typ i = .ok s ∧ C100_Text names typ i s := by
  by_cases h : ∃ r ∈ runs, r.first ≤ i ∧ i ≤ r.last
  · obtain ⟨r, hr, ha, hb⟩ := h
    obtain ⟨e, he, hei, hs⟩ := h1 r hr (i - r.first) (by omega)
    rw [show r.first + (i - r.first) = i by omega] at hei hs
    refine ⟨e.1, hs, Or.inl ?_⟩
    rw [← hei]
    exact he
  · have hf : runs.find? (fun r => r.first ≤ i ∧ i ≤ r.last) = none := by
      rw [List.find?_eq_none]
      intro r hr
      simpa using fun ha => Nat.lt_of_not_le (fun hb => h ⟨r, hr, ha, hb⟩)
    refine ⟨typ ++ [40] ++ decimal i ++ [41], by simp only [stringer, hf], Or.inr ⟨fun e he hh => ?_, rfl⟩⟩
    obtain ⟨r, hr, ha, hb⟩ := h2 e he
    exact h ⟨r, hr, hh ▸ ha, hh ▸ hb⟩

theorem unit_runs : ∀ r ∈ unitRuns, ∀ k < r.last + 1 - r.first, ∃ e ∈ Spec.unitNames,
    e.2 = r.first + k ∧ stringer unitRuns t!"Unit" (r.first + k) = .ok e.1 := by decide +kernel

theorem unit_names : ∀ e ∈ Spec.unitNames, ∃ r ∈ unitRuns, r.first ≤ e.2 ∧ e.2 ≤ r.last := by decide +kernel

theorem segmentation_runs : ∀ r ∈ segmentationRuns, ∀ k < r.last + 1 - r.first, ∃ e ∈ Spec.segmentationNames,
    e.2 = r.first + k ∧ stringer segmentationRuns t!"SegmentedType" (r.first + k) = .ok e.1 := by decide +kernel

theorem segmentation_names : ∀ e ∈ Spec.segmentationNames, ∃ r ∈ segmentationRuns, r.first ≤ e.2 ∧ e.2 ≤ r.last := by decide +kernel

theorem netMessage_runs : ∀ r ∈ netMessageRuns, ∀ k < r.last + 1 - r.first, ∃ e ∈ Spec.netMessageNames,
    e.2 = r.first + k ∧ stringer netMessageRuns t!"NetworkMessageType" (r.first + k) = .ok e.1 := by decide +kernel

theorem netMessage_names : ∀ e ∈ Spec.netMessageNames, ∃ r ∈ netMessageRuns, r.first ≤ e.2 ∧ e.2 ≤ r.last := by decide +kernel

theorem errorClass_runs : ∀ r ∈ errorClassRuns, ∀ k < r.last + 1 - r.first, ∃ e ∈ Spec.errorClassNames,
    e.2 = r.first + k ∧ stringer errorClassRuns t!"ErrorClass" (r.first + k) = .ok e.1 := by decide +kernel

theorem errorClass_names : ∀ e ∈ Spec.errorClassNames, ∃ r ∈ errorClassRuns, r.first ≤ e.2 ∧ e.2 ≤ r.last := by decide +kernel

theorem errorCode_runs : ∀ r ∈ errorCodeRuns, ∀ k < r.last + 1 - r.first, ∃ e ∈ Spec.errorCodeNames,
    e.2 = r.first + k ∧ stringer errorCodeRuns t!"ErrorCode" (r.first + k) = .ok e.1 := by decide +kernel

theorem errorCode_names : ∀ e ∈ Spec.errorCodeNames, ∃ r ∈ errorCodeRuns, r.first ≤ e.2 ∧ e.2 ≤ r.last := by decide +kernel

/-- C100: for every number of the five enumeration types a text is made without a crash,
the identifier of the number where there is one. -/
theorem C100_texts :
    (∀ i : UInt16, ∃ s, unitString i = .ok s ∧ C100_Text Spec.unitNames t!"Unit" i.toNat s) ∧
    (∀ i : UInt8, ∃ s, segmentationString i = .ok s ∧ C100_Text Spec.segmentationNames t!"SegmentedType" i.toNat s) ∧
    (∀ i : UInt8, ∃ s, netMessageString i = .ok s ∧ C100_Text Spec.netMessageNames t!"NetworkMessageType" i.toNat s) ∧
    (∀ i : UInt16, ∃ s, errorClassString i = .ok s ∧ C100_Text Spec.errorClassNames t!"ErrorClass" i.toNat s) ∧
    (∀ i : UInt32, ∃ s, errorCodeString i = .ok s ∧ C100_Text Spec.errorCodeNames t!"ErrorCode" i.toNat s) :=
  ⟨fun i => stringer_text _ _ _ unit_runs unit_names i.toNat,
    fun i => stringer_text _ _ _ segmentation_runs segmentation_names i.toNat,
    fun i => stringer_text _ _ _ netMessage_runs netMessage_names i.toNat,
    fun i => stringer_text _ _ _ errorClass_runs errorClass_names i.toNat,
    fun i => stringer_text _ _ _ errorCode_runs errorCode_names i.toNat⟩

/-- C100: the numbers of the identifiers are unique, so the text determines the number;
the error classes are those of the standard. -/
theorem C100_unique :
    (Spec.unitNames.map Prod.snd).Nodup ∧ (Spec.unitNames.map Prod.fst).Nodup ∧
    (Spec.errorCodeNames.map Prod.snd).Nodup ∧ (Spec.errorCodeNames.map Prod.fst).Nodup ∧
    Spec.standardErrorClasses.map (fun e => (e.1 ++ t!"Error", e.2)) = Spec.errorClassNames := by
  refine ⟨?_, ?_, ?_, ?_, ?_⟩ <;> decide +kernel

example : unitString 62 = .ok (t!"DegreesCelsius") ∧ unitString 110 = .ok (t!"Unit(110)") ∧
    errorCodeString 31 = .ok (t!"UnknownObject") := by decide +kernel

end Bac.Props
