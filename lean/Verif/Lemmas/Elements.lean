import Verif.Spec.Elements
import Verif.Lemmas.ReadMultiple
/-!
# Lemmas about elements of property values in ReadPropertyMultiple acknowledgements
-/

namespace Bac

open Spec (AppVal)

/-- The octets `bs` are an element of a value of property `typ`, from which the value
loop makes `s`, appending the object under construction `k` times. -/
def GElem (fuel : Nat) (typ : UInt32) (bs : List UInt8) (s : Scalar) (k : Nat) : Prop :=
  ∃ h c tag m, bs = h ++ c ∧ Parses Dec.tagNumber h (tag, m) ∧ isClosing m = false ∧
    ∀ obj acc p r, Dec.rpmElement fuel typ obj tag m acc ⟨c ++ r, lastOr p h, none⟩
      = .ok ((⟨acc.values ++ [s], acc.objects ++ List.replicate k obj⟩, none),
          ⟨r, lastOr p (h ++ c), none⟩)

theorem Elem.gelem {bs : List UInt8} {s : Scalar} (h : Elem bs s) (fuel : Nat) (typ : UInt32) :
    GElem fuel typ bs s 0 := by
  obtain ⟨hd, c, tag, m, e, h1, h2, h3, h4⟩ := h
  refine ⟨hd, c, tag, m, e, h1, h3, ?_⟩
  intro obj acc p r
  rw [Dec.rpmElement_run h2 fuel typ obj acc (h4 p r)]
  simp

namespace Dec

/-- A context-tagged component whose type is known and whose contents are read by
`AppDataOfTag`. -/
theorem gelem_ctx (fuel : Nat) (typ : UInt32) (n : UInt8) (len : UInt32) (c : List UInt8)
    (s : Scalar) (h16 : tagTypeInContext typ n ≠ 16)
    (h : Parses (appDataOfTag (tagTypeInContext typ n) len.toNat) c (s, none)) :
    GElem fuel typ (Spec.tagHeader n.toNat true len.toNat ++ c) s 1 := by
  have hp := parses_tagNumber_header n true (Spec.lenBits len.toNat) (Spec_lenBits_lt _)
  have hv := parses_value (Spec.numNibble n.toNat) (Spec_numNibble_lt _) true len
  obtain ⟨_, _, f3, f4, f5, _⟩ := tagByte_facts ⟨_, Spec_numNibble_lt n.toNat⟩ true
    ⟨_, Spec_lenBits_lt len.toNat⟩
  refine ⟨[tagByte (Spec.numNibble n.toNat) true (Spec.lenBits len.toNat)] ++ Spec.numExt n.toNat,
    Spec.lenExt len.toNat ++ c, n, _, ?_, hp, f4, ?_⟩
  · unfold Spec.tagHeader tagByte
    simp only [List.append_assoc]
  · intro obj acc p r
    have h3 : isOpening (tagByte (Spec.numNibble n.toNat) true (Spec.lenBits len.toNat)) = false := f3
    have h4 : isClosing (tagByte (Spec.numNibble n.toNat) true (Spec.lenBits len.toNat)) = false := f4
    have h5 : isContextSpecific (tagByte (Spec.numNibble n.toNat) true (Spec.lenBits len.toNat)) = true := f5
    unfold rpmElement
    rw [h5, if_pos rfl, h4, if_neg (by decide), h3, if_neg (by decide), List.append_assoc,
      D.run_bind (hv _ _), if_neg h16, D.run_bind (h _ _)]
    simp only [Option.isSome_none, Bool.false_eq_true, if_false, D.pure_apply, lastOr_append,
      List.replicate_one, List.append_assoc]

theorem parses_date_field (y m d w : UInt8) (t : Time) :
    Parses (dateTimeField 10 4 ({}, t)) [y, m, d, w] (⟨y.toNat + 1990, m.toNat, d.toNat, w.toNat⟩, t) := by
  have hr : Parses (rawRead 4) [y, m, d, w] [y, m, d, w] := by
    intro p rest; simp [rawRead, lastOr]
  unfold dateTimeField
  rw [if_pos rfl]
  refine Parses.bind' (a := ⟨y.toNat + 1990, m.toNat, d.toNat, w.toNat⟩) ?_ (Parses.pure _)
  unfold date
  rw [if_neg (by decide)]
  exact Parses.bind' hr (Parses.bind0 parses_error (Parses.pure _))

theorem parses_time_field (h m s c : UInt8) (dt : Date × Time) :
    Parses (dateTimeField 11 4 dt) [h, m, s, c] (dt.1, ⟨h.toNat, m.toNat, s.toNat, (c.toNat : Int) * 10⟩) := by
  have hr : Parses (rawRead 4) [h, m, s, c] [h, m, s, c] := by
    intro p rest; simp [rawRead, lastOr]
  unfold dateTimeField
  rw [if_neg (by decide), if_pos rfl]
  refine Parses.bind' (a := ⟨h.toNat, m.toNat, s.toNat, (c.toNat : Int) * 10⟩) ?_ (Parses.pure _)
  unfold time
  rw [if_neg (by decide)]
  exact Parses.bind' hr (Parses.bind0 parses_error (Parses.pure _))

theorem gelem_dateTime (fuel : Nat) (hf : 3 ≤ fuel) (typ : UInt32) (y m d w h mi s c : UInt8) :
    GElem fuel typ (Spec.Element.dateTime y m d w h mi s c).octets
      (.datetime ⟨y.toNat + 1990, m.toNat, d.toNat, w.toNat⟩
        ⟨h.toNat, mi.toNat, s.toNat, (c.toNat : Int) * 10⟩) 0 := by
  obtain ⟨n, rfl⟩ : ∃ n, fuel = n + 3 := ⟨fuel - 3, by omega⟩
  have o2 : Parses tagNumber (Spec.openTag 2) (2, 0x2E) := parses_tagNumber_open 2
  have c2 : Parses tagNumberAndValue (Spec.closeTag 2) (2, 0x2F, 0) := parses_closeTag 2
  have hd : Parses tagNumberAndValue (Spec.tagHeader 10 false 4)
      (10, tagByte (Spec.numNibble 10) false 4, 4) := parses_tagHeader 10 false 4
  have ht : Parses tagNumberAndValue (Spec.tagHeader 11 false 4)
      (11, tagByte (Spec.numNibble 11) false 4, 4) := parses_tagHeader 11 false 4
  have loop : Parses (dateTimeLoop (n + 3) ({}, {}))
      (Spec.tagHeader 10 false 4 ++ ([y, m, d, w] ++ (Spec.tagHeader 11 false 4 ++ ([h, mi, s, c] ++
        Spec.closeTag 2)))) (⟨y.toNat + 1990, m.toNat, d.toNat, w.toNat⟩,
        ⟨h.toNat, mi.toNat, s.toNat, (c.toNat : Int) * 10⟩) := by
    unfold dateTimeLoop
    refine Parses.bind hd ?_
    dsimp only
    rw [if_neg (by decide)]
    refine Parses.bind (parses_date_field y m d w _) ?_
    unfold dateTimeLoop
    refine Parses.bind ht ?_
    dsimp only
    rw [if_neg (by decide)]
    refine Parses.bind (parses_time_field h mi s c _) ?_
    unfold dateTimeLoop
    refine Parses.bind' c2 ?_
    dsimp only
    rw [if_pos (by decide)]
    exact Parses.pure _
  refine ⟨Spec.openTag 2, Spec.tagHeader 10 false 4 ++ ([y, m, d, w] ++ (Spec.tagHeader 11 false 4 ++
    ([h, mi, s, c] ++ Spec.closeTag 2))), 2, 0x2E, ?_, o2, by decide, ?_⟩
  · simp only [Spec.Element.octets, AppVal.encoding, AppVal.tag, AppVal.lenField, AppVal.contents,
      List.length_cons, List.length_nil, List.append_assoc]
  · intro obj acc p r
    unfold rpmElement
    rw [show isContextSpecific 0x2E = true by decide, show isClosing 0x2E = false by decide,
      show isOpening 0x2E = true by decide, if_pos rfl, if_neg (by decide), if_pos rfl, if_pos rfl,
      D.run_bind (loop _ _)]
    simp only [D.pure_apply, lastOr_append, List.replicate_zero, List.append_nil]

/-- A date-time with a closing tag `t` too many inside. -/
theorem gelem_dateTime_extra (fuel : Nat) (hf : 4 ≤ fuel) (typ : UInt32) (t : Nat) (ht : t < 10) (h2 : t ≠ 2)
    (y m d w h mi s c : UInt8) :
    GElem fuel typ (Spec.openTag 2 ++ Spec.closeTag t ++ (AppVal.date y m d w).encoding ++
        (AppVal.time h mi s c).encoding ++ Spec.closeTag 2)
      (.datetime ⟨y.toNat + 1990, m.toNat, d.toNat, w.toNat⟩
        ⟨h.toNat, mi.toNat, s.toNat, (c.toNat : Int) * 10⟩) 0 := by
  obtain ⟨n, rfl⟩ : ∃ n, fuel = n + 4 := ⟨fuel - 4, by omega⟩
  have et : (UInt8.ofNat t).toNat = t := UInt8.toNat_ofNat_of_lt' (show t < 256 by omega)
  have o2 : Parses tagNumber (Spec.openTag 2) (2, 0x2E) := parses_tagNumber_open 2
  have c2 : Parses tagNumberAndValue (Spec.closeTag 2) (2, 0x2F, 0) := parses_closeTag 2
  have ct := parses_closeTag (UInt8.ofNat t)
  rw [et] at ct
  have hd : Parses tagNumberAndValue (Spec.tagHeader 10 false 4)
      (10, tagByte (Spec.numNibble 10) false 4, 4) := parses_tagHeader 10 false 4
  have htm : Parses tagNumberAndValue (Spec.tagHeader 11 false 4)
      (11, tagByte (Spec.numNibble 11) false 4, 4) := parses_tagHeader 11 false 4
  have n2 : UInt8.ofNat t ≠ 2 := ofNat_ne_of_lt (show t < 15 by omega) (show 2 < 15 by decide) h2
  have n10 : UInt8.ofNat t ≠ 10 := ofNat_ne_of_lt (k := 10) (show t < 15 by omega) (show 10 < 15 by decide) (by omega)
  have n11 : UInt8.ofNat t ≠ 11 := ofNat_ne_of_lt (k := 11) (show t < 15 by omega) (show 11 < 15 by decide) (by omega)
  have loop : Parses (dateTimeLoop (n + 4) ({}, {}))
      (Spec.closeTag t ++ (Spec.tagHeader 10 false 4 ++ ([y, m, d, w] ++ (Spec.tagHeader 11 false 4 ++
        ([h, mi, s, c] ++ Spec.closeTag 2))))) (⟨y.toNat + 1990, m.toNat, d.toNat, w.toNat⟩,
        ⟨h.toNat, mi.toNat, s.toNat, (c.toNat : Int) * 10⟩) := by
    unfold dateTimeLoop
    refine Parses.bind ct ?_
    dsimp only
    rw [if_neg (fun h => n2 h.2)]
    have hfield : dateTimeField (UInt8.ofNat t) 0 ({}, {}) = pure ({}, {}) := by
      unfold dateTimeField
      rw [if_neg n10, if_neg n11, if_neg (by decide)]
    rw [hfield]
    refine Parses.bind0 (Parses.pure _) ?_
    unfold dateTimeLoop
    refine Parses.bind hd ?_
    dsimp only
    rw [if_neg (by decide)]
    refine Parses.bind (parses_date_field y m d w _) ?_
    unfold dateTimeLoop
    refine Parses.bind htm ?_
    dsimp only
    rw [if_neg (by decide)]
    refine Parses.bind (parses_time_field h mi s c _) ?_
    unfold dateTimeLoop
    refine Parses.bind' c2 ?_
    dsimp only
    rw [if_pos (by decide)]
    exact Parses.pure _
  refine ⟨Spec.openTag 2, Spec.closeTag t ++ (Spec.tagHeader 10 false 4 ++ ([y, m, d, w] ++
    (Spec.tagHeader 11 false 4 ++ ([h, mi, s, c] ++ Spec.closeTag 2)))), 2, 0x2E, ?_, o2, by decide, ?_⟩
  · simp only [AppVal.encoding, AppVal.tag, AppVal.lenField, AppVal.contents,
      List.length_cons, List.length_nil, List.append_assoc]
  · intro obj acc p r
    unfold rpmElement
    rw [show isContextSpecific 0x2E = true by decide, show isClosing 0x2E = false by decide,
      show isOpening 0x2E = true by decide, if_pos rfl, if_neg (by decide), if_pos rfl, if_pos rfl,
      D.run_bind (loop _ _)]
    simp only [D.pure_apply, lastOr_append, List.replicate_zero, List.append_nil]

/-- Elements are taken one by one. -/
theorem rpmNextValue_gelems (fuel : Nat) (typ : UInt32) (obj : Object) (rest : List UInt8)
    (l : List (List UInt8 × Scalar × Nat)) : (∀ x ∈ l, GElem fuel typ x.1 x.2.1 x.2.2) →
    ∀ (n : Nat) (acc : RpmAcc) (p : Option UInt8), ∃ q,
    rpmNextValue fuel typ obj (n + l.length) acc ⟨l.flatMap Prod.fst ++ rest, p, none⟩
      = rpmNextValue fuel typ obj n ⟨acc.values ++ l.map (·.2.1),
          acc.objects ++ List.replicate (l.map (·.2.2)).sum obj⟩ ⟨rest, q, none⟩ := by
  induction l with
  | nil => intro _ n acc p; exact ⟨p, by simp⟩
  | cons x l ih =>
    intro h n acc p
    obtain ⟨hd, c, tag, m, e, h1, h3, h4⟩ := h x (by simp)
    obtain ⟨q, hq⟩ := ih (fun y hy => h y (by simp [hy])) n
      ⟨acc.values ++ [x.2.1], acc.objects ++ List.replicate x.2.2 obj⟩ (lastOr p (hd ++ c))
    refine ⟨q, ?_⟩
    conv_lhs => unfold rpmNextValue
    rw [List.flatMap_cons, e, List.append_assoc, List.append_assoc, D.run_bind (h1 _ _)]
    dsimp only
    rw [h3, if_neg (by simp), show n + (x :: l).length = (n + l.length) + 1 from rfl]
    unfold rpmValues
    rw [D.run_bind (h4 _ _ _ _)]
    simp only [Option.isSome_none, Bool.false_eq_true, if_false]
    unfold rpmNextValue at hq ⊢
    rw [hq]
    simp [← List.replicate_append_replicate]

/-- The result of a property with at least one element, at the end of an object. -/
theorem rpmResult_gelems (fuel : Nat) (typ idx : UInt32) (obj : Object) (objects : List Object)
    (l : List (List UInt8 × Scalar × Nat)) (hne : l ≠ [])
    (hl : ∀ x ∈ l, GElem fuel typ x.1 x.2.1 x.2.2) (hn : l.length ≤ fuel) (rest : List UInt8)
    (p : Option UInt8) : ∃ q,
    rpmResult fuel typ idx 4 0x4E obj objects
      ⟨l.flatMap Prod.fst ++ (Spec.closeTag 4 ++ (Spec.closeTag 1 ++ rest)), p, none⟩
      = .ok (.next 1 0x1F 0 { obj with properties := obj.properties ++
          [{ typ := typ, arrayIndex := idx, data := unlist (l.map (·.2.1)) }] }
          (objects ++ List.replicate (l.map (·.2.2)).sum obj), ⟨rest, q, none⟩) := by
  have c1 : Parses tagNumberAndValue (Spec.closeTag 1) (1, 0x1F, 0) := parses_closeTag 1
  obtain ⟨q, hq⟩ := rpmNextValue_gelems fuel typ obj (Spec.closeTag 4 ++ (Spec.closeTag 1 ++ rest)) l hl
    (fuel - l.length) ⟨[], objects⟩ p
  rw [Nat.sub_add_cancel hn] at hq
  have hend : rpmNextValue fuel typ obj (fuel - l.length) ⟨[] ++ l.map (·.2.1),
      objects ++ List.replicate (l.map (·.2.2)).sum obj⟩ ⟨Spec.closeTag 4 ++ (Spec.closeTag 1 ++ rest), q, none⟩
      = .ok ((⟨l.map (·.2.1), objects ++ List.replicate (l.map (·.2.2)).sum obj⟩, none),
        ⟨Spec.closeTag 1 ++ rest, lastOr q (Spec.closeTag 4), none⟩) := by
    unfold rpmNextValue
    rw [D.run_bind (close4 _ _)]
    dsimp only
    rw [if_pos ⟨by decide, rfl⟩]
    rfl
  rw [hend] at hq
  cases l with
  | nil => exact absurd rfl hne
  | cons x l =>
    obtain ⟨hd, c, tag, m, e, h1, h3, h4⟩ := hl x (by simp)
    have ht : tagNumber ⟨(x :: l).flatMap Prod.fst ++ (Spec.closeTag 4 ++ (Spec.closeTag 1 ++ rest)), p, none⟩
        = .ok ((tag, m), ⟨c ++ (l.flatMap Prod.fst ++ (Spec.closeTag 4 ++ (Spec.closeTag 1 ++ rest))),
            lastOr p hd, none⟩) := by
      rw [List.flatMap_cons, e, List.append_assoc, List.append_assoc]
      exact h1 _ _
    unfold rpmNextValue at hq
    rw [D.run_bind ht] at hq
    dsimp only at hq
    rw [h3, if_neg (by simp)] at hq
    refine ⟨lastOr (lastOr q (Spec.closeTag 4)) (Spec.closeTag 1), ?_⟩
    unfold rpmResult
    rw [if_pos ⟨rfl, by decide⟩, D.run_bind ht]
    dsimp only
    rw [D.run_bind (error_run _)]
    dsimp only [Option.isSome_none]
    rw [if_neg (by decide), D.run_bind hq]
    dsimp only [Option.isSome_none]
    rw [if_neg (by decide), D.run_bind (c1 _ _)]
    rfl

/-- A property identifier directly followed by another one of the same size. -/
theorem rpmProperty_bare (fuel : Nat) (t1 t2 : UInt32) (obj : Object) (objects : List Object)
    (h : Spec.minOctets t1.toNat = Spec.minOctets t2.toNat) (rest : List UInt8) (p : Option UInt8) :
    rpmProperty fuel (m2 t1) (UInt32.ofNat (Spec.minOctets t1.toNat)) obj objects
      ⟨Spec.unsignedOctets t1.toNat ++ (Spec.tagHeader 2 true (Spec.minOctets t2.toNat) ++ rest), p, none⟩
    = .ok (.next 2 (m2 t2) (UInt32.ofNat (Spec.minOctets t2.toNat)) obj objects,
        ⟨rest, lastOr (lastOr p (Spec.unsignedOctets t1.toNat)) (Spec.tagHeader 2 true (Spec.minOctets t2.toNat)), none⟩) := by
  have hu : Parses (enumerated (UInt32.ofNat (Spec.minOctets t1.toNat)).toNat)
      (Spec.unsignedOctets t1.toNat) t1 := parses_unsigned' t1
  have ht : Parses tagNumber (Spec.tagHeader 2 true (Spec.minOctets t2.toNat)) (2, m2 t2) :=
    parses_tagNumber_small 2 true _ (minOctets_le4 _)
  unfold rpmProperty
  rw [(m2_facts t1).1, if_neg (by decide), D.run_bind (hu _ _), D.run_bind (ht _ _)]
  dsimp only
  rw [if_pos rfl, ← h]
  rfl

/-- An object whose first result is missing: only the identifier is there. -/
theorem rpmObjects_bare (fuel n : Nat) (acc : List Object) (o : RpmObj) (ho : o.Ok fuel) (t1 : UInt32)
    (x : RpmProp) (ps : List RpmProp) (hp : o.props = x :: ps)
    (h : Spec.minOctets t1.toNat = Spec.minOctets x.typ.toNat) (hlt : o.props.length + 1 < fuel)
    (rest : List UInt8) (p : Option UInt8) :
    ∃ q, rpmObjects fuel (n + 1) acc ⟨Spec.ctxObjectId 0 o.id.typ.toNat o.id.inst.toNat ++ (Spec.openTag 1 ++
        (Spec.ctxUnsigned 2 t1.toNat ++ (o.props.flatMap RpmProp.octets ++ (Spec.closeTag 1 ++ rest)))), p, none⟩
      = rpmObjects fuel n (acc ++ [o.toObj]) ⟨rest, q, none⟩ := by
  obtain ⟨hid, hne, _, hps⟩ := ho
  have c1 : Parses tagNumberAndValue (Spec.closeTag 1) (1, 0x1F, 0) := parses_closeTag 1
  obtain ⟨f, rfl⟩ : ∃ f, fuel = f + 1 := ⟨fuel - 1, by omega⟩
  obtain ⟨q, hq⟩ := rpmObjects_head (f + 1) n acc o.id t1 hid (o.props.flatMap RpmProp.octets ++ (Spec.closeTag 1 ++ rest)) p
  obtain ⟨q2, hq2⟩ := rpmProperties_prefix (f + 1) (Spec.closeTag 1 ++ rest)
      o.props hps f (by omega) { id := o.id } acc
      (lastOr (lastOr q (Spec.tagHeader 2 true (Spec.minOctets t1.toNat))) (Spec.unsignedOctets t1.toNat))
  have step : (tagNumberAndValue >>= fun r => rpmProperties (f + 1) (f + 1) r.1 r.2.1 r.2.2 { id := o.id } acc)
      ⟨Spec.ctxUnsigned 2 t1.toNat ++ (o.props.flatMap RpmProp.octets ++ (Spec.closeTag 1 ++ rest)), q, none⟩
      = (tagNumberAndValue >>= fun r => rpmProperties (f + 1) f r.1 r.2.1 r.2.2 { id := o.id } acc)
      ⟨o.props.flatMap RpmProp.octets ++ (Spec.closeTag 1 ++ rest),
        lastOr (lastOr q (Spec.tagHeader 2 true (Spec.minOctets t1.toNat))) (Spec.unsignedOctets t1.toNat), none⟩ := by
    rw [hp, List.flatMap_cons, RpmProp.octets]
    unfold Spec.ctxUnsigned
    simp only [List.append_assoc]
    rw [D.run_bind (ctx2_header t1 _ _), D.run_bind (ctx2_header x.typ _ _)]
    dsimp only
    conv_lhs => unfold rpmProperties
    rw [D.run_bind (len_run _), if_pos ⟨by simp [Spec.openTag], rfl, by rw [(m2_facts t1).2]; decide⟩,
      D.run_bind (rpmProperty_bare (f + 1) t1 x.typ _ acc h _ _)]
  refine ⟨lastOr q2 (Spec.closeTag 1), ?_⟩
  rw [hq, D.bind_apply, step, hq2, D.run_bind (c1 _ _)]
  dsimp only
  obtain ⟨k, hk⟩ : ∃ k, f - o.props.length = k + 1 := ⟨f - o.props.length - 1, by omega⟩
  rw [hk]
  unfold rpmProperties
  rw [D.run_bind (len_run _), if_neg (by simp)]
  rfl

end Dec

end Bac
