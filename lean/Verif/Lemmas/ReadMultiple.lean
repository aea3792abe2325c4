import Verif.Model.ReadMultiple
import Verif.Lemmas.Services
/-!
# Lemmas about the ReadPropertyMultiple acknowledgement decoder
-/

namespace Bac

open Spec (AppVal)

/-- The octets `bs` are an application-tagged element: a header read by
`tagNumber`, and contents from which `AppDataOfTag` makes `s`. -/
def Elem (bs : List UInt8) (s : Scalar) : Prop :=
  ∃ h c tag m, bs = h ++ c ∧ Parses Dec.tagNumber h (tag, m) ∧ isContextSpecific m = false ∧
    isClosing m = false ∧ ∀ p r,
      (Dec.value m >>= fun len => Dec.appDataOfTag tag len.toNat) ⟨c ++ r, lastOr p h, none⟩
        = .ok ((s, none), ⟨r, lastOr p (h ++ c), none⟩)

/-- An application value that `AppData` reads is an element. -/
theorem elem_of_parses (v : AppVal) (s : Scalar)
    (h : Parses Dec.appData v.encoding (s, none)) : Elem v.encoding s := by
  have htag : (UInt8.ofNat v.tag).toNat = v.tag := by cases v <;> rfl
  have hp := Dec.parses_tagNumber_header (UInt8.ofNat v.tag) false (Spec.lenBits v.lenField)
    (Spec_lenBits_lt _)
  obtain ⟨_, _, _, h4, h5, _⟩ := tagByte_facts ⟨_, Spec_numNibble_lt (UInt8.ofNat v.tag).toNat⟩ false
    ⟨_, Spec_lenBits_lt v.lenField⟩
  have he : v.encoding = ([tagByte (Spec.numNibble (UInt8.ofNat v.tag).toNat) false
      (Spec.lenBits v.lenField)] ++ Spec.numExt (UInt8.ofNat v.tag).toNat) ++
      (Spec.lenExt v.lenField ++ v.contents) := by
    rw [htag]
    unfold AppVal.encoding Spec.tagHeader tagByte
    simp only [List.append_assoc]
  refine ⟨_, _, _, _, he, hp, h5, h4, ?_⟩
  intro p r
  have hr := h p r
  rw [he, List.append_assoc] at hr
  unfold Dec.appData Dec.tagNumberAndValue at hr
  obtain ⟨⟨t, m, len⟩, d1, e1, e2⟩ := D.bind_inv hr
  obtain ⟨⟨t', m'⟩, d2, e3, e4⟩ := D.bind_inv e1
  obtain ⟨len', d3, e5, e6⟩ := D.bind_inv e4
  rw [hp p _] at e3
  cases e3
  cases e6
  rw [D.run_bind e5]
  exact e2

namespace Dec

theorem rpmElement_run {m tag : UInt8} (hc : isContextSpecific m = false) (fuel : Nat)
    (typ : UInt32) (obj : Object) (acc : RpmAcc) {d d' : Dec} {s : Scalar}
    (h : (value m >>= fun len => appDataOfTag tag len.toNat) d = .ok ((s, none), d')) :
    rpmElement fuel typ obj tag m acc d
      = .ok (({ acc with values := acc.values ++ [s] }, none), d') := by
  obtain ⟨len, d1, e1, e2⟩ := D.bind_inv h
  unfold rpmElement
  rw [hc, if_neg (by decide), D.run_bind e1, D.run_bind e2]
  rfl

theorem close4 : Parses tagNumber (Spec.closeTag 4) (4, 0x4F) := parses_tagNumber_close 4

theorem open4 : Parses tagNumber (Spec.openTag 4) (4, 0x4E) := parses_tagNumber_open 4

/-- The next tag after some values and the closing tag 4. -/
theorem rpmValues_head (l : List (List UInt8 × Scalar)) (h : ∀ x ∈ l, Elem x.1 x.2)
    (p : Option UInt8) (rest : List UInt8) :
    ∃ tag m d1, tagNumber ⟨l.flatMap Prod.fst ++ (Spec.closeTag 4 ++ rest), p, none⟩
      = .ok ((tag, m), d1) ∧ d1.err = none ∧ (l ≠ [] → isClosing m = false) := by
  cases l with
  | nil => exact ⟨_, _, _, close4 p rest, rfl, fun h => absurd rfl h⟩
  | cons x l =>
    obtain ⟨hd, c, tag, m, e, h1, h2, h3, h4⟩ := h x (by simp)
    refine ⟨tag, m, ⟨c ++ (l.flatMap Prod.fst ++ (Spec.closeTag 4 ++ rest)), lastOr p hd, none⟩, ?_,
      rfl, fun _ => h3⟩
    · rw [List.flatMap_cons, e, List.append_assoc, List.append_assoc]
      exact h1 p _

/-- The value loop on well-formed values followed by closing tag 4. -/
theorem rpmValues_run (fuel : Nat) (typ : UInt32) (obj : Object) (rest : List UInt8)
    (l : List (List UInt8 × Scalar)) : (∀ x ∈ l, Elem x.1 x.2) → ∀ (n : Nat), l.length < n →
    ∀ (acc : RpmAcc) (p : Option UInt8) (tag m : UInt8) (d1 : Dec),
    tagNumber ⟨l.flatMap Prod.fst ++ (Spec.closeTag 4 ++ rest), p, none⟩ = .ok ((tag, m), d1) →
    rpmValues fuel typ obj n tag m acc d1
      = .ok (({ acc with values := acc.values ++ l.map Prod.snd }, none), ⟨rest, some 0x4F, none⟩) := by
  induction l with
  | nil =>
    intro _ n hn acc p tag m d1 ht
    obtain ⟨n, rfl⟩ : ∃ k, n = k + 1 := ⟨n - 1, by simp at hn; omega⟩
    have := (close4 p rest).symm.trans ht
    cases this
    unfold rpmValues
    have he : rpmElement fuel typ obj 4 0x4F acc ⟨rest, lastOr p (Spec.closeTag 4), none⟩
        = .ok ((acc, none), ⟨Spec.closeTag 4 ++ rest, none, none⟩) := rfl
    rw [D.run_bind he]
    simp only [Option.isSome_none, Bool.false_eq_true, if_false]
    rw [D.run_bind (close4 none rest)]
    dsimp only
    rw [if_pos ⟨by decide, rfl⟩]
    simp [D.pure_apply, lastOr, Spec.closeTag, Spec.numNibble, Spec.numExt]
  | cons x l ih =>
    intro h n hn acc p tag m d1 ht
    obtain ⟨n, rfl⟩ : ∃ k, n = k + 1 := ⟨n - 1, by simp at hn; omega⟩
    obtain ⟨hd, c, tag', m', e, h1, h2, h3, h4⟩ := h x (by simp)
    rw [List.flatMap_cons, e, List.append_assoc, List.append_assoc, h1 p _] at ht
    cases ht
    unfold rpmValues
    rw [D.run_bind (rpmElement_run h2 fuel typ obj acc (h4 p _))]
    simp only [Option.isSome_none, Bool.false_eq_true, if_false]
    by_cases hl : l = []
    · subst hl
      rw [List.flatMap_nil, List.nil_append, D.run_bind (close4 _ rest)]
      dsimp only
      rw [if_pos ⟨by decide, rfl⟩]
      simp [D.pure_apply, lastOr, Spec.closeTag, Spec.numNibble, Spec.numExt]
    · obtain ⟨t2, m2, d2, e2, _, hm2⟩ := rpmValues_head l (fun y hy => h y (by simp [hy]))
        (lastOr p (hd ++ c)) rest
      rw [D.run_bind e2]
      dsimp only
      rw [hm2 hl, if_neg (by simp)]
      rw [ih (fun y hy => h y (by simp [hy])) n (by simp at hn; omega) _ _ _ _ _ e2]
      simp

end Dec

/-- A property with its index and values, as encoded octets and as Go values. -/
structure RpmProp where
  typ : UInt32
  idx : UInt32
  vals : List (List UInt8 × Scalar)

/-- The array index of a property result. -/
def rpmIdx (idx : UInt32) : List UInt8 :=
  if idx = arrayAll then [] else Spec.ctxUnsigned 3 idx.toNat

/-- Octets of a property with values. -/
def RpmProp.octets (p : RpmProp) : List UInt8 :=
  Spec.ctxUnsigned 2 p.typ.toNat ++ (rpmIdx p.idx ++ (Spec.openTag 4 ++
    (p.vals.flatMap Prod.fst ++ Spec.closeTag 4)))

/-- The Go property. -/
def RpmProp.toProp (p : RpmProp) : Property :=
  { typ := p.typ, arrayIndex := p.idx, data := unlist (p.vals.map Prod.snd) }

/-- An object with its properties. -/
structure RpmObj where
  id : ObjectID
  props : List RpmProp

/-- Octets of an object result. -/
def RpmObj.octets (o : RpmObj) : List UInt8 :=
  Spec.ctxObjectId 0 o.id.typ.toNat o.id.inst.toNat ++ (Spec.openTag 1 ++
    (o.props.flatMap RpmProp.octets ++ Spec.closeTag 1))

/-- The Go object. -/
def RpmObj.toObj (o : RpmObj) : Object :=
  { id := o.id, properties := o.props.map RpmProp.toProp }

/-- All values well formed and fewer than `fuel`. -/
def RpmProp.Ok (fuel : Nat) (p : RpmProp) : Prop :=
  (∀ x ∈ p.vals, Elem x.1 x.2) ∧ p.vals.length < fuel

/-- Valid identifier, at least one property, all well formed and fewer than `fuel`. -/
def RpmObj.Ok (fuel : Nat) (o : RpmObj) : Prop :=
  (o.id.typ.toNat < 2 ^ 10 ∧ o.id.inst.toNat < 2 ^ 22) ∧ o.props ≠ [] ∧
    o.props.length < fuel ∧ ∀ p ∈ o.props, p.Ok fuel

namespace Dec

/-- First octet of the header of a property identifier. -/
def m2 (typ : UInt32) : UInt8 := tagByte (Spec.numNibble 2) true (Spec.minOctets typ.toNat)

theorem ctx2_header (typ : UInt32) :
    Parses tagNumberAndValue (Spec.tagHeader 2 true (Spec.minOctets typ.toNat))
      (2, m2 typ, UInt32.ofNat (Spec.minOctets typ.toNat)) := by
  have h := parses_ctxUnsigned_header 2 typ
  have e : Spec.lenBits (Spec.minOctets typ.toNat) = Spec.minOctets typ.toNat := by
    unfold Spec.lenBits; rw [if_pos (minOctets_le4 _)]
  rw [e] at h
  exact h

theorem m2_facts (typ : UInt32) : isContextSpecific (m2 typ) = true ∧ isClosing (m2 typ) = false := by
  have := tagByte_context 2 true _ (minOctets_le4 typ.toNat)
  exact ⟨this.1, this.2.1⟩

/-- Reading the property identifier and index; `o` is the opening tag that follows. -/
theorem rpmProperty_head (fuel : Nat) (typ idx : UInt32) (obj : Object) (objects : List Object)
    (t : UInt8) (mo : UInt8) (ob : List UInt8) (ho : Parses tagNumber ob (t, mo)) (h2 : t ≠ 2)
    (h3 : t ≠ 3) (p : Option UInt8) (rest : List UInt8) :
    ∃ q, rpmProperty fuel (m2 typ) (UInt32.ofNat (Spec.minOctets typ.toNat)) obj objects
        ⟨Spec.unsignedOctets typ.toNat ++ (rpmIdx idx ++ (ob ++ rest)), p, none⟩
      = rpmResult fuel typ idx t mo obj objects ⟨rest, q, none⟩ := by
  have hu : Parses (enumerated (UInt32.ofNat (Spec.minOctets typ.toNat)).toNat)
      (Spec.unsignedOctets typ.toNat) typ := parses_unsigned' typ
  unfold rpmProperty
  rw [(m2_facts typ).1, if_neg (by decide), D.run_bind (hu _ _)]
  unfold rpmIdx
  by_cases hi : idx = arrayAll
  · refine ⟨lastOr (lastOr p (Spec.unsignedOctets typ.toNat)) ob, ?_⟩
    subst hi
    rw [if_pos rfl, List.nil_append, D.run_bind (ho _ _)]
    dsimp only
    rw [if_neg h2]
    have : rpmIndex t mo = pure (some (arrayAll, t, mo)) := by
      unfold rpmIndex; rw [if_neg h3]
    rw [this]
    rfl
  · rw [if_neg hi]
    have hmin := minOctets_le4 idx.toNat
    have t3 : Parses tagNumber (Spec.tagHeader 3 true (Spec.minOctets idx.toNat))
        (3, tagByte (Spec.numNibble 3) true (Spec.minOctets idx.toNat)) :=
      parses_tagNumber_small 3 true _ hmin
    have v3 : ∀ p r, value (tagByte (Spec.numNibble 3) true (Spec.minOctets idx.toNat))
        ⟨r, p, none⟩ = .ok (UInt32.ofNat (Spec.minOctets idx.toNat), ⟨r, lastOr p [], none⟩) :=
      parses_value_small 3 true _ hmin
    have hc : isContextSpecific (tagByte (Spec.numNibble 3) true (Spec.minOctets idx.toNat)) = true :=
      (tagByte_context 3 true _ hmin).1
    have hidx : ∀ p, rpmIndex 3 (tagByte (Spec.numNibble 3) true (Spec.minOctets idx.toNat))
        ⟨Spec.unsignedOctets idx.toNat ++ (ob ++ rest), p, none⟩
        = .ok (some (idx, t, mo), ⟨rest, lastOr (lastOr (lastOr p [])
            (Spec.unsignedOctets idx.toNat)) ob, none⟩) := by
      intro p
      unfold rpmIndex
      rw [if_pos rfl, hc, if_neg (by decide), D.run_bind (v3 _ _),
        D.run_bind (parses_unsigned' idx _ _), D.run_bind (ho _ _)]
      rfl
    refine ⟨lastOr (lastOr (lastOr (lastOr (lastOr p (Spec.unsignedOctets typ.toNat))
      (Spec.tagHeader 3 true (Spec.minOctets idx.toNat))) []) (Spec.unsignedOctets idx.toNat)) ob, ?_⟩
    unfold Spec.ctxUnsigned
    rw [List.append_assoc, D.run_bind (t3 _ _)]
    dsimp only
    rw [if_neg (by decide), D.run_bind (hidx _)]

/-- One property with values. -/
theorem rpmProperty_run (fuel : Nat) (x : RpmProp) (hx : x.Ok fuel) (obj : Object)
    (objects : List Object) (p : Option UInt8) (rest : List UInt8) :
    rpmProperty fuel (m2 x.typ) (UInt32.ofNat (Spec.minOctets x.typ.toNat)) obj objects
        ⟨Spec.unsignedOctets x.typ.toNat ++ (rpmIdx x.idx ++ (Spec.openTag 4 ++
          (x.vals.flatMap Prod.fst ++ (Spec.closeTag 4 ++ rest)))), p, none⟩
      = (tagNumberAndValue >>= fun r => pure (RpmNext.next r.1 r.2.1 r.2.2
          { obj with properties := obj.properties ++ [x.toProp] } objects))
          ⟨rest, some 0x4F, none⟩ := by
  obtain ⟨q, hq⟩ := rpmProperty_head fuel x.typ x.idx obj objects 4 0x4E (Spec.openTag 4) open4
    (by decide) (by decide) p (x.vals.flatMap Prod.fst ++ (Spec.closeTag 4 ++ rest))
  rw [hq]
  unfold rpmResult
  rw [if_pos ⟨rfl, by decide⟩]
  obtain ⟨tag, m, d1, e1, e2, _⟩ := rpmValues_head x.vals hx.1 q rest
  rw [D.run_bind e1]
  dsimp only
  rw [D.run_bind (error_run _), e2]
  simp only [Option.isSome_none, Bool.false_eq_true, if_false]
  rw [D.run_bind (rpmValues_run fuel x.typ obj rest x.vals hx.1 fuel hx.2 _ q _ _ _ e1)]
  simp only [Option.isSome_none, Bool.false_eq_true, if_false, List.nil_append]
  rfl

/-- Any number of properties with values at the start of the property loop. -/
theorem rpmProperties_prefix (fuel : Nat) (rest : List UInt8) (ps : List RpmProp) :
    (∀ x ∈ ps, x.Ok fuel) → ∀ (n : Nat), ps.length < n → ∀ (obj : Object) (objects : List Object)
    (p : Option UInt8), ∃ q,
    (tagNumberAndValue >>= fun r => rpmProperties fuel n r.1 r.2.1 r.2.2 obj objects)
        ⟨ps.flatMap RpmProp.octets ++ rest, p, none⟩
      = (tagNumberAndValue >>= fun r => rpmProperties fuel (n - ps.length) r.1 r.2.1 r.2.2
          { obj with properties := obj.properties ++ ps.map RpmProp.toProp } objects)
          ⟨rest, q, none⟩ := by
  induction ps with
  | nil => intro _ n _ obj objects p; exact ⟨p, by simp⟩
  | cons x ps ih =>
    intro h n hn obj objects p
    obtain ⟨n, rfl⟩ : ∃ k, n = k + 1 := ⟨n - 1, by simp at hn; omega⟩
    obtain ⟨q, hq⟩ := ih (fun y hy => h y (by simp [hy])) n (by simp at hn; omega)
      { obj with properties := obj.properties ++ [x.toProp] } objects (some 0x4F)
    refine ⟨q, ?_⟩
    rw [List.flatMap_cons, RpmProp.octets]
    unfold Spec.ctxUnsigned
    simp only [List.append_assoc]
    rw [D.run_bind (ctx2_header x.typ _ _)]
    dsimp only
    conv_lhs => unfold rpmProperties
    rw [D.run_bind (len_run _), if_pos ⟨by simp [Spec.openTag], rfl, by
      rw [(m2_facts x.typ).2]; decide⟩]
    have hs : (ps.length + 1) ≤ n + 1 := by simp at hn; omega
    have hlen : n + 1 - (x :: ps).length = n - ps.length := by simp
    rw [hlen]
    have hobj : ({ obj with properties := obj.properties ++ (x :: ps).map RpmProp.toProp } : Object)
        = { obj with properties := obj.properties ++ [x.toProp] ++ ps.map RpmProp.toProp } := by
      simp
    rw [hobj, ← hq]
    have hrun := rpmProperty_run fuel x (h x (by simp)) obj objects
      (lastOr p (Spec.tagHeader 2 true (Spec.minOctets x.typ.toNat)))
      (ps.flatMap RpmProp.octets ++ rest)
    obtain ⟨r, d1, e⟩ := tagNumberAndValue_total.1 ⟨ps.flatMap RpmProp.octets ++ rest, some 0x4F, none⟩
    rw [D.run_bind e] at hrun
    rw [D.run_bind (hrun.trans (D.pure_apply _ _)), D.run_bind e]

theorem ctxObjectId_length_pos (t a b : Nat) (rest : List UInt8) :
    0 < (Spec.ctxObjectId t a b ++ rest).length := by
  have : 0 < (Spec.ctxObjectId t a b).length := by
    unfold Spec.ctxObjectId Spec.tagHeader
    rw [List.length_append, List.length_append, List.length_append, List.length_singleton]
    omega
  rw [List.length_append]
  omega

/-- The start of an object. -/
theorem rpmObjects_head (fuel n : Nat) (acc : List Object) (id : ObjectID) (typ : UInt32)
    (hid : id.typ.toNat < 2 ^ 10 ∧ id.inst.toNat < 2 ^ 22) (rest : List UInt8) (p : Option UInt8) :
    ∃ q, rpmObjects fuel (n + 1) acc ⟨Spec.ctxObjectId 0 id.typ.toNat id.inst.toNat ++
        (Spec.openTag 1 ++ (Spec.ctxUnsigned 2 typ.toNat ++ rest)), p, none⟩
      = ((tagNumberAndValue >>= fun r => rpmProperties fuel fuel r.1 r.2.1 r.2.2 { id := id } acc) >>=
          fun x => match x with
            | .inr r => pure r
            | .inl (obj, objects) => rpmObjects fuel n (objects ++ [obj]))
          ⟨Spec.ctxUnsigned 2 typ.toNat ++ rest, q, none⟩ := by
  have t0 : Parses tagNumberAndValue (Spec.tagHeader 0 true 4)
      (0, tagByte (Spec.numNibble 0) true 4, 4) := parses_tagHeader 0 true 4
  have o1 : Parses tagNumber (Spec.openTag 1) (1, 0x1E) := parses_tagNumber_open 1
  have hc : isContextSpecific (tagByte (Spec.numNibble 0) true 4) = true := by decide
  refine ⟨lastOr (lastOr (lastOr p (Spec.tagHeader 0 true 4))
    (Spec.objectId id.typ.toNat id.inst.toNat)) (Spec.openTag 1), ?_⟩
  have hlen : 0 < (Spec.ctxObjectId 0 id.typ.toNat id.inst.toNat ++ (Spec.openTag 1 ++
      (Spec.ctxUnsigned 2 typ.toNat ++ rest))).length := ctxObjectId_length_pos _ _ _ _
  generalize hB : Spec.ctxObjectId 0 id.typ.toNat id.inst.toNat ++ (Spec.openTag 1 ++
      (Spec.ctxUnsigned 2 typ.toNat ++ rest)) = B at hlen ⊢
  conv_lhs => unfold rpmObjects
  rw [D.run_bind (error_run _), D.run_bind (len_run _), if_pos ⟨rfl, hlen⟩]
  rw [← hB]
  unfold Spec.ctxObjectId Spec.ctxUnsigned
  simp only [List.append_assoc]
  rw [D.run_bind (t0 _ _)]
  dsimp only
  rw [if_neg (by decide), hc, if_neg (by decide), D.run_bind (parses_objectId' id hid _ _),
    D.run_bind (o1 _ _)]
  dsimp only
  rw [if_neg (by decide), if_neg (by decide), D.run_bind (ctx2_header typ _ _)]
  dsimp only
  rw [if_neg (by decide)]
  conv_rhs => rw [D.bind_apply, D.run_bind (ctx2_header typ _ _)]
  exact D.bind_apply _ _ _

/-- One object with its properties. -/
theorem rpmObjects_step (fuel n : Nat) (acc : List Object) (o : RpmObj) (ho : o.Ok fuel)
    (rest : List UInt8) (p : Option UInt8) :
    ∃ q, rpmObjects fuel (n + 1) acc ⟨o.octets ++ rest, p, none⟩
      = rpmObjects fuel n (acc ++ [o.toObj]) ⟨rest, q, none⟩ := by
  obtain ⟨hid, hne, hlt, hps⟩ := ho
  have c1 : Parses tagNumberAndValue (Spec.closeTag 1) (1, 0x1F, 0) := parses_closeTag 1
  cases hp : o.props with
  | nil => exact absurd hp hne
  | cons x ps =>
    obtain ⟨q, hq⟩ := rpmObjects_head fuel n acc o.id x.typ hid
      (rpmIdx x.idx ++ (Spec.openTag 4 ++ (x.vals.flatMap Prod.fst ++ (Spec.closeTag 4 ++
        (ps.flatMap RpmProp.octets ++ (Spec.closeTag 1 ++ rest)))))) p
    have e1 : o.octets ++ rest = Spec.ctxObjectId 0 o.id.typ.toNat o.id.inst.toNat ++
        (Spec.openTag 1 ++ (Spec.ctxUnsigned 2 x.typ.toNat ++ (rpmIdx x.idx ++ (Spec.openTag 4 ++
        (x.vals.flatMap Prod.fst ++ (Spec.closeTag 4 ++
        (ps.flatMap RpmProp.octets ++ (Spec.closeTag 1 ++ rest)))))))) := by
      unfold RpmObj.octets
      rw [hp, List.flatMap_cons, RpmProp.octets]
      simp only [List.append_assoc]
    have e2 : Spec.ctxUnsigned 2 x.typ.toNat ++ (rpmIdx x.idx ++ (Spec.openTag 4 ++
        (x.vals.flatMap Prod.fst ++ (Spec.closeTag 4 ++
        (ps.flatMap RpmProp.octets ++ (Spec.closeTag 1 ++ rest))))))
        = o.props.flatMap RpmProp.octets ++ (Spec.closeTag 1 ++ rest) := by
      rw [hp, List.flatMap_cons, RpmProp.octets]
      simp only [List.append_assoc]
    obtain ⟨q2, hq2⟩ := rpmProperties_prefix fuel (Spec.closeTag 1 ++ rest)
      o.props hps fuel hlt { id := o.id } acc q
    refine ⟨lastOr q2 (Spec.closeTag 1), ?_⟩
    rw [e1, hq, e2, D.bind_apply, hq2, D.run_bind (c1 _ _)]
    dsimp only
    obtain ⟨k, hk⟩ : ∃ k, fuel - o.props.length = k + 1 := ⟨fuel - o.props.length - 1, by omega⟩
    rw [hk]
    unfold rpmProperties
    rw [D.run_bind (len_run _), if_neg (by simp)]
    rfl

/-- Any number of objects. -/
theorem rpmObjects_prefix (fuel : Nat) (rest : List UInt8) (os : List RpmObj) :
    (∀ o ∈ os, o.Ok fuel) → ∀ (n : Nat), os.length ≤ n → ∀ (acc : List Object) (p : Option UInt8),
    ∃ q, rpmObjects fuel n acc ⟨os.flatMap RpmObj.octets ++ rest, p, none⟩
      = rpmObjects fuel (n - os.length) (acc ++ os.map RpmObj.toObj) ⟨rest, q, none⟩ := by
  induction os with
  | nil => intro _ n _ acc p; exact ⟨p, by simp⟩
  | cons o os ih =>
    intro h n hn acc p
    obtain ⟨n, rfl⟩ : ∃ k, n = k + 1 := ⟨n - 1, by simp at hn; omega⟩
    obtain ⟨q, hq⟩ := rpmObjects_step fuel n acc o (h o (by simp)) (os.flatMap RpmObj.octets ++ rest) p
    obtain ⟨q2, hq2⟩ := ih (fun y hy => h y (by simp [hy])) n (by simp at hn; omega)
      (acc ++ [o.toObj]) q
    refine ⟨q2, ?_⟩
    rw [List.flatMap_cons, List.append_assoc, hq, hq2]
    simp

/-- Objects and properties of any number, and then the identifier and index of one
more property: what is left is the result of that property. -/
theorem readMultipleAck_plug (fuel : Nat) (os : List RpmObj) (hos : ∀ o ∈ os, o.Ok fuel)
    (hn : os.length < fuel) (id : ObjectID) (hid : id.typ.toNat < 2 ^ 10 ∧ id.inst.toNat < 2 ^ 22)
    (ps : List RpmProp) (hps : ∀ x ∈ ps, x.Ok fuel) (hk : ps.length < fuel) (typ idx : UInt32)
    (t mo : UInt8) (ob : List UInt8) (ho : Parses tagNumber ob (t, mo)) (hob : ob ≠ []) (h2 : t ≠ 2)
    (h3 : t ≠ 3) (rest : List UInt8) (p : Option UInt8) :
    ∃ q K, readMultipleAck fuel ⟨os.flatMap RpmObj.octets ++
        (Spec.ctxObjectId 0 id.typ.toNat id.inst.toNat ++ (Spec.openTag 1 ++
        (ps.flatMap RpmProp.octets ++ (Spec.ctxUnsigned 2 typ.toNat ++ (rpmIdx idx ++
        (ob ++ rest)))))), p, none⟩
      = (rpmResult fuel typ idx t mo { id := id, properties := ps.map RpmProp.toProp }
          (os.map RpmObj.toObj) >>= K) ⟨rest, q, none⟩ ∧
      (∀ l e d, K (.stop l (some e)) d = .ok ((l, some e), { d with err := some e })) ∧
      (os.length + 1 < fuel → ps.length + 1 < fuel → ∀ obj l q, K (.next 1 0x1F 0 obj l) ⟨[], q, none⟩
        = .ok ((l ++ [obj], none), ⟨[], q, none⟩)) := by
  obtain ⟨q1, hq1⟩ := rpmObjects_prefix fuel (Spec.ctxObjectId 0 id.typ.toNat id.inst.toNat ++
    (Spec.openTag 1 ++ (ps.flatMap RpmProp.octets ++ (Spec.ctxUnsigned 2 typ.toNat ++ (rpmIdx idx ++
        (ob ++ rest)))))) os hos fuel (by omega) [] p
  obtain ⟨n, hn'⟩ : ∃ n, fuel - os.length = n + 1 := ⟨fuel - os.length - 1, by omega⟩
  obtain ⟨typ', R, hR⟩ : ∃ (typ' : UInt32) (R : List UInt8), ps.flatMap RpmProp.octets ++
      (Spec.ctxUnsigned 2 typ.toNat ++ (rpmIdx idx ++ (ob ++ rest)))
        = Spec.ctxUnsigned 2 typ'.toNat ++ R := by
    cases ps with
    | nil => exact ⟨typ, _, rfl⟩
    | cons x ps =>
      refine ⟨x.typ, (rpmIdx x.idx ++ (Spec.openTag 4 ++ (x.vals.flatMap Prod.fst ++
        (Spec.closeTag 4 ++ (ps.flatMap RpmProp.octets ++
        (Spec.ctxUnsigned 2 typ.toNat ++ (rpmIdx idx ++ (ob ++ rest)))))))), ?_⟩
      rw [List.flatMap_cons, RpmProp.octets]
      simp only [List.append_assoc]
  obtain ⟨q2, hq2⟩ := rpmObjects_head fuel n (os.map RpmObj.toObj) id typ' hid R q1
  obtain ⟨q3, hq3⟩ := rpmProperties_prefix fuel (Spec.ctxUnsigned 2 typ.toNat ++ (rpmIdx idx ++
        (ob ++ rest))) ps hps fuel hk { id := id } (os.map RpmObj.toObj) q2
  obtain ⟨k, hk'⟩ : ∃ k, fuel - ps.length = k + 1 := ⟨fuel - ps.length - 1, by omega⟩
  obtain ⟨q4, hq4⟩ := rpmProperty_head fuel typ idx
    { id := id, properties := ps.map RpmProp.toProp } (os.map RpmObj.toObj) t mo ob ho h2 h3
    (lastOr q3 (Spec.tagHeader 2 true (Spec.minOctets typ.toNat))) rest
  have hlen : 0 < (Spec.unsignedOctets typ.toNat ++ (rpmIdx idx ++ (ob ++ rest))).length := by
    have : 0 < ob.length := List.length_pos_iff.mpr hob
    simp only [List.length_append]
    omega
  refine ⟨q4, fun x => ((match x with
      | .stop objects err => pure (.inr (objects, err))
      | .next tag m len obj objects => rpmProperties fuel k tag m len obj objects) >>=
    fun x => match x with
      | .inr r => pure r
      | .inl (obj, objects) => rpmObjects fuel n (objects ++ [obj])) >>= fun r =>
    if r.2.isSome then do
      D.modify fun d => { d with err := r.2 }
      pure (r.1, r.2)
    else do
      let err ← Dec.error
      pure (r.1, err), ?_, ?_, ?_⟩
  · unfold readMultipleAck
    rw [D.bind_apply, hq1, hn', List.nil_append, hR, hq2, ← hR, D.bind_apply, hq3, hk']
    unfold Spec.ctxUnsigned
    rw [List.append_assoc, D.run_bind (ctx2_header typ _ _)]
    dsimp only
    conv_lhs => unfold rpmProperties
    rw [D.run_bind (len_run _), if_pos ⟨hlen, rfl, by rw [(m2_facts typ).2]; decide⟩]
    rw [D.bind_apply, List.nil_append, hq4, D.bind_apply]
    cases rpmResult fuel typ idx t mo { id := id, properties := ps.map RpmProp.toProp }
          (os.map RpmObj.toObj) ⟨rest, q4, none⟩ <;> rfl
  · intro l e d
    rfl
  · intro h5 h6 obj l q
    obtain ⟨n, rfl⟩ : ∃ j, n = j + 1 := ⟨n - 1, by omega⟩
    obtain ⟨k, rfl⟩ : ∃ j, k = j + 1 := ⟨k - 1, by omega⟩
    rfl

/-- The value loop from the reading of the next tag. -/
def rpmNextValue (fuel : Nat) (typ : UInt32) (obj : Object) (n : Nat) (acc : RpmAcc) :
    D (RpmAcc × Option GoErr) := do
  let (tag, m) ← tagNumber
  if isClosing m ∧ tag = 4 then pure (acc, none)
  else rpmValues fuel typ obj n tag m acc

/-- Values are taken one by one. -/
theorem rpmNextValue_elems (fuel : Nat) (typ : UInt32) (obj : Object) (rest : List UInt8)
    (l : List (List UInt8 × Scalar)) : (∀ x ∈ l, Elem x.1 x.2) → ∀ (n : Nat) (acc : RpmAcc)
    (p : Option UInt8), ∃ q,
    rpmNextValue fuel typ obj (n + l.length) acc ⟨l.flatMap Prod.fst ++ rest, p, none⟩
      = rpmNextValue fuel typ obj n { acc with values := acc.values ++ l.map Prod.snd }
          ⟨rest, q, none⟩ := by
  induction l with
  | nil => intro _ n acc p; exact ⟨p, by simp⟩
  | cons x l ih =>
    intro h n acc p
    obtain ⟨hd, c, tag, m, e, h1, h2, h3, h4⟩ := h x (by simp)
    obtain ⟨q, hq⟩ := ih (fun y hy => h y (by simp [hy])) n
      { acc with values := acc.values ++ [x.2] } (lastOr p (hd ++ c))
    refine ⟨q, ?_⟩
    conv_lhs => unfold rpmNextValue
    rw [List.flatMap_cons, e, List.append_assoc, List.append_assoc, D.run_bind (h1 _ _)]
    dsimp only
    rw [h3, if_neg (by simp), show n + (x :: l).length = (n + l.length) + 1 from rfl]
    unfold rpmValues
    rw [D.run_bind (rpmElement_run h2 fuel typ obj acc (h4 p _))]
    simp only [Option.isSome_none, Bool.false_eq_true, if_false]
    unfold rpmNextValue at hq ⊢
    rw [hq]
    simp

theorem open_byte_facts : ∀ t : Fin 15,
    isContextSpecific (UInt8.ofNat (t.val * 16 + 14)) = true ∧
    isClosing (UInt8.ofNat (t.val * 16 + 14)) = false ∧
    isOpening (UInt8.ofNat (t.val * 16 + 14)) = true ∧
    isContextSpecific (UInt8.ofNat (t.val * 16 + 15)) = true ∧
    isClosing (UInt8.ofNat (t.val * 16 + 15)) = true := by decide +kernel

theorem tagNumber_open_small (t : Nat) (h : t < 15) :
    Parses tagNumber (Spec.openTag t) (UInt8.ofNat t, UInt8.ofNat (t * 16 + 14)) := by
  have := parses_tagNumber_open (UInt8.ofNat t)
  rw [UInt8.toNat_ofNat_of_lt' (show t < 256 by omega)] at this
  have e : Spec.numNibble t = t := by unfold Spec.numNibble; split <;> omega
  rw [e] at this
  exact this

theorem tagNumber_close_small (t : Nat) (h : t < 15) :
    Parses tagNumber (Spec.closeTag t) (UInt8.ofNat t, UInt8.ofNat (t * 16 + 15)) := by
  have := parses_tagNumber_close (UInt8.ofNat t)
  rw [UInt8.toNat_ofNat_of_lt' (show t < 256 by omega)] at this
  have e : Spec.numNibble t = t := by unfold Spec.numNibble; split <;> omega
  rw [e] at this
  exact this

theorem ofNat_ne_of_lt {t k : Nat} (h : t < 15) (hk : k < 15) (hne : t ≠ k) :
    UInt8.ofNat t ≠ UInt8.ofNat k := by
  intro e
  have := congrArg UInt8.toNat e
  rw [UInt8.toNat_ofNat_of_lt' (show t < 256 by omega),
    UInt8.toNat_ofNat_of_lt' (show k < 256 by omega)] at this
  exact hne this

/-- An opening tag other than 2 is skipped. -/
theorem rpmNextValue_open (fuel : Nat) (typ : UInt32) (obj : Object) (rest : List UInt8) (t : Nat)
    (ht : t < 15) (h2 : t ≠ 2) (n : Nat) (acc : RpmAcc) (p : Option UInt8) :
    ∃ q, rpmNextValue fuel typ obj (n + 1) acc ⟨Spec.openTag t ++ rest, p, none⟩
      = rpmNextValue fuel typ obj n acc ⟨rest, q, none⟩ := by
  obtain ⟨a1, a2, a3, _, _⟩ := open_byte_facts ⟨t, ht⟩
  dsimp only at a1 a2 a3
  refine ⟨lastOr p (Spec.openTag t), ?_⟩
  conv_lhs => unfold rpmNextValue
  rw [D.run_bind (tagNumber_open_small t ht _ _)]
  dsimp only
  rw [a2, if_neg (by simp)]
  have he : rpmElement fuel typ obj (UInt8.ofNat t) (UInt8.ofNat (t * 16 + 14)) acc
      = pure (acc, none) := by
    unfold rpmElement
    rw [a1, a2, a3, if_pos rfl, if_neg (by decide), if_pos rfl,
      if_neg (show UInt8.ofNat t ≠ 2 from ofNat_ne_of_lt ht (by decide) h2)]
  unfold rpmValues
  rw [he]
  rfl

theorem tagNumber_failed (e : GoErr) :
    tagNumber ⟨[], none, some e⟩ = .ok ((0, 0), ⟨[], none, some e⟩) := by
  have h : u8 ⟨[], none, some e⟩ = .ok (0, ⟨[], none, some e⟩) := rfl
  unfold tagNumber
  rw [D.run_bind h, if_neg (by decide)]
  rfl

theorem tagNumber_empty (p : Option UInt8) :
    tagNumber ⟨[], p, none⟩ = .ok ((0, 0), ⟨[], none, some .eof⟩) := by
  have h : u8 ⟨[], p, none⟩ = .ok (0, ⟨[], none, some .eof⟩) := rfl
  unfold tagNumber
  rw [D.run_bind h, if_neg (by decide)]
  rfl

/-- At the end of the input the loop never ends. -/
theorem rpmValues_eof (fuel : Nat) (typ : UInt32) (obj : Object) (e : GoErr) (n : Nat) :
    ∀ acc, rpmValues fuel typ obj n 0 0 acc ⟨[], none, some e⟩ = .diverge := by
  induction n with
  | zero => intro acc; rfl
  | succ n ih =>
    intro acc
    have he : rpmElement fuel typ obj 0 0 acc ⟨[], none, some e⟩
      = .ok (({ acc with values := acc.values ++ [.null] }, none), ⟨[], none, some e⟩) := rfl
    unfold rpmValues
    rw [D.run_bind he]
    dsimp only [Option.isSome_none]
    rw [if_neg (by decide), D.run_bind (tagNumber_failed e)]
    dsimp only
    rw [if_neg (by decide)]
    exact ih _

theorem rpmNextValue_eof (fuel : Nat) (typ : UInt32) (obj : Object) (n : Nat) (acc : RpmAcc)
    (p : Option UInt8) : rpmNextValue fuel typ obj n acc ⟨[], p, none⟩ = .diverge := by
  unfold rpmNextValue
  rw [D.run_bind (tagNumber_empty p)]
  dsimp only
  rw [if_neg (by decide)]
  exact rpmValues_eof _ _ _ _ _ _

/-- A closing tag other than 4 is read again and again. -/
theorem rpmValues_stuck (fuel : Nat) (typ : UInt32) (obj : Object) (rest : List UInt8) (t : Nat)
    (ht : t < 15) (h4 : t ≠ 4) (n : Nat) : ∀ acc,
    rpmValues fuel typ obj n (UInt8.ofNat t) (UInt8.ofNat (t * 16 + 15)) acc
      ⟨rest, some (UInt8.ofNat (t * 16 + 15)), none⟩ = .diverge := by
  obtain ⟨_, _, _, a1, a2⟩ := open_byte_facts ⟨t, ht⟩
  dsimp only at a1 a2
  induction n with
  | zero => intro acc; rfl
  | succ n ih =>
    intro acc
    have hc : Spec.closeTag t = [UInt8.ofNat (t * 16 + 15)] := by
      have e : Spec.numNibble t = t := by unfold Spec.numNibble; split <;> omega
      have e2 : Spec.numExt t = [] := by unfold Spec.numExt; split <;> first | rfl | omega
      unfold Spec.closeTag
      rw [e, e2]; rfl
    have he : rpmElement fuel typ obj (UInt8.ofNat t) (UInt8.ofNat (t * 16 + 15)) acc
        ⟨rest, some (UInt8.ofNat (t * 16 + 15)), none⟩
        = .ok ((acc, none), ⟨Spec.closeTag t ++ rest, none, none⟩) := by
      unfold rpmElement
      rw [a1, a2, if_pos rfl, if_pos rfl, hc]
      rfl
    unfold rpmValues
    rw [D.run_bind he]
    dsimp only [Option.isSome_none]
    rw [if_neg (by decide), D.run_bind (tagNumber_close_small t ht _ _)]
    dsimp only
    rw [if_neg (fun h => ofNat_ne_of_lt ht (by decide) h4 h.2), hc]
    exact ih _

theorem rpmNextValue_stuck (fuel : Nat) (typ : UInt32) (obj : Object) (rest : List UInt8) (t : Nat)
    (ht : t < 15) (h4 : t ≠ 4) (n : Nat) (acc : RpmAcc) (p : Option UInt8) :
    rpmNextValue fuel typ obj n acc ⟨Spec.closeTag t ++ rest, p, none⟩ = .diverge := by
  unfold rpmNextValue
  rw [D.run_bind (tagNumber_close_small t ht _ _)]
  dsimp only
  rw [if_neg (fun h => ofNat_ne_of_lt ht (by decide) h4 h.2)]
  have hc : Spec.closeTag t = [UInt8.ofNat (t * 16 + 15)] := by
    have e : Spec.numNibble t = t := by unfold Spec.numNibble; split <;> omega
    have e2 : Spec.numExt t = [] := by unfold Spec.numExt; split <;> first | rfl | omega
    unfold Spec.closeTag
    rw [e, e2]; rfl
  rw [hc]
  exact rpmValues_stuck fuel typ obj rest t ht h4 n acc

/-- If the first tag is no closing tag and is read without error, the result of
opening tag 4 is the value loop; so it runs forever if that loop does. -/
theorem rpmResult_diverges (fuel : Nat) (typ idx : UInt32) (obj : Object) (objects : List Object)
    (d d1 : Dec) (tag m : UInt8) (h : tagNumber d = .ok ((tag, m), d1)) (he : d1.err = none)
    (hm : isClosing m = false)
    (hd : rpmNextValue fuel typ obj fuel ⟨[], objects⟩ d = .diverge) :
    rpmResult fuel typ idx 4 0x4E obj objects d = .diverge := by
  unfold rpmNextValue at hd
  rw [D.run_bind h] at hd
  dsimp only at hd
  rw [hm, if_neg (by simp)] at hd
  unfold rpmResult
  rw [if_pos ⟨rfl, by decide⟩, D.run_bind h]
  dsimp only
  rw [D.run_bind (error_run _), he]
  dsimp only [Option.isSome_none]
  rw [if_neg (by decide), D.bind_apply, hd]
  rfl

theorem rpmNextValue_split (fuel : Nat) (typ : UInt32) (obj : Object) (rest : List UInt8)
    (l : List (List UInt8 × Scalar)) (h : ∀ x ∈ l, Elem x.1 x.2) (n : Nat) (hn : l.length ≤ n)
    (acc : RpmAcc) (p : Option UInt8) : ∃ q,
    rpmNextValue fuel typ obj n acc ⟨l.flatMap Prod.fst ++ rest, p, none⟩
      = rpmNextValue fuel typ obj (n - l.length) { acc with values := acc.values ++ l.map Prod.snd }
          ⟨rest, q, none⟩ := by
  have := rpmNextValue_elems fuel typ obj rest l h (n - l.length) acc p
  rwa [Nat.sub_add_cancel hn] at this

end Dec

end Bac
