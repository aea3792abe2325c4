import Verif.Lemmas.ReadMultiple
import Verif.Props.Services
/-!
# C33–C36: ReadPropertyMultiple acknowledgements
-/

namespace Bac.Props

open Spec (AppVal Means PropRef ReadResult ObjResult)

/-! ## What a decoded acknowledgement has to say -/

/-- The Go property `p` carries the result `x`: same reference, and the values it means. -/
def CarriesProp (p : Property) (x : PropRef × ReadResult) : Prop :=
  p.ref = x.1 ∧ ∃ vs ss, x.2 = .values vs ∧ List.Forall₂ Means ss vs ∧
    p.data = (match ss with
      | [s] => Value.one s
      | _ => Value.many ss)

/-- The Go object `o` carries the results of `r`, in order. -/
def CarriesObj (o : Object) (r : ObjResult) : Prop :=
  o.id.typ.toNat = r.typ ∧ o.id.inst.toNat = r.inst ∧ List.Forall₂ CarriesProp o.properties r.props

/-- A property reference that fits the wire types (an index 0xFFFFFFFF means "none"
to the library and is no index a device uses). -/
def RefOk (r : PropRef) : Prop := r.prop < 2 ^ 32 ∧ ∀ i, r.index = some i → i < 2 ^ 32 - 1

/-- Results that are readable values (C71). -/
def ResultOk (x : PropRef × ReadResult) : Prop :=
  RefOk x.1 ∧ ∃ vs, x.2 = .values vs ∧ ∀ v ∈ vs, C71_Readable v

/-- A valid object identifier and readable results, at least one. -/
def ObjOk (r : ObjResult) : Prop :=
  (r.typ < 2 ^ 10 ∧ r.inst < 2 ^ 22) ∧ r.props ≠ [] ∧ ∀ x ∈ r.props, ResultOk x

/-- The octets `bs` are decoded, by a run that ends (`p` is what was read before). -/
def Decodes (bs : List UInt8) (objects : List Object) (err : Option GoErr) : Prop :=
  ∃ N, ∀ fuel ≥ N, ∀ p, ∃ d, Dec.readMultipleAck fuel ⟨bs, p, none⟩ = .ok ((objects, err), d)

/-- The decoder does not stop on the octets `bs`, however many rounds it is given. -/
def Hangs (bs : List UInt8) : Prop :=
  ∃ N, ∀ fuel ≥ N, ∀ p, Dec.readMultipleAck fuel ⟨bs, p, none⟩ = .diverge

/-- Result of a decoder run of at most `fuel` rounds, without the decoder state. -/
def decoded (fuel : Nat) (bs : List UInt8) : Outcome (List Object × Option GoErr) := do
  let r ← Dec.readMultipleAck fuel (Dec.new bs)
  pure r.1

/-! ## From the specification to the lemmas -/

theorem rpmRef (r : PropRef) (h : RefOk r) : ∃ typ idx : UInt32,
    (∀ p : Property, p.typ = typ → p.arrayIndex = idx → p.ref = r) ∧
    r.octets 2 3 = Spec.ctxUnsigned 2 typ.toNat ++ rpmIdx idx := by
  obtain ⟨prop, index⟩ := r
  obtain ⟨h1, h2⟩ := h
  have e1 : (UInt32.ofNat prop).toNat = prop := UInt32.toNat_ofNat_of_lt' h1
  cases index with
  | none =>
    refine ⟨UInt32.ofNat prop, arrayAll, ?_, ?_⟩
    · intro p hp hi
      unfold Property.ref
      rw [hp, hi, e1, if_pos (show arrayAll = 0xFFFFFFFF from rfl)]
    · unfold PropRef.octets rpmIdx
      rw [e1, if_pos rfl]
  | some i =>
    have hi := h2 i rfl
    have e2 : (UInt32.ofNat i).toNat = i := UInt32.toNat_ofNat_of_lt' (by
      show i < 2 ^ 32
      omega)
    have hne : UInt32.ofNat i ≠ 0xFFFFFFFF := by
      intro hh
      have := congrArg UInt32.toNat hh
      rw [e2] at this
      have h' : (0xFFFFFFFF : UInt32).toNat = 2 ^ 32 - 1 := rfl
      omega
    refine ⟨UInt32.ofNat prop, UInt32.ofNat i, ?_, ?_⟩
    · intro p hp hi
      unfold Property.ref
      rw [hp, hi, e1, if_neg hne, e2]
    · unfold PropRef.octets rpmIdx
      rw [e1, if_neg (show UInt32.ofNat i ≠ arrayAll from hne), e2]

theorem elems_of_readable (vs : List AppVal) (h : ∀ v ∈ vs, C71_Readable v) :
    ∃ l : List (List UInt8 × Scalar), (∀ x ∈ l, Elem x.1 x.2) ∧
      l.flatMap Prod.fst = vs.flatMap AppVal.encoding ∧ l.length = vs.length ∧
      List.Forall₂ Means (l.map Prod.snd) vs := by
  induction vs with
  | nil => exact ⟨[], by simp, rfl, rfl, List.Forall₂.nil⟩
  | cons v vs ih =>
    obtain ⟨l, h1, h2, h3, h4⟩ := ih fun w hw => h w (by simp [hw])
    obtain ⟨s, h5, h6⟩ := C71_conforming_value_partial v (h v (by simp))
    refine ⟨(v.encoding, s) :: l, ?_, ?_, by simp [h3], List.Forall₂.cons h6 h4⟩
    · intro x hx
      rcases List.mem_cons.mp hx with rfl | hx
      · exact elem_of_parses v s h5
      · exact h1 x hx
    · simp [h2]

theorem rpmProp_of (x : PropRef × ReadResult) (h : ResultOk x) : ∃ y : RpmProp,
    y.octets = x.2.octets x.1 ∧ CarriesProp y.toProp x ∧ ∃ N, ∀ fuel ≥ N, y.Ok fuel := by
  obtain ⟨h1, vs, h2, h3⟩ := h
  obtain ⟨typ, idx, h4, h5⟩ := rpmRef x.1 h1
  obtain ⟨l, h6, h7, h8, h9⟩ := elems_of_readable vs h3
  refine ⟨⟨typ, idx, l⟩, ?_, ⟨h4 _ rfl rfl, vs, _, h2, h9, ?_⟩, l.length + 1, ?_⟩
  · rw [h2]
    unfold ReadResult.octets RpmProp.octets
    dsimp only
    rw [h5, h7]
    simp only [List.append_assoc]
  · show unlist (l.map Prod.snd) = _
    unfold unlist
    rcases l.map Prod.snd with _ | ⟨a, _ | ⟨b, t⟩⟩ <;> rfl
  · intro fuel hf
    exact ⟨h6, by dsimp only; omega⟩

theorem rpmProps_of (xs : List (PropRef × ReadResult)) (h : ∀ x ∈ xs, ResultOk x) :
    ∃ ys : List RpmProp, ys.flatMap RpmProp.octets = xs.flatMap (fun p => p.2.octets p.1) ∧
      List.Forall₂ CarriesProp (ys.map RpmProp.toProp) xs ∧ ys.length = xs.length ∧
      ∃ N, ∀ fuel ≥ N, (∀ y ∈ ys, y.Ok fuel) ∧ ys.length < fuel := by
  induction xs with
  | nil => exact ⟨[], rfl, List.Forall₂.nil, rfl, 1, fun _ hf => ⟨by simp, hf⟩⟩
  | cons x xs ih =>
    obtain ⟨ys, h1, h2, h3, N, h4⟩ := ih fun w hw => h w (by simp [hw])
    obtain ⟨y, h5, h6, M, h7⟩ := rpmProp_of x (h x (by simp))
    refine ⟨y :: ys, by simp [h1, h5], List.Forall₂.cons h6 h2, by simp [h3], N + M + 1, ?_⟩
    intro fuel hf
    refine ⟨?_, ?_⟩
    · intro z hz
      rcases List.mem_cons.mp hz with rfl | hz
      · exact h7 fuel (by omega)
      · exact (h4 fuel (by omega)).1 z hz
    · have := (h4 (fuel - 1) (by omega)).2
      simp only [List.length_cons]
      omega

theorem rpmObj_of (r : ObjResult) (h : ObjOk r) : ∃ o : RpmObj,
    o.octets = r.octets ∧ CarriesObj o.toObj r ∧ ∃ N, ∀ fuel ≥ N, o.Ok fuel := by
  obtain ⟨hid, hne, hps⟩ := h
  obtain ⟨ys, h1, h2, h3, N, h4⟩ := rpmProps_of r.props hps
  have e1 : (UInt16.ofNat r.typ).toNat = r.typ := UInt16.toNat_ofNat_of_lt' (by
    have := hid.1; show r.typ < 2 ^ 16; omega)
  have e2 : (UInt32.ofNat r.inst).toNat = r.inst := UInt32.toNat_ofNat_of_lt' (by
    have := hid.2; show r.inst < 2 ^ 32; omega)
  refine ⟨⟨⟨UInt16.ofNat r.typ, UInt32.ofNat r.inst⟩, ys⟩, ?_, ⟨e1, e2, h2⟩, N, ?_⟩
  · unfold RpmObj.octets ObjResult.octets
    dsimp only
    rw [e1, e2, h1]
    simp only [List.append_assoc]
  · intro fuel hf
    obtain ⟨h5, h6⟩ := h4 fuel hf
    refine ⟨⟨?_, ?_⟩, ?_, h6, h5⟩
    · dsimp only; rw [e1]; exact hid.1
    · dsimp only; rw [e2]; exact hid.2
    · dsimp only
      intro hy
      rw [hy] at h3
      exact hne (List.length_eq_zero_iff.mp h3.symm)

theorem rpmObjs_of (rs : List ObjResult) (h : ∀ r ∈ rs, ObjOk r) :
    ∃ os : List RpmObj, os.flatMap RpmObj.octets = rs.flatMap ObjResult.octets ∧
      List.Forall₂ CarriesObj (os.map RpmObj.toObj) rs ∧
      ∃ N, ∀ fuel ≥ N, (∀ o ∈ os, o.Ok fuel) ∧ os.length < fuel := by
  induction rs with
  | nil => exact ⟨[], rfl, List.Forall₂.nil, 1, fun _ hf => ⟨by simp, hf⟩⟩
  | cons r rs ih =>
    obtain ⟨os, h1, h2, N, h3⟩ := ih fun w hw => h w (by simp [hw])
    obtain ⟨o, h4, h5, M, h6⟩ := rpmObj_of r (h r (by simp))
    refine ⟨o :: os, by simp [h1, h4], List.Forall₂.cons h5 h2, N + M + 1, ?_⟩
    intro fuel hf
    refine ⟨?_, ?_⟩
    · intro z hz
      rcases List.mem_cons.mp hz with rfl | hz
      · exact h6 fuel (by omega)
      · exact (h3 fuel (by omega)).1 z hz
    · have := (h3 (fuel - 1) (by omega)).2
      simp only [List.length_cons]
      omega

/-! ## C33 -/

/-- C33 for readable values and objects with at least one result: any number of
objects with any number of properties with any number of values is decoded
completely and in order, and the decoder stops.  Missing: unreadable values (C71),
constructed values (C34) and objects with an empty result list (`C33_fails`). -/
theorem C33_complete_partial (rs : List ObjResult) (h : ∀ r ∈ rs, ObjOk r) :
    ∃ objects, List.Forall₂ CarriesObj objects rs ∧
      Decodes (rs.flatMap ObjResult.octets) objects none := by
  obtain ⟨os, h1, h2, N, h3⟩ := rpmObjs_of rs h
  refine ⟨_, h2, N, ?_⟩
  intro fuel hf p
  obtain ⟨h4, h5⟩ := h3 fuel hf
  obtain ⟨q, hq⟩ := Dec.rpmObjects_prefix fuel [] os h4 fuel (by omega) [] p
  obtain ⟨k, hk⟩ : ∃ k, fuel - os.length = k + 1 := ⟨fuel - os.length - 1, by omega⟩
  rw [List.append_nil, hk] at hq
  refine ⟨⟨[], q, none⟩, ?_⟩
  unfold Dec.readMultipleAck
  rw [← h1, D.bind_apply, hq]
  rfl

/-- C33 fails: an object without results (`[0] id, [1] { }`), followed by anything,
makes the whole acknowledgement an error. -/
theorem C33_fails (typ inst : Nat) (h : typ < 2 ^ 10 ∧ inst < 2 ^ 22) (rs : List ObjResult) :
    Decodes ((ObjResult.mk typ inst []).octets ++ rs.flatMap ObjResult.octets) []
      (some (.incorrectTag 2 1)) := by
  refine ⟨1, ?_⟩
  intro fuel hf p
  obtain ⟨n, rfl⟩ : ∃ n, fuel = n + 1 := ⟨fuel - 1, by omega⟩
  have e1 : (UInt16.ofNat typ).toNat = typ := UInt16.toNat_ofNat_of_lt' (by
    have := h.1; show typ < 2 ^ 16; omega)
  have e2 : (UInt32.ofNat inst).toNat = inst := UInt32.toNat_ofNat_of_lt' (by
    have := h.2; show inst < 2 ^ 32; omega)
  have hid := Dec.parses_objectId' ⟨UInt16.ofNat typ, UInt32.ofNat inst⟩ (by
    dsimp only; rw [e1, e2]; exact h)
  dsimp only at hid
  rw [e1, e2] at hid
  have t0 : Parses Dec.tagNumberAndValue (Spec.tagHeader 0 true 4)
      (0, tagByte (Spec.numNibble 0) true 4, 4) := Dec.parses_tagHeader 0 true 4
  have o1 : Parses Dec.tagNumber (Spec.openTag 1) (1, 0x1E) := Dec.parses_tagNumber_open 1
  have c1 : Parses Dec.tagNumberAndValue (Spec.closeTag 1) (1, 0x1F, 0) := Dec.parses_closeTag 1
  have hc : isContextSpecific (tagByte (Spec.numNibble 0) true 4) = true := by decide
  have hb : (ObjResult.mk typ inst []).octets ++ rs.flatMap ObjResult.octets =
      Spec.ctxObjectId 0 typ inst ++ (Spec.openTag 1 ++ (Spec.closeTag 1 ++
        rs.flatMap ObjResult.octets)) := by
    unfold ObjResult.octets
    simp only [List.flatMap_nil, List.append_nil, List.append_assoc]
  have hlen := Dec.ctxObjectId_length_pos 0 typ inst (Spec.openTag 1 ++ (Spec.closeTag 1 ++
        rs.flatMap ObjResult.octets))
  have hrun : ∃ q, Dec.rpmObjects (n + 1) (n + 1) [] ⟨(ObjResult.mk typ inst []).octets ++
      rs.flatMap ObjResult.octets, p, none⟩
      = .ok (([], some (.incorrectTag 2 1)), ⟨rs.flatMap ObjResult.octets, q, none⟩) := by
    refine ⟨lastOr (lastOr (lastOr (lastOr p (Spec.tagHeader 0 true 4))
      (Spec.objectId typ inst)) (Spec.openTag 1)) (Spec.closeTag 1), ?_⟩
    unfold Dec.rpmObjects
    rw [D.run_bind (Dec.error_run _), D.run_bind (Dec.len_run _), hb, if_pos ⟨rfl, hlen⟩]
    unfold Spec.ctxObjectId
    rw [List.append_assoc, D.run_bind (t0 _ _)]
    dsimp only
    rw [if_neg (by decide), hc, if_neg (by decide), D.run_bind (hid _ _), D.run_bind (o1 _ _)]
    dsimp only
    rw [if_neg (by decide), if_neg (by decide), D.run_bind (c1 _ _)]
    dsimp only
    rw [if_pos (by decide)]
    rfl
  obtain ⟨q, hq⟩ := hrun
  refine ⟨⟨rs.flatMap ObjResult.octets, q, some (.incorrectTag 2 1)⟩, ?_⟩
  unfold Dec.readMultipleAck
  rw [D.run_bind hq]
  rfl

/-- Two objects, three properties, one with an index, one with two values. -/
def C33_sample : List ObjResult :=
  [⟨0, 1, [(⟨85, none⟩, .values [.real 0x41C80000]), (⟨77, none⟩, .values [.chars [72, 105]])]⟩,
   ⟨8, 99, [(⟨76, some 2⟩, .values [.objId 8 99, .objId 0 1])]⟩]

example : C33_sample.flatMap ObjResult.octets =
    [0x0C, 0, 0, 0, 1, 0x1E, 0x29, 85, 0x4E, 0x44, 0x41, 0xC8, 0, 0, 0x4F,
      0x29, 77, 0x4E, 0x73, 0, 72, 105, 0x4F, 0x1F,
     0x0C, 2, 0, 0, 99, 0x1E, 0x29, 76, 0x39, 2, 0x4E, 0xC4, 2, 0, 0, 99, 0xC4, 0, 0, 0, 1,
      0x4F, 0x1F] := by decide +kernel

example : ∀ r ∈ C33_sample, ObjOk r := by
  simp only [C33_sample, List.mem_cons, List.not_mem_nil, or_false]
  rintro r (rfl | rfl)
  · refine ⟨by decide, by simp, ?_⟩
    simp only [List.mem_cons, List.not_mem_nil, or_false]
    rintro x (rfl | rfl)
    · exact ⟨⟨by decide, by simp⟩, _, rfl, by simp [C71_Readable, AppVal.WF]⟩
    · exact ⟨⟨by decide, by simp⟩, _, rfl, by simp [C71_Readable, AppVal.WF]⟩
  · refine ⟨by decide, by simp, ?_⟩
    simp only [List.mem_cons, List.not_mem_nil, or_false]
    rintro x rfl
    exact ⟨⟨by decide, by simp⟩, _, rfl, by simp [C71_Readable, AppVal.WF]⟩

example : decoded 9 (C33_sample.flatMap ObjResult.octets)
    = .ok ([{ id := ⟨0, 1⟩, properties := [⟨85, arrayAll, .one (.real 0x41C80000), 0⟩,
                ⟨77, arrayAll, .one (.str [72, 105]), 0⟩] },
            { id := ⟨8, 99⟩, properties := [⟨76, 2, .many [.objId ⟨8, 99⟩, .objId ⟨0, 1⟩], 0⟩] }],
           none) := by decide +kernel

/-! ## C34 -/

/-- Where a result can stand: after any readable objects `rs`, in an object with any
readable results `xs` before it. -/
def Before (rs : List ObjResult) (typ inst : Nat) (xs : List (PropRef × ReadResult)) (r : PropRef) :
    List UInt8 :=
  rs.flatMap ObjResult.octets ++ Spec.ctxObjectId 0 typ inst ++ Spec.openTag 1 ++
    xs.flatMap (fun p => p.2.octets p.1) ++ r.octets 2 3

/-- Common part of C34, C36, C83 and C84. -/
theorem before_run_full (rs : List ObjResult) (hrs : ∀ r ∈ rs, ObjOk r) (typ inst : Nat)
    (hid : typ < 2 ^ 10 ∧ inst < 2 ^ 22) (xs : List (PropRef × ReadResult))
    (hxs : ∀ x ∈ xs, ResultOk x) (r : PropRef) (hr : RefOk r) (t mo : UInt8) (ob : List UInt8)
    (ho : Parses Dec.tagNumber ob (t, mo)) (hob : ob ≠ []) (h2 : t ≠ 2) (h3 : t ≠ 3) :
    ∃ objects, List.Forall₂ CarriesObj objects rs ∧ ∃ N ty ix obj, CarriesObj obj ⟨typ, inst, xs⟩ ∧
      (∀ p : Property, p.typ = ty → p.arrayIndex = ix → p.ref = r) ∧ ∀ fuel ≥ N, ∀ rest p, ∃ q K,
      Dec.readMultipleAck fuel ⟨Before rs typ inst xs r ++ ob ++ rest, p, none⟩
      = (Dec.rpmResult fuel ty ix t mo obj objects >>= K) ⟨rest, q, none⟩ ∧
      (∀ l e d, K (.stop l (some e)) d = .ok ((l, some e), { d with err := some e })) ∧
      (∀ obj l q, K (.next 1 0x1F 0 obj l) ⟨[], q, none⟩ = .ok ((l ++ [obj], none), ⟨[], q, none⟩)) := by
  obtain ⟨os, a1, a2, N, a3⟩ := rpmObjs_of rs hrs
  obtain ⟨ps, b1, b2, b3, M, b4⟩ := rpmProps_of xs hxs
  obtain ⟨ty, ix, c1, c2⟩ := rpmRef r hr
  have e1 : (UInt16.ofNat typ).toNat = typ := UInt16.toNat_ofNat_of_lt' (by
    have := hid.1; show typ < 2 ^ 16; omega)
  have e2 : (UInt32.ofNat inst).toNat = inst := UInt32.toNat_ofNat_of_lt' (by
    have := hid.2; show inst < 2 ^ 32; omega)
  refine ⟨_, a2, N + M + 1, ty, ix, ⟨[], [], ⟨UInt16.ofNat typ, UInt32.ofNat inst⟩,
    ps.map RpmProp.toProp⟩, ⟨e1, e2, b2⟩, c1, ?_⟩
  intro fuel hf rest p
  obtain ⟨a4, a5⟩ := a3 fuel (by omega)
  obtain ⟨b5, b6⟩ := b4 fuel (by omega)
  have a5' := (a3 (fuel - 1) (by omega)).2
  have b6' := (b4 (fuel - 1) (by omega)).2
  obtain ⟨q, K, h, hK, hK'⟩ := Dec.readMultipleAck_plug fuel os a4 a5
    ⟨UInt16.ofNat typ, UInt32.ofNat inst⟩ (by dsimp only; rw [e1, e2]; exact hid) ps b5 b6 ty ix t mo
    ob ho hob h2 h3 rest p
  refine ⟨q, K, ?_, hK, hK' (by omega) (by omega)⟩
  rw [← h]
  dsimp only
  rw [e1, e2, a1, b1]
  unfold Before
  rw [c2]
  simp only [List.append_assoc]

theorem before_run (rs : List ObjResult) (hrs : ∀ r ∈ rs, ObjOk r) (typ inst : Nat)
    (hid : typ < 2 ^ 10 ∧ inst < 2 ^ 22) (xs : List (PropRef × ReadResult))
    (hxs : ∀ x ∈ xs, ResultOk x) (r : PropRef) (hr : RefOk r) (t mo : UInt8) (ob : List UInt8)
    (ho : Parses Dec.tagNumber ob (t, mo)) (hob : ob ≠ []) (h2 : t ≠ 2) (h3 : t ≠ 3) :
    ∃ objects, List.Forall₂ CarriesObj objects rs ∧ ∃ N ty ix obj, ∀ fuel ≥ N, ∀ rest p, ∃ q K,
      Dec.readMultipleAck fuel ⟨Before rs typ inst xs r ++ ob ++ rest, p, none⟩
      = (Dec.rpmResult fuel ty ix t mo obj objects >>= K) ⟨rest, q, none⟩ ∧
      ∀ l e d, K (.stop l (some e)) d = .ok ((l, some e), { d with err := some e }) := by
  obtain ⟨objects, h1, N, ty, ix, obj, -, -, h⟩ :=
    before_run_full rs hrs typ inst hid xs hxs r hr t mo ob ho hob h2 h3
  refine ⟨objects, h1, N, ty, ix, obj, fun fuel hf rest p => ?_⟩
  obtain ⟨q, K, h4, h5, -⟩ := h fuel hf rest p
  exact ⟨q, K, h4, h5⟩

/-- C34 fails on truncated input: anywhere in an acknowledgement, an input that ends
after at least one complete value makes the decoder loop forever (and append a null
value in every round). -/
theorem C34_fails_truncated (rs : List ObjResult) (hrs : ∀ r ∈ rs, ObjOk r) (typ inst : Nat)
    (hid : typ < 2 ^ 10 ∧ inst < 2 ^ 22) (xs : List (PropRef × ReadResult))
    (hxs : ∀ x ∈ xs, ResultOk x) (r : PropRef) (hr : RefOk r) (vs : List AppVal) (hne : vs ≠ [])
    (hvs : ∀ v ∈ vs, C71_Readable v) :
    Hangs (Before rs typ inst xs r ++ Spec.openTag 4 ++ vs.flatMap AppVal.encoding) := by
  obtain ⟨objects, -, N, ty, ix, obj, h⟩ := before_run rs hrs typ inst hid xs hxs r hr 4 0x4E
    (Spec.openTag 4) Dec.open4 (by simp [Spec.openTag]) (by decide) (by decide)
  obtain ⟨l, l1, l2, l3, -⟩ := elems_of_readable vs hvs
  refine ⟨N + l.length, ?_⟩
  intro fuel hf p
  obtain ⟨q, K, h1, -⟩ := h fuel (by omega) (vs.flatMap AppVal.encoding) p
  rw [h1, D.bind_apply]
  have hl : l ≠ [] := by
    intro hl
    rw [hl] at l3
    exact hne (List.length_eq_zero_iff.mp l3.symm)
  obtain ⟨x, l', rfl⟩ := List.exists_cons_of_ne_nil hl
  obtain ⟨q2, hq2⟩ := Dec.rpmNextValue_split fuel ty obj [] (x :: l') l1 fuel (by omega)
    ⟨[], objects⟩ q
  obtain ⟨hd, c, tag, m, e, p1, p2, p3, p4⟩ := l1 x (by simp)
  rw [← l2]
  have := Dec.rpmResult_diverges fuel ty ix obj objects
    ⟨(x :: l').flatMap Prod.fst, q, none⟩ ⟨c ++ l'.flatMap Prod.fst, lastOr q hd, none⟩ tag m
    (by rw [List.flatMap_cons, e, List.append_assoc]; exact p1 q _) rfl p3
    (by rw [← List.append_nil ((x :: l').flatMap Prod.fst), hq2]
        exact Dec.rpmNextValue_eof _ _ _ _ _ _)
  rw [this]
  rfl

/-- C34 fails on conforming input: a value list that contains a constructed element
(context tag `t`, other than 2 or 4, around readable values) makes the decoder loop
forever, whatever stands around it. -/
theorem C34_fails_constructed (rs : List ObjResult) (hrs : ∀ r ∈ rs, ObjOk r) (typ inst : Nat)
    (hid : typ < 2 ^ 10 ∧ inst < 2 ^ 22) (xs : List (PropRef × ReadResult))
    (hxs : ∀ x ∈ xs, ResultOk x) (r : PropRef) (hr : RefOk r) (vs ws : List AppVal)
    (hvs : ∀ v ∈ vs, C71_Readable v) (hws : ∀ v ∈ ws, C71_Readable v) (t : Nat) (ht : t < 15)
    (h2 : t ≠ 2) (h4 : t ≠ 4) (rest : List UInt8) :
    Hangs (Before rs typ inst xs r ++ Spec.openTag 4 ++ vs.flatMap AppVal.encoding ++
      Spec.openTag t ++ ws.flatMap AppVal.encoding ++ Spec.closeTag t ++ rest) := by
  obtain ⟨objects, -, N, ty, ix, obj, h⟩ := before_run rs hrs typ inst hid xs hxs r hr 4 0x4E
    (Spec.openTag 4) Dec.open4 (by simp [Spec.openTag]) (by decide) (by decide)
  obtain ⟨l, l1, l2, l3, -⟩ := elems_of_readable vs hvs
  obtain ⟨k, k1, k2, k3, -⟩ := elems_of_readable ws hws
  refine ⟨N + l.length + k.length + 1, ?_⟩
  intro fuel hf p
  obtain ⟨q, K, e1, -⟩ := h fuel (by omega) (l.flatMap Prod.fst ++ (Spec.openTag t ++
    (k.flatMap Prod.fst ++ (Spec.closeTag t ++ rest)))) p
  have hassoc : Before rs typ inst xs r ++ Spec.openTag 4 ++ vs.flatMap AppVal.encoding ++
      Spec.openTag t ++ ws.flatMap AppVal.encoding ++ Spec.closeTag t ++ rest
      = Before rs typ inst xs r ++ Spec.openTag 4 ++ (l.flatMap Prod.fst ++ (Spec.openTag t ++
    (k.flatMap Prod.fst ++ (Spec.closeTag t ++ rest)))) := by
    rw [l2, k2]
    simp only [List.append_assoc]
  rw [hassoc, e1, D.bind_apply]
  obtain ⟨q2, hq2⟩ := Dec.rpmNextValue_split fuel ty obj (Spec.openTag t ++
    (k.flatMap Prod.fst ++ (Spec.closeTag t ++ rest))) l l1 fuel (by omega) ⟨[], objects⟩ q
  obtain ⟨n, hn⟩ : ∃ n, fuel - l.length = n + 1 := ⟨fuel - l.length - 1, by omega⟩
  obtain ⟨q3, hq3⟩ := Dec.rpmNextValue_open fuel ty obj (k.flatMap Prod.fst ++ (Spec.closeTag t ++ rest))
    t ht h2 n ⟨[] ++ l.map Prod.snd, objects⟩ q2
  obtain ⟨q4, hq4⟩ := Dec.rpmNextValue_split fuel ty obj (Spec.closeTag t ++ rest) k k1 n (by omega)
    ⟨[] ++ l.map Prod.snd, objects⟩ q3
  have hdiv : Dec.rpmNextValue fuel ty obj fuel ⟨[], objects⟩ ⟨l.flatMap Prod.fst ++ (Spec.openTag t ++
    (k.flatMap Prod.fst ++ (Spec.closeTag t ++ rest))), q, none⟩ = .diverge := by
    rw [hq2, hn, hq3, hq4]
    exact Dec.rpmNextValue_stuck _ _ _ _ t ht h4 _ _ _
  have : Dec.rpmResult fuel ty ix 4 0x4E obj objects ⟨l.flatMap Prod.fst ++ (Spec.openTag t ++
    (k.flatMap Prod.fst ++ (Spec.closeTag t ++ rest))), q, none⟩ = .diverge := by
    cases l with
    | nil =>
      exact Dec.rpmResult_diverges fuel ty ix obj objects _ ⟨k.flatMap Prod.fst ++
        (Spec.closeTag t ++ rest), lastOr q (Spec.openTag t), none⟩ _ _
        (Dec.tagNumber_open_small t ht q _) rfl (Dec.open_byte_facts ⟨t, ht⟩).2.1 hdiv
    | cons x l' =>
      obtain ⟨hd, c, tag, m, e, p1, p2, p3, p4⟩ := l1 x (by simp)
      exact Dec.rpmResult_diverges fuel ty ix obj objects _
        ⟨c ++ (l'.flatMap Prod.fst ++ (Spec.openTag t ++
          (k.flatMap Prod.fst ++ (Spec.closeTag t ++ rest)))), lastOr q hd, none⟩ tag m
        (by rw [List.flatMap_cons, e, List.append_assoc, List.append_assoc]; exact p1 q _) rfl p3 hdiv
  rw [this]
  rfl

/-- The input of `C34_fails_truncated` for AnalogInput 1, present-value: an
acknowledgement cut after the value. -/
example : Before [] 0 1 [] ⟨85, none⟩ ++ Spec.openTag 4 ++ [AppVal.real 0x41C80000].flatMap
    AppVal.encoding = [0x0C, 0, 0, 0, 1, 0x1E, 0x29, 85, 0x4E, 0x44, 0x41, 0xC8, 0, 0] := by
  decide +kernel

example : Dec.readMultipleAck 1000 (Dec.new
    [0x0C, 0, 0, 0, 1, 0x1E, 0x29, 85, 0x4E, 0x44, 0x41, 0xC8, 0, 0]) = .diverge := by
  decide +kernel

/-- The recipient list of a notification class whose recipient is given as an
address (`[1] { network, mac }`). -/
example : Dec.readMultipleAck 1000 (Dec.new ([0x0C, 3, 0xC0, 0, 1, 0x1E, 0x29, 102, 0x4E,
    0x82, 1, 0xFE, 0xB4, 0, 0, 0, 0, 0xB4, 23, 59, 59, 0, 0x1E, 0x21, 5, 0x61, 7, 0x1F, 0x21, 1,
    0x11, 0x82, 5, 0xE0, 0x4F, 0x1F])) = .diverge := by decide +kernel

/-- C34 where it holds: input that is a sequence of readable results (C33), or that
ends in an access error (C36), is decoded in finitely many rounds.  Missing: all
other octets; by the two theorems above the claim is false for many of them. -/
theorem C34_terminates_partial (rs : List ObjResult) (h : ∀ r ∈ rs, ObjOk r) :
    ∃ N, ∀ fuel ≥ N, Dec.readMultipleAck fuel (Dec.new (rs.flatMap ObjResult.octets)) ≠ .diverge := by
  obtain ⟨objects, -, N, h1⟩ := C33_complete_partial rs h
  refine ⟨N, fun fuel hf => ?_⟩
  obtain ⟨d, h2⟩ := h1 fuel hf none
  unfold Dec.new
  rw [h2]
  intro hh
  cases hh

/-! ## C36 -/

/-- C36.  Wherever an access error stands, after any readable objects and results and
before any octets, decoding ends with that class and code, and the objects before it
are returned. -/
theorem C36_access_error (rs : List ObjResult) (hrs : ∀ r ∈ rs, ObjOk r) (typ inst : Nat)
    (hid : typ < 2 ^ 10 ∧ inst < 2 ^ 22) (xs : List (PropRef × ReadResult))
    (hxs : ∀ x ∈ xs, ResultOk x) (r : PropRef) (hr : RefOk r) (cls code : UInt32)
    (rest : List UInt8) :
    ∃ objects, List.Forall₂ CarriesObj objects rs ∧
      Decodes (rs.flatMap ObjResult.octets ++ Spec.ctxObjectId 0 typ inst ++ Spec.openTag 1 ++
        xs.flatMap (fun p => p.2.octets p.1) ++
        (ReadResult.error cls.toNat code.toNat).octets r ++ rest) objects
        (some (.accessError cls code)) := by
  have o5 : Parses Dec.tagNumber (Spec.openTag 5) (5, 0x5E) := Dec.parses_tagNumber_open 5
  have c5 : Parses Dec.tagNumber (Spec.closeTag 5) (5, 0x5F) := Dec.parses_tagNumber_close 5
  obtain ⟨objects, ho, N, ty, ix, obj, h⟩ := before_run rs hrs typ inst hid xs hxs r hr 5 0x5E
    (Spec.openTag 5) o5 (by simp [Spec.openTag]) (by decide) (by decide)
  refine ⟨objects, ho, N, ?_⟩
  intro fuel hf p
  obtain ⟨q, K, e1, hK⟩ := h fuel hf ((AppVal.enum cls.toNat).encoding ++
    ((AppVal.enum code.toNat).encoding ++ (Spec.closeTag 5 ++ rest))) p
  have hassoc : rs.flatMap ObjResult.octets ++ Spec.ctxObjectId 0 typ inst ++ Spec.openTag 1 ++
        xs.flatMap (fun p => p.2.octets p.1) ++
        (ReadResult.error cls.toNat code.toNat).octets r ++ rest
      = Before rs typ inst xs r ++ Spec.openTag 5 ++ ((AppVal.enum cls.toNat).encoding ++
    ((AppVal.enum code.toNat).encoding ++ (Spec.closeTag 5 ++ rest))) := by
    unfold Before ReadResult.octets
    simp only [List.append_assoc]
  have hb : Dec.bacError ⟨(AppVal.enum cls.toNat).encoding ++
      ((AppVal.enum code.toNat).encoding ++ (Spec.closeTag 5 ++ rest)), q, none⟩
      = .ok (.ok (cls, code), ⟨Spec.closeTag 5 ++ rest, lastOr (lastOr q
          (AppVal.enum cls.toNat).encoding) (AppVal.enum code.toNat).encoding, none⟩) := by
    unfold Dec.bacError
    rw [D.run_bind (Dec.parses_enum cls _ _)]
    dsimp only
    rw [D.run_bind (Dec.parses_enum code _ _)]
    rfl
  have hres : ∃ q', Dec.rpmResult fuel ty ix 5 0x5E obj objects ⟨(AppVal.enum cls.toNat).encoding ++
      ((AppVal.enum code.toNat).encoding ++ (Spec.closeTag 5 ++ rest)), q, none⟩
      = .ok (.stop objects (some (.accessError cls code)), ⟨rest, q', none⟩) := by
    refine ⟨lastOr (lastOr (lastOr q (AppVal.enum cls.toNat).encoding)
      (AppVal.enum code.toNat).encoding) (Spec.closeTag 5), ?_⟩
    unfold Dec.rpmResult
    rw [if_neg (by decide), if_pos ⟨rfl, by decide⟩, D.run_bind hb]
    dsimp only
    rw [D.run_bind (c5 _ _)]
    rfl
  obtain ⟨q', hq'⟩ := hres
  refine ⟨⟨rest, q', some (.accessError cls code)⟩, ?_⟩
  rw [hassoc, e1, D.run_bind hq', hK]

/-- Unknown property (class 2, code 32) as the second result of an object. -/
example : decoded 9 [0x0C, 0, 0, 0, 1, 0x1E, 0x29, 85, 0x4E, 0x44, 0x41, 0xC8, 0,
    0, 0x4F, 0x29, 28, 0x5E, 0x91, 2, 0x91, 32, 0x5F, 0x1F]
    = .ok ([], some (.accessError 2 32)) := by decide +kernel

/-! ## C35 -/

/-- C35 fails: the acknowledgement the library encodes for AnalogInput 5, present
value 7 is decoded by it to four null values and an error: the value is written
without a tag, and a second time after the closing tag. -/
theorem C35_fails : (do
      let (e, err) ← Enc.new.readMultipleAck 1
        [{ id := ⟨0, 5⟩, properties := [⟨85, arrayAll, .one (.uint 7), 0⟩] }]
      pure (e.buf, err) : Outcome _)
      = .ok ([0x30, 1, 14, 0x0C, 0, 0, 0, 5, 0x1E, 0x29, 85, 0x4E, 0, 0, 0, 7, 0x4F, 0, 0, 0, 7,
          0x1F], none) ∧
    decoded 9 [0x0C, 0, 0, 0, 5, 0x1E, 0x29, 85, 0x4E, 0, 0, 0, 7, 0x4F,
        0, 0, 0, 7, 0x1F]
      = .ok ([{ id := ⟨0, 5⟩, properties := [⟨85, arrayAll, .many [.null, .null, .null, .null], 0⟩] }],
          some .wrongTagType) := by decide +kernel

theorem apdu_readMultipleAck (invoke : UInt8) :
    (Enc.new.apdu { dataType := 0x30, service := 14, maxSegs := 0, maxApdu := 0, invokeId := invoke }).1
      = Enc.new.write [0x30, invoke, 14] := by
  simp only [Enc.apdu, apduMeta]
  rw [if_pos trivial]
  simp only [Enc.write_write]
  rfl

/-- C35 fails for every object and property with a null value: it comes back as an
empty list. -/
theorem C35_fails_null (invoke : UInt8) (id : ObjectID)
    (hid : id.typ.toNat < 2 ^ 10 ∧ id.inst.toNat < 2 ^ 22) (typ idx : UInt32) :
    ∃ body, Enc.new.readMultipleAck invoke
        [{ id := id, properties := [⟨typ, idx, .one .null, 0⟩] }]
        = .ok (⟨[0x30, invoke, 14] ++ body, none⟩, none) ∧
      Decodes body [{ id := id, properties := [⟨typ, idx, .many [], 0⟩] }] none := by
  have hok : ∀ fuel ≥ 2, ∀ o ∈ [RpmObj.mk id [⟨typ, idx, []⟩]], o.Ok fuel := by
    intro fuel hf o ho
    rw [List.mem_singleton] at ho
    subst ho
    refine ⟨hid, by simp, hf, ?_⟩
    intro p hp
    rw [List.mem_singleton] at hp
    subst hp
    exact ⟨by simp, by dsimp only [List.length_nil]; omega⟩
  refine ⟨(RpmObj.mk id [⟨typ, idx, []⟩]).octets, ?_, 2, ?_⟩
  · have ha := apdu_readMultipleAck invoke
    have hw : ∀ e : Enc, e.writeValue (.one .null) = .ok e := by
      intro e
      unfold Enc.writeValue
      cases h : e.err with
      | some x => rfl
      | none =>
        simp only [binaryWrite, Outcome.ok_bind, Enc.write, h, List.append_nil]
        cases e; simp only at h; subst h; rfl
    unfold Enc.readMultipleAck
    rw [ha]
    simp only [Enc.objectsWithData, Enc.propertiesWithData, hw, Outcome.ok_bind,
      Enc.contextObjectID_eq, Nat.mod_eq_of_lt hid.1, Nat.mod_eq_of_lt hid.2, Enc.tagNum_open,
      Enc.tagNum_close, Enc.contextEnumerated,
      Enc.contextUnsigned_eq, Enc.optIndex_eq, Enc.write_write, Enc.new_write, Outcome.pure_eq]
    unfold RpmObj.octets RpmProp.octets rpmIdx
    simp [Enc.write]
  · intro fuel hf p
    obtain ⟨q, hq⟩ := Dec.rpmObjects_prefix fuel [] [RpmObj.mk id [⟨typ, idx, []⟩]] (hok fuel hf) fuel
      (by simp; omega) [] p
    obtain ⟨k, hk⟩ : ∃ k, fuel - 1 = k + 1 := ⟨fuel - 2, by omega⟩
    simp only [List.flatMap_cons, List.flatMap_nil, List.append_nil, List.length_singleton, hk] at hq
    refine ⟨⟨[], q, none⟩, ?_⟩
    unfold Dec.readMultipleAck
    rw [D.bind_apply, hq]
    rfl

/-- C35 where it holds: the empty acknowledgement.  Missing: everything else; see
the two theorems above. -/
theorem C35_empty_partial (invoke : UInt8) :
    Enc.new.readMultipleAck invoke [] = .ok (⟨[0x30, invoke, 14], none⟩, none) ∧
      Decodes [] [] none := by
  refine ⟨by unfold Enc.readMultipleAck; rw [apdu_readMultipleAck]; rfl, 1, fun fuel hf p => ?_⟩
  obtain ⟨n, rfl⟩ : ∃ n, fuel = n + 1 := ⟨fuel - 1, by omega⟩
  exact ⟨_, rfl⟩

/-- The library's own acknowledgement for a real value makes its decoder loop. -/
example : (do
      let (e, _) ← Enc.new.readMultipleAck 1
        [{ id := ⟨0, 5⟩, properties := [⟨85, arrayAll, .one (.real 0x43340000), 0⟩] }]
      decoded 1000 (e.buf.drop 3) : Outcome _) = .diverge := by decide +kernel

end Bac.Props
