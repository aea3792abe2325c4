import Verif.Props.Stable
/-!
# C27, C33 exactly: which conforming answers are read as they are meant
-/

namespace Bac.Props

open Spec (AppVal Means PropRef ReadResult ObjResult NetHeader)

/-! ## Every conforming value is read as something -/

theorem conforming_parses (v : AppVal) (hw : v.WF) : ∃ s, Parses Dec.appData v.encoding (s, none) := by
  by_cases hr : C71_Readable v
  · obtain ⟨s, h, _⟩ := C71_conforming_value_partial v hr
    exact ⟨s, h⟩
  cases v
  case date y m d w =>
    obtain ⟨dt, h3, _⟩ := C14_fails_year y m d w
    exact ⟨_, h3⟩
  case signed n =>
    have hc : -2 ^ 23 ≤ n ∧ n < -2 ^ 15 := by
      by_contra hc
      exact hr ⟨hw, hc⟩
    have hm : Spec.signedMinOctets n = 3 := by
      unfold Spec.signedMinOctets
      rw [if_neg (by omega), if_neg (by omega), if_pos (by omega)]
    have hl : (Spec.twosComplement 3 n).length = 3 := length_bigEndian _ _
    have he : (AppVal.signed n).encoding = Spec.tagHeader 3 false 3 ++ Spec.twosComplement 3 n := by
      simp only [AppVal.encoding, AppVal.tag, AppVal.lenField, AppVal.contents, hm, hl]
    rw [he]
    generalize Spec.twosComplement 3 n = bs at hl
    match bs, hl with
    | [a, b, c], _ =>
      obtain ⟨y, h3, _⟩ := C08_signed_three_exact a b c
      exact ⟨_, Dec.parses_appData_of (num := 3) (v := 3) (Dec.Parses.withError (f := Scalar.int) h3)⟩
  case bits l =>
    set u : UInt8 := UInt8.ofNat ((8 - l.length % 8) % 8) with hu
    have hk : (UInt32.ofNat ((Spec.packBits l).length + 1)).toNat = (Spec.packBits l).length + 1 :=
      UInt32.toNat_ofNat_of_lt' hw
    have he : (AppVal.bits l).encoding = Spec.tagHeader 8 false (UInt32.ofNat ((Spec.packBits l).length + 1)).toNat ++ (u :: Spec.packBits l) := by
      rw [hk]; rfl
    rw [he]
    obtain ⟨b, hb⟩ := Dec.bitStringOf_ok ((Spec.packBits l).length + 1) (u :: Spec.packBits l) rfl (by omega)
    refine ⟨.bits (some b), Dec.parses_appData_of (num := 8) ?_⟩
    refine Dec.Parses.withError (f := Scalar.bits) (m := Dec.bitString _) ?_
    rw [hk]
    unfold Dec.bitString
    rw [if_neg (by omega)]
    refine Parses.bind' (Dec.parses_bytes (u :: Spec.packBits l)) ?_
    intro p rest
    rw [hb]
    rfl
  all_goals exact absurd ⟨hw, trivial⟩ hr

/-- `s` is what the decoder makes of the value `v`. -/
def Reads (s : Scalar) (v : AppVal) : Prop := Parses Dec.appData v.encoding (s, none)

theorem Reads.unique {s s' : Scalar} {v : AppVal} (h : Reads s v) (h' : Reads s' v) : s = s' := by
  have := (h none []).symm.trans (h' none [])
  simp only [Outcome.ok.injEq, Prod.mk.injEq] at this
  exact this.1.1

theorem reads_means {s : Scalar} {v : AppVal} (hw : v.WF) (h : Reads s v) : Means s v ↔ C71_Readable v := by
  constructor
  · exact fun hm => (C71_exact v hw).1 ⟨s, h, hm⟩
  · intro hr
    obtain ⟨s', h1, h2⟩ := C71_conforming_value_partial v hr
    rwa [Reads.unique h h1]

theorem reads_list (vs : List AppVal) (h : ∀ v ∈ vs, v.WF) :
    ∃ l : List (List UInt8 × Scalar), (∀ x ∈ l, Parses Dec.appData x.1 (x.2, none)) ∧
      (∀ x ∈ l, Elem x.1 x.2) ∧
      l.flatMap Prod.fst = vs.flatMap AppVal.encoding ∧ l.length = vs.length ∧
      List.Forall₂ Reads (l.map Prod.snd) vs := by
  induction vs with
  | nil => exact ⟨[], by simp, by simp, rfl, rfl, List.Forall₂.nil⟩
  | cons v vs ih =>
    obtain ⟨l, h1, h0, h2, h3, h4⟩ := ih fun w hw => h w (by simp [hw])
    obtain ⟨s, h5⟩ := conforming_parses v (h v (by simp))
    refine ⟨(v.encoding, s) :: l, ?_, ?_, ?_, by simp [h3], List.Forall₂.cons h5 h4⟩
    · intro x hx
      rcases List.mem_cons.mp hx with rfl | hx
      · exact h5
      · exact h1 x hx
    · intro x hx
      rcases List.mem_cons.mp hx with rfl | hx
      · exact elem_of_parses v s h5
      · exact h0 x hx
    · simp [h2]

theorem reads_means_list {ss : List Scalar} {vs : List AppVal} (h : List.Forall₂ Reads ss vs) :
    (∀ v ∈ vs, v.WF) → (List.Forall₂ Means ss vs ↔ ∀ v ∈ vs, C71_Readable v) := by
  induction h with
  | nil => intro _; exact ⟨fun _ => by simp, fun _ => List.Forall₂.nil⟩
  | cons h1 _ ih =>
    intro hw
    have ih' := ih fun w hw' => hw w (by simp [hw'])
    have h1' := reads_means (hw _ (by simp)) h1
    constructor
    · rintro (_ | ⟨a, b⟩) v hv
      rcases List.mem_cons.mp hv with rfl | hv
      · exact h1'.1 a
      · exact ih'.1 b v hv
    · intro hr
      exact List.Forall₂.cons (h1'.2 (hr _ (by simp))) (ih'.2 fun v hv => hr v (by simp [hv]))

theorem value_inj {ss ss' : List Scalar} (h : (match ss with
      | [s] => Value.one s
      | _ => Value.many ss) = (match ss' with
      | [s] => Value.one s
      | _ => Value.many ss')) : ss = ss' := by
  rcases ss with _ | ⟨a, _ | ⟨b, r⟩⟩ <;> rcases ss' with _ | ⟨a', _ | ⟨b', r'⟩⟩ <;>
    first | rfl | (cases h; rfl) | cases h

theorem unlist_eq (ss : List Scalar) : unlist ss = (match ss with
      | [s] => Value.one s
      | _ => Value.many ss) := by
  rcases ss with _ | ⟨a, _ | ⟨b, r⟩⟩ <;> rfl

/-! ## C27 -/

/-- C27, exactly: an acknowledgement with conforming values is read as it is meant exactly if
all the values are readable. -/
theorem C27_exact (id : ObjectID) (p : Property) (vs : List AppVal) (hid : C04_Valid id)
    (hv : ∀ v ∈ vs, v.WF) (fuel : Nat) (hf : vs.length < fuel) :
    (∃ ss d, List.Forall₂ Means ss vs ∧
      Dec.readProperty fuel (Dec.new (Spec.readPropertyAckBody id.typ.toNat id.inst.toNat p.ref
        (vs.flatMap AppVal.encoding)))
      = .ok (({ object := { id := id, properties := [⟨p.typ, p.arrayIndex, match ss with
            | [s] => .one s
            | _ => .many ss, 0⟩] } }, none), d)) ↔ ∀ v ∈ vs, C71_Readable v := by
  refine ⟨?_, fun hr => C27_values_partial id p vs hid hr fuel hf⟩
  rintro ⟨ss, d, hm, hrun⟩
  obtain ⟨l, h1, _, h2, h3, h4⟩ := reads_list vs hv
  obtain ⟨q, m, h⟩ := Dec.readProperty_head fuel id p.typ
    ((if p.arrayIndex = arrayAll then [] else Spec.ctxUnsigned 2 p.arrayIndex.toNat) ++
      (Spec.openTag 3 ++ (l.flatMap Prod.fst ++ [0x3F]))) hid none
  obtain ⟨q', h'⟩ := Dec.readPropertyTail_values fuel id p.typ p.arrayIndex m 0x3F l h1
    (by omega) q
  have e : Spec.readPropertyAckBody id.typ.toNat id.inst.toNat p.ref (vs.flatMap AppVal.encoding)
      = Spec.ctxObjectId 0 id.typ.toNat id.inst.toNat ++ (Spec.ctxUnsigned 1 p.typ.toNat ++
        ((if p.arrayIndex = arrayAll then [] else Spec.ctxUnsigned 2 p.arrayIndex.toNat) ++
      (Spec.openTag 3 ++ (l.flatMap Prod.fst ++ [0x3F])))) := by
    unfold Spec.readPropertyAckBody
    rw [ref_octets, h2]
    simp only [List.append_assoc]
    rfl
  rw [e] at hrun
  have hh := hrun.symm.trans (h.trans h')
  simp only [Outcome.ok.injEq, Prod.mk.injEq, PropertyData.mk.injEq, Object.mk.injEq, List.cons.injEq,
    Property.mk.injEq, true_and, and_true] at hh
  have := value_inj (hh.1.trans (unlist_eq _))
  subst this
  exact (reads_means_list h4 hv).1 hm

/-- A date is conforming, and not read as it is meant. -/
example : ¬ ∃ ss d, List.Forall₂ Means ss [.date 124 1 31 3] ∧
      Dec.readProperty 9 (Dec.new (Spec.readPropertyAckBody 0 1 ⟨85, none⟩
        ([AppVal.date 124 1 31 3].flatMap AppVal.encoding)))
      = .ok (({ object := { id := ⟨0, 1⟩, properties := [⟨85, arrayAll, match ss with
            | [s] => .one s
            | _ => .many ss, 0⟩] } }, none), d) := by
  intro h
  have := (C27_exact ⟨0, 1⟩ ⟨85, arrayAll, .one .null, 0⟩ [.date 124 1 31 3] ⟨by decide, by decide⟩
    (by simp [AppVal.WF]) 9 (by decide)).1 h (.date 124 1 31 3) (by simp)
  exact this.2

/-! ## C33: everything conforming is decoded to the end -/

/-- The Go property `p` holds what the decoder makes of the result `x`. -/
def ReadsProp (p : Property) (x : PropRef × ReadResult) : Prop :=
  p.ref = x.1 ∧ ∃ vs ss, x.2 = .values vs ∧ List.Forall₂ Reads ss vs ∧
    p.data = (match ss with
      | [s] => Value.one s
      | _ => Value.many ss)

/-- The Go object `o` holds what the decoder makes of the results of `r`, in order. -/
def ReadsObj (o : Object) (r : ObjResult) : Prop :=
  o.id.typ.toNat = r.typ ∧ o.id.inst.toNat = r.inst ∧ List.Forall₂ ReadsProp o.properties r.props

/-- Results that are conforming values. -/
def ResultWF (x : PropRef × ReadResult) : Prop :=
  RefOk x.1 ∧ ∃ vs, x.2 = .values vs ∧ ∀ v ∈ vs, v.WF

/-- A valid object identifier and conforming results, at least one. -/
def ObjWF (r : ObjResult) : Prop :=
  (r.typ < 2 ^ 10 ∧ r.inst < 2 ^ 22) ∧ r.props ≠ [] ∧ ∀ x ∈ r.props, ResultWF x

theorem rpmProp_reads (x : PropRef × ReadResult) (h : ResultWF x) : ∃ y : RpmProp,
    y.octets = x.2.octets x.1 ∧ ReadsProp y.toProp x ∧ ∃ N, ∀ fuel ≥ N, y.Ok fuel := by
  obtain ⟨h1, vs, h2, h3⟩ := h
  obtain ⟨typ, idx, h4, h5⟩ := rpmRef x.1 h1
  obtain ⟨l, _, h6, h7, h8, h9⟩ := reads_list vs h3
  refine ⟨⟨typ, idx, l⟩, ?_, ⟨h4 _ rfl rfl, vs, _, h2, h9, unlist_eq _⟩, l.length + 1, ?_⟩
  · rw [h2]
    unfold ReadResult.octets RpmProp.octets
    dsimp only
    rw [h5, h7]
    simp only [List.append_assoc]
  · intro fuel hf
    exact ⟨h6, by dsimp only; omega⟩

theorem rpmProps_reads (xs : List (PropRef × ReadResult)) (h : ∀ x ∈ xs, ResultWF x) :
    ∃ ys : List RpmProp, ys.flatMap RpmProp.octets = xs.flatMap (fun p => p.2.octets p.1) ∧
      List.Forall₂ ReadsProp (ys.map RpmProp.toProp) xs ∧ ys.length = xs.length ∧
      ∃ N, ∀ fuel ≥ N, (∀ y ∈ ys, y.Ok fuel) ∧ ys.length < fuel := by
  induction xs with
  | nil => exact ⟨[], rfl, List.Forall₂.nil, rfl, 1, fun _ hf => ⟨by simp, hf⟩⟩
  | cons x xs ih =>
    obtain ⟨ys, h1, h2, h3, N, h4⟩ := ih fun w hw => h w (by simp [hw])
    obtain ⟨y, h5, h6, M, h7⟩ := rpmProp_reads x (h x (by simp))
    refine ⟨y :: ys, by simp [h1, h5], List.Forall₂.cons h6 h2, by simp [h3], N + M + 1, ?_⟩
    intro fuel hf
    refine ⟨?_, ?_⟩
    · intro z hz
      rcases List.mem_cons.mp hz with rfl | hz
      · exact h7 fuel (by omega)
      · exact (h4 fuel (by omega)).1 z hz
    · have := (h4 (fuel - 1) (by omega)).2
      simp only [List.length_cons]
      omega

theorem rpmObj_reads (r : ObjResult) (h : ObjWF r) : ∃ o : RpmObj,
    o.octets = r.octets ∧ ReadsObj o.toObj r ∧ ∃ N, ∀ fuel ≥ N, o.Ok fuel := by
  obtain ⟨hid, hne, hps⟩ := h
  obtain ⟨ys, h1, h2, h3, N, h4⟩ := rpmProps_reads r.props hps
  have e1 : (UInt16.ofNat r.typ).toNat = r.typ := UInt16.toNat_ofNat_of_lt' (by
    have := hid.1; show r.typ < 2 ^ 16; omega)
  have e2 : (UInt32.ofNat r.inst).toNat = r.inst := UInt32.toNat_ofNat_of_lt' (by
    have := hid.2; show r.inst < 2 ^ 32; omega)
  refine ⟨⟨⟨UInt16.ofNat r.typ, UInt32.ofNat r.inst⟩, ys⟩, ?_, ⟨e1, e2, h2⟩, N, ?_⟩
  · unfold RpmObj.octets ObjResult.octets
    dsimp only
    rw [e1, e2, h1]
    simp only [List.append_assoc]
  · intro fuel hf
    obtain ⟨h5, h6⟩ := h4 fuel hf
    refine ⟨⟨?_, ?_⟩, ?_, h6, h5⟩
    · dsimp only; rw [e1]; exact hid.1
    · dsimp only; rw [e2]; exact hid.2
    · dsimp only
      intro hy
      rw [hy] at h3
      exact hne (List.length_eq_zero_iff.mp h3.symm)

theorem rpmObjs_reads (rs : List ObjResult) (h : ∀ r ∈ rs, ObjWF r) :
    ∃ os : List RpmObj, os.flatMap RpmObj.octets = rs.flatMap ObjResult.octets ∧
      List.Forall₂ ReadsObj (os.map RpmObj.toObj) rs ∧
      ∃ N, ∀ fuel ≥ N, (∀ o ∈ os, o.Ok fuel) ∧ os.length < fuel := by
  induction rs with
  | nil => exact ⟨[], rfl, List.Forall₂.nil, 1, fun _ hf => ⟨by simp, hf⟩⟩
  | cons r rs ih =>
    obtain ⟨os, h1, h2, N, h3⟩ := ih fun w hw => h w (by simp [hw])
    obtain ⟨o, h4, h5, M, h6⟩ := rpmObj_reads r (h r (by simp))
    refine ⟨o :: os, by simp [h1, h4], List.Forall₂.cons h5 h2, N + M + 1, ?_⟩
    intro fuel hf
    refine ⟨?_, ?_⟩
    · intro z hz
      rcases List.mem_cons.mp hz with rfl | hz
      · exact h6 fuel (by omega)
      · exact (h3 fuel (by omega)).1 z hz
    · have := (h3 (fuel - 1) (by omega)).2
      simp only [List.length_cons]
      omega

/-- Objects with results that are conforming values are decoded completely. -/
theorem reads_all (rs : List ObjResult) (h : ∀ r ∈ rs, ObjWF r) :
    ∃ objects, List.Forall₂ ReadsObj objects rs ∧
      Decodes (rs.flatMap ObjResult.octets) objects none := by
  obtain ⟨os, h1, h2, N, h3⟩ := rpmObjs_reads rs h
  refine ⟨_, h2, N, ?_⟩
  intro fuel hf p
  obtain ⟨h4, h5⟩ := h3 fuel hf
  obtain ⟨q, hq⟩ := Dec.rpmObjects_prefix fuel [] os h4 fuel (by omega) [] p
  obtain ⟨k, hk⟩ : ∃ k, fuel - os.length = k + 1 := ⟨fuel - os.length - 1, by omega⟩
  rw [List.append_nil, hk] at hq
  refine ⟨⟨[], q, none⟩, ?_⟩
  unfold Dec.readMultipleAck
  rw [← h1, D.bind_apply, hq]
  rfl

/-- The first object without results ends decoding with an error. -/
theorem reads_empty (rs : List ObjResult) (h : ∀ r ∈ rs, ObjWF r) (typ inst : Nat)
    (hid : typ < 2 ^ 10 ∧ inst < 2 ^ 22) (rest : List UInt8) :
    ∃ objects, List.Forall₂ ReadsObj objects rs ∧
      Decodes (rs.flatMap ObjResult.octets ++ ((ObjResult.mk typ inst []).octets ++ rest)) objects
        (some (.incorrectTag 2 1)) := by
  obtain ⟨os, h1, h2, N, h3⟩ := rpmObjs_reads rs h
  refine ⟨_, h2, N, ?_⟩
  intro fuel hf p
  obtain ⟨h4, h5⟩ := h3 fuel hf
  obtain ⟨q, hq⟩ := Dec.rpmObjects_prefix fuel ((ObjResult.mk typ inst []).octets ++ rest) os h4 fuel
    (by omega) [] p
  obtain ⟨n, hk⟩ : ∃ k, fuel - os.length = k + 1 := ⟨fuel - os.length - 1, by omega⟩
  rw [hk, h1] at hq
  have e1 : (UInt16.ofNat typ).toNat = typ := UInt16.toNat_ofNat_of_lt' (by
    have := hid.1; show typ < 2 ^ 16; omega)
  have e2 : (UInt32.ofNat inst).toNat = inst := UInt32.toNat_ofNat_of_lt' (by
    have := hid.2; show inst < 2 ^ 32; omega)
  have hid := Dec.parses_objectId' ⟨UInt16.ofNat typ, UInt32.ofNat inst⟩ (by
    dsimp only; rw [e1, e2]; exact hid)
  dsimp only at hid
  rw [e1, e2] at hid
  have t0 : Parses Dec.tagNumberAndValue (Spec.tagHeader 0 true 4)
      (0, tagByte (Spec.numNibble 0) true 4, 4) := Dec.parses_tagHeader 0 true 4
  have o1 : Parses Dec.tagNumber (Spec.openTag 1) (1, 0x1E) := Dec.parses_tagNumber_open 1
  have c1 : Parses Dec.tagNumberAndValue (Spec.closeTag 1) (1, 0x1F, 0) := Dec.parses_closeTag 1
  have hc : isContextSpecific (tagByte (Spec.numNibble 0) true 4) = true := by decide
  have hb : (ObjResult.mk typ inst []).octets ++ rest =
      Spec.ctxObjectId 0 typ inst ++ (Spec.openTag 1 ++ (Spec.closeTag 1 ++ rest)) := by
    unfold ObjResult.octets
    simp only [List.flatMap_nil, List.append_nil, List.append_assoc]
  have hlen := Dec.ctxObjectId_length_pos 0 typ inst (Spec.openTag 1 ++ (Spec.closeTag 1 ++ rest))
  have hrun : ∀ acc, ∃ q', Dec.rpmObjects fuel (n + 1) acc ⟨(ObjResult.mk typ inst []).octets ++
      rest, q, none⟩ = .ok ((acc, some (.incorrectTag 2 1)), ⟨rest, q', none⟩) := by
    intro acc
    refine ⟨lastOr (lastOr (lastOr (lastOr q (Spec.tagHeader 0 true 4))
      (Spec.objectId typ inst)) (Spec.openTag 1)) (Spec.closeTag 1), ?_⟩
    unfold Dec.rpmObjects
    rw [D.run_bind (Dec.error_run _), D.run_bind (Dec.len_run _), hb, if_pos ⟨rfl, hlen⟩]
    unfold Spec.ctxObjectId
    rw [List.append_assoc, D.run_bind (t0 _ _)]
    dsimp only
    rw [if_neg (by decide), hc, if_neg (by decide), D.run_bind (hid _ _), D.run_bind (o1 _ _)]
    dsimp only
    rw [if_neg (by decide), if_neg (by decide), D.run_bind (c1 _ _)]
    dsimp only
    rw [if_pos (by decide)]
    rfl
  obtain ⟨q', hq'⟩ := hrun ([] ++ os.map RpmObj.toObj)
  refine ⟨⟨rest, q', some (.incorrectTag 2 1)⟩, ?_⟩
  unfold Dec.readMultipleAck
  rw [D.run_bind (hq.trans hq')]
  rfl

/-- The first access error ends decoding with that error. -/
theorem reads_error (rs : List ObjResult) (hrs : ∀ r ∈ rs, ObjWF r) (typ inst : Nat)
    (hid : typ < 2 ^ 10 ∧ inst < 2 ^ 22) (xs : List (PropRef × ReadResult))
    (hxs : ∀ x ∈ xs, ResultWF x) (r : PropRef) (hr : RefOk r) (cls code : UInt32)
    (rest : List UInt8) :
    ∃ objects, List.Forall₂ ReadsObj objects rs ∧
      Decodes (rs.flatMap ObjResult.octets ++ (Spec.ctxObjectId 0 typ inst ++ (Spec.openTag 1 ++
        (xs.flatMap (fun p => p.2.octets p.1) ++
        ((ReadResult.error cls.toNat code.toNat).octets r ++ rest))))) objects
        (some (.accessError cls code)) := by
  have o5 : Parses Dec.tagNumber (Spec.openTag 5) (5, 0x5E) := Dec.parses_tagNumber_open 5
  have c5 : Parses Dec.tagNumber (Spec.closeTag 5) (5, 0x5F) := Dec.parses_tagNumber_close 5
  obtain ⟨os, a1, a2, N, a3⟩ := rpmObjs_reads rs hrs
  obtain ⟨ps, b1, b2, b3, M, b4⟩ := rpmProps_reads xs hxs
  obtain ⟨ty, ix, -, c2⟩ := rpmRef r hr
  have e1 : (UInt16.ofNat typ).toNat = typ := UInt16.toNat_ofNat_of_lt' (by
    have := hid.1; show typ < 2 ^ 16; omega)
  have e2 : (UInt32.ofNat inst).toNat = inst := UInt32.toNat_ofNat_of_lt' (by
    have := hid.2; show inst < 2 ^ 32; omega)
  refine ⟨_, a2, N + M, ?_⟩
  intro fuel hf p
  obtain ⟨a4, a5⟩ := a3 fuel (by omega)
  obtain ⟨b5, b6⟩ := b4 fuel (by omega)
  obtain ⟨q, K, h, hK, -⟩ := Dec.readMultipleAck_plug fuel os a4 a5
    ⟨UInt16.ofNat typ, UInt32.ofNat inst⟩ (by dsimp only; rw [e1, e2]; exact hid) ps b5 b6 ty ix 5 0x5E
    (Spec.openTag 5) o5 (by simp [Spec.openTag]) (by decide) (by decide)
    ((AppVal.enum cls.toNat).encoding ++
    ((AppVal.enum code.toNat).encoding ++ (Spec.closeTag 5 ++ rest))) p
  have hassoc : (ReadResult.error cls.toNat code.toNat).octets r ++ rest
      = Spec.ctxUnsigned 2 ty.toNat ++ (rpmIdx ix ++ (Spec.openTag 5 ++
        ((AppVal.enum cls.toNat).encoding ++
        ((AppVal.enum code.toNat).encoding ++ (Spec.closeTag 5 ++ rest))))) := by
    unfold ReadResult.octets
    rw [c2]
    simp only [List.append_assoc]
  dsimp only at h
  rw [e1, e2, a1, b1, ← hassoc] at h
  have hb : Dec.bacError ⟨(AppVal.enum cls.toNat).encoding ++
      ((AppVal.enum code.toNat).encoding ++ (Spec.closeTag 5 ++ rest)), q, none⟩
      = .ok (.ok (cls, code), ⟨Spec.closeTag 5 ++ rest, lastOr (lastOr q
          (AppVal.enum cls.toNat).encoding) (AppVal.enum code.toNat).encoding, none⟩) := by
    unfold Dec.bacError
    rw [D.run_bind (Dec.parses_enum cls _ _)]
    dsimp only
    rw [D.run_bind (Dec.parses_enum code _ _)]
    rfl
  have hres : ∀ obj objects, ∃ q', Dec.rpmResult fuel ty ix 5 0x5E obj objects
      ⟨(AppVal.enum cls.toNat).encoding ++
      ((AppVal.enum code.toNat).encoding ++ (Spec.closeTag 5 ++ rest)), q, none⟩
      = .ok (.stop objects (some (.accessError cls code)), ⟨rest, q', none⟩) := by
    intro obj objects
    refine ⟨lastOr (lastOr (lastOr q (AppVal.enum cls.toNat).encoding)
      (AppVal.enum code.toNat).encoding) (Spec.closeTag 5), ?_⟩
    unfold Dec.rpmResult
    rw [if_neg (by decide), if_pos ⟨rfl, by decide⟩, D.run_bind hb]
    dsimp only
    rw [D.run_bind (c5 _ _)]
    rfl
  obtain ⟨q', hq'⟩ := hres _ _
  refine ⟨⟨rest, q', some (.accessError cls code)⟩, ?_⟩
  rw [h, D.run_bind hq', hK]

/-! ## C33: what becomes of a conforming acknowledgement -/

/-- A conforming result: values, or an error. -/
def ResultSound (x : PropRef × ReadResult) : Prop :=
  RefOk x.1 ∧ (∀ vs, x.2 = .values vs → ∀ v ∈ vs, v.WF) ∧
    ∀ cls code, x.2 = .error cls code → cls < 2 ^ 32 ∧ code < 2 ^ 32

/-- A conforming answer for one object (it may have no results). -/
def ObjSound (r : ObjResult) : Prop :=
  (r.typ < 2 ^ 10 ∧ r.inst < 2 ^ 22) ∧ ∀ x ∈ r.props, ResultSound x

/-- The error of a result. -/
def resultError (x : PropRef × ReadResult) : Option GoErr :=
  match x.2 with
  | .values _ => none
  | .error cls code => some (.accessError (UInt32.ofNat cls) (UInt32.ofNat code))

/-- Why decoding stops at this object: it has no results, or one of them is an error. -/
def objError (r : ObjResult) : Option GoErr :=
  if r.props = [] then some (.incorrectTag 2 1) else r.props.findSome? resultError

theorem split_first {α β : Type} (f : α → Option β) (l : List α) :
    (∀ x ∈ l, f x = none) ∨ ∃ a x b y, l = a ++ x :: b ∧ (∀ x ∈ a, f x = none) ∧ f x = some y := by
  induction l with
  | nil => exact .inl (by simp)
  | cons x l ih =>
    cases h : f x with
    | some y => exact .inr ⟨[], x, l, y, rfl, by simp, h⟩
    | none =>
      rcases ih with ih | ⟨a, z, b, y, rfl, h1, h2⟩
      · exact .inl (by simpa [h] using ih)
      · exact .inr ⟨x :: a, z, b, y, rfl, by simpa [h] using h1, h2⟩

theorem findSome_split {α β : Type} (f : α → Option β) (a b : List α) (x : α) (y : β)
    (ha : ∀ x ∈ a, f x = none) (hx : f x = some y) : (a ++ x :: b).findSome? f = some y := by
  induction a with
  | nil => simp [hx]
  | cons z a ih =>
    rw [List.cons_append, List.findSome?_cons, ha z (by simp)]
    exact ih fun w hw => ha w (by simp [hw])

theorem takeWhile_split {α β : Type} (f : α → Option β) (a b : List α) (x : α) (y : β)
    (ha : ∀ x ∈ a, f x = none) (hx : f x = some y) :
    (a ++ x :: b).takeWhile (fun r => (f r).isNone) = a := by
  induction a with
  | nil => simp [hx]
  | cons z a ih =>
    rw [List.cons_append, List.takeWhile_cons, ha z (by simp)]
    simp only [Option.isNone_none, if_true]
    rw [ih fun w hw => ha w (by simp [hw])]

theorem takeWhile_all {α β : Type} (f : α → Option β) (a : List α) (ha : ∀ x ∈ a, f x = none) :
    a.takeWhile (fun r => (f r).isNone) = a := by
  induction a with
  | nil => rfl
  | cons z a ih =>
    rw [List.takeWhile_cons, ha z (by simp)]
    simp only [Option.isNone_none, if_true]
    rw [ih fun w hw => ha w (by simp [hw])]

theorem resultWF_of {x : PropRef × ReadResult} (h : ResultSound x) (he : resultError x = none) :
    ResultWF x := by
  refine ⟨h.1, ?_⟩
  obtain ⟨r, v⟩ := x
  cases v with
  | values vs => exact ⟨vs, rfl, h.2.1 vs rfl⟩
  | error c k => cases he

theorem objWF_of {r : ObjResult} (h : ObjSound r) (he : objError r = none) : ObjWF r := by
  unfold objError at he
  split at he
  · cases he
  rename_i hne
  refine ⟨h.1, hne, fun x hx => resultWF_of (h.2 x hx) ?_⟩
  exact List.findSome?_eq_none_iff.1 he x hx

/-- C33, completely: what becomes of any conforming acknowledgement (without constructed
values, C34).  The objects before the first one that has no results or an error among them are
decoded, in order, each value to what `Dec.appData` makes of it; decoding ends there, with that
error. -/
theorem C33_verdict (rs : List ObjResult) (h : ∀ r ∈ rs, ObjSound r) :
    ∃ objects, List.Forall₂ ReadsObj objects (rs.takeWhile fun r => (objError r).isNone) ∧
      Decodes (rs.flatMap ObjResult.octets) objects (rs.findSome? objError) := by
  rcases split_first objError rs with hn | ⟨a, r, b, e, rfl, ha, hr⟩
  · obtain ⟨objects, h1, h2⟩ := reads_all rs fun r hr => objWF_of (h r hr) (hn r hr)
    refine ⟨objects, ?_, ?_⟩
    · rw [takeWhile_all objError rs hn]
      exact h1
    · rw [List.findSome?_eq_none_iff.2 hn]
      exact h2
  · rw [findSome_split objError a b r e ha hr, takeWhile_split objError a b r e ha hr]
    have haw : ∀ x ∈ a, ObjWF x := fun x hx => objWF_of (h x (by simp [hx])) (ha x hx)
    have hs := h r (by simp)
    obtain ⟨typ, inst, props⟩ := r
    rw [List.flatMap_append, List.flatMap_cons]
    unfold objError at hr
    dsimp only at hr
    split at hr
    · rename_i hp
      subst hp
      cases hr
      exact reads_empty a haw typ inst hs.1 _
    rename_i hp
    rcases split_first resultError props with hn | ⟨xs, ⟨ref, res⟩, ys, e', rfl, hxs, hx⟩
    · rw [List.findSome?_eq_none_iff.2 hn] at hr
      cases hr
    rw [findSome_split _ _ _ _ _ hxs hx] at hr
    cases hr
    cases res with
    | values vs => cases hx
    | error c k =>
      cases hx
      have hx' := hs.2 (ref, .error c k) (by simp)
      obtain ⟨hc, hk⟩ := hx'.2.2 c k rfl
      obtain ⟨objects, h1, h2⟩ := reads_error a haw typ inst hs.1 xs
        (fun x hx => resultWF_of (hs.2 x (by simp [hx])) (hxs x hx)) ref hx'.1 (UInt32.ofNat c)
        (UInt32.ofNat k) (ys.flatMap (fun p => p.2.octets p.1) ++ (Spec.closeTag 1 ++
          b.flatMap ObjResult.octets))
      refine ⟨objects, h1, ?_⟩
      rw [UInt32.toNat_ofNat_of_lt' hc, UInt32.toNat_ofNat_of_lt' hk] at h2
      have e : (ObjResult.mk typ inst (xs ++ (ref, .error c k) :: ys)).octets ++
          b.flatMap ObjResult.octets = Spec.ctxObjectId 0 typ inst ++ (Spec.openTag 1 ++
        (xs.flatMap (fun p => p.2.octets p.1) ++
        ((ReadResult.error c k).octets ref ++ (ys.flatMap (fun p => p.2.octets p.1) ++
          (Spec.closeTag 1 ++ b.flatMap ObjResult.octets))))) := by
        unfold ObjResult.octets
        simp only [List.flatMap_append, List.flatMap_cons, List.append_assoc]
      rw [e]
      exact h2

/-- A conforming acknowledgement never makes the decoder crash or run forever, as long as no
value in it is constructed. -/
theorem C33_ends (rs : List ObjResult) (h : ∀ r ∈ rs, ObjSound r) :
    ¬ Hangs (rs.flatMap ObjResult.octets) ∧ ∀ k, ¬ Crashes (rs.flatMap ObjResult.octets) k := by
  obtain ⟨objects, -, h2⟩ := C33_verdict rs h
  obtain ⟨-, v1, v2, -⟩ := C135_verdict (rs.flatMap ObjResult.octets)
  exact ⟨fun hh => (v1 hh).2 _ _ h2, fun k hk => v2 k hk _ _ h2⟩

theorem carriesProp_iff {p : Property} {x : PropRef × ReadResult} (hw : ResultWF x) (h : ReadsProp p x) :
    CarriesProp p x ↔ ResultOk x := by
  obtain ⟨h1, vs, ss, h2, h3, h4⟩ := h
  have hv : ∀ v ∈ vs, v.WF := by
    obtain ⟨-, vs', e, hv⟩ := hw
    rw [h2] at e
    cases e
    exact hv
  have hm := reads_means_list h3 hv
  constructor
  · rintro ⟨-, vs', ss', e, f, g⟩
    rw [h2] at e
    cases e
    have := value_inj (h4.symm.trans g)
    subst this
    exact ⟨hw.1, vs, h2, hm.1 f⟩
  · rintro ⟨-, vs', e, f⟩
    rw [h2] at e
    cases e
    exact ⟨h1, vs, ss, h2, hm.2 f, h4⟩

theorem forall2_iff {α β : Type} {R S : α → β → Prop} {P : β → Prop} {l : List α} {k : List β}
    (h : List.Forall₂ R l k) : (∀ a, ∀ b ∈ k, R a b → (S a b ↔ P b)) →
    (List.Forall₂ S l k ↔ ∀ b ∈ k, P b) := by
  induction h with
  | nil => intro _; exact ⟨fun _ => by simp, fun _ => List.Forall₂.nil⟩
  | cons h1 _ ih =>
    intro hi
    have ih' := ih fun a b hb => hi a b (by simp [hb])
    have h1' := hi _ _ (by simp) h1
    constructor
    · rintro (_ | ⟨a, b⟩) v hv
      rcases List.mem_cons.mp hv with rfl | hv
      · exact h1'.1 a
      · exact ih'.1 b v hv
    · intro hr
      exact List.Forall₂.cons (h1'.2 (hr _ (by simp))) (ih'.2 fun v hv => hr v (by simp [hv]))

theorem carriesObj_iff {o : Object} {r : ObjResult} (hw : ObjWF r) (h : ReadsObj o r) :
    CarriesObj o r ↔ ObjOk r := by
  obtain ⟨h1, h2, h3⟩ := h
  have := forall2_iff (S := CarriesProp) (P := ResultOk) h3
    fun a b hb hab => carriesProp_iff (hw.2.2 b hb) hab
  constructor
  · rintro ⟨-, -, h4⟩
    exact ⟨hw.1, hw.2.1, this.1 h4⟩
  · rintro ⟨-, -, h4⟩
    exact ⟨h1, h2, this.2 h4⟩

/-- C33, exactly: of the conforming acknowledgements without constructed values, those and only
those are decoded to what they mean, without an error, in which every object has results and all
results are readable values (C71). -/
theorem C33_exact (rs : List ObjResult) (h : ∀ r ∈ rs, ObjSound r) :
    (∃ objects, List.Forall₂ CarriesObj objects rs ∧
      Decodes (rs.flatMap ObjResult.octets) objects none) ↔ ∀ r ∈ rs, ObjOk r := by
  refine ⟨?_, fun h => C33_complete_partial rs h⟩
  rintro ⟨objects, h1, h2⟩
  obtain ⟨objects', h3, h4⟩ := C33_verdict rs h
  obtain ⟨rfl, he⟩ := (C135_verdict _).2.2.2 _ _ _ _ h2 h4
  have hn := List.findSome?_eq_none_iff.1 he.symm
  rw [takeWhile_all objError rs hn] at h3
  exact (forall2_iff (S := CarriesObj) (P := ObjOk) h3 fun a b hb hab => carriesObj_iff (objWF_of (h b hb) (hn b hb)) hab).1 h1

/-- A date, an object with an error and one without results: the first object is decoded (with the
wrong year), the error is returned, the rest is lost. -/
def C33_sample' : List ObjResult :=
  [⟨0, 1, [(⟨85, none⟩, .values [.date 124 1 31 3])]⟩,
   ⟨0, 2, [(⟨85, none⟩, .values [.real 0]), (⟨86, none⟩, .error 2 32)]⟩, ⟨0, 3, []⟩]

theorem C33_sample'_sound : ∀ r ∈ C33_sample', ObjSound r := by
  simp only [C33_sample', List.mem_cons, List.not_mem_nil, or_false]
  rintro r (rfl | rfl | rfl)
  · refine ⟨by decide, ?_⟩
    simp only [List.mem_cons, List.not_mem_nil, or_false]
    rintro x rfl
    refine ⟨⟨by decide, by simp⟩, ?_, nofun⟩
    rintro vs ⟨⟩ v hv
    simp only [List.mem_cons, List.not_mem_nil, or_false] at hv
    subst hv
    trivial
  · refine ⟨by decide, ?_⟩
    simp only [List.mem_cons, List.not_mem_nil, or_false]
    rintro x (rfl | rfl)
    · refine ⟨⟨by decide, by simp⟩, ?_, nofun⟩
      rintro vs ⟨⟩ v hv
      simp only [List.mem_cons, List.not_mem_nil, or_false] at hv
      subst hv
      trivial
    · refine ⟨⟨by decide, by simp⟩, nofun, ?_⟩
      rintro c k ⟨⟩
      decide
  · exact ⟨by decide, by simp⟩

example : C33_sample'.findSome? objError = some (.accessError 2 32) ∧
    (C33_sample'.takeWhile fun r => (objError r).isNone) = C33_sample'.take 1 := by decide +kernel

/-! ## C78: what a call makes of a conforming answer -/

theorem readMulti_answered (my : Address) (dev : Device) (hmy : my.net = 0) (os : List Object)
    (hv : ∀ o ∈ os, C04_Valid o.id) (id : UInt8)
    (hfit : (readMultiPack dev id os).length ≤ dev.maxApdu.toNat) (body : List UInt8)
    (out : List Object) (err : Option GoErr) (hd : Decodes body out err) :
    ∃ N, ∀ fuel ≥ N, ∀ script : Nat → Attempt,
      (∀ i < 2, script i = ⟨none, (Delivered.apdu (Spec.complexAck id 14 body)).toRecv⟩) →
      clientReadMulti fuel my dev os (some id) script = err.elim
        ([datagram dev.addr.setLength (readMultiPack dev id os)], .ok (.ok out))
        fun e => (List.replicate 2 (datagram dev.addr.setLength (readMultiPack dev id os)),
            .ok (.error (.failed (.decode e)))) := by
  obtain ⟨N, hN⟩ := hd
  refine ⟨N, fun fuel hfuel script hs => ?_⟩
  have h0 : dev.maxApdu ≠ 0 := by
    intro hc
    rw [hc] at hfit
    simp [readMultiPack, Spec.readMultiple, Spec.request, Spec.confirmedHeader] at hfit
  have hk : ¬ dev.maxApdu < UInt32.ofNat (readMultiPack dev id os).length := by
    have := dev.maxApdu.toNat_lt
    rw [UInt32.lt_iff_toNat_lt, UInt32.toNat_ofNat_of_lt' (by show (readMultiPack dev id os).length < 2 ^ 32; omega)]
    omega
  obtain ⟨d', hd'⟩ := hN fuel hfuel (some 14)
  have s0 := hs 0 (by decide)
  have s1 := hs 1 (by decide)
  rw [readMulti_call fuel my dev os id script hmy hv h0, if_neg hk]
  cases err with
  | none =>
    rw [attempts_done (r := .ok out) (by rw [s0]) (by
      rw [s0]
      simp only [Delivered.toRecv, readMultiStep, Spec.complexAck]
      rw [answerHeader_ack 0x30 id 14 (Or.inl rfl)]
      simp only [Outcome.ok_bind, hd']
      rfl)]
    rfl
  | some e =>
    have hstep : readMultiStep fuel (Delivered.apdu (Spec.complexAck id 14 body)).toRecv
        = .ok (.retry (.decode e)) := by
      simp only [Delivered.toRecv, readMultiStep, Spec.complexAck]
      rw [answerHeader_ack 0x30 id 14 (Or.inl rfl)]
      simp only [Outcome.ok_bind, hd']
      rfl
    rw [attempts_retry (e := .decode e) (by rw [s0]) (by rw [s0]; exact hstep),
      attempts_retry (e := .decode e) (by rw [s1]) (by rw [s1]; exact hstep)]
    rfl

/-- C78, completely, for ReadPropertyMultiple: what a call makes of the conforming answer `rs`
(without constructed values) of a device that answers every request with it.  If every object has
results and none is an error, the call returns them, each value as `Dec.appData` reads it; else
the request is sent twice and the call fails, with all the values lost. -/
theorem C78_readMulti_verdict (src : Address) (pending : UInt8 → Bool) (h : NetHeader) (hok : h.Ok)
    (f : UInt8) (hf : f = 10 ∨ f = 11) (id : UInt8) (my : Address) (dev : Device) (hmy : my.net = 0)
    (os : List Object) (hv : ∀ o ∈ os, C04_Valid o.id)
    (hfit : (readMultiPack dev id os).length ≤ dev.maxApdu.toNat)
    (rs : List ObjResult) (hrs : ∀ r ∈ rs, ObjSound r) :
    ∃ d N, handleMsg src pending (Spec.frame f (h.octets ++ Spec.complexAck id 14
        (rs.flatMap ObjResult.octets))) = ([.deliver id d], .ok ()) ∧
      ∀ fuel ≥ N, ∀ script : Nat → Attempt, (∀ i < 2, script i = ⟨none, d.toRecv⟩) →
        (rs.findSome? objError = none → ∃ out, List.Forall₂ ReadsObj out rs ∧
          clientReadMulti fuel my dev os (some id) script =
            ([datagram dev.addr.setLength (readMultiPack dev id os)], .ok (.ok out))) ∧
        ∀ e, rs.findSome? objError = some e → clientReadMulti fuel my dev os (some id) script =
            (List.replicate 2 (datagram dev.addr.setLength (readMultiPack dev id os)),
              .ok (.error (.failed (.decode e)))) := by
  obtain ⟨out, h1, h2⟩ := C33_verdict rs hrs
  obtain ⟨N, hN⟩ := readMulti_answered my dev hmy os hv id hfit _ _ _ h2
  refine ⟨_, N, (C72_acks src pending h hok f hf id 14 _).2, fun fuel hfuel script hs => ⟨?_, ?_⟩⟩
  · intro hn
    have hc := hN fuel hfuel script hs
    rw [hn] at hc
    rw [takeWhile_all objError rs (List.findSome?_eq_none_iff.1 hn)] at h1
    exact ⟨out, h1, hc⟩
  · intro e he
    have hc := hN fuel hfuel script hs
    rw [he] at hc
    exact hc

/-- C78, exactly, for ReadPropertyMultiple: the call returns what the answer means if and only if
every object has results and all of them are readable values. -/
theorem C78_readMulti_exact (src : Address) (pending : UInt8 → Bool) (h : NetHeader) (hok : h.Ok)
    (f : UInt8) (hf : f = 10 ∨ f = 11) (id : UInt8) (my : Address) (dev : Device) (hmy : my.net = 0)
    (os : List Object) (hv : ∀ o ∈ os, C04_Valid o.id)
    (hfit : (readMultiPack dev id os).length ≤ dev.maxApdu.toNat)
    (rs : List ObjResult) (hrs : ∀ r ∈ rs, ObjSound r) :
    ∃ d N, handleMsg src pending (Spec.frame f (h.octets ++ Spec.complexAck id 14
        (rs.flatMap ObjResult.octets))) = ([.deliver id d], .ok ()) ∧
      ∀ fuel ≥ N, ∀ script : Nat → Attempt, (∀ i < 2, script i = ⟨none, d.toRecv⟩) →
        ((∃ out, List.Forall₂ CarriesObj out rs ∧
          (clientReadMulti fuel my dev os (some id) script).2 = .ok (.ok out)) ↔
          ∀ r ∈ rs, ObjOk r) := by
  obtain ⟨d, N, h1, h2⟩ := C78_readMulti_verdict src pending h hok f hf id my dev hmy os hv hfit rs hrs
  refine ⟨d, N, h1, fun fuel hfuel script hs => ?_⟩
  obtain ⟨h3, h4⟩ := h2 fuel hfuel script hs
  cases he : rs.findSome? objError with
  | none =>
    obtain ⟨out, h5, h6⟩ := h3 he
    have hn := List.findSome?_eq_none_iff.1 he
    have hiff := forall2_iff (S := CarriesObj) (P := ObjOk) h5
      fun a b hb hab => carriesObj_iff (objWF_of (hrs b hb) (hn b hb)) hab
    rw [h6, ← hiff]
    constructor
    · rintro ⟨out', h7, h8⟩
      cases h8
      exact h7
    · exact fun h7 => ⟨out, h7, rfl⟩
  | some e =>
    rw [h4 e he]
    constructor
    · rintro ⟨out, -, h8⟩
      cases h8
    · intro hall
      exfalso
      obtain ⟨out, h7, h8⟩ := C33_complete_partial rs hall
      obtain ⟨out', h9, h10⟩ := C33_verdict rs hrs
      have := ((C135_verdict _).2.2.2 _ _ _ _ h8 h10).2
      rw [he] at this
      cases this

theorem readProperty_reads (id : ObjectID) (p : Property) (vs : List AppVal) (hid : C04_Valid id)
    (hv : ∀ v ∈ vs, v.WF) (fuel : Nat) (hf : vs.length < fuel) (p0 : Option UInt8) :
    ∃ ss d, List.Forall₂ Reads ss vs ∧ (Dec.readProperty fuel ⟨Spec.readPropertyAckBody id.typ.toNat
        id.inst.toNat p.ref (vs.flatMap AppVal.encoding), p0, none⟩
      = .ok (({ object := { id := id, properties := [⟨p.typ, p.arrayIndex,
        if ss.length = 1 then .one ss.head! else .many ss, 0⟩] } }, none), d)) ∧ d.err = none := by
  obtain ⟨l, h1, _, h2, h3, h4⟩ := reads_list vs hv
  obtain ⟨q, m, h⟩ := Dec.readProperty_head fuel id p.typ
    ((if p.arrayIndex = arrayAll then [] else Spec.ctxUnsigned 2 p.arrayIndex.toNat) ++
      (Spec.openTag 3 ++ (l.flatMap Prod.fst ++ [0x3F]))) hid p0
  obtain ⟨q', h'⟩ := Dec.readPropertyTail_values fuel id p.typ p.arrayIndex m 0x3F l h1
    (by omega) q
  refine ⟨l.map Prod.snd, ⟨[0x3F], q', none⟩, h4, ?_, rfl⟩
  have e : Spec.readPropertyAckBody id.typ.toNat id.inst.toNat p.ref (vs.flatMap AppVal.encoding)
      = Spec.ctxObjectId 0 id.typ.toNat id.inst.toNat ++ (Spec.ctxUnsigned 1 p.typ.toNat ++
        ((if p.arrayIndex = arrayAll then [] else Spec.ctxUnsigned 2 p.arrayIndex.toNat) ++
      (Spec.openTag 3 ++ (l.flatMap Prod.fst ++ [0x3F])))) := by
    unfold Spec.readPropertyAckBody
    rw [ref_octets, h2]
    simp only [List.append_assoc]
    rfl
  rw [e]
  refine h.trans (h'.trans ?_)
  rcases l.map Prod.snd with _ | ⟨a, _ | ⟨b, r⟩⟩
  · rfl
  · rfl
  · simp only [unlist, List.length_cons, Nat.add_eq_right, Nat.add_eq_zero_iff]
    simp

/-- C78, exactly, for ReadProperty: the call returns what the answer means if and only if its values
are readable (C71); otherwise it returns other values, with no error. -/
theorem C78_read_exact (src : Address) (pending : UInt8 → Bool) (h : NetHeader) (hok : h.Ok)
    (f : UInt8) (hf : f = 10 ∨ f = 11) (id : UInt8) (my : Address) (dev : Device) (hmy : my.net = 0)
    (rp : PropertyData) (p : Property) (hv : ValidRead rp p) (vs : List AppVal)
    (hvs : ∀ v ∈ vs, v.WF) (fuel : Nat) (hfuel : vs.length < fuel) :
    ∃ d out ss, handleMsg src pending (Spec.frame f (h.octets ++ Spec.complexAck id 12
        (Spec.readPropertyAckBody rp.object.id.typ.toNat rp.object.id.inst.toNat p.ref (vs.flatMap AppVal.encoding))))
        = ([.deliver id d], .ok ()) ∧
      (∀ script, script 0 = ⟨none, d.toRecv⟩ →
        (clientReadProperty fuel my dev rp (some id) script).2 = .ok (.ok out)) ∧
      out.object.id = rp.object.id ∧ out.object.properties = [⟨p.typ, p.arrayIndex,
        if ss.length = 1 then .one ss.head! else .many ss, 0⟩] ∧
      (List.Forall₂ Means ss vs ↔ ∀ v ∈ vs, C71_Readable v) := by
  obtain ⟨ss, d', h1, h2, h3⟩ := readProperty_reads rp.object.id p vs hv.1 hvs fuel hfuel (some 12)
  refine ⟨_, { object := { id := rp.object.id, properties := [⟨p.typ, p.arrayIndex,
    if ss.length = 1 then .one ss.head! else .many ss, 0⟩] } }, ss,
    (C72_acks src pending h hok f hf id 12 _).2, ?_, rfl, rfl, reads_means_list h1 hvs⟩
  intro script hs
  rw [readProperty_call fuel my dev rp p id script hmy hv]
  rw [attempts_done (r := .ok _) (by rw [hs]) (by
    rw [hs]
    simp only [Delivered.toRecv, readStep, readAnswer, Spec.complexAck]
    rw [answerHeader_ack 0x30 id 12 (Or.inl rfl)]
    simp only [Outcome.ok_bind, h2, h3]
    rfl)]

/-- A property that is a date is read, without an error, as something else. -/
example : ∃ d out ss, handleMsg {} (fun _ => true) (Spec.frame 10 ((Spec.requestHeader none).octets ++
      Spec.complexAck 3 12 (Spec.readPropertyAckBody 6 1 ⟨56, none⟩
        ([AppVal.date 124 1 31 3].flatMap AppVal.encoding)))) = ([.deliver 3 d], .ok ()) ∧
    (∀ script, script 0 = ⟨none, d.toRecv⟩ → (clientReadProperty 9 {} {}
      { object := { id := ⟨6, 1⟩, properties := [⟨56, arrayAll, .one .nil, 0⟩] } } (some 3) script).2
        = .ok (.ok out)) ∧
    out.object.properties = [⟨56, arrayAll, if ss.length = 1 then .one ss.head! else .many ss, 0⟩] ∧
    ¬ List.Forall₂ Means ss [AppVal.date 124 1 31 3] := by
  obtain ⟨d, out, ss, h1, h2, -, h4, h5⟩ := C78_read_exact {} (fun _ => true) (Spec.requestHeader none)
    ⟨rfl, by decide, nofun, nofun⟩ 10 (.inl rfl) 3 {} {} rfl
    { object := { id := ⟨6, 1⟩, properties := [⟨56, arrayAll, .one .nil, 0⟩] } } ⟨56, arrayAll, .one .nil, 0⟩
    ⟨⟨by decide, by decide⟩, ⟨[], rfl⟩, by decide⟩ [.date 124 1 31 3] (by simp [AppVal.WF]) 9 (by decide)
  exact ⟨d, out, ss, h1, h2, h4, fun hm => (h5.1 hm (.date 124 1 31 3) (by simp)).2⟩

/-- The sample above, asked of a device with limit 480. -/
example : ∃ d N, handleMsg {} (fun _ => true) (Spec.frame 10 ((Spec.requestHeader none).octets ++
      Spec.complexAck 3 14 (C33_sample'.flatMap ObjResult.octets))) = ([.deliver 3 d], .ok ()) ∧
    ∀ fuel ≥ N, (clientReadMulti fuel {} { maxApdu := 480 } [{ id := ⟨0, 1⟩, properties := [⟨85, arrayAll, .one .nil, 0⟩] }]
      (some 3) fun _ => ⟨none, d.toRecv⟩).2 = .ok (.error (.failed (.decode (.accessError 2 32)))) := by
  obtain ⟨d, N, h1, h2⟩ := C78_readMulti_verdict {} (fun _ => true) (Spec.requestHeader none)
    ⟨rfl, by decide, nofun, nofun⟩ 10 (.inl rfl) 3 {} { maxApdu := 480 } rfl
    [{ id := ⟨0, 1⟩, properties := [⟨85, arrayAll, .one .nil, 0⟩] }]
    (by simp [C04_Valid]) (by decide +kernel) C33_sample' C33_sample'_sound
  refine ⟨d, N, h1, fun fuel hfuel => ?_⟩
  rw [(h2 fuel hfuel _ fun _ _ => rfl).2 (.accessError 2 32) (by decide +kernel)]

end Bac.Props
