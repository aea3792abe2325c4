import Verif.Props.ObjectScan
/-!
# C56, C57, C91: exactly which objects are asked about, what they are named, and which answers crash
-/

namespace Bac.Props
open Bac
open Spec (Inventory)

/-! ## C56 exactly -/

theorem infoObjects_filter (g : List Object) : infoObjects g = (g.filter fun o => decide (o.id.typ.toNat ≤ 128)).map Object.id := by
  unfold infoObjects
  congr 1
  refine List.filter_congr fun o _ => ?_
  have e : (o.id.typ > 128) ↔ 128 < o.id.typ.toNat := Iff.rfl
  by_cases h : o.id.typ.toNat ≤ 128
  · rw [decide_eq_true h, decide_eq_false (fun hc => by have := e.1 hc; omega)]; rfl
  · rw [decide_eq_false h, decide_eq_true (e.2 (by omega))]; rfl

/-- C56, exactly: whatever the device answers, and whatever the types are, the objects asked about are the first of those of
types up to 128, in order and each once; all of them, if no error occurs; in groups of up to five. -/
theorem C56_exact (net : MultiReader) (objs : List Object) (reqs : List (List Object)) (m : ObjectMap) :
    ∃ made, (allObjectInformation net objs reqs m).requests = reqs ++ made ∧
      (∃ rest, made.flatten.map Object.id ++ rest = (objs.filter fun o => decide (o.id.typ.toNat ≤ 128)).map Object.id) ∧
      ((allObjectInformation net objs reqs m).result = .ok (.ok ()) →
        made.flatten.map Object.id = (objs.filter fun o => decide (o.id.typ.toNat ≤ 128)).map Object.id) ∧
      ∀ req ∈ made, req.length ≤ 5 := by
  obtain ⟨n, hn, _, h1, h2⟩ := infoGroups_requests net (groupsOf objs.length objs) reqs m
  have hfl := groupsOf_flatten objs.length objs (Nat.le_refl _)
  have hids : ∀ gs : List (List Object), (gs.map fun g => (infoObjects g).map infoRequest).flatten.map Object.id =
      (gs.flatten.filter fun o => decide (o.id.typ.toNat ≤ 128)).map Object.id := by
    intro gs
    rw [List.filter_flatten, List.map_flatten, List.map_flatten, List.map_map, List.map_map]
    congr 1
    refine List.map_congr_left fun g _ => ?_
    simp only [Function.comp, List.map_map, infoObjects_filter]
    exact List.map_congr_left fun o _ => rfl
  refine ⟨(List.take n (groupsOf objs.length objs)).map fun g => (infoObjects g).map infoRequest, h1, ?_, ?_, ?_⟩
  · refine ⟨((((groupsOf objs.length objs).drop n).flatten).filter fun o => decide (o.id.typ.toNat ≤ 128)).map Object.id, ?_⟩
    rw [hids, ← List.map_append, ← List.filter_append, ← List.flatten_append, List.take_append_drop, hfl]
  · intro hr
    rw [h2 hr, List.take_length, hids, hfl]
  · intro req hreq
    obtain ⟨g, hg, rfl⟩ := List.mem_map.1 hreq
    have hsz := groupsOf_size _ _ g (List.mem_of_mem_take hg)
    rw [infoObjects_filter, List.length_map, List.length_map]
    exact Nat.le_trans (List.length_filter_le ..) hsz.2

/-- Of three objects the one in the middle is not asked about. -/
example : (allObjectInformation (fun _ req => .ok (.ok (Inventory.answer ⟨[], fun id => [id.inst.toUInt8], fun _ => []⟩ req)))
      [{ id := ⟨0, 1⟩ }, { id := ⟨129, 7⟩ }, { id := ⟨128, 2⟩ }] []
      [(0, [(1, { id := ⟨0, 1⟩ })]), (129, [(7, { id := ⟨129, 7⟩ })]), (128, [(2, { id := ⟨128, 2⟩ })])]).requests =
    [[infoRequest ⟨0, 1⟩, infoRequest ⟨128, 2⟩]] := by decide +kernel

/-! ## C57 exactly -/

theorem function_of_list {κ β : Type} [DecidableEq κ] (ks : List κ) (hn : ks.Nodup) (l : List β) (hl : l.length = ks.length)
    (b : β) : ∃ f : κ → β, ks.map f = l := by
  induction ks generalizing l with
  | nil => exact ⟨fun _ => b, by rw [List.length_eq_zero_iff.1 hl]; rfl⟩
  | cons k ks ih =>
    cases l with
    | nil => cases hl
    | cons x l =>
      obtain ⟨hk, hn⟩ := List.nodup_cons.1 hn
      obtain ⟨f, hf⟩ := ih hn l (Nat.succ.inj hl)
      refine ⟨fun y => if y = k then x else f y, ?_⟩
      rw [List.map_cons, if_pos rfl, ← hf]
      congr 1
      refine List.map_congr_left fun y hy => ?_
      show (if y = k then x else f y) = f y
      exact if_neg fun e : y = k => hk (e ▸ hy)

/-- C57, exactly: the answer has two texts for each object asked about.  Then every object gets its own name and description
if and only if the texts come in the order of the request; the identifiers in the answer do not matter. -/
theorem C57_exact (ks extra : List ObjectID) (hn : ks.Nodup) (m : ObjectMap) (hw : m.WF) (hk : ∀ k ∈ ks, (m.find k).isSome)
    (resp : List Object) (hl : resp.length = ks.length)
    (hr : ∀ r ∈ resp, ∃ n d, r.properties.map Property.data = [.one (.str n), .one (.str d)])
    (name description : ObjectID → List UInt8) :
    ∃ m', infoLoop resp (ks ++ extra) m = (m', .ok (.ok ())) ∧
      ((∀ k ∈ ks, (m'.find k).map (fun o => (o.name, o.description)) = some (name k, description k)) ↔
        resp.map (fun o => o.properties.map Property.data) =
          ks.map fun k => [.one (.str (name k)), .one (.str (description k))]) := by
  obtain ⟨texts, ht⟩ : ∃ texts : List (List UInt8 × List UInt8), resp.map (fun o => o.properties.map Property.data) =
      texts.map fun t => [.one (.str t.1), .one (.str t.2)] := by
    clear hl
    induction resp with
    | nil => exact ⟨[], rfl⟩
    | cons r resp ih =>
      obtain ⟨texts, ht⟩ := ih fun x hx => hr x (List.mem_cons_of_mem _ hx)
      obtain ⟨n, d, e⟩ := hr r List.mem_cons_self
      exact ⟨(n, d) :: texts, by rw [List.map_cons, List.map_cons, ht, e]⟩
  have hlen : texts.length = ks.length := by
    have := congrArg List.length ht
    rw [List.length_map, List.length_map] at this
    omega
  obtain ⟨f, hf⟩ := function_of_list ks hn texts hlen ([], [])
  rw [← hf, List.map_map] at ht
  obtain ⟨m', h1, _, h2⟩ := infoLoop_answers (fun k => (f k).1) (fun k => (f k).2) ks m extra resp hw hk ht
  refine ⟨m', h1, ?_⟩
  rw [ht]
  constructor
  · intro h
    refine List.map_congr_left fun k hkm => ?_
    have := h k hkm
    obtain ⟨o, ho⟩ := Option.isSome_iff_exists.1 (hk k hkm)
    rw [h2, if_pos hkm, ho] at this
    simp only [Option.map_some, Object.named, Option.some.injEq, Prod.mk.injEq] at this
    simp only [Function.comp, this]
  · intro h k hkm
    obtain ⟨o, ho⟩ := Option.isSome_iff_exists.1 (hk k hkm)
    rw [h2, if_pos hkm, ho]
    have := List.map_inj_left.1 h k hkm
    simp only [Function.comp, List.cons.injEq, Value.one.injEq, Scalar.str.injEq, and_true] at this
    simp only [Option.map_some, Object.named, this]

/-- Two objects, the answers in the other order: each gets the name of the other. -/
example : (infoLoop [{ id := ⟨0, 2⟩, properties := [{ data := .one (.str [66]) }, { data := .one (.str []) }] },
      { id := ⟨0, 1⟩, properties := [{ data := .one (.str [65]) }, { data := .one (.str []) }] }] [⟨0, 1⟩, ⟨0, 2⟩]
      [(0, [(1, { id := ⟨0, 1⟩ }), (2, { id := ⟨0, 2⟩ })])]).1 =
    [(0, [(1, { id := ⟨0, 1⟩, name := [66] }), (2, { id := ⟨0, 2⟩, name := [65] })])] := by decide +kernel

/-! ## C91 exactly -/

/-- An entry of an answer with two texts. -/
def C91_Named (r : Object) : Prop :=
  ∃ p q l n d, r.properties = p :: q :: l ∧ p.data = .one (.str n) ∧ q.data = .one (.str d)

/-- An entry without any result, or with a text as its only one. -/
def C91_Short (r : Object) : Prop := r.properties = [] ∨ ∃ p n, r.properties = [p] ∧ p.data = .one (.str n)

theorem asString_some {v : Value} {n : List UInt8} (h : v.asString = some n) : v = .one (.str n) := by
  unfold Value.asString at h
  split at h
  · obtain rfl := Option.some.inj h; rfl
  · cases h

theorem infoLoop_named (r : Object) (rs : List Object) (k : ObjectID) (ks : List ObjectID) (m : ObjectMap) (hr : C91_Named r)
    (hk : HasType m k) : ∃ m', infoLoop (r :: rs) (k :: ks) m = infoLoop rs ks m' ∧ ∀ x, HasType m x → HasType m' x := by
  obtain ⟨p, q, l, n, d, e, hp, hq⟩ := hr
  obtain ⟨m', h1, h2⟩ := setInfo_returns hk n d
  refine ⟨m', ?_, h2⟩
  rw [infoLoop]
  simp only [e, hp, hq, Value.asString, h1]

/-- C91, exactly which answers to a question about objects crash: those in which some entry, after entries with two texts
each, has no result or one text only; and those that after such entries for all objects asked about have one more. -/
theorem C91_exact (resp : List Object) : ∀ (keys : List ObjectID) (m : ObjectMap), (∀ k ∈ keys, HasType m k) →
    ((infoLoop resp keys m).2.Panics ↔ ∃ pre r post, resp = pre ++ r :: post ∧ (∀ x ∈ pre, C91_Named x) ∧
      (C91_Short r ∧ pre.length ≤ keys.length ∨ C91_Named r ∧ pre.length = keys.length)) := by
  induction resp with
  | nil =>
    intro keys m _
    constructor
    · intro h; cases h
    · rintro ⟨pre, r, post, h, _⟩
      cases pre <;> cases h
  | cons o resp ih =>
    intro keys m hk
    -- an entry that ends the loop without a crash
    have stop (h1 : ¬ C91_Named o) (h2 : ¬ C91_Short o) : ¬ ∃ pre r post, o :: resp = pre ++ r :: post ∧ (∀ x ∈ pre, C91_Named x) ∧
        (C91_Short r ∧ pre.length ≤ keys.length ∨ C91_Named r ∧ pre.length = keys.length) := by
      rintro ⟨pre, r, post, e, h3, h4⟩
      cases pre with
      | nil =>
        injection e with e
        subst e
        rcases h4 with h | h
        · exact h2 h.1
        · exact h1 h.1
      | cons x pre =>
        injection e with e
        subst e
        exact h1 (h3 _ List.mem_cons_self)
    by_cases hs : C91_Short o
    · refine iff_of_true ?_ ⟨[], o, resp, rfl, nofun, Or.inl ⟨hs, Nat.zero_le _⟩⟩
      rw [infoLoop]
      rcases hs with e | ⟨p, n, e, hp⟩
      · rw [e]; trivial
      · rw [e]; simp only [hp, Value.asString]; trivial
    · by_cases hg : C91_Named o
      · cases keys with
        | nil =>
          refine iff_of_true ?_ ⟨[], o, resp, rfl, nofun, Or.inr ⟨hg, rfl⟩⟩
          obtain ⟨p, q, l, n, d, e, hp, hq⟩ := hg
          rw [infoLoop, e]
          simp only [hp, hq, Value.asString]
          trivial
        | cons k ks =>
          obtain ⟨m', e, hm'⟩ := infoLoop_named o resp k ks m hg (hk k List.mem_cons_self)
          rw [e, ih ks m' fun x hx => hm' x (hk x (List.mem_cons_of_mem _ hx))]
          constructor
          · rintro ⟨pre, r, post, rfl, h1, h2⟩
            refine ⟨o :: pre, r, post, rfl, ?_, ?_⟩
            · intro x hx
              rcases List.mem_cons.1 hx with rfl | hx
              · exact hg
              · exact h1 x hx
            · simpa only [List.length_cons, Nat.add_le_add_iff_right, Nat.add_right_cancel_iff] using h2
          · rintro ⟨pre, r, post, e, h1, h2⟩
            cases pre with
            | nil =>
              injection e with e
              subst e
              rcases h2 with h | h
              · exact absurd h.1 hs
              · cases h.2
            | cons x pre =>
              injection e with e e'
              subst e
              refine ⟨pre, r, post, e', fun y hy => h1 y (List.mem_cons_of_mem _ hy), ?_⟩
              simpa only [List.length_cons, Nat.add_le_add_iff_right, Nat.add_right_cancel_iff] using h2
      · refine iff_of_false ?_ (stop hg hs)
        rw [infoLoop]
        match hp : o.properties with
        | [] => exact absurd (Or.inl hp) hs
        | [p] =>
          simp only
          cases hd : p.data.asString with
          | none => exact fun h => h
          | some n => exact absurd (Or.inr ⟨p, n, hp, asString_some hd⟩) hs
        | p :: q :: l =>
          simp only
          cases hd : p.data.asString with
          | none => exact fun h => h
          | some n =>
            simp only
            cases hd' : q.data.asString with
            | none => exact fun h => h
            | some d => exact absurd ⟨p, q, l, n, d, hp, asString_some hd, asString_some hd'⟩ hg

/-- Two objects asked about; the second entry of the answer has the name only. -/
example : ∃ pre r post, [({ properties := [{ data := .one (.str [65]) }, { data := .one (.str []) }] } : Object),
      { properties := [{ data := .one (.str [66]) }] }] = pre ++ r :: post ∧ (∀ x ∈ pre, C91_Named x) ∧
    (C91_Short r ∧ pre.length ≤ [(⟨0, 1⟩ : ObjectID), ⟨0, 2⟩].length ∨ C91_Named r ∧ pre.length = 2) :=
  ⟨[_], _, [], rfl, fun x hx => by
    rw [List.mem_singleton] at hx
    subst hx
    exact ⟨_, _, [], [65], [], rfl, rfl, rfl⟩, Or.inl ⟨Or.inr ⟨_, [66], rfl, rfl⟩, by decide⟩⟩

end Bac.Props
