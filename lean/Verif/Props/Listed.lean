import Verif.Props.Lost
/-!
# C68: exactly which answers about single elements crash the program, and lists read after a Who-Is
-/

namespace Bac.Props
open Bac
open Spec (AppVal)

theorem N.bind_diverge {α β : Type} {m : N α} {f : α → N β} {c c' : Calls}
    (h : m c = (c', .diverge)) : (m >>= f) c = (c', .diverge) := by
  show (match m c with | (c, .ok a) => f a c | (c, .panic k) => (c, .panic k) | (c, .diverge) => (c, .diverge)) = _
  rw [h]

/-- What is read of an element, by the values sent for it. -/
theorem element_decoded {out : PropertyData} {ss : List Scalar} {vs : List AppVal} {prop idx : UInt32}
    (h : List.Forall₂ DecodedAs ss vs) (ho : out.object.properties = [⟨prop, idx, shape ss, 0⟩]) :
    (∃ t i id, vs = [.objId t i] ∧ elementID out = .ok id) ∨
    ((∀ t i, vs ≠ [.objId t i]) ∧ elementID out = .panic .typeAssertion) := by
  unfold elementID
  rw [ho]
  by_cases hl : ss.length = 1
  · obtain ⟨s, rfl⟩ := List.length_eq_one_iff.mp hl
    cases h with
    | @cons _ v _ _ hd hnil =>
      cases hnil
      obtain ⟨hm, -⟩ := hd
      show (∃ t i id, [v] = [.objId t i] ∧ asObjectID s = .ok id) ∨ ((∀ t i, [v] ≠ [.objId t i]) ∧ asObjectID s = .panic .typeAssertion)
      cases v <;> simp only [Spec.Means] at hm
      case objId t i => obtain ⟨id, rfl, -⟩ := hm; exact .inl ⟨t, i, id, rfl, rfl⟩
      case unsigned => obtain ⟨x, rfl, -⟩ := hm; exact .inr ⟨by simp, rfl⟩
      case signed => obtain ⟨x, rfl, -⟩ := hm; exact .inr ⟨by simp, rfl⟩
      case bits => obtain ⟨x, rfl, -⟩ := hm; exact .inr ⟨by simp, rfl⟩
      case enum => obtain ⟨x, rfl | rfl, -⟩ := hm <;> exact .inr ⟨by simp, rfl⟩
      all_goals subst hm; exact .inr ⟨by simp, rfl⟩
  · refine .inr ⟨fun t i he => hl ?_, by rw [shape_many hl]⟩
    rw [h.length_eq, he]; rfl

theorem builderLoop_panics (w : Wire) (hmy : w.my.net = 0) (d : NetDevice) (inst : UInt32) (hinst : inst.toNat < 2 ^ 22)
    (vss : List (List AppVal)) : ∀ (i : Nat) (c : Calls), (∀ vs ∈ vss, (∀ v ∈ vs, C71_Readable v) ∧ vs.length < w.fuel) →
    (∀ (k : Nat) vs, vss[k]? = some vs → Answered w (c.length + k) (listObject inst (UInt32.ofNat (i + k))) vs) →
    ((builderLoop w.reader d inst vss.length i c).2.Panics ↔ ∃ vs ∈ vss, ∀ t i, vs ≠ [.objId t i]) := by
  induction vss with
  | nil => intro i c _ _; exact ⟨fun h => h.elim, fun ⟨_, h, _⟩ => by cases h⟩
  | cons vs vss ih =>
    intro i c hv h
    obtain ⟨hv1, hv2⟩ := hv vs List.mem_cons_self
    obtain ⟨ss, out, h1, -, h3, h4⟩ := read_answered w hmy d _ (list_valid hinst (UInt32.ofNat i)) c vs hv1 hv2 (h 0 vs rfl)
    have e : builderLoop w.reader d inst (vss.length + 1) i c = (N.lift (elementID out) >>= fun id => do
        let ids ← builderLoop w.reader d inst vss.length (i + 1)
        pure (id :: ids)) (c ++ [(d.dev.target, (listObject inst (UInt32.ofNat i)).request)]) := N.bind_ok h4
    rw [List.length_cons, e, List.exists_mem_cons_iff]
    rcases element_decoded h1 h3 with ⟨t, j, id, rfl, hid⟩ | ⟨hne, hid⟩
    · have hi := ih (i + 1) (c ++ [(d.dev.target, (listObject inst (UInt32.ofNat i)).request)])
        (fun x hx => hv x (List.mem_cons_of_mem _ hx)) (fun k x hk => by
          have := h (k + 1) x (by simpa using hk)
          rw [List.length_append, List.length_singleton, Nat.add_assoc, Nat.add_comm 1 k, Nat.add_assoc, Nat.add_comm 1 k]
          exact this)
      have hno : ¬ ∀ t' i', ([.objId t j] : List AppVal) ≠ [.objId t' i'] := fun hx => hx t j rfl
      rw [N.bind_ok (m := N.lift (elementID out)) (by rw [N.lift_apply, hid]), ← hi]
      simp only [hno, false_or]
      rcases hb : builderLoop w.reader d inst vss.length (i + 1)
        (c ++ [(d.dev.target, (listObject inst (UInt32.ofNat i)).request)]) with ⟨c2, x | x | _⟩
      · rw [N.bind_ok hb]; exact Iff.rfl
      · rw [N.bind_panic hb]
      · refine ⟨fun hp => ?_, fun hp => hp.elim⟩
        rw [N.bind_diverge hb] at hp
        exact hp
    · rw [N.bind_panic (m := N.lift (elementID out)) (by rw [N.lift_apply, hid])]
      exact ⟨fun _ => .inl hne, fun _ => trivial⟩

/-- C68, exactly, element by element: when a device refuses the whole list and answers its length and the elements, the program
crashes iff the answer for some element is anything but one object identifier. -/
theorem C68_exact_elements (w : Wire) (hmy : w.my.net = 0) (hf : 1 < w.fuel) (d : NetDevice) (inst : UInt32)
    (hinst : inst.toNat < 2 ^ 22) (vss : List (List AppVal))
    (hv : ∀ vs ∈ vss, (∀ v ∈ vs, C71_Readable v) ∧ vs.length < w.fuel) (hlen : vss.length < 2 ^ 32)
    (c : Calls) (e : CallErr) (hrefuse : w.reader c.length d.dev.target (listObject inst arrayAll).request = .ok (.error e))
    (hcount : Answered w (c.length + 1) (listObject inst 0) [.unsigned vss.length])
    (h : ∀ (k : Nat) vs, vss[k]? = some vs → Answered w (c.length + 2 + k) (listObject inst (UInt32.ofNat (1 + k))) vs) :
    (deviceObjects w.reader d inst none c).2.Panics ↔ ∃ vs ∈ vss, ∀ t i, vs ≠ [.objId t i] := by
  have e1 := read_of w.reader d (listObject inst arrayAll) c (.error e) hrefuse
  obtain ⟨ss, out, h1, -, h3, h4⟩ := read_answered w hmy d _ (list_valid hinst 0)
    (c ++ [(d.dev.target, (listObject inst arrayAll).request)]) [.unsigned vss.length]
    (by intro v hv; rw [List.mem_singleton.mp hv]; exact ⟨hlen, trivial⟩) (by simpa using hf)
    (by rw [List.length_append]; exact hcount)
  have hn : (toUint32 out).toNat = vss.length := by
    cases h1 with
    | cons hd hnil =>
      cases hnil
      obtain ⟨x, hx, hxn⟩ := decoded_unsigned hd
      rw [← hxn]
      refine congrArg UInt32.toNat (toUint32_one h3 ?_)
      rw [hx]; rfl
  have hp := builderLoop_panics w hmy d inst hinst vss 1
    (c ++ [(d.dev.target, (listObject inst arrayAll).request)] ++ [(d.dev.target, (listObject inst 0).request)]) hv
    (by
      intro k x hk
      have := h k x hk
      simp only [List.length_append, List.length_singleton]
      exact this)
  rw [← hp, ← hn]
  have e2 := readObjectList_error e1
  have e3 : deviceObjectsBuilder w.reader d inst (c ++ [(d.dev.target, (listObject inst arrayAll).request)]) =
      (builderLoop w.reader d inst (toUint32 out).toNat 1 >>= fun ids => pure (.ok ids))
        (c ++ [(d.dev.target, (listObject inst arrayAll).request)] ++ [(d.dev.target, (listObject inst 0).request)]) := N.bind_ok h4
  rcases hb : builderLoop w.reader d inst (toUint32 out).toNat 1
    (c ++ [(d.dev.target, (listObject inst arrayAll).request)] ++ [(d.dev.target, (listObject inst 0).request)]) with ⟨c2, x | x | _⟩
  · have : deviceObjects w.reader d inst none c = (c2, .ok (d, .ok x)) :=
      (N.bind_ok (e2.trans (e3.trans ((N.bind_ok hb).trans rfl)))).trans rfl
    rw [this]; exact Iff.rfl
  · have : deviceObjects w.reader d inst none c = (c2, .panic x) := N.bind_panic (e2.trans (e3.trans (N.bind_panic hb)))
    rw [this]; exact Iff.rfl
  · refine ⟨fun hx => ?_, fun hx => hx.elim⟩
    have e5 : deviceObjects w.reader d inst none c = (c2, .diverge) :=
      N.bind_diverge (e2.trans (e3.trans (N.bind_diverge hb)))
    rw [e5] at hx
    exact hx

/-- C68, exactly, with a Who-Is before: a list sent as a whole is returned as it is iff it does not have exactly one entry,
whatever devices were found. -/
theorem C68_exact_whois (w : Wire) (hmy : w.my.net = 0) (d : NetDevice) (inst : UInt32) (hinst : inst.toNat < 2 ^ 22)
    (found : List FoundDevice) (ids : List ObjectID) (hids : ∀ i ∈ ids, C04_Valid i) (hf : ids.length < w.fuel) (c : Calls)
    (h : Answered w c.length (listObject inst arrayAll) (idValues ids)) :
    (∃ c' d', deviceObjects w.reader d inst (some (.ok found)) c = (c', .ok (d', .ok ids))) ↔ ids.length ≠ 1 := by
  have e : deviceObjects w.reader d inst (some (.ok found)) c = deviceObjects w.reader (d.learn inst found) inst none c := rfl
  rw [e]
  refine ⟨fun ⟨c', d', hc⟩ h1 => ?_, fun hl => ?_⟩
  · obtain ⟨i, rfl⟩ := List.length_eq_one_iff.mp h1
    obtain ⟨c'', h2⟩ := C68_fails_single w hmy (d.learn inst found) inst hinst i (hids i List.mem_cons_self) hf c h
    rw [hc] at h2
    injection h2 with _ h2
    injection h2 with h2
    injection h2 with _ h2
    injection h2 with h2
    cases h2
  · obtain ⟨c', hc⟩ := C68_whole_partial w hmy (d.learn inst found) inst hinst ids hids hf hl c h
    exact ⟨c', _, hc⟩

/-- Two elements, the second answered with two identifiers. -/
example : (deviceObjects (exampleReader fun i => if i = 0 then some (.one (.uint 2)) else if i = 1 then some (.one (.objId ⟨8, 9⟩)) else
      if i = 2 then some (.many [.objId ⟨2, 1⟩, .objId ⟨2, 2⟩]) else none) {} 9 none []).2 = .panic .typeAssertion ∧
    (deviceObjects (exampleReader fun _ => some (.many [.objId ⟨8, 9⟩, .objId ⟨2, 1⟩])) {} 9 (some (.ok [{ id := ⟨8, 9⟩, maxApdu := 480 }])) []).2 =
      .ok ({ maxApdu := 480 }, .ok [⟨8, 9⟩, ⟨2, 1⟩]) := by decide +kernel

end Bac.Props
