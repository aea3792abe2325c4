import Verif.Props.EndToEnd
/-!
# C25, C80: exactly which requests are right and which acknowledgements are refused
-/

namespace Bac.Props
open Bac

theorem readProperty_long (invoke : UInt8) (typ inst : Nat) (r : Spec.PropRef) : 4 < (Spec.readProperty invoke typ inst r).length := by
  have h1 : (Spec.request invoke 12).length = 4 := rfl
  have h2 : 0 < (Spec.tagHeader 0 true 4).length := by decide
  simp only [Spec.readProperty, Spec.ctxObjectId, List.length_append, h1]
  omega

/-- C25, exactly: a ReadProperty request is the standard's iff type and property are valid (if not, it is the bare header, and
never an error), and an acknowledgement with a value that can be encoded is refused iff they are not. -/
theorem C25_exact (invoke : UInt8) (data : PropertyData) (p : Property) (bs : List UInt8) (hi : data.object.id.inst.toNat < 2 ^ 22)
    (hp : data.object.properties = [p]) (hv : Enc.new.appData p.data false = .ok (none, ⟨bs, none⟩)) :
    (Enc.new.readProperty invoke data = .ok (⟨Spec.readProperty invoke data.object.id.typ.toNat data.object.id.inst.toNat p.ref, none⟩, none) ↔
      ¬ C25_Invalid data.object) ∧
    ((∃ e err, Enc.new.readPropertyAck invoke data = .ok (e, some err)) ↔ C25_Invalid data.object) := by
  have hne : data.object.properties ≠ [] := by rw [hp]; simp
  by_cases h : C25_Invalid data.object
  · refine ⟨⟨fun he => ?_, fun hn => absurd h hn⟩, ⟨fun _ => h, fun _ => (C25_write_partial invoke data h hne).2⟩⟩
    rw [C25_fails_read invoke data h hne] at he
    have hl := readProperty_long invoke data.object.id.typ.toNat data.object.id.inst.toNat p.ref
    generalize Spec.readProperty invoke data.object.id.typ.toNat data.object.id.inst.toNat p.ref = r at he hl
    simp only [Outcome.ok.injEq, Prod.mk.injEq, Enc.mk.injEq, and_true] at he
    rw [← he] at hl
    exact absurd hl (by simp)
  · have hid : C04_Valid data.object.id := ⟨by
      have : ¬ 1023 < data.object.id.typ.toNat := fun h' => h (.inl h')
      omega, hi⟩
    have hpt : p.typ.toNat ≤ 4194303 := by
      by_contra hc
      exact h (.inr ⟨p, [], hp, by omega⟩)
    refine ⟨⟨fun _ => h, fun _ => ?_⟩, ⟨?_, fun h' => absurd h' h⟩⟩
    · obtain ⟨body, h1, h2, -⟩ := C24_request invoke data p [] hid hp hpt
      rw [h2, h1]
    · rintro ⟨e, err, he⟩
      rw [readPropertyAck_eq invoke data p bs hid hp hpt hv] at he
      simp only [Outcome.ok.injEq, Prod.mk.injEq, reduceCtorEq, and_false] at he

example : Enc.new.readProperty 7 { object := { id := ⟨1023, 5⟩, properties := [{ typ := 85, arrayIndex := arrayAll, data := .one .null }] } } =
      .ok (⟨Spec.readProperty 7 1023 5 ⟨85, none⟩, none⟩, none) ∧
    Enc.new.readProperty 7 { object := { id := ⟨1024, 5⟩, properties := [{ typ := 85, arrayIndex := arrayAll, data := .one .null }] } } =
      .ok (⟨[0, 5, 7, 12], none⟩, none) := by decide +kernel

/-- C80, exactly: a ReadProperty to a device of the own network is sent in any case; what is sent is the standard's request iff
type and property are valid. -/
theorem C80_exact (fuel : Nat) (my : Address) (dev : Device) (rp : PropertyData) (p : Property) (more : List Property) (id : UInt8)
    (script : Nat → Attempt) (hmy : my.net = 0) (hnet : dev.addr.net = 0) (hi : rp.object.id.inst.toNat < 2 ^ 22)
    (hp : rp.object.properties = p :: more) :
    ∃ s, (clientReadProperty fuel my dev rp (some id) script).1 = [s] ∧
      (s.data.drop 6 = Spec.readProperty id rp.object.id.typ.toNat rp.object.id.inst.toNat p.ref ↔ ¬ C25_Invalid rp.object) := by
  have hq : requestOctets dev.addr.setLength = [1, 4] := by
    have : dev.addr.setLength.net = 0 := by unfold Address.setLength; split <;> exact hnet
    simp only [requestOctets, this, if_true]
  have hd : ∀ pack : List UInt8, ∀ e : clientReadProperty fuel my dev rp (some id) script =
      attempts dev.addr.setLength ([1, 4] ++ pack) (readStep fuel) script 1 0 (.failed .noId),
      ∃ s, (clientReadProperty fuel my dev rp (some id) script).1 = [s] ∧ s.data.drop 6 = pack := by
    intro pack e
    obtain ⟨k, hk, hk', hpos⟩ := attempts_sent dev.addr.setLength ([1, 4] ++ pack) (readStep fuel) script 1 0 (.failed .noId)
    have : k = 1 := by have := hpos (by omega); omega
    subst this
    exact ⟨datagram dev.addr.setLength ([1, 4] ++ pack), by rw [e, hk']; rfl, by simp [datagram, be16]⟩
  by_cases h : C25_Invalid rp.object
  · have e : clientReadProperty fuel my dev rp (some id) script =
        attempts dev.addr.setLength ([1, 4] ++ [0, 5, id, 12]) (readStep fuel) script 1 0 (.failed .noId) := by
      unfold clientReadProperty
      simp only [npdu_request my _ hmy, Outcome.ok_bind, readProperty_bare _ id rp h (by rw [hp]; simp), hq]
      rfl
    obtain ⟨s, h1, h2⟩ := hd _ e
    refine ⟨s, h1, fun he => ?_, fun hn => absurd h hn⟩
    have hl := readProperty_long id rp.object.id.typ.toNat rp.object.id.inst.toNat p.ref
    rw [← he, h2] at hl
    exact absurd hl (by simp)
  · have hv : ValidRead rp p := ⟨⟨by
      have : ¬ 1023 < rp.object.id.typ.toNat := fun h' => h (.inl h')
      omega, hi⟩, ⟨more, hp⟩, by
      by_contra hc
      exact h (.inr ⟨p, more, hp, by omega⟩)⟩
    have e := readProperty_call fuel my dev rp p id script hmy hv
    rw [hq] at e
    obtain ⟨s, h1, h2⟩ := hd _ e
    exact ⟨s, h1, fun _ => h, fun _ => h2⟩

example : (clientReadProperty 9 {} { addr := { macLen := 6 } } { object := { id := ⟨1023, 5⟩, properties := [⟨85, arrayAll, .one .null, 0⟩] } }
      (some 7) (fun _ => {})).1.map (·.data.drop 6) = [Spec.readProperty 7 1023 5 ⟨85, none⟩] ∧
    (clientReadProperty 9 {} { addr := { macLen := 6 } } { object := { id := ⟨1024, 5⟩, properties := [⟨85, arrayAll, .one .null, 0⟩] } }
      (some 7) (fun _ => {})).1.map (·.data.drop 6) = [[0, 5, 7, 12]] := by decide +kernel

end Bac.Props
