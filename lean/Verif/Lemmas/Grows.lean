import Verif.Lemmas.System
import Verif.Lemmas.EndToEnd
/-!
# The encoder only appends

Whatever is encoded after the header of a request, the octets of the header stay where they are.
-/

namespace Bac

namespace Enc

/-- Nothing of what was written is changed. -/
def Grows (e e' : Enc) : Prop := e.buf <+: e'.buf

theorem Grows.refl (e : Enc) : Grows e e := List.prefix_refl _

theorem Grows.trans {a b c : Enc} (h : Grows a b) (h' : Grows b c) : Grows a c := List.IsPrefix.trans h h'

theorem grows_write (e : Enc) (bs : List UInt8) : Grows e (e.write bs) := by
  unfold Grows write
  split
  · exact List.prefix_refl _
  · exact List.prefix_append _ _

theorem grows_tagNum (e : Enc) (m n : UInt8) : Grows e (e.tagNum m n) := by
  unfold tagNum
  split
  · exact grows_write _ _
  · exact (grows_write _ _).trans (grows_write _ _)

theorem grows_tag (e : Enc) (t : TagInfo) : Grows e (e.tag t) := by
  unfold tag
  simp only
  have h : ∀ m : UInt8, Grows e (if t.id ≤ 14 then e.write [m ||| (t.id <<< 4)] else (e.write [m ||| 0xF0]).write [t.id]) := by
    intro m
    split
    · exact grows_write _ _
    · exact (grows_write _ _).trans (grows_write _ _)
  split
  · split
    · exact (h _).trans (grows_write _ _)
    · split
      · exact ((h _).trans (grows_write _ _)).trans (grows_write _ _)
      · exact ((h _).trans (grows_write _ _)).trans (grows_write _ _)
  · exact h _

theorem grows_unsigned (e : Enc) (v : UInt32) : Grows e (e.unsigned v) := by
  unfold unsigned unsigned24
  split
  · exact grows_write _ _
  · split
    · exact grows_write _ _
    · split
      · exact ((grows_write _ _).trans (grows_write _ _)).trans (grows_write _ _)
      · exact grows_write _ _

theorem grows_contextUnsigned (e : Enc) (t : UInt8) (v : UInt32) : Grows e (e.contextUnsigned t v) :=
  (grows_tag _ _).trans (grows_unsigned _ _)

theorem grows_contextObjectID (e : Enc) (t : UInt8) (id : ObjectID) : Grows e (e.contextObjectID t id) :=
  (grows_tag _ _).trans (grows_write _ _)

theorem grows_optIndex (e : Enc) (t : UInt8) (i : UInt32) : Grows e (e.optIndex t i) := by
  unfold optIndex
  split
  · exact grows_contextUnsigned _ _ _
  · exact Grows.refl _

theorem grows_optPriority (e : Enc) (t p : UInt8) : Grows e (e.optPriority t p) := by
  unfold optPriority
  split
  · exact grows_contextUnsigned _ _ _
  · exact Grows.refl _

theorem grows_appData {e : Enc} {i : Value} {b : Bool} {r : Option GoErr × Enc} (h : e.appData i b = .ok r) :
    Grows e r.2 := by
  unfold appData at h
  split at h
  · cases h; exact grows_tag _ _
  · split at h
    · split at h
      · cases h; exact (grows_tag _ _).trans (grows_unsigned _ _)
      · cases h
    · split at h
      · cases h; exact (grows_tag _ _).trans (grows_write _ _)
      · cases h; exact (grows_tag _ _).trans (grows_write _ _)
      · cases h; exact grows_tag _ _
      · cases h; exact ((grows_tag _ _).trans (grows_write _ _)).trans (grows_write _ _)
      · cases h; exact (grows_tag _ _).trans (grows_unsigned _ _)
      · cases h; exact (grows_tag _ _).trans (grows_unsigned _ _)
      · cases h; exact (grows_tag _ _).trans (grows_unsigned _ _)
      · cases h; exact (grows_tag _ _).trans (grows_write _ _)
      · cases h; exact Grows.refl _

theorem ok_bind_inv {α β : Type} {x : Outcome α} {f : α → Outcome β} {b : β} (h : (x >>= f) = .ok b) :
    ∃ a, x = .ok a ∧ f a = .ok b := by
  cases x with
  | ok a => exact ⟨a, rfl, h⟩
  | panic k => cases h
  | diverge => cases h

theorem grows_appData' {e e' : Enc} {i : Value} {b : Bool} (h : e.appData' i b = .ok e') : Grows e e' := by
  obtain ⟨r, h1, h2⟩ := ok_bind_inv h
  cases h2
  exact grows_appData h1

theorem grows_readPropertyHeader {e e' : Enc} {t t' : UInt8} {o : Object} {x : Option GoErr}
    (h : e.readPropertyHeader t o = .ok (e', t', x)) : Grows e e' := by
  unfold readPropertyHeader at h
  split at h
  · cases h; exact Grows.refl _
  · split at h
    · cases h
    · split at h
      · cases h; exact Grows.refl _
      · cases h
        exact ((grows_contextObjectID _ _ _).trans (grows_contextUnsigned _ _ _)).trans (grows_optIndex _ _ _)

theorem grows_propertyValue {e e' : Enc} {w : Bool} {p : Property} (h : e.propertyValue w p = .ok e') : Grows e e' := by
  unfold propertyValue at h
  split at h
  · obtain ⟨a, h1, h2⟩ := ok_bind_inv h
    cases h2
    exact ((grows_tagNum _ _ _).trans (grows_appData' h1)).trans ((grows_tagNum _ _ _).trans (grows_optPriority _ _ _))
  · cases h; exact Grows.refl _

theorem grows_properties {w : Bool} {ps : List Property} : ∀ {e e' : Enc}, e.properties w ps = .ok e' → Grows e e' := by
  induction ps with
  | nil => intro e e' h; cases h; exact Grows.refl _
  | cons p ps ih =>
    intro e e' h
    obtain ⟨a, h1, h2⟩ := ok_bind_inv h
    exact (((grows_contextUnsigned _ _ _).trans (grows_optIndex _ _ _)).trans (grows_propertyValue h1)).trans (ih h2)

theorem grows_objects {w : Bool} {os : List Object} : ∀ {e e' : Enc}, e.objects w os = .ok e' → Grows e e' := by
  induction os with
  | nil => intro e e' h; cases h; exact Grows.refl _
  | cons o os ih =>
    intro e e' h
    obtain ⟨a, h1, h2⟩ := ok_bind_inv h
    exact (((grows_contextObjectID _ _ _).trans (grows_tagNum _ _ _)).trans (grows_properties h1)).trans
      ((grows_tagNum _ _ _).trans (ih h2))

theorem request_header (b : List UInt8) (service id : UInt8) :
    ((Enc.mk b none).apdu (requestHeader service id)).1 = ⟨b ++ [0, 5, id, service], none⟩ := by
  rw [apdu_request]; rfl

theorem grows_readProperty {b : List UInt8} {e' : Enc} {id : UInt8} {d : PropertyData} {x : Option GoErr}
    (h : (Enc.mk b none).readProperty id d = .ok (e', x)) : b ++ [0, 5, id, 12] <+: e'.buf := by
  unfold readProperty at h
  rw [request_header] at h
  obtain ⟨⟨a, t, y⟩, h1, h2⟩ := ok_bind_inv h
  cases h2
  exact grows_readPropertyHeader h1

theorem grows_writeProperty {b : List UInt8} {e' : Enc} {id : UInt8} {d : PropertyData} {x : Option GoErr}
    (h : (Enc.mk b none).writeProperty id d = .ok (e', x)) : b ++ [0, 5, id, 15] <+: e'.buf := by
  unfold writeProperty at h
  rw [request_header] at h
  obtain ⟨⟨a, t, y⟩, h1, h2⟩ := ok_bind_inv h
  have g := grows_readPropertyHeader h1
  simp only at h2
  split at h2
  · cases h2; exact g
  · split at h2
    · cases h2
    · obtain ⟨c, h3, h4⟩ := ok_bind_inv h2
      cases h4
      exact (g.trans ((grows_tagNum _ _ _).trans (grows_appData' h3))).trans
        ((grows_tagNum _ _ _).trans (grows_optPriority _ _ _))

theorem grows_readMultiple {b : List UInt8} {e' : Enc} {id : UInt8} {d : List Object} {x : Option GoErr}
    (h : (Enc.mk b none).readMultiple id d = .ok (e', x)) : b ++ [0, 5, id, 14] <+: e'.buf := by
  unfold readMultiple at h
  rw [request_header] at h
  obtain ⟨a, h1, h2⟩ := ok_bind_inv h
  cases h2
  exact grows_objects h1

theorem grows_writeMultiple {b : List UInt8} {e' : Enc} {id : UInt8} {d : List Object} {x : Option GoErr}
    (h : (Enc.mk b none).writeMultiple id d = .ok (e', x)) : b ++ [0, 5, id, 16] <+: e'.buf := by
  unfold writeMultiple at h
  rw [request_header] at h
  obtain ⟨a, h1, h2⟩ := ok_bind_inv h
  cases h2
  exact grows_objects h1

end Enc

namespace Sys

/-- Every request starts with its header, the invoke id of the call in its third octet. -/
theorem pack_header {fuel : Nat} {my : Address} {id : UInt8} {call : Call} {l : Loop} (hmy : my.net = 0)
    (h : call.enter fuel my id = .ok (.ok l)) :
    ∃ service, requestOctets l.dest ++ [0, 5, id, service] <+: l.pack := by
  unfold Call.enter at h
  split at h
  · simp only [npdu_request my _ hmy, Outcome.ok_bind] at h
    split at h
    · rename_i hr
      split at h
      · cases h
      · cases h; exact ⟨12, Enc.grows_readProperty hr⟩
    · cases h
    · cases h
  · simp only [npdu_request my _ hmy, Outcome.ok_bind] at h
    split at h
    · rename_i hr
      split at h
      · cases h
      · cases h; exact ⟨15, Enc.grows_writeProperty hr⟩
    · cases h
    · cases h
  · split at h
    · cases h
    · simp only [npdu_request my _ hmy, Outcome.ok_bind] at h
      split at h
      · rename_i hr
        split at h
        · cases h
        · split at h
          · cases h
          · cases h; exact ⟨14, Enc.grows_readMultiple hr⟩
      · cases h
      · cases h
  · simp only [npdu_request my _ hmy, Outcome.ok_bind] at h
    split at h
    · rename_i hr
      split at h
      · cases h
      · split at h
        · cases h
        · cases h; exact ⟨16, Enc.grows_writeMultiple hr⟩
    · cases h
    · cases h

end Sys

end Bac
