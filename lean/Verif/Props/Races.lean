import Verif.Lemmas.Tsm
import Mathlib.Data.List.Nodup
/-!
# Memory shared by goroutines in tsm/transactions.go

Two accesses race if two goroutines may make them next, they concern the same memory, one of them
writes, and they are not both made under the mutex.
-/

/-! ## What is accessed -/

namespace Bac.Spec
open Bac.Tsm

/-- The map `states`, and the field `data` of an object. -/
inductive Cell where
  | table
  | field (o : Nat)
  deriving DecidableEq, Repr

structure Access where
  cell : Cell
  write : Bool
  /-- is the mutex held? -/
  locked : Bool
  deriving DecidableEq, Repr

/-- What a caller accesses next, by the line it is at. -/
def callerAccess : Caller → Option Access
  /- line 123 -/
  | .obj _ o => some ⟨.field o, true, false⟩
  /- line 127 -/
  | .chan _ _ _ => some ⟨.table, true, true⟩
  /- lines 83 and 136 -/
  | .opened _ _ _ => some ⟨.table, false, true⟩
  /- line 95 -/
  | .look _ _ _ o => some ⟨.field o, false, false⟩
  /- line 141 -/
  | .locked _ _ _ o => some ⟨.field o, false, true⟩
  /- line 145 -/
  | .freedSlot _ _ => some ⟨.table, true, true⟩
  | _ => none

/-- What a sender accesses next. -/
def senderAccess : Sender → Option Access
  /- line 69 -/
  | .idle => some ⟨.table, false, true⟩
  /- line 75 -/
  | .looked _ o _ _ => some ⟨.field o, false, false⟩
  | .blocked _ _ _ _ => none

/-- The accesses that the goroutines are about to make, one entry for each goroutine. -/
def accesses (s : State) : List (Option Access) := s.callers.map callerAccess ++ s.senders.map senderAccess

def Access.Conflict (a b : Access) : Prop :=
  a.cell = b.cell ∧ (a.write = true ∨ b.write = true) ∧ ¬ (a.locked = true ∧ b.locked = true)

/-- Two goroutines race. -/
def Race (s : State) : Prop :=
  ∃ (j k : Nat) (a b : Access), j ≠ k ∧ (accesses s)[j]? = some (some a) ∧ (accesses s)[k]? = some (some b) ∧ a.Conflict b

end Bac.Spec

namespace Bac.Props
open Bac.Tsm Bac.Spec

/-- The table above leaves no write out: what a step changes, the goroutine making it was about to write. -/
theorem C143_writes (size : Nat) (s s' : State) (st : Tsm.Step size s s') :
    (∀ o, s'.data o ≠ s.data o → some ⟨.field o, true, false⟩ ∈ accesses s) ∧
    (∀ i, s'.states i ≠ s.states i → some ⟨.table, true, true⟩ ∈ accesses s) := by
  cases st <;> refine ⟨fun o h => ?_, fun i h => ?_⟩ <;> try exact absurd rfl h
  case makeChan.refine_1 l₁ l₂ i p hc =>
    have e : o = p := by
      by_contra e
      exact h (Function.update_of_ne e ..)
    subst e
    exact List.mem_append_left _ (by rw [hc]; simp [callerAccess])
  case openTx.refine_2 l₁ l₂ _ o c hc hm =>
    exact List.mem_append_left _ (by rw [hc]; simp [callerAccess])
  case putDelete.refine_2 l₁ l₂ _ o hc =>
    exact List.mem_append_left _ (by rw [hc]; simp [callerAccess])

/-- The object whose field a caller accesses is its own. -/
theorem access_own {size : Nat} {s : State} (hi : Inv size s) {x : Caller} (hx : x ∈ s.callers) {o : Nat} {w l : Bool}
    (h : callerAccess x = some ⟨.field o, w, l⟩) : objOf x = some o := by
  have ha := hi.agree x hx
  cases x <;> simp only [callerAccess, Option.some.injEq, Access.mk.injEq, Cell.field.injEq, reduceCtorEq, false_and] at h
  · rw [← h.1]; rfl
  · rw [← h.1]; simp only [agrees] at ha; rw [ha]; rfl
  · rw [← h.1]; simp only [agrees] at ha; rw [ha]; rfl

/-- Two callers do not own the same object. -/
theorem own_once {size : Nat} {s : State} (hi : Inv size s) {j k o : Nat} {x y : Caller} (hj : s.callers[j]? = some x)
    (hk : s.callers[k]? = some y) (hx : objOf x = some o) (hy : objOf y = some o) : j = k := by
  have hn := (List.nodup_append.1 hi.objs).1
  by_contra hne
  wlog hlt : j < k generalizing j k x y
  · exact this hk hj hy hx (Ne.symm hne) (by omega)
  obtain ⟨l₁, l₂, hl, rfl⟩ : ∃ l₁ l₂, s.callers = l₁ ++ x :: l₂ ∧ l₁.length = j := by
    obtain ⟨hlt, he⟩ := List.getElem?_eq_some_iff.1 hj
    exact ⟨s.callers.take j, s.callers.drop (j + 1), by rw [← he, List.getElem_cons_drop, List.take_append_drop], by simp; omega⟩
  have hm : y ∈ l₂ := by
    rw [hl, List.getElem?_append_right (by omega)] at hk
    obtain ⟨d, hd⟩ : ∃ d, k - l₁.length = d + 1 := ⟨k - l₁.length - 1, by omega⟩
    rw [hd, List.getElem?_cons_succ] at hk
    exact List.mem_of_getElem? hk
  rw [hl, List.filterMap_append, List.filterMap_cons, hx] at hn
  have := (List.nodup_cons.1 (List.nodup_append.1 hn).2.1).1
  exact this (List.mem_filterMap.2 ⟨y, hm, hy⟩)

theorem caller_table {x : Caller} {a : Access} (h : callerAccess x = some a) (ht : a.cell = .table) : a.locked = true := by
  cases x <;> simp only [callerAccess, Option.some.injEq, reduceCtorEq] at h <;> subst h <;> first | rfl | cases ht

theorem sender_reads {y : Sender} {a : Access} (h : senderAccess y = some a) :
    a.write = false ∧ (a.cell = .table → a.locked = true) ∧ ∀ o, a.cell = .field o → ∃ i c v, y = .looked i o c v := by
  cases y <;> simp only [senderAccess, Option.some.injEq, reduceCtorEq] at h <;> subst h
  · exact ⟨rfl, fun _ => rfl, fun o ho => (by cases ho)⟩
  · exact ⟨rfl, fun ht => (by cases ht), fun o ho => (by cases ho; exact ⟨_, _, _, rfl⟩)⟩

theorem access_of {s : State} {j : Nat} {a : Access} (h : (accesses s)[j]? = some (some a)) :
    (∃ x, s.callers[j]? = some x ∧ callerAccess x = some a) ∨ ∃ y ∈ s.senders, senderAccess y = some a := by
  unfold accesses at h
  by_cases hl : j < s.callers.length
  · rw [List.getElem?_append_left (by simpa using hl), List.getElem?_map] at h
    obtain ⟨x, hx, ha⟩ := Option.map_eq_some_iff.1 h
    exact Or.inl ⟨x, hx, ha⟩
  · rw [List.getElem?_append_right (by simpa using hl), List.getElem?_map] at h
    obtain ⟨y, hy, ha⟩ := Option.map_eq_some_iff.1 h
    exact Or.inr ⟨y, List.mem_of_getElem? hy, ha⟩

theorem mixed {s : State} {x : Caller} {y : Sender} {a b : Access} (hx : x ∈ s.callers) (ha : callerAccess x = some a)
    (hy : y ∈ s.senders) (hb : senderAccess y = some b) (hc : a.Conflict b) :
    ∃ i o c v j, .looked i o c v ∈ s.senders ∧ .obj j o ∈ s.callers := by
  obtain ⟨h1, h2, h3⟩ := hc
  obtain ⟨r1, r2, r3⟩ := sender_reads hb
  rw [r1, or_iff_left (by decide)] at h2
  cases hcell : a.cell with
  | table => exact absurd ⟨caller_table ha hcell, r2 (h1 ▸ hcell)⟩ h3
  | field o =>
    obtain ⟨i, c, v, rfl⟩ := r3 o (h1 ▸ hcell)
    cases x <;> simp only [callerAccess, Option.some.injEq, reduceCtorEq] at ha <;> subst ha <;> simp only at h2 hcell <;>
      cases hcell <;> first | exact absurd h2 (by decide) | skip
    exact ⟨i, _, c, v, _, hy, hx⟩

/-- A channel that a sender has seen is closed, or it belongs to the transaction the sender looked for. -/
def Seen (s : State) : Prop :=
  ∀ i o c v, .looked i o c v ∈ s.senders → s.isClosed c = true ∨ (i, o, c) ∈ s.callers.filterMap chanOf

theorem seen_reach {size n m : Nat} {s : State} (h : Tsm.Reach size n m s) : Seen s := by
  induction h with
  | start => intro i o c v h; simp [start, List.mem_replicate] at h
  | @step s s' r st ih =>
    have hi := inv_reach r
    intro i o c v h
    have keep (hs : s'.senders = s.senders) (hcl : s'.isClosed = s.isClosed)
        (hc : ∀ z ∈ s.callers.filterMap chanOf, z ∈ s'.callers.filterMap chanOf) :
        s'.isClosed c = true ∨ (i, o, c) ∈ s'.callers.filterMap chanOf := by
      rcases ih i o c v (hs ▸ h) with h | h
      · exact Or.inl (hcl ▸ h)
      · exact Or.inr (hc _ h)
    cases st <;> try refine keep rfl rfl fun z hz => ?_
    case putFail l₁ l₂ i o c hc hm hl =>
      have := (hi.table i o).2 (by rw [hc]; simp [entryOf])
      rw [hl] at this; cases this
    case putClose l₁ l₂ j p d p' hc =>
      rcases ih i o c v h with h | h
      · refine Or.inl ?_
        simp only [Function.update_apply]
        split
        · rfl
        · exact h
      · rw [hc, List.filterMap_append, List.filterMap_cons, chanOf] at h
        rcases List.mem_append.1 h with h | h
        · exact Or.inr (by simp only [List.filterMap_append]; exact List.mem_append_left _ h)
        · rcases List.mem_cons.1 h with h | h
          · left
            have e : p' = p := hi.agree (.locked j p d p') (by rw [hc]; simp)
            have := (hi.chans (j, p, d) (by rw [hc]; simp [chanOf])).1
            cases h
            simp only [e, this, Function.update_self]
          · exact Or.inr (by
              simp only [List.filterMap_append, List.filterMap_cons, chanOf]; exact List.mem_append_right _ h)
    case sendLook m₁ m₂ j p w hs hm hl =>
      simp only [List.mem_append, List.mem_cons, Sender.looked.injEq] at h
      rcases h with h | ⟨rfl, rfl, rfl, rfl⟩ | h
      · exact ih i o c v (by rw [hs]; simp [h])
      · right
        have he := (hi.table i o).1 hl
        obtain ⟨x, hx, he⟩ := List.mem_filterMap.1 he
        have hmu := hi.mutex
        rw [hm] at hmu
        have hnp := List.countP_eq_zero.1 hmu x hx
        have hch : ∃ c, chanOf x = some (i, o, c) := by
          cases x <;> simp only [entryOf, Option.some.injEq, Prod.mk.injEq, reduceCtorEq] at he <;>
            first
            | (obtain ⟨rfl, rfl⟩ := he; exact ⟨_, rfl⟩)
            | exact absurd rfl hnp
        obtain ⟨c, hch⟩ := hch
        have hmem : (i, o, c) ∈ s.callers.filterMap chanOf := List.mem_filterMap.2 ⟨x, hx, hch⟩
        rw [(hi.chans _ hmem).1]
        exact hmem
      · exact ih i o c v (by rw [hs]; simp [h])
    case sendRead m₁ m₂ j p d w hs =>
      refine ih i o c v ?_
      rw [hs]
      simp only [List.mem_append, List.mem_cons, reduceCtorEq, false_or] at h ⊢
      tauto
    case sendPanic => exact hz
    case handOver l₁ l₂ m₁ m₂ _ _ _ _ _ _ _ hc hs hcl =>
      rcases ih i o c v (by
        rw [hs]
        simp only [List.mem_append, List.mem_cons, reduceCtorEq, false_or] at h ⊢
        tauto) with h | h
      · exact Or.inl h
      · right
        rw [hc] at h
        simpa only [List.filterMap_append, List.filterMap_cons, chanOf] using h
    all_goals
      rw [‹s.callers = _›] at hz
      simp only [List.filterMap_append, List.filterMap_cons, chanOf, List.mem_append, List.mem_cons] at hz ⊢
      tauto

/-- C143, exactly where it fails: the map and two calls never race; a `Send` between line 70 and line 75 races with an `ID`
between lines 120 and 123 that has got the same object from the pool, and nothing else does. -/
theorem C143_exact (size n m : Nat) (s : State) (h : Tsm.Reach size n m s) :
    Race s ↔ ∃ i o c v j, .looked i o c v ∈ s.senders ∧ .obj j o ∈ s.callers := by
  have hi := inv_reach h
  constructor
  · rintro ⟨j, k, a, b, hne, ha, hb, hc⟩
    rcases access_of ha with ⟨x, hx, ha⟩ | ⟨x, hx, ha⟩ <;> rcases access_of hb with ⟨y, hy, hb⟩ | ⟨y, hy, hb⟩
    · obtain ⟨h1, h2, h3⟩ := hc
      cases hcell : a.cell with
      | table => exact absurd ⟨caller_table ha hcell, caller_table hb (h1 ▸ hcell)⟩ h3
      | field o =>
        obtain ⟨ca, wa, la⟩ := a
        obtain ⟨cb, wb, lb⟩ := b
        simp only at hcell h1
        subst hcell; subst h1
        exact absurd (own_once hi hx hy (access_own hi (List.mem_of_getElem? hx) ha)
          (access_own hi (List.mem_of_getElem? hy) hb)) hne
    · exact mixed (List.mem_of_getElem? hx) ha hy hb hc
    · exact mixed (List.mem_of_getElem? hy) hb hx ha ⟨hc.1.symm, hc.2.1.symm, fun h => hc.2.2 h.symm⟩
    · rcases hc.2.1 with h | h
      · rw [(sender_reads ha).1] at h; cases h
      · rw [(sender_reads hb).1] at h; cases h
  · rintro ⟨i, o, c, v, j, h1, h2⟩
    obtain ⟨p, hp⟩ := List.getElem?_of_mem h2
    obtain ⟨q, hq⟩ := List.getElem?_of_mem h1
    have hlt := (List.getElem?_eq_some_iff.1 hp).1
    refine ⟨p, s.callers.length + q, ⟨.field o, true, false⟩, ⟨.field o, false, false⟩, by omega, ?_, ?_, rfl, Or.inl rfl, nofun⟩
    · unfold accesses
      rw [List.getElem?_append_left (by simpa using hlt), List.getElem?_map, hp]; rfl
    · unfold accesses
      rw [List.getElem?_append_right (by simp), List.getElem?_map, List.length_map, Nat.add_sub_cancel_left, hq]; rfl

/-- C143 (partial): an answer that races has come too late, its transaction is over: the channel that it was meant for is
closed.  As long as the call it is meant for is under way, it races with nothing. -/
theorem C143_partial (size n m : Nat) (s : State) (h : Tsm.Reach size n m s) (i o c v j : Nat)
    (hs : .looked i o c v ∈ s.senders) (hc : .obj j o ∈ s.callers) : s.isClosed c = true := by
  rcases seen_reach h i o c v hs with hx | hx
  · exact hx
  · obtain ⟨x, hx, he⟩ := List.mem_filterMap.1 hx
    have ho : objOf x = some o := by
      cases x <;> simp only [chanOf, Option.some.injEq, Prod.mk.injEq, reduceCtorEq] at he <;> rw [← he.2.1] <;> rfl
    obtain ⟨p, hp⟩ := List.getElem?_of_mem hx
    obtain ⟨q, hq⟩ := List.getElem?_of_mem hc
    have := own_once (inv_reach h) hp hq ho rfl
    rw [this, hq] at hp
    cases hp
    cases he

/-- C143 fails: one call after the other, and one answer that comes too late. -/
theorem C143_fails (size n m : Nat) : ∃ s, Tsm.Reach (size + 1) (n + 1) (m + 1) s ∧ Race s := by
  have r := Reach.start (size := size + 1) (n := n + 1) (m := m + 1)
  have r := r.step (Step.takeSlot _ [] (List.replicate n .idle) rfl (Nat.succ_pos _))
  have r := r.step (Step.takeId _ [] (List.replicate n .idle) 1 _ rfl rfl)
  have r := r.step (Step.newObj _ [] (List.replicate n .idle) 1 rfl)
  have r := r.step (Step.makeChan _ [] (List.replicate n .idle) 1 0 rfl)
  have r := r.step (Step.openTx _ [] (List.replicate n .idle) 1 0 0 rfl rfl)
  have r := r.step (Step.sendLook _ [] (List.replicate m .idle) 1 0 77 rfl rfl rfl)
  have r := r.step (Step.putLock _ [] (List.replicate n .idle) 1 0 0 0 rfl rfl rfl)
  have r := r.step (Step.putClose _ [] (List.replicate n .idle) 1 0 0 0 rfl)
  have r := r.step (Step.putPool _ [] (List.replicate n .idle) 1 0 rfl)
  have r := r.step (Step.putId _ [] (List.replicate n .idle) 1 0 rfl
    (by show (List.range' 2 253).length < 255; simp))
  have r := r.step (Step.putSlot _ [] (List.replicate n .idle) 1 0 rfl (Nat.lt_succ_self size))
  have r := r.step (Step.putDelete _ [] (List.replicate n .idle) 1 0 rfl)
  have r := r.step (Step.takeSlot _ [] (List.replicate n .idle) rfl (Nat.succ_pos _))
  have r := r.step (Step.takeId _ [] (List.replicate n .idle) 2 _ rfl rfl)
  have r := r.step (Step.poolObj _ [] (List.replicate n .idle) 2 0 [] [] rfl rfl)
  exact ⟨_, r, (C143_exact _ _ _ _ r).2 ⟨1, 0, 0, 77, 2, List.mem_append_right _ (List.mem_cons_self ..),
    List.mem_append_right _ (List.mem_cons_self ..)⟩⟩

/-- Two calls at the same time, each with its own object, and an answer in time: no race. -/
example : ∃ s, Tsm.Reach 2 2 1 s ∧ s.senders = [.looked 1 0 0 5] ∧ s.callers = [.wait 1 0 0 0, .obj 2 1] ∧ ¬ Race s := by
  have r := Reach.start (size := 2) (n := 2) (m := 1)
  have r := r.step (Step.takeSlot _ [] [.idle] rfl (by decide))
  have r := r.step (Step.takeId _ [] [.idle] 1 _ rfl rfl)
  have r := r.step (Step.newObj _ [] [.idle] 1 rfl)
  have r := r.step (Step.makeChan _ [] [.idle] 1 0 rfl)
  have r := r.step (Step.openTx _ [] [.idle] 1 0 0 rfl rfl)
  have r := r.step (Step.recvLook _ [] [.idle] 1 0 0 0 rfl rfl rfl)
  have r := r.step (Step.recvWait _ [] [.idle] 1 0 0 0 rfl)
  have r := r.step (Step.sendLook _ [] [] 1 0 5 rfl rfl rfl)
  have r := r.step (Step.takeSlot _ [.wait 1 0 0 0] [] rfl (by decide))
  have r := r.step (Step.takeId _ [.wait 1 0 0 0] [] 2 _ rfl rfl)
  have r := r.step (Step.newObj _ [.wait 1 0 0 0] [] 2 rfl)
  refine ⟨_, r, rfl, rfl, fun h => ?_⟩
  obtain ⟨i, o, c, v, j, h1, h2⟩ := (C143_exact _ _ _ _ r).1 h
  simp [start] at h1 h2
  omega

end Bac.Props
