import Verif.Lemmas.Tsm
import Mathlib.Logic.Relation
/-!
# C46 – C50: the transaction manager
-/

namespace Bac.Props
open Bac.Tsm Bac.Spec

/-! ## C46 -/

/-- A state with two open transactions, one of them waiting, one answer on its way. -/
theorem two_open : ∃ s, Reach 2 3 1 s ∧ s.callers = [.wait 1 0 0 0, .opened 2 1 1, .idle] ∧
    s.senders = [.blocked 1 0 0 9] ∧ s.space = 0 ∧ s.isClosed 0 = false ∧ s.mutex = false := by
  have r := Reach.start (size := 2) (n := 3) (m := 1)
  have r := r.step (Step.takeSlot _ [] [.idle, .idle] rfl (by decide))
  have r := r.step (Step.takeId _ [] [.idle, .idle] 1 _ rfl rfl)
  have r := r.step (Step.takeSlot _ [.id 1] [.idle] rfl (by decide))
  have r := r.step (Step.newObj _ [] [.slot, .idle] 1 rfl)
  have r := r.step (Step.makeChan _ [] [.slot, .idle] 1 0 rfl)
  have r := r.step (Step.takeId _ [.chan 1 0 0] [.idle] 2 _ rfl rfl)
  have r := r.step (Step.openTx _ [] [.id 2, .idle] 1 0 0 rfl rfl)
  have r := r.step (Step.newObj _ [.opened 1 0 0] [.idle] 2 rfl)
  have r := r.step (Step.makeChan _ [.opened 1 0 0] [.idle] 2 1 rfl)
  have r := r.step (Step.openTx _ [.opened 1 0 0] [.idle] 2 1 1 rfl rfl)
  have r := r.step (Step.recvLook _ [] [.opened 2 1 1, .idle] 1 0 0 0 rfl rfl rfl)
  have r := r.step (Step.recvWait _ [] [.opened 2 1 1, .idle] 1 0 0 0 rfl)
  have r := r.step (Step.sendLook _ [] [] 1 0 9 rfl rfl rfl)
  have r := r.step (Step.sendRead _ [] [] 1 0 0 9 rfl)
  exact ⟨_, r, rfl, rfl, rfl, rfl, rfl⟩

theorem open_sublist (l : List Caller) : (l.filterMap openId).Sublist (l.filterMap idOf) := by
  induction l with
  | nil => exact List.Sublist.refl _
  | cons x l ih =>
    cases x <;> simp only [List.filterMap_cons, openId, idOf] <;>
      first | exact ih | exact ih.cons_cons _ | exact ih.cons _

theorem open_slots (l : List Caller) : (l.filterMap openId).length ≤ l.countP hasSlot := by
  induction l with
  | nil => simp
  | cons x l ih =>
    cases x <;> simp [List.filterMap_cons, openId, List.countP_cons, hasSlot] <;> omega

/-- C46: the ids of the open transactions are pairwise distinct, lie in 1..254, and there
are never more of them than the configured size. -/
theorem C46_distinct (size n m : Nat) (s : State) (h : Reach size n m s) :
    (s.callers.filterMap openId).Nodup ∧ (∀ i ∈ s.callers.filterMap openId, 1 ≤ i ∧ i ≤ 254) ∧
      (s.callers.filterMap openId).length ≤ size := by
  have hi := inv_reach h
  refine ⟨(List.nodup_append.1 hi.idsNodup).2.1.sublist (open_sublist _), fun i hx => ?_, ?_⟩
  · have h1 := (open_sublist _).subset hx
    have h2 := (hi.ids.mem_iff (a := i)).1 (by simp [h1])
    simp only [allIds, List.mem_range'_1] at h2
    omega
  · have := open_slots s.callers
    have := hi.slots
    omega

example : ∃ s, Reach 2 3 1 s ∧ s.callers.filterMap openId = [1, 2] := by
  obtain ⟨s, r, h, _⟩ := two_open
  exact ⟨s, r, by rw [h]; rfl⟩

/-! ## C47 -/

/-- C47: at every moment each of the 254 ids is free or held by one caller, once. -/
theorem C47_conserved (size n m : Nat) (s : State) (h : Reach size n m s) :
    List.Perm (s.ids ++ s.callers.filterMap idOf) allIds ∧
      s.space + s.callers.countP hasSlot = size :=
  ⟨(inv_reach h).ids, (inv_reach h).slots⟩

/-- C47: an id is either free, or in the hands of exactly one caller. -/
theorem C47_exactly_one (size n m : Nat) (s : State) (h : Reach size n m s) (i : Nat)
    (h1 : 1 ≤ i) (h2 : i ≤ 254) :
    (i ∈ s.ids ∧ ∀ x ∈ s.callers, idOf x ≠ some i) ∨
    (i ∉ s.ids ∧ ∃ l₁ x l₂, s.callers = l₁ ++ x :: l₂ ∧ idOf x = some i ∧
      ∀ y ∈ l₁ ++ l₂, idOf y ≠ some i) := by
  have hi := inv_reach h
  have hn := hi.idsNodup
  have hm := (hi.ids.mem_iff (a := i)).2 (by simp only [allIds, List.mem_range'_1]; omega)
  rw [List.nodup_append] at hn
  rcases List.mem_append.1 hm with hm | hm
  · left
    refine ⟨hm, fun x hx he => ?_⟩
    exact hn.2.2 i hm i (List.mem_filterMap.2 ⟨x, hx, he⟩) rfl
  · right
    refine ⟨fun hc => hn.2.2 i hc i hm rfl, ?_⟩
    obtain ⟨x, hx, he⟩ := List.mem_filterMap.1 hm
    obtain ⟨l₁, l₂, hl⟩ := List.append_of_mem hx
    refine ⟨l₁, x, l₂, hl, he, fun y hy hye => ?_⟩
    have h3 := hn.2.1
    rw [hl, List.filterMap_append, List.filterMap_cons_some he, List.nodup_append] at h3
    rcases List.mem_append.1 hy with hy | hy
    · exact h3.2.2 i (List.mem_filterMap.2 ⟨y, hy, hye⟩) i (by simp) rfl
    · exact (List.nodup_cons.1 h3.2.1).1 (List.mem_filterMap.2 ⟨y, hy, hye⟩)

/-- C47: when no caller is in a transaction, all ids and all slots are free, the table is
empty and the mutex is free. -/
theorem C47_all_back (size n m : Nat) (s : State) (h : Reach size n m s)
    (hidle : ∀ x ∈ s.callers, x = .idle) :
    List.Perm s.ids allIds ∧ s.space = size ∧ (∀ i, s.states i = none) ∧ s.mutex = false := by
  have hi := inv_reach h
  have e : s.callers = List.replicate s.callers.length .idle := List.eq_replicate_iff.2 ⟨rfl, hidle⟩
  have h1 := hi.ids
  have h2 := hi.slots
  have h3 := hi.mutex
  rw [e, idle_none idOf _ rfl, List.append_nil] at h1
  rw [e] at h2 h3
  refine ⟨h1, ?_, fun i => ?_, ?_⟩
  · simpa [List.countP_replicate, hasSlot] using h2
  · cases hx : s.states i with
    | none => rfl
    | some o =>
      have := (hi.table i o).1 hx
      rw [e, idle_none entryOf _ rfl] at this
      cases this
  · simp only [List.countP_replicate, inPut, Bool.false_eq_true, if_false] at h3
    cases hm : s.mutex with
    | false => rfl
    | true => rw [hm] at h3; simp at h3

/-- C47: an open transaction is always in the table under its own id, so that `Receive`
and `Put` never fail to find it. -/
theorem C47_found (size n m : Nat) (s : State) (h : Reach size n m s) (i o c : Nat)
    (hx : .opened i o c ∈ s.callers) : s.states i = some o :=
  ((inv_reach h).table i o).2 (List.mem_filterMap.2 ⟨_, hx, rfl⟩)

example : ∃ s, Reach 2 3 1 s ∧ s.callers.filterMap idOf = [1, 2] ∧ s.callers.countP hasSlot = 2 ∧
    1 ∉ s.ids ∧ 3 ∈ s.ids := by
  obtain ⟨s, r, h, _⟩ := two_open
  have one := C47_exactly_one 2 3 1 s r 1 (by decide) (by decide)
  have three := C47_exactly_one 2 3 1 s r 3 (by decide) (by decide)
  refine ⟨s, r, by rw [h]; rfl, by rw [h]; rfl, ?_, ?_⟩
  · rcases one with one | one
    · exact absurd rfl (one.2 (.wait 1 0 0 0) (by rw [h]; simp))
    · exact one.1
  · rcases three with three | ⟨_, l₁, x, l₂, hx, hi, _⟩
    · exact three.1
    · have : x ∈ s.callers := by rw [hx]; simp
      rw [h] at this
      simp only [List.mem_cons, List.not_mem_nil, or_false] at this
      rcases this with rfl | rfl | rfl <;> simp [idOf] at hi

/-- A whole transaction: opened, released, everything free again. -/
example : ∃ s, Reach 1 1 1 s ∧ s.callers = [.idle] ∧ s.ids = List.range' 2 253 ++ [1] ∧
    s.pool = [0] := by
  have r := Reach.start (size := 1) (n := 1) (m := 1)
  have r := r.step (Step.takeSlot _ [] [] rfl (by decide))
  have r := r.step (Step.takeId _ [] [] 1 _ rfl rfl)
  have r := r.step (Step.newObj _ [] [] 1 rfl)
  have r := r.step (Step.makeChan _ [] [] 1 0 rfl)
  have r := r.step (Step.openTx _ [] [] 1 0 0 rfl rfl)
  have r := r.step (Step.putLock _ [] [] 1 0 0 0 rfl rfl rfl)
  have r := r.step (Step.putClose _ [] [] 1 0 0 0 rfl)
  have r := r.step (Step.putPool _ [] [] 1 0 rfl)
  have r := r.step (Step.putId _ [] [] 1 0 rfl (by show (List.range' 2 253).length < 255; simp))
  have r := r.step (Step.putSlot _ [] [] 1 0 rfl (by decide))
  have r := r.step (Step.putDelete _ [] [] 1 0 rfl)
  exact ⟨_, r, rfl, rfl, rfl⟩

example : ∃ s, Reach 2 3 1 s ∧ s.states 2 = some 1 := by
  obtain ⟨s, r, h, _⟩ := two_open
  exact ⟨s, r, C47_found 2 3 1 s r 2 1 1 (by rw [h]; simp)⟩

/-! ## C48 -/

/-- C48 fails: a value sent for id 1 is received by the transaction with id 2.  The sender
looks up the object of id 1; the caller gives up and the object is reused for id 2; the
sender then reads the channel of the object. -/
theorem C48_fails : ∃ s, Reach 2 2 1 s ∧ s.log = [⟨1, 77, 2, true⟩] := by
  have r := Reach.start (size := 2) (n := 2) (m := 1)
  have r := r.step (Step.takeSlot _ [] [.idle] rfl (by decide))
  have r := r.step (Step.takeId _ [] [.idle] 1 _ rfl rfl)
  have r := r.step (Step.newObj _ [] [.idle] 1 rfl)
  have r := r.step (Step.makeChan _ [] [.idle] 1 0 rfl)
  have r := r.step (Step.openTx _ [] [.idle] 1 0 0 rfl rfl)
  have r := r.step (Step.sendLook _ [] [] 1 0 77 rfl rfl rfl)
  have r := r.step (Step.putLock _ [] [.idle] 1 0 0 0 rfl rfl rfl)
  have r := r.step (Step.putClose _ [] [.idle] 1 0 0 0 rfl)
  have r := r.step (Step.putPool _ [] [.idle] 1 0 rfl)
  have r := r.step (Step.putId _ [] [.idle] 1 0 rfl
    (by show (List.range' 2 253).length < 255; simp))
  have r := r.step (Step.putSlot _ [] [.idle] 1 0 rfl (by decide))
  have r := r.step (Step.putDelete _ [] [.idle] 1 0 rfl)
  have r := r.step (Step.takeSlot _ [.idle] [] rfl (by decide))
  have r := r.step (Step.takeId _ [.idle] [] 2 _ rfl rfl)
  have r := r.step (Step.poolObj _ [.idle] [] 2 0 [] [] rfl rfl)
  have r := r.step (Step.makeChan _ [.idle] [] 2 0 rfl)
  have r := r.step (Step.openTx _ [.idle] [] 2 0 1 rfl rfl)
  have r := r.step (Step.recvLook _ [.idle] [] 2 0 1 0 rfl rfl rfl)
  have r := r.step (Step.recvWait _ [.idle] [] 2 0 1 0 rfl)
  have r := r.step (Step.sendRead _ [] [] 1 0 0 77 rfl)
  have r := r.step (Step.handOver _ [.idle] [] [] [] 2 0 1 1 1 0 77 rfl rfl rfl)
  exact ⟨_, r, rfl⟩

/-- C48, what holds: a value is received by the transaction it was sent for unless the
object was given a new channel between the look-up and the sending.
Missing for the full claim: exactly those hand-overs (see `C48_fails`). -/
theorem C48_addressed_partial (size n m : Nat) (s : State) (h : Reach size n m s) :
    ∀ e ∈ s.log, e.stale = false → e.sent = e.received :=
  (sinv_reach h).log

example : ∃ s, Reach 2 3 1 s ∧ s.log = [⟨1, 9, 1, false⟩] := by
  have r := Reach.start (size := 2) (n := 3) (m := 1)
  have r := r.step (Step.takeSlot _ [] [.idle, .idle] rfl (by decide))
  have r := r.step (Step.takeId _ [] [.idle, .idle] 1 _ rfl rfl)
  have r := r.step (Step.newObj _ [] [.idle, .idle] 1 rfl)
  have r := r.step (Step.makeChan _ [] [.idle, .idle] 1 0 rfl)
  have r := r.step (Step.openTx _ [] [.idle, .idle] 1 0 0 rfl rfl)
  have r := r.step (Step.recvLook _ [] [.idle, .idle] 1 0 0 0 rfl rfl rfl)
  have r := r.step (Step.recvWait _ [] [.idle, .idle] 1 0 0 0 rfl)
  have r := r.step (Step.sendLook _ [] [] 1 0 9 rfl rfl rfl)
  have r := r.step (Step.sendRead _ [] [] 1 0 0 9 rfl)
  have r := r.step (Step.handOver _ [] [.idle, .idle] [] [] 1 0 0 0 1 0 9 rfl rfl rfl)
  exact ⟨_, r, rfl⟩

/-- C48: a caller never receives a nil reply from a closed channel. -/
theorem C48_no_nil (size n m : Nat) (s : State) (h : Reach size n m s) : s.nils = 0 :=
  (sinv_reach h).nils

example : ∃ s, Reach 2 3 1 s ∧ .wait 1 0 0 0 ∈ s.callers ∧ s.nils = 0 := by
  obtain ⟨s, r, h, _⟩ := two_open
  exact ⟨s, r, by rw [h]; simp, C48_no_nil 2 3 1 s r⟩

/-! ## C49 -/

/-- C49 fails: a duplicate of an answer that was delivered crashes the process when the
caller releases the transaction. -/
theorem C49_fails : ∃ s, Reach 1 1 1 s ∧ s.log = [⟨1, 5, 1, false⟩] ∧ s.panicked = true := by
  have r := Reach.start (size := 1) (n := 1) (m := 1)
  have r := r.step (Step.takeSlot _ [] [] rfl (by decide))
  have r := r.step (Step.takeId _ [] [] 1 _ rfl rfl)
  have r := r.step (Step.newObj _ [] [] 1 rfl)
  have r := r.step (Step.makeChan _ [] [] 1 0 rfl)
  have r := r.step (Step.openTx _ [] [] 1 0 0 rfl rfl)
  have r := r.step (Step.recvLook _ [] [] 1 0 0 0 rfl rfl rfl)
  have r := r.step (Step.recvWait _ [] [] 1 0 0 0 rfl)
  have r := r.step (Step.sendLook _ [] [] 1 0 5 rfl rfl rfl)
  have r := r.step (Step.sendRead _ [] [] 1 0 0 5 rfl)
  have r := r.step (Step.handOver _ [] [] [] [] 1 0 0 0 1 0 5 rfl rfl rfl)
  -- the same answer once more
  have r := r.step (Step.sendLook _ [] [] 1 0 5 rfl rfl rfl)
  have r := r.step (Step.sendRead _ [] [] 1 0 0 5 rfl)
  have r := r.step (Step.putLock _ [] [] 1 0 0 0 rfl rfl rfl)
  have r := r.step (Step.putClose _ [] [] 1 0 0 0 rfl)
  have r := r.step (Step.sendPanic _ [] [] 1 0 0 5 rfl rfl)
  exact ⟨_, r, rfl, rfl⟩

/-- C49 fails: so does an answer that arrives after the caller gave up waiting. -/
theorem C49_fails_late : ∃ s, Reach 1 1 1 s ∧ s.log = [] ∧ s.panicked = true := by
  have r := Reach.start (size := 1) (n := 1) (m := 1)
  have r := r.step (Step.takeSlot _ [] [] rfl (by decide))
  have r := r.step (Step.takeId _ [] [] 1 _ rfl rfl)
  have r := r.step (Step.newObj _ [] [] 1 rfl)
  have r := r.step (Step.makeChan _ [] [] 1 0 rfl)
  have r := r.step (Step.openTx _ [] [] 1 0 0 rfl rfl)
  have r := r.step (Step.recvLook _ [] [] 1 0 0 0 rfl rfl rfl)
  have r := r.step (Step.recvWait _ [] [] 1 0 0 0 rfl)
  have r := r.step (Step.recvTimeout _ [] [] 1 0 0 0 rfl)
  have r := r.step (Step.sendLook _ [] [] 1 0 5 rfl rfl rfl)
  have r := r.step (Step.putLock _ [] [] 1 0 0 0 rfl rfl rfl)
  have r := r.step (Step.putClose _ [] [] 1 0 0 0 rfl)
  have r := r.step (Step.sendRead _ [] [] 1 0 0 5 rfl)
  have r := r.step (Step.sendPanic _ [] [] 1 0 0 5 rfl rfl)
  exact ⟨_, r, rfl, rfl⟩

/-- Closed channels stay closed. -/
theorem closed_stays {size : Nat} {s s' : State} (st : Step size s s') (c : Nat)
    (h : s.isClosed c = true) : s'.isClosed c = true := by
  cases st <;> try exact h
  simp only [Function.update_apply]; split
  · rfl
  · exact h

/-- C49: a sender waiting on a channel that the caller closes is lost: whatever happens
afterwards, it never returns, and the crash remains possible. -/
theorem C49_doomed (size : Nat) (s s' : State) (k i c c' v : Nat)
    (hk : s.senders[k]? = some (.blocked i c c' v)) (hc : s.isClosed c' = true)
    (st : Relation.ReflTransGen (Step size) s s') :
    s'.senders[k]? = some (.blocked i c c' v) ∧
      ∃ s'', Step size s' s'' ∧ s''.panicked = true := by
  have key : s'.senders[k]? = some (.blocked i c c' v) ∧ s'.isClosed c' = true := by
    induction st with
    | refl => exact ⟨hk, hc⟩
    | tail _ st ih =>
      refine ⟨?_, closed_stays st c' ih.2⟩
      have h1 := ih.1
      have h2 := ih.2
      have repl : ∀ (m₁ m₂ : List Sender) (x y : Sender), x ≠ .blocked i c c' v →
          (m₁ ++ x :: m₂)[k]? = some (.blocked i c c' v) →
          (m₁ ++ y :: m₂)[k]? = some (.blocked i c c' v) := by
        intro m₁ m₂ x y hx hk
        by_cases hlt : k < m₁.length
        · rw [List.getElem?_append_left hlt] at hk ⊢
          exact hk
        · rw [List.getElem?_append_right (by omega)] at hk ⊢
          cases hj : k - m₁.length with
          | zero => rw [hj] at hk; simp at hk; exact absurd hk hx
          | succ j => rw [hj] at hk; simpa using hk
      cases st <;> try exact h1
      case handOver l₁ l₂ m₁ m₂ i' o d d' j e w h hsd hcl =>
        rw [hsd] at h1
        refine repl m₁ m₂ _ _ ?_ h1
        intro e; cases e
        rw [hcl] at h2; cases h2
      case sendLook m₁ m₂ i' o w h hm hl =>
        rw [h] at h1
        exact repl m₁ m₂ _ _ (by simp) h1
      case sendRead m₁ m₂ i' o d w h =>
        rw [h] at h1
        exact repl m₁ m₂ _ _ (by simp) h1
  refine ⟨key.1, { s' with panicked := true }, ?_, rfl⟩
  obtain ⟨hlt, hx⟩ := List.getElem?_eq_some_iff.1 key.1
  have hs : s'.senders = s'.senders.take k ++ .blocked i c c' v :: s'.senders.drop (k + 1) := by
    rw [← hx, List.getElem_cons_drop, List.take_append_drop]
  exact Step.sendPanic s' _ _ i c c' v hs key.2

/-- An answer is on its way to a caller that has just closed its channel. -/
example : ∃ s, Reach 1 1 1 s ∧ s.senders[0]? = some (.blocked 1 0 0 5) ∧ s.isClosed 0 = true := by
  have r := Reach.start (size := 1) (n := 1) (m := 1)
  have r := r.step (Step.takeSlot _ [] [] rfl (by decide))
  have r := r.step (Step.takeId _ [] [] 1 _ rfl rfl)
  have r := r.step (Step.newObj _ [] [] 1 rfl)
  have r := r.step (Step.makeChan _ [] [] 1 0 rfl)
  have r := r.step (Step.openTx _ [] [] 1 0 0 rfl rfl)
  have r := r.step (Step.sendLook _ [] [] 1 0 5 rfl rfl rfl)
  have r := r.step (Step.sendRead _ [] [] 1 0 0 5 rfl)
  have r := r.step (Step.putLock _ [] [] 1 0 0 0 rfl rfl rfl)
  have r := r.step (Step.putClose _ [] [] 1 0 0 0 rfl)
  exact ⟨_, r, rfl, rfl⟩

/-- A sender is about to use channel `c`. -/
def aimsAt (s : State) (c : Nat) : Sender → Prop
  | .idle => False
  | .looked _ o _ _ => s.data o = c
  | .blocked _ _ c' _ => c' = c

/-- Executions in which a channel is closed only while no sender is about to use it. -/
inductive Undisturbed (size n m : Nat) : State → Prop
  | start : Undisturbed size n m (start size n m)
  | step {s s'} : Undisturbed size n m s → Step size s s' →
      (∀ c, s.isClosed c = false → s'.isClosed c = true → ∀ x ∈ s.senders, ¬ aimsAt s c x) →
      Undisturbed size n m s'

theorem undisturbed_reach {size n m : Nat} {s : State} (h : Undisturbed size n m s) :
    Reach size n m s := by
  induction h with
  | start => exact .start
  | step _ st _ ih => exact ih.step st

/-- C49, what holds: as long as no transaction is released while an answer for it is being
handed in, the process does not crash.
Missing for the full claim: answers that overlap with the release (see `C49_fails`). -/
theorem C49_no_crash_partial (size n m : Nat) (s : State) (h : Undisturbed size n m s) :
    s.panicked = false := by
  suffices hh : s.panicked = false ∧ ∀ x ∈ s.senders, ∀ c, aimsAt s c x → s.isClosed c = false from hh.1
  induction h with
  | start => exact ⟨rfl, fun x hx c ha => by
      have := List.eq_of_mem_replicate hx; subst this; exact absurd ha id⟩
  | @step s s' hu st hq ih =>
    have hi := inv_reach (undisturbed_reach hu)
    obtain ⟨hp, hs⟩ := ih
    have same : s'.senders = s.senders → s'.data = s.data →
        ∀ x ∈ s'.senders, ∀ c, aimsAt s' c x → s'.isClosed c = false := by
      intro e1 e2 x hx c ha
      rw [e1] at hx
      have ha' : aimsAt s c x := by
        cases x <;> simp only [aimsAt, e2] at ha ⊢ <;> exact ha
      cases hcl : s'.isClosed c with
      | false => rfl
      | true => exact absurd ha' (hq c (hs x hx c ha') hcl x hx)
    cases st <;> try exact ⟨hp, same rfl rfl⟩
    case makeChan l₁ l₂ i o h =>
      refine ⟨hp, fun x hx c ha => ?_⟩
      have hx' : x ∈ s.senders := hx
      cases x with
      | idle => exact absurd ha id
      | blocked j b d v => exact hs (.blocked j b d v) hx' c ha
      | looked j p d v =>
        simp only [aimsAt, Function.update_apply] at ha
        split at ha
        · subst ha; exact hi.closedLt _ (Nat.le_refl _)
        · exact hs (.looked j p d v) hx' c ha
    case handOver l₁ l₂ m₁ m₂ i o d d' j e w h hsd hcl =>
      refine ⟨hp, fun x hx c ha => ?_⟩
      simp only [List.mem_append, List.mem_cons] at hx
      rcases hx with hx | rfl | hx
      · exact hs x (by rw [hsd]; simp [hx]) c (by cases x <;> exact ha)
      · exact absurd ha id
      · exact hs x (by rw [hsd]; simp [hx]) c (by cases x <;> exact ha)
    case putClose l₁ l₂ i o c o' h =>
      refine ⟨?_, same rfl rfl⟩
      have e : o' = o := by
        have := hi.agree (.locked i o c o') (by rw [h]; simp)
        exact this
      have := hi.chans (i, o, c) (by rw [h]; simp [chanOf])
      subst e
      simp only [hp, Bool.false_or]
      rw [show s.data o' = c from this.1]; exact this.2.1
    case sendLook m₁ m₂ i o v h hm hl =>
      refine ⟨hp, fun x hx c ha => ?_⟩
      simp only [List.mem_append, List.mem_cons] at hx
      rcases hx with hx | rfl | hx
      · exact hs x (by rw [h]; simp [hx]) c (by cases x <;> exact ha)
      · have := hi.chans _ (hi.lookup hm hl)
        simp only [aimsAt] at ha
        subst ha; exact this.2.1
      · exact hs x (by rw [h]; simp [hx]) c (by cases x <;> exact ha)
    case sendRead m₁ m₂ i o d v h =>
      refine ⟨hp, fun x hx c ha => ?_⟩
      simp only [List.mem_append, List.mem_cons] at hx
      rcases hx with hx | rfl | hx
      · exact hs x (by rw [h]; simp [hx]) c (by cases x <;> exact ha)
      · exact hs (.looked i o d v) (by rw [h]; simp) c ha
      · exact hs x (by rw [h]; simp [hx]) c (by cases x <;> exact ha)
    case sendPanic m₁ m₂ i d d' v h hcl =>
      have := hs (.blocked i d d' v) (by rw [h]; simp) d' rfl
      rw [hcl] at this; cases this

/-- An undisturbed execution: the answer is delivered, then the transaction released. -/
example : ∃ s, Undisturbed 1 1 1 s ∧ s.log = [⟨1, 9, 1, false⟩] ∧ s.isClosed 0 = true := by
  have r := Undisturbed.start (size := 1) (n := 1) (m := 1)
  have same : ∀ {s s' : State}, s'.isClosed = s.isClosed →
      (∀ c, s.isClosed c = false → s'.isClosed c = true → ∀ x ∈ s.senders, ¬ aimsAt s c x) := by
    intro s s' e c h1 h2
    rw [e, h1] at h2; cases h2
  have r := r.step (Step.takeSlot _ [] [] rfl (by decide)) (same rfl)
  have r := r.step (Step.takeId _ [] [] 1 _ rfl rfl) (same rfl)
  have r := r.step (Step.newObj _ [] [] 1 rfl) (same rfl)
  have r := r.step (Step.makeChan _ [] [] 1 0 rfl) (same rfl)
  have r := r.step (Step.openTx _ [] [] 1 0 0 rfl rfl) (same rfl)
  have r := r.step (Step.recvLook _ [] [] 1 0 0 0 rfl rfl rfl) (same rfl)
  have r := r.step (Step.recvWait _ [] [] 1 0 0 0 rfl) (same rfl)
  have r := r.step (Step.sendLook _ [] [] 1 0 9 rfl rfl rfl) (same rfl)
  have r := r.step (Step.sendRead _ [] [] 1 0 0 9 rfl) (same rfl)
  have r := r.step (Step.handOver _ [] [] [] [] 1 0 0 0 1 0 9 rfl rfl rfl) (same rfl)
  have r := r.step (Step.putLock _ [] [] 1 0 0 0 rfl rfl rfl) (same rfl)
  have r := r.step (Step.putClose _ [] [] 1 0 0 0 rfl) (by
    intro c _ _ x hx
    have : x = .idle := by simpa using hx
    subst this; exact id)
  exact ⟨_, r, rfl, rfl⟩

/-! ## C50 -/

theorem slot_count (l : List Caller) :
    (l.filterMap idOf).length + l.count .slot ≤ l.countP hasSlot := by
  induction l with
  | nil => simp
  | cons x l ih =>
    cases x <;> simp [List.filterMap_cons, idOf, List.countP_cons, hasSlot] <;> omega

theorem allIds_length : allIds.length = 254 := by simp [allIds]

/-- C50: with at most 254 slots, a caller that has a slot finds a free id. -/
theorem C50_id (size n m : Nat) (hsz : size ≤ 254) (s : State) (h : Reach size n m s)
    (hx : .slot ∈ s.callers) : s.ids ≠ [] := by
  have hi := inv_reach h
  have h1 := hi.ids.length_eq
  have h2 := hi.slots
  have h3 := slot_count s.callers
  have h4 : 0 < s.callers.count .slot := List.count_pos_iff.2 hx
  intro e
  rw [e, allIds_length, List.nil_append] at h1
  omega

/-- C50: putting an id or a slot back never blocks. -/
theorem C50_no_block (size n m : Nat) (s : State) (h : Reach size n m s) :
    s.ids.length < 255 ∧
      ∀ x ∈ s.callers, (x = .giveBack ∨ ∃ i o, x = .freedId i o) → s.space < size := by
  have hi := inv_reach h
  have h1 := hi.ids.length_eq
  have h2 := hi.slots
  rw [allIds_length, List.length_append] at h1
  refine ⟨by omega, fun x hx he => ?_⟩
  have : 0 < s.callers.countP hasSlot := by
    refine List.countP_pos_iff.2 ⟨x, hx, ?_⟩
    rcases he with rfl | ⟨i, o, rfl⟩ <;> rfl
  omega

/-- A caller inside `Put` completes it without the help of anyone else. -/
theorem C50_release (size n m : Nat) (s : State) (h : Reach size n m s) (l₁ l₂ : List Caller)
    (x : Caller) (hs : s.callers = l₁ ++ x :: l₂) (hx : inPut x = true) :
    ∃ s', Relation.ReflTransGen (Step size) s s' ∧ s'.callers = l₁ ++ .idle :: l₂ ∧
      s'.mutex = false ∧ s.space ≤ s'.space := by
  have f5 : ∀ s i o, Reach size n m s → s.callers = l₁ ++ .freedSlot i o :: l₂ →
      ∃ s', Relation.ReflTransGen (Step size) s s' ∧ s'.callers = l₁ ++ .idle :: l₂ ∧
      s'.mutex = false ∧ s.space ≤ s'.space := by
    intro s i o h hs
    exact ⟨_, .single (Step.putDelete s l₁ l₂ i o hs), rfl, rfl, Nat.le_refl _⟩
  have f4 : ∀ s i o, Reach size n m s → s.callers = l₁ ++ .freedId i o :: l₂ →
      ∃ s', Relation.ReflTransGen (Step size) s s' ∧ s'.callers = l₁ ++ .idle :: l₂ ∧
      s'.mutex = false ∧ s.space ≤ s'.space := by
    intro s i o h hs
    have st := Step.putSlot s l₁ l₂ i o hs
      ((C50_no_block size n m s h).2 (.freedId i o) (by rw [hs]; simp) (Or.inr ⟨i, o, rfl⟩))
    obtain ⟨s', h1, h2, h3, h4⟩ := f5 _ i o (h.step st) rfl
    exact ⟨s', .head st h1, h2, h3, Nat.le_trans (Nat.le_succ _) h4⟩
  have f3 : ∀ s i o, Reach size n m s → s.callers = l₁ ++ .pooled i o :: l₂ →
      ∃ s', Relation.ReflTransGen (Step size) s s' ∧ s'.callers = l₁ ++ .idle :: l₂ ∧
      s'.mutex = false ∧ s.space ≤ s'.space := by
    intro s i o h hs
    have st := Step.putId (size := size) s l₁ l₂ i o hs (C50_no_block size n m s h).1
    obtain ⟨s', h1, h2, h3, h4⟩ := f4 _ i o (h.step st) rfl
    exact ⟨s', .head st h1, h2, h3, h4⟩
  have f2 : ∀ s i o, Reach size n m s → s.callers = l₁ ++ .closed i o :: l₂ →
      ∃ s', Relation.ReflTransGen (Step size) s s' ∧ s'.callers = l₁ ++ .idle :: l₂ ∧
      s'.mutex = false ∧ s.space ≤ s'.space := by
    intro s i o h hs
    have st := Step.putPool (size := size) s l₁ l₂ i o hs
    obtain ⟨s', h1, h2, h3, h4⟩ := f3 _ i o (h.step st) rfl
    exact ⟨s', .head st h1, h2, h3, h4⟩
  cases x <;> simp only [inPut, Bool.false_eq_true] at hx
  case locked i o c o' =>
    have st := Step.putClose (size := size) s l₁ l₂ i o c o' hs
    obtain ⟨s', h1, h2, h3, h4⟩ := f2 _ i o' (h.step st) rfl
    exact ⟨s', .head st h1, h2, h3, h4⟩
  case closed i o => exact f2 s i o h hs
  case pooled i o => exact f3 s i o h hs
  case freedId i o => exact f4 s i o h hs
  case freedSlot i o => exact f5 s i o h hs

theorem reach_trans {size n m : Nat} {s s' : State} (h : Reach size n m s)
    (st : Relation.ReflTransGen (Step size) s s') : Reach size n m s' := by
  induction st with
  | refl => exact h
  | tail _ st ih => exact ih.step st

/-- C50: whenever a slot is free, a caller that is not in a transaction can open one; at
most a caller inside `Put` has to finish it first. -/
theorem C50_obtain (size n m : Nat) (hsz : size ≤ 254) (s : State) (h : Reach size n m s)
    (k : Nat) (hk : s.callers[k]? = some .idle) (hfree : 0 < s.space) :
    ∃ s' i o c, Relation.ReflTransGen (Step size) s s' ∧ s'.callers[k]? = some (.opened i o c) ∧
      s'.states i = some o := by
  obtain ⟨hlt, hx⟩ := List.getElem?_eq_some_iff.1 hk
  obtain ⟨l₁, l₂, hs, hlen⟩ : ∃ l₁ l₂, s.callers = l₁ ++ .idle :: l₂ ∧ l₁.length = k :=
    ⟨s.callers.take k, s.callers.drop (k + 1),
      by rw [← hx, List.getElem_cons_drop, List.take_append_drop], by simp; omega⟩
  have st1 := Step.takeSlot (size := size) s l₁ l₂ hs hfree
  have r1 := h.step st1
  have hids := C50_id size n m hsz _ r1 (by simp)
  obtain ⟨i, rest, hi⟩ : ∃ i rest, s.ids = i :: rest := by
    cases e : s.ids with
    | nil => exact absurd e hids
    | cons i rest => exact ⟨i, rest, rfl⟩
  have st2 := Step.takeId (size := size) _ l₁ l₂ i rest rfl hi |> fun x => (x : Step size { s with space := s.space - 1, callers := l₁ ++ .slot :: l₂ } _)
  have r2 := r1.step st2
  have st3 := Step.newObj (size := size) _ l₁ l₂ i (rfl : State.callers { s with space := s.space - 1, ids := rest, callers := l₁ ++ .id i :: l₂ } = _)
  have r3 := r2.step st3
  have st4 := Step.makeChan (size := size) { s with space := s.space - 1, ids := rest, nextObj := s.nextObj + 1, callers := l₁ ++ .obj i s.nextObj :: l₂ } l₁ l₂ i s.nextObj rfl
  have r4 := r3.step st4
  have path := (((Relation.ReflTransGen.single st1).tail st2).tail st3).tail st4
  generalize hs4 : ({ s with space := s.space - 1, ids := rest, nextObj := s.nextObj + 1, data := Function.update s.data s.nextObj s.nextChan, madeFor := Function.update s.madeFor s.nextChan i, nextChan := s.nextChan + 1, callers := l₁ ++ .chan i s.nextObj s.nextChan :: l₂ } : State) = s4 at *
  have hc4 : s4.callers = l₁ ++ .chan i s.nextObj s.nextChan :: l₂ := by rw [← hs4]
  -- the mutex becomes free without moving this caller
  obtain ⟨s5, p5, m₁, m₂, hc5, hl5, hm5⟩ : ∃ s5, Relation.ReflTransGen (Step size) s4 s5 ∧
      ∃ m₁ m₂, s5.callers = m₁ ++ .chan i s.nextObj s.nextChan :: m₂ ∧ m₁.length = k ∧
        s5.mutex = false := by
    cases hm : s4.mutex with
    | false => exact ⟨s4, .refl, l₁, l₂, hc4, hlen, hm⟩
    | true =>
      have hcount := (inv_reach r4).mutex
      rw [hm] at hcount
      obtain ⟨x, hx, hp⟩ := List.countP_pos_iff.1 (show 0 < s4.callers.countP inPut by rw [hcount]; decide)
      rw [hc4] at hx
      simp only [List.mem_append, List.mem_cons] at hx
      rcases hx with hx | rfl | hx
      · obtain ⟨a, b, rfl⟩ := List.append_of_mem hx
        obtain ⟨s5, p, hc, hf, _⟩ := C50_release size n m s4 r4 a (b ++ .chan i s.nextObj s.nextChan :: l₂) x
          (by rw [hc4]; simp) hp
        exact ⟨s5, p, a ++ .idle :: b, l₂, by rw [hc]; simp, by rw [← hlen]; simp, hf⟩
      · cases hp
      · obtain ⟨a, b, rfl⟩ := List.append_of_mem hx
        obtain ⟨s5, p, hc, hf, _⟩ := C50_release size n m s4 r4 (l₁ ++ .chan i s.nextObj s.nextChan :: a) b x
          (by rw [hc4]; simp) hp
        exact ⟨s5, p, l₁, a ++ .idle :: b, by rw [hc]; simp, hlen, hf⟩
  have st6 := Step.openTx (size := size) s5 m₁ m₂ i s.nextObj s.nextChan hc5 hm5
  refine ⟨_, i, s.nextObj, s.nextChan, (path.trans p5).tail st6, ?_, ?_⟩
  · simp [← hl5]
  · simp

/-- While a caller is about to finish `Put`, another one can already take the slot and open a transaction. -/
example : ∃ s, Reach 1 2 1 s ∧ s.callers[1]? = some .idle ∧ 0 < s.space ∧ s.mutex = true ∧
    s.callers[0]? = some (.freedSlot 1 0) := by
  have r := Reach.start (size := 1) (n := 2) (m := 1)
  have r := r.step (Step.takeSlot _ [] [.idle] rfl (by decide))
  have r := r.step (Step.takeId _ [] [.idle] 1 _ rfl rfl)
  have r := r.step (Step.newObj _ [] [.idle] 1 rfl)
  have r := r.step (Step.makeChan _ [] [.idle] 1 0 rfl)
  have r := r.step (Step.openTx _ [] [.idle] 1 0 0 rfl rfl)
  have r := r.step (Step.putLock _ [] [.idle] 1 0 0 0 rfl rfl rfl)
  have r := r.step (Step.putClose _ [] [.idle] 1 0 0 0 rfl)
  have r := r.step (Step.putPool _ [] [.idle] 1 0 rfl)
  have r := r.step (Step.putId _ [] [.idle] 1 0 rfl
    (by show (List.range' 2 253).length < 255; simp))
  have r := r.step (Step.putSlot _ [] [.idle] 1 0 rfl (by decide))
  exact ⟨_, r, rfl, by decide, rfl, rfl⟩

end Bac.Props
