import Verif.Spec.Tsm
import Mathlib.Data.List.Basic
import Mathlib.Data.List.Perm.Basic
import Mathlib.Data.List.Nodup
/-!
# Invariants of the transaction manager
-/

namespace Bac.Tsm
open Bac.Spec

/-- Entry of the table a caller is responsible for. -/
def entryOf : Caller → Option (Nat × Nat)
  | .opened i o _ | .look i o _ _ | .wait i o _ _ | .locked i o _ _ | .closed i o
  | .pooled i o | .freedId i o | .freedSlot i o => some (i, o)
  | _ => none

/-- Object a caller owns. -/
def objOf : Caller → Option Nat
  | .obj _ o | .chan _ o _ | .opened _ o _ | .look _ o _ _ | .wait _ o _ _ | .locked _ o _ _
  | .closed _ o => some o
  | _ => none

/-- Id, object and channel of a caller whose channel is not closed yet. -/
def chanOf : Caller → Option (Nat × Nat × Nat)
  | .chan i o c | .opened i o c | .look i o c _ | .wait i o c _ | .locked i o c _ => some (i, o, c)
  | _ => none

/-- What is looked up agrees with what the caller stored. -/
def agrees : Caller → Prop
  | .look _ o _ o' | .locked _ o _ o' => o' = o
  | .wait _ _ c c' => c' = c
  | _ => True

structure Inv (size : Nat) (s : State) : Prop where
  ids : List.Perm (s.ids ++ s.callers.filterMap idOf) allIds
  slots : s.space + s.callers.countP hasSlot = size
  mutex : s.callers.countP inPut = if s.mutex then 1 else 0
  objs : (s.callers.filterMap objOf ++ s.pool).Nodup
  objsLt : ∀ o ∈ s.callers.filterMap objOf ++ s.pool, o < s.nextObj
  chans : ∀ x ∈ s.callers.filterMap chanOf,
    s.data x.2.1 = x.2.2 ∧ s.isClosed x.2.2 = false ∧ s.madeFor x.2.2 = x.1 ∧ x.2.2 < s.nextChan
  closedLt : ∀ c, s.nextChan ≤ c → s.isClosed c = false
  agree : ∀ x ∈ s.callers, agrees x
  table : ∀ i o, s.states i = some o ↔ (i, o) ∈ s.callers.filterMap entryOf
  keys : ((s.callers.filterMap entryOf).map Prod.fst).Nodup

theorem idle_none {β : Type} (f : Caller → Option β) (n : Nat) (hf : f .idle = none) :
    (List.replicate n Caller.idle).filterMap f = [] := by
  rw [List.filterMap_replicate_of_none hf]

theorem inv_start (size n m : Nat) : Inv size (start size n m) := by
  have h1 := idle_none idOf n rfl
  have h2 := idle_none objOf n rfl
  have h3 := idle_none chanOf n rfl
  have h4 := idle_none entryOf n rfl
  constructor <;> simp [start, h1, h2, h3, h4, allIds, List.countP_replicate, hasSlot, inPut, agrees]

theorem step_ids {size : Nat} {s s' : State} (hi : Inv size s) (st : Step size s s') :
    List.Perm (s'.ids ++ s'.callers.filterMap idOf) allIds := by
  have h0 := hi.ids
  cases st <;> (try rw [‹s.callers = _›] at h0) <;>
    simp only [List.filterMap_append, List.filterMap_cons, idOf] at h0 ⊢ <;>
    try exact h0
  case takeId l₁ l₂ i rest h hi' =>
    rw [hi'] at h0
    refine List.Perm.trans ?_ h0
    rw [← List.append_assoc, List.cons_append, ← List.append_assoc]
    exact List.perm_middle
  case putFail l₁ l₂ i o c h hm hl =>
    have := (hi.table i o).2 (by rw [h]; simp [entryOf])
    rw [hl] at this; cases this
  case putId l₁ l₂ i o h hf =>
    refine List.Perm.trans ?_ h0
    rw [List.append_assoc, List.singleton_append]
    exact (List.perm_middle.symm.append_left _)

theorem step_slots {size : Nat} {s s' : State} (hi : Inv size s) (st : Step size s s') :
    s'.space + s'.callers.countP hasSlot = size := by
  have h0 := hi.slots
  cases st <;> (try rw [‹s.callers = _›] at h0) <;>
    simp only [List.countP_append, List.countP_cons, hasSlot, Bool.false_eq_true, if_false, if_true] at h0 ⊢ <;>
    try omega
  case putFail l₁ l₂ i o c h hm hl =>
    have := (hi.table i o).2 (by rw [h]; simp [entryOf])
    rw [hl] at this; cases this

theorem step_mutex {size : Nat} {s s' : State} (hi : Inv size s) (st : Step size s s') :
    s'.callers.countP inPut = if s'.mutex then 1 else 0 := by
  have h0 := hi.mutex
  cases st <;> (try rw [‹s.callers = _›] at h0) <;>
    simp only [List.countP_append, List.countP_cons, inPut, Bool.false_eq_true, if_false, if_true] at h0 ⊢ <;>
    try exact h0
  case putLock l₁ l₂ i o c o' h hm hl =>
    rw [hm] at h0; simp only [Bool.false_eq_true, if_false, if_true] at h0 ⊢; omega
  case putDelete l₁ l₂ i o h => 
    split at h0 <;> omega

theorem step_objs {size : Nat} {s s' : State} (hi : Inv size s) (st : Step size s s') :
    (s'.callers.filterMap objOf ++ s'.pool).Nodup ∧
    ∀ o ∈ s'.callers.filterMap objOf ++ s'.pool, o < s'.nextObj := by
  have h0 := hi.objs
  have h1 := hi.objsLt
  have h2 := hi.agree
  cases st <;> (try rw [‹s.callers = _›] at h0 h1 h2) <;>
    simp only [List.filterMap_append, List.filterMap_cons, objOf] at h0 h1 ⊢ <;>
    try exact ⟨h0, h1⟩
  case newObj l₁ l₂ i h =>
    have hn : s.nextObj ∉ List.filterMap objOf l₁ ++ List.filterMap objOf l₂ ++ s.pool :=
      fun hc => absurd (h1 _ hc) (by omega)
    constructor
    · have : (s.nextObj :: (List.filterMap objOf l₁ ++ List.filterMap objOf l₂ ++ s.pool)).Nodup :=
        List.nodup_cons.2 ⟨hn, h0⟩
      refine (List.Perm.nodup_iff ?_).1 this
      rw [List.append_assoc, List.append_assoc, List.cons_append]
      exact List.perm_middle.symm
    · intro o ho
      simp only [List.mem_append, List.mem_cons] at ho h1
      rcases ho with (ho | rfl | ho) | ho
      · have := h1 o (Or.inl (Or.inl ho)); omega
      · omega
      · have := h1 o (Or.inl (Or.inr ho)); omega
      · have := h1 o (Or.inr ho); omega
  case poolObj l₁ l₂ i o p₁ p₂ h hp =>
    rw [hp] at h0 h1
    constructor
    · refine (List.Perm.nodup_iff ?_).1 h0
      rw [List.perm_iff_count]; intro a
      simp only [List.count_append, List.count_cons]; omega
    · intro x hx
      apply h1 x
      simp only [List.mem_append, List.mem_cons] at hx ⊢
      tauto
  case putClose l₁ l₂ i o c o' h =>
    have e : o' = o := h2 (.locked i o c o') (by simp)
    rw [e]; exact ⟨h0, h1⟩
  case putPool l₁ l₂ i o h =>
    constructor
    · refine (List.Perm.nodup_iff ?_).1 h0
      rw [List.perm_iff_count]; intro a
      simp only [List.count_append, List.count_cons]; omega
    · intro x hx
      apply h1 x
      simp only [List.mem_append, List.mem_cons] at hx ⊢
      tauto
  case putFail l₁ l₂ i o c h hm hl =>
    have := (hi.table i o).2 (by rw [h]; simp [entryOf])
    rw [hl] at this; cases this

theorem step_agree {size : Nat} {s s' : State} (hi : Inv size s) (st : Step size s s') :
    ∀ x ∈ s'.callers, agrees x := by
  have h0 := hi.agree
  have hk := hi.keys
  have key : ∀ i o o', s.states i = some o' → (i, o) ∈ s.callers.filterMap entryOf → o' = o := by
    intro i o o' h1 h2
    have := (hi.table i o).2 h2
    rw [h1] at this; exact Option.some.inj this
  cases st <;> (try rw [‹s.callers = _›] at h0) <;>
    simp only [List.forall_mem_append, List.forall_mem_cons, agrees, true_and] at h0 ⊢ <;>
    try first | exact h0 | exact ⟨h0.1, h0.2.2⟩
  case recvLook l₁ l₂ i o c o' h hm hl =>
    exact ⟨h0.1, key i o o' hl (by rw [h]; simp [entryOf]), h0.2⟩
  case putLock l₁ l₂ i o c o' h hm hl =>
    exact ⟨h0.1, key i o o' hl (by rw [h]; simp [entryOf]), h0.2⟩
  case recvWait l₁ l₂ i o c o' h =>
    refine ⟨h0.1, ?_, h0.2.2⟩
    rw [h0.2.1]
    exact (hi.chans (i, o, c) (by rw [h]; simp [chanOf])).1

/-- Two callers before closing their channel have different objects. -/
theorem obj_of_chan {x : Caller} {y} (h : chanOf x = some y) : objOf x = some y.2.1 := by
  cases x <;> simp [chanOf] at h <;> subst h <;> rfl

theorem mem_objs {l : List Caller} {y} (h : y ∈ l.filterMap chanOf) : y.2.1 ∈ l.filterMap objOf := by
  rw [List.mem_filterMap] at h ⊢
  obtain ⟨x, hx, hy⟩ := h
  exact ⟨x, hx, obj_of_chan hy⟩

theorem id_of_chan {x : Caller} {y} (h : chanOf x = some y) : idOf x = some y.1 := by
  cases x <;> simp [chanOf] at h <;> subst h <;> rfl

theorem mem_ids {l : List Caller} {y} (h : y ∈ l.filterMap chanOf) : y.1 ∈ l.filterMap idOf := by
  rw [List.mem_filterMap] at h ⊢
  obtain ⟨x, hx, hy⟩ := h
  exact ⟨x, hx, id_of_chan hy⟩

theorem Inv.idsNodup {size : Nat} {s : State} (hi : Inv size s) :
    (s.ids ++ s.callers.filterMap idOf).Nodup :=
  (List.Perm.nodup_iff hi.ids).2 List.nodup_range'

theorem step_chans {size : Nat} {s s' : State} (hi : Inv size s) (st : Step size s s') :
    (∀ x ∈ s'.callers.filterMap chanOf,
      s'.data x.2.1 = x.2.2 ∧ s'.isClosed x.2.2 = false ∧ s'.madeFor x.2.2 = x.1 ∧
        x.2.2 < s'.nextChan) ∧
    ∀ c, s'.nextChan ≤ c → s'.isClosed c = false := by
  have h0 := hi.chans
  have hc := hi.closedLt
  have ho := hi.objs
  have ha := hi.agree
  cases st <;> (try rw [‹s.callers = _›] at h0 ho ha) <;>
    simp only [List.filterMap_append, List.filterMap_cons, chanOf, List.forall_mem_append, List.forall_mem_cons, objOf] at h0 ho ⊢ <;>
    try first | exact ⟨h0, hc⟩ | exact ⟨⟨h0.1, h0.2.2⟩, hc⟩
  case makeChan l₁ l₂ i o h =>
    have hd : ∀ x, x ∈ l₁.filterMap chanOf ∨ x ∈ l₂.filterMap chanOf → x.2.1 ≠ o := by
      intro x hx e
      have hm := List.nodup_append.1 (List.nodup_append.1 ho).1
      rcases hx with hx | hx
      · exact hm.2.2 _ (mem_objs hx) o (by simp) e
      · exact (List.nodup_cons.1 hm.2.1).1 (e ▸ mem_objs hx)
    have hother : ∀ x, x ∈ l₁.filterMap chanOf ∨ x ∈ l₂.filterMap chanOf →
        Function.update s.data o s.nextChan x.2.1 = x.2.2 ∧ s.isClosed x.2.2 = false ∧
        Function.update s.madeFor s.nextChan i x.2.2 = x.1 ∧ x.2.2 < s.nextChan + 1 := by
      intro x hx
      have hx' := hx.elim (h0.1 x) (h0.2 x)
      rw [Function.update_of_ne (hd x hx), Function.update_of_ne (by omega)]
      exact ⟨hx'.1, hx'.2.1, hx'.2.2.1, by omega⟩
    refine ⟨⟨fun x hx => hother x (Or.inl hx), ?_, fun x hx => hother x (Or.inr hx)⟩, fun c hcc => hc c (by omega)⟩
    simp only [Function.update_self, true_and]
    exact ⟨hc _ (Nat.le_refl _), by omega⟩
  case putClose l₁ l₂ i o c o' h =>
    have e : o' = o := ha (.locked i o c o') (by simp)
    subst e
    have hdc : s.data o' = c := h0.2.1.1
    rw [hdc]
    have hother : ∀ x, x ∈ l₁.filterMap chanOf ∨ x ∈ l₂.filterMap chanOf →
        s.data x.2.1 = x.2.2 ∧ Function.update s.isClosed c true x.2.2 = false ∧
        s.madeFor x.2.2 = x.1 ∧ x.2.2 < s.nextChan := by
      intro x hx
      have hx' := hx.elim (h0.1 x) (h0.2.2 x)
      refine ⟨hx'.1, ?_, hx'.2.2⟩
      rw [Function.update_of_ne, hx'.2.1]
      intro e
      have e1 : x.1 = i := by rw [← hx'.2.2.1, e]; exact h0.2.1.2.2.1
      have hn := (List.nodup_append.1 hi.idsNodup).2.1
      rw [h] at hn
      simp only [List.filterMap_append, List.filterMap_cons, idOf] at hn
      have hm := List.nodup_append.1 hn
      rcases hx with hx | hx
      · exact hm.2.2 _ (mem_ids hx) i (by simp) e1
      · exact (List.nodup_cons.1 hm.2.1).1 (e1 ▸ mem_ids hx)
    refine ⟨⟨fun x hx => hother x (Or.inl hx), fun x hx => hother x (Or.inr hx)⟩, fun d hd => ?_⟩
    have := h0.2.1.2.2.2
    rw [Function.update_of_ne (by omega)]
    exact hc d hd

theorem entry_cases {x : Caller} {y} (h : entryOf x = some y) (hp : inPut x = false) :
    idOf x = some y.1 := by
  cases x <;> simp [entryOf] at h <;> subst h <;> simp_all [inPut, idOf]

theorem mem_entry_ids {l : List Caller} (hp : ∀ x ∈ l, inPut x = false) {y}
    (h : y ∈ l.filterMap entryOf) : y.1 ∈ l.filterMap idOf := by
  rw [List.mem_filterMap] at h ⊢
  obtain ⟨x, hx, hy⟩ := h
  exact ⟨x, hx, entry_cases hy (hp x hx)⟩

theorem Inv.free {size : Nat} {s : State} (hi : Inv size s) (hm : s.mutex = false) :
    ∀ x ∈ s.callers, inPut x = false := by
  have := hi.mutex
  rw [hm] at this
  simp only [Bool.false_eq_true, if_false, List.countP_eq_zero] at this
  intro x hx
  have := this x hx
  simpa using this

theorem step_table {size : Nat} {s s' : State} (hi : Inv size s) (st : Step size s s') :
    (∀ i o, s'.states i = some o ↔ (i, o) ∈ s'.callers.filterMap entryOf) ∧
    ((s'.callers.filterMap entryOf).map Prod.fst).Nodup := by
  have h0 := hi.table
  have h1 := hi.keys
  have ha := hi.agree
  cases st <;> (try rw [‹s.callers = _›] at h0 h1 ha) <;>
    simp only [List.filterMap_append, List.filterMap_cons, entryOf] at h0 h1 ⊢ <;>
    try exact ⟨h0, h1⟩
  case openTx l₁ l₂ i o c h hm =>
    have hf := hi.free hm
    have hn : ∀ o', (i, o') ∉ l₁.filterMap entryOf ++ l₂.filterMap entryOf := by
      intro o' hx
      have hn := (List.nodup_append.1 hi.idsNodup).2.1
      rw [h] at hn hf
      simp only [List.filterMap_append, List.filterMap_cons, idOf] at hn
      have hm := List.nodup_append.1 hn
      rcases List.mem_append.1 hx with hx | hx
      · exact hm.2.2 _ (mem_entry_ids (fun x hx => hf x (by simp [hx])) hx) i (by simp) rfl
      · exact (List.nodup_cons.1 hm.2.1).1 (mem_entry_ids (fun x hx => hf x (by simp [hx])) hx)
    constructor
    · intro j o'
      by_cases e : j = i
      · subst e
        rw [Function.update_self]
        have := hn o'
        simp only [List.mem_append, List.mem_cons, Prod.mk.injEq, true_and, Option.some.injEq] at this ⊢
        constructor
        · intro e; exact Or.inr (Or.inl e.symm)
        · rintro (h | h | h)
          · exact absurd (Or.inl h) this
          · exact h.symm
          · exact absurd (Or.inr h) this
      · rw [Function.update_of_ne e, h0]
        simp only [List.mem_append, List.mem_cons, Prod.mk.injEq, e, false_and, false_or]
    · have : (i :: (l₁.filterMap entryOf ++ l₂.filterMap entryOf).map Prod.fst).Nodup := by
        refine List.nodup_cons.2 ⟨?_, h1⟩
        intro hx
        obtain ⟨y, hy, hye⟩ := List.mem_map.1 hx
        obtain ⟨a, b⟩ := y
        subst hye
        exact hn b hy
      refine (List.Perm.nodup_iff ?_).1 this
      simp only [List.map_append, List.map_cons]
      exact List.perm_middle.symm
  case putClose l₁ l₂ i o c o' h =>
    have e : o' = o := ha (.locked i o c o') (by simp)
    rw [e]; exact ⟨h0, h1⟩
  case putDelete l₁ l₂ i o h =>
    simp only [List.map_append, List.map_cons] at h1
    have hm := List.nodup_append.1 h1
    have hnot : ∀ o', (i, o') ∉ l₁.filterMap entryOf ++ l₂.filterMap entryOf := by
      intro o' hx
      rcases List.mem_append.1 hx with hx | hx
      · exact hm.2.2 i (List.mem_map.2 ⟨_, hx, rfl⟩) i (by simp) rfl
      · exact (List.nodup_cons.1 hm.2.1).1 (List.mem_map.2 ⟨_, hx, rfl⟩)
    constructor
    · intro j o'
      by_cases e : j = i
      · subst e
        rw [Function.update_self]
        constructor
        · intro e; cases e
        · intro hx; exact absurd hx (hnot o')
      · rw [Function.update_of_ne e, h0]
        simp only [List.mem_append, List.mem_cons, Prod.mk.injEq, e, false_and, false_or]
    · have : (i :: (l₁.filterMap entryOf ++ l₂.filterMap entryOf).map Prod.fst).Nodup := by
        refine (List.Perm.nodup_iff ?_).1 h1
        simp only [List.map_append]
        exact List.perm_middle
      exact (List.nodup_cons.1 this).2
  case putFail l₁ l₂ i o c h hm hl =>
    have := (hi.table i o).2 (by rw [h]; simp [entryOf])
    rw [hl] at this; cases this

theorem inv_step {size : Nat} {s s' : State} (hi : Inv size s) (st : Step size s s') :
    Inv size s' where
  ids := step_ids hi st
  slots := step_slots hi st
  mutex := step_mutex hi st
  objs := (step_objs hi st).1
  objsLt := (step_objs hi st).2
  chans := (step_chans hi st).1
  closedLt := (step_chans hi st).2
  agree := step_agree hi st
  table := (step_table hi st).1
  keys := (step_table hi st).2

theorem inv_reach {size n m : Nat} {s : State} (h : Reach size n m s) : Inv size s := by
  induction h with
  | start => exact inv_start size n m
  | step _ st ih => exact inv_step ih st

/-- An entry of the table, while the mutex is free, is the object of an open transaction. -/
theorem Inv.lookup {size : Nat} {s : State} (hi : Inv size s) (hm : s.mutex = false) {i o : Nat}
    (hl : s.states i = some o) : (i, o, s.data o) ∈ s.callers.filterMap chanOf := by
  obtain ⟨x, hx, he⟩ := List.mem_filterMap.1 ((hi.table i o).1 hl)
  have hf := hi.free hm x hx
  have key : ∀ c, chanOf x = some (i, o, c) → (i, o, s.data o) ∈ s.callers.filterMap chanOf := by
    intro c hc
    have h1 : (i, o, c) ∈ s.callers.filterMap chanOf := List.mem_filterMap.2 ⟨x, hx, hc⟩
    have := (hi.chans _ h1).1
    rw [show s.data o = c from this]; exact h1
  cases x <;> simp only [entryOf, Option.some.injEq, Prod.mk.injEq, reduceCtorEq] at he <;>
    first | (simp only [inPut, reduceCtorEq] at hf; done)
          | (obtain ⟨rfl, rfl⟩ := he; exact key _ rfl)

/-- What holds of senders and of the history. -/
structure SInv (s : State) : Prop where
  looked : ∀ i o c v, .looked i o c v ∈ s.senders → s.madeFor c = i ∧ c < s.nextChan ∧ s.data o < s.nextChan
  blocked : ∀ i c c' v, .blocked i c c' v ∈ s.senders → s.madeFor c = i ∧ c < s.nextChan ∧ c' < s.nextChan
  log : ∀ e ∈ s.log, e.stale = false → e.sent = e.received
  nils : s.nils = 0

theorem sinv_step {size : Nat} {s s' : State} (hi : Inv size s) (hs : SInv s) (st : Step size s s') :
    SInv s' := by
  obtain ⟨lk, bl, lg, nl⟩ := hs
  have hc := hi.chans
  have ha := hi.agree
  cases st <;> try exact ⟨lk, bl, lg, nl⟩
  case makeChan l₁ l₂ i o h =>
    constructor
    · intro j p c v hj
      have := lk j p c v hj
      refine ⟨?_, by simp only; omega, ?_⟩
      · simp only; rw [Function.update_of_ne (by omega)]; exact this.1
      · simp only; rw [Function.update_apply]; split <;> omega
    · intro j c c' v hj
      have := bl j c c' v hj
      refine ⟨?_, by simp only; omega, by simp only; omega⟩
      simp only; rw [Function.update_of_ne (by omega)]; exact this.1
    · exact lg
    · exact nl
  case recvNil l₁ l₂ i o c c' h hcl =>
    rw [h] at ha
    have e : c' = c := ha (.wait i o c c') (by simp)
    have := (hc (i, o, c) (by rw [h]; simp [chanOf])).2.1
    rw [e] at hcl
    simp_all
  case handOver l₁ l₂ m₁ m₂ i o c c' j d v h hsd hcl =>
    rw [h] at ha
    have e : c' = c := ha (.wait i o c c') (by simp)
    have h1 := (hc (i, o, c) (by rw [h]; simp [chanOf])).2.2.1
    have h2 := (bl j d c' v (by rw [hsd]; simp)).1
    constructor
    · intro a b c v hx
      apply lk a b c v
      rw [hsd]; simp only [List.mem_append, List.mem_cons] at hx ⊢
      rcases hx with hx | hx | hx
      · exact Or.inl hx
      · cases hx
      · exact Or.inr (Or.inr hx)
    · intro a b c v hx
      apply bl a b c v
      rw [hsd]; simp only [List.mem_append, List.mem_cons] at hx ⊢
      rcases hx with hx | hx | hx
      · exact Or.inl hx
      · cases hx
      · exact Or.inr (Or.inr hx)
    · intro x hx hst
      rcases List.mem_cons.1 hx with rfl | hx
      · simp only [decide_eq_false_iff_not, ne_eq, not_not] at hst
        subst e
        show j = i
        rw [← h2, hst]; exact h1
      · exact lg x hx hst
    · exact nl
  case sendLook m₁ m₂ i o v h hm hl =>
    have h1 := hc _ (hi.lookup hm hl)
    constructor
    · intro a b c w hx
      simp only [List.mem_append, List.mem_cons] at hx
      rcases hx with hx | hx | hx
      · exact lk a b c w (by rw [h]; simp [hx])
      · cases hx; exact ⟨h1.2.2.1, h1.2.2.2, h1.2.2.2⟩
      · exact lk a b c w (by rw [h]; simp [hx])
    · intro a b c w hx
      simp only [List.mem_append, List.mem_cons] at hx
      rcases hx with hx | hx | hx
      · exact bl a b c w (by rw [h]; simp [hx])
      · cases hx
      · exact bl a b c w (by rw [h]; simp [hx])
    · exact lg
    · exact nl
  case sendRead m₁ m₂ i o c v h =>
    constructor
    · intro a b c w hx
      simp only [List.mem_append, List.mem_cons] at hx
      rcases hx with hx | hx | hx
      · exact lk a b c w (by rw [h]; simp [hx])
      · cases hx
      · exact lk a b c w (by rw [h]; simp [hx])
    · intro a b d w hx
      simp only [List.mem_append, List.mem_cons] at hx
      rcases hx with hx | hx | hx
      · exact bl a b d w (by rw [h]; simp [hx])
      · cases hx; exact lk i o c v (by rw [h]; simp)
      · exact bl a b d w (by rw [h]; simp [hx])
    · exact lg
    · exact nl

theorem sinv_reach {size n m : Nat} {s : State} (h : Reach size n m s) : SInv s := by
  induction h with
  | start => constructor <;> simp [start, List.mem_replicate]
  | step r st ih => exact sinv_step (inv_reach r) ih st

end Bac.Tsm
