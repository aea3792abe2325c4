import Verif.Spec.Utsm
import Mathlib.Data.List.Basic
import Mathlib.Data.List.Nodup
/-!
# Invariants of publishers and subscribers
-/

namespace Bac.Utsm
open Bac.Spec

theorem matching_append (lo hi : Int) (a b : List Msg) :
    matching lo hi (a ++ b) = matching lo hi a ++ matching lo hi b := by
  induction a with
  | nil => rfl
  | cons m a ih =>
    simp only [List.cons_append, matching]
    split <;> simp [ih]

theorem mem_remove {k x : Nat} {l : List Nat} (hn : l.Nodup) :
    x ∈ remove k l ↔ x ∈ l ∧ x ≠ k := by
  induction l with
  | nil => simp [remove]
  | cons y l ih =>
    have hn' := List.nodup_cons.1 hn
    simp only [remove]
    split
    · rename_i e; subst e
      constructor
      · intro h; exact ⟨List.mem_cons_of_mem _ h, fun e => hn'.1 (e ▸ h)⟩
      · rintro ⟨h, hne⟩
        exact (List.mem_cons.1 h).resolve_left hne
    · rename_i e
      simp only [List.mem_cons, ih hn'.2]
      constructor
      · rintro (rfl | h)
        · exact ⟨Or.inl rfl, e⟩
        · exact ⟨Or.inr h.1, h.2⟩
      · rintro ⟨rfl | h, hne⟩
        · exact Or.inl rfl
        · exact Or.inr ⟨h, hne⟩

theorem remove_sublist (k : Nat) (l : List Nat) : (remove k l).Sublist l := by
  induction l with
  | nil => exact List.Sublist.refl _
  | cons y l ih =>
    simp only [remove]
    split
    · exact List.sublist_cons_self _ _
    · exact ih.cons_cons _

/-- The publisher holding the manager's mutex. -/
def holder (s : State) : Pub :=
  match s.lock with
  | none => .idle
  | some p => s.pub p

/-- Subscribers a publisher has still to serve. -/
def remaining : Pub → List Nat
  | .idle => []
  | .loop _ rest => rest
  | .inSub _ k rest => k :: rest

/-- What subscriber `k` is still to get from a publication under way. -/
def pending (pb : Pub) (k : Nat) (x : Sub) : List Nat :=
  match pb with
  | .idle => []
  | .loop m rest => if k ∈ rest then matching x.lo x.hi [m] else []
  | .inSub m j rest => if k ∈ j :: rest then matching x.lo x.hi [m] else []

structure Inv (range : Nat → Int × Int) (s : State) : Prop where
  lock : ∀ p, s.pub p ≠ .idle ↔ s.lock = some p
  ranges : ∀ k, ((s.sub k).lo, (s.sub k).hi) = range k
  nodup : s.subs.Nodup
  subs : ∀ k, k ∈ s.subs ↔ subscribed (s.sub k)
  rest : remaining (holder s) <:+ s.subs
  inRange : ∀ m k rest, holder s = .inSub m k rest → (s.sub k).lo ≤ m.id ∧ m.id ≤ (s.sub k).hi
  locked : ∀ k, (s.sub k).locked = true ↔ ∃ m rest, holder s = .inSub m k rest
  cap : ∀ k, (s.sub k).queue.length ≤ 1
  fresh : ∀ k, (s.sub k).pc = .fresh → (s.sub k).store = [] ∧ (s.sub k).queue = []
  hist : ∀ k, subscribed (s.sub k) → (s.sub k).since ≤ s.published.length ∧
    (s.sub k).store ++ (s.sub k).queue ++ pending (holder s) k (s.sub k) =
      matching (s.sub k).lo (s.sub k).hi (s.published.drop (s.sub k).since)
  gone : ∀ k, (s.sub k).pc = .gone → (s.sub k).since ≤ (s.sub k).until_ ∧
    (s.sub k).until_ ≤ s.published.length ∧
    (s.sub k).store ++ (s.sub k).queue =
      matching (s.sub k).lo (s.sub k).hi ((s.published.take (s.sub k).until_).drop (s.sub k).since)

theorem inv_start (range : Nat → Int × Int) : Inv range (start range) := by
  constructor <;> simp [start, holder, remaining, subscribed]

theorem Inv.holder_eq {range s} (hi : Inv range s) {p : Nat} {x : Pub} (h : s.pub p = x)
    (hx : x ≠ .idle) : s.lock = some p ∧ holder s = x := by
  have := (hi.lock p).1 (by rw [h]; exact hx)
  exact ⟨this, by simp [holder, this, h]⟩

theorem lock_update {range s} (hi : Inv range s) {p : Nat} {x y : Pub} (h : s.pub p = x)
    (hx : x ≠ .idle) (hy : y ≠ .idle) :
    ∀ q, Function.update s.pub p y q ≠ .idle ↔ s.lock = some q := by
  intro q
  by_cases e : q = p
  · subst e; simp [(hi.holder_eq h hx).1, hy]
  · rw [Function.update_of_ne e]; exact hi.lock q

/-- A step of a subscriber that leaves the manager alone. -/
theorem inv_sub {range s} (hi : Inv range s) (k : Nat) (x : Sub)
    (hl : x.lo = (s.sub k).lo) (hh : x.hi = (s.sub k).hi) (hlk : x.locked = (s.sub k).locked)
    (hs : x.since = (s.sub k).since) (h1 : subscribed (s.sub k)) (h2 : subscribed x)
    (hq : x.queue.length ≤ 1) (hb : x.store ++ x.queue = (s.sub k).store ++ (s.sub k).queue) :
    Inv range { s with sub := Function.update s.sub k x } := by
  have hh' : holder { s with sub := Function.update s.sub k x } = holder s := rfl
  constructor
  · exact hi.lock
  · intro j
    by_cases e : j = k
    · subst e; simp only [Function.update_self, hl, hh]; exact hi.ranges j
    · simp only [Function.update_of_ne e]; exact hi.ranges j
  · exact hi.nodup
  · intro j
    by_cases e : j = k
    · subst e; simp only [Function.update_self]
      exact ⟨fun _ => h2, fun _ => (hi.subs j).2 h1⟩
    · simp only [Function.update_of_ne e]; exact hi.subs j
  · exact hi.rest
  · intro m j rest h
    rw [hh'] at h
    by_cases e : j = k
    · subst e; simp only [Function.update_self, hl, hh]; exact hi.inRange m j rest h
    · simp only [Function.update_of_ne e]; exact hi.inRange m j rest h
  · intro j
    rw [hh']
    by_cases e : j = k
    · subst e; simp only [Function.update_self, hlk]; exact hi.locked j
    · simp only [Function.update_of_ne e]; exact hi.locked j
  · intro j
    by_cases e : j = k
    · subst e; simp only [Function.update_self]; exact hq
    · simp only [Function.update_of_ne e]; exact hi.cap j
  · intro j
    by_cases e : j = k
    · subst e; simp only [Function.update_self]
      intro hf; simp only [subscribed, hf, reduceCtorEq, or_self] at h2
    · simp only [Function.update_of_ne e]; exact hi.fresh j
  · intro j
    rw [hh']
    by_cases e : j = k
    · subst e; simp only [Function.update_self]
      intro _
      have := hi.hist j h1
      rw [hs, hl, hh, hb]
      refine ⟨this.1, ?_⟩
      have hp : pending (holder s) j x = pending (holder s) j (s.sub j) := by
        unfold pending; rw [hl, hh]
      rw [hp]; exact this.2
    · simp only [Function.update_of_ne e]; exact hi.hist j
  · intro j
    by_cases e : j = k
    · subst e; simp only [Function.update_self]
      intro hf; simp only [subscribed, hf, reduceCtorEq, or_self] at h2
    · simp only [Function.update_of_ne e]; exact hi.gone j

theorem inv_step {range} {s s' : State} (hi : Inv range s) (st : Step s s') : Inv range s' := by
  cases st with
  | getTimeout k h hf =>
    exact inv_sub hi k _ rfl rfl rfl rfl (Or.inl h) (Or.inr (Or.inl rfl)) (hi.cap k) rfl
  | timeout k h =>
    exact inv_sub hi k _ rfl rfl rfl rfl (Or.inr (Or.inl h)) (Or.inr (Or.inr rfl)) (hi.cap k) rfl
  | receive k b q h hq =>
    refine inv_sub hi k _ rfl rfl rfl rfl (Or.inr (Or.inl h)) (Or.inl rfl) ?_ ?_
    · have := hi.cap k; rw [hq] at this; simp at this; simp [this]
    · simp [hq]
  | pubStart p m h hl =>
    have hh : holder s = .idle := by simp [holder, hl]
    have hh' : holder { s with lock := some p, pub := Function.update s.pub p (.loop m s.subs), published := s.published ++ [m] } = .loop m s.subs := by
      simp [holder]
    constructor
    · intro q
      by_cases e : q = p
      · subst e; simp
      · simp only [Function.update_of_ne e, hi.lock q, hl]
        simp [Ne.symm e]
    · exact hi.ranges
    · exact hi.nodup
    · exact hi.subs
    · rw [hh']; exact List.suffix_refl _
    · intro m' k rest h; rw [hh'] at h; cases h
    · intro k
      rw [hh']
      have := hi.locked k
      rw [hh] at this
      simpa using this
    · exact hi.cap
    · exact hi.fresh
    · intro k hs
      have := hi.hist k hs
      rw [hh] at this
      rw [hh']
      have hk := (hi.subs k).2 hs
      simp only [pending, List.append_nil, hk, if_true] at this ⊢
      refine ⟨by simp; omega, ?_⟩
      rw [List.drop_append_of_le_length this.1, matching_append, ← this.2]
    · intro k hg
      have := hi.gone k hg
      refine ⟨this.1, by simp; omega, ?_⟩
      simp only
      rw [List.take_append_of_le_length this.2.1]
      exact this.2.2
  | pubSkip p m k rest h hr =>
    obtain ⟨hlk, hh⟩ := hi.holder_eq h (by simp)
    have hh' : holder { s with pub := Function.update s.pub p (.loop m rest) } = .loop m rest := by
      simp [holder, hlk]
    have hrest := hi.rest
    rw [hh] at hrest
    constructor
    · exact lock_update hi h (by simp) (by simp)
    · exact hi.ranges
    · exact hi.nodup
    · exact hi.subs
    · rw [hh']; exact (List.suffix_cons k rest).trans hrest
    · intro m' j r h; rw [hh'] at h; cases h
    · intro j
      rw [hh']
      have := hi.locked j
      rw [hh] at this
      simpa using this
    · exact hi.cap
    · exact hi.fresh
    · intro j hs
      have := hi.hist j hs
      rw [hh] at this
      rw [hh']
      refine ⟨this.1, ?_⟩
      have hnk : k ∉ rest := (List.nodup_cons.1 (hi.nodup.sublist hrest.sublist)).1
      by_cases e : j = k
      · subst e
        simp only [pending, List.mem_cons, true_or, if_true, hnk, if_false, List.append_nil] at this ⊢
        rw [← this.2]
        have : matching (s.sub j).lo (s.sub j).hi [m] = [] := by
          simp only [matching]; rw [if_neg hr]
        rw [this, List.append_nil]
      · simp only [pending, List.mem_cons, e, false_or] at this ⊢
        exact this.2
    · exact hi.gone
  | pubLock p m k rest h hr hf =>
    obtain ⟨hlk, hh⟩ := hi.holder_eq h (by simp)
    have hh' : holder { s with pub := Function.update s.pub p (.inSub m k rest), sub := Function.update s.sub k { s.sub k with locked := true } } = .inSub m k rest := by
      simp [holder, hlk]
    have hrest := hi.rest
    rw [hh] at hrest
    have pc : ∀ j, (Function.update s.sub k { s.sub k with locked := true } j).pc = (s.sub j).pc ∧
        (Function.update s.sub k { s.sub k with locked := true } j).lo = (s.sub j).lo ∧
        (Function.update s.sub k { s.sub k with locked := true } j).hi = (s.sub j).hi ∧
        (Function.update s.sub k { s.sub k with locked := true } j).queue = (s.sub j).queue ∧
        (Function.update s.sub k { s.sub k with locked := true } j).store = (s.sub j).store ∧
        (Function.update s.sub k { s.sub k with locked := true } j).since = (s.sub j).since ∧
        (Function.update s.sub k { s.sub k with locked := true } j).until_ = (s.sub j).until_ := by
      intro j
      by_cases e : j = k
      · subst e; simp
      · simp [Function.update_of_ne e]
    constructor
    · exact lock_update hi h (by simp) (by simp)
    · intro j; simp only [pc j]; exact hi.ranges j
    · exact hi.nodup
    · intro j; simp only [subscribed, pc j]; exact hi.subs j
    · rw [hh']; exact hrest
    · intro m' j r h'
      rw [hh'] at h'; cases h'
      simp only [pc k]; exact hr
    · intro j
      rw [hh']
      have := hi.locked j
      rw [hh] at this
      by_cases e : j = k
      · subst e; simp
      · simp only [Function.update_of_ne e, this]
        simp [Ne.symm e]
    · intro j; simp only [pc j]; exact hi.cap j
    · intro j; simp only [pc j]; exact hi.fresh j
    · intro j hs
      simp only [subscribed, pc j] at hs
      have := hi.hist j hs
      rw [hh] at this
      rw [hh']
      simp only [pending, pc j] at this ⊢
      exact this
    · intro j; simp only [pc j]; exact hi.gone j
  | pubSend p m k rest h hq =>
    obtain ⟨hlk, hh⟩ := hi.holder_eq h (by simp)
    have hh' : holder { s with pub := Function.update s.pub p (.loop m rest), sub := Function.update s.sub k { s.sub k with queue := [m.data], locked := false } } = .loop m rest := by
      simp [holder, hlk]
    have hrest := hi.rest
    rw [hh] at hrest
    have hr := hi.inRange m k rest hh
    have hks : k ∈ s.subs := hrest.subset (by simp [remaining])
    have hnk : k ∉ rest := (List.nodup_cons.1 (hi.nodup.sublist hrest.sublist)).1
    have hsk := (hi.subs k).1 hks
    constructor
    · exact lock_update hi h (by simp) (by simp)
    · intro j
      by_cases e : j = k
      · subst e; simp only [Function.update_self]; exact hi.ranges j
      · simp only [Function.update_of_ne e]; exact hi.ranges j
    · exact hi.nodup
    · intro j
      by_cases e : j = k
      · subst e; simp only [Function.update_self, subscribed]; exact hi.subs j
      · simp only [Function.update_of_ne e]; exact hi.subs j
    · rw [hh']; exact (List.suffix_cons k rest).trans hrest
    · intro m' j r h'; rw [hh'] at h'; cases h'
    · intro j
      rw [hh']
      have := hi.locked j
      rw [hh] at this
      by_cases e : j = k
      · subst e; simp
      · simp only [Function.update_of_ne e, this]
        simp [Ne.symm e]
    · intro j
      by_cases e : j = k
      · subst e; simp
      · simp only [Function.update_of_ne e]; exact hi.cap j
    · intro j
      by_cases e : j = k
      · subst e; simp only [Function.update_self]
        intro hf; simp only [subscribed, hf, reduceCtorEq, or_self] at hsk
      · simp only [Function.update_of_ne e]; exact hi.fresh j
    · intro j
      rw [hh']
      by_cases e : j = k
      · subst e
        simp only [Function.update_self]
        intro _
        have := hi.hist j hsk
        rw [hh] at this
        simp only [pending, List.mem_cons, true_or, if_true, hnk, if_false, List.append_nil] at this ⊢
        refine ⟨this.1, ?_⟩
        rw [← this.2, hq]
        simp only [matching, hr, and_self, if_true, List.append_nil]
      · simp only [Function.update_of_ne e]
        intro hs
        have := hi.hist j hs
        rw [hh] at this
        simp only [pending, List.mem_cons, e, false_or] at this ⊢
        exact this
    · intro j
      by_cases e : j = k
      · subst e; simp only [Function.update_self]
        intro hf; simp only [subscribed, hf, reduceCtorEq, or_self] at hsk
      · simp only [Function.update_of_ne e]; exact hi.gone j
  | pubEnd p m h =>
    obtain ⟨hlk, hh⟩ := hi.holder_eq h (by simp)
    have hh' : holder { s with lock := none, pub := Function.update s.pub p .idle } = .idle := by
      simp [holder]
    constructor
    · intro q
      by_cases e : q = p
      · subst e; simp
      · simp only [Function.update_of_ne e, hi.lock q, hlk]
        simp [Ne.symm e]
    · exact hi.ranges
    · exact hi.nodup
    · exact hi.subs
    · rw [hh']; exact List.nil_suffix
    · intro m' k rest h; rw [hh'] at h; cases h
    · intro k
      rw [hh']
      have := hi.locked k
      rw [hh] at this
      simpa using this
    · exact hi.cap
    · exact hi.fresh
    · intro k hs
      have := hi.hist k hs
      rw [hh] at this
      rw [hh']
      simpa [pending] using this
    · exact hi.gone
  | subscribe k h hl =>
    have hh : holder s = .idle := by simp [holder, hl]
    have hh' : holder { s with subs := s.subs ++ [k], sub := Function.update s.sub k { s.sub k with pc := .top, since := s.published.length } } = .idle := by
      simp [holder, hl]
    have hk : k ∉ s.subs := by
      rw [hi.subs k]; simp [subscribed, h]
    constructor
    · exact hi.lock
    · intro j
      by_cases e : j = k
      · subst e; simp only [Function.update_self]; exact hi.ranges j
      · simp only [Function.update_of_ne e]; exact hi.ranges j
    · simp only
      rw [List.nodup_append]
      refine ⟨hi.nodup, by simp, ?_⟩
      intro a ha b hb e
      rw [List.mem_singleton] at hb
      subst hb; subst e; exact hk ha
    · intro j
      by_cases e : j = k
      · subst e; simp [subscribed]
      · simp only [Function.update_of_ne e, List.mem_append, List.mem_singleton, e, or_false]
        exact hi.subs j
    · rw [hh']; exact List.nil_suffix
    · intro m' j rest h; rw [hh'] at h; cases h
    · intro j
      rw [hh']
      have := hi.locked j
      rw [hh] at this
      by_cases e : j = k
      · subst e; simpa using this
      · simp only [Function.update_of_ne e]; simpa using this
    · intro j
      by_cases e : j = k
      · subst e; simp only [Function.update_self]; exact hi.cap j
      · simp only [Function.update_of_ne e]; exact hi.cap j
    · intro j
      by_cases e : j = k
      · subst e; simp
      · simp only [Function.update_of_ne e]; exact hi.fresh j
    · intro j
      rw [hh']
      by_cases e : j = k
      · subst e
        intro _
        have := hi.fresh j h
        simp [this, pending, matching]
      · simp only [Function.update_of_ne e]
        have := hi.hist j
        rw [hh] at this
        exact this
    · intro j
      by_cases e : j = k
      · subst e; simp
      · simp only [Function.update_of_ne e]; exact hi.gone j
  | unsubscribe k h hl =>
    have hh : holder s = .idle := by simp [holder, hl]
    have hh' : holder { s with subs := remove k s.subs, sub := Function.update s.sub k { s.sub k with pc := .gone, until_ := s.published.length } } = .idle := by
      simp [holder, hl]
    have hsk : subscribed (s.sub k) := Or.inr (Or.inr h)
    constructor
    · exact hi.lock
    · intro j
      by_cases e : j = k
      · subst e; simp only [Function.update_self]; exact hi.ranges j
      · simp only [Function.update_of_ne e]; exact hi.ranges j
    · exact hi.nodup.sublist (remove_sublist k _)
    · intro j
      simp only [mem_remove hi.nodup]
      by_cases e : j = k
      · subst e; simp [subscribed]
      · simp only [Function.update_of_ne e, ne_eq, e, not_false_eq_true, and_true]
        exact hi.subs j
    · rw [hh']; exact List.nil_suffix
    · intro m' j rest h; rw [hh'] at h; cases h
    · intro j
      rw [hh']
      have := hi.locked j
      rw [hh] at this
      by_cases e : j = k
      · subst e; simpa using this
      · simp only [Function.update_of_ne e]; simpa using this
    · intro j
      by_cases e : j = k
      · subst e; simp only [Function.update_self]; exact hi.cap j
      · simp only [Function.update_of_ne e]; exact hi.cap j
    · intro j
      by_cases e : j = k
      · subst e; simp
      · simp only [Function.update_of_ne e]; exact hi.fresh j
    · intro j
      rw [hh']
      by_cases e : j = k
      · subst e; simp [subscribed]
      · simp only [Function.update_of_ne e]
        have := hi.hist j
        rw [hh] at this
        exact this
    · intro j
      by_cases e : j = k
      · subst e
        intro _
        have := hi.hist j hsk
        rw [hh] at this
        simp only [Function.update_self, List.take_length]
        simp only [pending, List.append_nil] at this
        exact ⟨this.1, Nat.le_refl _, this.2⟩
      · simp only [Function.update_of_ne e]; exact hi.gone j

theorem inv_reach {range} {s : State} (h : Reach range s) : Inv range s := by
  induction h with
  | start => exact inv_start range
  | step _ st ih => exact inv_step ih st

end Bac.Utsm
