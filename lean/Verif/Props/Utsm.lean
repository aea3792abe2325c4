import Verif.Lemmas.Utsm
import Mathlib.Logic.Relation
/-!
# C51 – C53: publishers and subscribers
-/

namespace Bac.Props
open Bac.Utsm Bac.Spec

/-! ## C51 -/

/-- C51: while no publication is under way, what a subscriber has received followed by
what is queued for it is the data of all messages published since it subscribed whose id
lies in its range, in order. -/
theorem C51_exact (range : Nat → Int × Int) (s : State) (h : Reach range s)
    (hl : s.lock = none) (k : Nat) (hk : subscribed (s.sub k)) :
    (s.sub k).store ++ (s.sub k).queue =
      matching (range k).1 (range k).2 (s.published.drop (s.sub k).since) := by
  have hi := inv_reach h
  have h1 := (hi.hist k hk).2
  have h2 := hi.ranges k
  simp only [holder, hl, pending, List.append_nil] at h1
  rw [h1, ← h2]

/-- C51: while a publication is under way, at most its message is missing, at the end. -/
theorem C51_under_way (range : Nat → Int × Int) (s : State) (h : Reach range s) (k : Nat)
    (hk : subscribed (s.sub k)) :
    ∃ t, t.length ≤ 1 ∧ (s.sub k).store ++ (s.sub k).queue ++ t =
      matching (range k).1 (range k).2 (s.published.drop (s.sub k).since) := by
  have hi := inv_reach h
  have h1 := (hi.hist k hk).2
  have h2 := hi.ranges k
  refine ⟨pending (holder s) k (s.sub k), ?_, by rw [h1, ← h2]⟩
  have key : ∀ lo hi m, (matching lo hi [m]).length ≤ 1 := by
    intro lo hi m; simp only [matching]; split <;> simp
  unfold pending
  split
  · simp
  · split
    · exact key _ _ _
    · simp
  · split
    · exact key _ _ _
    · simp

/-- C51: a call of `Subscribe` that has returned has returned the matching messages of its
time in order, except that the last one may be missing. -/
theorem C51_returned (range : Nat → Int × Int) (s : State) (h : Reach range s) (k : Nat)
    (hk : (s.sub k).pc = .gone) :
    ∃ t, t.length ≤ 1 ∧ (s.sub k).store ++ t = matching (range k).1 (range k).2
      ((s.published.take (s.sub k).until_).drop (s.sub k).since) := by
  have hi := inv_reach h
  have h1 := (hi.gone k hk).2.2
  have h2 := hi.ranges k
  exact ⟨(s.sub k).queue, hi.cap k, by rw [h1, ← h2]⟩

/-- One subscriber for 1..10; 5 and 7 are published to it, 20 is not. -/
theorem delivered : ∃ s, Reach (fun _ => (1, 10)) s ∧ s.lock = none ∧
    s.published = [⟨5, 100⟩, ⟨20, 101⟩, ⟨7, 102⟩] ∧ s.subs = [0] ∧
    s.sub 0 = ⟨1, 10, .select, [102], false, [100], 0, 0⟩ := by
  have r := Reach.start (range := fun _ => (1, 10))
  have r := r.step (Step.subscribe _ 0 rfl rfl)
  have r := r.step (Step.getTimeout _ 0 rfl rfl)
  have r := r.step (Step.pubStart _ 0 ⟨5, 100⟩ rfl rfl)
  have r := r.step (Step.pubLock _ 0 ⟨5, 100⟩ 0 [] rfl (by decide) rfl)
  have r := r.step (Step.pubSend _ 0 ⟨5, 100⟩ 0 [] rfl rfl)
  have r := r.step (Step.receive _ 0 100 [] rfl rfl)
  have r := r.step (Step.pubEnd _ 0 ⟨5, 100⟩ rfl)
  have r := r.step (Step.pubStart _ 1 ⟨20, 101⟩ rfl rfl)
  have r := r.step (Step.pubSkip _ 1 ⟨20, 101⟩ 0 [] rfl (by decide))
  have r := r.step (Step.pubEnd _ 1 ⟨20, 101⟩ rfl)
  have r := r.step (Step.pubStart _ 0 ⟨7, 102⟩ rfl rfl)
  have r := r.step (Step.pubLock _ 0 ⟨7, 102⟩ 0 [] rfl (by decide) rfl)
  have r := r.step (Step.pubSend _ 0 ⟨7, 102⟩ 0 [] rfl rfl)
  have r := r.step (Step.pubEnd _ 0 ⟨7, 102⟩ rfl)
  have r := r.step (Step.getTimeout _ 0 rfl rfl)
  exact ⟨_, r, rfl, rfl, rfl, rfl⟩

example : matching 1 10 [⟨5, 100⟩, ⟨20, 101⟩, ⟨7, 102⟩] = [100] ++ [102] := by decide

example : ∃ s, Reach (fun _ => (1, 10)) s ∧ (s.sub 0).pc = .gone ∧ (s.sub 0).store = [100] ∧
    s.subs = [] := by
  obtain ⟨s, r, hl, _, hs, h0⟩ := delivered
  have r := r.step (Step.timeout _ 0 (by rw [h0]))
  have r := r.step (Step.unsubscribe _ 0 (by simp) hl)
  exact ⟨_, r, by simp, by simp [h0], by simp [hs, remove]⟩

/-! ## C52 -/

/-- Publisher `p` waits for room in the queue of subscriber `k`, holding both mutexes,
and the subscriber does not come back to empty it. -/
def Dead (s : State) (p k : Nat) : Prop :=
  (∃ m rest, s.pub p = .inSub m k rest) ∧ (s.sub k).queue ≠ [] ∧
    ((s.sub k).pc = .top ∨ (s.sub k).pc = .leaving)

/-- C52 fails: two messages arrive before the subscriber has computed its time-out. -/
theorem C52_fails : ∃ s, Reach (fun _ => (1, 10)) s ∧ Dead s 1 0 ∧ (s.sub 0).pc = .top := by
  have r := Reach.start (range := fun _ => (1, 10))
  have r := r.step (Step.subscribe _ 0 rfl rfl)
  have r := r.step (Step.pubStart _ 0 ⟨5, 100⟩ rfl rfl)
  have r := r.step (Step.pubLock _ 0 ⟨5, 100⟩ 0 [] rfl (by decide) rfl)
  have r := r.step (Step.pubSend _ 0 ⟨5, 100⟩ 0 [] rfl rfl)
  have r := r.step (Step.pubEnd _ 0 ⟨5, 100⟩ rfl)
  have r := r.step (Step.pubStart _ 1 ⟨6, 101⟩ rfl rfl)
  have r := r.step (Step.pubLock _ 1 ⟨6, 101⟩ 0 [] rfl (by decide) rfl)
  exact ⟨_, r, ⟨⟨⟨6, 101⟩, [], rfl⟩, by simp, Or.inl rfl⟩, rfl⟩

/-- C52 fails: a message is queued and another one on its way when the time is up. -/
theorem C52_fails_timeout : ∃ s, Reach (fun _ => (1, 10)) s ∧ Dead s 1 0 ∧
    (s.sub 0).pc = .leaving := by
  have r := Reach.start (range := fun _ => (1, 10))
  have r := r.step (Step.subscribe _ 0 rfl rfl)
  have r := r.step (Step.getTimeout _ 0 rfl rfl)
  have r := r.step (Step.pubStart _ 0 ⟨5, 100⟩ rfl rfl)
  have r := r.step (Step.pubLock _ 0 ⟨5, 100⟩ 0 [] rfl (by decide) rfl)
  have r := r.step (Step.pubSend _ 0 ⟨5, 100⟩ 0 [] rfl rfl)
  have r := r.step (Step.pubEnd _ 0 ⟨5, 100⟩ rfl)
  have r := r.step (Step.timeout _ 0 rfl)
  have r := r.step (Step.pubStart _ 1 ⟨6, 101⟩ rfl rfl)
  have r := r.step (Step.pubLock _ 1 ⟨6, 101⟩ 0 [] rfl (by decide) rfl)
  exact ⟨_, r, ⟨⟨⟨6, 101⟩, [], rfl⟩, by simp, Or.inr rfl⟩, rfl⟩

theorem reach_trans' {range} {s s' : State} (h : Reach range s)
    (st : Relation.ReflTransGen Step s s') : Reach range s' := by
  induction st with
  | refl => exact h
  | tail _ st ih => exact ih.step st

theorem dead_step {range} {s s' : State} (h : Reach range s) {p k : Nat} (hd : Dead s p k)
    (st : Step s s') : s'.pub = s.pub ∧ s'.sub k = s.sub k ∧ s'.lock = some p ∧
      s'.subs = s.subs ∧ s'.published = s.published ∧
      ∀ j, ((s'.sub j).pc = .gone ↔ (s.sub j).pc = .gone) ∧
        ((s'.sub j).pc = .fresh ↔ (s.sub j).pc = .fresh) := by
  have hi := inv_reach h
  obtain ⟨⟨m, rest, hp⟩, hq, hpc⟩ := hd
  obtain ⟨hlk, hh⟩ := hi.holder_eq hp (by simp)
  have hlocked := (hi.locked k).2 ⟨m, rest, hh⟩
  have only : ∀ q, s.pub q ≠ .idle → q = p := by
    intro q hq
    have := (hi.lock q).1 hq
    rw [hlk] at this; exact (Option.some.inj this).symm
  cases st with
  | pubStart q m' h' hl => rw [hlk] at hl; cases hl
  | pubSkip q m' j r h' hr =>
    have := only q (by rw [h']; simp); subst this
    rw [hp] at h'; cases h'
  | pubLock q m' j r h' hr hf =>
    have := only q (by rw [h']; simp); subst this
    rw [hp] at h'; cases h'
  | pubSend q m' j r h' hqe =>
    have := only q (by rw [h']; simp); subst this
    rw [hp] at h'; cases h'
    exact absurd hqe hq
  | pubEnd q m' h' =>
    have := only q (by rw [h']; simp); subst this
    rw [hp] at h'; cases h'
  | subscribe j h' hl => rw [hlk] at hl; cases hl
  | unsubscribe j h' hl => rw [hlk] at hl; cases hl
  | getTimeout j h' hf =>
    have e : j ≠ k := by rintro rfl; rw [hlocked] at hf; cases hf
    refine ⟨rfl, Function.update_of_ne (Ne.symm e) _ _, hlk, rfl, rfl, fun i => ?_⟩
    by_cases ei : i = j
    · subst ei; simp [h']
    · simp [Function.update_of_ne ei]
  | receive j b q h' hq' =>
    have e : j ≠ k := by
      rintro rfl; rw [h'] at hpc; rcases hpc with hpc | hpc <;> cases hpc
    refine ⟨rfl, Function.update_of_ne (Ne.symm e) _ _, hlk, rfl, rfl, fun i => ?_⟩
    by_cases ei : i = j
    · subst ei; simp [h']
    · simp [Function.update_of_ne ei]
  | timeout j h' =>
    have e : j ≠ k := by
      rintro rfl; rw [h'] at hpc; rcases hpc with hpc | hpc <;> cases hpc
    refine ⟨rfl, Function.update_of_ne (Ne.symm e) _ _, hlk, rfl, rfl, fun i => ?_⟩
    by_cases ei : i = j
    · subst ei; simp [h']
    · simp [Function.update_of_ne ei]

/-- C52 fails for good: once a publisher waits for such a subscriber, no publication ever
finishes or begins, the subscriber never moves, no call of `Subscribe` ever returns and
none ever gets started. -/
theorem C52_dead_forever (range : Nat → Int × Int) (s s' : State) (h : Reach range s) (p k : Nat)
    (hd : Dead s p k) (st : Relation.ReflTransGen Step s s') :
    Dead s' p k ∧ s'.pub = s.pub ∧ s'.published = s.published ∧ s'.sub k = s.sub k ∧
      ∀ j, ((s'.sub j).pc = .gone ↔ (s.sub j).pc = .gone) ∧
        ((s'.sub j).pc = .fresh ↔ (s.sub j).pc = .fresh) := by
  induction st with
  | refl => exact ⟨hd, rfl, rfl, rfl, fun _ => ⟨Iff.rfl, Iff.rfl⟩⟩
  | tail hst st ih =>
    obtain ⟨h1, h2, h3, h4, h5⟩ := ih
    obtain ⟨g1, g2, _, _, g5, g6⟩ := dead_step (reach_trans' h hst) h1 st
    refine ⟨?_, g1.trans h2, g5.trans h3, g2.trans h4, fun j => ?_⟩
    · obtain ⟨a, b, c⟩ := h1
      exact ⟨by rw [g1]; exact a, by rw [g2]; exact b, by rw [g2]; exact c⟩
    · exact ⟨(g6 j).1.trans (h5 j).1, (g6 j).2.trans (h5 j).2⟩

theorem loop_completes (range : Nat → Int × Int) (m : Msg) (p : Nat) (rest : List Nat) :
    ∀ s, Reach range s → s.pub p = .loop m rest →
    (∀ k ∈ rest, m.id ≥ (s.sub k).lo ∧ m.id ≤ (s.sub k).hi → (s.sub k).pc = .leaving → (s.sub k).queue = []) →
    ∃ s', Relation.ReflTransGen Step s s' ∧ s'.lock = none ∧ s'.pub p = .idle ∧
      s'.published = s.published := by
  induction rest with
  | nil =>
    intro s _ hp _
    exact ⟨_, .single (Step.pubEnd s p m hp), rfl, by simp, rfl⟩
  | cons k rest ih =>
    intro s h hp hq
    have hi := inv_reach h
    obtain ⟨hlk, hh⟩ := hi.holder_eq hp (by simp)
    have hrest := hi.rest
    rw [hh] at hrest
    have hnk : k ∉ rest := (List.nodup_cons.1 (hi.nodup.sublist hrest.sublist)).1
    have hsub := (hi.subs k).1 (hrest.subset (by simp [remaining]))
    by_cases hr : m.id ≥ (s.sub k).lo ∧ m.id ≤ (s.sub k).hi
    · have hunl : (s.sub k).locked = false := by
        cases hc : (s.sub k).locked with
        | false => rfl
        | true =>
          obtain ⟨m', r', e⟩ := (hi.locked k).1 hc
          rw [hh] at e; cases e
      -- the subscriber empties its queue
      obtain ⟨s1, p1, hp1, hq1, hl1, hr1, ho1, hpub1⟩ : ∃ s1, Relation.ReflTransGen Step s s1 ∧
          s1.pub p = .loop m (k :: rest) ∧ (s1.sub k).queue = [] ∧ (s1.sub k).locked = false ∧
          (m.id ≥ (s1.sub k).lo ∧ m.id ≤ (s1.sub k).hi) ∧ (∀ j ∈ rest, s1.sub j = s.sub j) ∧
          s1.published = s.published := by
        have recv : ∀ s0 : State, s0.pub p = .loop m (k :: rest) → (s0.sub k).pc = .select →
            (s0.sub k).queue.length ≤ 1 → (s0.sub k).queue ≠ [] → (s0.sub k).locked = false →
            (m.id ≥ (s0.sub k).lo ∧ m.id ≤ (s0.sub k).hi) →
            ∃ s1, Relation.ReflTransGen Step s0 s1 ∧
            s1.pub p = .loop m (k :: rest) ∧ (s1.sub k).queue = [] ∧ (s1.sub k).locked = false ∧
            (m.id ≥ (s1.sub k).lo ∧ m.id ≤ (s1.sub k).hi) ∧ (∀ j ∈ rest, s1.sub j = s0.sub j) ∧
            s1.published = s0.published := by
          intro s0 a b c d e f
          cases hqe : (s0.sub k).queue with
          | nil => exact absurd hqe d
          | cons x q =>
            rw [hqe] at c
            have : q = [] := by cases q with
              | nil => rfl
              | cons _ _ => simp at c
            subst this
            refine ⟨_, .single (Step.receive s0 k x [] b hqe), a, by simp, by simpa using e, by simpa using f, ?_, rfl⟩
            intro j hj
            exact Function.update_of_ne (show j ≠ k from fun e => hnk (e ▸ hj)) _ _
        by_cases hqe : (s.sub k).queue = []
        · exact ⟨s, .refl, hp, hqe, hunl, hr, fun _ _ => rfl, rfl⟩
        · rcases hsub with hpc | hpc | hpc
          · have st := Step.getTimeout s k hpc hunl
            obtain ⟨s1, a, b, c, d, e, f, g⟩ := recv { s with sub := Function.update s.sub k { s.sub k with pc := .select } } hp
              (by simp) (by simpa using hi.cap k) (by simpa using hqe) (by simpa using hunl) (by simpa using hr)
            refine ⟨s1, .head st a, b, c, d, e, fun j hj => ?_, g⟩
            rw [f j hj]
            exact Function.update_of_ne (show j ≠ k from fun e => hnk (e ▸ hj)) _ _
          · exact recv s hp hpc (hi.cap k) hqe hunl hr
          · exact absurd (hq k (by simp) hr hpc) hqe
      have st2 := Step.pubLock s1 p m k rest hp1 hr1 hl1
      have st3 := Step.pubSend { s1 with pub := Function.update s1.pub p (.inSub m k rest), sub := Function.update s1.sub k { s1.sub k with locked := true } } p m k rest
        (by simp) (by simpa using hq1)
      have path := (p1.tail st2).tail st3
      obtain ⟨s', q1, q2, q3, q4⟩ := ih _ (reach_trans' h path) (by simp) (by
        intro j hj hin hpc
        have e : j ≠ k := fun e => hnk (e ▸ hj)
        simp only [Function.update_of_ne e, ho1 j hj] at hin hpc ⊢
        exact hq j (by simp [hj]) hin hpc)
      exact ⟨s', path.trans q1, q2, q3, q4.trans hpub1⟩
    · have st := Step.pubSkip s p m k rest hp hr
      obtain ⟨s', q1, q2, q3, q4⟩ := ih _ (h.step st) (by simp) (fun j hj => hq j (by simp [hj]))
      exact ⟨s', .head st q1, q2, q3, q4⟩

theorem completes (range : Nat → Int × Int) (s : State) (h : Reach range s) (p : Nat)
    (hl : s.lock = some p) (hd : ∀ k, ¬ Dead s p k)
    (hq : ∀ m rest k, (s.pub p = .loop m rest ∨ ∃ j, s.pub p = .inSub m j rest) → k ∈ rest →
      m.id ≥ (s.sub k).lo ∧ m.id ≤ (s.sub k).hi → (s.sub k).pc = .leaving → (s.sub k).queue = []) :
    ∃ s', Relation.ReflTransGen Step s s' ∧ s'.lock = none ∧ s'.pub p = .idle ∧
      s'.published = s.published := by
  have hi := inv_reach h
  cases hp : s.pub p with
  | idle => exact absurd hp ((hi.lock p).2 hl)
  | loop m rest => exact loop_completes range m p rest s h hp (fun k hk => hq m rest k (Or.inl hp) hk)
  | inSub m k rest =>
    obtain ⟨hlk, hh⟩ := hi.holder_eq hp (by simp)
    have hrest := hi.rest
    rw [hh] at hrest
    have hnk : k ∉ rest := (List.nodup_cons.1 (hi.nodup.sublist hrest.sublist)).1
    have hsub := (hi.subs k).1 (hrest.subset (by simp [remaining]))
    -- room in the queue
    obtain ⟨s1, p1, hp1, hq1, ho1, hpub1⟩ : ∃ s1, Relation.ReflTransGen Step s s1 ∧
        s1.pub p = .inSub m k rest ∧ (s1.sub k).queue = [] ∧ (∀ j ∈ rest, s1.sub j = s.sub j) ∧
        s1.published = s.published := by
      by_cases hqe : (s.sub k).queue = []
      · exact ⟨s, .refl, hp, hqe, fun _ _ => rfl, rfl⟩
      · rcases hsub with hpc | hpc | hpc
        · exact absurd ⟨⟨m, rest, hp⟩, hqe, Or.inl hpc⟩ (hd k)
        · cases hqe' : (s.sub k).queue with
          | nil => exact absurd hqe' hqe
          | cons x q =>
            have c := hi.cap k
            rw [hqe'] at c
            have : q = [] := by cases q with
              | nil => rfl
              | cons _ _ => simp at c
            subst this
            refine ⟨_, .single (Step.receive s k x [] hpc hqe'), hp, by simp, ?_, rfl⟩
            intro j hj
            exact Function.update_of_ne (show j ≠ k from fun e => hnk (e ▸ hj)) _ _
        · exact absurd ⟨⟨m, rest, hp⟩, hqe, Or.inr hpc⟩ (hd k)
    have st := Step.pubSend s1 p m k rest hp1 hq1
    obtain ⟨s', q1, q2, q3, q4⟩ := loop_completes range m p rest _ ((reach_trans' h p1).step st) (by simp) (by
      intro j hj hin hpc
      have e : j ≠ k := fun e => hnk (e ▸ hj)
      simp only [Function.update_of_ne e, ho1 j hj] at hin hpc ⊢
      exact hq m rest j (Or.inr ⟨k, hp⟩) hj hin hpc)
    exact ⟨s', (p1.tail st).trans q1, q2, q3, q4.trans hpub1⟩

/-- C52, what holds: a publication that has not run into a subscriber as in `Dead`, and
will not meet one that is returning with a full queue, can be completed.
Missing for the full claim: those two situations (see `C52_fails`, `C52_fails_timeout`,
`C52_dead_forever`), and the guarantee that goroutines are scheduled fairly. -/
theorem C52_completes_partial (range : Nat → Int × Int) (s : State) (h : Reach range s) (p : Nat)
    (hl : s.lock = some p) (hd : ∀ k, ¬ Dead s p k)
    (hq : ∀ k, (s.sub k).pc = .leaving → (s.sub k).queue = []) :
    ∃ s', Relation.ReflTransGen Step s s' ∧ s'.lock = none ∧ s'.pub p = .idle ∧
      s'.published = s.published := by
  exact completes range s h p hl hd fun _ _ k _ _ _ => hq k

/-- The publication of `p` is lost: it waits for a subscriber as in `Dead`, or has still to serve one that is returning with
a full queue. -/
def C52_Lost (s : State) (p : Nat) : Prop :=
  (∃ k, Dead s p k) ∨ ∃ m rest k, (s.pub p = .loop m rest ∨ ∃ j, s.pub p = .inSub m j rest) ∧ k ∈ rest ∧
    (m.id ≥ (s.sub k).lo ∧ m.id ≤ (s.sub k).hi) ∧ (s.sub k).pc = .leaving ∧ (s.sub k).queue ≠ []

theorem lostPublication_step {range} {s s' : State} (h : Reach range s) {p : Nat} (hd : C52_Lost s p) (st : Step s s') :
    C52_Lost s' p := by
  rcases hd with ⟨k, hd⟩ | ⟨m, rest, k, hp, hk, hin, hpc, hq⟩
  · exact Or.inl ⟨k, (C52_dead_forever range s s' h p k hd (.single st)).1⟩
  have hi := inv_reach h
  have hne : s.pub p ≠ .idle := by rcases hp with hp | ⟨j, hp⟩ <;> rw [hp] <;> simp
  obtain ⟨hlk, hh⟩ := hi.holder_eq rfl hne
  have only : ∀ q, s.pub q ≠ .idle → q = p := by
    intro q hq
    have := (hi.lock q).1 hq
    rw [hlk] at this; exact (Option.some.inj this).symm
  -- steps of other subscribers
  have other : ∀ j x, j ≠ k → C52_Lost { s with sub := Function.update s.sub j x } p := by
    intro j x e
    refine Or.inr ⟨m, rest, k, hp, hk, ?_⟩
    simp only [Function.update_of_ne (Ne.symm e)]
    exact ⟨hin, hpc, hq⟩
  cases st with
  | pubStart q m' h' hl => rw [hlk] at hl; cases hl
  | pubSkip q m' j r h' hr =>
    have := only q (by rw [h']; simp); subst this
    rcases hp with hp | ⟨i, hp⟩
    · rw [hp] at h'; cases h'
      rcases List.mem_cons.1 hk with rfl | hk
      · exact absurd hin hr
      · exact Or.inr ⟨m, r, k, Or.inl (by simp), hk, hin, hpc, hq⟩
    · rw [hp] at h'; cases h'
  | pubLock q m' j r h' hr hf =>
    have := only q (by rw [h']; simp); subst this
    rcases hp with hp | ⟨i, hp⟩
    · rw [hp] at h'; cases h'
      by_cases e : k = j
      · subst e
        exact Or.inl ⟨k, ⟨m, r, by simp⟩, by simpa using hq, Or.inr (by simpa using hpc)⟩
      · have hk' : k ∈ r := (List.mem_cons.1 hk).resolve_left e
        refine Or.inr ⟨m, r, k, Or.inr ⟨j, by simp⟩, hk', ?_⟩
        simp only [Function.update_of_ne e]
        exact ⟨hin, hpc, hq⟩
    · rw [hp] at h'; cases h'
  | pubSend q m' j r h' hqe =>
    have := only q (by rw [h']; simp); subst this
    rcases hp with hp | ⟨i, hp⟩
    · rw [hp] at h'; cases h'
    · rw [hp] at h'; cases h'
      have e : k ≠ j := by rintro rfl; exact hq hqe
      refine Or.inr ⟨m, rest, k, Or.inl (by simp), hk, ?_⟩
      simp only [Function.update_of_ne e]
      exact ⟨hin, hpc, hq⟩
  | pubEnd q m' h' =>
    have := only q (by rw [h']; simp); subst this
    rcases hp with hp | ⟨i, hp⟩
    · rw [hp] at h'; cases h'; cases hk
    · rw [hp] at h'; cases h'
  | subscribe j h' hl => rw [hlk] at hl; cases hl
  | unsubscribe j h' hl => rw [hlk] at hl; cases hl
  | getTimeout j h' hf => exact other j _ (by rintro rfl; rw [hpc] at h'; cases h')
  | receive j b q h' hq' => exact other j _ (by rintro rfl; rw [hpc] at h'; cases h')
  | timeout j h' => exact other j _ (by rintro rfl; rw [hpc] at h'; cases h')

/-- C52, exactly when a publication under way can still be completed: if it does not wait for a subscriber that does not come
back, and has not to serve one that is returning with a full queue. -/
theorem C52_exact (range : Nat → Int × Int) (s : State) (h : Reach range s) (p : Nat) (hl : s.lock = some p) :
    (∃ s', Relation.ReflTransGen Step s s' ∧ s'.pub p = .idle) ↔ ¬ C52_Lost s p := by
  constructor
  · rintro ⟨s', st, hidle⟩ hd
    have : C52_Lost s' p := by
      clear hidle
      induction st with
      | refl => exact hd
      | tail hst st ih => exact lostPublication_step (reach_trans' h hst) ih st
    rcases this with ⟨k, ⟨m, rest, e⟩, _⟩ | ⟨m, rest, k, e | ⟨j, e⟩, _⟩ <;> rw [hidle] at e <;> cases e
  · intro hd
    obtain ⟨s', st, _, hidle, _⟩ := completes range s h p hl (fun k hk => hd (Or.inl ⟨k, hk⟩)) (by
      intro m rest k hp hk hin hpc
      by_contra hq
      exact hd (Or.inr ⟨m, rest, k, hp, hk, hin, hpc, hq⟩))
    exact ⟨s', st, hidle⟩

/-- A publication that has not reached the subscriber yet, and is lost. -/
example : ∃ s, Reach (fun _ => (1, 10)) s ∧ s.lock = some 1 ∧ s.pub 1 = .loop ⟨6, 101⟩ [0] ∧ C52_Lost s 1 := by
  have r := Reach.start (range := fun _ => (1, 10))
  have r := r.step (Step.subscribe _ 0 rfl rfl)
  have r := r.step (Step.getTimeout _ 0 rfl rfl)
  have r := r.step (Step.pubStart _ 0 ⟨5, 100⟩ rfl rfl)
  have r := r.step (Step.pubLock _ 0 ⟨5, 100⟩ 0 [] rfl (by decide) rfl)
  have r := r.step (Step.pubSend _ 0 ⟨5, 100⟩ 0 [] rfl rfl)
  have r := r.step (Step.pubEnd _ 0 ⟨5, 100⟩ rfl)
  have r := r.step (Step.timeout _ 0 rfl)
  have r := r.step (Step.pubStart _ 1 ⟨6, 101⟩ rfl rfl)
  exact ⟨_, r, rfl, rfl, Or.inr ⟨⟨6, 101⟩, [0], 0, Or.inl rfl, by simp, by decide, rfl, by decide⟩⟩

/-- The hypotheses of `C52_completes_partial` hold of a publisher about to serve a
subscriber with a full queue. -/
example : ∃ s, Reach (fun _ => (1, 10)) s ∧ s.lock = some 1 ∧ (∀ k, ¬ Dead s 1 k) ∧
    (∀ k, (s.sub k).pc = .leaving → (s.sub k).queue = []) ∧ (s.sub 0).queue = [102] := by
  obtain ⟨s, r, hl, _, hs, h0⟩ := delivered
  have hidle : s.pub 1 = .idle := by
    have := ((inv_reach r).lock 1).not
    rw [hl] at this
    simpa using this
  have r' := r.step (Step.pubStart _ 1 ⟨3, 103⟩ hidle hl)
  refine ⟨_, r', rfl, ?_, ?_, by simp [h0]⟩
  · rintro k ⟨⟨m, rest, e⟩, _⟩
    simp at e
  · intro k hpc
    by_cases e : k ∈ s.subs
    · rw [hs] at e
      simp at e; subst e
      rw [h0] at hpc; cases hpc
    · exact absurd (((inv_reach r).subs k).2 (Or.inr (Or.inr hpc))) e

/-! ## C53 -/

/-- C53: after a call of `Subscribe` has returned, nothing of its subscriber changes any
more; in particular nothing is queued for it. -/
theorem C53_gone (range : Nat → Int × Int) (s s' : State) (h : Reach range s) (k : Nat)
    (hk : (s.sub k).pc = .gone) (st : Relation.ReflTransGen Step s s') :
    s'.sub k = s.sub k ∧ k ∉ s'.subs := by
  have key : s'.sub k = s.sub k := by
    induction st with
    | refl => rfl
    | @tail s1 s2 hst st ih =>
      have hi := inv_reach (reach_trans' h hst)
      have hpc : (s1.sub k).pc = .gone := by rw [ih]; exact hk
      have hnot : k ∉ s1.subs := by rw [hi.subs k]; simp [subscribed, hpc]
      rw [← ih]
      have sub : ∀ j (x : Sub), j ≠ k → Function.update s1.sub j x k = s1.sub k :=
        fun j x e => Function.update_of_ne (Ne.symm e) _ _
      have other : ∀ j, (s1.sub j).pc ≠ .gone → j ≠ k := fun j hj e => hj (e ▸ hpc)
      cases st with
      | pubStart => rfl
      | pubSkip => rfl
      | pubEnd => rfl
      | pubLock p m j rest h' hr hf =>
        refine sub j _ (fun e => hnot ?_)
        have hh := (hi.holder_eq h' (by simp)).2
        have := hi.rest
        rw [hh] at this
        exact e ▸ this.subset (by simp [remaining])
      | pubSend p m j rest h' hq =>
        refine sub j _ (fun e => hnot ?_)
        have hh := (hi.holder_eq h' (by simp)).2
        have := hi.rest
        rw [hh] at this
        exact e ▸ this.subset (by simp [remaining])
      | subscribe j h' => exact sub j _ (other j (by rw [h']; simp))
      | getTimeout j h' => exact sub j _ (other j (by rw [h']; simp))
      | receive j b q h' => exact sub j _ (other j (by rw [h']; simp))
      | timeout j h' => exact sub j _ (other j (by rw [h']; simp))
      | unsubscribe j h' => exact sub j _ (other j (by rw [h']; simp))
  refine ⟨key, ?_⟩
  rw [(inv_reach (reach_trans' h st)).subs k, key]
  simp [subscribed, hk]

theorem remove_filter (k : Nat) (l : List Nat) (hn : l.Nodup) :
    remove k l = l.filter (fun x => decide (x ≠ k)) := by
  induction l with
  | nil => rfl
  | cons y l ih =>
    have hn' := List.nodup_cons.1 hn
    simp only [remove]
    split
    · rename_i e; subst e
      rw [List.filter_cons_of_neg (by simp), List.filter_eq_self.2]
      intro a ha
      simp only [ne_eq, decide_eq_true_eq]
      rintro rfl; exact hn'.1 ha
    · rename_i e
      rw [List.filter_cons_of_pos (by simpa using e), ih hn'.2]

/-- C53: when a call of `Subscribe` returns, every other subscriber is left as it was, in
the same order. -/
theorem C53_others (range : Nat → Int × Int) (s s' : State) (h : Reach range s) (st : Step s s')
    (k : Nat) (h1 : (s.sub k).pc = .leaving) (h2 : (s'.sub k).pc = .gone) :
    (∀ j, j ≠ k → s'.sub j = s.sub j) ∧ s'.subs = s.subs.filter (fun x => decide (x ≠ k)) ∧
      s'.pub = s.pub ∧ s'.published = s.published := by
  have hi := inv_reach h
  have eqk : ∀ j (x : Sub), x.pc ≠ .gone → (Function.update s.sub j x k).pc = .gone → False := by
    intro j x hx hu
    by_cases e : k = j
    · subst e; rw [Function.update_self] at hu; exact hx hu
    · rw [Function.update_of_ne e, h1] at hu; cases hu
  cases st with
  | pubStart => rw [show _ = SubPc.leaving from h1] at h2; cases h2
  | pubSkip => rw [show _ = SubPc.leaving from h1] at h2; cases h2
  | pubEnd => rw [show _ = SubPc.leaving from h1] at h2; cases h2
  | pubLock p m j rest h' hr hf =>
    by_cases e : k = j
    · subst e; simp [h1] at h2
    · simp [Function.update_of_ne e, h1] at h2
  | pubSend p m j rest h' hq =>
    by_cases e : k = j
    · subst e; simp [h1] at h2
    · simp [Function.update_of_ne e, h1] at h2
  | subscribe j h' => exact (eqk j _ (by simp) h2).elim
  | getTimeout j h' => exact (eqk j _ (by simp) h2).elim
  | receive j b q h' => exact (eqk j _ (by simp) h2).elim
  | timeout j h' => exact (eqk j _ (by simp) h2).elim
  | unsubscribe j h' =>
    by_cases e : k = j
    · subst e
      exact ⟨fun i hne => Function.update_of_ne hne _ _, remove_filter k _ hi.nodup, rfl, rfl⟩
    · simp [Function.update_of_ne e, h1] at h2

/-- Two subscribers; the first one leaves, the second one stays. -/
example : ∃ s, Reach (fun _ => (1, 10)) s ∧ (s.sub 0).pc = .gone ∧ s.subs = [1] ∧
    (s.sub 1).queue = [100] ∧ (s.sub 0).queue = [] := by
  have r := Reach.start (range := fun _ => (1, 10))
  have r := r.step (Step.subscribe _ 0 rfl rfl)
  have r := r.step (Step.subscribe _ 1 rfl rfl)
  have r := r.step (Step.getTimeout _ 0 rfl rfl)
  have r := r.step (Step.timeout _ 0 rfl)
  have r := r.step (Step.unsubscribe _ 0 rfl rfl)
  have r := r.step (Step.pubStart _ 0 ⟨5, 100⟩ rfl rfl)
  have r := r.step (Step.pubLock _ 0 ⟨5, 100⟩ 1 [] rfl (by decide) rfl)
  have r := r.step (Step.pubSend _ 0 ⟨5, 100⟩ 1 [] rfl rfl)
  exact ⟨_, r, rfl, rfl, rfl, rfl⟩

end Bac.Props
