import Verif.Model.Timed
import Verif.Lemmas.Utsm
/-!
# Invariants of the timed subscriptions
-/

namespace Bac.Timed
open Bac.Utsm (State Msg Pub SubPc)

/-- A timed step is a step of the untimed system, or leaves that alone. -/
theorem step_utsm {lrt overall prompt} {s s' : TState} (st : Step lrt overall prompt s s') :
    s'.u = s.u ∨ Utsm.Step s.u s'.u := by
  cases st with
  | tick h => exact Or.inl rfl
  | pubStart p m h hl => exact Or.inr (.pubStart _ _ _ h hl)
  | pubSkip p m k rest h hr => exact Or.inr (.pubSkip _ _ _ _ _ h hr)
  | pubLock p m k rest h hr hf => exact Or.inr (.pubLock _ _ _ _ _ h hr hf)
  | pubSend p m k rest h hq => exact Or.inr (.pubSend _ _ _ _ _ h hq)
  | pubEnd p m h => exact Or.inr (.pubEnd _ _ _ h)
  | create k h hc => exact Or.inl rfl
  | subscribe k h hl hc => exact Or.inr (.subscribe _ _ h hl)
  | ctx k h hc => exact Or.inl rfl
  | getTimeout k h hf hc => exact Or.inr (.getTimeout _ _ h hf)
  | arm k h ha => exact Or.inl rfl
  | receive k b q h ha hq => exact Or.inr (.receive _ _ _ _ h hq)
  | timeout k h ha hd => exact Or.inr (.timeout _ _ h)
  | unsubscribe k h hl => exact Or.inr (.unsubscribe _ _ h hl)

theorem reach_utsm {lrt overall prompt range} {s : TState} (h : Reach lrt overall prompt range s) :
    Utsm.Reach range s.u := by
  induction h with
  | start => exact .start
  | step h st ih =>
    rcases step_utsm st with e | e
    · rw [e]; exact ih
    · exact ih.step e

/-- What holds of each call at any time. -/
structure Low (lrt overall now : Nat) (x : Utsm.Sub) (c : Clock) : Prop where
  last : c.last ≤ now
  stamp : c.stamp ≤ c.last
  sent : c.sent ≤ now
  taken : c.taken ≤ c.last
  took : x.queue ≠ [] → c.taken ≤ c.stamp
  made : c.made ≤ c.taken
  fresh : x.pc = .fresh → c.created = false → c.last = 0 ∧ c.stamp = 0 ∧ c.taken = 0 ∧ c.made = 0
  unborn : x.pc = .fresh → x.queue = [] ∧ c.ctx = false ∧ x.locked = false
  began : x.pc ≠ .fresh → c.made ≤ c.began ∧ c.began ≤ now
  over : c.ctx = true → c.began + overall ≤ c.over
  select : x.pc = .select → c.ctx = true ∧ (c.armed = false → (c.taken + lrt : Int) ≤ now + c.rel) ∧
    (c.armed = true → min (c.over : Int) (c.taken + lrt) ≤ c.deadline)
  ended : x.pc = .leaving ∨ x.pc = .gone → c.ctx = true ∧ min c.over (c.taken + lrt) ≤ c.ended ∧ c.ended ≤ now

theorem low_start (lrt overall : Nat) (range : Nat → Int × Int) (k : Nat) :
    Low lrt overall 0 ((start range).u.sub k) ((start range).clock k) := by
  constructor <;> simp [start, Utsm.start]

theorem low_other {lrt overall now : Nat} {x : Nat → Utsm.Sub} {c : Nat → Clock} (k : Nat) (x' : Utsm.Sub) (c' : Clock)
    (h : ∀ j, Low lrt overall now (x j) (c j)) (hk : Low lrt overall now x' c') (j : Nat) :
    Low lrt overall now (Function.update x k x' j) (Function.update c k c' j) := by
  by_cases e : j = k
  · subst e; simpa using hk
  · rw [Function.update_of_ne e, Function.update_of_ne e]; exact h j

theorem low_step {lrt overall prompt range} {s s' : TState} (hr : Reach lrt overall prompt range s)
    (hi : ∀ k, Low lrt overall s.now (s.u.sub k) (s.clock k)) (st : Step lrt overall prompt s s') (j : Nat) :
    Low lrt overall s'.now (s'.u.sub j) (s'.clock j) := by
  have hu := Utsm.inv_reach (reach_utsm hr)
  cases st with
  | tick h =>
    obtain ⟨h1, h2, h3, h4, h5, h6, h7, h8, h9, h10, h11, h12⟩ := hi j
    refine ⟨by simp only; omega, h2, by simp only; omega, h4, h5, h6, h7, h8, fun h => ?_, h10, fun h => ?_, fun h => ?_⟩
    · have := h9 h; simp only; omega
    · obtain ⟨a, b, c⟩ := h11 h
      exact ⟨a, fun ha => by have := b ha; simp only; push_cast; omega, c⟩
    · obtain ⟨a, b, c⟩ := h12 h
      exact ⟨a, b, by simp only; omega⟩
  | pubStart p m h hl => exact hi j
  | pubSkip p m k rest h hr => exact hi j
  | pubEnd p m h => exact hi j
  | pubLock p m k rest h hr hf =>
    refine low_other k _ _ hi ?_ j
    obtain ⟨h1, h2, h3, h4, h5, h6, h7, h8, h9, h10, h11, h12⟩ := hi k
    have hsub : (s.u.sub k).pc ≠ .fresh := by
      have hh := (hu.holder_eq h (by simp)).2
      have hm : k ∈ s.u.subs := hu.rest.subset (by rw [hh]; simp [Utsm.remaining])
      rcases (hu.subs k).1 hm with e | e | e <;> rw [e] <;> simp
    refine ⟨Nat.le_refl _, by simp only; omega, h3, by simp only; omega, h5, h6, fun hc => absurd hc hsub,
      fun hc => absurd hc hsub, h9, h10, h11, h12⟩
  | pubSend p m k rest h hq =>
    refine low_other k _ _ hi ?_ j
    obtain ⟨h1, h2, h3, h4, h5, h6, h7, h8, h9, h10, h11, h12⟩ := hi k
    have hsub : (s.u.sub k).pc ≠ .fresh := by
      have hh := (hu.holder_eq h (by simp)).2
      have hm : k ∈ s.u.subs := hu.rest.subset (by rw [hh]; simp [Utsm.remaining])
      rcases (hu.subs k).1 hm with e | e | e <;> rw [e] <;> simp
    exact ⟨h1, Nat.le_refl _, Nat.le_refl _, h4, fun _ => h4, h6, fun hc => absurd hc hsub,
      fun hc => absurd hc hsub, h9, h10, h11, h12⟩
  | create k h hc =>
    have := low_other (x := s.u.sub) k (s.u.sub k) hi (c' := { s.clock k with created := true, last := s.now, made := s.now, taken := s.now }) ?_ j
    · rwa [Function.update_eq_self] at this
    · obtain ⟨h1, h2, h3, h4, h5, h6, h7, h8, h9, h10, h11, h12⟩ := hi k
      refine ⟨Nat.le_refl _, by simp only; omega, h3, Nat.le_refl _, fun hq => absurd (h8 h).1 hq, Nat.le_refl _, nofun, h8,
        fun hne => absurd h hne, fun hc' => ?_, fun hs => ?_, fun he => ?_⟩
      · have := (h8 h).2.1; rw [this] at hc'; cases hc'
      · rw [h] at hs; cases hs
      · rw [h] at he; rcases he with he | he <;> cases he
  | subscribe k h hl hc =>
    refine low_other k _ _ hi ?_ j
    obtain ⟨h1, h2, h3, h4, h5, h6, h7, h8, h9, h10, h11, h12⟩ := hi k
    refine ⟨h1, h2, h3, h4, h5, h6, nofun, nofun, fun _ => ⟨by simp only; omega, Nat.le_refl _⟩, fun hc' => ?_, nofun, ?_⟩
    · have := (h8 h).2.1; rw [this] at hc'; cases hc'
    · rintro (he | he) <;> cases he
  | ctx k h hc =>
    have := low_other (x := s.u.sub) k (s.u.sub k) hi (c' := { s.clock k with ctx := true, over := s.now + overall }) ?_ j
    · rwa [Function.update_eq_self] at this
    · obtain ⟨h1, h2, h3, h4, h5, h6, h7, h8, h9, h10, h11, h12⟩ := hi k
      have hnf : (s.u.sub k).pc ≠ .fresh := by rw [h]; simp
      refine ⟨h1, h2, h3, h4, h5, h6, h7, fun hc => absurd hc hnf, h9, fun _ => ?_, fun hs => ?_, fun he => ?_⟩
      · have := h9 hnf; simp only; omega
      · rw [h] at hs; cases hs
      · rw [h] at he; rcases he with he | he <;> cases he
  | getTimeout k h hf hc =>
    refine low_other k _ _ hi ?_ j
    obtain ⟨h1, h2, h3, h4, h5, h6, h7, h8, h9, h10, h11, h12⟩ := hi k
    have hnf : (s.u.sub k).pc ≠ .fresh := by rw [h]; simp
    refine ⟨h1, h2, h3, h4, h5, h6, nofun, nofun, fun _ => h9 hnf, h10, fun _ => ⟨hc, fun _ => ?_, nofun⟩, ?_⟩
    · simp only; omega
    · rintro (he | he) <;> cases he
  | arm k h ha =>
    have := low_other (x := s.u.sub) k (s.u.sub k) hi
      (c' := { s.clock k with armed := true, deadline := min ((s.clock k).over : Int) (s.now + (s.clock k).rel) }) ?_ j
    · rwa [Function.update_eq_self] at this
    · obtain ⟨h1, h2, h3, h4, h5, h6, h7, h8, h9, h10, h11, h12⟩ := hi k
      obtain ⟨a, b, c⟩ := h11 h
      have := b ha
      refine ⟨h1, h2, h3, h4, h5, h6, h7, h8, h9, h10, fun _ => ⟨a, nofun, fun _ => ?_⟩, h12⟩
      simp only
      omega
  | receive k b q h ha hq =>
    refine low_other k _ _ hi ?_ j
    obtain ⟨h1, h2, h3, h4, h5, h6, h7, h8, h9, h10, h11, h12⟩ := hi k
    have hnf : (s.u.sub k).pc ≠ .fresh := by rw [h]; simp
    have ht := h5 (by rw [hq]; simp)
    refine ⟨h1, h2, h3, h2, fun _ => Nat.le_refl _, by simp only; omega, nofun, nofun, fun _ => h9 hnf, h10, nofun, ?_⟩
    rintro (he | he) <;> cases he
  | timeout k h ha hd =>
    refine low_other k _ _ hi ?_ j
    obtain ⟨h1, h2, h3, h4, h5, h6, h7, h8, h9, h10, h11, h12⟩ := hi k
    have hnf : (s.u.sub k).pc ≠ .fresh := by rw [h]; simp
    obtain ⟨a, b, c⟩ := h11 h
    have := c ha
    refine ⟨h1, h2, h3, h4, h5, h6, nofun, nofun, fun _ => h9 hnf, h10, nofun, fun _ => ⟨a, ?_, Nat.le_refl _⟩⟩
    simp only
    omega
  | unsubscribe k h hl =>
    have := low_other (c := s.clock) k { s.u.sub k with pc := .gone, until_ := s.u.published.length } (s.clock k) hi ?_ j
    · rwa [Function.update_eq_self] at this
    · obtain ⟨h1, h2, h3, h4, h5, h6, h7, h8, h9, h10, h11, h12⟩ := hi k
      have hnf : (s.u.sub k).pc ≠ .fresh := by rw [h]; simp
      exact ⟨h1, h2, h3, h4, h5, h6, nofun, nofun, fun _ => h9 hnf, h10, nofun, fun _ => h12 (Or.inl h)⟩

theorem low_reach {lrt overall prompt range} {s : TState} (h : Reach lrt overall prompt range s) (k : Nat) :
    Low lrt overall s.now (s.u.sub k) (s.clock k) := by
  induction h generalizing k with
  | start => exact low_start lrt overall range k
  | step h st ih => exact low_step h ih st k

/-- What holds of each call when time passes only while nobody can go on. -/
structure High (overall now : Nat) (x : Utsm.Sub) (c : Clock) : Prop where
  queue : (x.pc = .top ∨ x.pc = .select) → x.queue ≠ [] → c.sent = now ∨ (x.pc = .top ∧ x.locked = true)
  entered : x.pc = .top → c.ctx = false → c.began = now
  over : c.ctx = true → c.over = c.began + overall
  alive : (x.pc = .top ∨ x.pc = .select) → c.ctx = true →
    now ≤ c.over ∨ (x.pc = .top ∧ x.locked = true ∧ x.queue ≠ [])
  armed : x.pc = .select → c.armed = true → c.deadline ≤ c.over
  ended : (x.pc = .leaving ∨ x.pc = .gone) → c.ended ≤ c.over ∧ (x.queue ≠ [] → c.ended ≤ c.sent)

theorem high_other {overall now : Nat} {x : Nat → Utsm.Sub} {c : Nat → Clock} (k : Nat) (x' : Utsm.Sub) (c' : Clock)
    (h : ∀ j, High overall now (x j) (c j)) (hk : High overall now x' c') (j : Nat) :
    High overall now (Function.update x k x' j) (Function.update c k c' j) := by
  by_cases e : j = k
  · subst e; simpa using hk
  · rw [Function.update_of_ne e, Function.update_of_ne e]; exact h j

theorem high_step {lrt overall range} {s s' : TState} (hr : Reach lrt overall true range s)
    (hi : ∀ k, High overall s.now (s.u.sub k) (s.clock k)) (st : Step lrt overall true s s') (j : Nat) :
    High overall s'.now (s'.u.sub j) (s'.clock j) := by
  have hu := Utsm.inv_reach (reach_utsm hr)
  have hlow := low_reach hr
  cases st with
  | tick h =>
    have hb := h rfl
    unfold Busy at hb
    push Not at hb
    obtain ⟨b1, b2, b3, b4, b5⟩ := hb
    obtain ⟨h1, h2, h3, h4, h5, h6⟩ := hi j
    have top : (s.u.sub j).pc = .top → (s.clock j).ctx = true ∧ (s.u.sub j).locked = true := by
      intro e
      have a := b1 j e
      rw [ne_eq, Bool.not_eq_false] at a
      have b := b2 j e a
      rw [ne_eq, Bool.not_eq_false] at b
      exact ⟨a, b⟩
    have sel : (s.u.sub j).pc = .select → (s.clock j).armed = true ∧ (s.u.sub j).queue = [] ∧ (s.now : Int) < (s.clock j).deadline := by
      intro e
      have a := b3 j e
      rw [ne_eq, Bool.not_eq_false] at a
      exact ⟨a, (b4 j e a).1, by have := (b4 j e a).2; omega⟩
    have room : (s.u.sub j).locked = true → (s.u.sub j).queue ≠ [] := by
      intro e hq
      obtain ⟨m, rest, hh⟩ := (hu.locked j).1 e
      unfold Utsm.holder at hh
      cases hl : s.u.lock with
      | none => rw [hl] at hh; cases hh
      | some p => rw [hl] at hh; exact b5 p m j rest hh hq
    refine ⟨fun hp hq => ?_, fun ht hc => ?_, h3, fun hp hc => ?_, h5, h6⟩
    · rcases hp with e | e
      · exact Or.inr ⟨e, (top e).2⟩
      · exact absurd (sel e).2.1 hq
    · rw [(top ht).1] at hc; cases hc
    · rcases hp with e | e
      · exact Or.inr ⟨e, (top e).2, room (top e).2⟩
      · left
        have := (sel e).2.2
        have := h5 e (sel e).1
        simp only
        omega
  | pubStart p m h hl => exact hi j
  | pubSkip p m k rest h hr => exact hi j
  | pubEnd p m h => exact hi j
  | pubLock p m k rest h hr hf =>
    refine high_other k _ _ hi ?_ j
    obtain ⟨h1, h2, h3, h4, h5, h6⟩ := hi k
    refine ⟨fun hp hq => ?_, h2, h3, fun hp hc => ?_, h5, h6⟩
    · rcases h1 hp hq with e | e
      · exact Or.inl e
      · exact Or.inr ⟨e.1, rfl⟩
    · rcases h4 hp hc with e | ⟨_, e, _⟩
      · exact Or.inl e
      · rw [hf] at e; cases e
  | pubSend p m k rest h hq =>
    refine high_other k _ _ hi ?_ j
    obtain ⟨h1, h2, h3, h4, h5, h6⟩ := hi k
    refine ⟨fun _ _ => Or.inl rfl, h2, h3, fun hp hc => ?_, h5, fun he => ⟨(h6 he).1, fun _ => ?_⟩⟩
    · rcases h4 hp hc with e | ⟨_, _, e⟩
      · exact Or.inl e
      · exact absurd hq e
    · exact ((hlow k).ended he).2.2
  | create k h hc =>
    have := high_other (x := s.u.sub) k (s.u.sub k) hi (c' := { s.clock k with created := true, last := s.now, made := s.now, taken := s.now }) ?_ j
    · rwa [Function.update_eq_self] at this
    · exact ⟨(hi k).1, (hi k).2, (hi k).3, (hi k).4, (hi k).5, (hi k).6⟩
  | subscribe k h hl hc =>
    refine high_other k _ _ hi ?_ j
    have hn := (hlow k).unborn h
    refine ⟨fun _ hq => absurd hn.1 hq, fun _ _ => rfl, fun hc' => ?_, fun _ hc' => ?_, nofun, ?_⟩
    · rw [hn.2.1] at hc'; cases hc'
    · rw [hn.2.1] at hc'; cases hc'
    · rintro (he | he) <;> cases he
  | ctx k h hc =>
    have := high_other (x := s.u.sub) k (s.u.sub k) hi (c' := { s.clock k with ctx := true, over := s.now + overall }) ?_ j
    · rwa [Function.update_eq_self] at this
    · obtain ⟨h1, h2, h3, h4, h5, h6⟩ := hi k
      refine ⟨h1, nofun, fun _ => by simp only; rw [h2 h hc], fun _ _ => Or.inl (Nat.le_add_right _ _), fun hs => ?_, fun he => ?_⟩
      · rw [h] at hs; cases hs
      · rw [h] at he; rcases he with he | he <;> cases he
  | getTimeout k h hf hc =>
    refine high_other k _ _ hi ?_ j
    obtain ⟨h1, h2, h3, h4, h5, h6⟩ := hi k
    refine ⟨fun _ hq => Or.inl ?_, nofun, h3, fun _ _ => Or.inl ?_, nofun, ?_⟩
    · rcases h1 (Or.inl h) hq with e | ⟨_, e⟩
      · exact e
      · rw [hf] at e; cases e
    · rcases h4 (Or.inl h) hc with e | ⟨_, e, _⟩
      · exact e
      · rw [hf] at e; cases e
    · rintro (he | he) <;> cases he
  | arm k h ha =>
    have := high_other (x := s.u.sub) k (s.u.sub k) hi
      (c' := { s.clock k with armed := true, deadline := min ((s.clock k).over : Int) (s.now + (s.clock k).rel) }) ?_ j
    · rwa [Function.update_eq_self] at this
    · obtain ⟨h1, h2, h3, h4, h5, h6⟩ := hi k
      exact ⟨h1, h2, h3, h4, fun _ _ => Int.min_le_left _ _, h6⟩
  | receive k b q h ha hq =>
    refine high_other k _ _ hi ?_ j
    obtain ⟨h1, h2, h3, h4, h5, h6⟩ := hi k
    have hcap := hu.cap k
    rw [hq] at hcap
    have hq0 : q = [] := by
      cases q with
      | nil => rfl
      | cons y ys => simp at hcap
    have hc := ((hlow k).select h).1
    refine ⟨fun _ hne => absurd hq0 hne, fun _ hc' => ?_, h3, fun _ _ => Or.inl ?_, nofun, ?_⟩
    · simp only at hc'; rw [hc] at hc'; cases hc'
    · rcases h4 (Or.inr h) hc with e | ⟨e, _⟩
      · exact e
      · rw [h] at e; cases e
    · rintro (he | he) <;> cases he
  | timeout k h ha hd =>
    refine high_other k _ _ hi ?_ j
    obtain ⟨h1, h2, h3, h4, h5, h6⟩ := hi k
    have hc := ((hlow k).select h).1
    refine ⟨?_, nofun, h3, ?_, nofun, fun _ => ⟨?_, fun hq => ?_⟩⟩
    · rintro (he | he) <;> cases he
    · rintro (he | he) <;> cases he
    · rcases h4 (Or.inr h) hc with e | ⟨e, _⟩
      · exact e
      · rw [h] at e; cases e
    · rcases h1 (Or.inr h) hq with e | ⟨e, _⟩
      · exact Nat.le_of_eq e.symm
      · rw [h] at e; cases e
  | unsubscribe k h hl =>
    have := high_other (c := s.clock) k { s.u.sub k with pc := .gone, until_ := s.u.published.length } (s.clock k) hi ?_ j
    · rwa [Function.update_eq_self] at this
    · obtain ⟨h1, h2, h3, h4, h5, h6⟩ := hi k
      refine ⟨?_, nofun, h3, ?_, nofun, fun _ => h6 (Or.inl h)⟩
      · rintro (he | he) <;> cases he
      · rintro (he | he) <;> cases he

theorem high_reach {lrt overall range} {s : TState} (h : Reach lrt overall true range s) (k : Nat) :
    High overall s.now (s.u.sub k) (s.clock k) := by
  induction h generalizing k with
  | start => constructor <;> simp [start, Utsm.start]
  | step h st ih => exact high_step h ih st k

/-- What holds of each call about the idle timeout when time passes only while nobody can go on. -/
structure Idle (lrt now : Nat) (x : Utsm.Sub) (c : Clock) : Prop where
  unarmed : x.pc = .select → c.armed = false → (now + c.rel : Int) ≤ c.last + lrt
  armed : x.pc = .select → c.armed = true → c.deadline ≤ c.last + lrt
  alive : (x.pc = .top ∨ x.pc = .select) →
    now ≤ max (c.last + lrt) c.began ∨ (x.pc = .top ∧ x.locked = true ∧ x.queue ≠ [])
  ended : (x.pc = .leaving ∨ x.pc = .gone) → c.ended ≤ max (c.last + lrt) c.began

theorem idle_other {lrt now : Nat} {x : Nat → Utsm.Sub} {c : Nat → Clock} (k : Nat) (x' : Utsm.Sub) (c' : Clock)
    (h : ∀ j, Idle lrt now (x j) (c j)) (hk : Idle lrt now x' c') (j : Nat) :
    Idle lrt now (Function.update x k x' j) (Function.update c k c' j) := by
  by_cases e : j = k
  · subst e; simpa using hk
  · rw [Function.update_of_ne e, Function.update_of_ne e]; exact h j

theorem idle_step {lrt overall range} {s s' : TState} (hr : Reach lrt overall true range s)
    (hi : ∀ k, Idle lrt s.now (s.u.sub k) (s.clock k)) (st : Step lrt overall true s s') (j : Nat) :
    Idle lrt s'.now (s'.u.sub j) (s'.clock j) := by
  have hu := Utsm.inv_reach (reach_utsm hr)
  have hlow := low_reach hr
  cases st with
  | tick h =>
    have hb := h rfl
    unfold Busy at hb
    push Not at hb
    obtain ⟨b1, b2, b3, b4, b5⟩ := hb
    obtain ⟨h1, h2, h3, h4⟩ := hi j
    have top : (s.u.sub j).pc = .top → (s.u.sub j).locked = true := by
      intro e
      have a := b1 j e
      rw [ne_eq, Bool.not_eq_false] at a
      have b := b2 j e a
      rw [ne_eq, Bool.not_eq_false] at b
      exact b
    have sel : (s.u.sub j).pc = .select → (s.clock j).armed = true ∧ (s.now : Int) < (s.clock j).deadline := by
      intro e
      have a := b3 j e
      rw [ne_eq, Bool.not_eq_false] at a
      exact ⟨a, by have := (b4 j e a).2; omega⟩
    have room : (s.u.sub j).locked = true → (s.u.sub j).queue ≠ [] := by
      intro e hq
      obtain ⟨m, rest, hh⟩ := (hu.locked j).1 e
      unfold Utsm.holder at hh
      cases hl : s.u.lock with
      | none => rw [hl] at hh; cases hh
      | some p => rw [hl] at hh; exact b5 p m j rest hh hq
    refine ⟨fun e ha => ?_, h2, fun hp => ?_, h4⟩
    · rw [(sel e).1] at ha; cases ha
    · rcases hp with e | e
      · exact Or.inr ⟨e, top e, room (top e)⟩
      · left
        have := (sel e).2
        have := h2 e (sel e).1
        simp only
        omega
  | pubStart p m h hl => exact hi j
  | pubSkip p m k rest h hr => exact hi j
  | pubEnd p m h => exact hi j
  | pubLock p m k rest h hr hf =>
    refine idle_other k _ _ hi ?_ j
    obtain ⟨h1, h2, h3, h4⟩ := hi k
    have hl := (hlow k).last
    refine ⟨fun e ha => ?_, fun e ha => ?_, fun hp => ?_, fun he => ?_⟩
    · have := h1 e ha; simp only; omega
    · have := h2 e ha; simp only at this ⊢; omega
    · rcases h3 hp with e | ⟨_, e, _⟩
      · left; simp only; omega
      · rw [hf] at e; cases e
    · have := h4 he; simp only at this ⊢; omega
  | pubSend p m k rest h hq =>
    refine idle_other k _ _ hi ?_ j
    obtain ⟨h1, h2, h3, h4⟩ := hi k
    refine ⟨h1, h2, fun hp => ?_, h4⟩
    rcases h3 hp with e | ⟨_, _, e⟩
    · exact Or.inl e
    · exact absurd hq e
  | create k h hc =>
    have := idle_other (x := s.u.sub) k (s.u.sub k) hi (c' := { s.clock k with created := true, last := s.now, made := s.now, taken := s.now }) ?_ j
    · rwa [Function.update_eq_self] at this
    · refine ⟨fun e => ?_, fun e => ?_, fun e => ?_, fun e => ?_⟩ <;> rw [h] at e
      · cases e
      · cases e
      · rcases e with e | e <;> cases e
      · rcases e with e | e <;> cases e
  | subscribe k h hl hc =>
    refine idle_other k _ _ hi ?_ j
    exact ⟨nofun, nofun, fun _ => Or.inl (Nat.le_max_right _ _), by rintro (he | he) <;> cases he⟩
  | ctx k h hc =>
    have := idle_other (x := s.u.sub) k (s.u.sub k) hi (c' := { s.clock k with ctx := true, over := s.now + overall }) ?_ j
    · rwa [Function.update_eq_self] at this
    · exact ⟨(hi k).1, (hi k).2, (hi k).3, (hi k).4⟩
  | getTimeout k h hf hc =>
    refine idle_other k _ _ hi ?_ j
    obtain ⟨h1, h2, h3, h4⟩ := hi k
    refine ⟨fun _ _ => ?_, nofun, fun _ => Or.inl ?_, ?_⟩
    · simp only; omega
    · rcases h3 (Or.inl h) with e | ⟨_, e, _⟩
      · exact e
      · rw [hf] at e; cases e
    · rintro (he | he) <;> cases he
  | arm k h ha =>
    have := idle_other (x := s.u.sub) k (s.u.sub k) hi
      (c' := { s.clock k with armed := true, deadline := min ((s.clock k).over : Int) (s.now + (s.clock k).rel) }) ?_ j
    · rwa [Function.update_eq_self] at this
    · obtain ⟨h1, h2, h3, h4⟩ := hi k
      have := h1 h ha
      exact ⟨nofun, fun _ _ => Int.le_trans (Int.min_le_right _ _) this, h3, h4⟩
  | receive k b q h ha hq =>
    refine idle_other k _ _ hi ?_ j
    obtain ⟨h1, h2, h3, h4⟩ := hi k
    refine ⟨nofun, nofun, fun _ => Or.inl ?_, ?_⟩
    · rcases h3 (Or.inr h) with e | ⟨e, _⟩
      · exact e
      · rw [h] at e; cases e
    · rintro (he | he) <;> cases he
  | timeout k h ha hd =>
    refine idle_other k _ _ hi ?_ j
    obtain ⟨h1, h2, h3, h4⟩ := hi k
    refine ⟨nofun, nofun, ?_, fun _ => ?_⟩
    · rintro (he | he) <;> cases he
    · rcases h3 (Or.inr h) with e | ⟨e, _⟩
      · exact e
      · rw [h] at e; cases e
  | unsubscribe k h hl =>
    have := idle_other (c := s.clock) k { s.u.sub k with pc := .gone, until_ := s.u.published.length } (s.clock k) hi ?_ j
    · rwa [Function.update_eq_self] at this
    · refine ⟨nofun, nofun, ?_, fun _ => (hi k).4 (Or.inl h)⟩
      rintro (he | he) <;> cases he

theorem idle_reach {lrt overall range} {s : TState} (h : Reach lrt overall true range s) (k : Nat) :
    Idle lrt s.now (s.u.sub k) (s.clock k) := by
  induction h generalizing k with
  | start => constructor <;> simp [start, Utsm.start]
  | step h st ih => exact idle_step h ih st k

end Bac.Timed
