import Verif.Lemmas.Timed
/-!
# C137: when a subscription ends
-/

namespace Bac.Props
open Bac.Spec

/-- C137: the timed system does nothing the untimed one (C51 – C53) does not. -/
theorem C137_refines (lrt overall : Nat) (prompt : Bool) (range : Nat → Int × Int) (s : Timed.TState)
    (h : Timed.Reach lrt overall prompt range s) : Utsm.Reach range s.u := Timed.reach_utsm h

/-- C137: in every execution, however slow its parts are, a call of `Subscribe` gives up no earlier than the overall
timeout after it was entered in the list, or the idle timeout after the time noted for the message it took last
(for its own creation, if it took none). -/
theorem C137_early (lrt overall : Nat) (prompt : Bool) (range : Nat → Int × Int) (s : Timed.TState)
    (h : Timed.Reach lrt overall prompt range s) (k : Nat) (hk : (s.u.sub k).pc = .gone) :
    min ((s.clock k).began + overall) ((s.clock k).taken + lrt) ≤ (s.clock k).ended ∧
      (s.clock k).made ≤ (s.clock k).taken ∧ (s.clock k).made ≤ (s.clock k).began ∧ (s.clock k).ended ≤ s.now := by
  have hl := Timed.low_reach h k
  obtain ⟨a, b, c⟩ := hl.ended (Or.inr hk)
  have := hl.over a
  have := hl.began (by rw [hk]; simp)
  exact ⟨by omega, hl.made, this.1, c⟩

/-- C137: so it takes at least the smaller of the two. -/
theorem C137_least (lrt overall : Nat) (prompt : Bool) (range : Nat → Int × Int) (s : Timed.TState)
    (h : Timed.Reach lrt overall prompt range s) (k : Nat) (hk : (s.u.sub k).pc = .gone) :
    (s.clock k).made + min overall lrt ≤ (s.clock k).ended := by
  have := C137_early lrt overall prompt range s h k hk
  omega

/-- C137, in part: when time passes only while nobody can go on, a call of `Subscribe` that has returned gave up no later
than the overall timeout after it was entered in the list, and has returned the matching messages of its time in order,
but for at most one, the last, which was put into its channel no earlier than it gave up. -/
theorem C137_partial (lrt overall : Nat) (range : Nat → Int × Int) (s : Timed.TState)
    (h : Timed.Reach lrt overall true range s) (k : Nat) (hk : (s.u.sub k).pc = .gone) :
    (s.clock k).ended ≤ (s.clock k).began + overall ∧
    ((s.u.sub k).store = matching (range k).1 (range k).2
        ((s.u.published.take (s.u.sub k).until_).drop (s.u.sub k).since) ∨
      ∃ b, (s.u.sub k).store ++ [b] = matching (range k).1 (range k).2
        ((s.u.published.take (s.u.sub k).until_).drop (s.u.sub k).since) ∧ (s.clock k).ended ≤ (s.clock k).sent) := by
  have hh := Timed.high_reach h k
  have hi := Utsm.inv_reach (Timed.reach_utsm h)
  have hl := Timed.low_reach h k
  have hc := (hl.ended (Or.inr hk)).1
  have h1 := (hi.gone k hk).2.2
  refine ⟨by have := hh.over hc; have := (hh.ended (Or.inr hk)).1; omega, ?_⟩
  have hcap := hi.cap k
  cases hq : (s.u.sub k).queue with
  | nil => left; rw [hq, List.append_nil] at h1; rw [h1, ← hi.ranges k]
  | cons b q =>
    have : q = [] := by
      rw [hq] at hcap
      cases q with
      | nil => rfl
      | cons y ys => simp at hcap
    subst this
    right
    refine ⟨b, ?_, (hh.ended (Or.inr hk)).2 (by rw [hq]; simp)⟩
    rw [hq] at h1; rw [h1, ← hi.ranges k]

/-- C137, the idle timeout: in such an execution a call of `Subscribe` gives up no later than the idle timeout after a message was
last noted for it (or its creation), unless it had to wait longer than that to be entered in the list, and then at once. -/
theorem C137_idle (lrt overall : Nat) (range : Nat → Int × Int) (s : Timed.TState)
    (h : Timed.Reach lrt overall true range s) (k : Nat) (hk : (s.u.sub k).pc = .gone) :
    (s.clock k).ended ≤ max ((s.clock k).last + lrt) (s.clock k).began := (Timed.idle_reach h k).ended (Or.inr hk)

/-- C137: in such an execution the only way to outlive the overall timeout is to wait for one's own mutex while a
publisher holds it and waits for room in the channel (C52). -/
theorem C137_overrun (lrt overall : Nat) (range : Nat → Int × Int) (s : Timed.TState)
    (h : Timed.Reach lrt overall true range s) (k : Nat) (hk : (s.u.sub k).pc = .top ∨ (s.u.sub k).pc = .select)
    (hn : (s.clock k).began + overall < s.now) :
    (s.u.sub k).pc = .top ∧ (s.u.sub k).queue ≠ [] ∧
      ∃ p m rest, s.u.lock = some p ∧ s.u.pub p = .inSub m k rest := by
  have hh := Timed.high_reach h k
  have hi := Utsm.inv_reach (Timed.reach_utsm h)
  have hl := Timed.low_reach h k
  have hc : (s.clock k).ctx = true := by
    rcases hk with e | e
    · cases hc : (s.clock k).ctx with
      | true => rfl
      | false => have := hh.entered e hc; omega
    · exact (hl.select e).1
  have ho := hh.over hc
  rcases hh.alive hk hc with e | ⟨e1, e2, e3⟩
  · omega
  · refine ⟨e1, e3, ?_⟩
    obtain ⟨m, rest, hm⟩ := (hi.locked k).1 e2
    unfold Utsm.holder at hm
    cases hlk : s.u.lock with
    | none => rw [hlk] at hm; cases hm
    | some p => rw [hlk] at hm; exact ⟨p, m, rest, rfl, hm⟩

/-! ## Executions -/

theorem ticks {lrt overall prompt range} {s : Timed.TState} (h : Timed.Reach lrt overall prompt range s) (n : Nat)
    (hb : prompt = true → ∀ i, i < n → ¬ Timed.Busy { s with now := s.now + i }) :
    Timed.Reach lrt overall prompt range { s with now := s.now + n } := by
  induction n with
  | zero => exact h
  | succ n ih =>
    have r := ih (fun hp i hi => hb hp i (by omega))
    exact r.step (.tick _ (fun hp => hb hp n (by omega)))

/-- A call waiting in the select while nothing else goes on. -/
theorem waiting_not_busy {s : Timed.TState} (h1 : ∀ k, k ≠ 0 → (s.u.sub k).pc = .fresh) (h2 : (s.u.sub 0).pc = .select)
    (h3 : (s.clock 0).armed = true) (h4 : (s.u.sub 0).queue = []) (h5 : (s.now : Int) < (s.clock 0).deadline)
    (h6 : ∀ p, s.u.pub p = .idle) : ¬ Timed.Busy s := by
  have key : ∀ k pc, (s.u.sub k).pc = pc → pc ≠ .fresh → k = 0 ∧ pc = .select := by
    intro k pc e hne
    by_cases hk : k = 0
    · subst hk; exact ⟨rfl, by rw [← e, h2]⟩
    · rw [h1 k hk] at e; exact absurd e.symm hne
  rintro (⟨k, a, b⟩ | ⟨k, a, b, c⟩ | ⟨k, a, b⟩ | ⟨k, a, b, c⟩ | ⟨p, m, k, rest, a, b⟩)
  · cases (key k _ a (by simp)).2
  · cases (key k _ a (by simp)).2
  · obtain ⟨rfl, _⟩ := key k _ a (by simp); rw [h3] at b; cases b
  · obtain ⟨rfl, _⟩ := key k _ a (by simp)
    rcases c with c | c
    · exact c h4
    · omega
  · rw [h6 p] at a; cases a

/-- One call for 1..10, waiting since time 0. -/
theorem waiting (lrt overall : Nat) (prompt : Bool) (n : Nat) (hn : n ≤ lrt) (ho : lrt ≤ overall) :
    ∃ s, Timed.Reach lrt overall prompt (fun _ => (1, 10)) s ∧ s.now = n ∧ s.u.lock = none ∧ s.u.published = [] ∧
      s.u.subs = [0] ∧ s.u.sub 0 = ⟨1, 10, .select, [], false, [], 0, 0⟩ ∧
      s.clock 0 = ⟨true, 0, true, overall, lrt, true, lrt, 0, 0, 0, 0, 0, 0⟩ ∧ ∀ p, s.u.pub p = .idle := by
  have r := Timed.Reach.start (lrt := lrt) (overall := overall) (prompt := prompt) (range := fun _ => (1, 10))
  have r := r.step (.create _ 0 rfl rfl)
  have r := r.step (.subscribe _ 0 rfl rfl rfl)
  have r := r.step (.ctx _ 0 rfl rfl)
  have r := r.step (.getTimeout _ 0 rfl rfl rfl)
  have r := r.step (.arm _ 0 rfl rfl)
  have hd : min (((0 + overall : Nat) : Int)) (((0 : Nat) : Int) + (((0 : Nat) : Int) + lrt - ((0 : Nat) : Int))) = lrt := by omega
  have hd' : (((0 : Nat) : Int) + lrt - ((0 : Nat) : Int)) = lrt := by omega
  have r := ticks r n (fun _ i hi => waiting_not_busy
    (fun k hk => by simp [Timed.start, Utsm.start, Function.update_of_ne hk]) rfl rfl rfl
    (by simp [Timed.start]; omega) (fun _ => rfl))
  refine ⟨_, r, by simp [Timed.start], rfl, rfl, rfl, rfl, ?_, fun _ => rfl⟩
  have e : ∀ a b : Int, ∀ o : Nat, a = lrt → b = lrt → o = overall →
      Timed.Clock.mk true 0 true o a true b 0 0 0 0 0 0 = ⟨true, 0, true, overall, lrt, true, lrt, 0, 0, 0, 0, 0, 0⟩ := by
    rintro a b o rfl rfl rfl; rfl
  exact e _ _ _ hd' hd (Nat.zero_add _)

/-- C137 fails, though everything goes on at once: a message published at the very instant the idle timeout is reached
lies in the channel of a call that is still in the list, and the call returns without it. -/
theorem C137_fails (lrt overall : Nat) (ho : lrt ≤ overall) :
    ∃ s, Timed.Reach lrt overall true (fun _ => (1, 10)) s ∧ (s.u.sub 0).pc = .gone ∧ (s.u.sub 0).store = [] ∧
      matching 1 10 ((s.u.published.take (s.u.sub 0).until_).drop (s.u.sub 0).since) = [100] ∧
      (s.clock 0).last = lrt ∧ (s.clock 0).ended = lrt := by
  obtain ⟨s, r, hn, hl, hp, hs, h0, hc, hi⟩ := waiting lrt overall true lrt (Nat.le_refl _) ho
  obtain ⟨⟨subs, lock, pub, sub, published⟩, now, clock⟩ := s
  simp only at hn hl hp hs h0 hc hi
  subst hn hl hp hs
  have r := r.step (.pubStart _ 0 ⟨5, 100⟩ (hi 0) rfl)
  have r := r.step (.pubLock _ 0 ⟨5, 100⟩ 0 [] (by simp only [Function.update_self]) (by simp only [h0]; decide) (by simp only [h0]))
  have r := r.step (.pubSend _ 0 ⟨5, 100⟩ 0 [] (by simp only [Function.update_self]) (by simp only [Function.update_self, h0]))
  have r := r.step (.pubEnd _ 0 ⟨5, 100⟩ (by simp only [Function.update_self]))
  have r := r.step (.timeout _ 0 (by simp only [Function.update_self, h0]) (by simp only [Function.update_self, hc])
    (by simp only [Function.update_self, hc]; exact Int.le_refl _))
  have r := r.step (.unsubscribe _ 0 (by simp only [Function.update_self]) rfl)
  refine ⟨_, r, ?_, ?_, ?_, ?_, ?_⟩
  · simp only [Function.update_self]
  · simp only [Function.update_self, h0]
  · simp only [Function.update_self, h0]; decide
  · simp only [Function.update_self]
  · simp only [Function.update_self]

/-- C137 fails for longer when the call is slow to be run: a message lies in its channel `d` before it gives up and is
lost, however large `d` is. -/
theorem C137_fails_late (lrt overall d : Nat) (ho : lrt ≤ overall) (hl : 0 < lrt) :
    ∃ s, Timed.Reach lrt overall false (fun _ => (1, 10)) s ∧ (s.u.sub 0).pc = .gone ∧ (s.u.sub 0).store = [] ∧
      matching 1 10 ((s.u.published.take (s.u.sub 0).until_).drop (s.u.sub 0).since) = [100] ∧
      (s.clock 0).sent < lrt ∧ (s.clock 0).ended = (s.clock 0).sent + d + 1 := by
  obtain ⟨s, r, hn, hl, hp, hs, h0, hc, hi⟩ := waiting lrt overall false (lrt - 1) (by omega) ho
  obtain ⟨⟨subs, lock, pub, sub, published⟩, now, clock⟩ := s
  simp only at hn hl hp hs h0 hc hi
  subst hn hl hp hs
  have r := r.step (.pubStart _ 0 ⟨5, 100⟩ (hi 0) rfl)
  have r := r.step (.pubLock _ 0 ⟨5, 100⟩ 0 [] (by simp only [Function.update_self]) (by simp only [h0]; decide) (by simp only [h0]))
  have r := r.step (.pubSend _ 0 ⟨5, 100⟩ 0 [] (by simp only [Function.update_self]) (by simp only [Function.update_self, h0]))
  have r := r.step (.pubEnd _ 0 ⟨5, 100⟩ (by simp only [Function.update_self]))
  have r := ticks r (d + 1) nofun
  have r := r.step (.timeout _ 0 (by simp only [Function.update_self, h0]) (by simp only [Function.update_self, hc])
    (by simp only [Function.update_self, hc]; omega))
  have r := r.step (.unsubscribe _ 0 (by simp only [Function.update_self]) rfl)
  refine ⟨_, r, ?_, ?_, ?_, ?_, ?_⟩
  · simp only [Function.update_self]
  · simp only [Function.update_self, h0]
  · simp only [Function.update_self, h0]; decide
  · simp only [Function.update_self]; omega
  · simp only [Function.update_self]; omega

/-- C137: a call that hears nothing ends exactly at the idle timeout when nothing is slow; in particular the bounds of
`C137_partial` and `C137_least` are met. -/
theorem C137_silence (lrt overall : Nat) (ho : lrt ≤ overall) :
    ∃ s, Timed.Reach lrt overall true (fun _ => (1, 10)) s ∧ (s.u.sub 0).pc = .gone ∧ s.u.published = [] ∧
      (s.clock 0).made = 0 ∧ (s.clock 0).ended = lrt := by
  obtain ⟨s, r, hn, hl, hp, hs, h0, hc, hi⟩ := waiting lrt overall true lrt (Nat.le_refl _) ho
  obtain ⟨⟨subs, lock, pub, sub, published⟩, now, clock⟩ := s
  simp only at hn hl hp hs h0 hc hi
  subst hn hl hp hs
  have r := r.step (.timeout _ 0 (by simp only [h0]) (by simp only [hc])
    (by simp only [hc]; exact Int.le_refl _))
  have r := r.step (.unsubscribe _ 0 (by simp only [Function.update_self]) rfl)
  refine ⟨_, r, ?_, rfl, ?_, ?_⟩
  · simp only [Function.update_self]
  · simp only [Function.update_self, hc]
  · simp only [Function.update_self]

/-- C137 fails: a call can outlive the overall timeout by any time, though everything goes on at once whenever it can. -/
theorem C137_overrun_fails (lrt overall d : Nat) :
    ∃ s, Timed.Reach lrt overall true (fun _ => (1, 10)) s ∧ (s.u.sub 0).pc = .top ∧
      s.now = (s.clock 0).began + overall + d := by
  have r := Timed.Reach.start (lrt := lrt) (overall := overall) (prompt := true) (range := fun _ => (1, 10))
  have r := r.step (.create _ 0 rfl rfl)
  have r := r.step (.subscribe _ 0 rfl rfl rfl)
  have r := r.step (.ctx _ 0 rfl rfl)
  have r := r.step (.pubStart _ 0 ⟨5, 100⟩ rfl rfl)
  have r := r.step (.pubLock _ 0 ⟨5, 100⟩ 0 [] rfl ⟨show (1 : Int) ≤ _ by decide, show _ ≤ (10 : Int) by decide⟩ rfl)
  have r := r.step (.pubSend _ 0 ⟨5, 100⟩ 0 [] rfl rfl)
  have r := r.step (.pubEnd _ 0 ⟨5, 100⟩ rfl)
  have r := r.step (.pubStart _ 0 ⟨7, 102⟩ rfl rfl)
  have r := r.step (.pubLock _ 0 ⟨7, 102⟩ 0 [] rfl ⟨show (1 : Int) ≤ _ by decide, show _ ≤ (10 : Int) by decide⟩ rfl)
  have r := ticks r (overall + d) (fun _ i _ => by
    rintro (⟨k, a, b⟩ | ⟨k, a, b, c⟩ | ⟨k, a, b⟩ | ⟨k, a, b, c⟩ | ⟨p, m, k, rest, a, b⟩)
    · by_cases e : k = 0
      · subst e; cases b
      · simp [Timed.start, Utsm.start, Function.update_of_ne e] at a
    · by_cases e : k = 0
      · subst e; cases c
      · simp [Timed.start, Utsm.start, Function.update_of_ne e] at a
    · by_cases e : k = 0
      · subst e; cases a
      · simp [Timed.start, Utsm.start, Function.update_of_ne e] at a
    · by_cases e : k = 0
      · subst e; cases a
      · simp [Timed.start, Utsm.start, Function.update_of_ne e] at a
    · by_cases e : p = 0
      · subst e; cases a; cases b
      · simp [Timed.start, Utsm.start, Function.update_of_ne e] at a)
  exact ⟨_, r, rfl, by simp [Timed.start]⟩

example : ∃ s, Timed.Reach 2 10 true (fun _ => (1, 10)) s ∧ (s.u.sub 0).pc = .gone ∧ (s.clock 0).ended = 2 := by
  obtain ⟨s, r, a, _, _, b⟩ := C137_silence 2 10 (by decide)
  exact ⟨s, r, a, b⟩

end Bac.Props
