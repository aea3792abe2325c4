import Verif.Props.Tsm
/-!
# C49: exactly in which states the transaction manager can crash the process
-/

namespace Bac.Props

open Bac.Tsm Bac.Spec

/-- C49, exactly: in whatever state callers and senders can reach, the next step can be a crash exactly if
some sender has read the channel of a transaction that has been closed since; no other step crashes, in
particular no channel is closed twice. -/
theorem C49_exact (size n m : Nat) (s : State) (h : Reach size n m s) (hp : s.panicked = false) :
    (∃ s', Step size s s' ∧ s'.panicked = true) ↔
      ∃ i c c' v, Sender.blocked i c c' v ∈ s.senders ∧ s.isClosed c' = true := by
  have hi := inv_reach h
  constructor
  · rintro ⟨s', st, hs'⟩
    cases st
    case sendPanic m₁ m₂ i c c' v h hc => exact ⟨i, c, c', v, by rw [h]; simp, hc⟩
    case putClose l₁ l₂ i o c o' h =>
      exfalso
      have e : o' = o := hi.agree (.locked i o c o') (by rw [h]; simp)
      have := hi.chans (i, o, c) (by rw [h]; simp [chanOf])
      subst e
      simp only [hp, Bool.false_or] at hs'
      rw [show s.data o' = c from this.1, this.2.1] at hs'
      exact nomatch hs'
    all_goals
      exfalso
      exact absurd (hp.symm.trans hs') nofun
  · rintro ⟨i, c, c', v, hm, hc⟩
    obtain ⟨m₁, m₂, e⟩ := List.append_of_mem hm
    exact ⟨_, Step.sendPanic s m₁ m₂ i c c' v e hc, rfl⟩

/-- From the first closing under a waiting sender on, the crash stays possible until it happens or the
process ends otherwise: with `C49_doomed`, which keeps the sender, this is the only way into a crash. -/
theorem C49_cause (size n m : Nat) (s : State) (h : Reach size n m s) (hp : s.panicked = true) :
    ∃ s₁ s₂ i c c' v, Reach size n m s₁ ∧ Step size s₁ s₂ ∧ s₁.panicked = false ∧ s₂.panicked = true ∧
      Sender.blocked i c c' v ∈ s₁.senders ∧ s₁.isClosed c' = true := by
  induction h with
  | start => exact absurd hp nofun
  | @step s s' hr st ih =>
    cases hq : s.panicked with
    | true => exact ih hq
    | false =>
      obtain ⟨i, c, c', v, h1, h2⟩ := (C49_exact size n m s hr hq).1 ⟨s', st, hp⟩
      exact ⟨s, s', i, c, c', v, hr, st, hq, hp, h1, h2⟩

/-- The state of the example after `C49_doomed`, in which C49 says a crash can come next. -/
example : ∃ s, Reach 1 1 1 s ∧ s.panicked = false ∧ ∃ s', Step 1 s s' ∧ s'.panicked = true := by
  have r := Reach.start (size := 1) (n := 1) (m := 1)
  have r := r.step (Step.takeSlot _ [] [] rfl (by decide))
  have r := r.step (Step.takeId _ [] [] 1 _ rfl rfl)
  have r := r.step (Step.newObj _ [] [] 1 rfl)
  have r := r.step (Step.makeChan _ [] [] 1 0 rfl)
  have r := r.step (Step.openTx _ [] [] 1 0 0 rfl rfl)
  have r := r.step (Step.sendLook _ [] [] 1 0 5 rfl rfl rfl)
  have r := r.step (Step.sendRead _ [] [] 1 0 0 5 rfl)
  have r := r.step (Step.putLock _ [] [] 1 0 0 0 rfl rfl rfl)
  have r := r.step (Step.putClose _ [] [] 1 0 0 0 rfl)
  exact ⟨_, r, rfl, (C49_exact _ _ _ _ r rfl).2 ⟨1, 0, 0, 5, List.mem_singleton.2 rfl, rfl⟩⟩

end Bac.Props
