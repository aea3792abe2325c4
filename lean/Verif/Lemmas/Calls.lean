import Verif.Lemmas.Client
/-!
# Lemmas about the request calls
-/

namespace Bac

variable {α : Type}

/-- The frame that `client.Send` builds never fails to encode. -/
theorem sendFrame_ok (dest : Address) (pack : List UInt8) (bt : Option SetBroadcastType) :
    sendFrame dest pack bt = .ok ([0x81, sendFunction dest bt] ++ be16 (UInt16.ofNat (4 + pack.length)) ++ pack) := by
  simp [sendFrame, Enc.bvlc, Enc.new, Enc.write]

/-- The datagram of an attempt. -/
def datagram (dest : Address) (pack : List UInt8) : Sent :=
  ⟨dest, [0x81, sendFunction dest none] ++ be16 (UInt16.ofNat (4 + pack.length)) ++ pack⟩

theorem sendAttempt_eq (dest : Address) (pack : List UInt8) (a : Attempt) :
    sendAttempt dest pack a = ([datagram dest pack], a.sendErr) := by
  unfold sendAttempt datagram
  rw [sendFrame_ok]

theorem attempts_zero (dest : Address) (pack : List UInt8) (step : Recv → Outcome (Step α))
    (script : Nat → Attempt) (i : Nat) (last : CallErr) :
    attempts dest pack step script 0 i last = ([], .ok (.error last)) := rfl

/-- An attempt whose datagram the data link refuses. -/
theorem attempts_sendErr {dest : Address} {pack : List UInt8} {step : Recv → Outcome (Step α)}
    {script : Nat → Attempt} {n i : Nat} {last : CallErr} {e : GoErr} (h : (script i).sendErr = some e) :
    attempts dest pack step script (n + 1) i last =
      (datagram dest pack :: (attempts dest pack step script n (i + 1) (.send e)).1,
        (attempts dest pack step script n (i + 1) (.send e)).2) := by
  rw [attempts, sendAttempt_eq, h]
  rfl

/-- An attempt after which the call returns. -/
theorem attempts_done {dest : Address} {pack : List UInt8} {step : Recv → Outcome (Step α)}
    {script : Nat → Attempt} {n i : Nat} {last : CallErr} {r : Except CallErr α}
    (h : (script i).sendErr = none) (hr : step (script i).recv = .ok (.done r)) :
    attempts dest pack step script (n + 1) i last = ([datagram dest pack], .ok r) := by
  rw [attempts, sendAttempt_eq, h]
  simp only [hr]

/-- An attempt after which the loop goes on. -/
theorem attempts_retry {dest : Address} {pack : List UInt8} {step : Recv → Outcome (Step α)}
    {script : Nat → Attempt} {n i : Nat} {last e : CallErr}
    (h : (script i).sendErr = none) (hr : step (script i).recv = .ok (.retry e)) :
    attempts dest pack step script (n + 1) i last =
      (datagram dest pack :: (attempts dest pack step script n (i + 1) e).1,
        (attempts dest pack step script n (i + 1) e).2) := by
  rw [attempts, sendAttempt_eq, h]
  simp only [hr]
  rfl

/-- An attempt that does not return. -/
theorem attempts_panic {dest : Address} {pack : List UInt8} {step : Recv → Outcome (Step α)}
    {script : Nat → Attempt} {n i : Nat} {last : CallErr} {k : PanicKind}
    (h : (script i).sendErr = none) (hr : step (script i).recv = .panic k) :
    attempts dest pack step script (n + 1) i last = ([datagram dest pack], .panic k) := by
  rw [attempts, sendAttempt_eq, h]
  simp only [hr]

theorem attempts_diverge {dest : Address} {pack : List UInt8} {step : Recv → Outcome (Step α)}
    {script : Nat → Attempt} {n i : Nat} {last : CallErr}
    (h : (script i).sendErr = none) (hr : step (script i).recv = .diverge) :
    attempts dest pack step script (n + 1) i last = ([datagram dest pack], .diverge) := by
  rw [attempts, sendAttempt_eq, h]
  simp only [hr]

/-- The five ways of an attempt. -/
theorem attempts_cases (dest : Address) (pack : List UInt8) (step : Recv → Outcome (Step α))
    (script : Nat → Attempt) (n i : Nat) (last : CallErr) :
    (∃ e, (script i).sendErr = some e ∧ attempts dest pack step script (n + 1) i last =
      (datagram dest pack :: (attempts dest pack step script n (i + 1) (.send e)).1, (attempts dest pack step script n (i + 1) (.send e)).2)) ∨
    (∃ e, (script i).sendErr = none ∧ step (script i).recv = .ok (.retry e) ∧
      attempts dest pack step script (n + 1) i last = (datagram dest pack :: (attempts dest pack step script n (i + 1) e).1, (attempts dest pack step script n (i + 1) e).2)) ∨
    (∃ r, (script i).sendErr = none ∧ step (script i).recv = .ok (.done r) ∧
      attempts dest pack step script (n + 1) i last = ([datagram dest pack], .ok r)) ∨
    (∃ k, (script i).sendErr = none ∧ step (script i).recv = .panic k ∧
      attempts dest pack step script (n + 1) i last = ([datagram dest pack], .panic k)) ∨
    ((script i).sendErr = none ∧ step (script i).recv = .diverge ∧
      attempts dest pack step script (n + 1) i last = ([datagram dest pack], .diverge)) := by
  cases hs : (script i).sendErr with
  | some e => exact Or.inl ⟨e, rfl, attempts_sendErr hs⟩
  | none =>
    right
    cases hr : step (script i).recv with
    | ok s =>
      cases s with
      | done r => exact Or.inr (Or.inl ⟨r, rfl, rfl, attempts_done hs hr⟩)
      | retry e => exact Or.inl ⟨e, rfl, rfl, attempts_retry hs hr⟩
    | panic k => exact Or.inr (Or.inr (Or.inl ⟨k, rfl, rfl, attempts_panic hs hr⟩))
    | diverge => exact Or.inr (Or.inr (Or.inr ⟨rfl, rfl, attempts_diverge hs hr⟩))

/-- At most `n` datagrams, all the same. -/
theorem attempts_sent (dest : Address) (pack : List UInt8) (step : Recv → Outcome (Step α))
    (script : Nat → Attempt) (n : Nat) : ∀ (i : Nat) (last : CallErr),
    ∃ k ≤ n, (attempts dest pack step script n i last).1 = List.replicate k (datagram dest pack) ∧
      (0 < n → 0 < k) := by
  induction n with
  | zero => intro i last; exact ⟨0, Nat.le_refl 0, rfl, fun h => h⟩
  | succ n ih =>
    intro i last
    rcases attempts_cases dest pack step script n i last with ⟨e, _, h⟩ | ⟨e, _, _, h⟩ | ⟨r, _, _, h⟩ | ⟨k, _, _, h⟩ | ⟨_, _, h⟩
    · obtain ⟨k, hk, h', _⟩ := ih (i + 1) (.send e)
      exact ⟨k + 1, by omega, by rw [h]; simp only [h']; rfl, fun _ => by omega⟩
    · obtain ⟨k, hk, h', _⟩ := ih (i + 1) e
      exact ⟨k + 1, by omega, by rw [h]; simp only [h']; rfl, fun _ => by omega⟩
    · exact ⟨1, by omega, by rw [h]; rfl, fun _ => by omega⟩
    · exact ⟨1, by omega, by rw [h]; rfl, fun _ => by omega⟩
    · exact ⟨1, by omega, by rw [h]; rfl, fun _ => by omega⟩

/-- What happens after the last datagram has no influence. -/
theorem attempts_causal (dest : Address) (pack : List UInt8) (step : Recv → Outcome (Step α))
    (s s' : Nat → Attempt) (n : Nat) : ∀ (i : Nat) (last : CallErr),
    (∀ j < (attempts dest pack step s n i last).1.length, s (i + j) = s' (i + j)) →
    attempts dest pack step s n i last = attempts dest pack step s' n i last := by
  induction n with
  | zero => intro i last _; rfl
  | succ n ih =>
    intro i last hj
    have h0 : s i = s' i := by
      obtain ⟨k, _, hk, hpos⟩ := attempts_sent dest pack step s (n + 1) i last
      have := hj 0 (by rw [hk]; simp; exact hpos (by omega))
      simpa using this
    have tail : ∀ e, attempts dest pack step s (n + 1) i last =
        (datagram dest pack :: (attempts dest pack step s n (i + 1) e).1, (attempts dest pack step s n (i + 1) e).2) →
        attempts dest pack step s n (i + 1) e = attempts dest pack step s' n (i + 1) e := by
      intro e he
      apply ih
      intro j hlt
      have := hj (j + 1) (by rw [he]; simp; exact hlt)
      rw [show i + (j + 1) = i + 1 + j by omega] at this
      exact this
    rcases attempts_cases dest pack step s n i last with ⟨e, h1, h⟩ | ⟨e, h1, h2, h⟩ | ⟨r, h1, h2, h⟩ | ⟨k, h1, h2, h⟩ | ⟨h1, h2, h⟩
    · rw [h, tail (.send e) h, attempts_sendErr (by rw [← h0]; exact h1)]
    · rw [h, tail e h, attempts_retry (by rw [← h0]; exact h1) (by rw [← h0]; exact h2)]
    · rw [h, attempts_done (by rw [← h0]; exact h1) (by rw [← h0]; exact h2)]
    · rw [h, attempts_panic (by rw [← h0]; exact h1) (by rw [← h0]; exact h2)]
    · rw [h, attempts_diverge (by rw [← h0]; exact h1) (by rw [← h0]; exact h2)]

/-- A result other than "out of attempts" comes from the last attempt made. -/
theorem attempts_success (dest : Address) (pack : List UInt8) (step : Recv → Outcome (Step α))
    (script : Nat → Attempt) (n : Nat) : ∀ (i : Nat) (last : CallErr) (a : α),
    (attempts dest pack step script n i last).2 = .ok (.ok a) →
    ∃ j, (attempts dest pack step script n i last).1 = List.replicate (j + 1) (datagram dest pack) ∧
      (script (i + j)).sendErr = none ∧ step (script (i + j)).recv = .ok (.done (.ok a)) := by
  induction n with
  | zero => intro i last a h; simp [attempts_zero] at h
  | succ n ih =>
    intro i last a hr
    rcases attempts_cases dest pack step script n i last with ⟨e, h1, h⟩ | ⟨e, h1, h2, h⟩ | ⟨r, h1, h2, h⟩ | ⟨k, h1, h2, h⟩ | ⟨h1, h2, h⟩
    · rw [h] at hr
      obtain ⟨j, hj, h3, h4⟩ := ih (i + 1) _ a hr
      refine ⟨j + 1, by rw [h, hj]; rfl, ?_, ?_⟩
      · rwa [show i + (j + 1) = i + 1 + j by omega]
      · rwa [show i + (j + 1) = i + 1 + j by omega]
    · rw [h] at hr
      obtain ⟨j, hj, h3, h4⟩ := ih (i + 1) _ a hr
      refine ⟨j + 1, by rw [h, hj]; rfl, ?_, ?_⟩
      · rwa [show i + (j + 1) = i + 1 + j by omega]
      · rwa [show i + (j + 1) = i + 1 + j by omega]
    · rw [h] at hr
      cases hr
      exact ⟨0, by rw [h]; rfl, h1, h2⟩
    · rw [h] at hr; cases hr
    · rw [h] at hr; cases hr

/-- Nothing delivered: every attempt is made and the call ends in a time-out. -/
theorem attempts_timeout (dest : Address) (pack : List UInt8) (step : Recv → Outcome (Step α))
    (hstep : step .timeout = .ok (.retry .timeout)) (script : Nat → Attempt)
    (hs : ∀ i, (script i).sendErr = none ∧ (script i).recv = .timeout) (n : Nat) :
    ∀ (i : Nat) (last : CallErr), attempts dest pack step script (n + 1) i last =
      (List.replicate (n + 1) (datagram dest pack), .ok (.error .timeout)) := by
  induction n with
  | zero =>
    intro i last
    rw [attempts_retry (hs i).1 (by rw [(hs i).2]; exact hstep)]
    rfl
  | succ n ih =>
    intro i last
    rw [attempts_retry (hs i).1 (by rw [(hs i).2]; exact hstep), ih]
    rfl

/-! ## The four calls

Each call either ends without a datagram, or makes its attempts with one packet;
neither depends on what the network does later. -/

theorem clientReadProperty_cases (fuel : Nat) (my : Address) (dev : Device) (rp : PropertyData)
    (invoke : Option UInt8) :
    (∃ r, (∀ a, r ≠ .ok (.ok a)) ∧ ∀ script, clientReadProperty fuel my dev rp invoke script = ([], r)) ∨
    ∃ pack, ∀ script, clientReadProperty fuel my dev rp invoke script =
      attempts dev.addr.setLength pack (readStep fuel) script 1 0 (.failed .noId) := by
  unfold clientReadProperty
  cases invoke with
  | none => left; exact ⟨_, by simp, fun _ => rfl⟩
  | some id =>
    simp only
    split
    · split
      · left; exact ⟨_, by simp, fun _ => rfl⟩
      · right; exact ⟨_, fun _ => rfl⟩
    · left; exact ⟨_, by simp, fun _ => rfl⟩
    · left; exact ⟨_, by simp, fun _ => rfl⟩

theorem clientWriteProperty_cases (my : Address) (dev : Device) (wp : PropertyData)
    (invoke : Option UInt8) :
    (∃ r, (∀ a, r ≠ .ok (.ok a)) ∧ ∀ script, clientWriteProperty my dev wp invoke script = ([], r)) ∨
    ∃ pack, ∀ script, clientWriteProperty my dev wp invoke script =
      attempts dev.addr.setLength pack writeStep script 2 0 (.failed .noId) := by
  unfold clientWriteProperty
  cases invoke with
  | none => left; exact ⟨_, by simp, fun _ => rfl⟩
  | some id =>
    simp only
    split
    · split
      · left; exact ⟨_, by simp, fun _ => rfl⟩
      · right; exact ⟨_, fun _ => rfl⟩
    · left; exact ⟨_, by simp, fun _ => rfl⟩
    · left; exact ⟨_, by simp, fun _ => rfl⟩

theorem clientReadMulti_cases (fuel : Nat) (my : Address) (dev : Device) (rp : List Object)
    (invoke : Option UInt8) :
    (∃ r, (∀ a, r ≠ .ok (.ok a)) ∧ ∀ script, clientReadMulti fuel my dev rp invoke script = ([], r)) ∨
    ∃ pack, ¬ dev.maxApdu < UInt32.ofNat pack.length ∧
      ∀ script, clientReadMulti fuel my dev rp invoke script =
        ((attempts dev.addr.setLength pack (readMultiStep fuel) script 2 0 (.failed .noId)).1,
          wrapFailed (attempts dev.addr.setLength pack (readMultiStep fuel) script 2 0 (.failed .noId)).2) := by
  unfold clientReadMulti
  cases invoke with
  | none => left; exact ⟨_, by simp, fun _ => rfl⟩
  | some id =>
    simp only
    split
    · left; exact ⟨_, by simp, fun _ => rfl⟩
    · split
      · split
        · left; exact ⟨_, by simp, fun _ => rfl⟩
        · split
          · left; exact ⟨_, by simp, fun _ => rfl⟩
          · rename_i hc
            right; exact ⟨_, hc, fun _ => rfl⟩
      · left; exact ⟨_, by simp, fun _ => rfl⟩
      · left; exact ⟨_, by simp, fun _ => rfl⟩

theorem clientWriteMulti_cases (my : Address) (dev : Device) (wp : List Object)
    (invoke : Option UInt8) :
    (∃ r, (∀ a, r ≠ .ok (.ok a)) ∧ ∀ script, clientWriteMulti my dev wp invoke script = ([], r)) ∨
    ∃ pack, ¬ dev.maxApdu < UInt32.ofNat pack.length ∧
      ∀ script, clientWriteMulti my dev wp invoke script =
        ((attempts dev.addr pack writeMultiStep script 2 0 (.failed .noId)).1,
          wrapFailed (attempts dev.addr pack writeMultiStep script 2 0 (.failed .noId)).2) := by
  unfold clientWriteMulti
  cases invoke with
  | none => left; exact ⟨_, by simp, fun _ => rfl⟩
  | some id =>
    simp only
    split
    · split
      · left; exact ⟨_, by simp, fun _ => rfl⟩
      · split
        · left; exact ⟨_, by simp, fun _ => rfl⟩
        · rename_i hc
          right; exact ⟨_, hc, fun _ => rfl⟩
    · left; exact ⟨_, by simp, fun _ => rfl⟩
    · left; exact ⟨_, by simp, fun _ => rfl⟩

theorem wrapFailed_ok {r : Outcome (Except CallErr α)} {a : α} :
    wrapFailed r = .ok (.ok a) ↔ r = .ok (.ok a) := by
  cases r with
  | ok x => cases x <;> simp [wrapFailed]
  | panic k => simp [wrapFailed, bind, Outcome.bind]
  | diverge => simp [wrapFailed, bind, Outcome.bind]

end Bac
