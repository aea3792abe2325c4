import Verif.Lemmas.TimedCalls
/-!
# How long request calls take
-/

namespace Bac.Props
open Bac.Sys (State Move Config Call Run Loop Phase Got effects)
open Bac.TimedCalls

/-! ## Executions -/

theorem TimedCalls.go {cfg : Config} {n m : Nat} {range} {prompt : Bool} {t : TState} (h : TimedCalls.Reach cfg n m range prompt t)
    {s' : State} (l₁ l₂ : List Tsm.Caller) (a b : Tsm.Caller) (mv : Move cfg m t.s s')
    (hs : t.s.tsm.callers = l₁ ++ a :: l₂) (hs' : s'.tsm.callers = l₁ ++ b :: l₂)
    (hal : Allows t.now (t.clock l₁.length) (some a) (some b) (t.s.run l₁.length) (s'.run l₁.length)) :
    TimedCalls.Reach cfg n m range prompt ⟨s', t.now,
      Function.update t.clock l₁.length ((t.clock l₁.length).next t.now (some a) (some b))⟩ := by
  have e : (fun k => (t.clock k).next t.now t.s.tsm.callers[k]? s'.tsm.callers[k]?) =
      Function.update t.clock l₁.length ((t.clock l₁.length).next t.now (some a) (some b)) := by
    funext k
    by_cases e : k = l₁.length
    · subst e
      rw [hs, hs', Function.update_self]
      simp
    · rw [hs, hs', getElem?_other l₁ l₂ b a k e, next_same, Function.update_of_ne e]
  rw [← e]
  exact h.step (.move t s' mv (allowed_own l₁ l₂ a b hs hs' hal))

theorem TimedCalls.stay {cfg : Config} {n m : Nat} {range} {prompt : Bool} {t : TState} (h : TimedCalls.Reach cfg n m range prompt t)
    {s' : State} (mv : Move cfg m t.s s') (hs : s'.tsm.callers = t.s.tsm.callers) :
    TimedCalls.Reach cfg n m range prompt ⟨s', t.now, t.clock⟩ := by
  have e : (fun k => (t.clock k).next t.now t.s.tsm.callers[k]? s'.tsm.callers[k]?) = t.clock := by
    funext k
    rw [hs, next_same]
  have := h.step (.move t s' mv (fun k => by rw [hs]; exact allows_same _ _ _ _ _))
  rw [e] at this
  exact this

/-- The first goroutine waits for the answer to its first request; nothing else has happened. -/
structure Waiting (m : Nat) (call : Call) (l : Loop) (t : TState) : Prop where
  callers : ∃ o c n, t.s.tsm.callers = .wait 1 o c (t.s.tsm.data o) :: List.replicate n .idle ∧ t.s.tsm.states 1 = some o
  phase : (t.s.run 0).phase = .receiving l
  called : (t.s.run 0).call = call
  got : (t.s.run 0).got = []
  fresh : ∀ k, k ≠ 0 → t.s.run k = {}
  asked : (t.clock 0).asked = some (0, call)
  deadline : (t.clock 0).deadline = recvTimeout
  quiet : ∀ k, k ≠ 0 → (t.clock k).asked = none
  mutex : t.s.tsm.mutex = false
  senders : t.s.tsm.senders = List.replicate m .idle
  idle : ∀ k, t.s.utsm.pub k = .idle
  isClosed : ∀ c, t.s.tsm.isClosed c = false
  arrived : t.s.arrived = []
  mail : t.s.mail = []
  time : t.now < recvTimeout

section
attribute [local irreducible] effects sendFrame Call.enter Loop.after Run.begin

theorem waiting_reach {cfg : Config} {n m : Nat} {range} {prompt : Bool} (hsize : 0 < cfg.size) (call : Call) (l : Loop)
    (he : call.enter cfg.fuel cfg.my (UInt8.ofNat 1) = .ok (.ok l)) (ht : 0 < l.tries) :
    ∃ t, TimedCalls.Reach cfg (n + 1) m range prompt t ∧ Waiting m call l t ∧ t.now = 0 := by
  have r0 := (TimedCalls.Reach.start (cfg := cfg) (n := n + 1) (m := m) (range := range) (prompt := prompt)).step
    (.ask _ 0 call rfl rfl)
  have r1 := TimedCalls.go r0 [] (List.replicate n .idle) .idle .slot
    (.tsm _ _ (.takeSlot _ [] _ rfl hsize) (Sys.free_of [] _ .idle .slot rfl rfl rfl rfl rfl)) rfl rfl rfl
  have r2 := TimedCalls.go r1 [] (List.replicate n .idle) .slot (.id 1)
    (.tsm _ _ (.takeId _ [] _ 1 _ rfl rfl) (Sys.free_of [] _ .slot (.id 1) rfl rfl rfl rfl rfl)) rfl rfl trivial
  have r3 := TimedCalls.go r2 [] (List.replicate n .idle) (.id 1) (.obj 1 _)
    (.tsm _ _ (.newObj _ [] _ 1 rfl) (Sys.free_of [] _ (.id 1) (.obj 1 _) rfl rfl rfl rfl rfl)) rfl rfl trivial
  have r4 := TimedCalls.go r3 [] (List.replicate n .idle) (.obj 1 _) (.chan 1 _ _)
    (.tsm _ _ (.makeChan _ [] _ 1 _ rfl) (Sys.free_of [] _ (.obj 1 _) (.chan 1 _ _) rfl rfl rfl rfl rfl)) rfl rfl trivial
  have r5 := TimedCalls.go r4 [] (List.replicate n .idle) (.chan 1 _ _) (.opened 1 _ _)
    (Sys.move_opened _ [] _ 1 _ _ call l he ht rfl rfl) rfl rfl (by
      intro x hx
      cases hx
      simp only [List.length_nil, Function.update_self])
  have r6 := TimedCalls.stay r5 (.send _ 0 l (.failed .noId) _ rfl (sendFrame_ok _ _ _)) rfl
  have r7 := TimedCalls.go r6 [] (List.replicate n .idle) (.opened 1 _ _) (.look 1 _ _ _)
    (.recvLook _ [] _ 1 _ _ _ l rfl rfl rfl rfl) rfl rfl trivial
  have r8 := TimedCalls.go r7 [] (List.replicate n .idle) (.look 1 _ _ _) (.wait 1 _ _ _)
    (.tsm _ _ (.recvWait _ [] _ 1 _ _ _ rfl) (Sys.free_of [] _ (.look 1 _ _ _) (.wait 1 _ _ _) rfl rfl rfl rfl rfl)) rfl rfl trivial
  exact ⟨_, r8, ⟨⟨_, _, n, rfl, rfl⟩, rfl, rfl, rfl, fun k hk => by simp [hk]; rfl, rfl, rfl, fun k hk => by simp [hk]; rfl, rfl, rfl, fun _ => rfl,
    fun _ => rfl, rfl, rfl, show 0 < recvTimeout by decide⟩, rfl⟩

/-- The answer on which the decoder hangs. -/
theorem waiting_hang {cfg : Config} {n m : Nat} {range} {prompt : Bool} {t : TState} (r : TimedCalls.Reach cfg (n + 1) (m + 1) range prompt t)
    (call : Call) (l : Loop) (h : Waiting (m + 1) call l t)
    (f : Address × List UInt8) (d : Delivered) (hf : effects f = [.deliver (UInt8.ofNat 1) d])
    (ha : l.after 1 d.toRecv = .hung) :
    ∃ t', TimedCalls.Reach cfg (n + 1) (m + 1) range prompt t' ∧ t'.now = t.now ∧ t'.clock = t.clock ∧
      (∃ o c k, t'.s.tsm.callers = .opened 1 o c :: List.replicate k .idle) ∧ (t'.s.run 0).phase = .hung ∧
      (t'.s.run 0).call = call ∧ (∀ k, k ≠ 0 → t'.s.run k = {}) ∧ t'.s.arrived = [f] := by
  obtain ⟨⟨o, c, k, hc, hst⟩, hp, hcall, hgot, hfresh, hasked, hdl, hquiet, hmu, hsd, hidle, hcl, harr, hmail, _⟩ := h
  have a1 := TimedCalls.stay r (.arrive _ f (by rw [harr]; exact Nat.succ_pos _)) rfl
  have a2 := TimedCalls.stay a1 (.deliver _ [] (List.replicate m .idle) (UInt8.ofNat 1) d [] o
    (by simp only [harr, List.length_nil, Function.update_self]; exact hf) (hidle _) hsd hmu hst) rfl
  have a3 := TimedCalls.stay a2 (.tsm _ _ (.sendRead _ [] (List.replicate m .idle) _ _ _ _ rfl)
    (Sys.free_senders_of rfl (by simp))) rfl
  have a4 := TimedCalls.go a3 [] (List.replicate k .idle) (.wait 1 o c _) (.opened 1 o c)
    (.handOver _ [] _ [] (List.replicate m .idle) 1 o c (t.s.tsm.data o) _ _ _ l 0 (UInt8.ofNat 1) d hp hc rfl (hcl _) (by simp [hmail]))
    hc rfl (by
      intro hx
      simp only [List.length_nil, Function.update_self, hgot, List.nil_append, List.cons.injEq, Got.mk.injEq, reduceCtorEq, and_false,
        false_and] at hx)
  refine ⟨_, a4, rfl, ?_, ⟨o, c, k, rfl⟩, ?_, ?_, ?_, ?_⟩
  · exact Function.update_eq_self _ _
  · simp only [List.length_nil, Function.update_self, hgot]; exact ha
  · simp only [List.length_nil, Function.update_self]; exact hcall
  · intro k hk
    simp only [List.length_nil, Function.update_of_ne hk]
    exact hfresh k hk
  · show t.s.arrived ++ [f] = _
    rw [harr]; rfl

end

/-- While nobody else calls, nothing makes the goroutines that are not in a call busy. -/
theorem idle_local {cfg : Config} {t : TState} {s' : State} (ha : Allowed t s') (k : Nat)
    (hx : t.s.tsm.callers[k]? = some .idle) (hr : t.s.run k = {}) (hq : (t.clock k).asked = none) (y : Tsm.Caller)
    (hy : s'.tsm.callers[k]? = some y) (hl : Local cfg t.s .idle (t.s.run k) y (s'.run k)) : False := by
  have hk := ha k
  rw [hx, hy] at hk
  rw [hr] at hl
  generalize s'.run k = r' at hl hk
  cases hl with
  | takeSlot => rw [show Allows t.now (t.clock k) (some .idle) (some .slot) _ _ = ((t.clock k).asked.isSome = true) from rfl, hq] at hk; cases hk
  | send _ _ l last out hp => cases hp
  | sendFail _ _ l last e out hp => cases hp

theorem move_none_run {cfg : Config} {m : Nat} {s s' : State} (mv : Move cfg m s s') (k : Nat) (hk : s.tsm.callers[k]? = none) :
    s'.run k = s.run k ∨ ∃ l last, (s.run k).phase = .sending l last := by
  have at_ : ∀ (l₁ l₂ : List Tsm.Caller) x (r : Run), s.tsm.callers = l₁ ++ x :: l₂ →
      Function.update s.run l₁.length r k = s.run k := by
    intro l₁ l₂ x r e
    refine Function.update_of_ne ?_ _ _
    rintro rfl
    rw [e] at hk
    simp at hk
  have snd : ∀ (j : Nat) (r : Run) l last, (s.run j).phase = .sending l last →
      Function.update s.run j r k = s.run k ∨ ∃ l last, (s.run k).phase = .sending l last := by
    intro j r l last hp
    by_cases e : k = j
    · subst e; exact Or.inr ⟨l, last, hp⟩
    · exact Or.inl (Function.update_of_ne e _ _)
  cases mv with
  | send j l last frame hp => exact snd j _ l last hp
  | sendError j l last frame e hp => exact snd j _ l last hp
  | sendRefused j l last e hp => exact snd j _ l last hp
  | opened l₁ l₂ i o c call hc => exact Or.inl (at_ l₁ l₂ _ _ hc)
  | recvTimeout l₁ l₂ i o c c' l hp h => exact Or.inl (at_ l₁ l₂ _ _ h)
  | recvNil l₁ l₂ i o c c' l hp h => exact Or.inl (at_ l₁ l₂ _ _ h)
  | handOver l₁ l₂ m₁ m₂ i o c c' j d v l k' i' x hp h => exact Or.inl (at_ l₁ l₂ _ _ h)
  | _ => exact Or.inl rfl

theorem calm_of {cfg : Config} {m : Nat} {t : TState} (x : Tsm.Caller) (c : Nat)
    (hc : t.s.tsm.callers = x :: List.replicate c .idle) (hx : x ≠ .idle)
    (hf : ∀ k, k ≠ 0 → t.s.run k = {}) (hq : ∀ k, k ≠ 0 → (t.clock k).asked = none)
    (h0 : ∀ s' y, Move cfg m t.s s' → Allowed t s' → s'.tsm.callers[0]? = some y → ¬ Local cfg t.s x (t.s.run 0) y (s'.run 0)) :
    ¬ Busy cfg m t := by
  rintro (⟨s', k, mv, ha, hne⟩ | ⟨k, a, h1, h2, _⟩)
  · cases hk : t.s.tsm.callers[k]? with
    | none =>
      rw [move_none mv k hk, hk] at hne
      rcases hne with hne | hne
      · exact hne rfl
      · refine hne ?_
        rcases move_none_run mv k hk with e | ⟨l, last, e⟩
        · rw [e]
        · rw [hf k (by rintro rfl; rw [hc] at hk; cases hk)] at e
          cases e
    | some z =>
      obtain ⟨y, hy, h⟩ := move_local mv k z hk
      rcases h with ⟨rfl, e⟩ | h
      · rw [hy, hk, e] at hne
        simp at hne
      · cases k with
        | zero =>
          rw [hc] at hk
          cases hk
          exact h0 s' y mv ha hy h
        | succ k =>
          have hz : z = .idle := by
            rw [hc] at hk
            exact List.eq_of_mem_replicate (List.mem_of_getElem? (by simpa using hk))
          subst hz
          exact idle_local ha (k + 1) hk (hf _ (Nat.succ_ne_zero _)) (hq _ (Nat.succ_ne_zero _)) y hy h
  · cases k with
    | zero => rw [hc] at h1; cases h1; exact hx rfl
    | succ k => rw [hq _ (Nat.succ_ne_zero _)] at h2; cases h2

theorem waiting_calm {cfg : Config} {m : Nat} {t : TState} (call : Call) (l : Loop) (h : Waiting m call l t) : ¬ Busy cfg m t := by
  obtain ⟨⟨o, c, k, hc, hst⟩, hp, hcall, hgot, hfresh, hasked, hdl, hquiet, hmu, hsd, hidle, hcl, harr, hmail, htime⟩ := h
  refine calm_of _ k hc nofun hfresh hquiet ?_
  intro s' y mv ha hy hl
  have hk := ha 0
  rw [hc, hy] at hk
  generalize hr' : s'.run 0 = r' at hl hk
  cases hl with
  | send _ _ l last out hp' => rw [hp] at hp'; cases hp'
  | sendFail _ _ l last e out hp' => rw [hp] at hp'; cases hp'
  | recv _ i o ch c' l v g hp' hg hv =>
    rcases hv with rfl | hv | ⟨_, j, d, w, hv⟩
    · have : (t.clock 0).deadline ≤ t.now := hk rfl
      omega
    · rw [hcl] at hv; cases hv
    · rw [hsd] at hv
      cases List.eq_of_mem_replicate hv

/-- The device stays silent until the time-out. -/
theorem waiting_until {cfg : Config} {n m : Nat} {range} (hsize : 0 < cfg.size) (call : Call) (l : Loop)
    (he : call.enter cfg.fuel cfg.my (UInt8.ofNat 1) = .ok (.ok l)) (ht : 0 < l.tries) (d : Nat) (hd : d < recvTimeout) :
    ∃ t, TimedCalls.Reach cfg (n + 1) m range true t ∧ Waiting m call l t ∧ t.now = d := by
  induction d with
  | zero => exact waiting_reach hsize call l he ht
  | succ d ih =>
    obtain ⟨t, r, w, e⟩ := ih (by omega)
    have w' := w
    obtain ⟨h1, hp, hcall, hgot, hfresh, hasked, hdl, hquiet, hmu, hsd, hidle, hcl, harr, hmail, htime⟩ := w'
    exact ⟨_, r.step (.tick t fun _ => waiting_calm call l w),
      ⟨h1, hp, hcall, hgot, hfresh, hasked, hdl, hquiet, hmu, hsd, hidle, hcl, harr, hmail, by show t.now + 1 < _; omega⟩,
      by show t.now + 1 = _; omega⟩

theorem none_asked {cfg : Config} {n m : Nat} {range} {prompt : Bool} {t : TState} (h : TimedCalls.Reach cfg n m range prompt t) (k : Nat)
    (hk : t.s.tsm.callers[k]? = none) : (t.clock k).asked = none := by
  induction h with
  | start => rfl
  | @step t t' r st ih =>
    cases st with
    | tick => exact ih hk
    | ask j call hj ha =>
      by_cases e : k = j
      · subst e; rw [hj] at hk; cases hk
      · simp only [Function.update_of_ne e]; exact ih hk
    | refuse j a hj ha hd =>
      by_cases e : k = j
      · subst e; rw [hj] at hk; cases hk
      · simp only [Function.update_of_ne e]; exact ih hk
    | move s' mv ha =>
      cases hz : t.s.tsm.callers[k]? with
      | none =>
        have : s'.tsm.callers[k]? = none := hk
        simp only [hz, this]
        exact ih hz
      | some z =>
        obtain ⟨y, hy, _⟩ := move_local mv k z hz
        have : s'.tsm.callers[k]? = none := hk
        rw [hy] at this; cases this

/-! ## The theorems -/

/-- C138.  Every timed execution is an execution of the client (Model/System.lean). -/
theorem C138_refines (cfg : Config) (n m : Nat) (range : Nat → Int × Int) (prompt : Bool) (t : TState)
    (h : TimedCalls.Reach cfg n m range prompt t) : Sys.Reach cfg n m range t.s := reach_sys h

/-- The longest time in milliseconds: to get an id, and to wait for each answer. -/
def C138_limit : Call → Nat
  | .read .. => 1000 + 5000
  | .write .. => 1000 + 2 * 5000
  | .writeMulti .. => 1000 + 2 * 5000
  | .readMulti .. => 10000 + 2 * 5000

theorem limit_eq (call : Call) : idTimeout call + attemptsOf call * recvTimeout = C138_limit call := by
  rw [show recvTimeout = 5000 from rfl]
  cases call with
  | read a b =>
    rw [show idTimeout (.read a b) = 1000 from rfl, show attemptsOf (.read a b) = 1 from rfl,
      show C138_limit (.read a b) = 1000 + 5000 from rfl]
  | write a b =>
    rw [show idTimeout (.write a b) = 1000 from rfl, show attemptsOf (.write a b) = 2 from rfl,
      show C138_limit (.write a b) = 1000 + 2 * 5000 from rfl]
  | readMulti a b =>
    rw [show idTimeout (.readMulti a b) = 10000 from rfl, show attemptsOf (.readMulti a b) = 2 from rfl,
      show C138_limit (.readMulti a b) = 10000 + 2 * 5000 from rfl]
  | writeMulti a b =>
    rw [show idTimeout (.writeMulti a b) = 1000 from rfl, show attemptsOf (.writeMulti a b) = 2 from rfl,
      show C138_limit (.writeMulti a b) = 1000 + 2 * 5000 from rfl]

/-- C138 (partial).  When nothing is slow (time passes only when no goroutine in a call can go on), a call neither
hanging in the decoder nor crashed that is still under way was begun at most 6 s ago (ReadProperty), 11 s ago
(WriteProperty, WriteMultiProperty) or 20 s ago (ReadMultiProperty): whatever arrives, however many goroutines
call, and however many slots the transaction manager has. -/
theorem C138_partial (cfg : Config) (n m : Nat) (range : Nat → Int × Int) (t : TState)
    (h : TimedCalls.Reach cfg n m range true t) (k t0 : Nat) (call : Call) (ha : (t.clock k).asked = some (t0, call))
    (hh : (t.s.run k).phase ≠ .hung) (hp : ∀ e, (t.s.run k).phase ≠ .panicked e) : t.now ≤ t0 + C138_limit call := by
  have hlim := limit_eq call
  cases hk : t.s.tsm.callers[k]? with
  | none => rw [none_asked h k hk] at ha; cases ha
  | some x =>
    have hu := upper_reach h k x hk
    have hl := tries_reach (reach_sys h) k x hk
    have early : t.now ≤ t0 + idTimeout call → t.now ≤ t0 + C138_limit call := fun h => by omega
    have late : (t.s.run k).call = call → t.now ≤ t0 + idTimeout call + (t.s.run k).got.length * recvTimeout →
        t.now ≤ t0 + C138_limit call := by
      intro hc h
      rw [hc] at hl
      have := Nat.mul_le_mul_right recvTimeout hl
      omega
    cases x
    case idle => exact early (hu _ ha)
    case opened i o c =>
      obtain ⟨a, h1, h2, h3⟩ := hu
      rw [ha] at h1
      cases h1
      rcases h3 with (h3 | ⟨e, h3⟩) | h3
      · exact absurd h3 hh
      · exact absurd h3 (hp e)
      · exact late h2 h3
    case wait i o c c' =>
      obtain ⟨a, h1, h2, h3, h4⟩ := hu
      rw [ha] at h1
      cases h1
      simp only at h2 h4
      obtain ⟨l, hf⟩ := fits_reach (reach_sys h) k _ hk
      have := (good_tries (reach_sys h) k).2 l hf
      rw [h2] at this
      have := Nat.mul_le_mul_right recvTimeout (show (t.s.run k).got.length + 1 ≤ attemptsOf call from this)
      omega
    case slot | giveBack | id | obj | chan =>
      obtain ⟨a, h1, h2⟩ := hu
      rw [ha] at h1
      cases h1
      exact early h2
    all_goals
      obtain ⟨a, h1, h2, h3⟩ := hu
      rw [ha] at h1
      cases h1
      exact late h2 h3

/-- C138: the executions of `C138_partial` do not run into a state in which the clock is stopped for nothing: in every state time passes,
or some goroutine in a call makes a step, or one gives up waiting for a slot, its time being over. -/
theorem C138_live (cfg : Config) (m : Nat) (t : TState) :
    ∃ t', TimedCalls.Step cfg m true t t' ∧
      ((t'.now = t.now + 1 ∧ t'.s = t.s) ∨
        (t'.now = t.now ∧ ∃ k, t'.s.tsm.callers[k]? ≠ t.s.tsm.callers[k]? ∨ (t'.s.run k).phase ≠ (t.s.run k).phase) ∨
        (t'.now = t.now ∧ t'.s = t.s ∧ ∃ k t0 call, (t.clock k).asked = some (t0, call) ∧ (t'.clock k).asked = none ∧
          t0 + C138_limit call ≤ t.now + attemptsOf call * 5000)) := by
  by_cases hb : TimedCalls.Busy cfg m t
  · rcases hb with ⟨s', k, mv, ha, hne⟩ | ⟨k, ⟨t0, call⟩, h1, h2, h3⟩
    · exact ⟨_, .move t s' mv ha, Or.inr (Or.inl ⟨rfl, k, hne⟩)⟩
    · refine ⟨_, .refuse t k _ h1 h2 h3, Or.inr (Or.inr ⟨rfl, rfl, k, t0, call, h2, by simp only [Function.update_self], ?_⟩)⟩
      have := limit_eq call
      rw [show recvTimeout = 5000 from rfl] at this
      have h3 : t0 + idTimeout call ≤ t.now := h3
      omega
  · exact ⟨_, .tick t fun _ => hb, Or.inl ⟨rfl, rfl⟩⟩

/-- How many passes of the loop ended with the time-out of `Receive`. -/
def C138_timeouts (g : List Got) : Nat := (g.filter fun x => decide (x.attempt = ⟨none, .timeout⟩) && x.mail.isNone).length

/-- C138.  In every execution, however slow anything is, a call under way with an open transaction has been so for at
least 5 s for each answer it has waited for in vain. -/
theorem C138_least (cfg : Config) (n m : Nat) (range : Nat → Int × Int) (prompt : Bool) (t : TState)
    (h : TimedCalls.Reach cfg n m range prompt t) (k t0 : Nat) (call : Call) (ha : (t.clock k).asked = some (t0, call))
    (i o c : Nat) (hk : t.s.tsm.callers[k]? = some (.opened i o c)) :
    t0 + 5000 * C138_timeouts (t.s.run k).got ≤ t.now := by
  have := lower_reach h k _ hk (t0, call) ha
  have e : waited (t.s.run k).got = C138_timeouts (t.s.run k).got := List.countP_eq_length_filter
  rw [e, show recvTimeout = 5000 from rfl] at this
  have : t0 + C138_timeouts (t.s.run k).got * 5000 ≤ t.now := this
  omega

/-- C138.  Any call whose request can be built waits exactly 5 s for a silent device, and then sends again or, if it may
not, returns the time-out. -/
theorem C138_silent (cfg : Config) (n m : Nat) (range : Nat → Int × Int) (hsize : 0 < cfg.size) (call : Call) (l : Loop)
    (he : call.enter cfg.fuel cfg.my 1 = .ok (.ok l)) (ht : 0 < l.tries) :
    ∃ t, TimedCalls.Reach cfg (n + 1) m range true t ∧ t.now = 5000 ∧ (t.clock 0).asked = some (0, call) ∧
      C138_timeouts (t.s.run 0).got = 1 ∧ t.s.arrived = [] ∧
      (t.s.run 0).phase = (if 1 < l.tries then .sending l .timeout else .done (.error (l.fail .timeout))) := by
  obtain ⟨t, r, w, e⟩ := waiting_until (cfg := cfg) (n := n) (m := m) (range := range) hsize call l he ht 4999 (by decide)
  have b := waiting_calm (cfg := cfg) call l w
  obtain ⟨⟨o, c, k, hc, hst⟩, hp, hcall, hgot, hfresh, hasked, hdl, hquiet, hmu, hsd, hidle, hcl, harr, hmail, htime⟩ := w
  have r1 := r.step (.tick t fun _ => b)
  have r2 := TimedCalls.go r1 [] (List.replicate k .idle) (.wait 1 o c _) (.opened 1 o c)
    (.recvTimeout _ [] _ 1 o c _ l hp hc) hc rfl (fun _ => by
      show (t.clock 0).deadline ≤ t.now + 1
      rw [hdl, e]; decide)
  refine ⟨_, r2, by show t.now + 1 = _; omega, ?_, ?_, harr, ?_⟩
  · simp only [List.length_nil, Function.update_self]
    exact hasked
  · simp only [List.length_nil, Function.update_self, hgot]
    rfl
  · simp only [List.length_nil, Function.update_self, hgot]
    simp only [Sys.Loop.after, enter_timeout he, Sys.Loop.next, Nat.zero_add]

/-- C138 fails.  With any number of slots, any valid ReadMultiProperty request, and any content of an answer on which
the decoder hangs: one such answer, and even when nothing is slow the call is still under way after any time. -/
theorem C138_fails (fuel : Nat) (my : Address) (hmy : my.net = 0) (range : Nat → Int × Int) (size n m : Nat)
    (hsize : 0 < size) (src : Address) (f : UInt8) (hf : f = 10 ∨ f = 11)
    (h : Spec.NetHeader) (hok : h.Ok) (dev : Device) (os : List Object) (hv : ∀ o ∈ os, C04_Valid o.id)
    (h0 : dev.maxApdu ≠ 0) (hfit : (readMultiPack dev 1 os).length ≤ dev.maxApdu.toNat)
    (body : List UInt8) (hb : Hangs body) (hfuel : body.length < fuel) (d : Nat) :
    ∃ t, TimedCalls.Reach ⟨fuel, my, size⟩ (n + 1) (m + 1) range true t ∧ t.now = d ∧
      (t.clock 0).asked = some (0, .readMulti dev os) ∧ (t.s.run 0).phase = .hung ∧
      t.s.arrived = [(src, Spec.frame f (h.octets ++ Spec.complexAck 1 14 body))] := by
  have heff : effects (src, Spec.frame f (h.octets ++ Spec.complexAck 1 14 body))
      = [.deliver (UInt8.ofNat 1) (.apdu (Spec.complexAck 1 14 body))] := by
    unfold effects
    rw [(C72_acks src _ h hok f hf 1 14 body).2]
    rfl
  obtain ⟨t0, r0, w0, e0⟩ := waiting_reach (cfg := ⟨fuel, my, size⟩) (n := n) (m := m + 1) (range := range) (prompt := true) hsize
    (.readMulti dev os) _ (readMulti_enter fuel my dev os 1 hmy hv h0 hfit) Nat.two_pos
  obtain ⟨t1, r1, e1, c1, ⟨o, c, k, hc⟩, hph, hcall, hfresh, harr⟩ := waiting_hang r0 _ _ w0 _ _ heff
    (readMulti_hangs fuel _ _ body _ 1 hb hfuel)
  suffices hd : ∃ t, TimedCalls.Reach ⟨fuel, my, size⟩ (n + 1) (m + 1) range true t ∧ t.now = d ∧ t.clock = t1.clock ∧ t.s = t1.s by
    obtain ⟨t, r, e, ec, es⟩ := hd
    exact ⟨t, r, e, by rw [ec, c1]; exact w0.asked, by rw [es]; exact hph, by rw [es]; exact harr⟩
  induction d with
  | zero => exact ⟨t1, r1, by omega, rfl, rfl⟩
  | succ d ih =>
    obtain ⟨t, r, e, ec, es⟩ := ih
    refine ⟨_, r.step (.tick t fun _ => ?_), by show t.now + 1 = _; omega, ec, es⟩
    refine calm_of (.opened 1 o c) k (by rw [es]; exact hc) nofun (by rw [es]; exact hfresh)
      (by rw [ec, c1]; exact w0.quiet) ?_
    intro s' y mv ha hy hl
    rw [es] at hl
    generalize s'.run 0 = r' at hl
    cases hl with
    | send _ _ l last out hp' => rw [hph] at hp'; cases hp'
    | sendFail _ _ l last e out hp' => rw [hph] at hp'; cases hp'
    | look _ i o ch o' l hp' => rw [hph] at hp'; cases hp'
    | put _ i o ch o' z hp' => rw [hph] at hp'; cases hp'
    | putFail _ i o ch z hp' => rw [hph] at hp'; cases hp'

/-- A ReadProperty call to a silent device, with 20 slots and any number of goroutines: at 5 s, and no earlier
(`C138_least`), it has its result, the time-out; and 6 s after it was begun it is no longer under way (`C138_partial`). -/
example (n m : Nat) (range : Nat → Int × Int) (dev : Device) :
    ∃ t, TimedCalls.Reach ⟨12, {}, 20⟩ (n + 1) m range true t ∧ t.now = 5000 ∧
      (t.clock 0).asked = some (0, .read dev { object := { id := ⟨8, 1⟩, properties := [⟨76, arrayAll, .one .nil, 0⟩] } }) ∧
      (t.s.run 0).phase = .done (.error .timeout) := by
  obtain ⟨t, r, h1, h2, _, _, h3⟩ := C138_silent ⟨12, {}, 20⟩ n m range (by decide) _ _ (read_enter 12 {} dev
    { object := { id := ⟨8, 1⟩, properties := [⟨76, arrayAll, .one .nil, 0⟩] } } ⟨76, arrayAll, .one .nil, 0⟩ 1 rfl
    ⟨⟨by decide, by decide⟩, ⟨[], rfl⟩, by decide⟩) Nat.one_pos
  exact ⟨t, r, h1, h2, h3⟩

/-- One answer of 11 octets (analogue input 5, cut after the second octet of a present value), and the
ReadMultiProperty call is still under way a day later. -/
example (n m : Nat) (range : Nat → Int × Int) :
    ∃ t, TimedCalls.Reach ⟨12, {}, 20⟩ (n + 1) (m + 1) range true t ∧ t.now = 86400000 ∧
      (t.clock 0).asked = some (0, .readMulti { maxApdu := 1476 } [{ id := ⟨0, 5⟩, properties := [⟨85, arrayAll, .one .nil, 0⟩] }]) := by
  obtain ⟨t, r, h1, h2, _⟩ := C138_fails 12 {} rfl range 20 n m (by decide) {} 10 (Or.inl rfl)
    { version := 1, expectingReply := false, priority := 0, dest := none, hop := 0, src := none, msg := none }
    ⟨rfl, by decide, fun a h => (by cases h), fun a h => (by cases h)⟩ { maxApdu := 1476 }
    [{ id := ⟨0, 5⟩, properties := [⟨85, arrayAll, .one .nil, 0⟩] }] (by simp [C04_Valid]) (by decide) (by decide +kernel)
    [0x0C, 0, 0, 0, 5, 0x1E, 0x29, 85, 0x4E, 0x21, 5] ((C135_decided _).1.2 (by decide +kernel)) (by decide) 86400000
  exact ⟨t, r, h1, h2⟩

/-! ## C142 An answer in time -/

/-- C142 (partial).  When nothing is slow: while an answer is offered to a call that waits, and the deadline is not reached,
no time passes, and whatever comes next, the attempt does not end with a time-out. -/
theorem C142_partial (cfg : Config) (n m : Nat) (range : Nat → Int × Int) (t t' : TState)
    (h : TimedCalls.Reach cfg n m range true t) (k i o c c' j d v : Nat)
    (hk : t.s.tsm.callers[k]? = some (.wait i o c c')) (hs : .blocked j d c' v ∈ t.s.tsm.senders)
    (hd : t.now < (t.clock k).deadline) (st : TimedCalls.Step cfg m true t t') :
    t'.now = t.now ∧ ((t'.s.run k).got = (t.s.run k).got ∨
      ∃ g, (t'.s.run k).got = (t.s.run k).got ++ [g] ∧ g ≠ ⟨⟨none, .timeout⟩, none⟩) := by
  have hr := reach_sys h
  obtain ⟨l, hp⟩ := fits_reach hr k _ hk
  cases st with
  | tick hb =>
    refine absurd ?_ (hb rfl)
    obtain ⟨l₁, l₂, hc, rfl⟩ := split_at hk
    cases hcl : t.s.tsm.isClosed c' with
    | true =>
      exact busy_own l₁ l₂ _ (.opened i o c) (.recvNil t.s l₁ l₂ i o c c' l hp hc hcl) hc rfl (by
        intro hx
        simp only [Function.update_self, List.append_cancel_left_eq, List.cons.injEq, Got.mk.injEq, and_true] at hx
        exact absurd hx (by decide)) nofun
    | false =>
      obtain ⟨m₁, m₂, hm⟩ := List.append_of_mem hs
      obtain ⟨x, i', dl, hv, _⟩ := (Sys.hist_reach hr).blocked j d c' v hs
      exact busy_own l₁ l₂ _ (.opened i o c) (.handOver t.s l₁ l₂ m₁ m₂ i o c c' j d v l x i' dl hp hc hm hcl hv) hc rfl (by
        intro hx
        simp only [Function.update_self, List.append_cancel_left_eq, List.cons.injEq, Got.mk.injEq, reduceCtorEq, and_false,
          false_and] at hx) nofun
  | ask j call hj ha => exact ⟨rfl, Or.inl rfl⟩
  | refuse j a hj ha hd => exact ⟨rfl, Or.inl rfl⟩
  | move s' mv ha =>
    refine ⟨rfl, ?_⟩
    obtain ⟨y, hy, hl⟩ := move_local mv k _ hk
    have hak := ha k
    rw [hk, hy] at hak
    rcases hl with ⟨_, e⟩ | hl
    · exact Or.inl (by rw [e])
    · right
      show ∃ g, (s'.run k).got = _ ∧ _
      generalize s'.run k = r' at hl hak
      cases hl with
      | send _ _ l last out hp' => rw [hp] at hp'; cases hp'
      | sendFail _ _ l last e out hp' => rw [hp] at hp'; cases hp'
      | recv _ i o ch c' l w g hp' hg hv =>
        refine ⟨g, rfl, fun e => ?_⟩
        have : (t.clock k).deadline ≤ t.now := hak (by rw [e])
        omega

section
attribute [local irreducible] effects sendFrame Call.enter Loop.after Run.begin

/-- The premises of `C142_partial` are met at every time before the deadline. -/
theorem answer_offered (cfg : Config) (n m : Nat) (range : Nat → Int × Int) (hsize : 0 < cfg.size) (hmy : cfg.my.net = 0)
    (dev : Device) (rp : PropertyData) (p : Property) (hv : ValidRead rp p)
    (f : Address × List UInt8) (d : Delivered) (hf : effects f = [.deliver 1 d]) (T : Nat) (hT : T < 5000) :
    ∃ t i o c c' j d v, TimedCalls.Reach cfg (n + 1) (m + 1) range true t ∧ t.now = T ∧
      t.s.tsm.callers[0]? = some (.wait i o c c') ∧ .blocked j d c' v ∈ t.s.tsm.senders ∧ t.now < (t.clock 0).deadline := by
  obtain ⟨l, he, hl, hw⟩ : ∃ l, Call.enter cfg.fuel cfg.my (UInt8.ofNat 1) (.read dev rp) = .ok (.ok l) ∧ l.tries = 1 ∧
      l.wrap = false := ⟨_, read_enter cfg.fuel cfg.my dev rp p (UInt8.ofNat 1) hmy hv, rfl, rfl⟩
  obtain ⟨t, r0, w, e⟩ := waiting_until (cfg := cfg) (n := n) (m := m + 1) (range := range) hsize _ _ he
    (by rw [hl]; exact Nat.one_pos) T hT
  obtain ⟨⟨o, c, k, hc, hst⟩, hp, hcall, hgot, hfresh, hasked, hdl, hquiet, hmu, hsd, hidle, hcl, harr, hmail, htime⟩ := w
  have a1 := TimedCalls.stay r0 (.arrive _ f (by show t.s.arrived.length < _; rw [harr]; exact Nat.succ_pos _)) rfl
  have a2 := TimedCalls.stay a1 (.deliver _ [] (List.replicate m .idle) (UInt8.ofNat 1) d [] o
    (by simp only [harr, List.length_nil, Function.update_self]; exact hf) (hidle _) hsd hmu hst) rfl
  have a3 := TimedCalls.stay a2 (.tsm _ _ (.sendRead _ [] (List.replicate m .idle) _ _ _ _ rfl)
    (Sys.free_senders_of rfl (by simp))) rfl
  refine ⟨_, 1, o, c, t.s.tsm.data o, _, _, _, a3, e, ?_, List.mem_append_right _ (List.mem_cons_self ..), ?_⟩
  · show t.s.tsm.callers[0]? = _
    rw [hc]; rfl
  · show t.now < (t.clock 0).deadline
    rw [hdl, e]; exact hT

theorem answer_late (cfg : Config) (n m : Nat) (range : Nat → Int × Int) (hsize : 0 < cfg.size) (hmy : cfg.my.net = 0)
    (dev : Device) (rp : PropertyData) (p : Property) (hv : ValidRead rp p)
    (f : Address × List UInt8) (d : Delivered) (hf : effects f = [.deliver 1 d]) :
    ∃ t, TimedCalls.Reach cfg (n + 1) (m + 1) range true t ∧ t.now = 5000 ∧ t.s.arrived = [f] ∧
      (t.s.run 0).call = .read dev rp ∧ (t.s.run 0).phase = .done (.error .timeout) ∧ t.s.tsm.panicked = true := by
  obtain ⟨l, he, hl, hw⟩ : ∃ l, Call.enter cfg.fuel cfg.my (UInt8.ofNat 1) (.read dev rp) = .ok (.ok l) ∧ l.tries = 1 ∧
      l.wrap = false := ⟨_, read_enter cfg.fuel cfg.my dev rp p (UInt8.ofNat 1) hmy hv, rfl, rfl⟩
  obtain ⟨t, r, w, e⟩ := waiting_until (cfg := cfg) (n := n) (m := m + 1) (range := range) hsize _ _ he (by rw [hl]; exact Nat.one_pos) 4999 (by decide)
  have b := waiting_calm (cfg := cfg) _ _ w
  obtain ⟨⟨o, c, k, hc, hst⟩, hp, hcall, hgot, hfresh, hasked, hdl, hquiet, hmu, hsd, hidle, hcl, harr, hmail, htime⟩ := w
  have r0 := r.step (.tick t fun _ => b)
  have a1 := TimedCalls.stay r0 (.arrive _ f (by show t.s.arrived.length < _; rw [harr]; exact Nat.succ_pos _)) rfl
  have a2 := TimedCalls.stay a1 (.deliver _ [] (List.replicate m .idle) (UInt8.ofNat 1) d [] o
    (by simp only [harr, List.length_nil, Function.update_self]; exact hf) (hidle _) hsd hmu hst) rfl
  have a3 := TimedCalls.stay a2 (.tsm _ _ (.sendRead _ [] (List.replicate m .idle) _ _ _ _ rfl)
    (Sys.free_senders_of rfl (by simp))) rfl
  have a4 := TimedCalls.go a3 [] (List.replicate k .idle) (.wait 1 o c _) (.opened 1 o c)
    (.recvTimeout _ [] _ 1 o c _ _ hp hc) hc rfl (fun _ => by
      show (t.clock 0).deadline ≤ t.now + 1
      rw [hdl, e]; decide)
  have hdone : (Function.update t.s.run 0 { t.s.run 0 with
      phase := Loop.after l ((t.s.run 0).got.length + 1) .timeout
      got := (t.s.run 0).got ++ [⟨⟨none, .timeout⟩, none⟩] } 0).phase = .done (.error .timeout) := by
    simp only [Function.update_self, hgot, Sys.Loop.after, enter_timeout he, Sys.Loop.next, List.length_nil, hl, Nat.zero_add,
      Nat.lt_irrefl, if_false, Sys.Loop.fail, hw, Bool.false_eq_true]
  have a5 := TimedCalls.go a4 [] (List.replicate k .idle) (.opened 1 o c) (.locked 1 o c o)
    (.put _ [] _ 1 o c o _ hdone rfl hmu hst) rfl rfl trivial
  have a6 := TimedCalls.go a5 [] (List.replicate k .idle) (.locked 1 o c o) (.closed 1 o)
    (.tsm _ _ (.putClose _ [] _ 1 o c o rfl) (Sys.free_of [] _ (.locked 1 o c o) (.closed 1 o) rfl rfl rfl rfl rfl)) rfl rfl trivial
  have a7 := TimedCalls.stay a6 (.tsm _ _ (.sendPanic _ [] (List.replicate m .idle) _ _ (t.s.tsm.data o) _ rfl
    (by simp only [Function.update_self])) (Sys.free_senders_of rfl (by simp))) rfl
  refine ⟨_, a7, by show t.now + 1 = _; omega, by show t.s.arrived ++ [f] = _; rw [harr]; rfl, ?_, hdone, rfl⟩
  simp only [List.length_nil, Function.update_self]
  exact hcall

end

/-- C142 fails.  Even when nothing is slow: any acknowledgement of a ReadProperty request that arrives at the end of the 5 s
may be dropped for the time-out, and then the process crashes. -/
theorem C142_fails (cfg : Config) (n m : Nat) (range : Nat → Int × Int) (hsize : 0 < cfg.size) (hmy : cfg.my.net = 0)
    (dev : Device) (rp : PropertyData) (p : Property) (hv : ValidRead rp p) (x : C117_Ack) (hx : x.Valid) (hi : x.invoke = 1) :
    ∃ t, TimedCalls.Reach cfg (n + 1) (m + 1) range true t ∧ t.now = 5000 ∧ t.s.arrived = [x.datagram] ∧
      (t.s.run 0).call = .read dev rp ∧ (t.s.run 0).phase = .done (.error .timeout) ∧ t.s.tsm.panicked = true :=
  answer_late cfg n m range hsize hmy dev rp p hv _ _ (hi ▸ x.effects hx)

/-- The answer of `C117_ack` arrives 5 s after the question: the call has failed, and the process crashes. -/
example (n m : Nat) (range : Nat → Int × Int) (dev : Device) :
    ∃ t, TimedCalls.Reach ⟨12, {}, 20⟩ (n + 1) (m + 1) range true t ∧ t.now = 5000 ∧
      (t.s.run 0).phase = .done (.error .timeout) ∧ t.s.tsm.panicked = true := by
  obtain ⟨t, r, h1, _, _, h2, h3⟩ := C142_fails ⟨12, {}, 20⟩ n m range (by decide) rfl dev
    { object := { id := ⟨8, 1⟩, properties := [⟨77, arrayAll, .one .nil, 0⟩] } } ⟨77, arrayAll, .one .nil, 0⟩
    ⟨⟨by decide, by decide⟩, ⟨[], rfl⟩, by decide⟩ C117_ack C117_ack_valid rfl
  exact ⟨t, r, h1, h2, h3⟩

/-- The same answer 3 s after the question: it is taken at once, and there is no time-out. -/
example (n m : Nat) (range : Nat → Int × Int) (dev : Device) :
    ∃ t, TimedCalls.Reach ⟨12, {}, 20⟩ (n + 1) (m + 1) range true t ∧ t.now = 3000 ∧
      ∀ t', TimedCalls.Step ⟨12, {}, 20⟩ (m + 1) true t t' → t'.now = 3000 ∧ ((t'.s.run 0).got = (t.s.run 0).got ∨
        ∃ g, (t'.s.run 0).got = (t.s.run 0).got ++ [g] ∧ g ≠ ⟨⟨none, .timeout⟩, none⟩) := by
  obtain ⟨t, i, o, c, c', j, d, v, r, e, h1, h2, h3⟩ := answer_offered ⟨12, {}, 20⟩ n m range (by decide) rfl dev
    { object := { id := ⟨8, 1⟩, properties := [⟨77, arrayAll, .one .nil, 0⟩] } } ⟨77, arrayAll, .one .nil, 0⟩
    ⟨⟨by decide, by decide⟩, ⟨[], rfl⟩, by decide⟩ _ _ (C117_ack.effects C117_ack_valid) 3000 (by decide)
  exact ⟨t, r, e, fun t' st => e ▸ C142_partial _ _ _ _ _ _ r 0 i o c c' j d v h1 h2 h3 st⟩

end Bac.Props
