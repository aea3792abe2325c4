import Verif.Model.TimedCalls
import Verif.Props.Blocked
/-!
# Invariants of the timed request calls
-/

namespace Bac.TimedCalls
open Bac.Sys (State Move Config Call Run Loop Phase Got Free)
open Bac.Props (getElem?_other split_at fits_reach C50_no_block C47_found)

/-- What one caller and its call can do in one step of the system. -/
inductive Local (cfg : Config) (s : State) : Tsm.Caller → Run → Tsm.Caller → Run → Prop
  | takeSlot (r) : Local cfg s .idle r .slot r
  | takeId (r i) : Local cfg s .slot r (.id i) r
  | cancel (r) : Local cfg s .slot r .giveBack r
  | giveBack (r) : Local cfg s .giveBack r .idle r
  | obj (r i o) : Local cfg s (.id i) r (.obj i o) r
  | chan (r i o c) : Local cfg s (.obj i o) r (.chan i o c) r
  | opened (r i o c call) : Local cfg s (.chan i o c) r (.opened i o c) (Run.begin cfg.fuel cfg.my call (UInt8.ofNat i))
  | send (x r l last out) (hp : r.phase = .sending l last) :
      Local cfg s x r x { r with phase := .receiving l, out := out }
  | sendFail (x r l last e out) (hp : r.phase = .sending l last) :
      Local cfg s x r x { r with
        phase := l.next (r.got.length + 1) (.send e), got := r.got ++ [⟨⟨some e, .timeout⟩, none⟩], out := out }
  | look (r i o c o' l) (hp : r.phase = .receiving l) : Local cfg s (.opened i o c) r (.look i o c o') r
  | wait (r i o c o' c') : Local cfg s (.look i o c o') r (.wait i o c c') r
  | recv (r i o c c' l v g) (hp : r.phase = .receiving l) (hg : g.attempt = ⟨none, v⟩)
      (hv : g = ⟨⟨none, .timeout⟩, none⟩ ∨ s.tsm.isClosed c' = true ∨
        g.mail.isSome = true ∧ ∃ j d w, Tsm.Sender.blocked j d c' w ∈ s.tsm.senders) :
      Local cfg s (.wait i o c c') r (.opened i o c) { r with
        phase := l.after (r.got.length + 1) v, got := r.got ++ [g] }
  | put (r i o c o' x) (hp : r.phase = .done x) : Local cfg s (.opened i o c) r (.locked i o c o') r
  | putFail (r i o c x) (hp : r.phase = .done x) (hl : s.tsm.states i = none) (hm : s.tsm.mutex = false) :
      Local cfg s (.opened i o c) r .idle r
  | close (r i o c o') : Local cfg s (.locked i o c o') r (.closed i o') r
  | pool (r i o) : Local cfg s (.closed i o) r (.pooled i o) r
  | freeId (r i o) : Local cfg s (.pooled i o) r (.freedId i o) r
  | freeSlot (r i o) : Local cfg s (.freedId i o) r (.freedSlot i o) r
  | delete (r i o) : Local cfg s (.freedSlot i o) r .idle r

theorem move_local {cfg : Config} {m : Nat} {s s' : State} (mv : Move cfg m s s') (k : Nat) (x : Tsm.Caller)
    (hx : s.tsm.callers[k]? = some x) :
    ∃ y, s'.tsm.callers[k]? = some y ∧ ((y = x ∧ s'.run k = s.run k) ∨ Local cfg s x (s.run k) y (s'.run k)) := by
  have own : ∀ (l₁ l₂ : List Tsm.Caller) (a b : Tsm.Caller) (run : Nat → Run), s.tsm.callers = l₁ ++ a :: l₂ →
      (∀ j, j ≠ l₁.length → run j = s.run j) → Local cfg s a (s.run l₁.length) b (run l₁.length) →
      ∃ y, (l₁ ++ b :: l₂)[k]? = some y ∧ ((y = x ∧ run k = s.run k) ∨ Local cfg s x (s.run k) y (run k)) := by
    intro l₁ l₂ a b run hs hr hl
    by_cases e : k = l₁.length
    · subst e
      rw [hs] at hx
      simp only [List.getElem?_append_right (Nat.le_refl _), Nat.sub_self, List.getElem?_cons_zero, Option.some.injEq] at hx ⊢
      subst hx
      exact ⟨b, rfl, Or.inr hl⟩
    · refine ⟨x, ?_, Or.inl ⟨rfl, hr k e⟩⟩
      rw [getElem?_other l₁ l₂ b a k e, ← hs, hx]
  have stay : ∃ y, s.tsm.callers[k]? = some y ∧ ((y = x ∧ s.run k = s.run k) ∨ Local cfg s x (s.run k) y (s.run k)) :=
    ⟨x, hx, Or.inl ⟨rfl, rfl⟩⟩
  have upd : ∀ j (r : Run), (∀ z, Local cfg s z (s.run j) z r) →
      ∃ y, s.tsm.callers[k]? = some y ∧ ((y = x ∧ Function.update s.run j r k = s.run k) ∨
        Local cfg s x (s.run k) y (Function.update s.run j r k)) := by
    intro j r hl
    refine ⟨x, hx, ?_⟩
    by_cases e : k = j
    · subst e; right; rw [Function.update_self]; exact hl x
    · left; exact ⟨rfl, Function.update_of_ne e _ _⟩
  have other : ∀ (j : Nat) (r : Run) (i : Nat), i ≠ j → Function.update s.run j r i = s.run i :=
    fun j r i h => Function.update_of_ne h _ _
  cases mv with
  | arrive => exact stay
  | publish => exact stay
  | deliver => exact stay
  | unknown => exact stay
  | utsm => exact stay
  | tsm t st hfree =>
    have out : ∀ l₁ l₂ x i o c, s.tsm.callers = l₁ ++ .opened i o c :: l₂ → t.callers = l₁ ++ x :: l₂ →
        (∀ i o c, x ≠ .opened i o c) → False := by
      intro l₁ l₂ x i o c h1 h2 hx
      have := (hfree.1 l₁.length i o c).1 (by rw [h1]; simp)
      rw [h2] at this
      simp at this
      exact hx _ _ _ this
    have into : ∀ l₁ l₂ x i o c, s.tsm.callers = l₁ ++ x :: l₂ → t.callers = l₁ ++ .opened i o c :: l₂ →
        (∀ i o c, x ≠ .opened i o c) → False := by
      intro l₁ l₂ x i o c h1 h2 hx
      have := (hfree.1 l₁.length i o c).2 (by rw [h2]; simp)
      rw [h1] at this
      simp at this
      exact hx _ _ _ this
    cases st
    case takeSlot h' _ => exact own _ _ _ _ _ h' (fun _ _ => rfl) (.takeSlot _)
    case takeId h' _ => exact own _ _ _ _ _ h' (fun _ _ => rfl) (.takeId _ _)
    case cancel h' => exact own _ _ _ _ _ h' (fun _ _ => rfl) (.cancel _)
    case giveBack h' _ => exact own _ _ _ _ _ h' (fun _ _ => rfl) (.giveBack _)
    case newObj h' => exact own _ _ _ _ _ h' (fun _ _ => rfl) (.obj _ _ _)
    case poolObj h' _ => exact own _ _ _ _ _ h' (fun _ _ => rfl) (.obj _ _ _)
    case makeChan h' => exact own _ _ _ _ _ h' (fun _ _ => rfl) (.chan _ _ _ _)
    case openTx h' _ => exact (into _ _ _ _ _ _ h' rfl (by simp)).elim
    case recvLook h' _ _ => exact (out _ _ _ _ _ _ h' rfl (by simp)).elim
    case recvWait h' => exact own _ _ _ _ _ h' (fun _ _ => rfl) (.wait _ _ _ _ _ _)
    case recvTimeout h' => exact (into _ _ _ _ _ _ h' rfl (by simp)).elim
    case recvNil h' _ => exact (into _ _ _ _ _ _ h' rfl (by simp)).elim
    case handOver h' _ _ => exact (into _ _ _ _ _ _ h' rfl (by simp)).elim
    case putLock h' _ _ => exact (out _ _ _ _ _ _ h' rfl (by simp)).elim
    case putFail h' _ _ => exact (out _ _ _ _ _ _ h' rfl (by simp)).elim
    case putClose h' => exact own _ _ _ _ _ h' (fun _ _ => rfl) (.close _ _ _ _ _)
    case putPool h' => exact own _ _ _ _ _ h' (fun _ _ => rfl) (.pool _ _ _)
    case putId h' _ => exact own _ _ _ _ _ h' (fun _ _ => rfl) (.freeId _ _ _)
    case putSlot h' _ => exact own _ _ _ _ _ h' (fun _ _ => rfl) (.freeSlot _ _ _)
    case putDelete h' => exact own _ _ _ _ _ h' (fun _ _ => rfl) (.delete _ _ _)
    case sendLook => exact stay
    case sendRead => exact stay
    case sendPanic => exact stay
  | opened l₁ l₂ i o c call h' hm =>
    exact own l₁ l₂ _ _ _ h' (other _ _) (by simp only [Function.update_self]; exact .opened _ _ _ _ _)
  | send j l last frame hp => exact upd j _ fun z => .send z _ l last _ hp
  | sendError j l last frame e hp => exact upd j _ fun z => .sendFail z _ l last e _ hp
  | sendRefused j l last e hp => exact upd j _ fun z => .sendFail z _ l last e _ hp
  | recvLook l₁ l₂ i o c o' l hp h' => exact own l₁ l₂ _ _ _ h' (fun _ _ => rfl) (.look _ _ _ _ _ l hp)
  | recvTimeout l₁ l₂ i o c c' l hp h' =>
    exact own l₁ l₂ _ _ _ h' (other _ _) (by
      simp only [Function.update_self]; exact .recv _ _ _ _ _ l .timeout _ hp rfl (Or.inl rfl))
  | recvNil l₁ l₂ i o c c' l hp h' hc =>
    exact own l₁ l₂ _ _ _ h' (other _ _) (by
      simp only [Function.update_self]; exact .recv _ _ _ _ _ l .other _ hp rfl (Or.inr (Or.inl hc)))
  | handOver l₁ l₂ m₁ m₂ i o c c' j d v l k i' x hp h' hsd hc =>
    exact own l₁ l₂ _ _ _ h' (other _ _) (by
      simp only [Function.update_self]
      exact .recv _ _ _ _ _ l _ _ hp rfl (Or.inr (Or.inr ⟨rfl, j, d, v, by rw [hsd]; simp⟩)))
  | put l₁ l₂ i o c o' r hp h' => exact own l₁ l₂ _ _ _ h' (fun _ _ => rfl) (.put _ _ _ _ _ r hp)
  | putFail l₁ l₂ i o c r hp h' hm hl => exact own l₁ l₂ _ _ _ h' (fun _ _ => rfl) (.putFail _ _ _ _ r hp hl hm)

theorem move_none {cfg : Config} {m : Nat} {s s' : State} (mv : Move cfg m s s') (k : Nat)
    (hx : s.tsm.callers[k]? = none) : s'.tsm.callers[k]? = none := by
  have own : ∀ (l₁ l₂ : List Tsm.Caller) (a b : Tsm.Caller), s.tsm.callers = l₁ ++ a :: l₂ → (l₁ ++ b :: l₂)[k]? = none := by
    intro l₁ l₂ a b hs
    rw [hs] at hx
    rw [List.getElem?_eq_none_iff] at hx ⊢
    simpa using hx
  cases mv <;> first
    | exact hx
    | exact own _ _ _ _ (by assumption)
    | skip
  case tsm t st hfree =>
    cases st <;> first
      | exact hx
      | exact own _ _ _ _ (by assumption)

theorem step_sys {cfg : Config} {m : Nat} {prompt : Bool} {t t' : TState} (st : Step cfg m prompt t t') :
    t'.s = t.s ∨ Move cfg m t.s t'.s := by
  cases st with
  | tick => exact Or.inl rfl
  | ask => exact Or.inl rfl
  | refuse => exact Or.inl rfl
  | move s' mv ha => exact Or.inr mv

theorem reach_sys {cfg : Config} {n m : Nat} {range} {prompt : Bool} {t : TState} (h : Reach cfg n m range prompt t) :
    Sys.Reach cfg n m range t.s := by
  induction h with
  | start => exact .start
  | step h st ih =>
    rcases step_sys st with e | e
    · rw [e]; exact ih
    · exact ih.step e

/-- The number of attempts of a call: const.go:4, writeprop.go:37, readmulti.go:12. -/
def attemptsOf : Call → Nat
  | .read .. => 1
  | _ => 2

theorem enter_tries {fuel : Nat} {my : Address} {id : UInt8} {call : Call} {l : Loop}
    (h : call.enter fuel my id = .ok (.ok l)) : l.tries = attemptsOf call := by
  unfold Call.enter at h
  split at h
  · split at h
    · split at h
      · cases h
      · cases h; rfl
    · cases h
    · cases h
  · split at h
    · split at h
      · cases h
      · cases h; rfl
    · cases h
    · cases h
  · split at h
    · cases h
    · split at h
      · split at h
        · cases h
        · split at h
          · cases h
          · cases h; rfl
      · cases h
      · cases h
  · split at h
    · split at h
      · cases h
      · split at h
        · cases h
        · cases h; rfl
    · cases h
    · cases h

/-- The phase of a call in its loop, without the type of what is done. -/
theorem good_tries {cfg : Config} {n m : Nat} {range} {s : State} (h : Sys.Reach cfg n m range s) (k : Nat) :
    (∀ l last, (s.run k).phase = .sending l last → (s.run k).got.length < attemptsOf (s.run k).call) ∧
    (∀ l, (s.run k).phase = .receiving l → (s.run k).got.length < attemptsOf (s.run k).call) := by
  have hg := Sys.good_reach h k _ (Bac.Props.follows_script (s.run k))
  unfold Sys.GoodAt at hg
  constructor
  · intro l last hp
    rw [hp] at hg
    rw [← enter_tries hg.1]; exact hg.2.1
  · intro l hp
    rw [hp] at hg
    rw [← enter_tries hg.1]; exact hg.2.1

/-- A call makes no more attempts than it may. -/
theorem tries_reach {cfg : Config} {n m : Nat} {range} {s : State} (h : Sys.Reach cfg n m range s) (k : Nat)
    (x : Tsm.Caller) (hx : s.tsm.callers[k]? = some x) : (s.run k).got.length ≤ attemptsOf (s.run k).call := by
  induction h generalizing x with
  | start => simp [Sys.start]
  | @step s s' r mv ih =>
    cases hk : s.tsm.callers[k]? with
    | none => rw [move_none mv k hk] at hx; cases hx
    | some z =>
      have := ih z hk
      obtain ⟨y, hy, h⟩ := move_local mv k z hk
      rcases h with ⟨_, e⟩ | h
      · rw [e]; exact this
      · have ht := good_tries r k
        generalize hr' : s'.run k = r' at h
        cases h <;> first
          | exact this
          | exact Nat.zero_le _
          | skip
        case sendFail l last e out hp =>
          have := ht.1 l last hp
          simp; omega
        case recv =>
          have := ht.2 _ (by assumption)
          simp; omega

/-! ## Who can go on -/

theorem allows_same (now : Nat) (c : Clock) (a : Option Tsm.Caller) (r r' : Run) : Allows now c a a r r' := by
  cases a with
  | none => trivial
  | some x => cases x <;> trivial

theorem allowed_own {t : TState} {s' : State} (l₁ l₂ : List Tsm.Caller) (a b : Tsm.Caller)
    (hs : t.s.tsm.callers = l₁ ++ a :: l₂) (hs' : s'.tsm.callers = l₁ ++ b :: l₂)
    (hal : Allows t.now (t.clock l₁.length) (some a) (some b) (t.s.run l₁.length) (s'.run l₁.length)) : Allowed t s' := by
  intro k
  by_cases e : k = l₁.length
  · subst e
    rw [hs, hs']
    simpa using hal
  · rw [hs, hs', getElem?_other l₁ l₂ b a k e]
    exact allows_same _ _ _ _ _

theorem busy_own {cfg : Config} {m : Nat} {t : TState} {s' : State} (l₁ l₂ : List Tsm.Caller) (a b : Tsm.Caller)
    (mv : Move cfg m t.s s') (hs : t.s.tsm.callers = l₁ ++ a :: l₂) (hs' : s'.tsm.callers = l₁ ++ b :: l₂)
    (hal : Allows t.now (t.clock l₁.length) (some a) (some b) (t.s.run l₁.length) (s'.run l₁.length)) (hne : b ≠ a) :
    Busy cfg m t := by
  refine Or.inl ⟨s', l₁.length, mv, allowed_own l₁ l₂ a b hs hs' hal, Or.inl ?_⟩
  rw [hs, hs']
  simpa using hne

theorem busy_put {cfg : Config} {n m : Nat} {range} {prompt : Bool} {t : TState} (h : Reach cfg n m range prompt t)
    (x : Tsm.Caller) (hx : x ∈ t.s.tsm.callers) (hp : Bac.Spec.inPut x = true) : Busy cfg m t := by
  have hr := Sys.reach_tsm (reach_sys h)
  obtain ⟨l₁, l₂, hs⟩ := List.append_of_mem hx
  cases x <;> simp only [Bac.Spec.inPut, Bool.false_eq_true] at hp
  case locked i o c o' =>
    exact busy_own l₁ l₂ _ (.closed i o') (.tsm _ _ (.putClose t.s.tsm l₁ l₂ i o c o' hs) (Sys.free_of l₁ l₂ (.locked i o c o') (.closed i o') hs rfl rfl rfl rfl)) hs rfl
      trivial nofun
  case closed i o =>
    exact busy_own l₁ l₂ _ (.pooled i o) (.tsm _ _ (.putPool t.s.tsm l₁ l₂ i o hs) (Sys.free_of l₁ l₂ (.closed i o) (.pooled i o) hs rfl rfl rfl rfl)) hs rfl
      trivial nofun
  case pooled i o =>
    exact busy_own l₁ l₂ _ (.freedId i o) (.tsm _ _ (.putId t.s.tsm l₁ l₂ i o hs (C50_no_block _ _ _ _ hr).1)
      (Sys.free_of l₁ l₂ (.pooled i o) (.freedId i o) hs rfl rfl rfl rfl)) hs rfl trivial nofun
  case freedId i o =>
    exact busy_own l₁ l₂ _ (.freedSlot i o) (.tsm _ _ (.putSlot t.s.tsm l₁ l₂ i o hs
      ((C50_no_block _ _ _ _ hr).2 (.freedId i o) hx (Or.inr ⟨i, o, rfl⟩))) (Sys.free_of l₁ l₂ (.freedId i o) (.freedSlot i o) hs rfl rfl rfl rfl)) hs rfl trivial nofun
  case freedSlot i o =>
    exact busy_own l₁ l₂ _ .idle (.tsm _ _ (.putDelete t.s.tsm l₁ l₂ i o hs) (Sys.free_of l₁ l₂ (.freedSlot i o) .idle hs rfl rfl rfl rfl)) hs rfl trivial nofun

theorem busy_mutex {cfg : Config} {n m : Nat} {range} {prompt : Bool} {t : TState} (h : Reach cfg n m range prompt t)
    (hm : t.s.tsm.mutex = true) : Busy cfg m t := by
  have hi := (Tsm.inv_reach (Sys.reach_tsm (reach_sys h))).mutex
  rw [hm, if_pos rfl] at hi
  obtain ⟨y, hy, hyp⟩ := List.countP_pos_iff.1 (show 0 < t.s.tsm.callers.countP Bac.Spec.inPut by omega)
  exact busy_put h y hy hyp

/-- The calling goroutine does not go on by itself. -/
def Stuck (p : Phase) : Prop := p = .hung ∨ ∃ k, p = .panicked k

/-- Where a caller can be when nobody is busy. -/
theorem not_busy {cfg : Config} {n m : Nat} {range} {prompt : Bool} {t : TState} (h : Reach cfg n m range prompt t)
    (hb : ¬ Busy cfg m t) (k : Nat) (x : Tsm.Caller) (hx : t.s.tsm.callers[k]? = some x) :
    (x = .idle ∧ ∀ a ∈ (t.clock k).asked, t.now < a.1 + idTimeout a.2) ∨
    (x = .slot ∧ ∀ a ∈ (t.clock k).asked, t.now < a.1 + idTimeout a.2) ∨
    (∃ i o c c', x = .wait i o c c' ∧ t.now < (t.clock k).deadline) ∨
    (∃ i o c, x = .opened i o c ∧ Stuck (t.s.run k).phase) := by
  have hr := reach_sys h
  have hfit := fits_reach hr k x hx
  have hmem := List.mem_of_getElem? hx
  obtain ⟨l₁, l₂, hs, rfl⟩ := split_at hx
  have hm : t.s.tsm.mutex = false := by
    cases e : t.s.tsm.mutex with
    | false => rfl
    | true => exact absurd (busy_mutex h e) hb
  cases x with
  | idle =>
    refine Or.inl ⟨rfl, fun a ha => ?_⟩
    by_contra hle
    exact hb (Or.inr ⟨l₁.length, a, hx, ha, by omega⟩)
  | slot =>
    refine Or.inr (Or.inl ⟨rfl, fun a ha => ?_⟩)
    by_contra hle
    refine hb (busy_own l₁ l₂ .slot .giveBack (.tsm _ _ (.cancel t.s.tsm l₁ l₂ hs) (Sys.free_of l₁ l₂ .slot .giveBack hs rfl rfl rfl rfl)) hs rfl ?_ nofun)
    intro b hb'
    rw [Option.mem_def] at ha hb'
    rw [ha] at hb'
    cases hb'
    omega
  | giveBack =>
    exact absurd (busy_own l₁ l₂ .giveBack .idle (.tsm _ _ (.giveBack t.s.tsm l₁ l₂ hs
      ((C50_no_block _ _ _ _ (Sys.reach_tsm hr)).2 .giveBack hmem (Or.inl rfl))) (Sys.free_of l₁ l₂ .giveBack .idle hs rfl rfl rfl rfl)) hs rfl trivial nofun) hb
  | id i =>
    exact absurd (busy_own l₁ l₂ _ (.obj i _) (.tsm _ _ (.newObj t.s.tsm l₁ l₂ i hs) (Sys.free_of l₁ l₂ (.id i) (.obj i _) hs rfl rfl rfl rfl)) hs rfl
      trivial nofun) hb
  | obj i o =>
    exact absurd (busy_own l₁ l₂ _ (.chan i o _) (.tsm _ _ (.makeChan t.s.tsm l₁ l₂ i o hs) (Sys.free_of l₁ l₂ (.obj i o) (.chan i o _) hs rfl rfl rfl rfl)) hs rfl
      trivial nofun) hb
  | chan i o c =>
    cases ha : (t.clock l₁.length).asked with
    | none =>
      refine absurd (busy_own l₁ l₂ _ (.opened i o c) (.opened t.s l₁ l₂ i o c (.read {} default) hs hm) hs rfl ?_ nofun) hb
      intro b hb'
      rw [ha] at hb'
      cases hb'
    | some a =>
      refine absurd (busy_own l₁ l₂ _ (.opened i o c) (.opened t.s l₁ l₂ i o c a.2 hs hm) hs rfl ?_ nofun) hb
      intro b hb'
      rw [ha] at hb'
      cases hb'
      simp only [Function.update_self]
      rfl
  | opened i o c =>
    cases hp : (t.s.run l₁.length).phase with
    | idle => exact absurd hp hfit
    | sending l last =>
      refine absurd (Or.inl ⟨_, l₁.length, .send t.s l₁.length l last _ hp (sendFrame_ok _ _ _),
        fun k => allows_same _ _ _ _ _, Or.inr ?_⟩) hb
      simp only [Function.update_self]
      rw [hp]
      nofun
    | receiving l =>
      exact absurd (busy_own l₁ l₂ _ (.look i o c o) (.recvLook t.s l₁ l₂ i o c o l hp hs hm
        (C47_found _ _ _ _ (Sys.reach_tsm hr) i o c hmem)) hs rfl trivial nofun) hb
    | done r =>
      exact absurd (busy_own l₁ l₂ _ (.locked i o c o) (.put t.s l₁ l₂ i o c o r hp hs hm
        (C47_found _ _ _ _ (Sys.reach_tsm hr) i o c hmem)) hs rfl trivial nofun) hb
    | panicked e => exact Or.inr (Or.inr (Or.inr ⟨i, o, c, rfl, Or.inr ⟨e, rfl⟩⟩))
    | hung => exact Or.inr (Or.inr (Or.inr ⟨i, o, c, rfl, Or.inl rfl⟩))
  | look i o c o' =>
    exact absurd (busy_own l₁ l₂ _ (.wait i o c _) (.tsm _ _ (.recvWait t.s.tsm l₁ l₂ i o c o' hs) (Sys.free_of l₁ l₂ (.look i o c o') (.wait i o c _) hs rfl rfl rfl rfl)) hs rfl
      trivial nofun) hb
  | wait i o c c' =>
    refine Or.inr (Or.inr (Or.inl ⟨i, o, c, c', rfl, ?_⟩))
    by_contra hle
    obtain ⟨l, hp⟩ := hfit
    exact hb (busy_own l₁ l₂ _ (.opened i o c) (.recvTimeout t.s l₁ l₂ i o c c' l hp hs) hs rfl (fun _ => by omega) nofun)
  | locked i o c o' => exact absurd (busy_put h _ hmem rfl) hb
  | closed i o => exact absurd (busy_put h _ hmem rfl) hb
  | pooled i o => exact absurd (busy_put h _ hmem rfl) hb
  | freedId i o => exact absurd (busy_put h _ hmem rfl) hb
  | freedSlot i o => exact absurd (busy_put h _ hmem rfl) hb

/-! ## Upper bound -/

/-- How late it can be when nothing is slow. -/
def Upper (now : Nat) (c : Clock) (x : Tsm.Caller) (r : Run) : Prop :=
  match x with
  | .idle => ∀ a ∈ c.asked, now ≤ a.1 + idTimeout a.2
  | .slot | .giveBack | .id _ | .obj .. | .chan .. => ∃ a, c.asked = some a ∧ now ≤ a.1 + idTimeout a.2
  | .opened .. => ∃ a, c.asked = some a ∧ r.call = a.2 ∧
      (Stuck r.phase ∨ now ≤ a.1 + idTimeout a.2 + r.got.length * recvTimeout)
  | .wait .. => ∃ a, c.asked = some a ∧ r.call = a.2 ∧ now ≤ c.deadline ∧
      c.deadline ≤ a.1 + idTimeout a.2 + (r.got.length + 1) * recvTimeout
  | .look .. | .locked .. | .closed .. | .pooled .. | .freedId .. | .freedSlot .. => ∃ a, c.asked = some a ∧ r.call = a.2 ∧
      now ≤ a.1 + idTimeout a.2 + r.got.length * recvTimeout

theorem next_same (now : Nat) (c : Clock) (a : Option Tsm.Caller) : c.next now a a = c := by
  cases a with
  | none => rfl
  | some x => cases x <;> rfl

theorem upper_local {cfg : Config} {s : State} {now : Nat} {c : Clock} {x y : Tsm.Caller} {r r' : Run}
    (hf : Bac.Props.Fits r.phase x) (hact : r.phase.active = true → ∃ i, Bac.Spec.openId x = some i)
    (hu : Upper now c x r) (hl : Local cfg s x r y r') (ha : Allows now c (some x) (some y) r r') :
    Upper now (c.next now (some x) (some y)) y r' := by
  cases hl with
  | takeSlot =>
    obtain ⟨a, h⟩ := Option.isSome_iff_exists.1 (show c.asked.isSome = true from ha)
    exact ⟨a, h, hu a h⟩
  | takeId => exact hu
  | cancel => exact hu
  | giveBack => intro a h; cases h
  | obj => exact hu
  | chan => exact hu
  | opened _ i o ch call =>
    obtain ⟨a, h1, h2⟩ := hu
    exact ⟨a, h1, ha a h1, Or.inr (by show now ≤ _ + 0 * _; omega)⟩
  | send _ _ l last out hp =>
    rw [next_same]
    obtain ⟨i, hi⟩ := hact (by rw [hp]; rfl)
    cases x <;> simp only [Bac.Spec.openId, reduceCtorEq] at hi
    · obtain ⟨a, h1, h2, h3⟩ := hu
      refine ⟨a, h1, h2, ?_⟩
      rcases h3 with (h3 | ⟨_, h3⟩) | h3
      · rw [hp] at h3; cases h3
      · rw [hp] at h3; cases h3
      · exact Or.inr h3
    · obtain ⟨_, h⟩ := hf; rw [hp] at h; cases h
    · obtain ⟨_, h⟩ := hf; rw [hp] at h; cases h
  | sendFail _ _ l last e out hp =>
    rw [next_same]
    obtain ⟨i, hi⟩ := hact (by rw [hp]; rfl)
    cases x <;> simp only [Bac.Spec.openId, reduceCtorEq] at hi
    · obtain ⟨a, h1, h2, h3⟩ := hu
      refine ⟨a, h1, h2, Or.inr ?_⟩
      rcases h3 with (h3 | ⟨_, h3⟩) | h3
      · rw [hp] at h3; cases h3
      · rw [hp] at h3; cases h3
      · simp only [List.length_append, List.length_singleton, Nat.add_mul]; omega
    · obtain ⟨_, h⟩ := hf; rw [hp] at h; cases h
    · obtain ⟨_, h⟩ := hf; rw [hp] at h; cases h
  | look _ i o ch o' l hp =>
    obtain ⟨a, h1, h2, h3⟩ := hu
    refine ⟨a, h1, h2, ?_⟩
    rcases h3 with (h3 | ⟨_, h3⟩) | h3
    · rw [hp] at h3; cases h3
    · rw [hp] at h3; cases h3
    · exact h3
  | wait _ i o ch o' c' =>
    obtain ⟨a, h1, h2, h3⟩ := hu
    refine ⟨a, h1, h2, Nat.le_add_right _ _, ?_⟩
    show now + recvTimeout ≤ _
    rw [Nat.add_mul]; omega
  | recv _ i o ch c' l v g hp hg hv =>
    obtain ⟨a, h1, h2, h3, h4⟩ := hu
    refine ⟨a, h1, h2, Or.inr ?_⟩
    simp only [List.length_append, List.length_singleton]
    omega
  | put _ i o ch o' z hp =>
    obtain ⟨a, h1, h2, h3⟩ := hu
    refine ⟨a, h1, h2, ?_⟩
    rcases h3 with (h3 | ⟨_, h3⟩) | h3
    · rw [hp] at h3; cases h3
    · rw [hp] at h3; cases h3
    · exact h3
  | putFail => intro a h; cases h
  | close => exact hu
  | pool => exact hu
  | freeId => exact hu
  | freeSlot => exact hu
  | delete => intro a h; cases h

theorem upper_reach {cfg : Config} {n m : Nat} {range} {t : TState} (h : Reach cfg n m range true t) (k : Nat)
    (x : Tsm.Caller) (hx : t.s.tsm.callers[k]? = some x) : Upper t.now (t.clock k) x (t.s.run k) := by
  induction h generalizing k x with
  | start =>
    have := List.mem_of_getElem? hx
    cases List.eq_of_mem_replicate this
    intro a ha
    cases ha
  | @step t t' r st ih =>
    cases st with
    | tick hb =>
      have hu := ih k x hx
      rcases not_busy r (hb rfl) k x hx with ⟨rfl, e⟩ | ⟨rfl, e⟩ | ⟨i, o, c, c', rfl, e⟩ | ⟨i, o, c, rfl, e⟩
      · exact fun a ha => e a ha
      · obtain ⟨a, h1, _⟩ := hu
        exact ⟨a, h1, e a h1⟩
      · obtain ⟨a, h1, h2, h3, h4⟩ := hu
        exact ⟨a, h1, h2, e, h4⟩
      · obtain ⟨a, h1, h2, h3⟩ := hu
        exact ⟨a, h1, h2, Or.inl e⟩
    | ask j call hj ha =>
      by_cases e : k = j
      · subst e
        rw [hj] at hx
        cases hx
        simp only [Function.update_self]
        intro a h
        cases h
        exact Nat.le_add_right _ _
      · simp only [Function.update_of_ne e]; exact ih k x hx
    | refuse j a hj ha hd =>
      by_cases e : k = j
      · subst e
        rw [hj] at hx
        cases hx
        simp only [Function.update_self]
        intro a h
        cases h
      · simp only [Function.update_of_ne e]; exact ih k x hx
    | move s' mv ha =>
      cases hk : t.s.tsm.callers[k]? with
      | none => rw [move_none mv k hk] at hx; cases hx
      | some z =>
        have hu := ih k z hk
        obtain ⟨y, hy, h⟩ := move_local mv k z hk
        have : y = x := by rw [hx] at hy; cases hy; rfl
        subst this
        have hak := ha k
        rw [hk, hy] at hak
        simp only [hk, hy]
        rcases h with ⟨rfl, e⟩ | h
        · rw [next_same, e]; exact hu
        · refine upper_local (fits_reach (reach_sys r) k z hk) ?_ hu h hak
          intro hact
          obtain ⟨i, hi⟩ := (Sys.tied_reach (reach_sys r)).active k hact
          obtain ⟨z', hz, ho⟩ := Option.bind_eq_some_iff.1 hi
          rw [hk] at hz
          cases hz
          exact ⟨i, ho⟩

/-! ## Lower bound -/

/-- The number of attempts that ran into their time-out. -/
def waited (g : List Got) : Nat := g.countP fun x => decide (x.attempt = ⟨none, .timeout⟩) && x.mail.isNone

theorem waited_snoc (g : List Got) (x : Got) : waited (g ++ [x]) = waited g ∨
    (waited (g ++ [x]) = waited g + 1 ∧ x = ⟨⟨none, .timeout⟩, none⟩) := by
  unfold waited
  rw [List.countP_append, List.countP_singleton]
  split
  · rename_i h
    right
    obtain ⟨a, ml⟩ := x
    rw [Bool.and_eq_true, decide_eq_true_iff, Option.isNone_iff_eq_none] at h
    obtain ⟨h1, h2⟩ := h
    simp only at h1 h2
    subst h1 h2
    exact ⟨rfl, rfl⟩
  · exact Or.inl rfl

/-- How early it can be. -/
def Lower (now : Nat) (c : Clock) (x : Tsm.Caller) (r : Run) : Prop :=
  match x with
  | .idle | .slot | .giveBack | .id _ | .obj .. | .chan .. => ∀ a ∈ c.asked, a.1 ≤ now
  | .wait .. => ∀ a ∈ c.asked, a.1 + waited r.got * recvTimeout ≤ now ∧
      a.1 + (waited r.got + 1) * recvTimeout ≤ c.deadline
  | _ => ∀ a ∈ c.asked, a.1 + waited r.got * recvTimeout ≤ now

theorem lower_local {cfg : Config} {s : State} {now : Nat} {c : Clock} {x y : Tsm.Caller} {r r' : Run}
    (hu : Lower now c x r) (hl : Local cfg s x r y r') (ha : Allows now c (some x) (some y) r r') :
    Lower now (c.next now (some x) (some y)) y r' := by
  cases hl with
  | takeSlot => exact hu
  | takeId => exact hu
  | cancel => exact hu
  | giveBack => intro a h; cases h
  | obj => exact hu
  | chan => exact hu
  | opened _ i o ch call =>
    intro a h
    have := hu a h
    show _ + 0 * _ ≤ _
    omega
  | send _ _ l last out hp => rw [next_same]; cases x <;> exact hu
  | sendFail _ _ l last e out hp =>
    rw [next_same]
    have : waited (r.got ++ [⟨⟨some e, .timeout⟩, none⟩]) = waited r.got := by
      rcases waited_snoc r.got ⟨⟨some e, .timeout⟩, none⟩ with h | ⟨_, h⟩
      · exact h
      · cases h
    cases x <;> simp only [Lower, this] at hu ⊢ <;> exact hu
  | look => exact hu
  | wait _ i o ch o' c' =>
    intro a h
    have := hu a h
    refine ⟨this, ?_⟩
    show _ ≤ now + recvTimeout
    rw [Nat.add_mul]; omega
  | recv _ i o ch c' l v g hp hg hv =>
    intro a h
    obtain ⟨h1, h2⟩ := hu a h
    show _ + waited (r.got ++ [g]) * _ ≤ _
    rcases waited_snoc r.got g with e | ⟨e, e'⟩
    · rw [e]; exact h1
    · rw [e]
      have : c.deadline ≤ now := ha (by rw [e'])
      omega
  | put => exact hu
  | putFail => intro a h; cases h
  | close => exact hu
  | pool => exact hu
  | freeId => exact hu
  | freeSlot => exact hu
  | delete => intro a h; cases h

theorem lower_mono {now : Nat} {c : Clock} {x : Tsm.Caller} {r : Run} (h : Lower now c x r) : Lower (now + 1) c x r := by
  cases x
  case wait => exact fun a ha => ⟨Nat.le_succ_of_le (h a ha).1, (h a ha).2⟩
  all_goals exact fun a ha => Nat.le_succ_of_le (h a ha)

theorem lower_reach {cfg : Config} {n m : Nat} {range} {prompt : Bool} {t : TState} (h : Reach cfg n m range prompt t) (k : Nat)
    (x : Tsm.Caller) (hx : t.s.tsm.callers[k]? = some x) : Lower t.now (t.clock k) x (t.s.run k) := by
  induction h generalizing k x with
  | start =>
    have := List.mem_of_getElem? hx
    cases List.eq_of_mem_replicate this
    intro a ha
    cases ha
  | @step t t' r st ih =>
    cases st with
    | tick hb => exact lower_mono (ih k x hx)
    | ask j call hj ha =>
      by_cases e : k = j
      · subst e
        rw [hj] at hx
        cases hx
        simp only [Function.update_self]
        intro a h
        cases h
        exact Nat.le_refl _
      · simp only [Function.update_of_ne e]; exact ih k x hx
    | refuse j a hj ha hd =>
      by_cases e : k = j
      · subst e
        rw [hj] at hx
        cases hx
        simp only [Function.update_self]
        intro a h
        cases h
      · simp only [Function.update_of_ne e]; exact ih k x hx
    | move s' mv ha =>
      cases hk : t.s.tsm.callers[k]? with
      | none => rw [move_none mv k hk] at hx; cases hx
      | some z =>
        have hu := ih k z hk
        obtain ⟨y, hy, h⟩ := move_local mv k z hk
        have : y = x := by rw [hx] at hy; cases hy; rfl
        subst this
        have hak := ha k
        rw [hk, hy] at hak
        simp only [hk, hy]
        rcases h with ⟨rfl, e⟩ | h
        · rw [next_same, e]; exact hu
        · exact lower_local hu h hak

end Bac.TimedCalls
