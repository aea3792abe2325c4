import Verif.Model.System
import Verif.Lemmas.Calls
import Verif.Lemmas.Tsm
import Verif.Lemmas.Utsm
import Verif.Lemmas.Discovery
/-!
# Invariants of the client as a whole
-/

namespace Bac.Sys

/-! ## The two managers run as they do alone -/

theorem move_tsm {cfg : Config} {m : Nat} {s s' : State} (mv : Move cfg m s s') :
    s'.tsm = s.tsm ∨ Tsm.Step cfg.size s.tsm s'.tsm := by
  cases mv with
  | arrive | publish | unknown | utsm | send | sendError | sendRefused => exact Or.inl rfl
  | deliver m₁ m₂ i d rest o h hk hs hm hl => exact Or.inr (.sendLook _ m₁ m₂ _ o _ hs hm hl)
  | tsm t st h => exact Or.inr st
  | opened l₁ l₂ i o c call h hm => exact Or.inr (.openTx _ l₁ l₂ i o c h hm)
  | recvLook l₁ l₂ i o c o' l hp h hm hl => exact Or.inr (.recvLook _ l₁ l₂ i o c o' h hm hl)
  | recvTimeout l₁ l₂ i o c c' l hp h => exact Or.inr (.recvTimeout _ l₁ l₂ i o c c' h)
  | recvNil l₁ l₂ i o c c' l hp h hc => exact Or.inr (.recvNil _ l₁ l₂ i o c c' h hc)
  | handOver l₁ l₂ m₁ m₂ i o c c' j d v l k i' x hp h hsd hc hv =>
    exact Or.inr (.handOver _ l₁ l₂ m₁ m₂ i o c c' j d v h hsd hc)
  | put l₁ l₂ i o c o' r hp h hm hl => exact Or.inr (.putLock _ l₁ l₂ i o c o' h hm hl)
  | putFail l₁ l₂ i o c r hp h hm hl => exact Or.inr (.putFail _ l₁ l₂ i o c h hm hl)

theorem move_utsm {cfg : Config} {m : Nat} {s s' : State} (mv : Move cfg m s s') :
    s'.utsm = s.utsm ∨ Utsm.Step s.utsm s'.utsm := by
  cases mv with
  | publish k id p rest h hk hl => exact Or.inr (.pubStart _ k ⟨id, s.pubs.length⟩ hk hl)
  | utsm u st h => exact Or.inr st
  | _ => exact Or.inl rfl

theorem reach_tsm {cfg : Config} {n m : Nat} {range} {s : State} (h : Reach cfg n m range s) :
    Tsm.Reach cfg.size n m s.tsm := by
  induction h with
  | start => exact .start
  | step _ mv ih =>
    rcases move_tsm mv with e | st
    · rw [e]; exact ih
    · exact ih.step st

theorem reach_utsm {cfg : Config} {n m : Nat} {range} {s : State} (h : Reach cfg n m range s) :
    Utsm.Reach range s.utsm := by
  induction h with
  | start => exact .start
  | step _ mv ih =>
    rcases move_utsm mv with e | st
    · rw [e]; exact ih
    · exact ih.step st

/-! ## Histories -/

theorem apduEffects_pending (src : Address) (n : NPDU) (p q : UInt8 → Bool) (send : List UInt8) (a : APDU) :
    (apduEffects src n p send a).1 = (apduEffects src n q send a).1 := by
  unfold apduEffects
  split_ifs <;> rfl

theorem networkMsg_pending (src : Address) (p q : UInt8 → Bool) (d : Dec) :
    (networkMsg src p d).1 = (networkMsg src q d).1 := by
  unfold networkMsg
  split
  · split
    · rfl
    · split
      · split
        · split
          · rfl
          · simp only [apduEffects_pending src _ p q]
        · rfl
        · rfl
      · rfl
      · rfl
  · rfl
  · rfl

/-- The calls made for a datagram do not depend on the open transactions. -/
theorem effects_pending (f : Address × List UInt8) (pending : UInt8 → Bool) :
    (handleMsg f.1 pending f.2).1 = effects f := by
  unfold effects handleMsg
  cases Dec.bvlc (Dec.new f.2) with
  | ok r =>
    obtain ⟨⟨header, err⟩, d⟩ := r
    have e := networkMsg_pending f.1 pending (fun _ => false) d
    dsimp only
    generalize networkMsg f.1 pending d = x at e ⊢
    generalize networkMsg f.1 (fun _ => false) d = y at e ⊢
    obtain ⟨es, o⟩ := x
    obtain ⟨es', o'⟩ := y
    dsimp only at e
    subst e
    by_cases h1 : err.isSome = true
    · rw [if_pos h1, if_pos h1]
    · rw [if_neg h1, if_neg h1]
      by_cases h2 : header.function = 11 ∨ header.function = 10 ∨ header.function = 4
      · rw [if_pos h2, if_pos h2]
        cases o <;> cases o' <;> dsimp only <;> (try split_ifs) <;> rfl
      · rw [if_neg h2, if_neg h2]
  | panic k => rfl
  | diverge => rfl

/-- What the subscription manager has seen is the list `pubs`, numbered. -/
def numbered (l : List (Nat × Int × Published)) : List Utsm.Msg := l.mapIdx fun j p => ⟨p.2.1, j⟩

structure Hist (s : State) : Prop where
  /-- every entry of `pubs` is a call made for a datagram that arrived -/
  pubs : ∀ p ∈ s.pubs, ∃ f, s.arrived[p.1]? = some f ∧ .publish p.2.1 p.2.2 ∈ effects f
  /-- every entry of `mail` is a call made for a datagram that arrived -/
  mail : ∀ p ∈ s.mail, ∃ f, s.arrived[p.1]? = some f ∧ .deliver p.2.1 p.2.2 ∈ effects f
  /-- what handlers have to do -/
  todo : ∀ k, s.todo k ≠ [] → ∃ f, s.arrived[k]? = some f ∧ ∀ e ∈ s.todo k, e ∈ effects f
  published : s.utsm.published = numbered s.pubs
  looked : ∀ i o c v, .looked i o c v ∈ s.tsm.senders → ∃ k i' d, s.mail[v]? = some (k, i', d) ∧ i'.toNat = i
  blocked : ∀ i c c' v, .blocked i c c' v ∈ s.tsm.senders → ∃ k i' d, s.mail[v]? = some (k, i', d) ∧ i'.toNat = i
  log : ∀ e ∈ s.tsm.log, ∃ k i' d, s.mail[e.value]? = some (k, i', d) ∧ i'.toNat = e.sent

theorem getElem?_concat_some {α : Type} {l : List α} {k : Nat} {a b : α} (h : l[k]? = some a) :
    (l ++ [b])[k]? = some a := by
  rw [List.getElem?_append_left (List.getElem?_eq_some_iff.1 h).1, h]

theorem looked_count (m₁ m₂ : List Tsm.Sender) (x y : Tsm.Sender) :
    (m₁ ++ x :: m₂).countP (fun x => x matches .looked ..) + (if y matches .looked .. then 1 else 0) =
    (m₁ ++ y :: m₂).countP (fun x => x matches .looked ..) + (if x matches .looked .. then 1 else 0) := by
  simp only [List.countP_append, List.countP_cons]
  omega

/-- A step that is not governed by a handler or a call begins no `Send` and hands over nothing. -/
theorem free_senders {size : Nat} {s t : Tsm.State} (st : Tsm.Step size s t) (h : Free s t) :
    (∀ i o c v, .looked i o c v ∈ t.senders → .looked i o c v ∈ s.senders) ∧
    (∀ i c c' v, .blocked i c c' v ∈ t.senders →
      .blocked i c c' v ∈ s.senders ∨ ∃ o, .looked i o c v ∈ s.senders) ∧ t.log = s.log := by
  cases st <;> try exact ⟨fun _ _ _ _ h => h, fun _ _ _ _ h => Or.inl h, rfl⟩
  case handOver l₁ l₂ m₁ m₂ i o c c' j d v hc hsd hcl =>
    have := (h.1 l₁.length i o c).2 (by simp)
    rw [hc] at this
    simp at this
  case sendLook m₁ m₂ i o v hs hm hl =>
    have := h.2
    rw [hs] at this
    simp [List.countP_append] at this
  case sendRead m₁ m₂ i o c v hs =>
    refine ⟨fun a b e w hx => ?_, fun a b e w hx => ?_, rfl⟩
    · rw [hs]
      simp only [List.mem_append, List.mem_cons, reduceCtorEq, false_or] at hx ⊢
      rcases hx with hx | hx
      · exact Or.inl hx
      · exact Or.inr (Or.inr hx)
    · rw [hs]
      simp only [List.mem_append, List.mem_cons] at hx ⊢
      rcases hx with hx | hx | hx
      · exact Or.inl (Or.inl hx)
      · cases hx; exact Or.inr ⟨o, Or.inr (Or.inl rfl)⟩
      · exact Or.inl (Or.inr (Or.inr hx))

theorem numbered_concat (l : List (Nat × Int × Published)) (p : Nat × Int × Published) :
    numbered (l ++ [p]) = numbered l ++ [⟨p.2.1, l.length⟩] := by
  unfold numbered
  rw [List.mapIdx_concat]

theorem hist_start (cfg : Config) (n m : Nat) (range : Nat → Int × Int) : Hist (start cfg n m range) := by
  constructor <;> simp [start, Tsm.start, Utsm.start, numbered, List.mem_replicate]

theorem hist_step {cfg : Config} {m : Nat} {s s' : State} (hs : Hist s) (mv : Move cfg m s s') : Hist s' := by
  have hp := hs.pubs
  have hm := hs.mail
  have ht := hs.todo
  have hpub := hs.published
  have hl := hs.looked
  have hb := hs.blocked
  have hg := hs.log
  cases mv <;> try exact ⟨hp, hm, ht, hpub, hl, hb, hg⟩
  case arrive f h =>
    refine ⟨fun p hx => ?_, fun p hx => ?_, fun k hk => ?_, hpub, hl, hb, hg⟩
    · obtain ⟨g, h1, h2⟩ := hp p hx
      exact ⟨g, getElem?_concat_some h1, h2⟩
    · obtain ⟨g, h1, h2⟩ := hm p hx
      exact ⟨g, getElem?_concat_some h1, h2⟩
    · by_cases e : k = s.arrived.length
      · subst e
        refine ⟨f, by simp, ?_⟩
        simp
      · simp only [Function.update_of_ne e] at hk ⊢
        obtain ⟨g, h1, h2⟩ := ht k hk
        exact ⟨g, getElem?_concat_some h1, h2⟩
  case publish k id p rest h hk hlk =>
    obtain ⟨f, h1, h2⟩ := ht k (by rw [h]; simp)
    rw [h] at h2
    refine ⟨fun q hx => ?_, hm, fun j hj => ?_, ?_, hl, hb, hg⟩
    · rcases List.mem_append.1 hx with hx | hx
      · exact hp q hx
      · rw [List.mem_singleton] at hx
        subst hx
        exact ⟨f, h1, h2 _ (by simp)⟩
    · by_cases e : j = k
      · subst e
        simp only [Function.update_self] at hj ⊢
        exact ⟨f, h1, fun x hx => h2 x (by simp [hx])⟩
      · simp only [Function.update_of_ne e] at hj ⊢
        exact ht j hj
    · simp only [hpub, numbered_concat]
  case deliver m₁ m₂ i d rest o h hk hsd hmx hlk =>
    obtain ⟨f, h1, h2⟩ := ht m₁.length (by rw [h]; simp)
    rw [h] at h2
    have old : ∀ v x, s.mail[v]? = some x → (s.mail ++ [(m₁.length, i, d)])[v]? = some x :=
      fun v x hx => getElem?_concat_some hx
    refine ⟨hp, fun q hx => ?_, fun j hj => ?_, hpub, ?_, ?_, ?_⟩
    · rcases List.mem_append.1 hx with hx | hx
      · exact hm q hx
      · rw [List.mem_singleton] at hx
        subst hx
        exact ⟨f, h1, h2 _ (by simp)⟩
    · by_cases e : j = m₁.length
      · subst e
        simp only [Function.update_self] at hj ⊢
        exact ⟨f, h1, fun x hx => h2 x (by simp [hx])⟩
      · simp only [Function.update_of_ne e] at hj ⊢
        exact ht j hj
    · intro a b c v hx
      simp only [List.mem_append, List.mem_cons] at hx
      have hx' : .looked a b c v ∈ s.tsm.senders ∨ (a = i.toNat ∧ v = s.mail.length) := by
        rw [hsd]
        rcases hx with hx | hx | hx
        · exact Or.inl (by simp [hx])
        · cases hx; exact Or.inr ⟨rfl, rfl⟩
        · exact Or.inl (by simp [hx])
      rcases hx' with hx | ⟨rfl, rfl⟩
      · obtain ⟨k, i', d', e1, e2⟩ := hl a b c v hx
        exact ⟨k, i', d', old _ _ e1, e2⟩
      · exact ⟨m₁.length, i, d, by simp, rfl⟩
    · intro a b c v hx
      simp only [List.mem_append, List.mem_cons, reduceCtorEq, false_or] at hx
      obtain ⟨k, i', d', e1, e2⟩ := hb a b c v (by rw [hsd]; simpa using hx)
      exact ⟨k, i', d', old _ _ e1, e2⟩
    · intro e he
      obtain ⟨k, i', d', e1, e2⟩ := hg e he
      exact ⟨k, i', d', old _ _ e1, e2⟩
  case unknown k i d rest h hk hmx hlk =>
    refine ⟨hp, hm, fun j hj => ?_, hpub, hl, hb, hg⟩
    by_cases e : j = k
    · subst e
      obtain ⟨f, h1, h2⟩ := ht j (by rw [h]; simp)
      rw [h] at h2
      simp only [Function.update_self] at hj ⊢
      exact ⟨f, h1, fun x hx => h2 x (by simp [hx])⟩
    · simp only [Function.update_of_ne e] at hj ⊢
      exact ht j hj
  case utsm u st h => exact ⟨hp, hm, ht, h.trans hpub, hl, hb, hg⟩
  case tsm t st h =>
    obtain ⟨f1, f2, f3⟩ := free_senders st h
    refine ⟨hp, hm, ht, hpub, fun i o c v hx => hl i o c v (f1 i o c v hx), fun i c c' v hx => ?_, ?_⟩
    · rcases f2 i c c' v hx with hx | ⟨o, hx⟩
      · exact hb i c c' v hx
      · exact hl i o c v hx
    · show ∀ e ∈ t.log, _
      rw [f3]; exact hg
  case handOver l₁ l₂ m₁ m₂ i o c c' j d v l k i' x hph h hsd hc hv =>
    have sub : ∀ y, y ∈ m₁ ++ Tsm.Sender.idle :: m₂ → y ≠ .idle → y ∈ s.tsm.senders := by
      intro y hy hne
      rw [hsd]
      simp only [List.mem_append, List.mem_cons] at hy ⊢
      rcases hy with hy | hy | hy
      · exact Or.inl hy
      · exact absurd hy hne
      · exact Or.inr (Or.inr hy)
    refine ⟨hp, hm, ht, hpub, fun a b e w hx => hl a b e w (sub _ hx (by simp)),
      fun a b e w hx => hb a b e w (sub _ hx (by simp)), fun e he => ?_⟩
    rcases List.mem_cons.1 he with rfl | he
    · exact hb j d c' v (by rw [hsd]; simp)
    · exact hg e he

theorem hist_reach {cfg : Config} {n m : Nat} {range} {s : State} (h : Reach cfg n m range s) : Hist s := by
  induction h with
  | start => exact hist_start cfg n m range
  | step _ mv ih => exact hist_step ih mv

/-! ## A call in the client and the call as a function -/

/-- The attempts of a function agree with those recorded. -/
def Follows (g : List Got) (script : Nat → Attempt) : Prop := ∀ j x, g[j]? = some x → script j = x.attempt

theorem follows_concat {g : List Got} {x : Got} {script : Nat → Attempt} (h : Follows (g ++ [x]) script) :
    Follows g script ∧ script g.length = x.attempt :=
  ⟨fun j y hy => h j y (getElem?_concat_some hy), h _ _ (by simp)⟩

/-- The attempts from number `j` on. -/
def Loop.rest (l : Loop) (script : Nat → Attempt) (j : Nat) (last : CallErr) :
    List Sent × Outcome (Except CallErr Res) :=
  attempts l.dest l.pack l.step script (l.tries - j) j last

/-- What is done with the result of the loop. -/
def Loop.close (l : Loop) : Outcome (Except CallErr Res) → Outcome (Except CallErr Res)
  | .ok (.ok a) => .ok (.ok a)
  | .ok (.error e) => .ok (.error (l.fail e))
  | .panic k => .panic k
  | .diverge => .diverge

theorem attempts_map {α : Type} (f : α → Res) (dest : Address) (pack : List UInt8)
    (step : Recv → Outcome (Step α)) (script : Nat → Attempt) (n : Nat) : ∀ i last,
    attempts dest pack (fun v => mapStep f (step v)) script n i last =
      Call.sequential.forget f (attempts dest pack step script n i last) := by
  induction n with
  | zero => intro i last; rfl
  | succ n ih =>
    intro i last
    cases hs : (script i).sendErr with
    | some e => rw [attempts_sendErr hs, attempts_sendErr hs, ih]; rfl
    | none =>
      cases hr : step (script i).recv with
      | ok r =>
        cases r with
        | done r =>
          cases r with
          | ok a =>
            rw [attempts_done hs hr, attempts_done (r := .ok (f a)) hs (by simp only [hr, mapStep])]; rfl
          | error e =>
            rw [attempts_done hs hr, attempts_done (r := .error e) hs (by simp only [hr, mapStep])]; rfl
        | retry e =>
          rw [attempts_retry hs hr, attempts_retry (e := e) hs (by simp only [hr, mapStep]), ih]; rfl
      | panic k => rw [attempts_panic hs hr, attempts_panic (k := k) hs (by simp only [hr, mapStep])]; rfl
      | diverge => rw [attempts_diverge hs hr, attempts_diverge hs (by simp only [hr, mapStep])]; rfl

theorem forget_wrap {α : Type} (f : α → Res) (l : Loop) (hl : l.wrap = true) (r : List Sent × Outcome (Except CallErr α)) :
    Call.sequential.forget f (r.1, wrapFailed r.2) = ((Call.sequential.forget f r).1, l.close (Call.sequential.forget f r).2) := by
  obtain ⟨o, r⟩ := r
  cases r with
  | ok x => cases x <;> simp [Call.sequential.forget, wrapFailed, Loop.close, Loop.fail, hl, Outcome.ok_bind, Outcome.pure_eq]
  | panic k => rfl
  | diverge => rfl

theorem close_plain (l : Loop) (hl : l.wrap = false) (r : Outcome (Except CallErr Res)) : l.close r = r := by
  cases r with
  | ok x => cases x <;> simp [Loop.close, Loop.fail, hl]
  | panic k => rfl
  | diverge => rfl

/-- A call as a function, by what it does before its loop. -/
theorem sequential_eq (fuel : Nat) (my : Address) (id : UInt8) (script : Nat → Attempt) (c : Call) :
    c.sequential fuel my id script = match c.enter fuel my id with
      | .ok (.ok l) => ((l.rest script 0 (.failed .noId)).1, l.close (l.rest script 0 (.failed .noId)).2)
      | .ok (.error e) => ([], .ok (.error e))
      | .panic k => ([], .panic k)
      | .diverge => ([], .diverge) := by
  cases c with
  | read dev rp =>
    simp only [Call.sequential, Call.enter, clientReadProperty]
    generalize (do let e ← Enc.new.npdu (requestNpdu my dev.addr.setLength); e.readProperty id rp) = x
    cases x with
    | ok y =>
      obtain ⟨e, _⟩ := y
      dsimp only
      cases e.err with
      | some err => rfl
      | none =>
        dsimp only [Loop.rest]
        rw [attempts_map, close_plain _ rfl]; rfl
    | panic k => rfl
    | diverge => rfl
  | write dev rp =>
    simp only [Call.sequential, Call.enter, clientWriteProperty]
    generalize (do let e ← Enc.new.npdu (requestNpdu my dev.addr.setLength); e.writeProperty id rp) = x
    cases x with
    | ok y =>
      obtain ⟨e, _⟩ := y
      dsimp only
      cases e.err with
      | some err => rfl
      | none =>
        dsimp only [Loop.rest]
        rw [attempts_map, close_plain _ rfl]
    | panic k => rfl
    | diverge => rfl
  | readMulti dev rp =>
    simp only [Call.sequential, Call.enter, clientReadMulti]
    by_cases h0 : dev.maxApdu = 0
    · rw [if_pos h0, if_pos h0]; rfl
    · rw [if_neg h0, if_neg h0]
      generalize (do let e ← Enc.new.npdu (requestNpdu my dev.addr.setLength); e.readMultiple id rp) = x
      cases x with
      | ok y =>
        obtain ⟨e, _⟩ := y
        dsimp only
        cases e.err with
        | some err => rfl
        | none =>
          dsimp only
          by_cases h1 : dev.maxApdu < UInt32.ofNat e.buf.length
          · rw [if_pos h1, if_pos h1]; rfl
          · rw [if_neg h1, if_neg h1]
            dsimp only [Loop.rest]
            rw [forget_wrap _ ⟨dev.addr.setLength, e.buf, fun v => mapStep .objects (readMultiStep fuel v), maxReattempt, true⟩ rfl,
              attempts_map]
            rfl
      | panic k => rfl
      | diverge => rfl
  | writeMulti dev rp =>
    simp only [Call.sequential, Call.enter, clientWriteMulti]
    generalize (do let e ← Enc.new.npdu (requestNpdu my dev.addr); e.writeMultiple id rp) = x
    cases x with
    | ok y =>
      obtain ⟨e, _⟩ := y
      dsimp only
      cases e.err with
      | some err => rfl
      | none =>
        dsimp only
        by_cases h1 : dev.maxApdu < UInt32.ofNat e.buf.length
        · rw [if_pos h1, if_pos h1]; rfl
        · rw [if_neg h1, if_neg h1]
          dsimp only [Loop.rest]
          rw [forget_wrap _ ⟨dev.addr, e.buf, fun v => mapStep (fun _ => .unit) (writeMultiStep v), maxReattempt, true⟩ rfl,
            attempts_map]
          rfl
    | panic k => rfl
    | diverge => rfl

/-- How far a call has got, compared with the call as a function. -/
def GoodAt (fuel : Nat) (my : Address) (r : Run) (script : Nat → Attempt) : Prop :=
  match r.phase with
  | .idle => True
  | .sending l last => r.call.enter fuel my r.id = .ok (.ok l) ∧ r.got.length < l.tries ∧
      l.rest script 0 (.failed .noId) =
        (r.out ++ (l.rest script r.got.length last).1, (l.rest script r.got.length last).2)
  | .receiving l => r.call.enter fuel my r.id = .ok (.ok l) ∧ r.got.length < l.tries ∧
      ∃ o last, r.out = o ++ [datagram l.dest l.pack] ∧ l.rest script 0 (.failed .noId) =
        (o ++ (l.rest script r.got.length last).1, (l.rest script r.got.length last).2)
  | .done x => r.call.sequential fuel my r.id script = (r.out, .ok x)
  | .panicked k => r.call.sequential fuel my r.id script = (r.out, .panic k)
  | .hung => r.call.sequential fuel my r.id script = (r.out, .diverge)

/-- The same for whatever happens later. -/
def Good (fuel : Nat) (my : Address) (r : Run) : Prop :=
  ∀ script, Follows r.got script → GoodAt fuel my r script

/-- Going on after an attempt that ended in `e`. -/
theorem good_next {fuel : Nat} {my : Address} {r : Run} {l : Loop} {e : CallErr} {script : Nat → Attempt}
    {tried : Nat} (ht : tried = r.got.length) (hp : r.phase = l.next tried e)
    (he : r.call.enter fuel my r.id = .ok (.ok l))
    (h : l.rest script 0 (.failed .noId) = (r.out ++ (l.rest script r.got.length e).1, (l.rest script r.got.length e).2)) :
    GoodAt fuel my r script := by
  unfold GoodAt
  rw [hp]
  unfold Loop.next
  subst ht
  by_cases hlt : r.got.length < l.tries
  · rw [if_pos hlt]
    exact ⟨he, hlt, h⟩
  · rw [if_neg hlt]
    dsimp only
    rw [sequential_eq, he]
    dsimp only
    have h0 : l.tries - r.got.length = 0 := by omega
    rw [h]
    simp only [Loop.rest, h0, attempts_zero, List.append_nil, Loop.close]

theorem good_begin (fuel : Nat) (my : Address) (c : Call) (id : UInt8) : Good fuel my (Run.begin fuel my c id) := by
  intro script _
  cases he : c.enter fuel my id with
  | ok x =>
    cases x with
    | ok l =>
      refine good_next (l := l) (e := .failed .noId) (tried := 0) rfl ?_ he ?_
      · simp only [Run.begin, he]
      · rfl
    | error e =>
      unfold GoodAt
      simp only [Run.begin, he]
      rw [sequential_eq, he]
  | panic k =>
    unfold GoodAt
    simp only [Run.begin, he]
    rw [sequential_eq, he]
  | diverge =>
    unfold GoodAt
    simp only [Run.begin, he]
    rw [sequential_eq, he]

theorem good_send {fuel : Nat} {my : Address} {r : Run} {l : Loop} {last : CallErr} {frame : List UInt8}
    (h : Good fuel my r) (hp : r.phase = .sending l last) (hf : sendFrame l.dest l.pack none = .ok frame) :
    Good fuel my { r with phase := .receiving l, out := r.out ++ [⟨l.dest, frame⟩] } := by
  intro script hs
  have h := h script hs
  unfold GoodAt at h
  rw [hp] at h
  obtain ⟨h1, h2, h3⟩ := h
  refine ⟨h1, h2, r.out, last, ?_, h3⟩
  rw [sendFrame_ok] at hf
  cases hf
  rfl

/-- The attempts left, one by one. -/
theorem rest_succ (l : Loop) (script : Nat → Attempt) (j : Nat) (last : CallErr) (h : j < l.tries) :
    l.rest script j last = attempts l.dest l.pack l.step script ((l.tries - (j + 1)) + 1) j last := by
  unfold Loop.rest
  rw [show l.tries - j = (l.tries - (j + 1)) + 1 by omega]

theorem good_sendError {fuel : Nat} {my : Address} {r : Run} {l : Loop} {last : CallErr} {frame : List UInt8}
    {e : GoErr} (h : Good fuel my r) (hp : r.phase = .sending l last)
    (hf : sendFrame l.dest l.pack none = .ok frame) :
    Good fuel my { r with
      phase := l.next (r.got.length + 1) (.send e)
      got := r.got ++ [⟨⟨some e, .timeout⟩, none⟩]
      out := r.out ++ [⟨l.dest, frame⟩] } := by
  intro script hs
  obtain ⟨hs, ha⟩ := follows_concat hs
  have h := h script hs
  unfold GoodAt at h
  rw [hp] at h
  obtain ⟨h1, h2, h3⟩ := h
  rw [sendFrame_ok] at hf
  cases hf
  refine good_next (l := l) (e := .send e) (tried := r.got.length + 1) (by simp) rfl h1 ?_
  rw [h3, rest_succ l script _ _ h2, attempts_sendErr (e := e) (by rw [ha])]
  simp only [List.length_append, List.length_singleton, Loop.rest, List.append_assoc, List.singleton_append]
  rfl

theorem good_recv {fuel : Nat} {my : Address} {r : Run} {l : Loop} {v : Recv} {x : Option (Nat × Bool)}
    (h : Good fuel my r) (hp : r.phase = .receiving l) :
    Good fuel my { r with
      phase := l.after (r.got.length + 1) v
      got := r.got ++ [⟨⟨none, v⟩, x⟩] } := by
  intro script hs
  obtain ⟨hs, ha⟩ := follows_concat hs
  have h := h script hs
  unfold GoodAt at h
  rw [hp] at h
  obtain ⟨h1, h2, o, last, h3, h4⟩ := h
  have hn : (script r.got.length).sendErr = none := by rw [ha]
  have hv : (script r.got.length).recv = v := by rw [ha]
  rw [rest_succ l script _ _ h2] at h4
  have close : ∀ y z, attempts l.dest l.pack l.step script ((l.tries - (r.got.length + 1)) + 1) r.got.length last =
      ([datagram l.dest l.pack], y) → l.close y = z → r.call.sequential fuel my r.id script = (r.out, z) := by
    intro y z hy hz
    rw [sequential_eq, h1]
    dsimp only
    rw [h4, hy]
    simp only [hz, h3]
  cases hstep : l.step v with
  | ok y =>
    cases y with
    | done y =>
      have := attempts_done (n := l.tries - (r.got.length + 1)) (dest := l.dest) (pack := l.pack) (last := last) hn (by rw [hv]; exact hstep)
      cases y with
      | ok a =>
        unfold GoodAt
        simp only [Loop.after, hstep]
        exact close _ _ this rfl
      | error e =>
        unfold GoodAt
        simp only [Loop.after, hstep]
        exact close _ _ this rfl
    | retry e =>
      refine good_next (l := l) (e := e) (tried := r.got.length + 1) (by simp) (by simp only [Loop.after, hstep]) h1 ?_
      rw [h4, attempts_retry (e := e) hn (by rw [hv]; exact hstep)]
      simp only [h3, List.length_append, List.length_singleton, Loop.rest, List.append_assoc, List.singleton_append]
  | panic k =>
    unfold GoodAt
    simp only [Loop.after, hstep]
    exact close _ _ (attempts_panic (k := k) hn (by rw [hv]; exact hstep)) rfl
  | diverge =>
    unfold GoodAt
    simp only [Loop.after, hstep]
    exact close _ _ (attempts_diverge hn (by rw [hv]; exact hstep)) rfl

theorem good_step {cfg : Config} {m : Nat} {s s' : State} (h : ∀ k, Good cfg.fuel cfg.my (s.run k))
    (mv : Move cfg m s s') : ∀ k, Good cfg.fuel cfg.my (s'.run k) := by
  have upd : ∀ (j : Nat) (x : Run), Good cfg.fuel cfg.my x →
      ∀ k, Good cfg.fuel cfg.my (Function.update s.run j x k) := by
    intro j x hx k
    by_cases e : k = j
    · subst e; rw [Function.update_self]; exact hx
    · rw [Function.update_of_ne e]; exact h k
  cases mv with
  | opened l₁ l₂ i o c call hc hm => exact upd _ _ (good_begin _ _ _ _)
  | send k l last frame hp hf => exact upd _ _ (good_send (h k) hp hf)
  | sendError k l last frame e hp hf => exact upd _ _ (good_sendError (h k) hp hf)
  | sendRefused k l last e hp hf => rw [sendFrame_ok] at hf; cases hf
  | recvTimeout l₁ l₂ i o c c' l hp hc => exact upd _ _ (good_recv (h _) hp)
  | recvNil l₁ l₂ i o c c' l hp hc hcl => exact upd _ _ (good_recv (h _) hp)
  | handOver l₁ l₂ m₁ m₂ i o c c' j d v l k i' x hp hc hsd hcl hv => exact upd _ _ (good_recv (h _) hp)
  | _ => exact h

theorem good_reach {cfg : Config} {n m : Nat} {range} {s : State} (h : Reach cfg n m range s) (k : Nat) :
    Good cfg.fuel cfg.my (s.run k) := by
  induction h generalizing k with
  | start => exact fun _ _ => trivial
  | step _ mv ih => exact good_step ih mv k

/-! ## Calls and transactions -/

/-- The call is between the return of `tsm.ID` and the beginning of the deferred `tsm.Put`. -/
def Phase.active : Phase → Bool
  | .sending .. | .receiving _ => true
  | _ => false

/-- The id of the transaction that caller `k` has open. -/
def openAt (l : List Tsm.Caller) (k : Nat) : Option Nat := l[k]?.bind Bac.Spec.openId

theorem openAt_replace (l₁ l₂ : List Tsm.Caller) (a b : Tsm.Caller) (k : Nat) :
    openAt (l₁ ++ b :: l₂) k = if k = l₁.length then Bac.Spec.openId b else openAt (l₁ ++ a :: l₂) k := by
  unfold openAt
  split
  · rename_i e; subst e; simp
  · rename_i e
    by_cases h : k < l₁.length
    · rw [List.getElem?_append_left h, List.getElem?_append_left h]
    · rw [List.getElem?_append_right (by omega), List.getElem?_append_right (by omega)]
      cases hk : k - l₁.length with
      | zero => omega
      | succ j => simp

theorem openAt_same (l₁ l₂ : List Tsm.Caller) (a b : Tsm.Caller) (h : Bac.Spec.openId b = Bac.Spec.openId a) (k : Nat) :
    openAt (l₁ ++ b :: l₂) k = openAt (l₁ ++ a :: l₂) k := by
  rw [openAt_replace l₁ l₂ a b k]
  split
  · rename_i e; subst e; rw [h]; simp [openAt]
  · rfl

theorem free_openAt {size : Nat} {s t : Tsm.State} (st : Tsm.Step size s t) (h : Free s t) (k : Nat) :
    openAt t.callers k = openAt s.callers k := by
  have out : ∀ l₁ l₂ x i o c, s.callers = l₁ ++ .opened i o c :: l₂ → t.callers = l₁ ++ x :: l₂ →
      (∀ i o c, x ≠ .opened i o c) → False := by
    intro l₁ l₂ x i o c h1 h2 hx
    have := (h.1 l₁.length i o c).1 (by rw [h1]; simp)
    rw [h2] at this
    simp at this
    exact hx _ _ _ this
  have into : ∀ l₁ l₂ x i o c, s.callers = l₁ ++ x :: l₂ → t.callers = l₁ ++ .opened i o c :: l₂ →
      (∀ i o c, x ≠ .opened i o c) → False := by
    intro l₁ l₂ x i o c h1 h2 hx
    have := (h.1 l₁.length i o c).2 (by rw [h2]; simp)
    rw [h1] at this
    simp at this
    exact hx _ _ _ this
  cases st <;> try rfl
  case takeSlot h' _ => rw [h']; exact openAt_same _ _ _ _ (by rfl) _
  case takeId h' _ => rw [h']; exact openAt_same _ _ _ _ (by rfl) _
  case cancel h' => rw [h']; exact openAt_same _ _ _ _ (by rfl) _
  case giveBack h' _ => rw [h']; exact openAt_same _ _ _ _ (by rfl) _
  case newObj h' => rw [h']; exact openAt_same _ _ _ _ (by rfl) _
  case poolObj h' _ => rw [h']; exact openAt_same _ _ _ _ (by rfl) _
  case makeChan h' => rw [h']; exact openAt_same _ _ _ _ (by rfl) _
  case openTx h' _ => exact (into _ _ _ _ _ _ h' rfl (by simp)).elim
  case recvLook h' _ _ => exact (out _ _ _ _ _ _ h' rfl (by simp)).elim
  case recvWait h' => rw [h']; exact openAt_same _ _ _ _ (by rfl) _
  case recvTimeout h' => exact (into _ _ _ _ _ _ h' rfl (by simp)).elim
  case recvNil h' _ => exact (into _ _ _ _ _ _ h' rfl (by simp)).elim
  case handOver h' _ _ => exact (into _ _ _ _ _ _ h' rfl (by simp)).elim
  case putLock h' _ _ => exact (out _ _ _ _ _ _ h' rfl (by simp)).elim
  case putFail h' _ _ => exact (out _ _ _ _ _ _ h' rfl (by simp)).elim
  case putClose h' => rw [h']; exact openAt_same _ _ _ _ (by rfl) _
  case putPool h' => rw [h']; exact openAt_same _ _ _ _ (by rfl) _
  case putId h' _ => rw [h']; exact openAt_same _ _ _ _ (by rfl) _
  case putSlot h' _ => rw [h']; exact openAt_same _ _ _ _ (by rfl) _
  case putDelete h' => rw [h']; exact openAt_same _ _ _ _ (by rfl) _

/-- Where a received value comes from. -/
def Source (mail : List (Nat × UInt8 × Delivered)) (id : UInt8) (g : Got) : Prop :=
  match g.mail with
  | some (v, stale) => ∃ h i d, mail[v]? = some (h, i, d) ∧ g.attempt = ⟨none, d.toRecv⟩ ∧
      (stale = false → i = id)
  | none => g.attempt.recv = .timeout

/-- What ties the calls to the transactions, and what was received to what was mailed. -/
structure Tied (s : State) : Prop where
  /-- an active call has an open transaction -/
  active : ∀ k, (s.run k).phase.active = true → ∃ i, openAt s.tsm.callers k = some i
  /-- the id of an open transaction is that of the call -/
  same : ∀ k i, openAt s.tsm.callers k = some i → (s.run k).id = UInt8.ofNat i
  /-- every value received was mailed, and for the id of the call unless an object was reused -/
  got : ∀ k, ∀ g ∈ (s.run k).got, Source s.mail (s.run k).id g

theorem source_mono {mail : List (Nat × UInt8 × Delivered)} {x} {id : UInt8} {g : Got} (h : Source mail id g) :
    Source (mail ++ [x]) id g := by
  unfold Source at h ⊢
  split at h
  · obtain ⟨a, i, d, h1, h2⟩ := h
    exact ⟨a, i, d, getElem?_concat_some h1, h2⟩
  · exact h

theorem tied_step {cfg : Config} {n m : Nat} {range} {s s' : State} (hr : Reach cfg n m range s) (ht : Tied s)
    (mv : Move cfg m s s') : Tied s' := by
  obtain ⟨ha, hs, hg⟩ := ht
  have hh := hist_reach hr
  have hinv := Tsm.inv_reach (reach_tsm hr)
  have hsinv := Tsm.sinv_reach (reach_tsm hr)
  have at_ : ∀ l₁ l₂ x, s.tsm.callers = l₁ ++ x :: l₂ → openAt s.tsm.callers l₁.length = Bac.Spec.openId x := by
    intro l₁ l₂ x e
    rw [e]; simp [openAt]
  -- the caller's position changes, its transaction stays open, the call gets a new attempt
  have recv : ∀ l₁ l₂ x y (t : Tsm.State) (ph : Phase) (g : Got), s.tsm.callers = l₁ ++ x :: l₂ →
      t.callers = l₁ ++ y :: l₂ → (∃ i, Bac.Spec.openId x = some i) → Bac.Spec.openId y = Bac.Spec.openId x →
      Source s.mail (s.run l₁.length).id g →
      Tied { s with
        tsm := t
        run := Function.update s.run l₁.length
          { s.run l₁.length with phase := ph, got := (s.run l₁.length).got ++ [g] } } := by
    intro l₁ l₂ x y t ph g hx hy hi hxy hsrc
    have e : ∀ k, openAt t.callers k = openAt s.tsm.callers k := by
      intro k
      rw [hy, hx]; exact openAt_same _ _ _ _ hxy k
    refine ⟨fun k hk => ?_, fun k i hk => ?_, fun k g' hg' => ?_⟩
    · by_cases ek : k = l₁.length
      · subst ek
        obtain ⟨i, hi⟩ := hi
        exact ⟨i, by rw [show openAt t.callers _ = _ from e _, at_ _ _ _ hx, hi]⟩
      · simp only [Function.update_of_ne ek] at hk
        show ∃ i, openAt t.callers k = some i
        rw [e]; exact ha k hk
    · rw [show openAt t.callers k = _ from e k] at hk
      by_cases ek : k = l₁.length
      · subst ek; simp only [Function.update_self]; exact hs _ i hk
      · simp only [Function.update_of_ne ek]; exact hs k i hk
    · by_cases ek : k = l₁.length
      · subst ek
        simp only [Function.update_self] at hg' ⊢
        rcases List.mem_append.1 hg' with hg' | hg'
        · exact hg _ g' hg'
        · rw [List.mem_singleton] at hg'
          subst hg'; exact hsrc
      · simp only [Function.update_of_ne ek] at hg' ⊢
        exact hg k g' hg'
  -- the call changes, the transaction manager does not
  have sent : ∀ k (x : Run), (s.run k).phase.active = true → x.id = (s.run k).id →
      (∀ g ∈ x.got, g ∈ (s.run k).got ∨ (g.mail = none ∧ g.attempt.recv = .timeout)) →
      Tied { s with run := Function.update s.run k x } := by
    intro k x hact hid hgot
    refine ⟨fun j hj => ?_, fun j i hj => ?_, fun j g hj => ?_⟩
    · by_cases ek : j = k
      · subst ek; exact ha j hact
      · simp only [Function.update_of_ne ek] at hj; exact ha j hj
    · by_cases ek : j = k
      · subst ek; simp only [Function.update_self, hid]; exact hs j i hj
      · simp only [Function.update_of_ne ek]; exact hs j i hj
    · by_cases ek : j = k
      · subst ek
        simp only [Function.update_self] at hj ⊢
        rw [hid]
        rcases hgot g hj with h | ⟨h1, h2⟩
        · exact hg j g h
        · unfold Source; rw [h1]; exact h2
      · simp only [Function.update_of_ne ek] at hj ⊢; exact hg j g hj
  -- the transaction of a call that has its result is given up
  have given : ∀ l₁ l₂ x y (t : Tsm.State) r, (s.run l₁.length).phase = .done r → s.tsm.callers = l₁ ++ x :: l₂ →
      t.callers = l₁ ++ y :: l₂ → Bac.Spec.openId y = none → Tied { s with tsm := t } := by
    intro l₁ l₂ x y t r hp hx hy hno
    have e : ∀ k, openAt t.callers k = if k = l₁.length then none else openAt s.tsm.callers k := by
      intro k
      rw [hy, openAt_replace l₁ l₂ x, hx, hno]
    refine ⟨fun k hk => ?_, fun k i hk => ?_, hg⟩
    · by_cases ek : k = l₁.length
      · subst ek
        rw [hp] at hk; cases hk
      · show ∃ i, openAt t.callers k = some i
        rw [e, if_neg ek]; exact ha k hk
    · rw [show openAt t.callers k = _ from e k] at hk
      split at hk
      · cases hk
      · exact hs k i hk
  cases mv with
  | arrive | publish | unknown | utsm => exact ⟨ha, hs, hg⟩
  | deliver m₁ m₂ i d rest o h hk hsd hm hl => exact ⟨ha, hs, fun k g hk => source_mono (hg k g hk)⟩
  | tsm t st h =>
    refine ⟨fun k hk => ?_, fun k i hk => ?_, hg⟩
    · show ∃ i, openAt t.callers k = some i
      rw [free_openAt st h]; exact ha k hk
    · rw [show openAt t.callers k = _ from free_openAt st h k] at hk; exact hs k i hk
  | opened l₁ l₂ i o c call h hm =>
    have e : ∀ k, openAt (l₁ ++ Tsm.Caller.opened i o c :: l₂) k = if k = l₁.length then some i else openAt s.tsm.callers k := by
      intro k
      rw [openAt_replace l₁ l₂ (.chan i o c), h]; rfl
    refine ⟨fun k hk => ?_, fun k j hk => ?_, fun k g hk => ?_⟩
    · show ∃ j, openAt (l₁ ++ Tsm.Caller.opened i o c :: l₂) k = some j
      rw [e]
      split
      · exact ⟨i, rfl⟩
      · rename_i ek
        simp only [Function.update_of_ne ek] at hk
        exact ha k hk
    · rw [show openAt (l₁ ++ Tsm.Caller.opened i o c :: l₂) k = _ from e k] at hk
      split at hk
      · rename_i ek
        subst ek
        cases hk
        simp only [Function.update_self]; rfl
      · rename_i ek
        simp only [Function.update_of_ne ek]
        exact hs k j hk
    · by_cases ek : k = l₁.length
      · subst ek
        simp only [Function.update_self] at hk
        exact absurd hk (List.not_mem_nil)
      · simp only [Function.update_of_ne ek] at hk ⊢
        exact hg k g hk
  | send k l last frame hp hf => exact sent k _ (by rw [hp]; rfl) rfl (fun g hg => Or.inl hg)
  | sendError k l last frame e hp hf =>
    refine sent k _ (by rw [hp]; rfl) rfl (fun g hg => ?_)
    rcases List.mem_append.1 hg with hg | hg
    · exact Or.inl hg
    · rw [List.mem_singleton] at hg; subst hg; exact Or.inr ⟨rfl, rfl⟩
  | sendRefused k l last e hp hf =>
    refine sent k _ (by rw [hp]; rfl) rfl (fun g hg => ?_)
    rcases List.mem_append.1 hg with hg | hg
    · exact Or.inl hg
    · rw [List.mem_singleton] at hg; subst hg; exact Or.inr ⟨rfl, rfl⟩
  | recvLook l₁ l₂ i o c o' l hp h hm hl =>
    have e : ∀ k, openAt (l₁ ++ Tsm.Caller.look i o c o' :: l₂) k = openAt s.tsm.callers k := by
      intro k; rw [h]; exact openAt_same _ _ _ _ (by rfl) k
    refine ⟨fun k hk => ?_, fun k j hk => ?_, hg⟩
    · show ∃ j, openAt (l₁ ++ Tsm.Caller.look i o c o' :: l₂) k = some j
      rw [e]; exact ha k hk
    · rw [show openAt (l₁ ++ Tsm.Caller.look i o c o' :: l₂) k = _ from e k] at hk; exact hs k j hk
  | recvTimeout l₁ l₂ i o c c' l hp h =>
    exact recv l₁ l₂ _ _ _ _ _ h rfl ⟨i, rfl⟩ rfl rfl
  | recvNil l₁ l₂ i o c c' l hp h hc =>
    have e : c' = c := hinv.agree (.wait i o c c') (by rw [h]; simp)
    have := (hinv.chans (i, o, c) (by rw [h]; simp [Tsm.chanOf])).2.1
    rw [e, this] at hc
    cases hc
  | handOver l₁ l₂ m₁ m₂ i o c c' j d v l k i' x hp h hsd hc hv =>
    refine recv l₁ l₂ _ _ _ _ _ h rfl ⟨i, rfl⟩ rfl ⟨k, i', x, hv, rfl, fun hst => ?_⟩
    have hst' : d = c' := by simpa using hst
    obtain ⟨k2, i2, d2, e1, e2⟩ := hh.blocked j d c' v (by rw [hsd]; simp)
    rw [hv] at e1
    cases e1
    have h1 := (hsinv.blocked j d c' v (by rw [hsd]; simp)).1
    have e : c' = c := hinv.agree (.wait i o c c') (by rw [h]; simp)
    have h2 := (hinv.chans (i, o, c) (by rw [h]; simp [Tsm.chanOf])).2.2.1
    have hji : j = i := by
      rw [← h1, hst', e]; exact h2
    rw [hs l₁.length i (by rw [at_ _ _ _ h]; rfl), ← hji, ← e2]
    simp
  | put l₁ l₂ i o c o' r hp h hm hl => exact given l₁ l₂ _ _ _ r hp h rfl rfl
  | putFail l₁ l₂ i o c r hp h hm hl => exact given l₁ l₂ _ _ _ r hp h rfl rfl

theorem tied_reach {cfg : Config} {n m : Nat} {range} {s : State} (h : Reach cfg n m range s) : Tied s := by
  induction h with
  | start =>
    refine ⟨fun k hk => Bool.noConfusion hk, fun k i hk => ?_, fun k g hk => absurd hk List.not_mem_nil⟩
    simp only [start, Tsm.start, openAt, List.getElem?_replicate] at hk
    split at hk <;> cases hk
  | step hr mv ih => exact tied_step hr ih mv

/-! ## Every publication once -/

/-- The publications among the calls of a handler. -/
def publications (es : List Effect) : List (Int × Published) :=
  es.filterMap fun e => match e with
    | .publish id p => some (id, p)
    | .deliver _ _ => none

/-- What handler `k` has published. -/
def publishedOf (pubs : List (Nat × Int × Published)) (k : Nat) : List (Int × Published) :=
  pubs.filterMap fun p => if p.1 = k then some p.2 else none

theorem exact_step {cfg : Config} {m : Nat} {s s' : State}
    (h : ∀ k, publishedOf s.pubs k ++ publications (s.todo k) =
      (s.arrived[k]?).elim [] fun f => publications (effects f))
    (mv : Move cfg m s s') (k : Nat) :
    publishedOf s'.pubs k ++ publications (s'.todo k) =
      (s'.arrived[k]?).elim [] fun f => publications (effects f) := by
  have drop : ∀ j e rest, s.todo j = e :: rest → publications [e] = [] →
      publishedOf s.pubs k ++ publications (Function.update s.todo j rest k) =
        (s.arrived[k]?).elim [] fun f => publications (effects f) := by
    intro j e rest hj he
    by_cases ek : k = j
    · subst ek
      rw [Function.update_self, ← h k, hj]
      unfold publications at he ⊢
      rw [show e :: rest = [e] ++ rest from rfl, List.filterMap_append, he, List.nil_append]
    · rw [Function.update_of_ne ek]; exact h k
  cases mv <;> try exact h k
  case arrive f hl =>
    by_cases e : k = s.arrived.length
    · subst e
      have h1 := h s.arrived.length
      rw [List.getElem?_eq_none (Nat.le_refl _)] at h1
      have h2 : publishedOf s.pubs s.arrived.length = [] := (List.append_eq_nil_iff.1 h1).1
      simp [h2]
    · simp only [Function.update_of_ne e, List.getElem?_append]
      rw [h k]
      split
      · rfl
      · rename_i hlt
        rw [List.getElem?_eq_none (by omega), List.getElem?_eq_none (by simp only [List.length_singleton]; omega)]
  case publish j id p rest ht hk hl =>
    by_cases e : k = j
    · subst e
      have h1 := h k
      rw [ht] at h1
      rw [← h1]
      simp [publishedOf, publications, List.filterMap_append]
    · simp only [Function.update_of_ne e]
      rw [← h k]
      simp [publishedOf, List.filterMap_append, Ne.symm e]
  case deliver m₁ m₂ i d rest o ht hk hsd hmx hlk => exact drop _ _ _ ht rfl
  case unknown j i d rest ht hk hmx hlk => exact drop _ _ _ ht rfl

/-- What a handler has published and what it has still to publish is what its datagram gives
rise to: nothing is published twice, nothing is lost, and the order is kept. -/
theorem exact_reach {cfg : Config} {n m : Nat} {range} {s : State} (h : Reach cfg n m range s) (k : Nat) :
    publishedOf s.pubs k ++ publications (s.todo k) =
      (s.arrived[k]?).elim [] fun f => publications (effects f) := by
  induction h generalizing k with
  | start => rfl
  | step _ mv ih => exact exact_step ih mv k

/-! ## Making executions -/

theorem free_of {s t : Tsm.State} (l₁ l₂ : List Tsm.Caller) (x y : Tsm.Caller) (hs : s.callers = l₁ ++ x :: l₂)
    (ht : t.callers = l₁ ++ y :: l₂) (hx : (x matches .opened ..) = false) (hy : (y matches .opened ..) = false)
    (hsd : t.senders = s.senders) : Free s t := by
  refine ⟨fun k i o c => ?_, by rw [hsd]⟩
  rw [hs, ht]
  by_cases h : k < l₁.length
  · rw [List.getElem?_append_left h, List.getElem?_append_left h]
  · rw [List.getElem?_append_right (by omega), List.getElem?_append_right (by omega)]
    cases hk : k - l₁.length with
    | zero =>
      simp only [List.getElem?_cons_zero, Option.some.injEq]
      constructor
      · rintro rfl; cases hx
      · rintro rfl; cases hy
    | succ j => simp

theorem free_senders_of {s t : Tsm.State} (hc : t.callers = s.callers)
    (h : t.senders.countP (fun x => x matches .looked ..) ≤ s.senders.countP (fun x => x matches .looked ..)) :
    Free s t := ⟨fun k i o c => by rw [hc], h⟩

theorem begin_sending {fuel : Nat} {my : Address} {call : Call} {id : UInt8} {l : Loop}
    (he : call.enter fuel my id = .ok (.ok l)) (ht : 0 < l.tries) :
    Run.begin fuel my call id = { phase := .sending l (.failed .noId), call := call, id := id } := by
  simp [Run.begin, he, Loop.next, ht]

/-- Before its first call a goroutine has sent nothing. -/
theorem idle_reach {cfg : Config} {n m : Nat} {range} {s : State} (h : Reach cfg n m range s) (k : Nat)
    (hp : (s.run k).phase = .idle) : (s.run k).out = [] := by
  have next_ne : ∀ (l : Loop) t e, l.next t e ≠ .idle := by
    intro l t e; unfold Loop.next; split <;> intro h <;> cases h
  have after_ne : ∀ (l : Loop) t v, l.after t v ≠ .idle := by
    intro l t v; unfold Loop.after
    split
    · intro h; cases h
    · intro h; cases h
    · exact next_ne _ _ _
    · intro h; cases h
    · intro h; cases h
  have upd : ∀ (f : Nat → Run) j r, (f k).out = [] ∨ (f k).phase ≠ .idle → (r.out = [] ∨ r.phase ≠ .idle) →
      (Function.update f j r k).out = [] ∨ (Function.update f j r k).phase ≠ .idle := by
    intro f j r h1 h2
    by_cases e : k = j
    · subst e; rw [Function.update_self]; exact h2
    · rw [Function.update_of_ne e]; exact h1
  suffices h' : (s.run k).out = [] ∨ (s.run k).phase ≠ .idle from h'.resolve_right fun h => h hp
  clear hp
  induction h with
  | start => exact Or.inl rfl
  | step _ mv ih =>
    cases mv <;> first
      | exact ih
      | exact upd _ _ _ ih (Or.inl rfl)
      | exact upd _ _ _ ih (Or.inr fun h => (by cases h))
      | exact upd _ _ _ ih (Or.inr (next_ne _ _ _))
      | exact upd _ _ _ ih (Or.inr (after_ne _ _ _))

/-- A call that gets as far as its first attempt. -/
theorem move_opened {cfg : Config} {m : Nat} (s : State) (l₁ l₂ : List Tsm.Caller) (i o c : Nat) (call : Call) (l : Loop)
    (he : call.enter cfg.fuel cfg.my (UInt8.ofNat i) = .ok (.ok l)) (ht : 0 < l.tries)
    (h : s.tsm.callers = l₁ ++ .chan i o c :: l₂) (hm : s.tsm.mutex = false) :
    Move cfg m s { s with
      run := Function.update s.run l₁.length { phase := .sending l (.failed .noId), call := call, id := UInt8.ofNat i }
      tsm := { s.tsm with
        states := Function.update s.tsm.states i (some o), callers := l₁ ++ .opened i o c :: l₂ } } := by
  rw [← begin_sending he ht]
  exact .opened s l₁ l₂ i o c call h hm

end Bac.Sys
