import Verif.Props.System
import Verif.Props.Stable
/-!
# C136: what one device does to the requests to the others

A request call whose decoder does not return (C33, C81, C135) never reaches its deferred `Put`
(readmulti.go:37-40) and keeps its slot and its invoke id for good.
-/

namespace Bac.Props

open Bac.Sys
open _root_.Spec (NetHeader AppVal)

/-! ## A call that hangs keeps its transaction -/

/-- A step moves neither a call that hangs nor its transaction. -/
theorem hung_step {cfg : Config} {m : Nat} {s s' : Sys.State} (mv : Sys.Move cfg m s s') (k i o c : Nat)
    (hp : (s.run k).phase = .hung) (hc : s.tsm.callers[k]? = some (.opened i o c)) :
    s'.run k = s.run k ∧ s'.tsm.callers[k]? = some (.opened i o c) := by
  have run : ∀ j r, (k = j → False) → Function.update s.run j r k = s.run k := fun j r h =>
    Function.update_of_ne h _ _
  have other : ∀ l₁ l₂ x y, s.tsm.callers = l₁ ++ x :: l₂ → (k = l₁.length → False) →
      (l₁ ++ y :: l₂)[k]? = some (.opened i o c) := fun l₁ l₂ x y h hk => by
    rw [← hc, h]; exact getElem?_other _ _ _ _ _ hk
  have here : ∀ l₁ l₂ x, s.tsm.callers = l₁ ++ x :: l₂ → k = l₁.length → x = .opened i o c := fun l₁ l₂ x h hk => by
    rw [h, hk] at hc; simpa using hc
  cases mv with
  | arrive => exact ⟨rfl, hc⟩
  | publish => exact ⟨rfl, hc⟩
  | deliver => exact ⟨rfl, hc⟩
  | unknown => exact ⟨rfl, hc⟩
  | utsm => exact ⟨rfl, hc⟩
  | tsm t st h => exact ⟨rfl, (h.1 k i o c).1 hc⟩
  | opened l₁ l₂ i' o' c' call h hm =>
    have hk : k = l₁.length → False := fun e => by cases here _ _ _ h e
    exact ⟨run _ _ hk, other _ _ _ _ h hk⟩
  | send j l last frame h hf =>
    have hk : k = j → False := fun e => by rw [← e, hp] at h; cases h
    exact ⟨run _ _ hk, hc⟩
  | sendError j l last frame e h hf =>
    have hk : k = j → False := fun e => by rw [← e, hp] at h; cases h
    exact ⟨run _ _ hk, hc⟩
  | sendRefused j l last e h hf =>
    have hk : k = j → False := fun e => by rw [← e, hp] at h; cases h
    exact ⟨run _ _ hk, hc⟩
  | recvLook l₁ l₂ i' o' c' o'' l hp' h hm hl =>
    have hk : k = l₁.length → False := fun e => by rw [← e, hp] at hp'; cases hp'
    exact ⟨rfl, other _ _ _ _ h hk⟩
  | recvTimeout l₁ l₂ i' o' c' c'' l hp' h =>
    have hk : k = l₁.length → False := fun e => by rw [← e, hp] at hp'; cases hp'
    exact ⟨run _ _ hk, other _ _ _ _ h hk⟩
  | recvNil l₁ l₂ i' o' c' c'' l hp' h =>
    have hk : k = l₁.length → False := fun e => by rw [← e, hp] at hp'; cases hp'
    exact ⟨run _ _ hk, other _ _ _ _ h hk⟩
  | handOver l₁ l₂ m₁ m₂ i' o' c' c'' j d v l k' i'' x hp' h =>
    have hk : k = l₁.length → False := fun e => by rw [← e, hp] at hp'; cases hp'
    exact ⟨run _ _ hk, other _ _ _ _ h hk⟩
  | put l₁ l₂ i' o' c' o'' r hp' h =>
    have hk : k = l₁.length → False := fun e => by rw [← e, hp] at hp'; cases hp'
    exact ⟨rfl, other _ _ _ _ h hk⟩
  | putFail l₁ l₂ i' o' c' r hp' h =>
    have hk : k = l₁.length → False := fun e => by rw [← e, hp] at hp'; cases hp'
    exact ⟨rfl, other _ _ _ _ h hk⟩

/-- A call that hangs has its transaction open. -/
theorem hung_open {cfg : Config} {n m : Nat} {range} {s : Sys.State} (h : Sys.Reach cfg n m range s) (k : Nat)
    (hp : (s.run k).phase = .hung) : ∃ i o c, s.tsm.callers[k]? = some (.opened i o c) := by
  induction h with
  | start => cases hp
  | @step s s' r mv ih =>
    by_cases hold : (s.run k).phase = .hung
    · obtain ⟨i, o, c, hc⟩ := ih hold
      exact ⟨i, o, c, (hung_step mv k i o c hold hc).2⟩
    -- the call has come to hang in this step
    have now : ∀ j (r : Run) (l₁ l₂ : List Tsm.Caller) i o c, (Function.update s.run j r k).phase = .hung → l₁.length = j →
        ∃ i' o' c', (l₁ ++ Tsm.Caller.opened i o c :: l₂)[k]? = some (.opened i' o' c') := by
      intro j r l₁ l₂ i o c hu hl
      by_cases e : k = j
      · exact ⟨i, o, c, by rw [e, ← hl]; simp⟩
      · rw [Function.update_of_ne e] at hu; exact absurd hu hold
    have next : ∀ (l : Loop) t e, l.next t e ≠ .hung := by
      intro l t e; unfold Loop.next; split <;> intro h <;> cases h
    have not : ∀ j (r : Run), r.phase ≠ .hung → (Function.update s.run j r k).phase ≠ .hung := by
      intro j r hr
      by_cases e : k = j
      · rw [e, Function.update_self]; exact hr
      · rw [Function.update_of_ne e]; exact hold
    cases mv with
    | opened => exact now _ _ _ _ _ _ _ hp rfl
    | recvTimeout => exact now _ _ _ _ _ _ _ hp rfl
    | recvNil => exact now _ _ _ _ _ _ _ hp rfl
    | handOver => exact now _ _ _ _ _ _ _ hp rfl
    | send => exact absurd hp (not _ _ nofun)
    | sendError => exact absurd hp (not _ _ (next _ _ _))
    | sendRefused => exact absurd hp (not _ _ (next _ _ _))
    | _ => exact absurd hp hold

/-- C136.  A call whose decoder does not return keeps its transaction, in every further execution: its
invoke id is never given to another call. -/
theorem C136_kept (cfg : Config) (n m : Nat) (range : Nat → Int × Int) (s : Sys.State)
    (h : Sys.Reach cfg n m range s) (k : Nat) (hp : (s.run k).phase = .hung) :
    ∃ i o c, s.tsm.callers[k]? = some (.opened i o c) ∧ (s.run k).id = UInt8.ofNat i ∧
      ∀ s', Relation.ReflTransGen (Sys.Move cfg m) s s' →
        s'.run k = s.run k ∧ s'.tsm.callers[k]? = some (.opened i o c) ∧
        i ∉ s'.tsm.ids ∧ ∀ j x, s'.tsm.callers[j]? = some x → Bac.Spec.idOf x = some i → j = k := by
  obtain ⟨i, o, c, hc⟩ := hung_open h k hp
  refine ⟨i, o, c, hc, (tied_reach h).same k i (by unfold openAt; rw [hc]; rfl), fun s' st => ?_⟩
  have key : s'.run k = s.run k ∧ s'.tsm.callers[k]? = some (.opened i o c) := by
    induction st with
    | refl => exact ⟨rfl, hc⟩
    | tail _ mv ih =>
      obtain ⟨h1, h2⟩ := hung_step mv k i o c (by rw [ih.1]; exact hp) ih.2
      exact ⟨h1.trans ih.1, h2⟩
  have hi := Tsm.inv_reach (reach_tsm (reach_moves h st))
  have hn := hi.idsNodup
  refine ⟨key.1, key.2, ?_, ?_⟩
  · intro hmem
    have : i ∈ s'.tsm.callers.filterMap Bac.Spec.idOf :=
      List.mem_filterMap.2 ⟨_, List.mem_of_getElem? key.2, rfl⟩
    exact (List.nodup_append.1 hn).2.2 _ hmem _ this rfl
  · intro j x hj hx
    by_contra hjk
    exact filterMap_nodup_ne (List.nodup_append.1 hn).2.1 hjk hj key.2 hx rfl

/-! ## When as many calls hang as there are slots -/

theorem countP_positions {α : Type} (p : α → Bool) : ∀ l : List α,
    l.countP p = ((List.range l.length).filter fun k => l[k]?.any p).length
  | [] => rfl
  | x :: l => by
    rw [List.countP_cons, countP_positions p l, List.length_cons, List.range_succ_eq_map, List.filter_cons]
    have e : ((List.map Nat.succ (List.range l.length)).filter fun k => (x :: l)[k]?.any p).length
        = ((List.range l.length).filter fun k => l[k]?.any p).length := by
      rw [List.filter_map, List.length_map]
      rfl
    by_cases hx : p x
    · rw [if_pos hx, if_pos (show Option.any p (x :: l)[0]? = true by simpa using hx), List.length_cons, e]
    · rw [if_neg hx, if_neg (show ¬ Option.any p (x :: l)[0]? = true by simpa using hx), e]; rfl

theorem countP_ge {α : Type} (p : α → Bool) (l : List α) (ks : List Nat) (hn : ks.Nodup)
    (h : ∀ k ∈ ks, ∃ x, l[k]? = some x ∧ p x = true) : ks.length ≤ l.countP p := by
  rw [countP_positions]
  refine (List.subperm_of_subset hn fun k hk => ?_).length_le
  obtain ⟨x, h1, h2⟩ := h k hk
  rw [List.mem_filter, List.mem_range]
  exact ⟨(List.getElem?_eq_some_iff.1 h1).1, by rw [h1]; exact h2⟩

/-- With as many calls hanging as there are slots, a step changes no call. -/
theorem blocked_step {cfg : Config} {n m : Nat} {range} {s s' : Sys.State} (h : Sys.Reach cfg n m range s)
    (ks : List Nat) (hn : ks.Nodup) (hl : ks.length = cfg.size) (hk : ∀ k ∈ ks, (s.run k).phase = .hung)
    (mv : Sys.Move cfg m s s') : s'.run = s.run := by
  have hslots := (Tsm.inv_reach (reach_tsm h)).slots
  have only : ∀ j x, s.tsm.callers[j]? = some x → Bac.Spec.hasSlot x = true → (s.run j).phase = .hung := by
    intro j x hj hx
    by_contra hne
    have := countP_ge Bac.Spec.hasSlot s.tsm.callers (j :: ks)
      (List.nodup_cons.2 ⟨fun hm => hne (hk j hm), hn⟩) (by
        intro k hmem
        rcases List.mem_cons.1 hmem with rfl | hmem
        · exact ⟨x, hj, hx⟩
        · obtain ⟨i, o, c, hc⟩ := hung_open h k (hk k hmem)
          exact ⟨_, hc, rfl⟩)
    rw [List.length_cons] at this
    omega
  have act : ∀ j, (s.run j).phase.active = true → (s.run j).phase = .hung := by
    intro j hj
    obtain ⟨i, hi⟩ := (tied_reach h).active j hj
    unfold openAt at hi
    cases hc : s.tsm.callers[j]? with
    | none => rw [hc] at hi; cases hi
    | some x =>
      rw [hc] at hi
      refine only j x hc ?_
      cases x <;> first | rfl | cases hi
  have at_ : ∀ (l₁ l₂ : List Tsm.Caller) x, s.tsm.callers = l₁ ++ x :: l₂ → s.tsm.callers[l₁.length]? = some x := by
    intro l₁ l₂ x e; rw [e]; simp
  cases mv with
  | opened l₁ l₂ i o c call hc hm =>
    obtain ⟨i', o', c', hh⟩ := hung_open h _ (only _ _ (at_ _ _ _ hc) rfl)
    rw [at_ _ _ _ hc] at hh
    cases hh
  | send j l last frame hp => have := act j (by rw [hp]; rfl); rw [hp] at this; cases this
  | sendError j l last frame e hp => have := act j (by rw [hp]; rfl); rw [hp] at this; cases this
  | sendRefused j l last e hp => have := act j (by rw [hp]; rfl); rw [hp] at this; cases this
  | recvTimeout l₁ l₂ i o c c' l hp => have := act _ (by rw [hp]; rfl); rw [hp] at this; cases this
  | recvNil l₁ l₂ i o c c' l hp => have := act _ (by rw [hp]; rfl); rw [hp] at this; cases this
  | handOver l₁ l₂ m₁ m₂ i o c c' j d v l k i' x hp => have := act _ (by rw [hp]; rfl); rw [hp] at this; cases this
  | _ => rfl

/-- C136.  Once as many calls hang as the transaction manager has slots, no call of this client does anything
any more, whatever arrives and whoever calls: no call begins, sends a datagram, receives one or ends. -/
theorem C136_blocked (cfg : Config) (n m : Nat) (range : Nat → Int × Int) (s : Sys.State)
    (h : Sys.Reach cfg n m range s) (ks : List Nat) (hn : ks.Nodup) (hl : ks.length = cfg.size)
    (hk : ∀ k ∈ ks, (s.run k).phase = .hung) :
    ∀ s', Relation.ReflTransGen (Sys.Move cfg m) s s' → s'.run = s.run := by
  intro s' st
  induction st with
  | refl => rfl
  | tail st mv ih =>
    exact (blocked_step (reach_moves h st) ks hn hl (fun k hm => by rw [ih]; exact hk k hm) mv).trans ih

/-! ## One device gets there -/

/-- `j` calls hang, nothing else has happened. -/
structure C136_Stage (size n m j : Nat) (s : Sys.State) : Prop where
  callers : ∃ l : List Tsm.Caller, l.length = j ∧ s.tsm.callers = l ++ List.replicate (n - j) .idle
  hung : ∀ k, k < j → (s.run k).phase = .hung
  fresh : ∀ k, j ≤ k → s.run k = {}
  ids : s.tsm.ids = List.range' (j + 1) (254 - j)
  space : s.tsm.space = size - j
  mutex : s.tsm.mutex = false
  senders : s.tsm.senders = List.replicate m .idle
  idle : ∀ k, s.utsm.pub k = .idle
  isClosed : ∀ c, s.tsm.isClosed c = false
  arrived : s.arrived.length = j

section
attribute [local irreducible] effects sendFrame Call.enter Loop.after Run.begin

/-- One more call, one more answer. -/
theorem stage_next {cfg : Config} {n m j : Nat} {s : Sys.State} (hs : C136_Stage cfg.size n m j s)
    (hsize : j < cfg.size) (hid : j < 254) (hn : j < n) (hm : j < m) (call : Call) (l : Loop)
    (he : call.enter cfg.fuel cfg.my (UInt8.ofNat (j + 1)) = .ok (.ok l)) (ht : 0 < l.tries)
    (f : Address × List UInt8) (d : Delivered) (hf : effects f = [.deliver (UInt8.ofNat (j + 1)) d])
    (ha : l.after 1 d.toRecv = .hung) :
    ∃ s', Relation.ReflTransGen (Sys.Move cfg m) s s' ∧ C136_Stage cfg.size n m (j + 1) s' ∧
      s'.arrived = s.arrived ++ [f] ∧ (s'.run j).call = call ∧ ∀ k, k < j → s'.run k = s.run k := by
  obtain ⟨⟨l₁, hlen, hc⟩, hhung, hfresh, hids, hspace, hmutex, hsend, hidle, hclosed, harr⟩ := hs
  obtain ⟨n', rfl⟩ : ∃ n', n = j + 1 + n' := ⟨n - (j + 1), by omega⟩
  obtain ⟨m', rfl⟩ : ∃ m', m = j + 1 + m' := ⟨m - (j + 1), by omega⟩
  have hid' : (UInt8.ofNat (j + 1)).toNat = j + 1 := UInt8.toNat_ofNat_of_lt' (by show j + 1 < 256; omega)
  have hn' : j + 1 + n' - j = n' + 1 := by omega
  rw [hn', List.replicate_succ] at hc
  have hsend' : s.tsm.senders = List.replicate j .idle ++ .idle :: List.replicate m' .idle := by
    rw [hsend, ← List.replicate_succ, List.replicate_append_replicate]; congr 1; omega
  have hids' : s.tsm.ids = (j + 1) :: List.range' (j + 2) (254 - (j + 1)) := by
    rw [hids, show 254 - j = (254 - (j + 1)) + 1 by omega, List.range'_succ]
  subst hlen
  refine ⟨_,
    .head (.tsm _ _ (.takeSlot _ l₁ _ hc (by omega)) (free_of l₁ _ (.idle) (.slot) hc rfl rfl rfl rfl)) <|
    .head (.tsm _ _ (.takeId _ l₁ _ (l₁.length + 1) _ rfl hids') (free_of l₁ _ (.slot) (.id _) rfl rfl rfl rfl rfl)) <|
    .head (.tsm _ _ (.newObj _ l₁ _ (l₁.length + 1) rfl) (free_of l₁ _ (.id _) (.obj _ _) rfl rfl rfl rfl rfl)) <|
    .head (.tsm _ _ (.makeChan _ l₁ _ (l₁.length + 1) _ rfl) (free_of l₁ _ (.obj _ _) (.chan _ _ _) rfl rfl rfl rfl rfl)) <|
    .head (move_opened _ l₁ _ (l₁.length + 1) _ _ call l he ht rfl hmutex) <|
    .head (.send _ l₁.length l (.failed .noId) _ (by simp only [Function.update_self]) (sendFrame_ok _ _ _)) <|
    .head (.recvLook _ l₁ _ (l₁.length + 1) _ _ s.tsm.nextObj l (by simp only [Function.update_self]) rfl hmutex
      (by simp only [Function.update_self])) <|
    .head (.tsm _ _ (.recvWait _ l₁ _ (l₁.length + 1) _ _ _ rfl) (free_of l₁ _ (.look _ _ _ _) (.wait _ _ _ _) rfl rfl rfl rfl rfl)) <|
    .head (.arrive _ f (by show s.arrived.length < _; omega)) <|
    .head (.deliver _ (List.replicate l₁.length .idle) (List.replicate m' .idle) (UInt8.ofNat (l₁.length + 1)) d []
      s.tsm.nextObj (by simp only [List.length_replicate, harr, Function.update_self]; exact hf) (hidle _) hsend' hmutex
      (by simp only [hid', Function.update_self])) <|
    .head (.tsm _ _ (.sendRead _ (List.replicate l₁.length .idle) (List.replicate m' .idle) _ _ _ _ rfl)
      (free_senders_of rfl (by simp))) <|
    .head (.handOver _ l₁ _ (List.replicate l₁.length .idle) (List.replicate m' .idle) (l₁.length + 1) _ _
      ((Function.update s.tsm.data s.tsm.nextObj s.tsm.nextChan) s.tsm.nextObj) _ _ _ l
      l₁.length (UInt8.ofNat (l₁.length + 1)) d (by simp only [Function.update_self]) rfl rfl (hclosed _) (by simp)) .refl, ?_, ?_, ?_, ?_⟩
  · refine ⟨⟨l₁ ++ [.opened (l₁.length + 1) s.tsm.nextObj s.tsm.nextChan], by simp, ?_⟩, ?_, ?_, ?_, ?_, ?_, ?_, ?_, ?_, ?_⟩
    · simp only [List.append_assoc, List.singleton_append]; congr 3; omega
    · intro k hk
      by_cases e : k = l₁.length
      · subst e
        simp only [Function.update_self, List.length_nil, Nat.zero_add]
        exact ha
      · simp only [Function.update_of_ne e]; exact hhung k (by omega)
    · intro k hk
      simp only [Function.update_of_ne (show k ≠ l₁.length by omega)]
      exact hfresh k (by omega)
    · rfl
    · show s.tsm.space - 1 = _; omega
    · exact hmutex
    · show List.replicate l₁.length _ ++ _ :: List.replicate m' _ = _
      rw [← List.replicate_succ, List.replicate_append_replicate]; congr 1; omega
    · exact hidle
    · exact hclosed
    · show (s.arrived ++ [f]).length = _; simp [harr]
  · rfl
  · simp only [Function.update_self]
  · intro k hk
    simp only [Function.update_of_ne (show k ≠ l₁.length by omega)]

end

theorem readMulti_enter (fuel : Nat) (my : Address) (dev : Device) (os : List Object) (id : UInt8) (hmy : my.net = 0)
    (hv : ∀ o ∈ os, C04_Valid o.id) (h0 : dev.maxApdu ≠ 0)
    (hfit : (readMultiPack dev id os).length ≤ dev.maxApdu.toNat) :
    (Call.readMulti dev os).enter fuel my id = .ok (.ok ⟨dev.addr.setLength, readMultiPack dev id os,
      fun v => mapStep .objects (readMultiStep fuel v), maxReattempt, true⟩) := by
  have hk : ¬ dev.maxApdu < UInt32.ofNat (readMultiPack dev id os).length := by
    have := dev.maxApdu.toNat_lt
    rw [UInt32.lt_iff_toNat_lt, UInt32.toNat_ofNat_of_lt' (by show (readMultiPack dev id os).length < 2 ^ 32; omega)]
    omega
  unfold Call.enter
  simp only [if_neg h0, npdu_request my _ hmy, Outcome.ok_bind, readMultiple_octets _ id os hv]
  unfold readMultiPack at hk
  show (if dev.maxApdu < UInt32.ofNat (requestOctets dev.addr.setLength ++ _).length then _ else _) = _
  rw [if_neg hk]
  rfl

/-- A call whose answer makes the decoder hang, hangs. -/
theorem readMulti_hangs (fuel : Nat) (dest : Address) (pack body : List UInt8) (id : UInt8) (tried : Nat)
    (hb : Hangs body) (hf : body.length < fuel) :
    (Loop.mk dest pack (fun v => mapStep .objects (readMultiStep fuel v)) maxReattempt true).after tried
      (Delivered.toRecv (.apdu (Spec.complexAck id 14 body))) = .hung := by
  have h1 := (verdict_run body fuel hf (some 14)).2.1.2 ((C135_decided body).1.1 hb)
  have hstep : readMultiStep fuel (.bytes (Spec.complexAck id 14 body)) = .diverge := by
    simp only [readMultiStep, Spec.complexAck]
    rw [answerHeader_ack 0x30 id 14 (Or.inl rfl)]
    show Outcome.bind (Dec.readMultipleAck fuel ⟨body, some 14, none⟩) _ = _
    rw [h1]
    rfl
  unfold Loop.after Delivered.toRecv
  simp only [hstep, mapStep]

/-- The answers of a device: for invoke ids 1, 2, 3, …, all with the same content. -/
def C136_answers (src : Address) (f : UInt8) (h : NetHeader) (body : List UInt8) (count : Nat) : List (Address × List UInt8) :=
  (List.range count).map fun j => (src, Spec.frame f (h.octets ++ Spec.complexAck (UInt8.ofNat (j + 1)) 14 body))

/-- Any number of calls, up to the number of slots, that hang on the answers of one device. -/
theorem stage_reach (fuel : Nat) (my : Address) (hmy : my.net = 0) (range : Nat → Int × Int) (size n m : Nat)
    (hsize : size ≤ 254) (hn : size ≤ n) (hm : size ≤ m) (src : Address) (f : UInt8) (hf : f = 10 ∨ f = 11)
    (h : NetHeader) (hok : h.Ok) (dev : Device) (os : List Object) (hv : ∀ o ∈ os, C04_Valid o.id)
    (h0 : dev.maxApdu ≠ 0) (hfit : ∀ id, (readMultiPack dev id os).length ≤ dev.maxApdu.toNat)
    (body : List UInt8) (hb : Hangs body) (hfuel : body.length < fuel) :
    ∀ j, j ≤ size → ∃ s, Sys.Reach ⟨fuel, my, size⟩ n m range s ∧ C136_Stage size n m j s ∧
      s.arrived = C136_answers src f h body j ∧ ∀ k < j, (s.run k).call = .readMulti dev os := by
  intro j
  induction j with
  | zero =>
    intro _
    exact ⟨_, .start, ⟨⟨[], rfl, rfl⟩, fun k hk => absurd hk (Nat.not_lt_zero _), fun _ _ => rfl, rfl, rfl, rfl, rfl,
      fun _ => rfl, fun _ => rfl, rfl⟩, rfl, fun k hk => absurd hk (Nat.not_lt_zero _)⟩
  | succ j ih =>
    intro hj
    obtain ⟨s, r, st, harr, hcall⟩ := ih (by omega)
    have heff : effects (src, Spec.frame f (h.octets ++ Spec.complexAck (UInt8.ofNat (j + 1)) 14 body))
        = [.deliver (UInt8.ofNat (j + 1)) (.apdu (Spec.complexAck (UInt8.ofNat (j + 1)) 14 body))] := by
      unfold effects
      rw [(C72_acks src _ h hok f hf (UInt8.ofNat (j + 1)) 14 body).2]
    obtain ⟨s', p, st', harr', hcall', hold⟩ := stage_next (cfg := ⟨fuel, my, size⟩) st hj (by omega) (by omega) (by omega)
      (.readMulti dev os) _ (readMulti_enter fuel my dev os _ hmy hv h0 (hfit _)) Nat.two_pos _ _ heff
      (readMulti_hangs fuel _ _ body _ 1 hb hfuel)
    refine ⟨s', reach_moves r p, st', ?_, fun k hk => ?_⟩
    · rw [harr', harr]
      unfold C136_answers
      rw [List.range_succ, List.map_append]
      rfl
    · by_cases e : k = j
      · rw [e]; exact hcall'
      · rw [hold k (by omega)]; exact hcall k (by omega)

/-- C136 fails.  With any number of slots up to 254 (in the code 20: device.go:105), any valid
ReadMultiProperty request, and any content of an answer on which the decoder hangs: as many answers of one
device as there are slots, each for its own request, and no other call to any device ever sends anything. -/
theorem C136_fails (fuel : Nat) (my : Address) (hmy : my.net = 0) (range : Nat → Int × Int) (size n m : Nat)
    (hsize : size ≤ 254) (hn : size ≤ n) (hm : size ≤ m) (src : Address) (f : UInt8) (hf : f = 10 ∨ f = 11)
    (h : NetHeader) (hok : h.Ok) (dev : Device) (os : List Object) (hv : ∀ o ∈ os, C04_Valid o.id)
    (h0 : dev.maxApdu ≠ 0) (hfit : ∀ id, (readMultiPack dev id os).length ≤ dev.maxApdu.toNat)
    (body : List UInt8) (hb : Hangs body) (hfuel : body.length < fuel) :
    ∃ s, Sys.Reach ⟨fuel, my, size⟩ n m range s ∧ s.arrived = C136_answers src f h body size ∧
      (∀ k < size, (s.run k).call = .readMulti dev os ∧ (s.run k).phase = .hung) ∧
      ∀ s', Relation.ReflTransGen (Sys.Move ⟨fuel, my, size⟩ m) s s' →
        ∀ k, size ≤ k → (s'.run k).phase = .idle ∧ (s'.run k).out = [] := by
  obtain ⟨s, r, st, harr, hcall⟩ := stage_reach fuel my hmy range size n m hsize hn hm src f hf h hok dev os
    hv h0 hfit body hb hfuel size (Nat.le_refl _)
  refine ⟨s, r, harr, fun k hk => ⟨hcall k hk, st.hung k hk⟩, fun s' p k hk => ?_⟩
  rw [C136_blocked _ n m range s r (List.range size) List.nodup_range (by simp)
    (fun k hk => st.hung k (List.mem_range.1 hk)) s' p, st.fresh k hk]
  exact ⟨rfl, rfl⟩

/-- Twenty answers of 11 octets each (analogue input 5, cut after the second octet of a present value), from one
device, and none of the further calls, however many goroutines make them, gets as far as sending its request. -/
example (n m : Nat) (hn : 20 ≤ n) (hm : 20 ≤ m) (range : Nat → Int × Int) :
    ∃ s, Sys.Reach ⟨12, {}, 20⟩ n m range s ∧
      s.arrived = C136_answers {} 10 { version := 1, expectingReply := false, priority := 0, dest := none, hop := 0, src := none, msg := none } [0x0C, 0, 0, 0, 5, 0x1E, 0x29, 85, 0x4E, 0x21, 5] 20 ∧
      ∀ s', Relation.ReflTransGen (Sys.Move ⟨12, {}, 20⟩ m) s s' → ∀ k, 20 ≤ k → (s'.run k).out = [] := by
  obtain ⟨s, r, h1, _, h2⟩ := C136_fails 12 {} rfl range 20 n m (by decide) hn hm {} 10 (Or.inl rfl)
    { version := 1, expectingReply := false, priority := 0, dest := none, hop := 0, src := none, msg := none }
    ⟨rfl, by decide, fun a h => (by cases h), fun a h => (by cases h)⟩ { maxApdu := 1476 }
    [{ id := ⟨0, 5⟩, properties := [⟨85, arrayAll, .one .nil, 0⟩] }] (by simp [C04_Valid]) (by decide)
    (fun id => by
      rw [show (readMultiPack { maxApdu := 1476 } id [{ id := ⟨0, 5⟩, properties := [⟨85, arrayAll, .one .nil, 0⟩] }]).length
        = (readMultiPack { maxApdu := 1476 } 0 [{ id := ⟨0, 5⟩, properties := [⟨85, arrayAll, .one .nil, 0⟩] }]).length from rfl]
      decide +kernel)
    [0x0C, 0, 0, 0, 5, 0x1E, 0x29, 85, 0x4E, 0x21, 5] ((C135_decided _).1.2 (by decide +kernel)) (by decide)
  exact ⟨s, r, h1, fun s' p k hk => (h2 s' p k hk).2⟩

/-! ## As long as fewer calls hang than there are slots -/

/-- Where a caller stands and where its call stands. -/
def Fits (p : Phase) : Tsm.Caller → Prop
  | .opened _ _ _ => p ≠ .idle
  | .look _ _ _ _ | .wait _ _ _ _ => ∃ l, p = .receiving l
  | _ => True

/-- A goroutine with an open transaction is in a call; one in `Receive` is in the loop of a call. -/
theorem fits_reach {cfg : Config} {n m : Nat} {range} {s : Sys.State} (h : Sys.Reach cfg n m range s) :
    ∀ k x, s.tsm.callers[k]? = some x → Fits (s.run k).phase x := by
  induction h with
  | start =>
    intro k x hx
    have := List.mem_of_getElem? hx
    cases List.eq_of_mem_replicate this
    trivial
  | @step s s' r mv ih =>
    have next_ne : ∀ (l : Loop) t e, l.next t e ≠ .idle := by
      intro l t e; unfold Loop.next; split <;> intro h <;> cases h
    have after_ne : ∀ (l : Loop) t v, l.after t v ≠ .idle := by
      intro l t v; unfold Loop.after
      split
      · intro h; cases h
      · intro h; cases h
      · exact next_ne _ _ _
      · intro h; cases h
      · intro h; cases h
    have begin_ne : ∀ call id, (Run.begin cfg.fuel cfg.my call id).phase ≠ .idle := by
      intro call id; unfold Run.begin
      dsimp only
      split
      · exact next_ne _ _ _
      · intro h; cases h
      · intro h; cases h
      · intro h; cases h
    have own : ∀ (l₁ l₂ : List Tsm.Caller) (x y : Tsm.Caller) (run : Nat → Run), s.tsm.callers = l₁ ++ x :: l₂ →
        (∀ j, j ≠ l₁.length → run j = s.run j) → Fits (run l₁.length).phase y →
        ∀ k z, (l₁ ++ y :: l₂)[k]? = some z → Fits (run k).phase z := by
      intro l₁ l₂ x y run hs hr hy k z hz
      by_cases e : k = l₁.length
      · subst e
        simp only [List.getElem?_append_right (Nat.le_refl _), Nat.sub_self, List.getElem?_cons_zero,
          Option.some.injEq] at hz
        rw [← hz]; exact hy
      · rw [getElem?_other l₁ l₂ y x k e, ← hs] at hz
        rw [hr k e]; exact ih k z hz
    have sent : ∀ j (r : Run) l last, (s.run j).phase = .sending l last → r.phase ≠ .idle →
        ∀ k z, s.tsm.callers[k]? = some z → Fits (Function.update s.run j r k).phase z := by
      intro j r l last hp hr k z hz
      by_cases e : k = j
      · subst e
        rw [Function.update_self]
        have hf := ih k z hz
        rw [hp] at hf
        cases z <;> first
          | trivial
          | exact hr
          | (obtain ⟨_, hf⟩ := hf; cases hf)
      · rw [Function.update_of_ne e]; exact ih k z hz
    cases mv with
    | arrive => exact ih
    | publish => exact ih
    | deliver => exact ih
    | unknown => exact ih
    | utsm => exact ih
    | tsm t st hfree =>
      have out : ∀ l₁ l₂ x i o c, s.tsm.callers = l₁ ++ .opened i o c :: l₂ → t.callers = l₁ ++ x :: l₂ →
          (∀ i o c, x ≠ .opened i o c) → False := by
        intro l₁ l₂ x i o c h1 h2 hx
        have := (hfree.1 l₁.length i o c).1 (by rw [h1]; simp)
        rw [h2] at this
        simp at this
        exact hx _ _ _ this
      have into : ∀ l₁ l₂ x i o c, s.tsm.callers = l₁ ++ x :: l₂ → t.callers = l₁ ++ .opened i o c :: l₂ →
          (∀ i o c, x ≠ .opened i o c) → False := by
        intro l₁ l₂ x i o c h1 h2 hx
        have := (hfree.1 l₁.length i o c).2 (by rw [h2]; simp)
        rw [h1] at this
        simp at this
        exact hx _ _ _ this
      cases st
      case takeSlot h' _ => exact own _ _ _ _ _ h' (fun _ _ => rfl) trivial
      case takeId h' _ => exact own _ _ _ _ _ h' (fun _ _ => rfl) trivial
      case cancel h' => exact own _ _ _ _ _ h' (fun _ _ => rfl) trivial
      case giveBack h' _ => exact own _ _ _ _ _ h' (fun _ _ => rfl) trivial
      case newObj h' => exact own _ _ _ _ _ h' (fun _ _ => rfl) trivial
      case poolObj h' _ => exact own _ _ _ _ _ h' (fun _ _ => rfl) trivial
      case makeChan h' => exact own _ _ _ _ _ h' (fun _ _ => rfl) trivial
      case openTx h' _ => exact (into _ _ _ _ _ _ h' rfl (by simp)).elim
      case recvLook h' _ _ => exact (out _ _ _ _ _ _ h' rfl (by simp)).elim
      case recvWait l₁ l₂ i o c o' h' =>
        exact own _ _ _ _ _ h' (fun _ _ => rfl) (ih l₁.length (.look i o c o') (by rw [h']; simp))
      case recvTimeout h' => exact (into _ _ _ _ _ _ h' rfl (by simp)).elim
      case recvNil h' _ => exact (into _ _ _ _ _ _ h' rfl (by simp)).elim
      case handOver h' _ _ => exact (into _ _ _ _ _ _ h' rfl (by simp)).elim
      case putLock h' _ _ => exact (out _ _ _ _ _ _ h' rfl (by simp)).elim
      case putFail h' _ _ => exact (out _ _ _ _ _ _ h' rfl (by simp)).elim
      case putClose h' => exact own _ _ _ _ _ h' (fun _ _ => rfl) trivial
      case putPool h' => exact own _ _ _ _ _ h' (fun _ _ => rfl) trivial
      case putId h' _ => exact own _ _ _ _ _ h' (fun _ _ => rfl) trivial
      case putSlot h' _ => exact own _ _ _ _ _ h' (fun _ _ => rfl) trivial
      case putDelete h' => exact own _ _ _ _ _ h' (fun _ _ => rfl) trivial
      case sendLook => exact ih
      case sendRead => exact ih
      case sendPanic => exact ih
    | opened l₁ l₂ i o c call h' hm =>
      exact own l₁ l₂ _ _ _ h' (fun j hj => Function.update_of_ne hj _ _) (by simp only [Function.update_self]; exact begin_ne _ _)
    | send j l last frame hp => exact sent j _ l last hp nofun
    | sendError j l last frame e hp => exact sent j _ l last hp (next_ne _ _ _)
    | sendRefused j l last e hp => exact sent j _ l last hp (next_ne _ _ _)
    | recvLook l₁ l₂ i o c o' l hp h' => exact own l₁ l₂ _ _ _ h' (fun _ _ => rfl) ⟨l, hp⟩
    | recvTimeout l₁ l₂ i o c c' l hp h' =>
      exact own l₁ l₂ _ _ _ h' (fun j hj => Function.update_of_ne hj _ _) (by simp only [Function.update_self]; exact after_ne _ _ _)
    | recvNil l₁ l₂ i o c c' l hp h' =>
      exact own l₁ l₂ _ _ _ h' (fun j hj => Function.update_of_ne hj _ _) (by simp only [Function.update_self]; exact after_ne _ _ _)
    | handOver l₁ l₂ m₁ m₂ i o c c' j d v l k i' x hp h' =>
      exact own l₁ l₂ _ _ _ h' (fun j hj => Function.update_of_ne hj _ _) (by simp only [Function.update_self]; exact after_ne _ _ _)
    | put l₁ l₂ i o c o' r hp h' => exact own l₁ l₂ _ _ _ h' (fun _ _ => rfl) trivial
    | putFail l₁ l₂ i o c r hp h' => exact own l₁ l₂ _ _ _ h' (fun _ _ => rfl) trivial

/-- The deferred `Put` of a call that has its result. -/
theorem sys_put {cfg : Config} {n m : Nat} {range : Nat → Int × Int} {s : Sys.State} (h : Sys.Reach cfg n m range s)
    (k i o c : Nat) (hk : s.tsm.callers[k]? = some (.opened i o c)) (r : Except CallErr Res)
    (hp : (s.run k).phase = .done r) :
    ∃ s', Relation.ReflTransGen (Sys.Move cfg m) s s' ∧ s'.tsm.callers[k]? = some .idle ∧ Spares k s s' := by
  obtain ⟨s3, p2, r3, k3, m3, sp2, _⟩ := sys_unlock h k _ hk rfl
  have h3 := reach_moves h p2
  obtain ⟨l₁, l₂, hs, rfl⟩ := split_at k3
  have hfound := C47_found _ _ _ _ (reach_tsm h3) i o c (by rw [hs]; simp)
  have st : Sys.Move cfg m s3 _ := .put s3 l₁ l₂ i o c o r (by rw [r3]; exact hp) hs m3 hfound
  obtain ⟨s4, p3, r4, k4, _⟩ := sys_release (h3.step st) l₁ l₂ (.locked i o c o) rfl rfl
  have r4 : s4.run = s3.run := r4
  exact ⟨s4, p2.trans (.head st p3), by rw [k4]; simp, sp2.trans (spares_own hs k4 fun j _ => by rw [r4])⟩

/-- A goroutine that holds a slot, and neither hangs nor has panicked, can give it back. -/
theorem sys_drain {cfg : Config} {n m : Nat} {range : Nat → Int × Int} {s : Sys.State} (h : Sys.Reach cfg n m range s)
    (k : Nat) (x : Tsm.Caller) (hk : s.tsm.callers[k]? = some x) (hx : Bac.Spec.hasSlot x = true)
    (hh : (s.run k).phase ≠ .hung) (hpn : ∀ e, (s.run k).phase ≠ .panicked e) :
    ∃ s', Relation.ReflTransGen (Sys.Move cfg m) s s' ∧ s'.tsm.callers[k]? = some .idle ∧ Spares k s s' := by
  have put : ∀ (y : Tsm.Caller), s.tsm.callers[k]? = some y → Bac.Spec.inPut y = true →
      ∃ s', Relation.ReflTransGen (Sys.Move cfg m) s s' ∧ s'.tsm.callers[k]? = some .idle ∧ Spares k s s' := by
    intro y hy hput
    obtain ⟨l₁, l₂, hs, rfl⟩ := split_at hy
    obtain ⟨s4, p3, r4, k4, _⟩ := sys_release h l₁ l₂ y hs hput
    exact ⟨s4, p3, by rw [k4]; simp, spares_own hs k4 fun j _ => by rw [r4]⟩
  have back : ∀ s, Sys.Reach cfg n m range s → s.tsm.callers[k]? = some .giveBack →
      ∃ s', Relation.ReflTransGen (Sys.Move cfg m) s s' ∧ s'.tsm.callers[k]? = some .idle ∧ Spares k s s' := by
    intro s h hk
    obtain ⟨l₁, l₂, hs, rfl⟩ := split_at hk
    have hslots := (Tsm.inv_reach (reach_tsm h)).slots
    have : 0 < s.tsm.callers.countP Bac.Spec.hasSlot := List.countP_pos_iff.2 ⟨_, List.mem_of_getElem? hk, rfl⟩
    exact ⟨_, .single (.tsm s _ (.giveBack s.tsm l₁ l₂ hs (by omega)) (free_of l₁ l₂ .giveBack .idle hs rfl rfl rfl rfl)),
      by simp, spares_own hs rfl fun _ _ => rfl⟩
  have chan : ∀ s i o c, Sys.Reach cfg n m range s → s.tsm.callers[k]? = some (.chan i o c) →
      ∃ s', Relation.ReflTransGen (Sys.Move cfg m) s s' ∧ s'.tsm.callers[k]? = some .idle ∧ Spares k s s' := by
    intro s i o c h hk
    obtain ⟨s1, p1, r1, k1, m1, sp1, _⟩ := sys_unlock h k _ hk rfl
    have h1 := reach_moves h p1
    obtain ⟨l₁, l₂, hs, rfl⟩ := split_at k1
    have st : Sys.Move cfg m s1 _ := .opened s1 l₁ l₂ i o c (.readMulti { maxApdu := 0 } []) hs m1
    obtain ⟨s', p2, k2, sp2⟩ := sys_put (h1.step st) l₁.length i o c (by simp) (.error .badMaxApdu)
      (by simp only [Function.update_self]; rfl)
    exact ⟨s', p1.trans (.head st p2), k2,
      sp1.trans (sp2.after (spares_own hs rfl fun j hj => Function.update_of_ne hj _ _))⟩
  have obj : ∀ s i o, Sys.Reach cfg n m range s → s.tsm.callers[k]? = some (.obj i o) →
      ∃ s', Relation.ReflTransGen (Sys.Move cfg m) s s' ∧ s'.tsm.callers[k]? = some .idle ∧ Spares k s s' := by
    intro s i o h hk
    obtain ⟨l₁, l₂, hs, hl⟩ := split_at hk
    have st : Sys.Move cfg m s _ := .tsm s _ (.makeChan s.tsm l₁ l₂ i o hs) (free_of l₁ l₂ (.obj i o) (.chan i o _) hs rfl rfl rfl rfl)
    obtain ⟨s', p2, k2, sp2⟩ := chan _ i o _ (h.step st) (by simp [← hl]; rfl)
    exact ⟨s', .head st p2, k2, sp2.after (by rw [← hl]; exact spares_own hs rfl fun _ _ => rfl)⟩
  cases x
  case idle => cases hx
  case freedSlot => cases hx
  case slot =>
    obtain ⟨l₁, l₂, hs, hl⟩ := split_at hk
    have st : Sys.Move cfg m s _ := .tsm s _ (.cancel s.tsm l₁ l₂ hs) (free_of l₁ l₂ .slot .giveBack hs rfl rfl rfl rfl)
    obtain ⟨s', p2, k2, sp2⟩ := back _ (h.step st) (by simp [← hl])
    exact ⟨s', .head st p2, k2, sp2.after (by rw [← hl]; exact spares_own hs rfl fun _ _ => rfl)⟩
  case giveBack => exact back s h hk
  case id i =>
    obtain ⟨l₁, l₂, hs, hl⟩ := split_at hk
    have st : Sys.Move cfg m s _ := .tsm s _ (.newObj s.tsm l₁ l₂ i hs) (free_of l₁ l₂ (.id i) (.obj i _) hs rfl rfl rfl rfl)
    obtain ⟨s', p2, k2, sp2⟩ := obj _ i _ (h.step st) (by simp [← hl]; rfl)
    exact ⟨s', .head st p2, k2, sp2.after (by rw [← hl]; exact spares_own hs rfl fun _ _ => rfl)⟩
  case obj i o => exact obj s i o h hk
  case chan i o c => exact chan s i o c h hk
  case opened i o c =>
    have hf : (s.run k).phase ≠ .idle := fits_reach h k _ hk
    have act : (s.run k).phase.active = true →
        ∃ s', Relation.ReflTransGen (Sys.Move cfg m) s s' ∧ s'.tsm.callers[k]? = some .idle ∧ Spares k s s' := by
      intro ha
      obtain ⟨s', _, p, _, _, k', sp⟩ := C119_ends cfg n m range s h k ha
      exact ⟨s', p, k', sp⟩
    cases hp : (s.run k).phase with
    | idle => exact absurd hp hf
    | sending l last => exact act (by rw [hp]; rfl)
    | receiving l => exact act (by rw [hp]; rfl)
    | done r => exact sys_put h k i o c hk r hp
    | panicked e => exact absurd hp (hpn e)
    | hung => exact absurd hp hh
  case look =>
    obtain ⟨l, hl⟩ : ∃ l, (s.run k).phase = .receiving l := fits_reach h k _ hk
    obtain ⟨s', _, p, _, _, k', sp⟩ := C119_ends cfg n m range s h k (by rw [hl]; rfl)
    exact ⟨s', p, k', sp⟩
  case wait =>
    obtain ⟨l, hl⟩ : ∃ l, (s.run k).phase = .receiving l := fits_reach h k _ hk
    obtain ⟨s', _, p, _, _, k', sp⟩ := C119_ends cfg n m range s h k (by rw [hl]; rfl)
    exact ⟨s', p, k', sp⟩
  case locked => exact put _ hk rfl
  case closed => exact put _ hk rfl
  case pooled => exact put _ hk rfl
  case freedId => exact put _ hk rfl

/-- A goroutine that is in no call can begin one when a slot is free. -/
theorem sys_begin {cfg : Config} (hsize : cfg.size ≤ 254) {n m : Nat} {range : Nat → Int × Int} {s : Sys.State}
    (h : Sys.Reach cfg n m range s) (k : Nat) (hk : s.tsm.callers[k]? = some .idle) (hfree : 0 < s.tsm.space) (call : Call) :
    ∃ s' i, Relation.ReflTransGen (Sys.Move cfg m) s s' ∧ s'.run k = Run.begin cfg.fuel cfg.my call (UInt8.ofNat i) ∧
      1 ≤ i ∧ i ≤ 254 ∧ ∀ j, j ≠ k → s'.run j = s.run j := by
  obtain ⟨l₁, l₂, hs, rfl⟩ := split_at hk
  have st1 : Sys.Move cfg m s _ :=
    .tsm _ _ (.takeSlot _ l₁ l₂ hs hfree) (free_of l₁ l₂ (.idle) (.slot) hs rfl rfl rfl rfl)
  have r1 := h.step st1
  obtain ⟨i, rest, hi⟩ : ∃ i rest, s.tsm.ids = i :: rest := by
    have hids := C50_id cfg.size n m hsize _ (reach_tsm r1) (by simp)
    cases e : s.tsm.ids with
    | nil => exact absurd e hids
    | cons i rest => exact ⟨i, rest, rfl⟩
  have hrange : 1 ≤ i ∧ i ≤ 254 := by
    have := ((Tsm.inv_reach (reach_tsm h)).ids.mem_iff (a := i)).1 (by rw [hi]; simp)
    simp [Bac.Spec.allIds, List.mem_range'] at this
    omega
  have path : Relation.ReflTransGen (Sys.Move cfg m) s _ :=
    .head st1 <|
    .head (.tsm _ _ (.takeId _ l₁ l₂ i rest rfl hi) (free_of l₁ l₂ (.slot) (.id i) rfl rfl rfl rfl rfl)) <|
    .head (.tsm _ _ (.newObj _ l₁ l₂ i rfl) (free_of l₁ l₂ (.id i) (.obj i _) rfl rfl rfl rfl rfl)) <|
    .head (.tsm _ _ (.makeChan _ l₁ l₂ i _ rfl) (free_of l₁ l₂ (.obj i _) (.chan i _ _) rfl rfl rfl rfl rfl)) .refl
  obtain ⟨s5, p5, r5, hc5, hm5, -⟩ := sys_unlock (reach_moves h path) l₁.length (.chan i s.tsm.nextObj s.tsm.nextChan)
    (by simp) rfl
  have r5 : s5.run = s.run := r5
  obtain ⟨m₁, m₂, hc, hlen⟩ := split_at hc5
  refine ⟨_, i, (path.trans p5).tail (.opened s5 m₁ m₂ i _ _ call hc hm5), ?_, hrange.1, hrange.2, ?_⟩
  · simp only [hlen, Function.update_self]
  · intro j hj
    simp only [hlen, Function.update_of_ne hj, r5]

/-- C136, the part that holds: as long as fewer calls than there are slots hang (or have panicked), a goroutine
that is in no call can begin any call, in every reachable state; at most one of the other calls has to end first,
by time-outs.
Missing: when all slots are taken by calls that hang, no call begins (`C136_blocked`), and one device can
bring that about (`C136_fails`). -/
theorem C136_partial (cfg : Config) (hsize : cfg.size ≤ 254) (n m : Nat) (range : Nat → Int × Int) (s : Sys.State)
    (h : Sys.Reach cfg n m range s) (k : Nat) (hk : s.tsm.callers[k]? = some .idle) (ks : List Nat)
    (hks : ∀ j, ((s.run j).phase = .hung ∨ ∃ e, (s.run j).phase = .panicked e) → j ∈ ks)
    (hfew : ks.length < cfg.size) (call : Call) :
    ∃ s' i, Relation.ReflTransGen (Sys.Move cfg m) s s' ∧ s'.run k = Run.begin cfg.fuel cfg.my call (UInt8.ofNat i) ∧
      1 ≤ i ∧ i ≤ 254 := by
  have hslots := (Tsm.inv_reach (reach_tsm h)).slots
  by_cases hfree : 0 < s.tsm.space
  · obtain ⟨s', i, p, hr, h1, h2, _⟩ := sys_begin hsize h k hk hfree call
    exact ⟨s', i, p, hr, h1, h2⟩
  -- some slot is in other hands
  obtain ⟨j, x, hj, hx, hnot⟩ : ∃ j x, s.tsm.callers[j]? = some x ∧ Bac.Spec.hasSlot x = true ∧ j ∉ ks := by
    by_contra hne
    have : s.tsm.callers.countP Bac.Spec.hasSlot ≤ ks.length := by
      rw [countP_positions]
      refine (List.subperm_of_subset (List.nodup_range.filter _) fun j hj => ?_).length_le
      obtain ⟨_, hj⟩ := List.mem_filter.1 hj
      cases hx : s.tsm.callers[j]? with
      | none => rw [hx] at hj; cases hj
      | some x =>
        rw [hx] at hj
        by_contra hmem
        exact hne ⟨j, x, hx, hj, hmem⟩
    omega
  obtain ⟨s1, p1, k1, sp1⟩ := sys_drain h j x hj hx (fun e => hnot (hks j (Or.inl e))) (fun e he => hnot (hks j (Or.inr ⟨e, he⟩)))
  have h1 := reach_moves h p1
  have hkj : k ≠ j := by
    rintro rfl
    rw [hk] at hj; cases hj; cases hx
  have hk1 : s1.tsm.callers[k]? = some .idle := by
    rcases (sp1 k hkj).2 with e | ⟨_, _, _, e⟩
    · rw [e]; exact hk
    · exact e
  have hfree1 : 0 < s1.tsm.space := by
    have hslots1 := (Tsm.inv_reach (reach_tsm h1)).slots
    have : s1.tsm.callers.countP Bac.Spec.hasSlot + 1 ≤ s.tsm.callers.countP Bac.Spec.hasSlot := by
      rw [countP_positions _ s1.tsm.callers]
      refine countP_ge _ _ (j :: _) (List.nodup_cons.2 ⟨?_, List.nodup_range.filter _⟩) ?_
      · intro hm
        obtain ⟨_, hm⟩ := List.mem_filter.1 hm
        rw [k1] at hm; cases hm
      · intro a ha
        rcases List.mem_cons.1 ha with rfl | ha
        · exact ⟨x, hj, hx⟩
        · obtain ⟨_, ha⟩ := List.mem_filter.1 ha
          cases hy : s1.tsm.callers[a]? with
          | none => rw [hy] at ha; cases ha
          | some y =>
            rw [hy] at ha
            have haj : a ≠ j := by rintro rfl; rw [k1] at hy; cases hy; cases ha
            rcases (sp1 a haj).2 with e | ⟨_, _, _, e⟩
            · exact ⟨y, by rw [← e]; exact hy, ha⟩
            · rw [hy] at e; cases e; cases ha
    omega
  obtain ⟨s', i, p, hr, h2, h3, _⟩ := sys_begin hsize h1 k hk1 hfree1 call
  exact ⟨s', i, p1.trans p, hr, h2, h3⟩

/-- The answer above hangs three calls; a fourth goroutine can begin a read. -/
example (range : Nat → Int × Int) : ∃ s s' : Sys.State, Sys.Reach ⟨12, {}, 20⟩ 20 20 range s ∧
    (∀ k < 3, (s.run k).phase = .hung) ∧ Relation.ReflTransGen (Sys.Move ⟨12, {}, 20⟩ 20) s s' ∧
    (s'.run 3).call = .read {} C117_rp := by
  obtain ⟨s, r, st, -, -⟩ := stage_reach 12 {} rfl range 20 20 20 (by decide) (by decide) (by decide) {} 10 (Or.inl rfl)
    { version := 1, expectingReply := false, priority := 0, dest := none, hop := 0, src := none, msg := none }
    ⟨rfl, by decide, fun a h => (by cases h), fun a h => (by cases h)⟩ { maxApdu := 1476 }
    [{ id := ⟨0, 5⟩, properties := [⟨85, arrayAll, .one .nil, 0⟩] }] (by simp [C04_Valid]) (by decide)
    (fun id => by
      rw [show (readMultiPack { maxApdu := 1476 } id [{ id := ⟨0, 5⟩, properties := [⟨85, arrayAll, .one .nil, 0⟩] }]).length
        = (readMultiPack { maxApdu := 1476 } 0 [{ id := ⟨0, 5⟩, properties := [⟨85, arrayAll, .one .nil, 0⟩] }]).length from rfl]
      decide +kernel)
    [0x0C, 0, 0, 0, 5, 0x1E, 0x29, 85, 0x4E, 0x21, 5] ((C135_decided _).1.2 (by decide +kernel)) (by decide) 3 (by decide)
  obtain ⟨l, hl, hc⟩ := st.callers
  obtain ⟨s', i, p, hr, _⟩ := C136_partial ⟨12, {}, 20⟩ (by decide) 20 20 range s r 3
    (by rw [hc, List.getElem?_append_right (by omega), hl]; rfl) [0, 1, 2] (fun j hj => by
      by_contra hne
      have : 3 ≤ j := by simp at hne; omega
      rw [st.fresh j this] at hj
      rcases hj with hj | ⟨_, hj⟩ <;> cases hj) (by decide) (.read {} C117_rp)
  exact ⟨s, s', r, st.hung, p, by rw [hr]; rfl⟩

end Bac.Props
