import Verif.Model.Process
/-!
# The networks of a process: which ports they have, and which can be closed
-/

namespace Bac.Props
open Bac.Process (State boundPort)

/-! ## What the properties speak about -/

/-- The socket of client `c` is open, on port `p`. -/
def C139_Open (s : State) (c : Nat) (p : Int) : Prop := s.clients[c]? = some (some p)

/-- The program can get hold of a network with client `c`: it has a pointer to it, or the store has. -/
def C139_Held (s : State) (c : Nat) : Prop :=
  ∃ r, s.nets[r]? = some (some c) ∧ (s.known r = true ∨ ∃ key, s.store key = some r)

/-! ## Lemmas -/

/-- How a result depends on whether a port is free. -/
def Binds (f : Int → Bool) (p : Int) (r r1 : Outcome (Except LinkErr Link)) : Prop :=
  (f p = true → r = r1) ∧ (∀ l, r = .ok (.ok l) → l.listen = p ∧ f p = true) ∧ (∀ k, r = .panic k → f p = true)

theorem binds_error (f : Int → Bool) (p : Int) (e : LinkErr) : Binds f p (.ok (.error e)) (.ok (.error e)) :=
  ⟨fun _ => rfl, nofun, nofun⟩

theorem dataLink_binds (f : Int → Bool) (h : Host) (ones p : Int) :
    Binds f (resolvePort (if p = 0 then 0xBAC0 else p)) (dataLink f h ones p) (dataLink (fun _ => true) h ones p) := by
  unfold dataLink
  generalize (if p = 0 then (0xBAC0 : Int) else p) = p'
  simp only
  cases parseCIDR h ones with
  | none => exact binds_error _ _ _
  | some c =>
    simp only [if_true]
    cases hf : f (resolvePort p') with
    | false => exact ⟨fun h => (by rw [hf] at h; cases h), nofun, nofun⟩
    | true =>
      simp only [if_true]
      refine ⟨fun _ => rfl, fun l hl => ⟨?_, hf⟩, fun _ _ => hf⟩
      split at hl <;> cases hl
      rfl

theorem port_twice (p : Int) : (if (if p = 0 then (0xBAC0 : Int) else p) = 0 then 0xBAC0 else if p = 0 then 0xBAC0 else p)
    = if p = 0 then (0xBAC0 : Int) else p := by
  split <;> rfl

theorem newUDPDataLink_binds (f : Int → Bool) (i : Iface) (p : Int) :
    Binds f (resolvePort (if p = 0 then 0xBAC0 else p)) (newUDPDataLink f i p) (newUDPDataLink (fun _ => true) i p) := by
  unfold newUDPDataLink
  simp only
  cases i with
  | cidr h ones => have := dataLink_binds f h ones (if p = 0 then 0xBAC0 else p); rwa [port_twice] at this
  | named addrs =>
    simp only
    cases findCIDRAddress addrs with
    | none => exact binds_error _ _ _
    | some a => have := dataLink_binds f a.1 a.2 (if p = 0 then 0xBAC0 else p); rwa [port_twice] at this

/-- Opening depends on the sockets of the process only by whether the one port is free; it is bound to that port. -/
theorem newClient_free (f : Int → Bool) (cb : Config) :
    (f (boundPort cb) = true → newClient f cb = newClient (fun _ => true) cb) ∧
    (∀ o l, newClient f cb = .ok o → o.link = some l → l.listen = boundPort cb ∧ f (boundPort cb) = true) ∧
    (∀ k, newClient f cb = .panic k → f (boundPort cb) = true) := by
  have wrap : ∀ (r r1 : Outcome (Except LinkErr Link)) (w : Outcome (Except LinkErr Link) → Outcome Opened),
      (∀ l, w (.ok (.ok l)) = .ok { link := some l, bufSize := bufferSize cb.maxPDU, err := none }) →
      (∀ e, w (.ok (.error e)) = .ok { link := none, bufSize := bufferSize cb.maxPDU, err := some e }) →
      (∀ k, w (.panic k) = .panic k) → w .diverge = .diverge → Binds f (boundPort cb) r r1 →
      (f (boundPort cb) = true → w r = w r1) ∧
      (∀ o l, w r = .ok o → o.link = some l → l.listen = boundPort cb ∧ f (boundPort cb) = true) ∧
      (∀ k, w r = .panic k → f (boundPort cb) = true) := by
    intro r r1 w w1 w2 w3 w4 ⟨h1, h2, h3⟩
    refine ⟨fun h => by rw [h1 h], fun o l ho hl => ?_, fun k hk => ?_⟩
    · cases r with
      | ok r =>
        cases r with
        | ok l' => rw [w1] at ho; cases ho; cases hl; exact h2 l rfl
        | error e => rw [w2] at ho; cases ho; cases hl
      | panic k => rw [w3] at ho; cases ho
      | diverge => rw [w4] at ho; cases ho
    · cases r with
      | ok r =>
        cases r with
        | ok l' => rw [w1] at hk; cases hk
        | error e => rw [w2] at hk; cases hk
      | panic k => exact h3 k rfl
      | diverge => rw [w4] at hk; cases hk
  cases hi : cb.iface with
  | some i =>
    simp only [newClient, hi]
    refine wrap (newUDPDataLink f i (if cb.port = 0 then 0xBAC0 else cb.port))
      (newUDPDataLink (fun _ => true) i (if cb.port = 0 then 0xBAC0 else cb.port)) (fun r => match r with
        | .ok (.ok l) => .ok { link := some l, bufSize := bufferSize cb.maxPDU, err := none }
        | .ok (.error e) => .ok { link := none, bufSize := bufferSize cb.maxPDU, err := some e }
        | .panic k => .panic k
        | .diverge => .diverge) (fun _ => rfl) (fun _ => rfl) (fun _ => rfl) rfl ?_
    have := newUDPDataLink_binds f i (if cb.port = 0 then 0xBAC0 else cb.port)
    rw [port_twice] at this
    simp only [boundPort, hi]
    exact this
  | none =>
    simp only [newClient, hi]
    refine wrap (newUDPDataLinkFromIP f cb.host (if cb.port = 0 then 0xBAC0 else cb.port) cb.subnet)
      (newUDPDataLinkFromIP (fun _ => true) cb.host (if cb.port = 0 then 0xBAC0 else cb.port) cb.subnet) (fun r => match r with
        | .ok (.ok l) => .ok { link := some l, bufSize := bufferSize cb.maxPDU, err := none }
        | .ok (.error e) => .ok { link := none, bufSize := bufferSize cb.maxPDU, err := some e }
        | .panic k => .panic k
        | .diverge => .diverge) (fun _ => rfl) (fun _ => rfl) (fun _ => rfl) rfl ?_
    simp only [boundPort, hi]
    exact dataLink_binds f cb.host _ cb.subnet

theorem taken_iff (s : State) (p : Int) : s.taken p = true ↔ ∃ c, C139_Open s c p := by
  unfold State.taken C139_Open
  rw [List.contains_iff_mem, List.mem_iff_getElem?]

theorem gets_fresh {sys : Int → Bool} {s : State} {p q : Int} (h : s.Gets sys p q) (c : Nat) : ¬ C139_Open s c q := by
  intro ho
  obtain ⟨h0, hf, _⟩ := h
  unfold State.free at hf
  rw [(taken_iff s q).2 ⟨c, ho⟩] at hf
  simp [h0] at hf

/-- What is known exists. -/
structure ProcInv (s : State) : Prop where
  known : ∀ r, s.known r = true → r < s.nets.length
  store : ∀ key r, s.store key = some r → r < s.nets.length
  nets : ∀ (r c : Nat), s.nets[r]? = some (some c) → c < s.clients.length
  ports : ∀ c c' p, C139_Open s c p → C139_Open s c' p → c = c'
  real : ∀ c, ¬ C139_Open s c 0

theorem open_lt {s : State} {c : Nat} {p : Int} (h : C139_Open s c p) : c < s.clients.length := by
  by_contra hc
  rw [C139_Open, List.getElem?_eq_none (by omega)] at h
  cases h

theorem open_snoc {l : List (Option Int)} {q p : Int} {c : Nat} (h : (l ++ [some q])[c]? = some (some p)) :
    l[c]? = some (some p) ∨ (c = l.length ∧ p = q) := by
  rw [List.getElem?_append] at h
  split at h
  · exact Or.inl h
  · rw [List.getElem?_singleton] at h
    split at h
    · cases h; exact Or.inr ⟨by omega, rfl⟩
    · cases h

theorem ports_snoc {sys : Int → Bool} {s : State} (hi : ProcInv s) {p q : Int} (hq : s.Gets sys p q) (k k' : Nat) (x : Int)
    (h : (s.clients ++ [some q])[k]? = some (some x)) (h' : (s.clients ++ [some q])[k']? = some (some x)) : k = k' := by
  rcases open_snoc h with h1 | ⟨e1, e2⟩ <;> rcases open_snoc h' with h2 | ⟨e3, e4⟩
  · exact hi.ports k k' x h1 h2
  · rw [e4] at h1; exact absurd h1 (gets_fresh hq k)
  · rw [e2] at h2; exact absurd h2 (gets_fresh hq k')
  · omega

theorem real_snoc {sys : Int → Bool} {s : State} (hi : ProcInv s) {p q : Int} (hq : s.Gets sys p q) (k : Nat)
    (h : (s.clients ++ [some q])[k]? = some (some 0)) : False := by
  rcases open_snoc h with h | ⟨_, e⟩
  · exact hi.real k h
  · exact hq.1 e.symm

theorem inv_step {sys : Int → Bool} {s s' : State} (hi : ProcInv s) (st : Process.Step sys s s') : ProcInv s' := by
  have hset : ∀ (r x c : Nat), (s.nets.set r (some x))[c]? = some (some x) ∨ (s.nets.set r (some x))[c]? = s.nets[c]? := by
    intro r x c
    rw [List.getElem?_set]
    split
    · split
      · exact Or.inl rfl
      · rename_i h1 h2
        exact Or.inr (by rw [List.getElem?_eq_none (by omega)])
    · exact Or.inr rfl
  have hadd : ∀ (x : Option Nat) (c y : Nat), (s.nets ++ [x])[c]? = some (some y) → s.nets[c]? = some (some y) ∨ x = some y := by
    intro x c y h
    rw [List.getElem?_append] at h
    split at h
    · exact Or.inl h
    · rw [List.getElem?_singleton] at h
      split at h
      · cases h; exact Or.inr rfl
      · cases h
  cases st with
  | alloc =>
    refine ⟨fun r h => ?_, fun k r h => ?_, fun r c h => ?_, hi.ports, hi.real⟩
    · simp only [Bool.or_eq_true, beq_iff_eq] at h
      simp only [List.length_append, List.length_singleton]
      rcases h with h | h
      · have := hi.known r h; omega
      · omega
    · have := hi.store k r h
      simp only [List.length_append, List.length_singleton]; omega
    · rcases hadd _ _ _ h with h | h
      · exact hi.nets r c h
      · cases h
  | new r cb key o l q hr hn hl hq =>
    refine ⟨fun r h => by rw [List.length_set]; exact hi.known r h, fun k x h => ?_, fun x c h => ?_, ports_snoc hi hq, real_snoc hi hq⟩
    · rw [List.length_set]
      by_cases e : k = key
      · subst e
        simp only [Function.update_self] at h
        cases h
        exact hi.known r hr
      · simp only [Function.update_of_ne e] at h
        exact hi.store k x h
    · simp only [List.length_append, List.length_singleton]
      rcases hset r s.clients.length x with e | e
      · rw [e] at h; cases h; omega
      · rw [e] at h; have := hi.nets x c h; omega
  | newNoStore r cb o l q hr hn hl hq =>
    refine ⟨fun r h => by rw [List.length_set]; exact hi.known r h, fun k x h => by rw [List.length_set]; exact hi.store k x h,
      fun x c h => ?_, ports_snoc hi hq, real_snoc hi hq⟩
    simp only [List.length_append, List.length_singleton]
    rcases hset r s.clients.length x with e | e
    · rw [e] at h; cases h; omega
    · rw [e] at h; have := hi.nets x c h; omega
  | storeNew cb key o l q hn hl hq =>
    refine ⟨fun r h => ?_, fun k x h => ?_, fun x c h => ?_, ports_snoc hi hq, real_snoc hi hq⟩
    · have := hi.known r h
      simp only [List.length_append, List.length_singleton]; omega
    · simp only [List.length_append, List.length_singleton]
      by_cases e : k = key
      · subst e
        simp only [Function.update_self] at h
        cases h
        omega
      · simp only [Function.update_of_ne e] at h
        have := hi.store k x h
        omega
    · simp only [List.length_append, List.length_singleton]
      rcases hadd _ _ _ h with h | h
      · have := hi.nets x c h; omega
      · cases h; omega
  | storeNewNoStore cb o l q hn hl hq =>
    refine ⟨fun r h => ?_, fun k x h => ?_, fun x c h => ?_, ports_snoc hi hq, real_snoc hi hq⟩
    · have := hi.known r h
      simp only [List.length_append, List.length_singleton]; omega
    · have := hi.store k x h
      simp only [List.length_append, List.length_singleton]; omega
    · simp only [List.length_append, List.length_singleton]
      rcases hadd _ _ _ h with h | h
      · have := hi.nets x c h; omega
      · cases h; omega
  | newPanic cb k q hn hq =>
    refine ⟨hi.known, hi.store, fun x c h => ?_, ports_snoc hi hq, real_snoc hi hq⟩
    simp only [List.length_append, List.length_singleton]
    have := hi.nets x c h; omega
  | get key r h =>
    refine ⟨fun x hx => ?_, hi.store, hi.nets, hi.ports, hi.real⟩
    simp only [Bool.or_eq_true, beq_iff_eq] at hx
    rcases hx with hx | rfl
    · exact hi.known x hx
    · exact hi.store key x h
  | device key =>
    refine ⟨hi.known, fun k x h => ?_, hi.nets, hi.ports, hi.real⟩
    by_cases e : k = key
    · subst e
      simp only [Function.update_self] at h
      cases h
    · simp only [Function.update_of_ne e] at h
      exact hi.store k x h
  | close r c hr hc =>
    have hs : ∀ (k : Nat) (x : Int), (s.clients.set c none)[k]? = some (some x) → s.clients[k]? = some (some x) := by
      intro k x h
      rw [List.getElem?_set] at h
      split at h
      · split at h <;> cases h
      · exact h
    refine ⟨hi.known, hi.store, fun x k h => by rw [List.length_set]; exact hi.nets x k h, fun k k' x h h' => ?_, fun k h => ?_⟩
    · exact hi.ports k k' x (hs _ _ h) (hs _ _ h')
    · exact hi.real k (hs _ _ h)
  | forget r =>
    refine ⟨fun x hx => ?_, hi.store, hi.nets, hi.ports, hi.real⟩
    by_cases e : x = r
    · subst e
      simp only [Function.update_self] at hx
      cases hx
    · simp only [Function.update_of_ne e] at hx
      exact hi.known x hx

theorem inv_steps {sys : Int → Bool} {s s' : State} (hi : ProcInv s) (st : Relation.ReflTransGen (Process.Step sys) s s') : ProcInv s' := by
  induction st with
  | refl => exact hi
  | tail _ st ih => exact inv_step ih st

theorem inv_proc {sys : Int → Bool} {s : State} (h : Process.Reach sys s) : ProcInv s :=
  inv_steps ⟨fun r h => (by cases h), fun k r h => (by cases h), fun r c h => (by simp at h), fun c c' p h => (by simp [C139_Open] at h),
    fun c h => (by simp [C139_Open] at h)⟩ h

/-! ## C139 What was opened can be closed -/

/-- C139.  Two open clients never have the same port. -/
theorem C139_ports (sys : Int → Bool) (s : State) (h : Process.Reach sys s) (c c' : Nat) (p : Int) (ho : C139_Open s c p)
    (ho' : C139_Open s c' p) : c = c' := (inv_proc h).ports c c' p ho ho'

/-- Once lost, always lost: the socket stays open. -/
theorem lost_step {sys : Int → Bool} {s s' : State} (st : Process.Step sys s s') (c : Nat) (p : Int)
    (ho : C139_Open s c p) (hl : ¬ C139_Held s c) : C139_Open s' c p ∧ ¬ C139_Held s' c := by
  have hlt := open_lt ho
  have hsnoc : ∀ q, (s.clients ++ [some q])[c]? = some (some p) := fun q => by rw [List.getElem?_append_left hlt]; exact ho
  have hset : ∀ r (x : Nat), (s.nets.set r (some s.clients.length))[x]? = some (some c) → s.nets[x]? = some (some c) := by
    intro r x h
    rw [List.getElem?_set] at h
    split at h
    · split at h
      · simp only [Option.some.injEq] at h; omega
      · cases h
    · exact h
  have hadd : ∀ y (x : Nat), (s.nets ++ [y])[x]? = some (some c) → y ≠ some c → s.nets[x]? = some (some c) ∧ x < s.nets.length := by
    intro y x h hy
    rw [List.getElem?_append] at h
    split at h
    · exact ⟨h, by assumption⟩
    · rw [List.getElem?_singleton] at h
      split at h
      · cases h; exact absurd rfl hy
      · cases h
  have hne : some s.clients.length ≠ some c := by simp only [ne_eq, Option.some.injEq]; omega
  cases st with
  | alloc =>
    refine ⟨ho, ?_⟩
    rintro ⟨x, h1, h2⟩
    obtain ⟨h1, h3⟩ := hadd _ _ h1 nofun
    refine hl ⟨x, h1, ?_⟩
    rcases h2 with h2 | h2
    · simp only [Bool.or_eq_true, beq_iff_eq] at h2
      rcases h2 with h2 | h2
      · exact Or.inl h2
      · omega
    · exact Or.inr h2
  | new r cb key o l q hr hn hl' hq =>
    refine ⟨hsnoc q, ?_⟩
    rintro ⟨x, h1, h2⟩
    refine hl ⟨x, hset _ _ h1, ?_⟩
    rcases h2 with h2 | ⟨k, h2⟩
    · exact Or.inl h2
    · by_cases e : k = key
      · subst e
        simp only [Function.update_self] at h2
        cases h2
        exact Or.inl hr
      · simp only [Function.update_of_ne e] at h2
        exact Or.inr ⟨k, h2⟩
  | newNoStore r cb o l q hr hn hl' hq =>
    refine ⟨hsnoc q, ?_⟩
    rintro ⟨x, h1, h2⟩
    exact hl ⟨x, hset _ _ h1, h2⟩
  | storeNew cb key o l q hn hl' hq =>
    refine ⟨hsnoc q, ?_⟩
    rintro ⟨x, h1, h2⟩
    obtain ⟨h1, h3⟩ := hadd _ _ h1 hne
    refine hl ⟨x, h1, ?_⟩
    rcases h2 with h2 | ⟨k, h2⟩
    · exact Or.inl h2
    · by_cases e : k = key
      · subst e
        simp only [Function.update_self] at h2
        cases h2
        omega
      · simp only [Function.update_of_ne e] at h2
        exact Or.inr ⟨k, h2⟩
  | storeNewNoStore cb o l q hn hl' hq =>
    refine ⟨hsnoc q, ?_⟩
    rintro ⟨x, h1, h2⟩
    exact hl ⟨x, (hadd _ _ h1 hne).1, h2⟩
  | newPanic cb k q hn hq =>
    exact ⟨hsnoc q, hl⟩
  | get key r h =>
    refine ⟨ho, ?_⟩
    rintro ⟨x, h1, h2⟩
    refine hl ⟨x, h1, ?_⟩
    rcases h2 with h2 | h2
    · simp only [Bool.or_eq_true, beq_iff_eq] at h2
      rcases h2 with h2 | rfl
      · exact Or.inl h2
      · exact Or.inr ⟨key, h⟩
    · exact Or.inr h2
  | device key =>
    refine ⟨ho, ?_⟩
    rintro ⟨x, h1, h2⟩
    refine hl ⟨x, h1, ?_⟩
    rcases h2 with h2 | ⟨k, h2⟩
    · exact Or.inl h2
    · by_cases e : k = key
      · subst e
        simp only [Function.update_self] at h2
        cases h2
      · simp only [Function.update_of_ne e] at h2
        exact Or.inr ⟨k, h2⟩
  | close r c' hr hc =>
    refine ⟨?_, hl⟩
    have : c' ≠ c := by rintro rfl; exact hl ⟨r, hc, Or.inl hr⟩
    show (s.clients.set c' none)[c]? = _
    rw [List.getElem?_set_ne this]
    exact ho
  | forget r =>
    refine ⟨ho, ?_⟩
    rintro ⟨x, h1, h2⟩
    refine hl ⟨x, h1, ?_⟩
    rcases h2 with h2 | h2
    · by_cases e : x = r
      · subst e
        simp only [Function.update_self] at h2
        cases h2
      · simp only [Function.update_of_ne e] at h2
        exact Or.inl h2
    · exact Or.inr h2

theorem lost_steps {sys : Int → Bool} {s s' : State} (st : Relation.ReflTransGen (Process.Step sys) s s') (c : Nat)
    (p : Int) (ho : C139_Open s c p) (hl : ¬ C139_Held s c) : C139_Open s' c p ∧ ¬ C139_Held s' c := by
  induction st with
  | refl => exact ⟨ho, hl⟩
  | tail p1 st ih => exact lost_step st c p ih.1 ih.2

/-- C139, exactly: the program can close an open client if and only if it has a pointer to a network with it, or the store
has. -/
theorem C139_exact (sys : Int → Bool) (s : State) (c : Nat) (p : Int) (ho : C139_Open s c p) :
    (∃ s', Relation.ReflTransGen (Process.Step sys) s s' ∧ s'.clients[c]? = some none) ↔ C139_Held s c := by
  constructor
  · rintro ⟨s', st, hc⟩
    by_contra hl
    have := (lost_steps st c p ho hl).1
    rw [C139_Open, hc] at this
    cases this
  · rintro ⟨r, hr, hk | ⟨key, hk⟩⟩
    · exact ⟨_, .single (.close s r c hk hr), by simp [open_lt ho]⟩
    · refine ⟨_, .tail (.single (.get s key r hk)) (.close _ r c (by simp) hr), ?_⟩
      simp [open_lt ho]

/-- C139 (partial).  Closing a network frees its port for any other network. -/
theorem C139_partial (sys : Int → Bool) (s s' : State) (h : Process.Reach sys s) (c : Nat) (p : Int) (ho : C139_Open s c p)
    (hs : sys p = true) (hc : s'.clients = s.clients.set c none) (cb : Config) (hb : boundPort cb = p) :
    newClient (s'.free sys) cb = newClient (fun _ => true) cb := by
  refine (newClient_free _ cb).1 ?_
  rw [hb]
  have : s'.taken p = false := by
    cases e : s'.taken p with
    | false => rfl
    | true =>
      obtain ⟨k, hk⟩ := (taken_iff _ _).1 e
      rw [C139_Open, hc, List.getElem?_set] at hk
      split at hk
      · split at hk <;> cases hk
      · have := C139_ports sys s h c k p ho hk
        omega
  simp [State.free, this, hs]

/-- C139 fails.  `NewNetwork` of a store without handler reports an error, but leaves the port taken: whatever the program
does later, no client can be opened on it. -/
theorem C139_fails (sys : Int → Bool) (s : State) (h : Process.Reach sys s) (cb : Config) (o : Opened) (l : Link) (q : Int)
    (hn : newClient (s.free sys) cb = .ok o) (hl : o.link = some l) (hq : s.Gets sys l.listen q) :
    ∃ s', Process.Step sys s s' ∧ C139_Open s' s.clients.length q ∧ s'.store = s.store ∧ s'.known = s.known ∧
      ∀ t, Relation.ReflTransGen (Process.Step sys) s' t → C139_Open t s.clients.length q ∧
        ∀ cb', boundPort cb' = q → ∀ o', newClient (t.free sys) cb' = .ok o' → o'.link = none := by
  have hi := inv_proc h
  have st : Process.Step sys s _ := .storeNewNoStore s cb o l q hn hl hq
  refine ⟨_, st, by simp [C139_Open], rfl, rfl, fun t p => ?_⟩
  have hlost := lost_steps p s.clients.length q (by simp [C139_Open]) (by
    rintro ⟨r, h1, h2⟩
    rw [List.getElem?_append] at h1
    split at h1
    · have := hi.nets _ _ h1; omega
    · rcases h2 with h2 | ⟨k, h2⟩
      · have := hi.known _ h2; omega
      · have := hi.store _ _ h2; omega)
  refine ⟨hlost.1, fun cb' hb o' ho' => ?_⟩
  cases e : o'.link with
  | none => rfl
  | some l' =>
    have := ((newClient_free (t.free sys) cb').2.1 o' l' ho' e).2
    rw [hb] at this
    simp [State.free, (taken_iff t q).2 ⟨_, hlost.1⟩, hq.1] at this

/-- C139 fails.  So does `NewNetwork` under a key of the store whose network the program has no other pointer to: the
client of that network stays open for ever. -/
theorem C139_fails_key (sys : Int → Bool) (s : State) (h : Process.Reach sys s) (key : List Nat) (c : Nat) (p : Int)
    (ho : C139_Open s c p)
    (hu : ∀ r', s.nets[r']? = some (some c) → s.known r' = false ∧ ∀ k, s.store k = some r' → k = key)
    (cb : Config) (o : Opened) (l : Link) (q : Int)
    (hn : newClient (s.free sys) cb = .ok o) (hl : o.link = some l) (hq : s.Gets sys l.listen q) :
    ∃ s', Process.Step sys s s' ∧ (∃ r', s'.store key = some r' ∧ s'.nets[r']? = some (some s.clients.length)) ∧
      C139_Open s' s.clients.length q ∧
      ∀ t, Relation.ReflTransGen (Process.Step sys) s' t → C139_Open t c p := by
  have hi := inv_proc h
  have hlt := open_lt ho
  have st : Process.Step sys s _ := .storeNew s cb key o l q hn hl hq
  refine ⟨_, st, ⟨s.nets.length, by simp, by simp⟩, by simp [C139_Open], fun t pt => (lost_steps pt c p ?_ ?_).1⟩
  · show (s.clients ++ [some q])[c]? = _
    rw [List.getElem?_append_left hlt]; exact ho
  · rintro ⟨x, h1, h2⟩
    rw [List.getElem?_append] at h1
    split at h1
    · obtain ⟨h3, h4⟩ := hu x h1
      rcases h2 with h2 | ⟨k, h2⟩
      · have : s.known x = true := h2
        rw [h3] at this; cases this
      · by_cases e : k = key
        · subst e
          simp only [Function.update_self] at h2
          cases h2
          omega
        · simp only [Function.update_of_ne e] at h2
          exact e (h4 k h2)
    · rw [List.getElem?_singleton] at h1
      split at h1
      · simp only [Option.some.injEq] at h1; omega
      · cases h1

/-- C139 fails.  So does a second `New` of the same `Network` value: the client it had before can never be closed. -/
theorem C139_fails_again (sys : Int → Bool) (s : State) (h : Process.Reach sys s) (key : List Nat) (r c : Nat) (p : Int)
    (hr : s.known r = true) (ho : C139_Open s c p)
    (hu : ∀ r', s.nets[r']? = some (some c) → r' = r)
    (cb : Config) (o : Opened) (l : Link) (q : Int)
    (hn : newClient (s.free sys) cb = .ok o) (hl : o.link = some l) (hq : s.Gets sys l.listen q) :
    ∃ s', Process.Step sys s s' ∧ s'.nets[r]? = some (some s.clients.length) ∧
      ∀ t, Relation.ReflTransGen (Process.Step sys) s' t → C139_Open t c p := by
  have hi := inv_proc h
  have hlt := open_lt ho
  have st : Process.Step sys s _ := .new s r cb key o l q hr hn hl hq
  refine ⟨_, st, by simp [hi.known r hr], fun t pt => (lost_steps pt c p ?_ ?_).1⟩
  · show (s.clients ++ [some q])[c]? = _
    rw [List.getElem?_append_left hlt]; exact ho
  · rintro ⟨x, h1, h2⟩
    rw [List.getElem?_set] at h1
    split at h1
    · split at h1
      · simp only [Option.some.injEq] at h1; omega
      · cases h1
    · rename_i hne
      exact hne (hu x h1).symm

/-- C139 fails.  So does a panic of `NewClient`, which comes after the socket was opened: a program that recovers from it
has lost the port. -/
theorem C139_fails_panic (sys : Int → Bool) (s : State) (h : Process.Reach sys s) (cb : Config) (k : PanicKind) (q : Int)
    (hn : newClient (s.free sys) cb = .panic k) (hq : s.Gets sys (boundPort cb) q) :
    ∃ s', Process.Step sys s s' ∧ ∀ t, Relation.ReflTransGen (Process.Step sys) s' t → C139_Open t s.clients.length q := by
  have hi := inv_proc h
  refine ⟨_, .newPanic s cb k q hn hq, fun t pt => (lost_steps pt s.clients.length q (by simp [C139_Open]) ?_).1⟩
  rintro ⟨r, h1, _⟩
  have : s.nets[r]? = some (some s.clients.length) := h1
  have := hi.nets _ _ this
  omega

/-! ## C140 Networks on different interfaces -/

/-- C140 fails.  While a client is open, no client can be opened with the same port on any other interface or address. -/
theorem C140_fails (sys : Int → Bool) (s : State) (h : Process.Reach sys s) (c : Nat) (p : Int) (ho : C139_Open s c p)
    (cb : Config) (hb : boundPort cb = p) (o : Opened) (hn : newClient (s.free sys) cb = .ok o) : o.link = none := by
  cases e : o.link with
  | none => rfl
  | some l =>
    have := ((newClient_free (s.free sys) cb).2.1 o l hn e).2
    have h0 : p ≠ 0 := by rintro rfl; exact (inv_proc h).real c ho
    rw [hb] at this
    simp [State.free, (taken_iff s p).2 ⟨c, ho⟩, h0] at this

/-- C140 (partial), exactly: the networks that are open matter for opening one more only by their ports.  With a port that none
of them has it is opened as if it were the first. -/
theorem C140_partial (sys : Int → Bool) (s : State) (cb : Config) (hs : sys (boundPort cb) = true)
    (hf : ∀ c, ¬ C139_Open s c (boundPort cb)) : newClient (s.free sys) cb = newClient (fun _ => true) cb := by
  refine (newClient_free _ cb).1 ?_
  have : s.taken (boundPort cb) = false := by
    cases e : s.taken (boundPort cb) with
    | false => rfl
    | true => obtain ⟨k, hk⟩ := (taken_iff _ _).1 e; exact absurd hk (hf k)
  simp [State.free, this, hs]

/-! ## Examples -/

/-- A process that has opened 192.168.1.10/24 with the standard port, with `NewNetwork` under the key "a". -/
theorem C139_one : ∃ s, Process.Reach (fun _ => true) s ∧ C139_Open s 0 47808 ∧ s.store [97] = some 0 ∧ s.nets = [some 0] ∧
    s.known = (fun _ => false) ∧ s.clients = [some 47808] ∧ ∀ k r, s.store k = some r → k = [97] := by
  refine ⟨_, .single (.storeNew {} { iface := some (.cidr (.v4 192 168 1 10) 24) } [97] _ _ 47808 rfl rfl ⟨by decide, rfl, fun _ => rfl⟩),
    rfl, by simp, rfl, rfl, rfl, fun k r h => ?_⟩
  by_cases e : k = [97]
  · exact e
  · simp only [Function.update_of_ne e] at h
    cases h

/-- It can be closed: the store has it. -/
example : ∃ s s', Process.Reach (fun _ => true) s ∧ C139_Open s 0 47808 ∧ Relation.ReflTransGen (Process.Step fun _ => true) s s' ∧
    s'.clients[0]? = some none := by
  obtain ⟨s, h, ho, hk, hn, _⟩ := C139_one
  obtain ⟨s', p, hc⟩ := (C139_exact (fun _ => true) s 0 47808 ho).2 ⟨0, by rw [hn]; rfl, Or.inr ⟨_, hk⟩⟩
  exact ⟨s, s', h, ho, p, hc⟩

/-- An IPv6 address: `NewClient` crashes, and port 47808 is taken from then on. -/
example : ∃ s, Process.Step (fun _ => true) {} s ∧
    ∀ t, Relation.ReflTransGen (Process.Step fun _ => true) s t → C139_Open t 0 47808 :=
  C139_fails_panic (fun _ => true) {} .refl { iface := some (.cidr (.v6 [0xfe, 0x80, 0, 0, 0, 0, 0, 0, 0, 0, 0, 0, 0, 0, 0, 1]) 64) }
    _ 47808 rfl ⟨by decide, rfl, fun _ => rfl⟩

/-- The second interface of the machine, with the same port, cannot be opened. -/
example : ∃ s, Process.Reach (fun _ => true) s ∧
    newClient (s.free fun _ => true) { iface := some (.cidr (.v4 10 0 0 1) 8) } = .ok ⟨none, 1476, some .listen⟩ := by
  obtain ⟨s, h, _, _, _, _, hc, _⟩ := C139_one
  refine ⟨s, h, ?_⟩
  rw [show s.free (fun _ => true) = fun p => p == 0 || !([some (47808 : Int)].contains (some p)) from by
    funext p; simp [State.free, State.taken, hc]]
  rfl

/-- With another port it can, and under the key "a" the first network is lost. -/
example : ∃ s, Process.Reach (fun _ => true) s ∧ C139_Open s 1 47809 ∧
    ∀ t, Relation.ReflTransGen (Process.Step fun _ => true) s t → C139_Open t 0 47808 := by
  obtain ⟨s, h, ho, hk, hn, hkn, hc, hu⟩ := C139_one
  have hfree : s.free (fun _ => true) = fun p => p == 0 || !([some (47808 : Int)].contains (some p)) := by
    funext p; simp [State.free, State.taken, hc]
  obtain ⟨s', st, _, ho', hall⟩ := C139_fails_key _ s h [97] 0 47808 ho
    (fun r' hr' => ⟨by rw [hkn], fun k hk => hu k _ hk⟩) { iface := some (.cidr (.v4 10 0 0 1) 8), port := 47809 } _ _ 47809
    (by rw [hfree]; rfl) rfl ⟨by decide, by rw [hfree]; rfl, fun _ => rfl⟩
  rw [hc] at ho'
  exact ⟨s', h.tail st, ho', hall⟩

end Bac.Props
