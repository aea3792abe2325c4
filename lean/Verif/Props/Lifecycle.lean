import Verif.Lemmas.Lifecycle
import Verif.Props.WriteCmd
import Verif.Props.DataLink
/-!
# C129–C133: closing a client, its receive loops; the commands read, whois, write and multi
-/

namespace Bac.Props

open Life

section
variable {δ : Type}

/-! ## C129 A client that was closed is closed -/

/-- C129, for `Close` and `ClientClose(false)`: afterwards no datagram is handed over, the socket
is closed, and when nothing is left to do and no receive loop was started anew, none is left.
Missing: `ClientClose(true)`, see `C129_fails`. -/
theorem C129_partial (o : Opened) {tr1 tr2 : List (Label δ)} {t : State δ}
    (h : Exec (start δ o) (tr1 ++ .close false :: tr2) t) :
    (∀ d, .handle d ∉ tr2) ∧ t.sock = false ∧
    ((∀ t', ¬ Life.Step t .exit t') → t.loops = 0) := by
  obtain ⟨u, h1, h2⟩ := h.split tr1 (.close false :: tr2) rfl
  obtain ⟨v, h3, h4⟩ := h2.split [.close false] tr2 rfl
  have hv : v.sock = false := by
    have := h3.one
    cases this
    rfl
  obtain ⟨c1, c2, _⟩ := closed_exec h4 hv
  refine ⟨c2, c1, fun hx => ?_⟩
  rcases hl : o.link with _ | l
  · exact (no_link h (by simp [start, hl]) rfl (by simp [start, hl])).1
  · have hc := ((loops_exec h).2 (by simp [start, hl])).2
    rcases Nat.eq_zero_or_pos t.loops with h0 | h0
    · exact h0
    · exact absurd (.exit t hc c1 h0) (hx _)

/-- C129: a closed client does at most as many steps as there were loops, unless it is used again:
every receive loop that was started ends with one error or with one exit. -/
theorem C129_bounded (o : Opened) {tr1 tr2 : List (Label δ)} {t : State δ} (hl : o.link.isSome)
    (h : Exec (start δ o) (tr1 ++ .close false :: tr2) t) (hr : .run ∉ tr2) :
    tr2.countP Label.isExit ≤ tr1.countP Label.isRun := by
  have := (loops_exec h).2 hl
  simp only [List.countP_append, List.countP_cons] at this
  have h0 : tr2.countP Label.isRun = 0 := by
    rw [List.countP_eq_zero]
    intro x hx hm
    cases x <;> first | exact hr hx | cases hm
  have e : (start δ o).loops = 0 := rfl
  simp only [h0, e] at this
  simp [Label.isRun, Label.isError, Label.isExit] at this
  omega

/-- C129 fails: `ClientClose(true)` does not close the client.  However often it is called, without
`ClientClose(false)` the socket stays open. -/
theorem C129_fails (o : Opened) {tr : List (Label δ)} {t : State δ} (h : Exec (start δ o) tr t) (hc : .close false ∉ tr) :
    t.sock = o.link.isSome := open_exec h hc

/-- C129 fails: a datagram that arrives after `ClientClose(true)` is handed over. -/
theorem C129_fails_handled (o : Opened) (hl : o.link.isSome) (d : δ) :
    ∃ t, Exec (start δ o) [.run, .close true, .arrive d, .handle d] t ∧ t.handled = [d] := by
  have h1 : Exec (start δ o) [.run] { start δ o with loops := 1 } := .snoc .nil (.run _ rfl hl)
  have h2 := h1.snoc (.closeLogs _ rfl)
  have h3 := h2.snoc (.arrive _ d rfl hl)
  exact ⟨_, h3.snoc (.handle _ d [] rfl hl (Nat.lt_succ_self 0) rfl), rfl⟩

/-- C129 fails: what `ClientClose(true)` closes is the standard error output of the process. -/
theorem C129_fails_stderr (o : Opened) {tr : List (Label δ)} {t : State δ} (h : Exec (start δ o) tr t) :
    t.stderr = false ↔ .close true ∈ tr := by
  rw [stderr_exec h]
  simp [start]

/-- Two receive loops, a datagram, then the client is closed: both loops end. -/
example : ∃ t : State Nat, Exec (start Nat ⟨some ⟨47808, {}, {}⟩, 1476, none⟩)
    ([.run, .run, .arrive 7, .handle 7] ++ .close false :: [.exit, .exit]) t ∧ t.loops = 0 ∧ t.handled = [7] := by
  have h1 : Exec (start Nat ⟨some ⟨47808, {}, {}⟩, 1476, none⟩) [.run] ⟨true, true, true, 1, [], [], false⟩ := .snoc .nil (.run _ rfl rfl)
  have h2 := h1.snoc (.run _ rfl rfl)
  have h3 := h2.snoc (.arrive _ 7 rfl rfl)
  have h4 := h3.snoc (.handle _ 7 [] rfl rfl (by decide) rfl)
  have h5 := h4.snoc (.close _ rfl)
  have h6 := h5.snoc (.exit _ rfl rfl (by decide))
  exact ⟨_, h6.snoc (.exit _ rfl rfl (by decide)), rfl, rfl⟩

/-! ## C130 The receive loops of a client -/

/-- The datagrams that arrived, and those handed over, oldest first. -/
def C130_arrived (tr : List (Label δ)) : List δ :=
  tr.filterMap fun l => match l with | .arrive d => some d | _ => none

def C130_handled (tr : List (Label δ)) : List δ :=
  tr.filterMap fun l => match l with | .handle d => some d | _ => none

/-- C130: however many receive loops there are, as long as the client is not closed the datagrams
are handed over once each, in the order in which they arrived; the others wait. -/
theorem C130_once (o : Opened) {tr : List (Label δ)} {t : State δ} (h : Exec (start δ o) tr t) :
    t.handled = C130_handled tr ∧ (.close false ∉ tr → C130_arrived tr = C130_handled tr ++ t.queue) := by
  induction h with
  | nil => exact ⟨rfl, fun _ => rfl⟩
  | snoc _ st ih =>
    obtain ⟨i1, i2⟩ := ih
    have e1 : ∀ (a b : List (Label δ)), C130_arrived (a ++ b) = C130_arrived a ++ C130_arrived b := fun a b => List.filterMap_append
    have e2 : ∀ (a b : List (Label δ)), C130_handled (a ++ b) = C130_handled a ++ C130_handled b := fun a b => List.filterMap_append
    rw [e1, e2]
    cases st with
    | handle d q hc hs hl hq =>
      refine ⟨by simp [i1, C130_handled], fun hc' => ?_⟩
      rw [i2 (fun hx => hc' (List.mem_append_left _ hx)), hq]
      simp [C130_arrived, C130_handled]
    | arrive d hc hs =>
      refine ⟨by simp [i1, C130_handled], fun hc' => ?_⟩
      rw [i2 (fun hx => hc' (List.mem_append_left _ hx))]
      simp [C130_arrived, C130_handled]
    | close hc => exact ⟨by simp [i1, C130_handled], fun hc' => absurd (List.mem_append_right _ (List.mem_singleton.2 rfl)) hc'⟩
    | run | crash | error | exit | closeLogs =>
      refine ⟨by simp [i1, C130_handled], fun hc' => ?_⟩
      rw [i2 (fun hx => hc' (List.mem_append_left _ hx))]
      simp [C130_arrived, C130_handled]

/-- C130: a waiting datagram can be handed over exactly as long as more receive loops were started
than have ended with an error. -/
theorem C130_hears (o : Opened) (hl : o.link.isSome) {tr : List (Label δ)} {t : State δ} (h : Exec (start δ o) tr t)
    (hc : .close false ∉ tr) (d : δ) (q : List δ) (hq : t.queue = d :: q) :
    (∃ t', Life.Step t (.handle d) t') ↔ tr.countP Label.isError < tr.countP Label.isRun := by
  have hs : t.sock = true := (open_exec h hc).trans hl
  obtain ⟨n1, n2⟩ := (loops_exec h).2 hl
  have e0 : (start δ o).loops = 0 := rfl
  have hx : tr.countP Label.isExit = 0 := by
    rw [List.countP_eq_zero]
    intro x hx hm
    cases x <;> try cases hm
    obtain ⟨a, b, rfl⟩ := List.append_of_mem hx
    obtain ⟨u, h1, h2⟩ := h.split a (.exit :: b) rfl
    obtain ⟨v, h3, _⟩ := h2.split [.exit] b rfl
    have hu : u.sock = true := (open_exec h1 (fun hx => hc (List.mem_append_left _ hx))).trans hl
    have := h3.one
    cases this with
    | exit hc' hs' => rw [hu] at hs'; cases hs'
  rw [e0, hx] at n1
  constructor
  · rintro ⟨t', st⟩
    cases st with
    | handle q' hc' hs' hl' => omega
  · intro hlt
    exact ⟨_, .handle t d q (n2.trans rfl) hs (by omega) hq⟩

/-- C130 fails: a client has no single receive loop.  Every `Whois` and `NetworkDiscover` of package
network starts another one, which stays until the client is closed. -/
theorem C130_fails (o : Opened) (hl : o.link.isSome) (n : Nat) :
    ∃ t, Exec (start δ o) (List.replicate n .run) t ∧ t.loops = n := by
  suffices h : ∃ t, Exec (start δ o) (List.replicate n .run) t ∧ t = { start δ o with loops := n } by
    obtain ⟨t, h1, rfl⟩ := h
    exact ⟨_, h1, rfl⟩
  induction n with
  | zero => exact ⟨_, .nil, rfl⟩
  | succ n ih =>
    obtain ⟨t, h1, rfl⟩ := ih
    rw [List.replicate_succ']
    exact ⟨_, h1.snoc (.run _ rfl hl), rfl⟩

/-- Two loops, one of which ends with an error: the datagrams are still handed over, in order. -/
example : ∃ t : State Nat, Exec (start Nat ⟨some ⟨47808, {}, {}⟩, 1476, none⟩)
    [.run, .run, .arrive 7, .error, .arrive 8, .handle 7, .handle 8] t ∧ t.handled = [7, 8] ∧ t.loops = 1 := by
  have h1 : Exec (start Nat ⟨some ⟨47808, {}, {}⟩, 1476, none⟩) [.run] ⟨true, true, true, 1, [], [], false⟩ := .snoc .nil (.run _ rfl rfl)
  have h2 := h1.snoc (.run _ rfl rfl)
  have h3 := h2.snoc (.arrive _ 7 rfl rfl)
  have h4 := h3.snoc (.error _ rfl rfl (by decide))
  have h5 := h4.snoc (.arrive _ 8 rfl rfl)
  have h6 := h5.snoc (.handle _ 7 [8] rfl rfl (by decide) rfl)
  exact ⟨_, h6.snoc (.handle _ 8 [] rfl rfl (by decide) rfl), rfl, rfl⟩

end

/-! ## C131 A command that cannot open its interface says so -/

/-- Interface and port that cannot be opened, and why: the system has no such interface, it has no
IPv4 address, its prefix length is none, or the port is taken. -/
inductive C131_Shut (free : Int → Bool) : Iface → Int → LinkErr → Prop where
  | unknown (port : Int) : C131_Shut free (.named none) port .interface
  | noAddress (addrs : List (Host × Int)) (port : Int) (h : ∀ x ∈ addrs, ∃ o : List UInt8, x.1 = .v6 o ∧ o.length = 16 ∧
      o.take 12 ≠ [0, 0, 0, 0, 0, 0, 0, 0, 0, 0, 0xFF, 0xFF]) : C131_Shut free (.named (some addrs)) port .interface
  | prefixLength (a b c d : UInt8) (p port : Int) (h : p < 0 ∨ 32 < p) : C131_Shut free (.cidr (.v4 a b c d) p) port .cidr
  | taken (a b c d : UInt8) (p : Nat) (hp : p ≤ 32) (port : Nat) (hport : 0 < port ∧ port < 65536)
      (h : free port = false) : C131_Shut free (.cidr (.v4 a b c d) p) port .listen

theorem shut_client {free : Int → Bool} {i : Iface} {port : Int} {e : LinkErr} (h : C131_Shut free i port e) :
    ∃ o, newClient free { iface := some i, port := port } = .ok o ∧ o.link = none ∧ o.err = some e := by
  cases h with
  | unknown => exact ⟨⟨none, _, some .interface⟩, rfl, rfl, rfl⟩
  | noAddress addrs _ h => exact C99_no_address free _ addrs h rfl
  | prefixLength a b c d p _ h =>
    have e : parseCIDR (.v4 a b c d) p = none := if_neg (by omega)
    exact ⟨⟨none, bufferSize 0, some .cidr⟩, by simp only [newClient, newUDPDataLink, dataLink, e], rfl, rfl⟩
  | taken a b c d p hp port hport h =>
    have e : ∃ m, parseCIDR (.v4 a b c d) p = some m := ⟨_, if_pos (by omega)⟩
    obtain ⟨m, e⟩ := e
    have h0 : ¬ (port : Int) = 0 := by omega
    have er : resolvePort port = port := if_pos (by omega)
    exact ⟨⟨none, bufferSize 0, some .listen⟩, by simp only [newClient, newUDPDataLink, dataLink, e, if_neg h0, er, h, Bool.false_eq_true, if_false], rfl, rfl⟩

/-- C131, for the commands read and whois: the error is printed and nothing is sent.
Missing: write and multi, see `C131_fails`. -/
theorem C131_partial {α : Type} {free : Int → Bool} {i : Iface} {port : Int} {e : LinkErr} (h : C131_Shut free i port e)
    (rest : Network → List Sent × Outcome (CommandEnd α)) :
    networkCommand free i port rest = ([], .ok (.reported (.inl e))) := by
  obtain ⟨o, h1, _, h3⟩ := shut_client h
  simp only [networkCommand, openNetwork, h1, h3]

/-- C131 fails: write and multi drop the error and crash with a nil dereference, whatever the flags. -/
theorem C131_fails {free : Int → Bool} {i : Iface} {port : Int} {e : LinkErr} (h : C131_Shut free i port e) (fuel : Nat) :
    (∀ t f rid wid rs ws, runWrite free i port fuel t f rid wid rs ws = ([], .panic .nilDeref)) ∧
    (∀ f ids scripts, runMulti free i port fuel f ids scripts = ([], .panic .nilDeref)) := by
  obtain ⟨o, h1, h2, _⟩ := shut_client h
  constructor
  · intro t f rid wid rs ws
    simp only [runWrite, clientCommand, h1, h2]
  · intro f ids scripts
    simp only [runMulti, clientCommand, h1, h2]

/-- C131 fails, the receive loop: a client without link crashes as soon as it is started. -/
theorem C131_fails_run {δ : Type} {free : Int → Bool} {i : Iface} {port : Int} {e : LinkErr} (h : C131_Shut free i port e) :
    ∃ o, newClient free { iface := some i, port := port } = .ok o ∧
      ∀ (tr : List (Label δ)) (t : State δ), Exec (start δ o) tr t → (t.crashed = true ↔ .run ∈ tr) := by
  obtain ⟨o, h1, h2, _⟩ := shut_client h
  refine ⟨o, h1, fun tr t hx => ?_⟩
  have hl : (start δ o).link = false := by rw [start, h2]; rfl
  have hs : (start δ o).sock = false := by rw [start, h2]; rfl
  induction hx with
  | nil => simp [start]
  | snoc hx st ih =>
    have hn := (no_link hx hl rfl hs).2.2
    cases st <;> simp_all

/-- The interface has only IPv6 addresses; the port is taken. -/
example : C131_Shut (fun _ => true) (.named (some [(.v6 [0xFE, 0x80, 0, 0, 0, 0, 0, 0, 0, 0, 0, 0, 0, 0, 0, 1], 64)])) 47808 .interface ∧
    C131_Shut (fun p => p ≠ 47808) (.cidr (.v4 192 168 15 10) 24) 47808 .listen := by
  refine ⟨.noAddress _ _ ?_, .taken _ _ _ _ 24 (by omega) 47808 (by omega) rfl⟩
  intro x hx
  simp only [List.mem_singleton] at hx
  subst hx
  exact ⟨_, rfl, rfl, by decide⟩

/-! ## C132 The commands read and whois do their work -/

/-- C132 fails: when the interface can be opened, read and whois crash before they send anything,
whatever they were asked to do: the network they make has no store. -/
theorem C132_fails {α : Type} (free : Int → Bool) (a b c d : UInt8) (p : Nat) (hp : p ≤ 32) (port : Nat)
    (hport : 0 < port ∧ port < 65536) (hfree : free port = true)
    (rest : Network → List Sent × Outcome (CommandEnd α)) :
    networkCommand free (.cidr (.v4 a b c d) p) port rest = ([], .panic .nilDeref) := by
  obtain ⟨l, _, _, _, _, h1, _⟩ := C61_broadcast free a b c d p hp port hport hfree
  have h0 : ¬ (port : Int) = 0 := by omega
  simp only [networkCommand, openNetwork, newClient, newUDPDataLink, if_neg h0, h1, newNetwork]

/-- The same for an interface given by name. -/
theorem C132_fails_named {α : Type} (free : Int → Bool) (before after : List (Host × Int)) (a b c d : UInt8) (p : Nat) (hp : p ≤ 32)
    (hv6 : ∀ x ∈ before, ∃ o : List UInt8, x.1 = .v6 o ∧ o.length = 16 ∧
      o.take 12 ≠ [0, 0, 0, 0, 0, 0, 0, 0, 0, 0, 0xFF, 0xFF])
    (port : Nat) (hport : 0 < port ∧ port < 65536) (hfree : free port = true)
    (rest : Network → List Sent × Outcome (CommandEnd α)) :
    networkCommand free (.named (some (before ++ (.v4 a b c d, (p : Int)) :: after))) port rest = ([], .panic .nilDeref) := by
  obtain ⟨o, l, _, _, _, _, h1, h2, h3, _⟩ := C99_interface free
    { iface := some (.named (some (before ++ (.v4 a b c d, (p : Int)) :: after))), port := port } before after hv6 a b c d p hp rfl port hport rfl hfree
  simp only [networkCommand, openNetwork, h1, h3, newNetwork]

/-- Two commands that would do different things do the same. -/
example : networkCommand (fun _ => true) (.cidr (.v4 192 168 15 10) 24) 47808 (fun _ => ([⟨{}, [1]⟩], .ok (.result (.ok 5)))) =
    networkCommand (fun _ => true) (.cidr (.v4 192 168 15 10) 24) 47808 (fun _ => ([], .ok .nothing)) :=
  (C132_fails _ 192 168 15 10 24 (by omega) 47808 (by omega) rfl _).trans
    (C132_fails _ 192 168 15 10 24 (by omega) 47808 (by omega) rfl _).symm

/-! ## C133 The command multi reads what it is made to read -/

/-- The answer of a device to the question for one of its properties. -/
def C133_answer (id : UInt8) (inst prop : Nat) (vs : List Spec.AppVal) : Attempt :=
  ⟨none, .bytes (Spec.complexAck id 12 (Spec.readPropertyAckBody 8 inst ⟨prop, none⟩ (vs.flatMap Spec.AppVal.encoding)))⟩

/-- Name and present value of the analog outputs 1 and 2. -/
def C133_wanted : List Spec.ReadSpec :=
  [⟨1, 1, [⟨77, none⟩]⟩, ⟨1, 1, [⟨85, none⟩]⟩, ⟨1, 2, [⟨77, none⟩]⟩, ⟨1, 2, [⟨85, none⟩]⟩]

/-- The header in front of the requests. -/
def C133_header (f : MultiFlags) : List UInt8 :=
  (Spec.requestHeader (if f.dest.addr.net = 0 then none else some ⟨f.dest.addr.net.toNat, f.dest.addr.adr⟩)).octets

theorem question_valid (f : MultiFlags) (inst : Nat) (hd : f.deviceId = inst) (hi : inst ≤ 4194303) (prop : UInt32)
    (hp : prop.toNat ≤ 4194303) :
    ValidRead (f.question prop) ⟨prop, arrayAll, .one .nil, 0⟩ ∧ (f.question prop).object.id.typ.toNat = 8 ∧
      (f.question prop).object.id.inst.toNat = inst := by
  have e : (UInt32.ofInt f.deviceId).toNat = inst := by have := toNat_ofInt32 f.deviceId; omega
  refine ⟨⟨⟨by show (8 : Nat) < _; decide, ?_⟩, ⟨[], rfl⟩, hp⟩, rfl, e⟩
  show (UInt32.ofInt f.deviceId).toNat < _
  rw [e]; omega

/-- A question that is answered. -/
theorem question_answered (fuel : Nat) (my : Address) (hmy : my.net = 0) (f : MultiFlags) (inst : Nat) (hd : f.deviceId = inst)
    (hi : inst ≤ 4194303) (prop : UInt32) (hp : prop.toNat ≤ 4194303) (m : UInt32) (id : UInt8) (vs : List Spec.AppVal)
    (hvs : ∀ v ∈ vs, C71_Readable v) (hf : vs.length < fuel) (script : Nat → Attempt)
    (hs : script 0 = C133_answer id inst prop.toNat vs) :
    ∃ a ss out, clientReadProperty fuel my { f.dest with maxApdu := m } (f.question prop) (some id) script = ([a], .ok (.ok out)) ∧
      Carries f.dest a (Spec.readProperty id 8 inst ⟨prop.toNat, none⟩) ∧ List.Forall₂ DecodedAs ss vs ∧
      out.object.properties = [⟨prop, arrayAll, if ss.length = 1 then .one ss.head! else .many ss, 0⟩] := by
  obtain ⟨h1, h2, h3⟩ := question_valid f inst hd hi prop hp
  obtain ⟨ss, out, hss, _, hprop, hans⟩ := readAnswer_out fuel id 12 (f.question prop).object.id ⟨prop, arrayAll, .one .nil, 0⟩ vs h1.1 hvs hf
  have href : (⟨prop, arrayAll, .one .nil, 0⟩ : Property).ref = ⟨prop.toNat, none⟩ := rfl
  rw [h2, h3, href] at hans
  refine ⟨_, ss, out, ?_, carries_datagram f.dest (Or.inr rfl) _, hss, hprop⟩
  rw [readProperty_call fuel my _ _ _ id script hmy h1, attempts_done (r := .ok out) (by rw [hs]; rfl) (by
    rw [hs]
    simp only [C133_answer, readStep, hans]
    rfl), h2, h3, href]

/-- A question without answer. -/
theorem question_timeout (fuel : Nat) (my : Address) (hmy : my.net = 0) (f : MultiFlags) (inst : Nat) (hd : f.deviceId = inst)
    (hi : inst ≤ 4194303) (prop : UInt32) (hp : prop.toNat ≤ 4194303) (m : UInt32) (id : UInt8) (script : Nat → Attempt)
    (hs : script 0 = ⟨none, .timeout⟩) :
    ∃ a, clientReadProperty fuel my { f.dest with maxApdu := m } (f.question prop) (some id) script = ([a], .ok (.error .timeout)) ∧
      Carries f.dest a (Spec.readProperty id 8 inst ⟨prop.toNat, none⟩) := by
  obtain ⟨h1, h2, h3⟩ := question_valid f inst hd hi prop hp
  have href : (⟨prop, arrayAll, .one .nil, 0⟩ : Property).ref = ⟨prop.toNat, none⟩ := rfl
  refine ⟨_, ?_, carries_datagram f.dest (Or.inr rfl) _⟩
  rw [readProperty_call fuel my _ _ _ id script hmy h1, attempts_retry (e := .timeout) (by rw [hs]) (by rw [hs]; rfl), h2, h3, href]
  rfl

/-- C133, when the device answers the questions for its limit and for its object list and the limit
is large enough: the three requests go out, octet for octet, and the values of the last answer are
the result.  Missing: other devices, see `C133_fails`. -/
theorem C133_partial (my : Address) (hmy : my.net = 0) (f : MultiFlags) (inst : Nat) (hd : f.deviceId = inst)
    (hi : inst ≤ 4194303) (ids : Nat → Option UInt8) (i0 i1 i2 : UInt8) (h0 : ids 0 = some i0) (h1 : ids 1 = some i1)
    (h2 : ids 2 = some i2) (n : Nat) (hn : n < 2 ^ 32)
    (hfit : (C133_header f).length + (Spec.readMultiple i2 C133_wanted).length ≤ n)
    (list : List Spec.AppVal) (hl : ∀ v ∈ list, C71_Readable v) (rs : List Spec.ObjResult) (hrs : ∀ r ∈ rs, ObjOk r) :
    ∃ out N, List.Forall₂ CarriesObj out rs ∧ ∀ fuel ≥ N, ∀ scripts,
      scripts 0 0 = C133_answer i0 inst 62 [.unsigned n] → scripts 1 0 = C133_answer i1 inst 76 list →
      scripts 2 0 = ⟨none, .bytes (Spec.complexAck i2 14 (rs.flatMap Spec.ObjResult.octets))⟩ →
      ∃ a b c, multiCommand fuel my f ids scripts = ([a, b, c], .ok (.result (.ok out))) ∧
        Carries f.dest a (Spec.readProperty i0 8 inst ⟨62, none⟩) ∧
        Carries f.dest b (Spec.readProperty i1 8 inst ⟨76, none⟩) ∧
        Carries f.dest c (Spec.readMultiple i2 C133_wanted) := by
  obtain ⟨out, hout, N, hN⟩ := C33_complete_partial rs hrs
  refine ⟨out, N + list.length + 2, hout, fun fuel hfuel scripts hs0 hs1 hs2 => ?_⟩
  obtain ⟨a, ss, o1, e1, c1, d1, p1⟩ := question_answered fuel my hmy f inst hd hi 62 (by decide) 0 i0 [.unsigned n]
    (by intro v hv; simp only [List.mem_singleton] at hv; subst hv; exact ⟨hn, trivial⟩) (by simp only [List.length_singleton]; omega) (scripts 0) hs0
  obtain ⟨x, hx, hxn⟩ : ∃ x : UInt32, toUint32 o1 = x ∧ x.toNat = n := by
    cases d1 with
    | cons hd1 hd2 =>
      cases hd2
      obtain ⟨x, rfl, hx⟩ := decoded_unsigned hd1
      exact ⟨x, by unfold toUint32; rw [p1]; rfl, hx⟩
  obtain ⟨b, ss', o2, e2, c2, d2, p2⟩ := question_answered fuel my hmy f inst hd hi 76 (by decide) x i1 list hl (by omega) (scripts 1) hs1
  have hw : multiObjects.map readSpecOf = C133_wanted := rfl
  have hv : ∀ o ∈ multiObjects, C04_Valid o.id := by simp [multiObjects, C04_Valid]
  have hsp := requestOctets_spec f.dest.addr.setLength (by
    rw [setLength_net]; right; unfold Address.setLength; simp [MultiFlags.dest])
  unfold station at hsp
  rw [setLength_net, setLength_adr] at hsp
  have hpack : (readMultiPack { f.dest with maxApdu := x } i2 multiObjects).length ≤ n := by
    unfold readMultiPack
    rw [List.length_append, hw]
    show (requestOctets f.dest.addr.setLength).length + _ ≤ n
    rw [hsp]
    exact hfit
  have hx0 : x ≠ 0 := by
    intro hc
    rw [hc] at hxn
    simp [readMultiPack, Spec.readMultiple, Spec.request, Spec.confirmedHeader] at hpack
    have : (0 : UInt32).toNat = 0 := rfl
    omega
  have hk : ¬ x < UInt32.ofNat (readMultiPack { f.dest with maxApdu := x } i2 multiObjects).length := by
    rw [UInt32.lt_iff_toNat_lt, UInt32.toNat_ofNat_of_lt' (by show _ < 2 ^ 32; omega)]
    omega
  obtain ⟨d', hd'⟩ := hN fuel (by omega) (some 14)
  have e3 : clientReadMulti fuel my { f.dest with maxApdu := x } multiObjects (some i2) (scripts 2) =
      ([datagram f.dest.addr.setLength (requestOctets f.dest.addr.setLength ++ Spec.readMultiple i2 C133_wanted)], .ok (.ok out)) := by
    rw [readMulti_call fuel my _ multiObjects i2 (scripts 2) hmy hv hx0, if_neg hk, attempts_done (r := .ok out) (by rw [hs2]) (by
      rw [hs2]
      simp only [readMultiStep, Spec.complexAck]
      rw [answerHeader_ack 0x30 i2 14 (Or.inl rfl)]
      simp only [Outcome.ok_bind, hd']
      rfl)]
    rfl
  refine ⟨a, b, _, ?_, c1, c2, carries_datagram f.dest (Or.inr rfl) _⟩
  have e1' : clientReadProperty fuel my f.dest (f.question 62) (some i0) (scripts 0) = ([a], .ok (.ok o1)) := e1
  unfold multiCommand
  simp only [h0, h1, h2, e1', hx, e2, e3]
  rfl

/-- C133 fails: the object list is not used, but when the question for it is not answered (a device
with a long list has to refuse it) the command ends without reading anything. -/
theorem C133_fails (my : Address) (hmy : my.net = 0) (f : MultiFlags) (inst : Nat) (hd : f.deviceId = inst)
    (hi : inst ≤ 4194303) (ids : Nat → Option UInt8) (i0 i1 : UInt8) (h0 : ids 0 = some i0) (h1 : ids 1 = some i1)
    (limit : List Spec.AppVal) (hl : ∀ v ∈ limit, C71_Readable v) (fuel : Nat) (hf : limit.length < fuel)
    (scripts : Nat → Nat → Attempt) (hs0 : scripts 0 0 = C133_answer i0 inst 62 limit) (hs1 : scripts 1 0 = ⟨none, .timeout⟩) :
    ∃ a b, multiCommand fuel my f ids scripts = ([a, b], .ok .fatal) ∧
      Carries f.dest a (Spec.readProperty i0 8 inst ⟨62, none⟩) ∧ Carries f.dest b (Spec.readProperty i1 8 inst ⟨76, none⟩) := by
  obtain ⟨a, ss, o1, e1, c1, d1, p1⟩ := question_answered fuel my hmy f inst hd hi 62 (by decide) 0 i0 limit hl hf (scripts 0) hs0
  obtain ⟨b, e2, c2⟩ := question_timeout fuel my hmy f inst hd hi 76 (by decide) (toUint32 o1) i1 (scripts 1) hs1
  have e1' : clientReadProperty fuel my f.dest (f.question 62) (some i0) (scripts 0) = ([a], .ok (.ok o1)) := e1
  refine ⟨a, b, ?_, c1, c2⟩
  unfold multiCommand
  simp only [h0, h1, e1', e2]
  rfl

/-- C133 fails, the limit: when it is not answered with one positive number the limit is taken to be
0 and the values are not asked for. -/
theorem C133_fails_limit (my : Address) (hmy : my.net = 0) (f : MultiFlags) (inst : Nat) (hd : f.deviceId = inst)
    (hi : inst ≤ 4194303) (ids : Nat → Option UInt8) (i0 i1 i2 : UInt8) (h0 : ids 0 = some i0) (h1 : ids 1 = some i1) (h2 : ids 2 = some i2)
    (limit list : List Spec.AppVal) (hl : ∀ v ∈ limit, C71_Readable v) (hl' : ∀ v ∈ list, C71_Readable v)
    (hw : ∀ n, 0 < n → limit ≠ [.unsigned n] ∧ limit ≠ [.enum n])
    (fuel : Nat) (hf : limit.length < fuel) (hf' : list.length < fuel) (scripts : Nat → Nat → Attempt)
    (hs0 : scripts 0 0 = C133_answer i0 inst 62 limit) (hs1 : scripts 1 0 = C133_answer i1 inst 76 list) :
    ∃ a b r, multiCommand fuel my f ids scripts = ([a, b], .ok (.result (.error r))) ∧
      Carries f.dest a (Spec.readProperty i0 8 inst ⟨62, none⟩) ∧ Carries f.dest b (Spec.readProperty i1 8 inst ⟨76, none⟩) := by
  obtain ⟨a, ss, o1, e1, c1, d1, p1⟩ := question_answered fuel my hmy f inst hd hi 62 (by decide) 0 i0 limit hl hf (scripts 0) hs0
  have hz : toUint32 o1 = 0 := by
    unfold toUint32
    rw [p1]
    by_cases h : ss.length = 1
    · obtain ⟨s, rfl⟩ := List.length_eq_one_iff.1 h
      cases d1 with
      | cons hd1 hd2 =>
        cases hd2
        rename_i v
        cases s
        case uint x =>
          show x = 0
          apply UInt32.toNat_inj.1
          show x.toNat = 0
          have hm := hd1.1
          cases v <;> simp only [Spec.Means, reduceCtorEq, false_and, exists_false, Bac.Scalar.uint.injEq, or_false] at hm
          · obtain ⟨y, rfl, hy⟩ := hm
            rename_i n
            by_contra hc
            exact (hw n (by omega)).1 rfl
          · obtain ⟨y, rfl, hy⟩ := hm
            rename_i n
            by_contra hc
            exact (hw n (by omega)).2 rfl
        all_goals rfl
    · rw [if_neg h]
  obtain ⟨b, ss', o2, e2, c2, d2, p2⟩ := question_answered fuel my hmy f inst hd hi 76 (by decide) 0 i1 list hl' hf' (scripts 1) hs1
  have e1' : clientReadProperty fuel my f.dest (f.question 62) (some i0) (scripts 0) = ([a], .ok (.ok o1)) := e1
  refine ⟨a, b, .badMaxApdu, ?_, c1, c2⟩
  unfold multiCommand
  simp only [h0, h1, h2, e1', hz, e2]
  rfl

/-- The hypotheses for device 1234 on network 0 with limit 480 whose list has two objects, and the
sizes of the requests. -/
example : (C133_header { ip := .v4 192 168 15 202 }).length + (Spec.readMultiple 3 C133_wanted).length = 42 ∧
    Spec.readMultiple 3 C133_wanted = [0, 5, 3, 14, 0x0C, 0, 64, 0, 1, 0x1E, 0x09, 77, 0x1F, 0x0C, 0, 64, 0, 1, 0x1E, 0x09, 85, 0x1F,
      0x0C, 0, 64, 0, 2, 0x1E, 0x09, 77, 0x1F, 0x0C, 0, 64, 0, 2, 0x1E, 0x09, 85, 0x1F] ∧
    (∀ v ∈ [Spec.AppVal.objId 8 1234, .objId 0 1], C71_Readable v) ∧
    (∀ r ∈ [(⟨1, 1, [(⟨77, none⟩, .values [.chars [65, 79]])]⟩ : Spec.ObjResult), ⟨1, 1, [(⟨85, none⟩, .values [.real 0])]⟩], ObjOk r) := by
  refine ⟨by decide +kernel, by decide +kernel, ?_, ?_⟩
  · simp [C71_Readable, Spec.AppVal.WF]
  · simp [ObjOk, ResultOk, RefOk, C71_Readable, Spec.AppVal.WF]

end Bac.Props
