import Verif.Lemmas.DiscoveryCall
import Verif.Props.Discovery
import Verif.Props.DataLink
import Verif.Props.Incoming
/-!
# C124–C127: the discovery calls around their subscription, the datagrams of the discovery requests, I-Am
-/

namespace Bac.Props
open Bac Bac.DCall

variable {ε : Type} {lo hi : Int} {reports : Bool}

/-! ## C124 A discovery call whose request could not be sent reports it -/

/-- C124: the error reported by a call is the one of its send. -/
theorem C124_sound {tr : List (Label ε)} {s : State ε} (h : Exec lo hi reports {} tr s) (e : ε)
    (hm : s.main = .returned (.error e)) : .send (some e) ∈ tr := (told h).ret e hm

/-- C124, for `WhoIs` and the executions in which the result of `Subscribe` is not assigned
after the sender has assigned its own and before it has read it back: a failed send is
reported.  Missing: the other executions, see `C124_fails`, and the other two calls, see
`C124_fails_silent`. -/
theorem C124_partial {tr : List (Label ε)} {s : State ε} (h : Exec lo hi true {} tr s)
    (hc : ∀ t1 t2, tr = t1 ++ .assign :: t2 → ((∃ e, .send e ∈ t1) ↔ .read ∈ t1))
    (e : ε) (he : .send (some e) ∈ tr) (r : Except ε (List Published)) (hm : s.main = .returned r) :
    whoIsResult r = .error e := by
  rw [(reported h rfl hc e he).2.2.2 r hm]
  rfl

/-- C124 fails: the two goroutines share `err`.  When the result of `Subscribe` is assigned
between the two accesses of the sender, the error of the send is overwritten, and the call
returns an empty list and no error. -/
theorem C124_fails (e : ε) : ∃ tr s, Exec lo hi true {} tr s ∧ .send (some e) ∈ tr ∧
    ∃ r, s.main = .returned r ∧ whoIsResult r = .ok [] := by
  have h1 : Exec lo hi true {} [.enter] (State.mk (ε := ε) .listening .start none []) := .snoc .nil (.enter _ rfl)
  have h2 := h1.snoc (Step.leave _ rfl)
  have h3 := h2.snoc (Step.send _ (some e) rfl)
  have h4 := h3.snoc (Step.assign _ rfl)
  have h5 := h4.snoc (Step.read _ rfl)
  have h6 := h5.snoc (Step.check _ rfl (.inl rfl))
  have h7 := h6.snoc (Step.receive _ none rfl rfl)
  exact ⟨_, _, h7.snoc (Step.finish _ rfl (.inl rfl)), by simp, _, rfl, rfl⟩

/-- C124 fails in another way: the error may be seen before it is taken from the channel.  The
call returns it, and the sender waits at the channel for ever. -/
theorem C124_fails_leak (e : ε) : ∃ (tr : List (Label ε)) (s : State ε), Exec lo hi true {} tr s ∧ s.main = .returned (.error e) ∧
    ∀ tr' t, Exec lo hi true s tr' t → t.sender = .offering (some e) := by
  have h1 : Exec lo hi true {} [.enter] (State.mk (ε := ε) .listening .start none []) := .snoc .nil (.enter _ rfl)
  have h2 := h1.snoc (Step.leave _ rfl)
  have h3 := h2.snoc (Step.assign _ rfl)
  have h4 := h3.snoc (Step.send _ (some e) rfl)
  have h5 := h4.snoc (Step.read _ rfl)
  refine ⟨_, _, h5.snoc (Step.checkErr _ e rfl rfl rfl), rfl, ?_⟩
  intro tr' t ht
  have : t.main = .returned (.error e) ∧ t.sender = .offering (some e) := by
    induction ht with
    | nil => exact ⟨rfl, rfl⟩
    | snoc _ st ih => obtain ⟨i1, i2⟩ := ih; cases st <;> simp_all
  exact this.2

/-- A call that returns a list leaves no goroutine behind. -/
theorem C124_clean {tr : List (Label ε)} {s : State ε} (h : Exec lo hi reports {} tr s) (vs : List Published)
    (hm : s.main = .returned (.ok vs)) : s.sender = .done := (pos h).ok vs hm

/-- C124 fails for `WhatIsNetworkNumber` and `WhoIsRouterToNetwork`: they return a list
whatever the send came to. -/
theorem C124_fails_silent {tr : List (Label ε)} {s : State ε} (h : Exec lo hi false {} tr s) (r : Except ε (List Published))
    (hm : s.main = .returned r) : ∃ vs, r = .ok vs := by
  cases r with
  | ok vs => exact ⟨vs, rfl⟩
  | error e =>
    exfalso
    have : ∀ (tr : List (Label ε)) (s : State ε), Exec lo hi false {} tr s → s.main ≠ .returned (.error e) := by
      intro tr s h
      induction h with
      | nil => exact nofun
      | snoc _ st ih => cases st <;> simp_all
    exact this tr s h hm

/-- A call does at most eight steps, of which it can do the next one unless it has returned:
no order of the steps of its two goroutines blocks it. -/
theorem C124_returns {tr : List (Label ε)} {s : State ε} (h : Exec lo hi reports {} tr s) :
    (tr.filter fun l => !l.isPublish).length ≤ 8 ∧
    ((∃ r, s.main = .returned r) ∨ ∃ l t, l.isPublish = false ∧ DCall.Step lo hi reports s l t) := by
  refine ⟨by have := exec_rank h; have e : (({} : State ε).main.rank + ({} : State ε).sender.rank) = 8 := rfl; omega, ?_⟩
  obtain ⟨p1, p2, p3, p4, p5⟩ := pos h
  rcases s with ⟨m, g, er, vs⟩
  dsimp only at *
  cases m with
  | spawned => exact .inr ⟨.enter, _, rfl, .enter _ rfl⟩
  | listening => exact .inr ⟨.leave, _, rfl, .leave _ rfl⟩
  | left => exact .inr ⟨.assign, _, rfl, .assign _ rfl⟩
  | assigned =>
    cases er with
    | none => exact .inr ⟨.check, _, rfl, .check _ rfl (.inl rfl)⟩
    | some e =>
      cases reports with
      | true => exact .inr ⟨.check, _, rfl, .checkErr _ e rfl rfl rfl⟩
      | false => exact .inr ⟨.check, _, rfl, .check _ rfl (.inr rfl)⟩
  | receiving =>
    cases g with
    | start => exact .inr ⟨.send none, _, rfl, .send _ none rfl⟩
    | assigned => exact .inr ⟨.read, _, rfl, .read _ rfl⟩
    | offering x => exact .inr ⟨.receive, _, rfl, .receive _ x rfl rfl⟩
    | done => rcases p2 rfl with h | ⟨r, h⟩ <;> cases h
  | received =>
    cases er with
    | none => exact .inr ⟨.finish, _, rfl, .finish _ rfl (.inl rfl)⟩
    | some e =>
      cases reports with
      | true => exact .inr ⟨.finish, _, rfl, .finishErr _ e rfl rfl rfl⟩
      | false => exact .inr ⟨.finish, _, rfl, .finish _ rfl (.inr rfl)⟩
  | returned r => exact .inl ⟨r, rfl⟩

/-- A send that fails at once, as for a network that is down, is reported. -/
example : ∃ tr s, Exec 0 9 true {} tr s ∧ .send (some "network is unreachable") ∈ tr ∧
    s.main = .returned (.error "network is unreachable") := by
  have h1 : Exec 0 9 true {} [.send (some "network is unreachable")]
    (State.mk .spawned .assigned (some "network is unreachable") []) := .snoc .nil (.send _ _ rfl)
  have h2 := h1.snoc (Step.read _ rfl)
  have h3 := h2.snoc (Step.enter _ rfl)
  have h4 := h3.snoc (Step.leave _ rfl)
  have h5 := h4.snoc (Step.assign _ rfl)
  have h6 := h5.snoc (Step.check _ rfl (.inl rfl))
  have h7 := h6.snoc (Step.receive _ _ rfl rfl)
  exact ⟨_, _, h7.snoc (Step.finishErr _ _ rfl rfl rfl), by simp, rfl⟩

/-! ## C125 The answers to a discovery request are not missed -/

/-- The messages published in a part of an execution whose number is in the range. -/
def C125_published (lo hi : Int) (tr : List (Label ε)) : List Published :=
  tr.filterMap fun l => match l with
    | .publish id v => if lo ≤ id ∧ id ≤ hi then some v else none
    | _ => none

/-- C125: what a call returns was published, with a number in the range, between the only two
points of the execution where its subscription was entered and left, and nothing of that is
missing but the last one, perhaps. -/
theorem C125_window {tr : List (Label ε)} {s : State ε} (h : Exec lo hi reports {} tr s) (vs : List Published)
    (hm : s.main = .returned (.ok vs)) :
    ∃ t1 t2 t3, tr = t1 ++ .enter :: t2 ++ .leave :: t3 ∧ .enter ∉ t1 ++ t2 ++ t3 ∧ .leave ∉ t1 ++ t2 ++ t3 ∧
      (vs = C125_published lo hi t2 ∨ ∃ v, C125_published lo hi t2 = vs ++ [v]) := by
  have := heard h
  unfold Heard at this
  rw [hm] at this
  obtain ⟨rfl, t1, t2, t3, rfl, ⟨a1, a2⟩, ⟨b1, b2⟩, ⟨c1, c2⟩, hv⟩ := this
  refine ⟨t1, t2, t3, rfl, ?_, ?_, hv⟩
  · simp [a1, b1, c1]
  · simp [a2, b2, c2]

theorem split_unique {α : Type} {x : α} {a b a' b' : List α} (h : a ++ x :: b = a' ++ x :: b') (h1 : x ∉ a') (h2 : x ∉ b') :
    a = a' ∧ b = b' := by
  induction a generalizing a' with
  | nil =>
    cases a' with
    | nil => simpa using h
    | cons y a' => simp only [List.nil_append, List.cons_append, List.cons.injEq] at h; simp [h.1] at h1
  | cons y a ih =>
    cases a' with
    | nil =>
      simp only [List.nil_append, List.cons_append, List.cons.injEq] at h
      exact absurd (by rw [← h.2]; simp) h2
    | cons z a' =>
      simp only [List.cons_append, List.cons.injEq, List.mem_cons, not_or] at h h1
      obtain ⟨rfl, rfl⟩ := ih h.2 h1.2
      exact ⟨by rw [h.1], rfl⟩

/-- C125, when the subscription was entered before the request was sent: a message published
after the request was sent is in the result, unless it is the last one before the end of the
subscription.  Missing: the other order, see `C125_fails`, and the last message, see
`C125_fails_last`. -/
theorem C125_partial {s : State ε} {a b c d : List (Label ε)} {id : Int} {v : Published}
    (h : Exec lo hi reports {} (a ++ .send none :: b ++ .publish id v :: c ++ .leave :: d) s) (ha : .enter ∈ a)
    (hid : lo ≤ id ∧ id ≤ hi) (hlast : ∃ id' v', .publish id' v' ∈ c ∧ lo ≤ id' ∧ id' ≤ hi)
    (vs : List Published) (hm : s.main = .returned (.ok vs)) : v ∈ vs := by
  obtain ⟨t1, t2, t3, htr, h1, h2, hv⟩ := C125_window h vs hm
  simp only [List.mem_append, not_or] at h1 h2
  obtain ⟨a1, a2, rfl⟩ := List.append_of_mem ha
  have hl := (split_unique htr (by simp [h2]) h2.2).1
  have he : a1 ++ .enter :: (a2 ++ .send none :: b ++ .publish id v :: c) = t1 ++ .enter :: t2 := by rw [← hl]; simp
  obtain ⟨rfl, rfl⟩ := split_unique he h1.1.1 h1.1.2
  have hmem : ∃ p q, C125_published lo hi (a2 ++ .send none :: b ++ .publish id v :: c) = p ++ v :: q ∧ q ≠ [] := by
    obtain ⟨id', v', hc, hr⟩ := hlast
    refine ⟨C125_published lo hi (a2 ++ .send none :: b), C125_published lo hi c, by simp [C125_published, hid], ?_⟩
    intro hnil
    have : v' ∈ C125_published lo hi c := List.mem_filterMap.2 ⟨_, hc, by simp [hr]⟩
    rw [hnil] at this
    cases this
  obtain ⟨p, q, hpq, hq⟩ := hmem
  rcases hv with rfl | ⟨w, hw⟩
  · rw [hpq]; simp
  · rw [hpq] at hw
    have : vs = (p ++ v :: q).dropLast := by rw [hw]; simp
    rw [this, List.dropLast_append_of_ne_nil (by simp)]
    cases q with
    | nil => exact absurd rfl hq
    | cons x q => simp

/-- C125 fails: the request may be sent before the subscription is entered.  An answer that
comes in the meantime is missed. -/
theorem C125_fails (id : Int) (v : Published) : ∃ (tr : List (Label ε)) (s : State ε),
    Exec lo hi reports {} (.send none :: .publish id v :: tr) s ∧ s.main = .returned (.ok []) := by
  have h1 : Exec lo hi reports {} [.send none] (State.mk (ε := ε) .spawned .assigned none []) := .snoc .nil (.send _ _ rfl)
  have h2 := h1.snoc (Step.other _ id v nofun)
  have h3 := h2.snoc (Step.enter _ rfl)
  have h4 := h3.snoc (Step.leave _ rfl)
  have h5 := h4.snoc (Step.read _ rfl)
  have h6 := h5.snoc (Step.assign _ rfl)
  have h7 := h6.snoc (Step.check _ rfl (.inl rfl))
  have h8 := h7.snoc (Step.receive _ none rfl rfl)
  exact ⟨[.enter, .leave, .read, .assign, .check, .receive, .finish], _, h8.snoc (Step.finish _ rfl (.inl rfl)), rfl⟩

/-- C125 fails in another way: an answer that comes just before the timeout may stay in the channel. -/
theorem C125_fails_last (id : Int) (v : Published) (hid : lo ≤ id ∧ id ≤ hi) : ∃ (tr : List (Label ε)) (s : State ε),
    Exec lo hi reports {} (.enter :: .send none :: .publish id v :: .leave :: tr) s ∧ s.main = .returned (.ok []) := by
  have h1 : Exec lo hi reports {} [.enter] (State.mk (ε := ε) .listening .start none []) := .snoc .nil (.enter _ rfl)
  have h2 := h1.snoc (Step.send _ none rfl)
  have h3 := h2.snoc (Step.got _ id v rfl hid)
  have h4 := h3.snoc (Step.leaveLate _ rfl v [] rfl)
  have h5 := h4.snoc (Step.read _ rfl)
  have h6 := h5.snoc (Step.assign _ rfl)
  have h7 := h6.snoc (Step.check _ rfl (.inl rfl))
  have h8 := h7.snoc (Step.receive _ none rfl rfl)
  exact ⟨[.read, .assign, .check, .receive, .finish], _, h8.snoc (Step.finish _ rfl (.inl rfl)), rfl⟩

/-- Two answers, the second one too late to be taken from the channel: the first one is returned. -/
example : ∃ (tr : List (Label Unit)) (s : State Unit), Exec 5 9 true {}
    ([.enter] ++ .send none :: [] ++ .publish 7 (.iam { id := ⟨8, 7⟩ }) :: [.publish 8 (.iam { id := ⟨8, 8⟩ })] ++ .leave :: tr) s ∧
    ∃ vs, s.main = .returned (.ok vs) ∧ .iam { id := ⟨8, 7⟩ } ∈ vs := by
  have h1 : Exec 5 9 true {} [.enter] (State.mk (ε := Unit) .listening .start none []) := .snoc .nil (.enter _ rfl)
  have h2 := h1.snoc (Step.send _ none rfl)
  have h3 := h2.snoc (Step.got _ 7 (.iam { id := ⟨8, 7⟩ }) rfl (by decide))
  have h4 := h3.snoc (Step.got _ 8 (.iam { id := ⟨8, 8⟩ }) rfl (by decide))
  have h5 := h4.snoc (Step.leaveLate _ rfl (.iam { id := ⟨8, 8⟩ }) [.iam { id := ⟨8, 7⟩ }] rfl)
  have h6 := h5.snoc (Step.read _ rfl)
  have h7 := h6.snoc (Step.assign _ rfl)
  have h8 := h7.snoc (Step.check _ rfl (.inl rfl))
  have h9 := h8.snoc (Step.receive _ none rfl rfl)
  have h10 := h9.snoc (Step.finish _ rfl (.inl rfl))
  exact ⟨_, _, h10, _, rfl, C125_partial (a := [.enter]) (b := []) (c := [.publish 8 (.iam { id := ⟨8, 8⟩ })]) h10 (by simp) (by decide)
    ⟨8, _, List.mem_singleton.2 rfl, by decide⟩ _ rfl⟩

/-- The I-Am among the published messages. -/
def C125_iam : Published → Option IAm
  | .iam r => some r
  | _ => none

/-- C125, for the list of devices: a `WhoIs` that succeeds returns the first I-Am of every device
among the messages of `C125_window`, in their order, each with its values and the address it came
from. -/
theorem C125_devices {tr : List (Label ε)} {s : State ε} (h : Exec lo hi true {} tr s) (r : Except ε (List Published))
    (hm : s.main = .returned r) (ds : List FoundDevice) (hd : whoIsResult r = .ok ds) :
    ∃ t1 t2 t3 vs, tr = t1 ++ .enter :: t2 ++ .leave :: t3 ∧
      (vs = C125_published lo hi t2 ∨ ∃ v, C125_published lo hi t2 = vs ++ [v]) ∧
      ds.map (fun d => (d.id, d.maxApdu, d.segmentation, d.vendor, d.addr)) =
        (Spec.firsts (fun r : IAm => r.id.inst) (vs.filterMap C125_iam)).map
          (fun r => (r.id, r.maxApdu, r.segmentation, r.vendor, r.addr)) := by
  cases r with
  | error e => cases hd
  | ok vs =>
    obtain ⟨t1, t2, t3, htr, _, _, hv⟩ := C125_window h vs hm
    refine ⟨t1, t2, t3, vs, htr, hv, ?_⟩
    cases hd
    have hi : ∀ l : List Published, l.filterMap C125_iam = iams l := by
      intro l
      induction l with
      | nil => rfl
      | cons p l ih => cases p <;> simp [List.filterMap_cons, C125_iam, iams, ih]
    dsimp only
    rw [hi, whoIsLoop_eq, List.nil_append, List.filter_eq_self.2 (fun _ _ => by simp), List.map_map]
    refine List.map_congr_left fun r _ => ?_
    obtain ⟨h1, _, h3, h4, h5, h6, _⟩ := foundDevice_id r
    simp only [Function.comp, h1, h3, h4, h5, h6]

/-- Two I-Ams of device 7: the call succeeds and returns the device once, with the first address. -/
example : ∃ (tr : List (Label Unit)) (s : State Unit) (r : Except Unit (List Published)), Exec 5 9 true {} tr s ∧
    s.main = .returned r ∧ ∃ ds, whoIsResult r = .ok ds ∧ ds.map (fun d => (d.id, d.addr.net)) = [(⟨8, 7⟩, 3)] := by
  have h1 : Exec 5 9 true {} [.enter] (State.mk (ε := Unit) .listening .start none []) := .snoc .nil (.enter _ rfl)
  have h2 := h1.snoc (Step.send _ none rfl)
  have h3 := h2.snoc (Step.got _ 7 (.iam { id := ⟨8, 7⟩, addr := { net := 3 } }) rfl (by decide))
  have h4 := h3.snoc (Step.got _ 7 (.iam { id := ⟨8, 7⟩, addr := { net := 4 } }) rfl (by decide))
  have h5 := h4.snoc (Step.leave _ rfl)
  have h6 := h5.snoc (Step.read _ rfl)
  have h7 := h6.snoc (Step.assign _ rfl)
  have h8 := h7.snoc (Step.check _ rfl (.inl rfl))
  have h9 := h8.snoc (Step.receive _ none rfl rfl)
  exact ⟨_, _, _, h9.snoc (Step.finish _ rfl (.inl rfl)), rfl, _, rfl, rfl⟩

/-! ## C126 Discovery requests are sent as broadcasts -/

theorem frame_send (dest : Address) (pack : List UInt8) (bt : Option SetBroadcastType) :
    sendFrame dest pack bt = .ok (Spec.frame (sendFunction dest bt) pack) := by
  rw [sendFrame_ok, Spec.frame]
  have : Spec.bigEndian 2 (4 + pack.length) = be16 (UInt16.ofNat (4 + pack.length)) := by
    rw [be16_spec]
    simp only [Spec.bigEndian, UInt16.toNat_ofNat']
    have h1 : (4 + pack.length) % 2 ^ 16 / 256 % 256 = (4 + pack.length) / 256 % 256 := by omega
    have h2 : (4 + pack.length) % 2 ^ 16 % 256 = (4 + pack.length) % 256 := by omega
    rw [h1, h2]
  rw [this]

theorem whoIsFrame_eq (my broadcast : Address) (o : WhoIsOpts) (p : List UInt8)
    (h : whoIsPack my (o.dest broadcast) o.limits.1 o.limits.2 = .ok (p, none)) :
    whoIsFrame my broadcast o = .ok (.ok (Spec.frame (sendFunction (o.dest broadcast) none) p)) := by
  unfold whoIsFrame
  rw [h]
  simp only [Outcome.ok_bind, frame_send]

/-- C126, for a Who-Is on all networks or on a given one: the datagram is an
Original-Broadcast-NPDU with the request of C89.  Missing: the local network, see `C126_fails`. -/
theorem C126_whoIs_partial (o : WhoIsOpts) (ho : o.globalBroadcast = true ∨ o.networkNumber ≠ 0) (my broadcast : Address)
    (hmy : my.net = 0) (hb : broadcast.len = 0 ∧ broadcast.adr = []) (hlo : o.low < 4194303) (hh : o.high < 4194303) :
    whoIsFrame my broadcast o = .ok (.ok (Spec.frame 0x0B
      ((Spec.broadcastHeader (if o.globalBroadcast then 65535 else o.networkNumber.toNat)).octets ++
        Spec.whoIs (if 0 < o.high then some (o.low.toNat, o.high.toNat) else none)))) := by
  rw [whoIsFrame_eq my broadcast o _ (C89_request o my broadcast hmy hb hlo hh)]
  have : sendFunction (o.dest broadcast) none = 0x0B := by
    simp only [sendFunction, WhoIsOpts.dest, hb.2, List.length_nil, gt_iff_lt, Nat.lt_irrefl, if_false, Address.isBroadcast,
      Address.isSubBroadcast, hb.1]
    rcases ho with ho | ho
    · simp [ho]
    · have : 0 < o.networkNumber := by
        rcases UInt16.lt_or_lt_of_ne ho with q | q
        · exact absurd q (by simp)
        · exact q
      cases o.globalBroadcast <;> simp [this]
  rw [this]

/-- The addresses of a link have six octets and no network. -/
theorem link_addresses (free : Int → Bool) (i : Iface) (port : Int) (l : Link) (hl : newUDPDataLink free i port = .ok (.ok l)) :
    (l.my.macLen = 6 ∧ l.my.net = 0) ∧ l.broadcast.macLen = 6 ∧ l.broadcast.net = 0 ∧ l.broadcast.len = 0 ∧ l.broadcast.adr = [] := by
  have hu : ∀ ip p A, udpToAddress ip p = .ok A → A.macLen = 6 ∧ A.net = 0 ∧ A.len = 0 ∧ A.adr = [] := by
    intro ip p A h
    unfold udpToAddress at h
    split at h
    · cases h; exact ⟨rfl, rfl, rfl, rfl⟩
    · cases h
  have hd : ∀ h o p, dataLink free h o p = .ok (.ok l) →
      (l.my.macLen = 6 ∧ l.my.net = 0) ∧ l.broadcast.macLen = 6 ∧ l.broadcast.net = 0 ∧ l.broadcast.len = 0 ∧ l.broadcast.adr = [] := by
    intro h o p hl
    unfold dataLink at hl
    dsimp only at hl
    generalize (if p = 0 then (0xBAC0 : Int) else p) = q at hl
    split at hl
    · cases hl
    · split at hl
      · split at hl
        · rename_i h1 h2
          cases hl
          obtain ⟨a1, a2, _⟩ := hu _ _ _ h1
          exact ⟨⟨a1, a2⟩, hu _ _ _ h2⟩
        · cases hl
        · cases hl
        · cases hl
      · cases hl
  unfold newUDPDataLink at hl
  dsimp only at hl
  split at hl
  · exact hd _ _ _ hl
  · split at hl
    · cases hl
    · exact hd _ _ _ hl

/-- C126 fails on the local network, which is the default: the Who-Is is addressed to the
broadcast address of the link, and its frame is an Original-Unicast-NPDU (which a broadcast
management device does not pass on). -/
theorem C126_fails (free : Int → Bool) (i : Iface) (port : Int) (l : Link) (hl : newUDPDataLink free i port = .ok (.ok l))
    (o : WhoIsOpts) (ho : o.globalBroadcast = false ∧ o.networkNumber = 0) :
    ∃ frame, whoIsFrame l.my l.broadcast o = .ok (.ok frame) ∧ frame[1]? = some 0x0A := by
  obtain ⟨⟨m1, m2⟩, b1, b2, b3, b4⟩ := link_addresses free i port l hl
  obtain ⟨limits, hw, _⟩ := whoIs_prefix (Spec.broadcastHeader (o.dest l.broadcast).net.toNat).octets
    (Int32.ofInt o.limits.1) (Int32.ofInt o.limits.2)
  refine ⟨_, whoIsFrame_eq l.my l.broadcast o ((Spec.broadcastHeader (o.dest l.broadcast).net.toNat).octets ++ Spec.whoIs limits) ?_, ?_⟩
  · unfold whoIsPack
    rw [npdu_broadcast l.my (o.dest l.broadcast) m2 ⟨b3, b4⟩]
    simp only [Outcome.ok_bind, hw]
  · show some (sendFunction _ none) = _
    simp [sendFunction, WhoIsOpts.dest, b1, b3, b4, ho.1, ho.2, Address.isBroadcast, Address.isSubBroadcast]

/-- C126: the two requests of the network layer are broadcasts without network address. -/
theorem C126_network (my broadcast : Address) (hmy : my.net = 0) (hb : broadcast.net = 0) (typ : UInt8) (ht : typ.toNat < 0x80) :
    networkRequestFrame my broadcast typ = .ok (.ok [0x81, 0x0B, 0, 7, 1, 0x80, typ]) := by
  have h1 : npduMeta { version := 1, destination := some broadcast, source := some my, isNetworkLayerMessage := true,
                       networkLayerMessageType := typ, hopCount := 255 } = 0x80 := by
    simp only [npduMeta, hb, hmy]
    rfl
  have h2 : ¬ typ ≥ 0x80 := by
    rw [ge_iff_le, UInt8.le_iff_toNat_le]
    have : (0x80 : UInt8).toNat = 128 := rfl
    omega
  unfold networkRequestFrame Enc.npdu
  dsimp only
  rw [h1]
  simp only [show checkMask 0x80 0x20 = false from rfl, show checkMask 0x80 0x08 = false from rfl, show checkMask 0x80 0x80 = true from rfl,
    Enc.optNpduAddress, Bool.false_eq_true, if_false, if_true, Outcome.ok_bind, h2, Enc.write_write, Enc.new_write, sendFrame_ok]
  simp [Enc.write, sendFunction]
  rfl

example : whoIsFrame { mac := [10, 0, 0, 5, 0xBA, 0xC0], macLen := 6 } { mac := [10, 0, 0, 255, 0xBA, 0xC0], macLen := 6 }
    { low := 1, high := 9 } = .ok (.ok [0x81, 0x0A, 0, 12, 1, 0, 0x10, 8, 0x09, 1, 0x19, 9]) := by decide +kernel

/-! ## C127 An I-Am sent by the library is understood -/

theorem iAm_write (e : Enc) (i : IAm) : e.iAm i = .ok (e.write (Spec.iAm (i.id.typ.toNat % 2 ^ 10) (i.id.inst.toNat % 2 ^ 22) i.maxApdu.toNat
    i.segmentation.toNat i.vendor.toNat), e.err) := by
  simp only [Enc.iAm, Enc.appData', Enc.appData_objId, Enc.appData_uint, Enc.appData_enum,
    Outcome.ok_bind, Outcome.pure_eq, Enc.write_write]
  rw [show ∀ bs, (e.write bs).err = e.err from fun bs => by unfold Enc.write; split <;> simp_all]
  simp only [Spec.iAm, Spec.unconfirmedHeader, List.append_assoc]
  rfl

theorem clientIAm_of (dest : Address) (i : IAm) (link : Option GoErr) (pre : List UInt8)
    (h : Enc.new.npdu { version := 1, destination := some dest, hopCount := 255 } = .ok ⟨pre, none⟩) :
    clientIAm dest i link = ([⟨dest, Spec.frame (sendFunction dest none) (pre ++ Spec.iAm (i.id.typ.toNat % 2 ^ 10) (i.id.inst.toNat % 2 ^ 22)
      i.maxApdu.toNat i.segmentation.toNat i.vendor.toNat)⟩], .ok link) := by
  unfold clientIAm
  rw [h]
  simp only [Outcome.ok_bind, iAm_write, frame_send]
  rfl

/-- The network header of an I-Am: no answer is expected. -/
def C127_header (dest : Option Spec.NetAddr) (hop : UInt8) : Spec.NetHeader :=
  { version := 1, expectingReply := false, priority := 0, dest := dest, hop := hop, src := none, msg := none }

/-- C127, for a destination whose length field is that of its hardware address and an identifier
in range: one datagram is sent, it is an I-Am, and another client of this library that gets it
publishes what was announced with the address of the sender.  Missing: other length fields, see
`C127_fails_length`, and other identifiers, see `C127_fails_id`. -/
theorem C127_partial (dest : Address) (i : IAm) (link : Option GoErr) (hi : C04_Valid i.id) (hd : dest.len.toNat = dest.adr.length) :
    ∃ kind frame, clientIAm dest i link = ([⟨dest, frame⟩], .ok link) ∧ (kind = 10 ∨ kind = 11) ∧
      frame = Spec.frame kind ((C127_header (if dest.net = 0 then none else some ⟨dest.net.toNat, dest.adr⟩) 255).octets ++
        Spec.iAm i.id.typ.toNat i.id.inst.toNat i.maxApdu.toNat i.segmentation.toNat i.vendor.toNat) ∧
      ∀ src pending, handleMsg src pending frame = ([.publish i.id.inst.toNat (.iam { i with addr := src })], .ok ()) := by
  have hh := C17_layout { version := 1, destination := some dest, hopCount := 255 }
    (by show (0 : UInt8).toNat < 4; decide) hd trivial
  have hf : sendFunction dest none = 10 ∨ sendFunction dest none = 11 := by
    simp only [sendFunction]
    split
    · exact .inl rfl
    · split
      · exact .inr rfl
      · exact .inl rfl
  refine ⟨sendFunction dest none, _, clientIAm_of dest i link _ hh, hf, ?_, ?_⟩
  · rw [Nat.mod_eq_of_lt hi.1, Nat.mod_eq_of_lt hi.2]
    rfl
  · intro src pending
    rw [Nat.mod_eq_of_lt hi.1, Nat.mod_eq_of_lt hi.2]
    exact C75_direct src pending (wireHeader { version := 1, destination := some dest, hopCount := 255 }) (by
      refine ⟨rfl, (by show (0 : UInt8).toNat < 4; decide), ?_, nofun⟩
      intro a ha
      simp only [wireHeader, wireAddr] at ha
      split at ha
      · cases ha
      · rename_i hnet
        cases ha
        have h1 := dest.net.toNat_lt
        have h2 := dest.len.toNat_lt
        have h3 : dest.net.toNat ≠ 0 := fun e => hnet (UInt16.toNat_inj.1 e)
        exact ⟨by dsimp only; omega, by dsimp only; omega, by dsimp only; omega⟩) _ hf i hi

/-- C127 fails: `IAm` does not set the length of the hardware address, unlike the requests.
For a station behind a router whose length was not set the header is malformed, and a receiver
takes nothing from the message. -/
theorem C127_fails_length (net : UInt16) (hn : net ≠ 0) (mac : List UInt8) (x : UInt8) (i : IAm) :
    ∃ frame, clientIAm { net := net, mac := mac, macLen := 6, adr := [x] } i none =
        ([⟨{ net := net, mac := mac, macLen := 6, adr := [x] }, frame⟩], .ok none) ∧
      ∀ src pending, (handleMsg src pending frame).1 = [] := by
  have hn' : ¬ net.toNat = 0 := fun e => hn (UInt16.toNat_inj.1 e)
  have hh : Enc.new.npdu { version := 1, destination := some { net := net, mac := mac, macLen := 6, adr := [x] }, hopCount := 255 } =
      .ok ⟨(C127_header (some ⟨net.toNat, []⟩) x).octets ++ [255], none⟩ := by
    simp only [Enc.npdu, npduMeta, hn, ne_eq, not_false_eq_true, if_true, if_false,
      show checkMask (setInfoMask (setInfoMask (setInfoMask 0 false 0x80) false 0x04 ||| 0) true 0x20) 0x20 = true from rfl,
      show checkMask (setInfoMask (setInfoMask (setInfoMask 0 false 0x80) false 0x04 ||| 0) true 0x20) 0x08 = false from rfl,
      show checkMask (setInfoMask (setInfoMask (setInfoMask 0 false 0x80) false 0x04 ||| 0) true 0x20) 0x80 = false from rfl,
      Enc.optNpduAddress, Enc.npduAddress, Bool.false_eq_true, Outcome.ok_bind, Enc.write_write, Enc.new_write]
    unfold Spec.NetHeader.octets Spec.NetAddr.octets C127_header
    dsimp only
    rw [← be16_spec]
    simp [Enc.write, Spec.NetHeader.control]
    rfl
  refine ⟨_, clientIAm_of _ i none _ hh, ?_⟩
  intro src pending
  generalize Spec.iAm (i.id.typ.toNat % 2 ^ 10) (i.id.inst.toNat % 2 ^ 22) i.maxApdu.toNat i.segmentation.toNat i.vendor.toNat = iam
  have hs : sendFunction { net := net, mac := mac, macLen := 6, adr := [x] } none = 10 := rfl
  rw [hs]
  obtain ⟨l, hl⟩ := frame_octets 10 ((C127_header (some ⟨net.toNat, []⟩) x).octets ++ [255] ++ iam)
  rw [hl]
  obtain ⟨p, hp⟩ := handleMsg_frame src pending 0x81 10 l ((C127_header (some ⟨net.toNat, []⟩) x).octets ++ [255] ++ iam) (.inl rfl)
  rw [hp]
  obtain ⟨a, d, e, ha⟩ := Dec.apdu_unsupported_run 255 iam (lastOr p (C127_header (some ⟨net.toNat, []⟩) x).octets) (by decide)
  have := networkMsg_of src pending _ _ _ (header_parses (C127_header (some ⟨net.toNat, []⟩) x)
    ⟨rfl, by show 0 < 4; decide, by intro a ha; cases ha; exact ⟨by dsimp only; omega, net.toNat_lt, by show 0 < 256; decide⟩, nofun⟩) rfl ha
  rw [List.append_assoc, List.singleton_append, this]
  rfl

/-- C127 fails: an identifier that is out of range is announced as another one. -/
theorem C127_fails_id (dest : Address) (i : IAm) (link : Option GoErr) :
    clientIAm dest i link = clientIAm dest { i with id := ⟨i.id.typ % 1024, i.id.inst % 4194304⟩ } link := by
  have h1 : (i.id.typ % 1024).toNat % 2 ^ 10 = i.id.typ.toNat % 2 ^ 10 := by
    rw [UInt16.toNat_mod]; rw [show (1024 : UInt16).toNat = 2 ^ 10 from rfl, Nat.mod_mod]
  have h2 : (i.id.inst % 4194304).toNat % 2 ^ 22 = i.id.inst.toNat % 2 ^ 22 := by
    rw [UInt32.toNat_mod]; rw [show (4194304 : UInt32).toNat = 2 ^ 22 from rfl, Nat.mod_mod]
  unfold clientIAm
  simp only [iAm_write, h1, h2]

/-- Device 1033 announced on the local network, as another client of this library takes it. -/
example : ∃ frame, clientIAm { mac := [10, 0, 0, 255, 0xBA, 0xC0] } { id := ⟨8, 1033⟩, maxApdu := 1476, segmentation := 3, vendor := 15 } none =
      ([⟨{ mac := [10, 0, 0, 255, 0xBA, 0xC0] }, frame⟩], .ok none) ∧
    ∀ src pending, handleMsg src pending frame = ([.publish 1033 (.iam { id := ⟨8, 1033⟩, maxApdu := 1476, segmentation := 3, vendor := 15, addr := src })], .ok ()) := by
  obtain ⟨_, frame, h1, _, _, h2⟩ := C127_partial { mac := [10, 0, 0, 255, 0xBA, 0xC0] }
    { id := ⟨8, 1033⟩, maxApdu := 1476, segmentation := 3, vendor := 15 } none ⟨by decide, by decide⟩ rfl
  exact ⟨frame, h1, h2⟩

end Bac.Props
