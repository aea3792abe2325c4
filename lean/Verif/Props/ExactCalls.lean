import Verif.Props.Names
import Verif.Props.Points
import Verif.Props.Network
import Verif.Props.DiscoveryCall
import Verif.Props.BitStrings
import Verif.Props.Discover
import Verif.Props.HomeDir
/-!
# Exactly when tables, addresses, units, broadcasts, bit strings, the scan and the home directory are right
-/

namespace Bac.Props

open Spec (NetAddr)

/-! ## C59 Object tables -/

/-- C59, exactly: a table without empty parts survives being written and read back into an empty
table iff all its types have names. -/
theorem C59_exact (om : ObjectMap) (hm : C59_Map om) (hne : ∀ e ∈ om, e.2 ≠ []) (m' : NamedMap)
    (hr : C59_Read (marshalMap om) m') :
    (∃ r, unmarshalMap (some []) m' = .ok r ∧ ∀ id, r.find id = om.find id) ↔
      ∀ t ∈ om.map Prod.fst, t ∈ Spec.namedTypes := by
  refine ⟨fun ⟨r, h1, h2⟩ t ht => ?_, fun h => C59_partial om hm h m' hr⟩
  by_contra hn
  obtain ⟨⟨t', sub⟩, he, rfl⟩ := List.mem_map.1 ht
  obtain ⟨⟨i, o⟩, rest, hsub⟩ := List.exists_cons_of_ne_nil (hne _ he)
  have hf : om.find ⟨t', i⟩ = some o := by
    unfold ObjectMap.find
    rw [mapGet_of_mem hm.1 he]
    exact mapGet_of_mem (hm.2 _ he) (by
      show (i, o) ∈ sub
      rw [show sub = (i, o) :: rest from hsub]
      exact List.mem_cons_self)
  obtain ⟨r', h3, h4⟩ := C59_fails_unknown om t' hn i o hf m' hr
  rw [h1] at h3
  injection h3 with h3
  subst h3
  have := h2 ⟨t', i⟩
  rw [h4, hf] at this
  cases this

/-- Analog inputs (0) survive, objects of type 200 do not. -/
example : (∀ t ∈ [((0 : UInt16), [((1 : UInt32), ({} : Object))])].map Prod.fst, t ∈ Spec.namedTypes) ∧
    ¬ ∀ t ∈ [((200 : UInt16), [((1 : UInt32), ({} : Object))])].map Prod.fst, t ∈ Spec.namedTypes := by
  constructor <;> decide +kernel

/-! ## C66 The address of a configured device -/

/-- A datagram goes to the station configured: the IPv4 address and port (47808 if none is given),
and in the network header the network and MAC, if a network is given. -/
def C66_Configured (d : NetDevice) (s : Sent) : Prop :=
  (∃ a b c e, d.ip = .v4 a b c e ∧ ∃ port : Nat, s.dest.udpAddr = some ((a, b, c, e), port) ∧
    ((port : Int) = d.port ∨ d.port = 0 ∧ port = 47808)) ∧
  ((d.networkNumber = 0 ∧ Addressed s.data none) ∨
    d.networkNumber ≠ 0 ∧ ∃ (n : Nat) (m : UInt8), (n : Int) = d.networkNumber ∧ (m.toNat : Int) = d.macMSTP ∧
      Addressed s.data (some ⟨n, [m]⟩))

/-- C66, exactly: of a device configured with an IPv4 address, the datagrams of the requests go to
the station configured iff the port is the standard one or none, the network number has 16 bits
and, with a network, the MAC has 8 bits. -/
theorem C66_exact (d : NetDevice) (a b c e : UInt8) (hip : d.ip = .v4 a b c e) (s : Sent) (hs : SentTo d.made.dev.target s) :
    C66_Configured d s ↔ (d.port = 0 ∨ d.port = 47808) ∧
      (d.networkNumber = 0 ∨ (0 < d.networkNumber ∧ d.networkNumber < 65536 ∧ 0 ≤ d.macMSTP ∧ d.macMSTP < 256)) := by
  have hu : s.dest.udpAddr = some ((a, b, c, e), 47808) := by
    rw [sentTo_dest hs, setLength_udp]
    exact made_udp d (by rw [hip]; rfl)
  obtain ⟨n, m, hn, hm, had⟩ := C66_fails_number d s hs
  have hn0 : n = 0 ↔ d.networkNumber % 65536 = 0 := by
    rw [← UInt16.toNat_inj]
    show n.toNat = 0 ↔ _
    omega
  have nlt := n.toNat_lt
  have mlt := m.toNat_lt
  constructor
  · rintro ⟨⟨a', b', c', e', _, port, hp, hport⟩, hnet⟩
    rw [hu] at hp
    injection hp with hp
    injection hp with _ hp
    refine ⟨?_, ?_⟩
    · subst hp
      rcases hport with h | h
      · exact .inr h.symm
      · exact .inl h.1
    · rcases hnet with ⟨h, _⟩ | ⟨h, n', m', hn', hm', had'⟩
      · exact .inl h
      · right
        have := addressed_unique had had'
        split at this
        · cases this
        · injection this with this
          injection this with h1 h2
          have m'lt := m'.toNat_lt
          omega
  · rintro ⟨hp, hnet⟩
    refine ⟨⟨a, b, c, e, hip, 47808, hu, ?_⟩, ?_⟩
    · rcases hp with h | h
      · exact .inr ⟨h, rfl⟩
      · exact .inl h.symm
    · rcases hnet with h | ⟨h1, h2, h3, h4⟩
      · refine .inl ⟨h, ?_⟩
        rw [if_pos (hn0.2 (by rw [h]; rfl))] at had
        exact had
      · refine .inr ⟨by omega, n.toNat, m, by omega, by omega, ?_⟩
        rw [if_neg (fun h => by have := hn0.1 h; omega)] at had
        exact had

/-- Port 47809, network 65541 and MAC 256 are not what is used; port 47808, network 5 and MAC 7 are. -/
example : (∀ s, SentTo (NetDevice.made { ip := .v4 10 0 0 9, port := 47808, networkNumber := 5, macMSTP := 7 }).dev.target s →
      C66_Configured { ip := .v4 10 0 0 9, port := 47808, networkNumber := 5, macMSTP := 7 } s) ∧
    ∀ s, SentTo (NetDevice.made { ip := .v4 10 0 0 9, port := 47809, networkNumber := 5, macMSTP := 7 }).dev.target s →
      ¬ C66_Configured { ip := .v4 10 0 0 9, port := 47809, networkNumber := 5, macMSTP := 7 } s :=
  ⟨fun s hs => (C66_exact _ 10 0 0 9 rfl s hs).2 ⟨.inr rfl, .inr (by decide)⟩,
    fun s hs h => by have := ((C66_exact _ 10 0 0 9 rfl s hs).1 h).1; revert this; decide⟩

/-! ## C108 The unit -/

theorem unit_plain : ∀ e ∈ Spec.unitNames, ∀ t : List Nat, e.1 ≠ t!"Unit(" ++ t := by
  have h : ∀ e ∈ Spec.unitNames, e.1.take 5 ≠ t!"Unit(" := by decide +kernel
  intro e he t h'
  apply h e he
  rw [h']
  rfl

theorem unit_single : ∀ e ∈ Spec.unitNames, ∀ f ∈ Spec.unitNames, e.1 = f.1 → e.2 = f.2 := by decide +kernel

/-- A text belongs to one unit number. -/
theorem unit_text_inj {i j : Nat} {s : List Nat} (h : C100_Text Spec.unitNames t!"Unit" i s)
    (h' : C100_Text Spec.unitNames t!"Unit" j s) : i = j := by
  rcases h with h | ⟨_, h⟩ <;> rcases h' with h' | ⟨_, h'⟩
  · exact unit_single _ h _ h' rfl
  · exact absurd h' (fun e => unit_plain _ h (decimal j ++ [41]) (by show s = _; rw [e]; simp))
  · exact absurd h (fun e => unit_plain _ h' (decimal i ++ [41]) (by show s = _; rw [e]; simp))
  · rw [h] at h'
    have := List.append_cancel_right h'
    exact decimal_inj (List.append_cancel_left this)

/-- C108, exactly: of the unit a device answered for a point that is not binary the number is always
reported, and the text is that of the unit iff the number has 16 bits. -/
theorem C108_exact (w : Wire) (hmy : w.my.net = 0) (d : NetDevice) (p : Point) (hp : C04_Valid ⟨p.typ, p.inst⟩)
    (hf : 1 < w.fuel) (hbool : isPointBool p = false) (name : List UInt8) (hname : name.length + 1 < 2 ^ 32) (u : Nat)
    (hu : u < 2 ^ 32) (c : Calls) (h1 : Answered w c.length (p.whole 77) [.chars name])
    (h2 : Answered w (c.length + 1) (p.whole 117) [.enum u]) :
    ∃ c' x, pointDetails w.reader d p c = (c', .ok x) ∧ x.name = name ∧ x.unit.toNat = u ∧
      (C100_Text Spec.unitNames t!"Unit" u x.unitString ↔ u < 65536) := by
  obtain ⟨s1, o1, d1, p1, r1⟩ := read_single w hmy d.dev.target (p.whole 77) (whole_valid hp 77 (by decide)) c.length (.chars name) ⟨hname, trivial⟩ hf h1
  have e1 := read_of w.reader d (p.whole 77) c (.ok o1) r1
  obtain ⟨s2, o2, d2, p2, r2⟩ := read_single w hmy d.dev.target (p.whole 117) (whole_valid hp 117 (by decide)) (c.length + 1) (.enum u)
    ⟨hu, trivial⟩ hf h2
  have e2 := read_of w.reader d (p.whole 117) (c ++ [(d.dev.target, (p.whole 77).request)]) (.ok o2)
    (by rw [List.length_append]; exact r2)
  obtain ⟨x, hx, hxn⟩ := decoded_enum d2
  have hu2 : toUint32 o2 = x := toUint32_one p2 (by rw [hx])
  have hn1 : toStr o1 = name := toStr_one p1 (by rw [show s1 = .str name from d1.1])
  obtain ⟨s, hs, hst⟩ := C108_fails x
  refine ⟨_, _, (details_step e1 hn1).trans (unit_step (u := x) (by simp [hbool]) e2 hu2 hs), rfl, hxn, ?_⟩
  show C100_Text _ _ u s ↔ _
  rw [hxn] at hst
  constructor
  · intro h
    have := unit_text_inj h hst
    omega
  · intro h
    rw [Nat.mod_eq_of_lt h] at hst
    exact hst

/-- The unit 65598 is reported as degrees Celsius, which is 62. -/
example : ¬ C100_Text Spec.unitNames t!"Unit" 65598 t!"DegreesCelsius" := fun h => by
  have h' : C100_Text Spec.unitNames t!"Unit" 62 t!"DegreesCelsius" := .inl (by decide +kernel)
  exact absurd (unit_text_inj h h') (by decide)

/-! ## C126 Who-Is as broadcast -/

/-- C126, exactly: whatever link was opened and whatever the limits, the frame of a Who-Is is an
Original-Broadcast-NPDU iff all networks or a remote network are asked. -/
theorem C126_exact (free : Int → Bool) (i : Iface) (port : Int) (l : Link) (hl : newUDPDataLink free i port = .ok (.ok l))
    (o : WhoIsOpts) :
    ∃ frame, whoIsFrame l.my l.broadcast o = .ok (.ok frame) ∧
      (frame[1]? = some 0x0B ↔ o.globalBroadcast = true ∨ o.networkNumber ≠ 0) := by
  by_cases ho : o.globalBroadcast = false ∧ o.networkNumber = 0
  · obtain ⟨f, h1, h2⟩ := C126_fails free i port l hl o ho
    refine ⟨f, h1, ?_⟩
    rw [h2, ho.1, ho.2]
    decide
  · obtain ⟨⟨m1, m2⟩, b1, b2, b3, b4⟩ := link_addresses free i port l hl
    obtain ⟨limits, hw, _⟩ := whoIs_prefix (Spec.broadcastHeader (o.dest l.broadcast).net.toNat).octets
      (Int32.ofInt o.limits.1) (Int32.ofInt o.limits.2)
    have ho' : o.globalBroadcast = true ∨ o.networkNumber ≠ 0 := by
      by_cases h : o.networkNumber = 0
      · left
        cases hg : o.globalBroadcast with
        | true => rfl
        | false => exact absurd ⟨hg, h⟩ ho
      · exact .inr h
    refine ⟨_, whoIsFrame_eq l.my l.broadcast o ((Spec.broadcastHeader (o.dest l.broadcast).net.toNat).octets ++ Spec.whoIs limits) ?_,
      fun _ => ho', fun _ => ?_⟩
    · unfold whoIsPack
      rw [npdu_broadcast l.my (o.dest l.broadcast) m2 ⟨b3, b4⟩]
      simp only [Outcome.ok_bind, hw]
    · show some (sendFunction _ none) = _
      simp only [sendFunction, WhoIsOpts.dest, b4, List.length_nil, gt_iff_lt, Nat.lt_irrefl, if_false, Address.isBroadcast,
        Address.isSubBroadcast, b3]
      rcases ho' with ho | ho
      · simp [ho]
      · have : 0 < o.networkNumber := by
          rcases UInt16.lt_or_lt_of_ne ho with q | q
          · exact absurd q (by simp)
          · exact q
        cases o.globalBroadcast <;> simp [this]

/-- The local Who-Is and the one on network 5. -/
example : ¬ (({} : WhoIsOpts).globalBroadcast = true ∨ ({} : WhoIsOpts).networkNumber ≠ 0) ∧
    ({ networkNumber := 5 } : WhoIsOpts).networkNumber ≠ 0 := by decide

/-! ## C157 Texts of bit strings -/

/-- C157, exactly: a bit string received, whatever its octets, has a text iff it has an octet or
no bit is said to be unused. -/
theorem C157_exact (u : UInt8) (data : List UInt8) :
    ∃ bs, Parses (Dec.appDataOfTag 8 (data.length + 1)) (u :: data) (.bits (some bs), none) ∧
      ((∃ t, bs.text = .ok t) ↔ data ≠ [] ∨ u.toNat % 8 = 0) := by
  obtain ⟨bs, _, h2, h3, h4⟩ := bits_parses u data
  refine ⟨bs, h2, ?_⟩
  have hp := C12_crash_iff u data
  have hp : bs.getValue.Panics ↔ data = [] ∧ u.toNat % 8 ≠ 0 := by
    rw [← hp]
    constructor
    · exact fun h => ⟨bs, h2, h⟩
    · rintro ⟨bs', h5, h6⟩
      have := Parses.unique h2 h5
      injection this with this
      injection this with this
      injection this with this
      exact this ▸ h6
  unfold BitString.text
  constructor
  · rintro ⟨t, ht⟩
    by_contra hno
    have : bs.getValue.Panics := hp.2 ⟨by
      by_contra h
      exact hno (.inl h), fun h => hno (.inr h)⟩
    obtain ⟨x, hx, _⟩ := ok_bind_inv ht
    rw [hx] at this
    cases this
  · intro h
    have hu : (u &&& 7).toNat = u.toNat % 8 := by
      rw [UInt8.toNat_and]
      exact Nat.and_two_pow_sub_one_eq_mod u.toNat 3
    have hok : bs.bitUsed.toNat ≤ 8 * bs.value.length ∨ 15 ≤ bs.value.length := by
      by_cases hl : 15 ≤ data.length
      · right; omega
      · left
        rcases h4 with h4 | h4
        · rw [h4]; exact Nat.zero_le _
        · have hb : bs.bitUsed.toNat = (8 * data.length + (256 - u.toNat % 8)) % 256 := by
            rw [h4, UInt8.toNat_sub, hu, UInt8.toNat_mul, UInt8.toNat_ofNat']
            show (2 ^ 8 - u.toNat % 8 + data.length % 2 ^ 8 * 8 % 2 ^ 8) % 2 ^ 8 = _
            omega
          rcases h with h | h
          · have := List.length_pos_iff.2 h
            omega
          · omega
    obtain ⟨l, hl⟩ := getValue_some bs hok
    rw [hl]
    exact ⟨_, rfl⟩

/-- No octet with three unused bits, and one octet with three. -/
example : (∃ bs, Parses (Dec.appDataOfTag 8 1) [3] (.bits (some bs), none) ∧ ¬ ∃ t, bs.text = .ok t) ∧
    ∃ bs, Parses (Dec.appDataOfTag 8 2) [3, 0xA0] (.bits (some bs), none) ∧ ∃ t, bs.text = .ok t := by
  obtain ⟨a, h1, h2⟩ := C157_exact 3 []
  obtain ⟨b, h3, h4⟩ := C157_exact 3 [0xA0]
  exact ⟨⟨a, h1, fun h => absurd (h2.1 h) (by decide)⟩, b, h3, h4.2 (by decide)⟩

/-! ## C121 The end of the command discover -/

section
open Discover

variable {δ ρ : Type} {key : ρ → UInt32}

/-- Without calls of `WhoIs` nothing is ever pushed. -/
theorem no_push (n : Nat) (tr : List (Event δ ρ)) (t : State δ ρ) (he : Exec key (start δ ρ n 0) tr t) :
    (∀ j, t.main ≠ .loop (j + 1)) ∧ ∀ j l, t.main ≠ .push j l := by
  induction he with
  | refl => exact ⟨fun j h => by simp [start] at h, fun j l h => by simp [start] at h⟩
  | tail m t tr e he hst ih =>
    cases hst with
    | whoIsErr k h => exact absurd h (ih.1 k)
    | whoIsOk k l h => exact absurd h (ih.1 k)
    | send k l h => exact absurd h (ih.2 k l)
    | closeScan => exact ⟨nofun, nofun⟩
    | waited => exact ⟨nofun, nofun⟩
    | closeMerge => exact ⟨nofun, nofun⟩
    | snapshot => exact ⟨nofun, nofun⟩
    | leaveCrash => exact ⟨nofun, nofun⟩
    | emitCrash => exact ⟨nofun, nofun⟩
    | _ => exact ih

/-- C121, exactly: every execution that cannot go on has saved its results iff there is a worker or
nothing is asked. -/
theorem C121_exact (n k : Nat) :
    (∀ (tr : List (Event δ ρ)) (t : State δ ρ), Exec key (start δ ρ n k) tr t → (∀ e t', ¬ Discover.Step key t e t') →
      ∃ saved, t.main = .done saved) ↔ 0 < n ∨ k = 0 := by
  constructor
  · intro h
    by_contra hno
    have hn : n = 0 := by omega
    obtain ⟨k', rfl⟩ : ∃ k', k = k' + 1 := ⟨k - 1, by omega⟩
    subst hn
    have e1 : Exec key (start δ ρ 0 (k' + 1)) ([] ++ [.whoIs (some [])]) { start δ ρ 0 (k' + 1) with main := .push k' [] } :=
      Exec.tail _ _ _ _ _ (Exec.refl _) (.whoIsOk _ k' [] rfl)
    obtain ⟨h1, h2⟩ := C121_fails_zero (k' + 1) _ _ e1 [] (by simp)
    obtain ⟨saved, hs⟩ := h _ _ e1 h1
    exact h2 saved hs
  · intro h tr t he hstuck
    by_cases hn : 0 < n
    · exact (C121_ends n k hn tr t he hstuck).1
    · have hk : k = 0 := by omega
      have hn : n = 0 := by omega
      subst hk hn
      have hI := Inv.exec he
      have hp := no_push 0 tr t he
      have no : ¬ ∃ e t', Discover.Step key t e t' := fun ⟨e, t', hs⟩ => hstuck e t' hs
      cases hm : t.main with
      | loop j =>
        cases j with
        | zero => exact absurd ⟨_, _, .closeScan t hm⟩ no
        | succ j => exact absurd hm (hp.1 j)
      | push j l => exact absurd hm (hp.2 j l)
      | wait =>
        have hw : t.wg = 0 := by
          rw [hI.wg, List.length_eq_zero_iff.1 hI.len]
          rfl
        exact absurd ⟨_, _, .waited t hm hw⟩ no
      | shut => exact absurd ⟨_, _, .closeMerge t hm⟩ no
      | save => exact absurd ⟨_, _, .snapshot t hm⟩ no
      | done saved => exact ⟨saved, rfl⟩
      | crashed => exact absurd hm hI.noCrash

/-- One call and no worker: there is an execution that saves nothing. -/
example : ¬ ∀ (tr : List (Event Nat UInt32)) (t : State Nat UInt32), Exec id (start Nat UInt32 0 1) tr t →
    (∀ e t', ¬ Discover.Step id t e t') → ∃ saved, t.main = .done saved :=
  fun h => absurd ((C121_exact 0 1).1 h) (by decide)

end

/-! ## C145 The home directory -/

/-- C145, exactly: from an environment with a home directory on, all calls of `Dir` return what
detection gives during the call iff the cache is not used. -/
theorem C145_exact (disabled : Bool) (e : HomeDir.Env) (d : List Nat) (hd : HomeDir.detect e = some d) (hne : d ≠ []) (n : Nat) :
    (∀ (s : HomeDir.State) (b : Nat) (r : Option (List Nat)), HomeDir.Reach disabled e (n + 1) s → .returned b r ∈ s.goroutines →
      ∃ τ, b ≤ τ ∧ τ ≤ s.now ∧ HomeDir.detect (s.past τ) = r) ↔ disabled = true := by
  constructor
  · intro h
    cases disabled with
    | true => rfl
    | false =>
      have he' : HomeDir.detect { e with home := d ++ [47] } = some (d ++ [47]) := by
        have : d ++ [47] ≠ [] := by simp
        unfold HomeDir.detect HomeDir.dirWindows HomeDir.dirUnix
        simp [this]
      obtain ⟨s, b, h1, h2, h3, h4⟩ := C145_fails e { e with home := d ++ [47] } d hd hne n
      obtain ⟨τ, t1, t2, t3⟩ := h s b (some d) h1 (by rw [h4]; exact List.mem_cons_self)
      rw [h3 τ t1 t2, he'] at t3
      injection t3 with t3
      have := congrArg List.length t3
      simp at this
  · intro h s b r hr hm
    obtain ⟨τ, h1, h2, _, h3⟩ := C145_partial disabled e (n + 1) s hr b r hm
    exact ⟨τ, h3 (.inl h), h1, h2⟩

example : ∃ d, HomeDir.detect { os := .other, home := t!"/a" } = some d ∧ d ≠ [] := ⟨t!"/a", rfl, by decide⟩

end Bac.Props
