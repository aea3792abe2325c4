import Verif.Lemmas.Discovery
/-!
# C54, C87 - C90: discovery
-/

namespace Bac.Props

open Spec (firsts NetHeader)

/-! ## C54 The list returned by WhoIs -/

/-- The I-Ams among the published messages that were published under an id from `lo` to `hi`. -/
def C54_answers (lo hi : Int) (published : List (Int × Published)) : List IAm :=
  published.filterMap fun p =>
    match p.2 with
    | .iam r => if lo ≤ p.1 ∧ p.1 ≤ hi then some r else none
    | _ => none

theorem C54_answers_eq (lo hi : Int) (l : List (Int × Published)) :
    C54_answers lo hi l = iams ((l.filter fun p => p.1 ≥ lo && p.1 ≤ hi).map Prod.snd) := by
  induction l with
  | nil => rfl
  | cons p l ih =>
    unfold C54_answers at ih ⊢
    rw [List.filter_cons]
    by_cases h : lo ≤ p.1 ∧ p.1 ≤ hi
    · rw [if_pos (by simpa using h), List.filterMap_cons]
      rcases p with ⟨i, q⟩
      cases q with
      | iam r =>
        have h' : lo ≤ i ∧ i ≤ hi := h
        simp only [if_pos h', List.map_cons, iams, ih]
      | npdu n => simp only [List.map_cons, iams, ih]
      | networks n => simp only [List.map_cons, iams, ih]
    · rw [if_neg (by simpa using h), List.filterMap_cons]
      rcases p with ⟨i, q⟩
      have h' : ¬ (lo ≤ i ∧ i ≤ hi) := h
      cases q with
      | iam r => simp only [if_neg h', ih]
      | npdu n => simp only [ih]
      | networks n => simp only [ih]

theorem whoIs_eq (o : WhoIsOpts) (published : List (Int × Published)) : whoIs o published =
    (firsts (fun r : IAm => r.id.inst) (C54_answers o.range.1 o.range.2 published)).map foundDevice := by
  unfold whoIs
  rw [whoIsLoop_eq, C54_answers_eq, List.nil_append, List.filter_eq_self.2 (fun _ _ => by simp)]

/-- C54.  No device is returned twice. -/
theorem C54_unique (o : WhoIsOpts) (published : List (Int × Published)) :
    ((whoIs o published).map FoundDevice.deviceId).Nodup := by
  rw [whoIs_eq, List.map_map]
  have h := firsts_nodup (fun r : IAm => r.id.inst) (C54_answers o.range.1 o.range.2 published)
  have e : FoundDevice.deviceId ∘ foundDevice = (fun u : UInt32 => (u.toNat : Int)) ∘ fun r : IAm => r.id.inst := by
    funext r; exact (foundDevice_id r).2.1
  rw [e, ← List.map_map]
  refine List.Pairwise.map _ ?_ h
  intro a b hne hab
  refine hne ?_
  have hab' : (a.toNat : Int) = b.toNat := hab
  exact UInt32.toNat_inj.1 (by omega)

/-- C54.  Whatever datagrams are received, only devices between the limits are returned.
(A limit of at most zero is replaced.) -/
theorem C54_range (o : WhoIsOpts) (pending : UInt8 → Bool) (frames : List (Address × List UInt8)) :
    ∀ d ∈ whoIs o (publishedBy pending frames),
      o.low ≤ d.deviceId ∧ (0 < o.high → d.deviceId ≤ o.high) := by
  intro d hd
  rw [whoIs_eq] at hd
  obtain ⟨r, hr, rfl⟩ := List.mem_map.1 hd
  have hr := firsts_subset _ _ _ hr
  obtain ⟨⟨i, p⟩, hp, h⟩ := List.mem_filterMap.1 hr
  cases p with
  | npdu n => simp at h
  | networks n => simp at h
  | iam r' =>
    simp only [Option.ite_none_right_eq_some, Option.some.injEq] at h
    obtain ⟨⟨h1, h2⟩, rfl⟩ := h
    have hi := (publishedBy_iam pending frames i _ hp).1
    rw [(foundDevice_id r').2.1, ← hi]
    have n1 : o.limits.1 ≠ -1 ∧ o.limits.2 ≠ -1 ∧ o.low ≤ o.limits.1 ∧ (0 < o.high → o.limits.2 = o.high) := by
      unfold WhoIsOpts.limits
      dsimp only
      split_ifs <;> refine ⟨?_, ?_, ?_, ?_⟩ <;> omega
    have e : o.range = o.limits := by
      unfold WhoIsOpts.range
      rw [if_neg (by rintro (h | h); exacts [n1.1 h, n1.2.1 h])]
    rw [e] at h1 h2
    exact ⟨Int.le_trans n1.2.2.1 h1, fun h => by rw [← n1.2.2.2 h]; exact h2⟩

/-- C54.  The list consists of the first I-Am of every device that answered within the
range, in this order, each with its values and the address it came from. -/
theorem C54_first (o : WhoIsOpts) (published : List (Int × Published)) :
    (whoIs o published).map (fun d => (d.id, d.maxApdu, d.segmentation, d.vendor, d.addr)) =
      (firsts (fun r : IAm => r.id.inst) (C54_answers o.range.1 o.range.2 published)).map
        (fun r => (r.id, r.maxApdu, r.segmentation, r.vendor, r.addr)) := by
  rw [whoIs_eq, List.map_map]
  refine List.map_congr_left fun r _ => ?_
  obtain ⟨h1, _, h3, h4, h5, h6, _⟩ := foundDevice_id r
  simp only [Function.comp, h1, h3, h4, h5, h6]

/-- C54.  Every device that answered within the range is in the list. -/
theorem C54_complete (o : WhoIsOpts) (published : List (Int × Published)) (i : Int) (r : IAm)
    (h : (i, Published.iam r) ∈ published) (hr : o.range.1 ≤ i ∧ i ≤ o.range.2) :
    ∃ d ∈ whoIs o published, d.deviceId = r.id.inst.toNat := by
  rw [whoIs_eq]
  have hm : r ∈ C54_answers o.range.1 o.range.2 published := by
    refine List.mem_filterMap.2 ⟨_, h, ?_⟩
    simp only [if_pos hr]
  obtain ⟨y, hy, hk⟩ := firsts_complete (fun r : IAm => r.id.inst) _ _ hm
  refine ⟨foundDevice y, List.mem_map_of_mem hy, ?_⟩
  rw [(foundDevice_id y).2.1]
  exact congrArg (fun u : UInt32 => (u.toNat : Int)) hk

/-- C54.  Without an upper limit every device there can be, from the lower limit on, is
accepted: an instance has 22 bits. -/
theorem C54_unlimited (o : WhoIsOpts) (ho : o.high ≤ 0) (published : List (Int × Published)) (r : IAm)
    (h : ((r.id.inst.toNat : Int), Published.iam r) ∈ published) (hl : o.low ≤ r.id.inst.toNat)
    (hr : r.id.inst.toNat < 2 ^ 22) :
    ∃ d ∈ whoIs o published, d.deviceId = r.id.inst.toNat := by
  refine C54_complete o published _ r h ?_
  have hl2 : o.limits.2 = 4194304 := if_pos ho
  have hl1 : o.limits.1 = if o.low ≤ 0 then 0 else o.low := rfl
  have e : o.range = o.limits := by
    unfold WhoIsOpts.range
    refine if_neg ?_
    rw [hl1, hl2]
    by_cases h0 : o.low ≤ 0
    · rw [if_pos h0]; omega
    · rw [if_neg h0]; omega
  rw [e, hl1, hl2]
  refine ⟨?_, by omega⟩
  by_cases h0 : o.low ≤ 0
  · rw [if_pos h0]; omega
  · rw [if_neg h0]; exact hl

/-- C54.  IP address and port of an entry are those of its address; the network number
is its network number. -/
theorem C54_ip (o : WhoIsOpts) (published : List (Int × Published)) : ∀ d ∈ whoIs o published,
    d.networkNumber = d.addr.net.toNat ∧
    ∀ a b c e f g, d.addr.mac = [a, b, c, e, f, g] → d.ip = some (a, b, c, e) ∧ d.port = f.toNat * 256 + g.toNat := by
  intro d hd
  rw [whoIs_eq] at hd
  obtain ⟨r, _, rfl⟩ := List.mem_map.1 hd
  refine ⟨by rw [(foundDevice_id r).2.2.1]; exact (foundDevice_id r).2.2.2.2.2.2, ?_⟩
  intro a b c e f g hm
  rw [(foundDevice_id r).2.2.1] at hm
  have hp : (f.toNat <<< 8) ||| g.toNat = f.toNat * 256 + g.toNat := by
    rw [← Nat.shiftLeft_add_eq_or_of_lt (b := g.toNat) (i := 8) g.toNat_lt, Nat.shiftLeft_eq]
  unfold foundDevice Address.udpAddr
  rw [hm]
  simp only [hp]
  exact ⟨trivial, by omega⟩

/-- C54 fails for the documented use (whois.go:17: `ArrayAll` for both limits): the
subscription is for the one id 4294967295, so nothing is ever returned. -/
theorem C54_fails_all (pending : UInt8 → Bool) (frames : List (Address × List UInt8)) :
    whoIs { low := 0xFFFFFFFF, high := 0xFFFFFFFF } (publishedBy pending frames) = [] := by
  have h : ∀ d ∈ whoIs { low := 0xFFFFFFFF, high := 0xFFFFFFFF } (publishedBy pending frames), False := by
    intro d hd
    have h1 := (C54_range _ _ _ d hd).1
    rw [whoIs_eq] at hd
    obtain ⟨r, hr, rfl⟩ := List.mem_map.1 hd
    have hr := firsts_subset _ _ _ hr
    obtain ⟨⟨i, p⟩, hp, h⟩ := List.mem_filterMap.1 hr
    cases p with
    | npdu n => simp at h
    | networks n => simp at h
    | iam r' =>
      simp only [Option.ite_none_right_eq_some, Option.some.injEq] at h
      obtain ⟨_, rfl⟩ := h
      have hi := publishedBy_iam pending frames i _ hp
      rw [(foundDevice_id r').2.1] at h1
      simp only at h1
      omega
  cases hl : whoIs { low := 0xFFFFFFFF, high := 0xFFFFFFFF } (publishedBy pending frames) with
  | nil => rfl
  | cons x l => exact (h x (by rw [hl]; exact List.mem_cons_self)).elim

/-- C54 fails for the range 0..0: device 5 is returned. -/
theorem C54_fails_zero : ((whoIs { low := 0, high := 0 } [(5, .iam { id := ⟨8, 5⟩ })]).map FoundDevice.deviceId) = [5] := by
  decide +kernel

example : whoIs { low := 3, high := 9 }
    [(5, .iam { id := ⟨8, 5⟩, maxApdu := 480, addr := { mac := [10, 0, 0, 7, 0xBA, 0xC0] } }),
     (4, .networks (some [{ net := 4 }])),
     (10, .iam { id := ⟨8, 10⟩ }),
     (5, .iam { id := ⟨8, 5⟩, maxApdu := 50 }),
     (3, .iam { id := ⟨8, 3⟩, addr := { net := 7, adr := [20] } })] =
    [{ id := ⟨8, 5⟩, deviceId := 5, ip := some (10, 0, 0, 7), port := 47808, maxApdu := 480, addr := { mac := [10, 0, 0, 7, 0xBA, 0xC0] } },
     { id := ⟨8, 3⟩, deviceId := 3, networkNumber := 7, macMSTP := 20, addr := { net := 7, adr := [20] } }] := by
  decide +kernel

/-! ## C88 What-Is-Network-Number -/

theorem apdu_short (bs : List UInt8) (q : Option UInt8) (hl : bs.length < 2) (h5 : ∀ x ∈ bs, x &&& 0xF0 ≠ 0x50) :
    ∃ a d x, Dec.apdu ⟨bs, q, none⟩ = .ok ((a, some x), d) := by
  obtain ⟨⟨a, e⟩, d, h⟩ := Dec.total_apdu ⟨bs, q, none⟩
  cases e with
  | some x => exact ⟨a, d, x, h⟩
  | none =>
    exfalso
    rcases Dec.apdu_inv rfl h with ⟨_, _, _, hb, _⟩ | ⟨_, _, _, hb, _⟩ | ⟨_, _, _, _, hb, _⟩ | ⟨t, _, hb, ht, _⟩
    · simp only at hb; subst hb; simp only [List.length_cons] at hl; omega
    · simp only at hb; subst hb; simp only [List.length_cons] at hl; omega
    · simp only at hb; subst hb; simp only [List.length_cons] at hl; omega
    · simp only at hb; subst hb; exact h5 t List.mem_cons_self ht

theorem networkNumberIs_run (src : Address) (pending : UInt8 → Bool) (f : UInt8) (hf : f = 10 ∨ f = 11)
    (n : UInt16) (configured : Bool) :
    ∃ h, h.source = some { net := n } ∧
      handleMsg src pending (Spec.frame f (Spec.networkNumberIs n.toNat configured)) =
        ([.publish n.toNat (.npdu h)], .ok ()) := by
  refine ⟨{ version := 1, source := some { net := n }, isNetworkLayerMessage := true, networkLayerMessageType := 0x13 }, rfl, ?_⟩
  have h : Parses Dec.npdu ([1] ++ ([0x80] ++ ([0x13] ++ be16 n)))
      ({ version := 1, source := some { net := n }, isNetworkLayerMessage := true, networkLayerMessageType := 0x13 }, none, none) := by
    unfold Dec.npdu
    refine Parses.bind (Dec.parses_u8 1) (Parses.bind (Dec.parses_u8 0x80) ?_)
    rw [show checkMask 0x80 0x20 = false from rfl, show checkMask 0x80 0x08 = false from rfl,
      show checkMask 0x80 0x04 = false from rfl, show checkMask 0x80 0x80 = true from rfl,
      show (0x80 : UInt8) &&& 3 = 0 from rfl]
    refine Parses.bind0 (a := none) (fun _ _ => rfl) (Parses.bind0 (a := none) (fun _ _ => rfl)
      (Parses.bind0 (a := 0) (fun _ _ => rfl) ?_))
    simp only [if_true]
    refine Parses.bind (Dec.parses_u8 0x13) ?_
    rw [show decide ((0x13 : UInt8) > 0x80) = false from rfl]
    refine Parses.bind0 (a := 0) (fun _ _ => rfl) ?_
    simp only [if_true]
    exact Parses.bind' (Dec.parses_be16 n) (Parses.bind' Dec.parses_error (Parses.pure _))
  obtain ⟨l, hl⟩ := frame_octets f (Spec.networkNumberIs n.toNat configured)
  obtain ⟨p, hp⟩ := handleMsg_frame src pending 0x81 f l (Spec.networkNumberIs n.toNat configured) hf
  rw [hl, hp]
  have e : Spec.networkNumberIs n.toNat configured =
      ([1] ++ ([0x80] ++ ([0x13] ++ be16 n))) ++ [if configured then 1 else 0] := by
    unfold Spec.networkNumberIs; rw [be16_spec]; simp
  have ha : ∀ q, ∃ a d x, Dec.apdu ⟨[if configured then 1 else 0], q, none⟩ = .ok ((a, some x), d) := by
    intro q
    refine apdu_short _ q (by simp) ?_
    intro x hx
    rw [List.mem_singleton] at hx
    cases configured <;> (rw [hx]; decide)
  unfold networkMsg
  rw [e, h p _]
  obtain ⟨a, d, x, ha⟩ := ha (lastOr p ([1] ++ ([0x80] ++ ([0x13] ++ be16 n))))
  simp only [Option.isSome_none, Option.isSome_some, Bool.false_eq_true, if_false, if_true, networkEffects, ha, ended]

/-- A Network-Number-Is message as it arrives. -/
structure C88_Answer where
  src : Address
  function : UInt8
  net : UInt16
  configured : Bool

/-- C88.  The numbers returned are those of the Network-Number-Is messages received
(legal numbers are 1 to 65534), in order. -/
theorem C88_numbers (pending : UInt8 → Bool) (l : List C88_Answer)
    (hl : ∀ x ∈ l, x.function = 10 ∨ x.function = 11) :
    (whatIsNetworkNumber (publishedBy pending
      (l.map fun x => (x.src, Spec.frame x.function (Spec.networkNumberIs x.net.toNat x.configured))))).map Address.net =
    (l.map C88_Answer.net).filter fun n => 1 ≤ n ∧ n ≤ 65534 := by
  induction l with
  | nil => rfl
  | cons x l ih =>
    have ih := ih fun y hy => hl y (List.mem_cons_of_mem _ hy)
    obtain ⟨h, hs, hr⟩ := networkNumberIs_run x.src pending x.function (hl x List.mem_cons_self) x.net x.configured
    unfold whatIsNetworkNumber publishedBy at ih ⊢
    simp only [List.map_cons, List.flatMap_cons, hr, List.filterMap_cons, List.filterMap_nil, List.singleton_append,
      List.filter_cons]
    have e : ((x.net.toNat : Int) ≥ 1 && (x.net.toNat : Int) ≤ 65534 : Bool) = decide (1 ≤ x.net ∧ x.net ≤ 65534) := by
      rw [Bool.decide_and]
      congr 1
      · refine decide_eq_decide.2 ?_
        rw [UInt16.le_iff_toNat_le, show (1 : UInt16).toNat = 1 from rfl]; omega
      · refine decide_eq_decide.2 ?_
        rw [UInt16.le_iff_toNat_le, show (65534 : UInt16).toNat = 65534 from rfl]; omega
    rw [e]
    by_cases c : 1 ≤ x.net ∧ x.net ≤ 65534
    · rw [decide_eq_true c]
      simp only [if_true, List.filterMap_cons, hs, List.map_cons, ih]
    · rw [decide_eq_false c]
      simp only [Bool.false_eq_true, if_false, ih]

example : Spec.networkNumberIs 260 true = [1, 0x80, 0x13, 1, 4, 1] := by decide

/-! ## C87 Who-Is-Router-To-Network -/

/-- C87 fails: the usual announcement, of one network, is lost; of three networks the
third is missing. -/
theorem C87_fails (src : Address) (pending : UInt8 → Bool) :
    whoIsRouter (publishedBy pending [(src, Spec.frame 11 (iAmRouter [5]))]) = [] ∧
    (whoIsRouter (publishedBy pending [(src, Spec.frame 11 (iAmRouter [5, 6, 7]))])).map Address.net = [5, 6] := by
  have h1 : handleMsg src pending (Spec.frame 11 (iAmRouter [5])) = ([], .ok ()) := by
    rw [show Spec.frame 11 (iAmRouter [5]) = [0x81, 11, 0, 9, 1, 0x80, 1, 0, 5] by decide]; rfl
  have h2 : handleMsg src pending (Spec.frame 11 (iAmRouter [5, 6, 7])) =
      ([.publish 6 (.networks (some [{ net := 5 }, { net := 6 }]))], .ok ()) := by
    rw [show Spec.frame 11 (iAmRouter [5, 6, 7]) = [0x81, 11, 0, 13, 1, 0x80, 1, 0, 5, 0, 6, 0, 7] by decide]; rfl
  unfold publishedBy
  simp only [List.flatMap_cons, List.flatMap_nil, h1, h2]
  decide

/-- C87 fails: what follows the second network is taken for an application message; the
networks 5, 6, 4096 and 28672 read as an I-Am whose decoding panics, which ends the process. -/
theorem C87_fails_crash (src : Address) (pending : UInt8 → Bool) :
    (handleMsg src pending (Spec.frame 11 (iAmRouter [5, 6, 4096, 28672]))).2.Panics := by
  rw [show Spec.frame 11 (iAmRouter [5, 6, 4096, 28672]) =
    [0x81, 11, 0, 15, 1, 0x80, 1, 0, 5, 0, 6, 0x10, 0, 0x70, 0] by decide]
  exact trivial

example : (whoIsRouter (publishedBy (fun _ => false) [({}, [0x81, 11, 0, 11, 1, 0x80, 1, 0, 5, 1, 6])])).map Address.net =
    [5, 262] := by decide +kernel

theorem iAmRouter_run (src : Address) (pending : UInt8 → Bool) (f : UInt8) (hf : f = 10 ∨ f = 11)
    (a b : UInt16) :
    handleMsg src pending (Spec.frame f (iAmRouter [a, b])) =
      ([.publish b.toNat (.networks (some (if a = b then [{ net := a }] else [{ net := a }, { net := b }])))], .ok ()) := by
  have h : Parses Dec.npdu ([1] ++ ([0x80] ++ ([0x01] ++ (be16 a ++ be16 b))))
      ({ version := 1, source := some { net := b }, isNetworkLayerMessage := true, networkLayerMessageType := 1 },
        some (if a ≠ b then [{ net := a }, { net := b }] else [{ net := a }]), none) := by
    unfold Dec.npdu
    refine Parses.bind (Dec.parses_u8 1) (Parses.bind (Dec.parses_u8 0x80) ?_)
    rw [show checkMask 0x80 0x20 = false from rfl, show checkMask 0x80 0x08 = false from rfl,
      show checkMask 0x80 0x04 = false from rfl, show checkMask 0x80 0x80 = true from rfl,
      show (0x80 : UInt8) &&& 3 = 0 from rfl]
    refine Parses.bind0 (Parses.pure _) (Parses.bind0 (Parses.pure _)
      (Parses.bind0 (Parses.pure _) ?_))
    rw [if_pos rfl]
    refine Parses.bind (Dec.parses_u8 1) (Parses.bind0 (Parses.pure _) ?_)
    dsimp only
    rw [if_neg (by decide), if_pos rfl]
    exact Parses.bind (Dec.parses_be16 a) (Parses.bind' (u16Into_be16 a b)
      (Parses.bind0 Dec.parses_error (Parses.pure _)))
  obtain ⟨l, hl⟩ := frame_octets f (iAmRouter [a, b])
  obtain ⟨p, hp⟩ := handleMsg_frame src pending 0x81 f l (iAmRouter [a, b]) hf
  rw [hl, hp]
  have e : iAmRouter [a, b] = ([1] ++ ([0x80] ++ ([0x01] ++ (be16 a ++ be16 b)))) ++ [] := by
    simp [iAmRouter]
  unfold networkMsg
  rw [e, h p _]
  obtain ⟨x, d, y, ha⟩ := apdu_short [] (lastOr p ([1] ++ ([0x80] ++ ([0x01] ++ (be16 a ++ be16 b)))))
    (by simp) (by simp)
  have e2 : (if a ≠ b then [({ net := a } : Address), { net := b }] else [{ net := a }]) =
      if a = b then [{ net := a }] else [{ net := a }, { net := b }] := by
    by_cases hab : a = b <;> simp [hab]
  simp only [Option.isSome_none, Option.isSome_some, Bool.false_eq_true, if_false, if_true, networkEffects, ha, ended,
    e2, show ¬ (1 : UInt8) = 0x13 from by decide]

/-- C87, for announcements of two networks (legal numbers are 1 to 65534): all announced
networks are returned, and no others.  Missing: every other number of networks. -/
theorem C87_two_partial (pending : UInt8 → Bool) (l : List (Address × UInt8 × UInt16 × UInt16))
    (hf : ∀ x ∈ l, x.2.1 = 10 ∨ x.2.1 = 11)
    (hl : ∀ x ∈ l, 1 ≤ x.2.2.2 ∧ x.2.2.2 ≤ 65534) (n : UInt16) :
    n ∈ (whoIsRouter (publishedBy pending
      (l.map fun x => (x.1, Spec.frame x.2.1 (iAmRouter [x.2.2.1, x.2.2.2]))))).map Address.net ↔
    ∃ x ∈ l, n = x.2.2.1 ∨ n = x.2.2.2 := by
  induction l with
  | nil => simp [publishedBy, whoIsRouter]
  | cons x l ih =>
    have ih := ih (fun y hy => hf y (List.mem_cons_of_mem _ hy)) (fun y hy => hl y (List.mem_cons_of_mem _ hy))
    have hr := iAmRouter_run x.1 pending x.2.1 (hf x List.mem_cons_self) x.2.2.1 x.2.2.2
    obtain ⟨h1, h2⟩ := hl x List.mem_cons_self
    rw [UInt16.le_iff_toNat_le, show (1 : UInt16).toNat = 1 from rfl] at h1
    rw [UInt16.le_iff_toNat_le, show (65534 : UInt16).toNat = 65534 from rfl] at h2
    unfold whoIsRouter publishedBy at ih ⊢
    simp only [List.map_cons, List.flatMap_cons, hr, List.filterMap_cons, List.filterMap_nil, List.singleton_append,
      List.filter_cons]
    rw [if_pos (by simp; omega)]
    simp only [List.flatMap_cons, List.map_append, List.mem_append, ih, Option.getD_some, List.mem_cons, exists_eq_or_imp]
    refine or_congr_left ?_
    by_cases hab : x.2.2.1 = x.2.2.2 <;> simp [hab]

/-! ## C89 The request sent by WhoIs -/

theorem npdu_broadcast (my dest : Address) (hmy : my.net = 0) (hd : dest.len = 0 ∧ dest.adr = []) :
    Enc.new.npdu { version := 1, destination := some dest, source := some my, hopCount := 255 } =
      .ok ⟨(Spec.broadcastHeader dest.net.toNat).octets, none⟩ := by
  by_cases h : dest.net = 0
  · simp only [Enc.npdu, npduMeta, hmy, h, ne_eq, not_true_eq_false, if_false,
      show checkMask (setInfoMask (setInfoMask 0 false 0x80) false 0x04 ||| 0) 0x20 = false from rfl,
      show checkMask (setInfoMask (setInfoMask 0 false 0x80) false 0x04 ||| 0) 0x08 = false from rfl,
      show checkMask (setInfoMask (setInfoMask 0 false 0x80) false 0x04 ||| 0) 0x80 = false from rfl,
      Enc.optNpduAddress, Bool.false_eq_true, Outcome.ok_bind, Enc.write_write, Enc.new_write]
    rfl
  · have hn : ¬ dest.net.toNat = 0 := fun e => h (UInt16.toNat_inj.1 e)
    simp only [Enc.npdu, npduMeta, hmy, h, ne_eq, not_true_eq_false, not_false_eq_true, if_false, if_true,
      show checkMask (setInfoMask (setInfoMask (setInfoMask 0 false 0x80) false 0x04 ||| 0) true 0x20) 0x20 = true from rfl,
      show checkMask (setInfoMask (setInfoMask (setInfoMask 0 false 0x80) false 0x04 ||| 0) true 0x20) 0x08 = false from rfl,
      show checkMask (setInfoMask (setInfoMask (setInfoMask 0 false 0x80) false 0x04 ||| 0) true 0x20) 0x80 = false from rfl,
      Enc.optNpduAddress, Enc.npduAddress, Bool.false_eq_true, Outcome.ok_bind, Enc.write_write, Enc.new_write]
    have := addr_octets dest (by rw [hd.1, hd.2]; rfl)
    unfold Spec.NetHeader.octets Spec.broadcastHeader
    rw [hd.2] at this
    simp only [if_neg hn, this, hd.1, hd.2]
    have hw : ∀ b bs, (Enc.mk b none).write bs = ⟨b ++ bs, none⟩ := fun b bs => by simp [Enc.write]
    simp only [hw]
    show Outcome.ok (Enc.mk ([1] ++ ([32] ++ be16 dest.net ++ [0] ++ [] ++ [255])) none) =
      Outcome.ok ⟨[1, 32] ++ (be16 dest.net ++ ([0] ++ [])) ++ [] ++ [255] ++ [], none⟩
    simp

theorem whoIs_prefix (pre : List UInt8) (low high : Int32) :
    ∃ limits, (Enc.mk pre none).whoIs low high = (⟨pre ++ Spec.whoIs limits, none⟩, none) ∧
      limits = if 0 ≤ low.toInt ∧ low.toInt < 4194303 ∧ 0 ≤ high.toInt ∧ high.toInt < 4194303
        then some (low.toInt.toNat, high.toInt.toNat) else none := by
  refine ⟨_, ?_, rfl⟩
  have hw : ∀ b bs, (Enc.mk b none).write bs = ⟨b ++ bs, none⟩ := fun b bs => by simp [Enc.write]
  by_cases h : 0 ≤ low.toInt ∧ low.toInt < 4194303 ∧ 0 ≤ high.toInt ∧ high.toInt < 4194303
  · obtain ⟨l1, _⟩ := int32_nonneg low h.1
    obtain ⟨h1, _⟩ := int32_nonneg high h.2.2.1
    have el : low.toInt.toNat = low.toUInt32.toNat := by omega
    have eh : high.toInt.toNat = high.toUInt32.toNat := by omega
    rw [if_pos h, el, eh]
    simp only [Enc.whoIs, if_pos ((whoIs_cond low high).2 h), Enc.contextUnsigned_eq, hw]
    simp [Spec.whoIs, Spec.unconfirmedHeader]
  · rw [if_neg h]
    simp only [Enc.whoIs, if_neg (fun c => h ((whoIs_cond low high).1 c)), hw]
    simp [Spec.whoIs, Spec.unconfirmedHeader]

/-- C89, for upper limits below 2^32: the request is a Who-Is, broadcast on the network asked
for, which asks for every device that the call would return.  (`my` and `broadcast` are the data
link's addresses.)  Missing: larger limits, see `C89_fails`. -/
theorem C89_covers_partial (o : WhoIsOpts) (my broadcast : Address) (hmy : my.net = 0)
    (hb : broadcast.len = 0 ∧ broadcast.adr = []) (hh : o.high < 4294967296) :
    ∃ limits, whoIsPack my (o.dest broadcast) o.limits.1 o.limits.2 =
        .ok ((Spec.broadcastHeader (if o.globalBroadcast then 65535 else o.networkNumber.toNat)).octets ++ Spec.whoIs limits, none) ∧
      ∀ inst : Nat, o.range.1 ≤ inst → (inst : Int) ≤ o.range.2 → Spec.asksFor limits inst := by
  have hd : (o.dest broadcast).net.toNat = if o.globalBroadcast then 65535 else o.networkNumber.toNat := by
    unfold WhoIsOpts.dest; dsimp only; split <;> rfl
  unfold whoIsPack
  rw [npdu_broadcast my (o.dest broadcast) hmy hb, hd]
  obtain ⟨limits, hw, hl⟩ := whoIs_prefix (Spec.broadcastHeader (if o.globalBroadcast then 65535 else o.networkNumber.toNat)).octets
    (Int32.ofInt o.limits.1) (Int32.ofInt o.limits.2)
  refine ⟨limits, ?_, ?_⟩
  · simp only [Outcome.ok_bind, hw]
  · intro inst h1 h2
    have n1 : 0 ≤ o.limits.1 ∧ 0 < o.limits.2 ∧ o.limits.2 < 4294967296 := by
      unfold WhoIsOpts.limits
      dsimp only
      split_ifs <;> refine ⟨?_, ?_, ?_⟩ <;> omega
    have e : o.range = o.limits := by
      unfold WhoIsOpts.range
      rw [if_neg (by omega)]
    rw [e] at h1 h2
    generalize o.limits.1 = lo at *
    generalize o.limits.2 = hi at *
    rw [hl]
    split_ifs with hc
    · rw [Int32.toInt_ofInt, Int32.toInt_ofInt] at hc
      simp only [Spec.asksFor, Int32.toInt_ofInt]
      have s : Int32.size = 4294967296 := rfl
      rw [s] at hc ⊢
      rw [Int.bmod_def] at hc
      rw [Int.bmod_def, Int.bmod_def]
      rw [Int.bmod_def] at hc
      split_ifs at * <;> omega
    · trivial

/-- C89, the other direction: limits 0 < low, 0 < high below the largest instance are the
limits sent; without an upper limit all devices are asked, whatever the lower limit. -/
theorem C89_request (o : WhoIsOpts) (my broadcast : Address) (hmy : my.net = 0)
    (hb : broadcast.len = 0 ∧ broadcast.adr = []) (hlo : o.low < 4194303) (hh : o.high < 4194303) :
    whoIsPack my (o.dest broadcast) o.limits.1 o.limits.2 =
      .ok ((Spec.broadcastHeader (if o.globalBroadcast then 65535 else o.networkNumber.toNat)).octets ++
        Spec.whoIs (if 0 < o.high then some (o.low.toNat, o.high.toNat) else none), none) := by
  have hd : (o.dest broadcast).net.toNat = if o.globalBroadcast then 65535 else o.networkNumber.toNat := by
    unfold WhoIsOpts.dest; dsimp only; split <;> rfl
  unfold whoIsPack
  rw [npdu_broadcast my (o.dest broadcast) hmy hb, hd]
  obtain ⟨limits, hw, hl⟩ := whoIs_prefix (Spec.broadcastHeader (if o.globalBroadcast then 65535 else o.networkNumber.toNat)).octets
    (Int32.ofInt o.limits.1) (Int32.ofInt o.limits.2)
  simp only [Outcome.ok_bind, hw]
  have s : Int32.size = 4294967296 := rfl
  have hl1 : o.limits.1 = if o.low ≤ 0 then 0 else o.low := rfl
  have hl2 : o.limits.2 = if o.high ≤ 0 then 4194304 else o.high := rfl
  have i1 : (Int32.ofInt o.limits.1).toInt = o.limits.1 := by
    rw [Int32.toInt_ofInt, s, Int.bmod_def, hl1]
    split_ifs <;> omega
  have i2 : (Int32.ofInt o.limits.2).toInt = o.limits.2 := by
    rw [Int32.toInt_ofInt, s, Int.bmod_def, hl2]
    split_ifs <;> omega
  rw [i1, i2, hl1, hl2] at hl
  have : limits = if 0 < o.high then some (o.low.toNat, o.high.toNat) else none := by
    rw [hl]
    by_cases h1 : o.low ≤ 0 <;> by_cases h2 : o.high ≤ 0
    · rw [if_pos h1, if_pos h2, if_neg (by omega), if_neg (by omega)]
    · rw [if_pos h1, if_neg h2, if_pos (by omega), if_pos (by omega)]
      exact congrArg (fun n => some (n, o.high.toNat)) (by omega)
    · rw [if_neg h1, if_pos h2, if_neg (by omega), if_neg (by omega)]
    · rw [if_neg h1, if_neg h2, if_pos (by omega), if_pos (by omega)]
  rw [this]

/-- C89 fails for an upper limit of 2^32 or more, which is cut down to 32 bits: the
request sent for 1..4294967301 asks for 1..5. -/
theorem C89_fails (my : Address) (hmy : my.net = 0) :
    whoIsPack my (WhoIsOpts.dest { low := 1, high := 4294967301 } {}) 1 4294967301 =
      .ok ([1, 0] ++ Spec.whoIs (some (1, 5)), none) ∧
    (WhoIsOpts.limits { low := 1, high := 4294967301 }) = (1, 4294967301) ∧ ¬ Spec.asksFor (some (1, 5)) 6 := by
  refine ⟨?_, by decide, by unfold Spec.asksFor; decide⟩
  unfold whoIsPack
  rw [npdu_broadcast my _ hmy ⟨rfl, rfl⟩]
  with_unfolding_all rfl

example : whoIsPack {} (WhoIsOpts.dest { low := 10, high := 300, networkNumber := 7 } { mac := [10, 0, 0, 255, 0xBA, 0xC0] }) 10 300 =
    .ok ([1, 0x20, 0, 7, 0, 255, 0x10, 8, 0x09, 10, 0x1A, 1, 44], none) := by decide +kernel

/-! ## C90 Discovery, from the datagrams to the list -/

/-- An I-Am as it arrives. -/
structure C90_Answer where
  src : Address
  function : UInt8
  header : NetHeader
  iam : IAm

/-- The datagram (annex J.2, clauses 6.2 and 16.10). -/
def C90_Answer.frame (x : C90_Answer) : List UInt8 :=
  Spec.frame x.function (x.header.octets ++ Spec.iAm x.iam.id.typ.toNat x.iam.id.inst.toNat
    x.iam.maxApdu.toNat x.iam.segmentation.toNat x.iam.vendor.toNat)

theorem publishedBy_iams (pending : UInt8 → Bool) (l : List C90_Answer)
    (hl : ∀ x ∈ l, (x.function = 10 ∨ x.function = 11) ∧ x.header.Ok ∧ C04_Valid x.iam.id) :
    publishedBy pending (l.map fun x => (x.src, x.frame)) =
      l.map fun x => ((x.iam.id.inst.toNat : Int), Published.iam { x.iam with addr := C75_address x.src x.header }) := by
  induction l with
  | nil => rfl
  | cons x l ih =>
    have ih := ih fun y hy => hl y (List.mem_cons_of_mem _ hy)
    obtain ⟨hf, hok, hv⟩ := hl x List.mem_cons_self
    have hr := C75_direct x.src pending x.header hok x.function hf x.iam hv
    unfold publishedBy at ih ⊢
    simp only [List.map_cons, List.flatMap_cons, C90_Answer.frame, hr, List.filterMap_cons, List.filterMap_nil,
      List.singleton_append]
    rw [← ih]
    rfl

/-- C90.  If the datagrams received during a call are I-Ams of any devices, directly or through
routers, the call with limits 1 <= low, 1 <= high returns the first answer of every device within the
limits, in order, with the values it sent and the address to be used for it. -/
theorem C90_discovery (o : WhoIsOpts) (ho : 1 ≤ o.low ∧ 1 ≤ o.high) (pending : UInt8 → Bool) (l : List C90_Answer)
    (hl : ∀ x ∈ l, (x.function = 10 ∨ x.function = 11) ∧ x.header.Ok ∧ C04_Valid x.iam.id) :
    (whoIs o (publishedBy pending (l.map fun x => (x.src, x.frame)))).map
        (fun d => (d.id, d.maxApdu, d.segmentation, d.vendor, d.addr)) =
      (firsts (fun x : C90_Answer => x.iam.id.inst)
        (l.filter fun x => o.low ≤ x.iam.id.inst.toNat ∧ (x.iam.id.inst.toNat : Int) ≤ o.high)).map
        (fun x => (x.iam.id, x.iam.maxApdu, x.iam.segmentation, x.iam.vendor, C75_address x.src x.header)) := by
  have e : o.range = (o.low, o.high) := by
    unfold WhoIsOpts.range WhoIsOpts.limits
    dsimp only
    rw [if_neg (show ¬ o.low ≤ 0 by omega), if_neg (show ¬ o.high ≤ 0 by omega), if_neg (by omega)]
  rw [C54_first, e, publishedBy_iams pending l hl]
  have h : ∀ l : List C90_Answer, C54_answers o.low o.high
      (l.map fun x => ((x.iam.id.inst.toNat : Int), Published.iam { x.iam with addr := C75_address x.src x.header })) =
      (l.filter fun x => o.low ≤ x.iam.id.inst.toNat ∧ (x.iam.id.inst.toNat : Int) ≤ o.high).map
        fun x => { x.iam with addr := C75_address x.src x.header } := by
    intro l
    induction l with
    | nil => rfl
    | cons x l ih =>
      unfold C54_answers at ih ⊢
      simp only [List.map_cons, List.filterMap_cons, List.filter_cons]
      by_cases c : o.low ≤ x.iam.id.inst.toNat ∧ (x.iam.id.inst.toNat : Int) ≤ o.high
      · rw [if_pos c, if_pos (by simpa using c)]
        simp only [List.map_cons, ih]
      · rw [if_neg c, if_neg (by simpa using c)]
        simp only [ih]
  rw [h, firsts_map, List.map_map]
  rfl

example : (whoIs { low := 1, high := 100 } (publishedBy (fun _ => false)
      [({ mac := [10, 0, 0, 9, 0xBA, 0xC0] }, [0x81, 11, 0, 20, 1, 0, 0x10, 0, 0xC4, 2, 0, 0, 7, 0x22, 1, 0xE0, 0x91, 3, 0x21, 5])])).map
    (fun d => [d.deviceId, d.port, d.maxApdu.toNat]) = [[7, 47808, 480]] := by decide +kernel

end Bac.Props
