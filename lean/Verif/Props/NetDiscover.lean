import Verif.Props.Network
import Verif.Props.Names
/-!
# C67, C68, C102, C109, C112, C113: discovery and object lists of package network
-/

namespace Bac.Props

open Spec (AppVal Means)

/-! ## C67 Discovery returns each device once with its own data -/

/-- The device returned has the data of the device found. -/
def C67_Own (f : FoundDevice) (d : NetDevice) : Prop :=
  d.deviceId = f.id.inst.toNat ∧ d.networkNumber = f.addr.net.toNat ∧ d.maxApdu = f.maxApdu ∧
  d.segmentation = f.segmentation ∧
  (∀ a b c e port, f.addr.udpAddr = some ((a, b, c, e), port) → d.ip = .v4 a b c e) ∧
  (∀ x xs, f.addr.adr = x :: xs → d.macMSTP = x.toNat)

theorem details_runs {read : UInt32 → N PropertyData} {P : Device → PropertyData → Prop}
    (h : ∀ p, (read p).Runs P) : (deviceDetails read).Runs P :=
  N.Runs.bind (h 77) fun _ => N.Runs.bind (h 62) fun _ => N.Runs.bind (h 121) fun _ =>
    N.Runs.bind (h 107) fun _ => N.Runs.pure _ _

theorem detailRead_runs {net : Reader} (h : net.Returns) (d : NetDevice) (inst prop : UInt32) :
    (detailRead net d inst prop).Runs (fun dev rp => dev = d.dev.target ∧ rp.object.id = ⟨8, inst⟩) :=
  N.Runs.bind (N.Runs.read h d _ ⟨rfl, rfl⟩) fun _ => N.Runs.pure _ _

theorem discoverOne_spec {net : Reader} (h : net.Returns) (d : NetDevice) (f : FoundDevice) (c : Calls) :
    ∃ c' d', discoverOne net d f c = (c ++ c', .ok d') ∧ C67_Own f d' ∧ d'.dev = d.dev ∧
      ∀ x ∈ c', x.1 = d.dev.target ∧ x.2.object.id = ⟨8, f.id.inst⟩ := by
  obtain ⟨c', a, e, hp⟩ := details_runs (P := fun dev rp => dev = d.dev.target ∧ rp.object.id = ⟨8, f.id.inst⟩)
    (read := detailRead net ({ d with
      macMSTP := match f.addr.adr with
        | [] => d.macMSTP
        | x :: _ => x.toNat,
      deviceId := f.id.inst.toNat, ip := hostOf f.addr, networkNumber := f.addr.net.toNat,
      maxApdu := f.maxApdu, segmentation := f.segmentation } : NetDevice) f.id.inst)
    (fun p => detailRead_runs h _ _ p) c
  refine ⟨c', _, (N.bind_ok e).trans rfl, ⟨rfl, rfl, rfl, rfl, ?_, ?_⟩, rfl, hp⟩
  · intro a b c e port hu
    show hostOf f.addr = _
    unfold hostOf
    rw [hu]
  · intro x xs hx
    simp only [hx]

theorem discoverLoop_spec {net : Reader} (h : net.Returns) (fs : List FoundDevice) : ∀ (d : NetDevice) (c : Calls),
    ∃ c' d', discoverLoop net d fs c = (c ++ c', .ok (d', List.replicate fs.length ())) ∧
      (∀ f, fs.getLast? = some f → C67_Own f d') ∧ d'.dev = d.dev ∧ ∀ x ∈ c', x.1 = d.dev.target := by
  induction fs with
  | nil => intro d c; exact ⟨[], d, by simp [discoverLoop, N.pure_apply], by simp, rfl, by simp⟩
  | cons f fs ih =>
    intro d c
    obtain ⟨c1, d1, e1, o1, v1, p1⟩ := discoverOne_spec h d f c
    obtain ⟨c2, d2, e2, o2, v2, p2⟩ := ih d1 (c ++ c1)
    refine ⟨c1 ++ c2, d2, ?_, ?_, v2.trans v1, ?_⟩
    · refine (N.bind_ok e1).trans ((N.bind_ok e2).trans ?_)
      rw [List.append_assoc]; rfl
    · intro g hg
      cases fs with
      | nil =>
        have e2' : discoverLoop net d1 [] (c ++ c1) = (c ++ c1, .ok (d1, [])) := rfl
        rw [e2'] at e2
        simp only [Prod.mk.injEq, Outcome.ok.injEq] at e2
        rw [← e2.2.1]
        simp only [List.getLast?_singleton, Option.some.injEq] at hg
        rw [← hg]; exact o1
      | cons f' fs' => exact o2 g (by rwa [List.getLast?_cons_cons] at hg)
    · intro x hx
      rcases List.mem_append.mp hx with hx | hx
      · exact (p1 x hx).1
      · rw [p2 x hx, v1]

/-- All entries returned are the same, with the data of the device found last. -/
theorem C67_same {net : Reader} (h : net.Returns) (d : NetDevice) (found : List FoundDevice) (c : Calls) :
    ∃ c' d', deviceDiscover net d (.ok found) c = (c ++ c', .ok (.ok (List.replicate found.length d'))) ∧
      (∀ f, found.getLast? = some f → C67_Own f d') ∧ ∀ x ∈ c', x.1 = d.dev.target := by
  obtain ⟨c', d', e, o, _, p⟩ := discoverLoop_spec h found d c
  refine ⟨c', d', (N.bind_ok e).trans ?_, o, p⟩
  show (c ++ c', Outcome.ok (Except.ok (List.map (fun _ => d') (List.replicate found.length ())))) = _
  rw [List.map_replicate]

/-- C67 fails: as soon as two devices with different instances are found, the entries
returned are not the devices found. -/
theorem C67_fails {net : Reader} (h : net.Returns) (d : NetDevice) (found : List FoundDevice) (c : Calls)
    (f g : FoundDevice) (hf : f ∈ found) (hg : g ∈ found) (hne : f.id.inst ≠ g.id.inst) :
    ∃ c' out, deviceDiscover net d (.ok found) c = (c', .ok (.ok out)) ∧ ¬ List.Forall₂ C67_Own found out := by
  obtain ⟨c', d', e, _, _⟩ := C67_same h d found c
  refine ⟨_, _, e, fun hall => hne ?_⟩
  have key : ∀ x ∈ found, x.id.inst.toNat = d'.deviceId := by
    intro x hx
    obtain ⟨i, hi, rfl⟩ := List.mem_iff_getElem.mp hx
    have := (List.forall₂_iff_get.mp hall).2 i hi (by rw [List.length_replicate]; exact hi)
    have := this.1
    simp only [List.get_eq_getElem, List.getElem_replicate] at this
    exact this.symm
  have h1 := key f hf
  have h2 := key g hg
  exact UInt32.toNat_inj.mp (by omega)

/-- C67.  With at most one device found, the list returned is right.  Missing: more
(`C67_fails`). -/
theorem C67_partial {net : Reader} (h : net.Returns) (d : NetDevice) (found : List FoundDevice) (c : Calls)
    (hl : found.length ≤ 1) :
    ∃ c' out, deviceDiscover net d (.ok found) c = (c', .ok (.ok out)) ∧ List.Forall₂ C67_Own found out := by
  obtain ⟨c', d', e, o, _⟩ := C67_same h d found c
  refine ⟨_, _, e, ?_⟩
  match found, hl with
  | [], _ => exact List.Forall₂.nil
  | [f], _ => exact List.Forall₂.cons (o f rfl) List.Forall₂.nil

/-- Two devices found, both entries are the second. -/
example : (deviceDiscover (fun _ _ _ => .ok (.error .timeout)) {} (.ok [{ id := ⟨8, 1⟩, maxApdu := 480 }, { id := ⟨8, 2⟩, maxApdu := 1476 }]) []).2 =
    .ok (.ok [{ deviceId := 2, maxApdu := 1476 }, { deviceId := 2, maxApdu := 1476 }]) := by decide +kernel

/-! ## C102 The details of a device are asked of that device -/

/-- C102 fails for `DeviceDiscover`: every read goes to the address of the receiver; a
device found at another address is asked nothing. -/
theorem C102_fails {net : Reader} (h : net.Returns) (d : NetDevice) (found : List FoundDevice) (c : Calls)
    (f : FoundDevice) (_hf : f ∈ found) (hne : f.addr.udpAddr ≠ d.dev.addr.udpAddr) :
    ∃ c' r, deviceDiscover net d (.ok found) c = (c ++ c', .ok r) ∧ ∀ x ∈ c', x.1.addr.udpAddr ≠ f.addr.udpAddr := by
  obtain ⟨c', d', e, _, p⟩ := C67_same h d found c
  exact ⟨c', _, e, fun x hx => by rw [p x hx]; exact fun hc => hne hc.symm⟩

example : (deviceDiscover (fun _ _ _ => .ok (.error .timeout)) (NetDevice.made { ip := .v4 10 0 0 9 })
      (.ok [{ id := ⟨8, 1⟩, addr := { mac := [10, 0, 0, 7, 0xBA, 0xC0] } }]) []).1.map (fun x => x.1.addr.mac) =
    List.replicate 4 [10, 0, 0, 9, 0xBA, 0xC0] := by decide +kernel

/-- A device that announced itself from a UDP endpoint, directly or as a station with a
hardware address of one octet behind a router. -/
def C102_Plain (r : IAm) : Prop :=
  r.id.typ = 8 ∧ (∃ a b c d port, Spec.IsEndpoint r.addr.mac a b c d port ∧ port ≠ 0) ∧
  (r.addr.net = 0 ∨ r.addr.adr.length = 1)

theorem be16_endpoint (a b c d : UInt8) (port : Nat) (h : port < 65536) :
    Spec.IsEndpoint (ipBytes (.v4 a b c d) (UInt16.ofInt port)) a b c d port := by
  refine ⟨((UInt16.ofInt port) >>> 8).toUInt8, (UInt16.ofInt port).toUInt8, rfl, ?_⟩
  have hp : (UInt16.ofInt port).toNat = port := by have := toNat_ofInt16 (port : Int); omega
  have e8 : (8 : UInt16).toNat = 8 := rfl
  rw [UInt16.toNat_toUInt8, UInt16.toNat_toUInt8, UInt16.toNat_shiftRight, hp, e8, Nat.shiftRight_eq_div_pow, show 2 ^ (8 % 16) = 256 from rfl]
  omega

theorem foundDevice_parts (r : IAm) {a b c d : UInt8} {port : Nat} (hu : r.addr.udpAddr = some ((a, b, c, d), port)) :
    (foundDevice r).toB.ip = .v4 a b c d ∧ (foundDevice r).port = port ∧
    (foundDevice r).networkNumber = (if r.addr.net > 0 then (r.addr.net.toNat : Int) else 0) ∧
    (∀ x xs, r.addr.adr = x :: xs → (foundDevice r).macMSTP = x.toNat) ∧
    (foundDevice r).deviceId = r.id.inst.toNat ∧ (foundDevice r).maxApdu = r.maxApdu := by
  unfold FoundDevice.toB foundDevice
  rw [hu]
  refine ⟨rfl, rfl, rfl, ?_, rfl, rfl⟩
  intro x xs hx
  simp only [hx]

/-- The device the details are read from is the device found. -/
theorem rebuilt_plain (r : IAm) (h : C102_Plain r) :
    (rebuilt (foundDevice r)).addr.udpAddr = r.addr.udpAddr ∧ (rebuilt (foundDevice r)).addr.net = r.addr.net ∧
    (r.addr.net ≠ 0 → (rebuilt (foundDevice r)).addr.adr = r.addr.adr) ∧
    (rebuilt (foundDevice r)).maxApdu = r.maxApdu ∧ (rebuilt (foundDevice r)).deviceId = r.id.inst.toNat := by
  obtain ⟨_, ⟨a, b, c, d, port, hep, h0⟩, hst⟩ := h
  have hu := udpAddr_endpoint hep
  have hlt : port < 65536 := by
    obtain ⟨hi, lo, _, hp⟩ := hep
    have := hi.toNat_lt; have := lo.toNat_lt
    omega
  obtain ⟨f1, f2, f3, f4, f5, f6⟩ := foundDevice_parts r hu
  refine ⟨?_, ?_, ?_, f6, f5⟩
  · rw [hu]
    refine udpAddr_endpoint ?_
    show Spec.IsEndpoint (ipBytes (foundDevice r).toB.ip (UInt16.ofInt (if (foundDevice r).port = 0 then 0xBAC0 else (foundDevice r).port))) a b c d port
    rw [f1, f2, if_neg (by omega)]
    exact be16_endpoint a b c d port hlt
  · show UInt16.ofInt (foundDevice r).networkNumber = r.addr.net
    rw [f3]
    refine UInt16.toNat_inj.mp ?_
    have hn := r.addr.net.toNat_lt
    split
    · have := toNat_ofInt16 (r.addr.net.toNat : Int); omega
    · rename_i hz
      have hz : ¬ (0 : UInt16).toNat < r.addr.net.toNat := hz
      have e0 : (0 : UInt16).toNat = 0 := rfl
      have := toNat_ofInt16 (0 : Int)
      omega
  · intro hn
    have h1 := hst.resolve_left hn
    show [UInt8.ofInt (foundDevice r).macMSTP] = _
    match ha : r.addr.adr, h1 with
    | [x], _ =>
      rw [f4 x [] ha]
      congr 1
      refine UInt8.toNat_inj.mp ?_
      have := toNat_ofInt8 (x.toNat : Int)
      have := x.toNat_lt
      omega

/-- One client call of `networkDetailRead`. -/
theorem networkDetailRead_run {net : Reader} (h : net.Returns) (dev : BDevice) (prop : UInt32) (c : Calls) :
    ∃ rp out, networkDetailRead net dev prop c = (c ++ [(dev.target, rp)], .ok out) ∧
      rp.object.id = ⟨8, UInt32.ofInt dev.deviceId⟩ := by
  obtain ⟨r, hr⟩ := h c.length dev.target (NetObject.request ⟨UInt32.ofInt dev.deviceId, 8, prop, arrayAll⟩)
  have e : N.readProperty net dev.target (NetObject.request ⟨UInt32.ofInt dev.deviceId, 8, prop, arrayAll⟩) c =
      (c ++ [(dev.target, NetObject.request ⟨UInt32.ofInt dev.deviceId, 8, prop, arrayAll⟩)], .ok r) := by
    unfold N.readProperty; rw [hr]
  cases r with
  | ok out => exact ⟨_, out, (N.bind_ok e).trans rfl, rfl⟩
  | error e' => exact ⟨_, {}, (N.bind_ok e).trans rfl, rfl⟩

/-- The details from the four answers. -/
def detailsOf (name apdu vendor seg : PropertyData) : DeviceDetails :=
  { name := toStr name, maxApdu := toUint32 apdu, vendorName := toStr vendor, segmentation := toUint32 seg }

/-- The device returned for one found. -/
def withDetails (f : FoundDevice) (a : DeviceDetails) : BDevice :=
  { f.toB with deviceName := a.name, vendorName := a.vendorName, maxApdu := a.maxApdu, segmentation := a.segmentation }

theorem details_steps {read : UInt32 → N PropertyData} {c c1 c2 c3 c4 : Calls} {o1 o2 o3 o4 : PropertyData}
    (e1 : read 77 c = (c1, .ok o1)) (e2 : read 62 c1 = (c2, .ok o2)) (e3 : read 121 c2 = (c3, .ok o3))
    (e4 : read 107 c3 = (c4, .ok o4)) : deviceDetails read c = (c4, .ok (detailsOf o1 o2 o3 o4)) :=
  (N.bind_ok e1).trans ((N.bind_ok e2).trans ((N.bind_ok e3).trans ((N.bind_ok e4).trans rfl)))

theorem loop_step {net : Reader} {f : FoundDevice} {fs : List FoundDevice} {c c1 c2 : Calls} {a : DeviceDetails} {out : List BDevice}
    (e1 : deviceDetails (networkDetailRead net (rebuilt f)) c = (c1, .ok a))
    (e2 : networkDiscoverLoop net fs c1 = (c2, .ok out)) :
    networkDiscoverLoop net (f :: fs) c = (c2, .ok (withDetails f a :: out)) :=
  (N.bind_ok e1).trans ((N.bind_ok e2).trans rfl)

theorem discover_step {net : Reader} {fs : List FoundDevice} {c c2 : Calls} {out : List BDevice}
    (e : networkDiscoverLoop net fs c = (c2, .ok out)) : networkDiscover net (.ok fs) c = (c2, .ok (out, none)) :=
  (N.bind_ok e).trans rfl

/-- Four calls for the details. -/
theorem networkDetails_run {net : Reader} (h : net.Returns) (dev : BDevice) (c : Calls) :
    ∃ bl a, deviceDetails (networkDetailRead net dev) c = (c ++ bl, .ok a) ∧ bl.length = 4 ∧
      ∀ x ∈ bl, x.1 = dev.target ∧ x.2.object.id = ⟨8, UInt32.ofInt dev.deviceId⟩ := by
  obtain ⟨r1, o1, e1, i1⟩ := networkDetailRead_run h dev 77 c
  obtain ⟨r2, o2, e2, i2⟩ := networkDetailRead_run h dev 62 (c ++ [(dev.target, r1)])
  obtain ⟨r3, o3, e3, i3⟩ := networkDetailRead_run h dev 121 (c ++ [(dev.target, r1)] ++ [(dev.target, r2)])
  obtain ⟨r4, o4, e4, i4⟩ := networkDetailRead_run h dev 107 (c ++ [(dev.target, r1)] ++ [(dev.target, r2)] ++ [(dev.target, r3)])
  refine ⟨[(dev.target, r1), (dev.target, r2), (dev.target, r3), (dev.target, r4)], detailsOf o1 o2 o3 o4, ?_, rfl, ?_⟩
  · rw [details_steps e1 e2 e3 e4]
    simp only [List.append_assoc, List.cons_append, List.nil_append]
  · intro x hx
    simp only [List.mem_cons, List.not_mem_nil, or_false] at hx
    rcases hx with rfl | rfl | rfl | rfl
    · exact ⟨rfl, i1⟩
    · exact ⟨rfl, i2⟩
    · exact ⟨rfl, i3⟩
    · exact ⟨rfl, i4⟩

/-- The device returned by the discovery of a network is the one that announced itself:
everything but the limits is as announced. -/
def C109_Same (r : IAm) (b : BDevice) : Prop :=
  b.id = r.id ∧ b.deviceId = r.id.inst.toNat ∧ b.addr = r.addr ∧ b.vendor = r.vendor

theorem networkDiscoverLoop_spec {net : Reader} (h : net.Returns) (rs : List IAm) : ∀ c : Calls,
    ∃ blocks out, networkDiscoverLoop net (rs.map foundDevice) c = (c ++ blocks.flatten, .ok out) ∧
      List.Forall₂ C109_Same rs out ∧
      List.Forall₂ (fun r (bl : Calls) => bl.length = 4 ∧ ∀ x ∈ bl, x.1 = (rebuilt (foundDevice r)).target ∧
        x.2.object.id = ⟨8, UInt32.ofInt (rebuilt (foundDevice r)).deviceId⟩) rs blocks := by
  induction rs with
  | nil => intro c; exact ⟨[], [], by simp [networkDiscoverLoop, N.pure_apply], .nil, .nil⟩
  | cons r rs ih =>
    intro c
    obtain ⟨bl, a, e1, l1, p1⟩ := networkDetails_run h (rebuilt (foundDevice r)) c
    obtain ⟨blocks, out, e2, s2, p2⟩ := ih (c ++ bl)
    refine ⟨bl :: blocks, withDetails (foundDevice r) a :: out, ?_, .cons ⟨?_, ?_, ?_, ?_⟩ s2, .cons ⟨l1, p1⟩ p2⟩
    · rw [List.map_cons, loop_step e1 e2, List.flatten_cons, List.append_assoc]
    · show (foundDevice r).id = r.id
      unfold foundDevice; dsimp only; split <;> rfl
    · show (foundDevice r).deviceId = _
      unfold foundDevice; dsimp only; split <;> rfl
    · show (foundDevice r).addr = _
      unfold foundDevice; dsimp only; split <;> rfl
    · show (foundDevice r).vendor = _
      unfold foundDevice; dsimp only; split <;> rfl

/-- C102.  `NetworkDiscover` asks every device it found, at its own endpoint and station,
four questions about its own device object.  Missing: hardware addresses of two and more
octets (`C102_fails_long`), stations on a remote network without a hardware address and
the port 0. -/
theorem C102_partial {net : Reader} (h : net.Returns) (rs : List IAm) (hrs : ∀ r ∈ rs, C102_Plain r) (c : Calls) :
    ∃ blocks out, networkDiscover net (.ok (rs.map foundDevice)) c = (c ++ blocks.flatten, .ok (out, none)) ∧
      List.Forall₂ (fun r (bl : Calls) => bl.length = 4 ∧ ∀ x ∈ bl, x.2.object.id = r.id ∧
        x.1.maxApdu = r.maxApdu ∧ x.1.addr.udpAddr = r.addr.udpAddr ∧ x.1.addr.net = r.addr.net ∧
        (r.addr.net ≠ 0 → x.1.addr.adr = r.addr.adr)) rs blocks := by
  obtain ⟨blocks, out, e, hs, p⟩ := networkDiscoverLoop_spec h rs c
  refine ⟨blocks, out, discover_step e, ?_⟩
  clear e hs
  induction p with
  | nil => exact .nil
  | @cons r bl rs bls hb _ ih =>
    refine .cons ⟨hb.1, fun x hx => ?_⟩ (ih fun r hr => hrs r (List.mem_cons_of_mem _ hr))
    obtain ⟨h1, h2⟩ := hb.2 x hx
    have hr := hrs r List.mem_cons_self
    obtain ⟨g1, g2, g3, g4, g5⟩ := rebuilt_plain r hr
    refine ⟨?_, ?_, ?_, ?_, ?_⟩
    · rw [h2, g5]
      rcases hid : r.id with ⟨t, i⟩
      have ht := hr.1
      rw [hid] at ht
      simp only at ht ⊢
      rw [ht]
      congr 1
      refine UInt32.toNat_inj.mp ?_
      unfold UInt32.ofInt
      have := i.toNat_lt
      rw [UInt32.toNat_ofNat_of_lt' (by show _ < 2 ^ 32; omega)]
      omega
    · rw [h1]; exact g4
    · rw [h1]; exact g1
    · rw [h1]; exact g2
    · rw [h1]; exact g3

/-- A station behind a router: DNET 5, DADR 7. -/
example : C102_Plain { id := ⟨8, 9⟩, maxApdu := 480, segmentation := 3, vendor := 1, addr := { net := 5, len := 1, mac := [10, 0, 0, 7, 0xBA, 0xC0], adr := [7] } } :=
  ⟨rfl, ⟨10, 0, 0, 7, 47808, ⟨0xBA, 0xC0, rfl, by decide⟩, by decide⟩, Or.inr rfl⟩

/-- C102 fails for `NetworkDiscover`: a station with a hardware address of two or more
octets is asked at the address that is its first octet. -/
theorem C102_fails_long {net : Reader} (h : net.Returns) (r : IAm) (x y : UInt8) (zs : List UInt8)
    (ha : r.addr.adr = x :: y :: zs) (c : Calls) :
    ∃ calls out, networkDiscover net (.ok [foundDevice r]) c = (c ++ calls, .ok (out, none)) ∧ calls.length = 4 ∧
      ∀ q ∈ calls, q.1.addr.adr = [x] := by
  obtain ⟨bl, a, e1, l1, p1⟩ := networkDetails_run h (rebuilt (foundDevice r)) c
  refine ⟨bl, [withDetails (foundDevice r) a], discover_step (loop_step e1 (out := []) rfl), l1, fun q hq => ?_⟩
  rw [(p1 q hq).1]
  show [UInt8.ofInt (foundDevice r).macMSTP] = [x]
  have : (foundDevice r).macMSTP = x.toNat := by
    unfold foundDevice; dsimp only; rw [ha]; split <;> rfl
  rw [this]
  congr 1
  refine UInt8.toNat_inj.mp ?_
  have := toNat_ofInt8 (x.toNat : Int)
  have := x.toNat_lt
  omega

example : (networkDiscover (fun _ _ _ => .ok (.error .timeout)) (.ok [foundDevice { id := ⟨8, 9⟩, maxApdu := 480, segmentation := 3, vendor := 1, addr := { net := 5, len := 2, mac := [10, 0, 0, 7, 0xBA, 0xC0], adr := [7, 8] } }]) []).1.map (fun q => q.1.addr.adr) =
    [[7], [7], [7], [7]] := by decide +kernel

/-! ## C109 The discovery of a network keeps what the devices announced -/

/-- C109: the devices returned are those found, in this order, each once with its own
identifier, address and vendor; no error is reported.  Missing: the limits
(`C109_fails`). -/
theorem C109_partial {net : Reader} (h : net.Returns) (rs : List IAm) (c : Calls) :
    ∃ c' out, networkDiscover net (.ok (rs.map foundDevice)) c = (c', .ok (out, none)) ∧
      List.Forall₂ C109_Same rs out := by
  obtain ⟨blocks, out, e, s, _⟩ := networkDiscoverLoop_spec h rs c
  exact ⟨_, out, discover_step e, s⟩

/-- Reads that fail leave empty details. -/
theorem networkDetails_fail {net : Reader} (hfail : ∀ n dev rp, ∃ e, net n dev rp = .ok (.error e)) (dev : BDevice) (c : Calls) :
    ∃ c', deviceDetails (networkDetailRead net dev) c = (c', .ok {}) := by
  have one : ∀ prop c, ∃ c', networkDetailRead net dev prop c = (c', .ok {}) := by
    intro prop c
    obtain ⟨e, he⟩ := hfail c.length dev.target (NetObject.request ⟨UInt32.ofInt dev.deviceId, 8, prop, arrayAll⟩)
    refine ⟨_, (N.bind_ok (a := .error e) (c' := c ++ [(dev.target, NetObject.request ⟨UInt32.ofInt dev.deviceId, 8, prop, arrayAll⟩)]) ?_).trans rfl⟩
    unfold N.readProperty; rw [he]
  obtain ⟨c1, e1⟩ := one 77 c
  obtain ⟨c2, e2⟩ := one 62 c1
  obtain ⟨c3, e3⟩ := one 121 c2
  obtain ⟨c4, e4⟩ := one 107 c3
  exact ⟨c4, details_steps e1 e2 e3 e4⟩

/-- C109 fails: when the devices do not answer the reads, the limits they announced are
replaced by 0, without an error; every ReadMultiProperty to such an entry is refused. -/
theorem C109_fails {net : Reader} (hfail : ∀ n dev rp, ∃ e, net n dev rp = .ok (.error e)) (rs : List IAm) (c : Calls) :
    ∃ c' out, networkDiscover net (.ok (rs.map foundDevice)) c = (c', .ok (out, none)) ∧ out.length = rs.length ∧
      ∀ b ∈ out, b.maxApdu = 0 ∧ b.segmentation = 0 ∧
        ∀ fuel my os id script, clientReadMulti fuel my b.target os (some id) script = ([], .ok (.error .badMaxApdu)) := by
  have loop : ∀ (rs : List IAm) (c : Calls), ∃ c' out, networkDiscoverLoop net (rs.map foundDevice) c = (c', .ok out) ∧
      out.length = rs.length ∧ ∀ b ∈ out, b.maxApdu = 0 ∧ b.segmentation = 0 := by
    intro rs
    induction rs with
    | nil => intro c; exact ⟨c, [], rfl, rfl, by simp⟩
    | cons r rs ih =>
      intro c
      obtain ⟨c1, e1⟩ := networkDetails_fail hfail (rebuilt (foundDevice r)) c
      obtain ⟨c2, out, e2, l2, p2⟩ := ih c1
      refine ⟨c2, withDetails (foundDevice r) {} :: out, loop_step e1 e2, ?_, ?_⟩
      · simp [l2]
      · intro b hb
        rcases List.mem_cons.mp hb with rfl | hb
        · exact ⟨rfl, rfl⟩
        · exact p2 b hb
  obtain ⟨c', out, e, l, p⟩ := loop rs c
  refine ⟨c', out, discover_step e, l, fun b hb => ⟨(p b hb).1, (p b hb).2, ?_⟩⟩
  intro fuel my os id script
  unfold clientReadMulti
  rw [show b.target.maxApdu = 0 from (p b hb).1]
  rfl

/-- What a device says about itself. -/
structure Told where
  name : List UInt8
  apdu : Nat
  vendor : List UInt8
  seg : Nat

/-- The four reads of a device, from the n-th call on, are answered. -/
def C109_Answers (w : Wire) (n : Nat) (inst : UInt32) (t : Told) : Prop :=
  Answered w n ⟨inst, 8, 77, arrayAll⟩ [.chars t.name] ∧ Answered w (n + 1) ⟨inst, 8, 62, arrayAll⟩ [.unsigned t.apdu] ∧
  Answered w (n + 2) ⟨inst, 8, 121, arrayAll⟩ [.chars t.vendor] ∧ Answered w (n + 3) ⟨inst, 8, 107, arrayAll⟩ [.enum t.seg]

/-- What fits in the application types. -/
def Told.Ok (t : Told) : Prop :=
  t.name.length + 1 < 2 ^ 32 ∧ t.vendor.length + 1 < 2 ^ 32 ∧ t.apdu < 2 ^ 32 ∧ t.seg < 2 ^ 32

/-- An answered read of one value. -/
theorem read_single (w : Wire) (hmy : w.my.net = 0) (dev : Device) (o : NetObject) (ho : o.Valid) (n : Nat)
    (v : AppVal) (hv : C71_Readable v) (hf : 1 < w.fuel) (h : Answered w n o [v]) :
    ∃ s out, DecodedAs s v ∧ out.object.properties = [⟨o.prop, o.arrayIndex, .one s, 0⟩] ∧
      w.reader n dev o.request = .ok (.ok out) := by
  obtain ⟨ss, out, h1, _, h3, h4⟩ := call_answered w hmy dev o ho n [v] (by simpa using hv) (by simpa using hf) h
  cases h1 with
  | cons hs hnil =>
    cases hnil
    exact ⟨_, out, hs, h3, h4⟩

theorem toStr_one {d : PropertyData} {p : Property} (h : d.object.properties = [p]) {s : List UInt8}
    (hs : p.data = .one (.str s)) : toStr d = s := by
  unfold toStr; rw [h]; simp only [hs]

theorem toUint32_one {d : PropertyData} {p : Property} (h : d.object.properties = [p]) {s : UInt32}
    (hs : p.data = .one (.uint s)) : toUint32 d = s := by
  unfold toUint32; rw [h]; simp only [hs]

theorem networkDetails_answered (w : Wire) (hmy : w.my.net = 0) (hf : 1 < w.fuel) (dev : BDevice) (c : Calls) (t : Told)
    (ht : t.Ok) (hi : (UInt32.ofInt dev.deviceId).toNat < 2 ^ 22)
    (h : C109_Answers w c.length (UInt32.ofInt dev.deviceId) t) :
    ∃ c' a, deviceDetails (networkDetailRead w.reader dev) c = (c', .ok a) ∧ c'.length = c.length + 4 ∧
      a.name = t.name ∧ a.vendorName = t.vendor ∧ a.maxApdu.toNat = t.apdu ∧ a.segmentation.toNat = t.seg := by
  have hvalid : ∀ prop : UInt32, prop.toNat ≤ 4194303 → NetObject.Valid ⟨UInt32.ofInt dev.deviceId, 8, prop, arrayAll⟩ :=
    fun prop hp => ⟨⟨by show (8 : UInt16).toNat < 2 ^ 10; decide, hi⟩, hp⟩
  have one : ∀ (prop : UInt32) (c : Calls) (v : AppVal), prop.toNat ≤ 4194303 → C71_Readable v →
      Answered w c.length ⟨UInt32.ofInt dev.deviceId, 8, prop, arrayAll⟩ [v] →
      ∃ c' s out, networkDetailRead w.reader dev prop c = (c', .ok out) ∧ c'.length = c.length + 1 ∧ DecodedAs s v ∧
        out.object.properties = [⟨prop, arrayAll, .one s, 0⟩] := by
    intro prop c v hp hv ha
    obtain ⟨s, out, h1, h2, h3⟩ := read_single w hmy dev.target _ (hvalid prop hp) c.length v hv hf ha
    refine ⟨c ++ [(dev.target, NetObject.request ⟨UInt32.ofInt dev.deviceId, 8, prop, arrayAll⟩)], s, out, ?_, by simp, h1, h2⟩
    refine (N.bind_ok (a := .ok out) ?_).trans rfl
    unfold N.readProperty; rw [h3]
  obtain ⟨g1, g2, g3, g4⟩ := h
  obtain ⟨t1, t2, t3, t4⟩ := ht
  obtain ⟨c1, s1, o1, e1, l1, d1, p1⟩ := one 77 c (.chars t.name) (by decide) ⟨t1, trivial⟩ g1
  obtain ⟨c2, s2, o2, e2, l2, d2, p2⟩ := one 62 c1 (.unsigned t.apdu) (by decide) ⟨t3, trivial⟩ (by rw [l1]; exact g2)
  obtain ⟨c3, s3, o3, e3, l3, d3, p3⟩ := one 121 c2 (.chars t.vendor) (by decide) ⟨t2, trivial⟩ (by rw [l2, l1]; exact g3)
  obtain ⟨c4, s4, o4, e4, l4, d4, p4⟩ := one 107 c3 (.enum t.seg) (by decide) ⟨t4, trivial⟩ (by rw [l3, l2, l1]; exact g4)
  refine ⟨c4, detailsOf o1 o2 o3 o4, details_steps e1 e2 e3 e4, by omega, ?_, ?_, ?_, ?_⟩
  · exact toStr_one p1 (by rw [show s1 = .str t.name from d1.1])
  · exact toStr_one p3 (by rw [show s3 = .str t.vendor from d3.1])
  · obtain ⟨x, hx, hn⟩ := decoded_unsigned d2
    rw [← hn]; exact congrArg UInt32.toNat (toUint32_one p2 (by rw [hx]))
  · obtain ⟨x, hx, hn⟩ := decoded_enum d4
    rw [← hn]; exact congrArg UInt32.toNat (toUint32_one p4 (by rw [hx]))

/-- C109: devices that answer are returned with the names and limits of their answers,
each with its own. -/
theorem C109_answers_partial (w : Wire) (hmy : w.my.net = 0) (hf : 1 < w.fuel) (l : List (IAm × Told))
    (hok : ∀ x ∈ l, C102_Plain x.1 ∧ x.1.id.inst.toNat < 2 ^ 22 ∧ x.2.Ok) (c : Calls)
    (h : ∀ (k : Nat) (x : IAm × Told), l[k]? = some x → C109_Answers w (c.length + 4 * k) x.1.id.inst x.2) :
    ∃ c' out, networkDiscover w.reader (.ok (l.map fun x => foundDevice x.1)) c = (c', .ok (out, none)) ∧
      List.Forall₂ (fun (x : IAm × Told) b => b.id = x.1.id ∧ b.addr = x.1.addr ∧ b.deviceName = x.2.name ∧ b.vendorName = x.2.vendor ∧
        b.maxApdu.toNat = x.2.apdu ∧ b.segmentation.toNat = x.2.seg) l out := by
  have loop : ∀ (l : List (IAm × Told)) (c : Calls), (∀ x ∈ l, C102_Plain x.1 ∧ x.1.id.inst.toNat < 2 ^ 22 ∧ x.2.Ok) →
      (∀ (k : Nat) (x : IAm × Told), l[k]? = some x → C109_Answers w (c.length + 4 * k) x.1.id.inst x.2) →
      ∃ c' out, networkDiscoverLoop w.reader (l.map fun x => foundDevice x.1) c = (c', .ok out) ∧
        List.Forall₂ (fun (x : IAm × Told) b => b.id = x.1.id ∧ b.addr = x.1.addr ∧ b.deviceName = x.2.name ∧ b.vendorName = x.2.vendor ∧
          b.maxApdu.toNat = x.2.apdu ∧ b.segmentation.toNat = x.2.seg) l out := by
    intro l
    induction l with
    | nil => intro c _ _; exact ⟨c, [], rfl, .nil⟩
    | cons x l ih =>
      intro c hok h
      obtain ⟨hp, hlt, ht⟩ := hok x List.mem_cons_self
      have hdev := (rebuilt_plain x.1 hp).2.2.2.2
      have hinst : UInt32.ofInt (rebuilt (foundDevice x.1)).deviceId = x.1.id.inst := by
        rw [hdev]
        refine UInt32.toNat_inj.mp ?_
        unfold UInt32.ofInt
        have := x.1.id.inst.toNat_lt
        rw [UInt32.toNat_ofNat_of_lt' (by show _ < 2 ^ 32; omega)]
        omega
      have h0 := h 0 x rfl
      rw [Nat.mul_zero, Nat.add_zero] at h0
      obtain ⟨c1, a, e1, l1, n1, n2, n3, n4⟩ := networkDetails_answered w hmy hf (rebuilt (foundDevice x.1)) c x.2 ht
        (by rw [hinst]; exact hlt) (by rw [hinst]; exact h0)
      obtain ⟨c2, out, e2, p2⟩ := ih c1 (fun y hy => hok y (List.mem_cons_of_mem _ hy)) (fun k y hk => by
        have := h (k + 1) y (by simpa using hk)
        rw [l1, show c.length + 4 + 4 * k = c.length + 4 * (k + 1) by omega]
        exact this)
      refine ⟨c2, withDetails (foundDevice x.1) a :: out, loop_step e1 e2, .cons ⟨?_, ?_, n1, n2, n3, n4⟩ p2⟩
      · show (foundDevice x.1).id = _
        unfold foundDevice; dsimp only; split <;> rfl
      · show (foundDevice x.1).addr = _
        unfold foundDevice; dsimp only; split <;> rfl
  obtain ⟨c', out, e, p⟩ := loop l c hok h
  exact ⟨c', out, discover_step e, p⟩

example : (networkDiscover (fun _ _ _ => .ok (.error .timeout)) (.ok [foundDevice { id := ⟨8, 9⟩, maxApdu := 480, segmentation := 3, vendor := 1, addr := { mac := [10, 0, 0, 7, 0xBA, 0xC0] } }]) []).2 =
    .ok ([{ id := ⟨8, 9⟩, deviceId := 9, ip := .v4 10 0 0 7, port := 47808, vendor := 1, addr := { mac := [10, 0, 0, 7, 0xBA, 0xC0] } }], none) := by
  decide +kernel

end Bac.Props
