import Verif.Props.DiscoveryCall
import Verif.Props.Lifecycle
import Verif.Props.Points
import Verif.Props.NetObjects
import Verif.Props.Messages
import Verif.Props.NetDiscover
/-!
# Exactly when a failed send is reported, what a store returns, when a client is closed, which releases and lists are right
-/

namespace Bac.Props
open Bac

/-! ## C124 Failed sends -/

section C124
open Bac.DCall

variable {ε : Type} {lo hi : Int} {reports : Bool}

/-- Once the result of `Subscribe` was assigned between the two accesses of the sender, there is no trace of the error. -/
theorem overwritten {tr : List (Label ε)} {s : State ε} (h : DCall.Exec lo hi reports {} tr s) (t1 t2 : List (Label ε))
    (ht : tr = t1 ++ .assign :: t2) (hs : ∃ e, .send e ∈ t1) (hr : .read ∉ t1) :
    s.err = none ∧ s.sender ≠ .start ∧ (∀ x, s.sender = .offering x → x = none) ∧ ∀ e, s.main ≠ .returned (.error e) := by
  induction h generalizing t2 with
  | nil => cases t1 <;> cases ht
  | @snoc tr l u t h st ih =>
    rcases List.eq_nil_or_concat t2 with rfl | ⟨t2', b, rfl⟩
    · obtain ⟨e1, e2⟩ := List.append_inj' ht rfl
      subst e1
      injection e2 with e2
      subst e2
      obtain ⟨s1, s2⟩ := sender_trace h
      cases st with
      | assign h' =>
        have ha : u.sender = .assigned := by
          by_contra hne
          exact hr (s2.2 ⟨s1.1 hs, hne⟩)
        refine ⟨rfl, s1.1 hs, fun x hx => ?_, nofun⟩
        have hx' : u.sender = .offering x := hx
        rw [ha] at hx'
        cases hx'
    · have ht' : tr ++ [l] = (t1 ++ .assign :: t2') ++ [b] := by rw [ht]; simp
      obtain ⟨e1, _⟩ := List.append_inj' ht' rfl
      obtain ⟨i1, i2, i3, i4⟩ := ih t2' e1
      cases st with
      | send e' h' => exact absurd h' i2
      | read h' => exact ⟨i1, nofun, fun x hx => by cases hx; exact i1, i4⟩
      | enter h' => exact ⟨i1, i2, i3, nofun⟩
      | got id v h' _ => exact ⟨i1, i2, i3, i4⟩
      | other id v h' => exact ⟨i1, i2, i3, i4⟩
      | leave h' => exact ⟨i1, i2, i3, nofun⟩
      | leaveLate h' => exact ⟨i1, i2, i3, nofun⟩
      | assign h' => exact ⟨rfl, i2, i3, nofun⟩
      | checkErr e' h' he1 _ => rw [i1] at he1; cases he1
      | check h' _ => exact ⟨i1, i2, i3, nofun⟩
      | receive x h' hx => exact ⟨i3 x hx, nofun, nofun, nofun⟩
      | finishErr e' h' he1 _ => rw [i1] at he1; cases he1
      | finish h' _ => exact ⟨i1, i2, i3, nofun⟩

/-- C124, exactly: `WhoIs` reports its failed send iff the result of `Subscribe` was not assigned after the sender had
assigned its own and before it had read it back. -/
theorem C124_exact {tr : List (Label ε)} {s : State ε} (h : DCall.Exec lo hi true {} tr s) (e : ε) (he : .send (some e) ∈ tr)
    (r : Except ε (List Published)) (hm : s.main = .returned r) :
    whoIsResult r = .error e ↔ ∀ t1 t2, tr = t1 ++ .assign :: t2 → ((∃ e, .send e ∈ t1) ↔ .read ∈ t1) := by
  refine ⟨fun hr t1 t2 ht => ?_, fun hc => C124_partial h hc e he r hm⟩
  cases r with
  | ok vs => cases hr
  | error e' =>
    constructor
    · intro hs
      by_contra hread
      exact (overwritten h t1 t2 ht hs hread).2.2.2 e' hm
    · intro hread
      have hpre : ∃ u, DCall.Exec lo hi true {} t1 u := by
        clear hr hm he
        subst ht
        generalize hl : t1 ++ .assign :: t2 = l at h
        induction h generalizing t2 with
        | nil => cases t1 <;> cases hl
        | @snoc tr l u t h st ih =>
          rcases List.eq_nil_or_concat t2 with rfl | ⟨t2', b, rfl⟩
          · obtain ⟨e1, _⟩ := List.append_inj' hl rfl
            subst e1
            exact ⟨u, h⟩
          · have hl' : (t1 ++ .assign :: t2') ++ [b] = tr ++ [l] := by rw [← hl]; simp
            exact ih t2' (List.append_inj' hl' rfl).1
      obtain ⟨u, hu⟩ := hpre
      obtain ⟨s1, s2⟩ := sender_trace hu
      exact s1.2 (s2.1 hread).1

/-- The send fails after the subscription has ended: it is reported. -/
example (e : ε) : ∃ s, DCall.Exec lo hi true {} [.enter, .leave, .assign, .send (some e), .read, .check] s ∧
    s.main = .returned (.error e) := by
  have h1 : DCall.Exec lo hi true {} [.enter] (State.mk (ε := ε) .listening .start none []) := .snoc .nil (.enter _ rfl)
  have h2 := h1.snoc (DCall.Step.leave _ rfl)
  have h3 := h2.snoc (DCall.Step.assign _ rfl)
  have h4 := h3.snoc (DCall.Step.send _ (some e) rfl)
  have h5 := h4.snoc (DCall.Step.read _ rfl)
  exact ⟨_, h5.snoc (DCall.Step.checkErr _ e rfl rfl rfl), rfl⟩

end C124

/-! ## C111 The store after any history -/

/-- A change of a store: `UpdateDevice` or `NewNetwork` under a key. -/
inductive StoreOp where
  | device (key : List Nat) (d : NetDevice)
  | network (key : List Nat)

def StoreOp.key : StoreOp → List Nat
  | .device k _ => k
  | .network k => k

def StoreOp.run (s : Store) : StoreOp → Store
  | .device k d => (storeUpdateDevice s k d).1
  | .network k => (storeNewNetwork s k).1

/-- What it puts under its key. -/
def StoreOp.entry : StoreOp → Entry
  | .device _ d => .device d.made
  | .network _ => .network false

/-- The last change under this key. -/
def LastOp (ops : List StoreOp) (key : List Nat) (o : StoreOp) : Prop :=
  o.key = key ∧ ∃ pre post, ops = pre ++ o :: post ∧ ∀ o' ∈ post, o'.key ≠ key

theorem lastOp_cases (ops : List StoreOp) (key : List Nat) : (∀ o ∈ ops, o.key ≠ key) ∨ ∃ o, LastOp ops key o := by
  induction ops with
  | nil => exact .inl fun o ho => by cases ho
  | cons a ops ih =>
    rcases ih with ih | ⟨o, hk, pre, post, rfl, hp⟩
    · by_cases ha : a.key = key
      · exact .inr ⟨a, ha, [], ops, rfl, ih⟩
      · exact .inl fun o ho => by
          rcases List.mem_cons.1 ho with rfl | ho
          · exact ha
          · exact ih o ho
    · exact .inr ⟨o, hk, a :: pre, post, rfl, hp⟩

theorem store_untouched (ops : List StoreOp) (key : List Nat) (h : ∀ o ∈ ops, o.key ≠ key) (m : List (List Nat × Entry)) :
    ∃ m', ops.foldl StoreOp.run (some m) = some m' ∧ mapGet key m' = mapGet key m := by
  induction ops generalizing m with
  | nil => exact ⟨m, rfl, rfl⟩
  | cons a ops ih =>
    have ha := h a List.mem_cons_self
    have ht : ∀ o ∈ ops, o.key ≠ key := fun o ho => h o (List.mem_cons_of_mem _ ho)
    cases a with
    | device k d =>
      obtain ⟨m', h1, h2⟩ := ih ht (mapSet k (.device d.made) m)
      exact ⟨m', h1, by rw [h2, mapGet_set, if_neg (fun hk => ha hk.symm)]⟩
    | network k =>
      obtain ⟨m', h1, h2⟩ := ih ht (mapSet k (.network false) m)
      exact ⟨m', h1, by rw [h2, mapGet_set, if_neg (fun hk => ha hk.symm)]⟩

theorem store_some (ops : List StoreOp) (m : List (List Nat × Entry)) : ∃ m', ops.foldl StoreOp.run (some m) = some m' := by
  induction ops generalizing m with
  | nil => exact ⟨m, rfl⟩
  | cons a ops ih => cases a <;> exact ih _

theorem store_last {ops : List StoreOp} {key : List Nat} {o : StoreOp} (h : LastOp ops key o) :
    ∃ m, ops.foldl StoreOp.run (some []) = some m ∧ mapGet key m = some o.entry := by
  obtain ⟨hk, pre, post, rfl, hp⟩ := h
  obtain ⟨m0, h0⟩ := store_some pre []
  rw [List.foldl_append, h0, List.foldl_cons]
  cases o with
  | device k d =>
    obtain ⟨m', h1, h2⟩ := store_untouched post key hp (mapSet k (.device d.made) m0)
    exact ⟨m', h1, by rw [h2, mapGet_set, if_pos (show key = k from hk.symm)]; rfl⟩
  | network k =>
    obtain ⟨m', h1, h2⟩ := store_untouched post key hp (mapSet k (.network false) m0)
    exact ⟨m', h1, by rw [h2, mapGet_set, if_pos (show key = k from hk.symm)]; rfl⟩

/-- C111, exactly: after any history of a store, a device is found under a key iff it was the last to be put there; it is
reported as not found iff nothing was put there; and asking for it crashes iff a network was the last. -/
theorem C111_exact_device (ops : List StoreOp) (key : List Nat) :
    (∀ d, storeGetDevice (ops.foldl StoreOp.run (some [])) key = .ok (.ok d) ↔ ∃ d0, d = d0.made ∧ LastOp ops key (.device key d0)) ∧
    (storeGetDevice (ops.foldl StoreOp.run (some [])) key = .ok (.error .notFound) ↔ ∀ o ∈ ops, o.key ≠ key) ∧
    ((storeGetDevice (ops.foldl StoreOp.run (some [])) key).Panics ↔ LastOp ops key (.network key)) := by
  have fwd : ∀ d0, LastOp ops key (.device key d0) → storeGetDevice (ops.foldl StoreOp.run (some [])) key = .ok (.ok d0.made) := by
    intro d0 h
    obtain ⟨m, h1, h2⟩ := store_last h
    rw [h1]
    simp only [storeGetDevice, h2, StoreOp.entry]
  have net : LastOp ops key (.network key) → storeGetDevice (ops.foldl StoreOp.run (some [])) key = .panic .typeAssertion := by
    intro h
    obtain ⟨m, h1, h2⟩ := store_last h
    rw [h1]
    simp only [storeGetDevice, h2, StoreOp.entry]
  have none : (∀ o ∈ ops, o.key ≠ key) → storeGetDevice (ops.foldl StoreOp.run (some [])) key = .ok (.error .notFound) := by
    intro h
    obtain ⟨m, h1, h2⟩ := store_untouched ops key h []
    rw [h1]
    simp only [storeGetDevice, h2, mapGet]
  have all : (∀ o ∈ ops, o.key ≠ key) ∨ (∃ d0, LastOp ops key (.device key d0)) ∨ LastOp ops key (.network key) := by
    rcases lastOp_cases ops key with h | ⟨o, h⟩
    · exact .inl h
    · have hk := h.1
      cases o with
      | device k d0 => cases hk; exact .inr (.inl ⟨d0, h⟩)
      | network k => cases hk; exact .inr (.inr h)
  refine ⟨fun d => ⟨fun h => ?_, ?_⟩, ⟨fun h => ?_, none⟩, ⟨fun h => ?_, fun h => by rw [net h]; trivial⟩⟩
  · rcases all with a | ⟨d0, a⟩ | a
    · rw [none a] at h; cases h
    · rw [fwd d0 a] at h; cases h; exact ⟨d0, rfl, a⟩
    · rw [net a] at h; cases h
  · rintro ⟨d0, rfl, h⟩
    exact fwd d0 h
  · rcases all with a | ⟨d0, a⟩ | a
    · exact a
    · rw [fwd d0 a] at h; cases h
    · rw [net a] at h; cases h
  · rcases all with a | ⟨d0, a⟩ | a
    · rw [none a] at h; exact h.elim
    · rw [fwd d0 a] at h; exact h.elim
    · exact a

/-- C111, exactly, for networks; the one found never has a store. -/
theorem C111_exact_network (ops : List StoreOp) (key : List Nat) :
    (∀ b, storeGetNetwork (ops.foldl StoreOp.run (some [])) key = .ok (.ok b) ↔ b = false ∧ LastOp ops key (.network key)) ∧
    (storeGetNetwork (ops.foldl StoreOp.run (some [])) key = .ok (.error .notFound) ↔ ∀ o ∈ ops, o.key ≠ key) ∧
    ((storeGetNetwork (ops.foldl StoreOp.run (some [])) key).Panics ↔ ∃ d, LastOp ops key (.device key d)) := by
  have dev : ∀ d0, LastOp ops key (.device key d0) → storeGetNetwork (ops.foldl StoreOp.run (some [])) key = .panic .typeAssertion := by
    intro d0 h
    obtain ⟨m, h1, h2⟩ := store_last h
    rw [h1]
    simp only [storeGetNetwork, h2, StoreOp.entry]
  have fwd : LastOp ops key (.network key) → storeGetNetwork (ops.foldl StoreOp.run (some [])) key = .ok (.ok false) := by
    intro h
    obtain ⟨m, h1, h2⟩ := store_last h
    rw [h1]
    simp only [storeGetNetwork, h2, StoreOp.entry]
  have none : (∀ o ∈ ops, o.key ≠ key) → storeGetNetwork (ops.foldl StoreOp.run (some [])) key = .ok (.error .notFound) := by
    intro h
    obtain ⟨m, h1, h2⟩ := store_untouched ops key h []
    rw [h1]
    simp only [storeGetNetwork, h2, mapGet]
  have all : (∀ o ∈ ops, o.key ≠ key) ∨ (∃ d0, LastOp ops key (.device key d0)) ∨ LastOp ops key (.network key) := by
    rcases lastOp_cases ops key with h | ⟨o, h⟩
    · exact .inl h
    · have hk := h.1
      cases o with
      | device k d0 => cases hk; exact .inr (.inl ⟨d0, h⟩)
      | network k => cases hk; exact .inr (.inr h)
  refine ⟨fun b => ⟨fun h => ?_, ?_⟩, ⟨fun h => ?_, none⟩, ⟨fun h => ?_, fun ⟨d0, h⟩ => by rw [dev d0 h]; trivial⟩⟩
  · rcases all with a | ⟨d0, a⟩ | a
    · rw [none a] at h; cases h
    · rw [dev d0 a] at h; cases h
    · rw [fwd a] at h; cases h; exact ⟨rfl, a⟩
  · rintro ⟨rfl, h⟩
    exact fwd h
  · rcases all with a | ⟨d0, a⟩ | a
    · exact a
    · rw [dev d0 a] at h; cases h
    · rw [fwd a] at h; cases h
  · rcases all with a | ⟨d0, a⟩ | a
    · rw [none a] at h; exact h.elim
    · exact ⟨d0, a⟩
    · rw [fwd a] at h; exact h.elim

example : LastOp [.device [1] { deviceId := 7 }, .network [2], .device [1] { deviceId := 9 }] [1] (.device [1] { deviceId := 9 }) ∧
    storeGetDevice ([StoreOp.device [1] { deviceId := 7 }, .network [2], .device [1] { deviceId := 9 }].foldl StoreOp.run (some [])) [1] =
      .ok (.ok (NetDevice.made { deviceId := 9 })) :=
  ⟨⟨rfl, [.device [1] { deviceId := 7 }, .network [2]], [], rfl, fun o ho => by cases ho⟩, by decide +kernel⟩

/-! ## C129 Closing -/

section C129
open Bac.Life

variable {δ : Type}

/-- C129, exactly: the socket of a client that was opened is closed iff `Close` or `ClientClose(false)` was called. -/
theorem C129_exact (o : Opened) (ho : o.link.isSome) {tr : List (Life.Label δ)} {t : Life.State δ} (h : Life.Exec (start δ o) tr t) :
    t.sock = false ↔ .close false ∈ tr := by
  refine ⟨fun hs => ?_, fun hc => ?_⟩
  · by_contra hc
    have := C129_fails o h hc
    rw [hs, ho] at this
    cases this
  · obtain ⟨t1, t2, rfl⟩ := List.append_of_mem hc
    exact (C129_partial o h).2.1

/-- A client closed with `ClientClose(true)`, then with `Close`. -/
example : ∃ t u : Life.State Nat, Life.Exec (start Nat ⟨some ⟨47808, {}, {}⟩, 1476, none⟩) [.run, .close true] t ∧ t.sock = true ∧
    Life.Exec (start Nat ⟨some ⟨47808, {}, {}⟩, 1476, none⟩) [.run, .close true, .close false] u ∧ u.sock = false := by
  have h1 : Life.Exec (start Nat ⟨some ⟨47808, {}, {}⟩, 1476, none⟩) [.run] ⟨true, true, true, 1, [], [], false⟩ := .snoc .nil (.run _ rfl rfl)
  have h2 := h1.snoc (.closeLogs _ rfl)
  exact ⟨_, _, h2, rfl, h2.snoc (.close _ rfl), rfl⟩

end C129

/-! ## C21 Error codes -/

/-- C21, exactly: of a standard Error PDU the code is reported iff the class is 5 or the code is 0x91. -/
theorem C21_exact (invoke service cls code : UInt8) (hc : cls.toNat < 8) :
    (∃ a d, Dec.apdu (Dec.new (errorPdu invoke service cls code)) = .ok ((a, none), d) ∧
      a.errorClass.toNat = cls.toNat ∧ a.errorCode.toNat = code.toNat) ↔ cls = 5 ∨ code = 0x91 := by
  constructor
  · rintro ⟨a, d, h1, -, h3⟩
    by_cases h5 : cls = 5
    · exact .inl h5
    · obtain ⟨a', d', h1', -, -, -, h4⟩ := C21_fails invoke service cls code hc h5
      rw [h1] at h1'
      cases h1'
      rw [h4] at h3
      exact .inr (UInt8.toNat_inj.mp h3.symm)
  · intro h
    by_cases h5 : cls = 5
    · subst h5
      obtain ⟨a, d, h1, -, -, h2, h3⟩ := C21_services_partial invoke service code
      exact ⟨a, d, h1, by rw [h2]; rfl, h3⟩
    · have h91 := h.resolve_left h5
      obtain ⟨a, d, h1, -, -, h2, h3⟩ := C21_fails invoke service cls code hc h5
      exact ⟨a, d, h1, h2, by rw [h3, h91]; rfl⟩

example : ∃ a d, Dec.apdu (Dec.new (errorPdu 7 12 2 0x91)) = .ok ((a, none), d) ∧ a.errorClass = 2 ∧ a.errorCode = 0x91 :=
  ⟨_, _, rfl, by decide +kernel⟩

/-! ## C65 Releases -/

theorem priority_octets : ∀ k : Fin 17, (Spec.ctxUnsigned 4 k.val).length = 2 := by decide

/-- C65, exactly: what is sent for a release is the release iff the object type of the point fits. -/
theorem C65_exact (d : NetDevice) (my : Address) (hmy : my.net = 0) (id : UInt8) (script : Nat → Attempt)
    (p : Point) (hp : p.inst.toNat < 2 ^ 22) (pri : UInt8) (h : 1 ≤ pri.toNat ∧ pri.toNat ≤ 16)
    (ha : d.dev.addr.net = 0 ∨ d.dev.addr.adr.length = 1) :
    (∀ s ∈ (pointReleasePriority d my (some id) script (some p) pri).1, Carries d.dev.target s
      (Spec.writeProperty id p.typ.toNat p.inst.toNat ⟨85, none⟩ [0x00] (some pri.toNat))) ↔ p.typ.toNat < 1024 := by
  refine ⟨fun hall => ?_, fun ht => (C65_release_partial d my hmy id script p ⟨ht, hp⟩ pri h ha).1⟩
  by_contra ht
  obtain ⟨hne, hs⟩ := C65_fails_type d my hmy id script p (by omega) pri h
  obtain ⟨s, hmem⟩ := List.exists_mem_of_ne_nil _ hne
  obtain ⟨hdr, h1⟩ := hs s hmem
  obtain ⟨-, k, h2⟩ := hall s hmem
  have e : ∀ (k : UInt8) (p : List UInt8), (Spec.frame k p).drop 4 = p := fun k p => rfl
  rw [h2, e] at h1
  unfold Spec.writeProperty at h1
  simp only at h1
  have hl := priority_octets ⟨pri.toNat, by omega⟩
  simp only at hl
  obtain ⟨x, y, hxy⟩ := List.length_eq_two.mp hl
  rw [hxy, show Spec.closeTag 3 = [0x3F] from by decide] at h1
  have h1' : (((Spec.requestHeader (if d.dev.target.addr.net = 0 then none else some ⟨d.dev.target.addr.net.toNat, d.dev.target.addr.adr⟩)).octets ++
      (Spec.request id 15 ++ Spec.ctxObjectId 0 p.typ.toNat p.inst.toNat ++ Spec.PropRef.octets ⟨85, none⟩ 1 2 ++ Spec.openTag 3 ++ [0x00]))) ++
      [0x3F, x, y] = (hdr ++ [0]) ++ [5, id, 15] := by
    simpa using h1
  obtain ⟨-, h3⟩ := List.append_inj' h1' rfl
  injection h3 with h3
  exact absurd h3 (by decide)

example : (pointReleasePriority (NetDevice.made { ip := .v4 10 0 0 9 }) {} (some 3) (fun _ => {}) (some ⟨1, 1023, 0⟩) 8).1.map (·.data.drop 6) =
      List.replicate 2 (Spec.writeProperty 3 1023 1 ⟨85, none⟩ [0x00] (some 8)) ∧
    (pointReleasePriority (NetDevice.made { ip := .v4 10 0 0 9 }) {} (some 3) (fun _ => {}) (some ⟨1, 1024, 0⟩) 8).1.map (·.data.drop 6) =
      List.replicate 2 [0, 5, 3, 15] := by decide +kernel

/-! ## C68 Object lists -/

/-- C68, exactly: a list sent as a whole is returned as it is iff it does not have exactly one entry. -/
theorem C68_exact (w : Wire) (hmy : w.my.net = 0) (d : NetDevice) (inst : UInt32) (hinst : inst.toNat < 2 ^ 22)
    (ids : List ObjectID) (hids : ∀ i ∈ ids, C04_Valid i) (hf : ids.length < w.fuel) (c : Calls)
    (h : Answered w c.length (listObject inst arrayAll) (idValues ids)) :
    (∃ c', deviceObjects w.reader d inst none c = (c', .ok (d, .ok ids))) ↔ ids.length ≠ 1 := by
  refine ⟨fun ⟨c', hc⟩ h1 => ?_, fun hl => C68_whole_partial w hmy d inst hinst ids hids hf hl c h⟩
  obtain ⟨i, rfl⟩ := List.length_eq_one_iff.mp h1
  obtain ⟨c'', h2⟩ := C68_fails_single w hmy d inst hinst i (hids i List.mem_cons_self) hf c h
  rw [hc] at h2
  injection h2 with _ h2
  injection h2 with h2
  injection h2 with _ h2
  injection h2 with h2
  cases h2

/-- A device with the two objects device 9 and analog value 1. -/
example : ∃ c', deviceObjects (Wire.reader ⟨{}, 9, fun _ => some 3, fun _ _ => ⟨none, .bytes (Spec.complexAck 3 12
      (Spec.readPropertyAckBody 8 9 (listObject 9 arrayAll).ref ((idValues [⟨8, 9⟩, ⟨2, 1⟩]).flatMap Spec.AppVal.encoding)))⟩⟩)
      {} 9 none [] = (c', .ok ({}, .ok [⟨8, 9⟩, ⟨2, 1⟩])) :=
  (C68_exact ⟨{}, 9, fun _ => some 3, _⟩ rfl {} 9 (by decide) [⟨8, 9⟩, ⟨2, 1⟩] (by simp [C04_Valid]) (by decide) []
    ⟨3, rfl, rfl⟩).2 (by decide)

/-! ## C102 Where the details are asked for -/

/-- C102, exactly: of the devices that announced themselves from a UDP endpoint, `NetworkDiscover` asks those at their own
endpoint and station whose port is not 0 and that are on the network itself or have a hardware address of one octet. -/
theorem C102_exact {net : Reader} (h : net.Returns) (rs : List IAm)
    (hrs : ∀ r ∈ rs, r.id.typ = 8 ∧ ∃ a b c d port, Spec.IsEndpoint r.addr.mac a b c d port) (c : Calls) :
    ∃ blocks out, networkDiscover net (.ok (rs.map foundDevice)) c = (c ++ blocks.flatten, .ok (out, none)) ∧
      List.Forall₂ (fun r (bl : Calls) => bl.length = 4 ∧ ∀ x ∈ bl,
        ((x.1.addr.udpAddr = r.addr.udpAddr ∧ (r.addr.net ≠ 0 → x.1.addr.adr = r.addr.adr)) ↔
          (∀ a b c d, ¬ Spec.IsEndpoint r.addr.mac a b c d 0) ∧ (r.addr.net = 0 ∨ r.addr.adr.length = 1))) rs blocks := by
  obtain ⟨blocks, out, e, hs, p⟩ := networkDiscoverLoop_spec h rs c
  refine ⟨blocks, out, discover_step e, ?_⟩
  clear e hs
  induction p with
  | nil => exact .nil
  | @cons r bl rs bls hb _ ih =>
    refine .cons ⟨hb.1, fun x hx => ?_⟩ (ih fun r hr => hrs r (List.mem_cons_of_mem _ hr))
    obtain ⟨h1, -⟩ := hb.2 x hx
    obtain ⟨ht, a, b, c, d, port, hep⟩ := hrs r List.mem_cons_self
    rw [h1]
    constructor
    · rintro ⟨h2, h3⟩
      refine ⟨fun a b c d h0 => ?_, ?_⟩
      · have hu := udpAddr_endpoint h0
        obtain ⟨f1, f2, -⟩ := foundDevice_parts r hu
        have hr : Spec.IsEndpoint (rebuilt (foundDevice r)).addr.mac a b c d 47808 := by
          show Spec.IsEndpoint (ipBytes (foundDevice r).toB.ip
            (UInt16.ofInt (if (foundDevice r).port = 0 then 0xBAC0 else (foundDevice r).port))) a b c d 47808
          rw [f1, f2, if_pos (show ((0 : Nat) : Int) = 0 from rfl)]
          exact be16_endpoint a b c d 47808 (by decide)
        have h2' : (rebuilt (foundDevice r)).addr.udpAddr = r.addr.udpAddr := h2
        rw [udpAddr_endpoint hr, hu] at h2'
        cases h2'
      · by_cases hn : r.addr.net = 0
        · exact .inl hn
        · exact .inr (by rw [← h3 hn]; rfl)
    · rintro ⟨h2, h3⟩
      obtain ⟨g1, -, g3, -⟩ := rebuilt_plain r ⟨ht, ⟨a, b, c, d, port, hep, fun h0 => by subst h0; exact h2 a b c d hep⟩, h3⟩
      exact ⟨g1, g3⟩

/-- A station with two octets behind a router, and the station with one. -/
example : (networkDiscover (fun _ _ _ => .ok (.error .timeout)) (.ok
      [foundDevice { id := ⟨8, 9⟩, maxApdu := 480, segmentation := 3, vendor := 1, addr := { net := 5, len := 2, mac := [10, 0, 0, 7, 0xBA, 0xC0], adr := [7, 8] } },
       foundDevice { id := ⟨8, 4⟩, maxApdu := 480, segmentation := 3, vendor := 1, addr := { net := 5, len := 1, mac := [10, 0, 0, 7, 0, 0], adr := [3] } }]) []).1.map
      (fun q => (q.1.addr.adr, q.1.addr.udpAddr.map Prod.snd)) =
    List.replicate 4 ([7], some 47808) ++ List.replicate 4 ([3], some 47808) := by decide +kernel

end Bac.Props
