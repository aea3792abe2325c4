import Verif.Props.Process
import Verif.Props.NetDiscover
import Verif.Props.Points
import Verif.Props.Network
import Verif.Props.Discover
/-!
# Exactly when one more network can be opened, which discoveries are right, which failed reads are reported,
which priority arrays crash the program and which scan sizes find anything
-/

namespace Bac.Props
open Bac
open Bac.Process (State boundPort)

/-! ## C140 One more network -/

/-- C140, exactly: a network that could be opened alone, on a port no other program has, is opened iff no open client of the
process has its port, whatever the interfaces are. -/
theorem C140_exact (sys : Int → Bool) (s : State) (h : Process.Reach sys s) (cb : Config) (o : Opened)
    (ha : newClient (fun _ => true) cb = .ok o) (hl : o.link.isSome) (hs : sys (boundPort cb) = true) :
    (∃ o', newClient (s.free sys) cb = .ok o' ∧ o'.link.isSome) ↔ ∀ c, ¬ C139_Open s c (boundPort cb) := by
  constructor
  · rintro ⟨o', h1, h2⟩ c hc
    rw [C140_fails sys s h c _ hc cb rfl o' h1] at h2
    cases h2
  · intro hf
    exact ⟨o, (C140_partial sys s cb hs hf).trans ha, hl⟩

/-- Beside 192.168.1.10/24 on the standard port, 10.0.0.1/8 can be opened on port 47809 but not on the standard port. -/
example : ∃ s, Process.Reach (fun _ => true) s ∧
    (∃ o', newClient (s.free fun _ => true) { iface := some (.cidr (.v4 10 0 0 1) 8), port := 47809 } = .ok o' ∧ o'.link.isSome) ∧
    ¬ ∃ o', newClient (s.free fun _ => true) { iface := some (.cidr (.v4 10 0 0 1) 8) } = .ok o' ∧ o'.link.isSome := by
  obtain ⟨s, h, ho, _, _, _, hc, _⟩ := C139_one
  refine ⟨s, h, (C140_exact _ s h _ _ rfl rfl rfl).2 fun c h' => ?_, fun hx => (C140_exact _ s h _ _ rfl rfl rfl).1 hx 0 ho⟩
  have h' : s.clients[c]? = some (some 47809) := h'
  rw [hc] at h'
  cases c with
  | zero => simp at h'
  | succ c => simp at h'

/-! ## C67 Discovery -/

/-- C67, exactly: of devices with different instances the list returned is right iff at most one was found. -/
theorem C67_exact {net : Reader} (h : net.Returns) (d : NetDevice) (found : List FoundDevice) (c : Calls)
    (hn : (found.map fun f => f.id.inst).Nodup) :
    ∃ c' out, deviceDiscover net d (.ok found) c = (c', .ok (.ok out)) ∧ (List.Forall₂ C67_Own found out ↔ found.length ≤ 1) := by
  by_cases hl : found.length ≤ 1
  · obtain ⟨c', out, e, ho⟩ := C67_partial h d found c hl
    exact ⟨c', out, e, fun _ => hl, fun _ => ho⟩
  · match found, hl with
    | f :: g :: rest, hl =>
      have hne : f.id.inst ≠ g.id.inst := by
        simp only [List.map_cons, List.nodup_cons, List.mem_cons, not_or] at hn
        exact hn.1.1
      obtain ⟨c', out, e, ho⟩ := C67_fails h d (f :: g :: rest) c f g (by simp) (by simp) hne
      exact ⟨c', out, e, fun h' => absurd h' ho, fun h' => absurd h' hl⟩
    | [], hl => exact absurd (Nat.zero_le 1) hl
    | [_], hl => exact absurd (Nat.le_refl 1) hl

example : (([{ id := ⟨8, 7⟩ }, { id := ⟨8, 9⟩ }] : List FoundDevice).map fun f => f.id.inst).Nodup := by decide

/-! ## C107 Failed reads -/

/-- C107, exactly: the reads of present values and strings report an error iff the client did, and then that one. -/
theorem C107_exact (net : Reader) (d : NetDevice) (c : Calls) (e : CallErr) :
    (∀ (p : Point) r, net c.length d.dev.target (p.whole 85).request = .ok r →
      ((∃ c', pointReadFloat32 net d (some p) c = (c', .ok (.error (.call e)))) ↔ r = .error e) ∧
      ((∃ c', pointReadBool net d (some p) c = (c', .ok (.error (.call e)))) ↔ r = .error e) ∧
      ((∃ c', pointReadMultiState net d (some p) c = (c', .ok (.error (.call e)))) ↔ r = .error e)) ∧
    (∀ (o : NetObject) r, net c.length d.dev.target o.request = .ok r →
      ((∃ c', readString net d (some o) c = (c', .ok (.error (.call e)))) ↔ r = .error e)) := by
  have key : ∀ {α : Type} (f : PropertyData → α) (p : Point) (r : Except CallErr PropertyData),
      net c.length d.dev.target (p.whole 85).request = .ok r →
      ((∃ c', readPresentValue net d f (some p) c = (c', .ok (.error (.call e)))) ↔ r = .error e) := by
    intro α f p r hr
    have h1 : readPresentValue net d f (some p) c = _ := N.bind_ok (read_of net d (p.whole 85) c r hr)
    rw [h1]
    cases r with
    | error e' =>
      refine ⟨fun ⟨c', h⟩ => ?_, fun h => ?_⟩
      · injection h with _ h; injection h with h; injection h with h; injection h with h; rw [h]
      · cases h; exact ⟨_, rfl⟩
    | ok out =>
      refine ⟨fun ⟨c', h⟩ => ?_, nofun⟩
      injection h with _ h; injection h with h; cases h
  refine ⟨fun p r hr => ⟨key _ p r hr, key _ p r hr, key _ p r hr⟩, fun o r hr => ?_⟩
  have h1 : readString net d (some o) c = _ := N.bind_ok (read_of net d o c r hr)
  rw [h1]
  cases r with
  | error e' =>
    refine ⟨fun ⟨c', h⟩ => ?_, fun h => ?_⟩
    · injection h with _ h; injection h with h; injection h with h; injection h with h; rw [h]
    · cases h; exact ⟨_, rfl⟩
  | ok out =>
    refine ⟨fun ⟨c', h⟩ => ?_, nofun⟩
    injection h with _ h; injection h with h; cases h

example : (pointReadFloat32 (fun _ _ _ => .ok (.error .timeout)) {} (some ⟨1, 2, 0⟩) []).2 = .ok (.error (.call .timeout)) ∧
    (readString (fun _ _ _ => .ok (.ok {})) {} (some ⟨1, 2, 77, arrayAll⟩) []).2 = .ok (.ok []) := by decide +kernel

/-! ## C64 Priority arrays -/

open Spec (AppVal) in
/-- What is read is null or a number iff it was sent as null, unsigned or enumerated. -/
theorem decoded_entry {s : Scalar} {v : AppVal} (h : DecodedAs s v) : (s ≠ .null ∧ ∀ x, s ≠ .uint x) ↔ ¬ C64_Entry v := by
  obtain ⟨h, he⟩ := h
  unfold C64_Entry
  cases v <;> simp only [Spec.Means] at h
  case unsigned => obtain ⟨x, rfl, -⟩ := h; simp
  case enum =>
    obtain ⟨x, rfl | rfl, -⟩ := h
    · simp
    · exact absurd rfl (he x)
  case signed => obtain ⟨x, rfl, -⟩ := h; simp
  case bits => obtain ⟨x, rfl, -⟩ := h; simp
  case objId => obtain ⟨x, rfl, -⟩ := h; simp
  all_goals subst h; simp

open Spec (AppVal) in
/-- C64, exactly: reading a priority array crashes the program iff some entry is neither null nor unsigned nor enumerated. -/
theorem C64_exact (w : Wire) (hmy : w.my.net = 0) (d : NetDevice) (p : Point) (hp : C04_Valid ⟨p.typ, p.inst⟩)
    (vs : List AppVal) (hvs : ∀ v ∈ vs, C71_Readable v) (hf : vs.length < w.fuel) (hlen : vs.length ≠ 1) (c : Calls)
    (h : Answered w c.length (p.whole 87) vs) :
    (pointReadPriority w.reader d p c).2.Panics ↔ ∃ v ∈ vs, ¬ C64_Entry v := by
  obtain ⟨ss, out, hss, -, h2, h3⟩ := read_answered w hmy d (p.whole 87) (whole_valid hp 87 (by decide)) c vs hvs hf h
  have hmany : shape ss = .many ss := shape_many (by rw [hss.length_eq]; exact hlen)
  have hmem : (∃ s ∈ ss, s ≠ .null ∧ ∀ v, s ≠ .uint v) ↔ ∃ v ∈ vs, ¬ C64_Entry v := by
    clear h2 h3 hmany hlen hf hvs h
    induction hss with
    | nil => simp
    | cons h1 _ ih =>
      rw [List.exists_mem_cons_iff, List.exists_mem_cons_iff, ih, decoded_entry h1]
  have hb : (buildFloat32 out p.typ).Panics ↔ ∃ v ∈ vs, ¬ C64_Entry v := by
    rw [C64_crash_iff, ← hmem, h2]
    constructor
    · rintro (h' | ⟨q, more, l, h', hl, hs⟩)
      · cases h'
      · injection h' with h' _
        rw [← h'] at hl
        rw [hmany] at hl
        injection hl with hl
        rw [hl]
        exact hs
    · intro hs
      exact .inr ⟨_, [], ss, rfl, hmany, hs⟩
  rw [← hb]
  have e : pointReadPriority w.reader d p c = (N.lift (buildFloat32 out p.typ) >>= fun pri => pure (.ok pri))
      (c ++ [(d.dev.target, (p.whole 87).request)]) := N.bind_ok h3
  rw [e]
  cases hr : buildFloat32 out p.typ with
  | ok x => rw [N.bind_ok (N.lift_apply _ _)]; exact Iff.rfl
  | panic k => rw [N.bind_panic (N.lift_apply _ _)]; exact Iff.rfl
  | diverge => exact Iff.rfl

/-- The priority array of an analog output with 21.5 at priority 8. -/
example : (pointReadPriority (exampleReader fun _ => some (.many (List.replicate 7 .null ++ .real 0x41AC0000 :: List.replicate 8 .null)))
      {} ⟨1, 1, 0⟩ []).2.Panics ∧
    C64_Entry (.enum 1) ∧ ¬ C64_Entry (.real 0x41AC0000) := by
  refine ⟨?_, .inr ⟨1, .inr rfl⟩, ?_⟩
  · decide +kernel
  · rintro (h | ⟨n, h | h⟩) <;> cases h

/-! ## C122 Scan sizes -/

open Bac.Discover in
/-- C122, exactly: there is a call that finds every device that answers iff the scan size is between 1 and 4194303. -/
theorem C122_exact (size : UInt32) :
    (∃ os, requests size = .ok os ∧ ∃ o ∈ os, ∀ published (r : IAm),
      ((r.id.inst.toNat : Int), Published.iam r) ∈ published → r.id.inst.toNat < 2 ^ 22 →
        ∃ d ∈ whoIs o published, d.deviceId = r.id.inst.toNat) ↔
    1 ≤ size.toNat ∧ size.toNat ≤ 4194303 := by
  constructor
  · rintro ⟨os, h1, o, ho, -⟩
    refine ⟨?_, ?_⟩
    · by_contra hc
      have h0 : size = 0 := UInt32.toNat_inj.1 (by have : (0 : UInt32).toNat = 0 := rfl; omega)
      rw [(C122_fails_size size).1 h0] at h1
      cases h1
    · by_contra hc
      rw [(C122_fails_size size).2 (by omega)] at h1
      injection h1 with h1
      rw [← h1] at ho
      cases ho
  · rintro ⟨h0, h1⟩
    obtain ⟨o, rest, h2, h3, -⟩ := C122_covers size (by rintro rfl; simp at h0) h1
    exact ⟨_, h2, o, List.mem_cons_self, h3⟩

example : Discover.requests 4194303 = .ok [{ low := 0, high := 0 }] ∧ Discover.requests 4194304 = .ok [] := by decide +kernel

end Bac.Props
