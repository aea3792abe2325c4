import Verif.Props.ObjectScan
/-!
# C55, C94: exactly when the scan of the object list crashes by itself, and which answers of
well-formed results make the call succeed
-/

namespace Bac.Props

open Spec (AppVal PropRef ReadResult ObjResult NetHeader)

/-! ## C55 -/

/-- C55, exactly: of a device which told the length of its list, no element is asked for and the scan
crashes exactly if it accepts less than 20 octets; if it accepts more and has objects, something is asked. -/
theorem C55_exact (net : MultiReader) (dev : ObjectID) (maxApdu : UInt32)
    (len : Outcome (Except CallErr PropertyData)) (l : UInt32) (h : C55_Told len l) :
    (((objectList net dev maxApdu len).requests = [] ∧ (objectList net dev maxApdu len).result.Panics) ↔
      maxApdu.toNat < 20) ∧
    ((objectList net dev maxApdu len).requests = [] ↔ maxApdu.toNat < 20 ∨ l = 0) := by
  by_cases hm : maxApdu.toNat < 20
  · have hp := C55_fails net dev maxApdu len l h hm
    have hr : (objectList net dev maxApdu len).requests = [] := by
      obtain ⟨r, p, ps, rfl, hp, hd⟩ := h
      have h0 : maxApdu.toNat / 20 = 0 := by omega
      unfold objectList objectListLen
      simp only [hp, hd, if_pos h0]
    exact ⟨⟨fun _ => hm, fun _ => ⟨hr, by rw [hp]; trivial⟩⟩, ⟨fun _ => Or.inl hm, fun _ => hr⟩⟩
  · have hs : 0 < maxApdu.toNat / 20 := by omega
    have hi := chunks_indices l.toNat (maxApdu.toNat / 20) hs
    rw [objectList_told h (by omega)]
    cases hc : scanChunks l.toNat (maxApdu.toNat / 20) with
    | nil =>
      have hl : l.toNat = 0 := by
        rw [hc] at hi
        simpa using congrArg List.length hi.symm
      refine ⟨⟨fun h => absurd h.2 (by simp [scanLoop, Outcome.Panics]), fun h => absurd h hm⟩,
        ⟨fun _ => Or.inr (UInt32.toNat_inj.1 hl), fun _ => rfl⟩⟩
    | cons c cs =>
      have hl : l ≠ 0 := by
        intro hl
        rw [hl] at hc
        simp [scanChunks] at hc
      have hne : (scanLoop net dev (c :: cs) [] []).requests ≠ [] := by
        obtain ⟨c1, c2⟩ := c
        unfold scanLoop
        dsimp only
        cases hr : rangeResult (net 0 (rangeRequest dev c1 c2)) with
        | ok r =>
          cases r with
          | ok objs =>
            obtain ⟨n, _, h1, _⟩ := scanLoop_requests net dev cs ([] ++ [rangeRequest dev c1 c2]) (ObjectMap.copy [] objs)
            simp only [List.nil_append] at h1 ⊢
            rw [h1]
            simp
          | error e => simp
        | panic k => simp
        | diverge => simp
      exact ⟨⟨fun h => absurd h.1 hne, fun h => absurd h hm⟩, ⟨fun h => absurd h hne, fun h => h.elim (absurd · hm) (absurd · hl)⟩⟩

/-- Seven objects and 60 octets: something is asked for; with 19 octets nothing is. -/
example :
    let p : Property := { typ := 76, arrayIndex := 0, data := .one (.uint 7) }
    let len : Outcome (Except CallErr PropertyData) := .ok (.ok { object := { id := ⟨8, 1⟩, properties := [p] } })
    C55_Told len 7 ∧ (objectList (fun _ _ => .ok (.ok [])) ⟨8, 1⟩ 60 len).requests.length = 1 ∧
      (objectList (fun _ _ => .ok (.ok [])) ⟨8, 1⟩ 19 len).requests.length = 0 :=
  ⟨⟨_, _, _, rfl, rfl, rfl⟩, by decide +kernel, by decide +kernel⟩

/-! ## C94 -/

/-- The result is an access error, with this class and code. -/
def C94_Refused (x : PropRef × ReadResult) : Prop :=
  RefOk x.1 ∧ ∃ cls code : UInt32, x.2 = .error cls.toNat code.toNat

/-- Results a device may send for an object: readable values or access errors, at least one. -/
def C94_Answer (r : ObjResult) : Prop :=
  (r.typ < 2 ^ 10 ∧ r.inst < 2 ^ 22) ∧ r.props ≠ [] ∧ ∀ x ∈ r.props, ResultOk x ∨ C94_Refused x

/-- The first access error of the answer has this class and code. -/
def C94_First (rs : List ObjResult) (cls code : UInt32) : Prop :=
  ∃ before xs ref more typ inst after,
    rs = before ++ ⟨typ, inst, xs ++ (ref, .error cls.toNat code.toNat) :: more⟩ :: after ∧
    (∀ r ∈ before, ∀ x ∈ r.props, ∀ c k, x.2 ≠ .error c k) ∧ ∀ x ∈ xs, ∀ c k, x.2 ≠ .error c k

theorem resultOk_noError {x : PropRef × ReadResult} (h : ResultOk x) (c k : Nat) : x.2 ≠ .error c k := by
  obtain ⟨_, vs, hv, _⟩ := h
  rw [hv]
  nofun

/-- Results either hold no access error or have a first one. -/
theorem firstRefused (l : List (PropRef × ReadResult)) (h : ∀ x ∈ l, ResultOk x ∨ C94_Refused x) :
    (∀ x ∈ l, ResultOk x) ∨ ∃ xs ref more, ∃ cls code : UInt32,
      l = xs ++ (ref, .error cls.toNat code.toNat) :: more ∧ (∀ x ∈ xs, ResultOk x) ∧ RefOk ref := by
  induction l with
  | nil => exact Or.inl (by simp)
  | cons x l ih =>
    rcases h x (by simp) with hx | ⟨hr, cls, code, hx⟩
    · rcases ih (fun y hy => h y (List.mem_cons_of_mem _ hy)) with hl | ⟨xs, ref, more, cls, code, rfl, h1, h2⟩
      · left
        intro y hy
        rcases List.mem_cons.1 hy with rfl | hy
        · exact hx
        · exact hl y hy
      · refine Or.inr ⟨x :: xs, ref, more, cls, code, rfl, ?_, h2⟩
        intro y hy
        rcases List.mem_cons.1 hy with rfl | hy
        · exact hx
        · exact h1 y hy
    · obtain ⟨ref, r⟩ := x
      obtain rfl : r = _ := hx
      exact Or.inr ⟨[], ref, l, cls, code, rfl, by simp, hr⟩

theorem firstSpoiled (rs : List ObjResult) (h : ∀ r ∈ rs, C94_Answer r) :
    (∀ r ∈ rs, ObjOk r) ∨ ∃ before xs ref more typ inst after, ∃ cls code : UInt32,
      rs = before ++ ⟨typ, inst, xs ++ (ref, .error cls.toNat code.toNat) :: more⟩ :: after ∧
      (∀ r ∈ before, ObjOk r) ∧ (typ < 2 ^ 10 ∧ inst < 2 ^ 22) ∧ (∀ x ∈ xs, ResultOk x) ∧ RefOk ref := by
  induction rs with
  | nil => exact Or.inl (by simp)
  | cons r rs ih =>
    obtain ⟨hid, hne, hp⟩ := h r (by simp)
    rcases firstRefused r.props hp with hg | ⟨xs, ref, more, cls, code, e, h1, h2⟩
    · rcases ih (fun y hy => h y (List.mem_cons_of_mem _ hy)) with hl |
        ⟨before, xs, ref, more, typ, inst, after, cls, code, rfl, hb, ht, hx, hr⟩
      · left
        intro y hy
        rcases List.mem_cons.1 hy with rfl | hy
        · exact ⟨hid, hne, hg⟩
        · exact hl y hy
      · refine Or.inr ⟨r :: before, xs, ref, more, typ, inst, after, cls, code, rfl, ?_, ht, hx, hr⟩
        intro y hy
        rcases List.mem_cons.1 hy with rfl | hy
        · exact ⟨hid, hne, hg⟩
        · exact hb y hy
    · obtain ⟨typ, inst, props⟩ := r
      obtain rfl : props = _ := e
      exact Or.inr ⟨[], xs, ref, more, typ, inst, rs, cls, code, rfl, by simp, hid, h1, h2⟩

theorem objOk_of {r : ObjResult} (h : C94_Answer r) (hn : ∀ x ∈ r.props, ∀ c k, x.2 ≠ ReadResult.error c k) :
    ObjOk r := by
  refine ⟨h.1, h.2.1, ?_⟩
  intro x hx
  rcases h.2.2 x hx with h1 | ⟨_, c, k, h1⟩
  · exact h1
  · exact absurd h1 (hn x hx _ _)

/-- The error returned tells which access error is the first. -/
theorem firstUnique (src : Address) (pending : UInt8 → Bool) (h : NetHeader) (hok : h.Ok)
    (f : UInt8) (hf : f = 10 ∨ f = 11) (id : UInt8) (my : Address) (dev : Device) (hmy : my.net = 0)
    (os : List Object) (hv : ∀ o ∈ os, C04_Valid o.id) (h0 : dev.maxApdu ≠ 0)
    (hfit : (readMultiPack dev id os).length ≤ dev.maxApdu.toNat)
    {rs : List ObjResult} (hrs : ∀ r ∈ rs, C94_Answer r) {d : Delivered} {N : Nat} {s : Sent} {cls code cls' code' : UInt32}
    (hN : ∀ fuel ≥ N, ∀ script, script 0 = ⟨none, d.toRecv⟩ → script 1 = ⟨none, d.toRecv⟩ →
      clientReadMulti fuel my dev os (some id) script = ([s, s], .ok (.error (.failed (.decode (.accessError cls code))))))
    (hd : handleMsg src pending (Spec.frame f (h.octets ++ Spec.complexAck id 14
        (rs.flatMap ObjResult.octets))) = ([.deliver id d], .ok ()))
    (hc : C94_First rs cls' code') : cls' = cls ∧ code' = code := by
  obtain ⟨before, xs, ref, more, typ, inst, after, rfl, hb, hx⟩ := hc
  have hr := hrs _ (List.mem_append_right _ List.mem_cons_self)
  have href : RefOk ref := by
    rcases hr.2.2 (ref, .error cls'.toNat code'.toNat) (List.mem_append_right _ List.mem_cons_self) with h1 | h1
    · exact h1.1
    · exact h1.1
  have hxs : ∀ x ∈ xs, ResultOk x := by
    intro x hm
    rcases hr.2.2 x (List.mem_append_left _ hm) with h1 | ⟨_, c, k, h1⟩
    · exact h1
    · exact absurd h1 (hx x hm _ _)
  obtain ⟨d', N', s', hd', hN'⟩ := C94_fails src pending h hok f hf id my dev hmy os hv h0 hfit before
    (fun r hm => objOk_of (hrs r (List.mem_append_left _ hm)) (hb r hm)) typ inst hr.1 xs more hxs ref href cls' code' after
  rw [hd] at hd'
  simp only [Prod.mk.injEq, List.cons.injEq, Effect.deliver.injEq, true_and, and_true] at hd'
  subst hd'
  have e1 := hN (max N N') (Nat.le_max_left _ _) (fun _ => ⟨none, d.toRecv⟩) rfl rfl
  rw [hN' (max N N') (Nat.le_max_right _ _) (fun _ => ⟨none, d.toRecv⟩) rfl rfl] at e1
  simp only [Prod.mk.injEq, Outcome.ok.injEq, Except.error.injEq, CallErr.failed.injEq, CallErr.decode.injEq,
    GoErr.accessError.injEq] at e1
  exact e1.2

/-- C94, exactly: for an answer of any objects with any readable values and access errors, which arrives in
both attempts, the call returns the values of all of them if no result is an access error; otherwise it
sends the request twice, drops every value and returns the first access error alone. -/
theorem C94_exact (src : Address) (pending : UInt8 → Bool) (h : NetHeader) (hok : h.Ok)
    (f : UInt8) (hf : f = 10 ∨ f = 11) (id : UInt8) (my : Address) (dev : Device) (hmy : my.net = 0)
    (os : List Object) (hv : ∀ o ∈ os, C04_Valid o.id) (h0 : dev.maxApdu ≠ 0)
    (hfit : (readMultiPack dev id os).length ≤ dev.maxApdu.toNat)
    (rs : List ObjResult) (hrs : ∀ r ∈ rs, C94_Answer r) :
    ∃ d s, handleMsg src pending (Spec.frame f (h.octets ++ Spec.complexAck id 14
        (rs.flatMap ObjResult.octets))) = ([.deliver id d], .ok ()) ∧
      ∃ N, ∀ fuel ≥ N, ∀ script, script 0 = ⟨none, d.toRecv⟩ → script 1 = ⟨none, d.toRecv⟩ →
        ((∀ r ∈ rs, ∀ x ∈ r.props, ∀ c k, x.2 ≠ .error c k) ↔
          ∃ out, clientReadMulti fuel my dev os (some id) script = ([s], .ok (.ok out))) ∧
        (∀ sent out, clientReadMulti fuel my dev os (some id) script = (sent, .ok (.ok out)) →
          List.Forall₂ CarriesObj out rs) ∧
        ∀ cls code, C94_First rs cls code ↔
          clientReadMulti fuel my dev os (some id) script =
            ([s, s], .ok (.error (.failed (.decode (.accessError cls code))))) := by
  have hnone : ∀ {cls code : UInt32}, C94_First rs cls code →
      ¬ ∀ r ∈ rs, ∀ x ∈ r.props, ∀ c k, x.2 ≠ ReadResult.error c k := by
    rintro cls code ⟨before, xs, ref, more, typ, inst, after, rfl, _, _⟩ hc
    exact hc _ (List.mem_append_right _ List.mem_cons_self) (ref, .error cls.toNat code.toNat)
      (List.mem_append_right _ List.mem_cons_self) _ _ rfl
  have hk : ¬ dev.maxApdu < UInt32.ofNat (readMultiPack dev id os).length := by
    have := dev.maxApdu.toNat_lt
    rw [UInt32.lt_iff_toNat_lt, UInt32.toNat_ofNat_of_lt' (by show (readMultiPack dev id os).length < 2 ^ 32; omega)]
    omega
  rcases firstSpoiled rs hrs with hg | ⟨before, xs, ref, more, typ, inst, after, cls, code, rfl, hb, ht, hx, hr⟩
  · obtain ⟨out, hout, N, hN⟩ := C33_complete_partial rs hg
    have hno : ∀ r ∈ rs, ∀ x ∈ r.props, ∀ c k, x.2 ≠ ReadResult.error c k :=
      fun r hr x hx c k => resultOk_noError ((hg r hr).2.2 x hx) c k
    refine ⟨_, datagram dev.addr.setLength (readMultiPack dev id os), (C72_acks src pending h hok f hf id 14 _).2, N, ?_⟩
    intro fuel hfu script h1 h2
    obtain ⟨d', hd'⟩ := hN fuel hfu (some 14)
    have e : clientReadMulti fuel my dev os (some id) script =
        ([datagram dev.addr.setLength (readMultiPack dev id os)], .ok (.ok out)) := by
      rw [readMulti_call fuel my dev os id script hmy hv h0, if_neg hk, attempts_done (r := .ok out) (by rw [h1]) (by
        rw [h1]
        simp only [Delivered.toRecv, readMultiStep, Spec.complexAck]
        rw [answerHeader_ack 0x30 id 14 (Or.inl rfl)]
        simp only [Outcome.ok_bind, hd']
        rfl)]
      rfl
    rw [e]
    refine ⟨⟨fun _ => ⟨out, rfl⟩, fun _ => hno⟩, ?_, ?_⟩
    · intro sent out' ho
      simp only [Prod.mk.injEq, Outcome.ok.injEq, Except.ok.injEq] at ho
      obtain ⟨_, rfl⟩ := ho
      exact hout
    · intro cls code
      exact ⟨fun hc => absurd hno (hnone hc), fun hc => by simp at hc⟩
  · obtain ⟨d, N, s, hd, hN⟩ := C94_fails src pending h hok f hf id my dev hmy os hv h0 hfit before hb typ inst ht
      xs more hx ref hr cls code after
    have hyes : ¬ ∀ r ∈ before ++ ⟨typ, inst, xs ++ (ref, .error cls.toNat code.toNat) :: more⟩ :: after,
        ∀ x ∈ r.props, ∀ c k, x.2 ≠ ReadResult.error c k :=
      fun hc => hc _ (List.mem_append_right _ List.mem_cons_self) (ref, .error cls.toNat code.toNat)
        (List.mem_append_right _ List.mem_cons_self) _ _ rfl
    refine ⟨d, s, hd, N, ?_⟩
    intro fuel hfu script h1 h2
    rw [hN fuel hfu script h1 h2]
    refine ⟨⟨fun hc => absurd hc hyes, fun ⟨out, hc⟩ => by simp at hc⟩, fun sent out hc => by simp at hc, ?_⟩
    intro cls' code'
    constructor
    · intro hc
      obtain ⟨e1, e2⟩ := firstUnique src pending h hok f hf id my dev hmy os hv h0 hfit hrs hN hd hc
      rw [e1, e2]
    · intro hc
      simp only [Prod.mk.injEq, Outcome.ok.injEq, Except.error.injEq, CallErr.failed.injEq, CallErr.decode.injEq,
        GoErr.accessError.injEq, true_and] at hc
      obtain ⟨rfl, rfl⟩ := hc
      exact ⟨before, xs, ref, more, typ, inst, after, rfl,
        fun r hr x hx c k => resultOk_noError ((hb r hr).2.2 x hx) c k, fun x hx' c k => resultOk_noError (hx x hx') c k⟩

/-- An answer with a name, then an unknown-property error for the description, then another object. -/
example : let rs : List ObjResult := [⟨0, 5, [(⟨77, none⟩, .values [.chars [65]]), (⟨28, none⟩, .error 2 32)]⟩,
      ⟨0, 6, [(⟨77, none⟩, .values [.unsigned 7])]⟩]
    (∀ r ∈ rs, C94_Answer r) ∧ C94_First rs 2 32 := by
  refine ⟨?_, ?_⟩
  · intro r hr
    have hv : ∀ v : AppVal, v = .chars [65] ∨ v = .unsigned 7 → C71_Readable v := by
      rintro v (rfl | rfl)
      · exact ⟨by simp [AppVal.WF], trivial⟩
      · exact ⟨by simp [AppVal.WF], trivial⟩
    have ok : ∀ v : AppVal, v = .chars [65] ∨ v = .unsigned 7 → ResultOk (⟨77, none⟩, .values [v]) := fun v h =>
      ⟨⟨(by decide : 77 < 2 ^ 32), nofun⟩, [v], rfl, by simpa using hv v h⟩
    simp only [List.mem_cons, List.not_mem_nil, or_false] at hr
    rcases hr with rfl | rfl
    · refine ⟨⟨by decide, by decide⟩, nofun, ?_⟩
      intro x hx
      simp only [List.mem_cons, List.not_mem_nil, or_false] at hx
      rcases hx with rfl | rfl
      · exact Or.inl (ok _ (Or.inl rfl))
      · exact Or.inr ⟨⟨by decide, nofun⟩, 2, 32, rfl⟩
    · refine ⟨⟨by decide, by decide⟩, nofun, ?_⟩
      intro x hx
      simp only [List.mem_cons, List.not_mem_nil, or_false] at hx
      subst hx
      exact Or.inl (ok _ (Or.inr rfl))
  · exact ⟨[], [(⟨77, none⟩, .values [.chars [65]])], ⟨28, none⟩, [], 0, 5, _, rfl, by simp, by simp⟩

end Bac.Props
