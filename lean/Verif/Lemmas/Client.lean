import Verif.Model.Client
import Verif.Lemmas.Messages
import Verif.Lemmas.Services
/-!
# Lemmas about the receive path
-/

namespace Bac

/-! ## Readers only drop a prefix of the input -/

/-- What is left after `m` is a suffix of what was there. -/
def Suffix {α : Type} (m : D α) : Prop :=
  ∀ d a d', m d = .ok (a, d') → ∃ pre, d.buf = pre ++ d'.buf

theorem Suffix.pure {α : Type} (a : α) : Suffix (pure a : D α) := by
  intro d b d' h; cases h; exact ⟨[], rfl⟩

theorem Suffix.bind {α β : Type} {m : D α} {f : α → D β} (h1 : Suffix m)
    (h2 : ∀ a, Suffix (f a)) : Suffix (m >>= f) := by
  intro d b d' h
  obtain ⟨a, d1, e1, e2⟩ := D.bind_inv h
  obtain ⟨p1, q1⟩ := h1 _ _ _ e1
  obtain ⟨p2, q2⟩ := h2 _ _ _ _ e2
  exact ⟨p1 ++ p2, by rw [q1, q2, List.append_assoc]⟩

namespace Dec

theorem suffix_readN (n : Nat) : Suffix (readN n) := by
  intro d a d' h
  unfold readN at h
  split at h
  · cases h; exact ⟨[], rfl⟩
  · split_ifs at h
    · cases h; exact ⟨[], rfl⟩
    · cases h; exact ⟨_, (List.take_append_drop n d.buf).symm⟩
    · cases h; exact ⟨d.buf, by simp⟩
    · cases h; exact ⟨d.buf, by simp⟩

theorem suffix_read_then {α : Type} (n : Nat) (f : Option (List UInt8) → D α)
    (hf : ∀ r, ∃ a, f r = pure a) : Suffix (readN n >>= f) :=
  (suffix_readN n).bind fun r => by obtain ⟨a, h⟩ := hf r; rw [h]; exact Suffix.pure a

theorem suffix_u8 : Suffix u8 := by
  unfold u8; apply suffix_read_then; intro r; split <;> exact ⟨_, rfl⟩

theorem suffix_u16 : Suffix u16 := by
  unfold u16; apply suffix_read_then; intro r; split <;> exact ⟨_, rfl⟩

theorem suffix_u16Into (x : UInt16) : Suffix (u16Into x) := by
  unfold u16Into; apply suffix_read_then; intro r; split <;> exact ⟨_, rfl⟩

theorem suffix_bytes (n : Nat) : Suffix (bytes n) := by
  unfold bytes; apply suffix_read_then; intro r; split <;> exact ⟨_, rfl⟩

theorem suffix_error : Suffix error := by intro d a d' h; cases h; exact ⟨[], rfl⟩

theorem suffix_address : Suffix address :=
  Suffix.bind suffix_u16 fun _ => Suffix.bind suffix_u8 fun _ => Suffix.bind (suffix_bytes _) fun _ =>
    Suffix.pure _

/-- Proves `Suffix` of a composition of readers. -/
macro "suffix_tac" : tactic => `(tactic| repeat' first
  | exact Suffix.pure _
  | exact suffix_u8 | exact suffix_u16 | exact suffix_bytes _ | exact suffix_error
  | exact suffix_address | exact suffix_u16Into _
  | (refine Suffix.bind ?_ fun _ => ?_)
  | dsimp only
  | split)

theorem suffix_npdu : Suffix npdu := by
  unfold npdu optAddress optU8 optU16
  suffix_tac

theorem suffix_bvlc : Suffix bvlc := by
  unfold bvlc
  suffix_tac

/-! ## The error returned is the one recorded -/

/-- A reader whose returned error is the recorded one. -/
def Reports {α : Type} (m : D α) (k : α → Option GoErr) : Prop :=
  ∀ d a d', m d = .ok (a, d') → k a = d'.err

theorem Reports.last {α : Type} {f : Option GoErr → α} {k : α → Option GoErr}
    (hk : ∀ e, k (f e) = e) : Reports (do let err ← error; pure (f err) : D α) k := by
  intro d a d' h; cases h; exact hk _

theorem Reports.bind {α β : Type} {m : D α} {f : α → D β} {k : β → Option GoErr}
    (h : ∀ a, Reports (f a) k) : Reports (m >>= f) k := by
  intro d b d' e
  obtain ⟨a, d1, _, e2⟩ := D.bind_inv e
  exact h a _ _ _ e2

theorem Reports.ite {α : Type} {c : Prop} [Decidable c] {m1 m2 : D α} {k : α → Option GoErr}
    (h1 : Reports m1 k) (h2 : Reports m2 k) : Reports (if c then m1 else m2) k := by
  split <;> assumption

theorem reports_npdu : Reports npdu (fun r => r.2.2) := by
  unfold npdu
  repeat' first
    | exact Reports.last (fun _ => rfl)
    | apply Reports.ite
    | (refine Reports.bind fun _ => ?_)

theorem reports_bvlc : Reports bvlc (fun r => r.2) := by
  unfold bvlc
  repeat' first
    | exact Reports.last (fun _ => rfl)
    | (refine Reports.bind fun _ => ?_)

theorem reports_apduAck (a : APDU) : Reports (apduAck a) (fun r => r.2) := by
  unfold apduAck
  repeat' first
    | exact Reports.last (fun _ => rfl)
    | (refine Reports.bind fun _ => ?_)

theorem reports_apduUnconfirmed (a : APDU) : Reports (apduUnconfirmed a) (fun r => r.2) := by
  unfold apduUnconfirmed
  repeat' first
    | exact Reports.last (fun _ => rfl)
    | (refine Reports.bind fun _ => ?_)

theorem reports_apduConfirmed (a : APDU) : Reports (apduConfirmed a) (fun r => r.2) := by
  unfold apduConfirmed
  repeat' first
    | exact Reports.last (fun _ => rfl)
    | (refine Reports.bind fun _ => ?_)

/-! ## What the application header was read from -/

theorem took_len : Took len (fun _ bs => bs = []) := by
  intro d a d' h he; cases h; exact ⟨he, [], rfl, rfl⟩

theorem took_error : Took error (fun _ bs => bs = []) := by
  intro d a d' h he; cases h; exact ⟨he, [], rfl, rfl⟩

theorem apduAck_inv {a a' : APDU} {d d' : Dec} (h : apduAck a d = .ok ((a', none), d')) :
    d.err = none ∧ ∃ inv svc, d.buf = inv :: svc :: d'.buf ∧ d'.err = none ∧
      a' = { a with invokeId := inv, service := svc } := by
  have he : d'.err = none := (reports_apduAck a _ _ _ h).symm
  have := (Took.bind took_u8 fun inv => Took.bind took_u8 fun svc => Took.bind took_error fun err =>
    Took.pure (({ a with invokeId := inv, service := svc } : APDU), err)) _ _ _ h he
  obtain ⟨h0, bs, hb, inv, x, y, rfl, rfl, svc, x, y, rfl, rfl, e, x, y, rfl, rfl, hp, rfl⟩ := this
  injection hp with hp1 hp2
  exact ⟨h0, inv, svc, by simpa using hb, he, hp1⟩

theorem apduUnconfirmed_inv {a a' : APDU} {d d' : Dec}
    (h : apduUnconfirmed a d = .ok ((a', none), d')) :
    d.err = none ∧ ∃ svc raw, d.buf = svc :: raw ∧ d'.err = none ∧ d'.buf = [] ∧
      a' = { a with unconfirmedService := svc, rawData := raw } := by
  have he : d'.err = none := (reports_apduUnconfirmed a _ _ _ h).symm
  unfold apduUnconfirmed at h
  obtain ⟨svc, d1, h1, h⟩ := D.bind_inv h
  obtain ⟨n, d2, h2, h⟩ := D.bind_inv h
  obtain ⟨raw, d3, h3, h⟩ := D.bind_inv h
  obtain ⟨e, d4, h4, h⟩ := D.bind_inv h
  cases h4
  simp only [D.pure_apply, Outcome.ok.injEq, Prod.mk.injEq] at h
  obtain ⟨⟨hp, _⟩, rfl⟩ := h
  cases h2
  obtain ⟨e1, bs, hb, hbs, hl⟩ := took_bytes _ _ _ _ h3 he
  obtain ⟨e0, bs0, hb0, hbs0⟩ := took_u8 _ _ _ h1 e1
  have hnil : d3.buf = [] := by
    have := congrArg List.length hb
    rw [List.length_append] at this
    exact List.eq_nil_of_length_eq_zero (by omega)
  refine ⟨e0, svc, raw, ?_, he, hnil, hp.symm⟩
  rw [hb0, hbs0, hb, hnil, hbs]
  simp

theorem took_restBytes : Took restBytes (fun a bs => bs = a) := by
  unfold restBytes
  intro d a d' h he
  obtain ⟨n, d1, h1, h⟩ := D.bind_inv h
  cases h1
  split at h
  · obtain ⟨e0, bs, hb, hbs, _⟩ := took_bytes _ _ _ _ h he
    exact ⟨e0, bs, hb, hbs⟩
  · cases h; exact ⟨he, [], rfl, rfl⟩

theorem apduConfirmed_inv {a a' : APDU} {d d' : Dec}
    (h : apduConfirmed a d = .ok ((a', none), d')) :
    d.err = none ∧ ∃ b inv rest, d.buf = b :: inv :: rest ∧
      a'.dataType = a.dataType ∧ a'.invokeId = inv ∧
      a'.errorClass = a.errorClass ∧ a'.errorCode = a.errorCode := by
  have he : d'.err = none := (reports_apduConfirmed a _ _ _ h).symm
  have := (Took.bind took_u8 fun b => Took.bind took_u8 fun inv =>
    Took.bind (took_hop a.segmentedMessage) fun sq => Took.bind (took_hop a.segmentedMessage) fun win =>
    Took.bind took_u8 fun svc => Took.bind took_restBytes fun raw =>
    Took.bind took_error fun err => Took.pure (({ a with maxSegs := decodeMaxSegs b, maxApdu := decodeMaxApdu b, invokeId := inv, sequence := sq, windowNumber := win, service := svc, rawData := raw } : APDU), err)) _ _ _ h he
  obtain ⟨h0, bs, hb, b, x, y, rfl, rfl, inv, x, y, rfl, rfl, sq, x, y, rfl, _, win, z, w, rfl, _,
    svc, x1, y1, rfl, rfl, raw, x2, y2, rfl, rfl, e, x3, y3, rfl, rfl, hp, rfl⟩ := this
  injection hp with hp1 hp2
  subst hp1
  refine ⟨h0, b, inv, x ++ (z ++ (svc :: (x2 ++ d'.buf))), ?_, rfl, rfl, rfl, rfl⟩
  rw [hb]; simp

theorem apduError_inv {a a' : APDU} {e : Option GoErr} {d d' : Dec}
    (h : apduError a d = .ok ((a', e), d')) : a'.dataType = a.dataType ∧
      (d.err = none → (d.buf = [] ∧ a'.invokeId = 0) ∨ ∃ rest, d.buf = a'.invokeId :: rest) := by
  unfold apduError at h
  obtain ⟨inv, d1, h1, h⟩ := D.bind_inv h
  obtain ⟨svc, d2, h2, h⟩ := D.bind_inv h
  obtain ⟨⟨tg, m⟩, d3, h3, h⟩ := D.bind_inv h
  have key : a'.dataType = a.dataType ∧ a'.invokeId = inv := by
    dsimp only at h
    split at h
    · obtain ⟨x1, d4, h4, h⟩ := D.bind_inv h
      obtain ⟨x2, d5, h5, h⟩ := D.bind_inv h
      obtain ⟨x3, d6, h6, h⟩ := D.bind_inv h
      obtain ⟨x4, d7, h7, h⟩ := D.bind_inv h
      obtain ⟨x5, d8, h8, h⟩ := D.bind_inv h
      cases h; exact ⟨rfl, rfl⟩
    · obtain ⟨x1, d4, h4, h⟩ := D.bind_inv h
      obtain ⟨x2, d5, h5, h⟩ := D.bind_inv h
      cases h; exact ⟨rfl, rfl⟩
  refine ⟨key.1, fun he => ?_⟩
  rw [key.2]
  rcases d with ⟨buf, p, err⟩
  simp only at he; subst he
  cases buf with
  | nil =>
    left
    have : u8 ⟨[], p, none⟩ = .ok (0, ⟨[], none, some .eof⟩) := rfl
    rw [this] at h1; cases h1; exact ⟨rfl, rfl⟩
  | cons x xs =>
    right
    have := parses_u8 x p xs
    rw [show [x] ++ xs = x :: xs from rfl, h1] at this
    cases this
    exact ⟨xs, rfl⟩

/-- The kinds of application headers that are accepted, with the octets they were
read from. -/
theorem apdu_inv {a : APDU} {d d' : Dec} (he : d.err = none) (h : apdu d = .ok ((a, none), d')) :
    (∃ t svc raw, d.buf = t :: svc :: raw ∧ t &&& 0xF0 = 0x10 ∧ a.dataType = 0x10 ∧
        a.unconfirmedService = svc ∧ a.rawData = raw ∧ d'.buf = []) ∨
    (∃ t inv svc, d.buf = t :: inv :: svc :: d'.buf ∧ (t &&& 0xF0 = 0x20 ∨ t &&& 0xF0 = 0x30) ∧
        a.dataType = t &&& 0xF0 ∧ a.invokeId = inv ∧ a.service = svc ∧ a.errorClass = 0 ∧ a.errorCode = 0) ∨
    (∃ t b inv rest, d.buf = t :: b :: inv :: rest ∧ t &&& 0xF0 = 0x00 ∧ a.dataType = 0x00 ∧
        a.invokeId = inv ∧ a.errorClass = 0 ∧ a.errorCode = 0) ∨
    (∃ t rest, d.buf = t :: rest ∧ t &&& 0xF0 = 0x50 ∧ a.dataType = 0x50 ∧
        ((rest = [] ∧ a.invokeId = 0) ∨ ∃ r, rest = a.invokeId :: r)) := by
  unfold apdu at h
  obtain ⟨m, d1, h1, h⟩ := D.bind_inv h
  have hcase : (∃ rest, d.buf = m :: rest ∧ d1.buf = rest ∧ d1.err = none) ∨ (m = 0 ∧ d1.err ≠ none) := by
    rcases d with ⟨buf, p, err⟩
    simp only at he; subst he
    cases buf with
    | nil =>
      right
      have : u8 ⟨[], p, none⟩ = .ok (0, ⟨[], none, some .eof⟩) := rfl
      rw [this] at h1; cases h1; exact ⟨rfl, by simp⟩
    | cons x xs =>
      left
      have := parses_u8 x p xs
      rw [show [x] ++ xs = x :: xs from rfl, h1] at this
      cases this
      exact ⟨xs, rfl, rfl, rfl⟩
  dsimp only at h
  split at h
  · rename_i ht
    obtain ⟨e1, inv, svc, hb, _, ha⟩ := apduAck_inv h
    rcases hcase with ⟨rest, hr, hr1, _⟩ | ⟨_, hbad⟩
    · right; left
      refine ⟨m, inv, svc, by rw [hr, ← hr1, hb], ht.symm, ?_, ?_⟩ <;> subst ha <;> simp
    · exact absurd e1 hbad
  · split at h
    · rename_i ht
      obtain ⟨e1, svc, raw, hb, _, hnil, ha⟩ := apduUnconfirmed_inv h
      rcases hcase with ⟨rest, hr, hr1, _⟩ | ⟨_, hbad⟩
      · left
        refine ⟨m, svc, raw, by rw [hr, ← hr1, hb], ht, ?_⟩
        subst ha; exact ⟨ht, rfl, rfl, hnil⟩
      · exact absurd e1 hbad
    · split at h
      · rename_i ht
        obtain ⟨e1, b, inv, rest', hb, ht', hi, hc, hk⟩ := apduConfirmed_inv h
        rcases hcase with ⟨rest, hr, hr1, _⟩ | ⟨_, hbad⟩
        · right; right; left
          exact ⟨m, b, inv, rest', by rw [hr, ← hr1, hb], ht, by rw [ht', ht], hi, hc, hk⟩
        · exact absurd e1 hbad
      · split at h
        · rename_i h0 ht
          obtain ⟨hdt, hinv⟩ := apduError_inv h
          rcases hcase with ⟨rest, hr, hr1, he1⟩ | ⟨h00, hbad⟩
          · right; right; right
            exact ⟨m, rest, hr, ht, by rw [hdt, ht], by rw [← hr1]; exact hinv he1⟩
          · rw [h00] at ht; exact absurd ht (by decide)
        · cases h

/-! ## Reading given headers -/

/-- A network header of two octets. -/
theorem parses_npdu_plain (v m : UInt8) (h1 : checkMask m 0x20 = false) (h2 : checkMask m 0x08 = false)
    (h3 : checkMask m 0x80 = false) :
    Parses npdu [v, m] ({ version := v, expectingReply := checkMask m 0x04, priority := m &&& 3 }, none, none) := by
  unfold npdu
  refine Parses.bind (bs := [m]) (parses_u8 v) (Parses.bind' (parses_u8 m) ?_)
  rw [h1, h2, h3]
  refine Parses.bind0 (a := none) (fun _ _ => rfl) (Parses.bind0 (a := none) (fun _ _ => rfl)
    (Parses.bind0 (a := 0) (fun _ _ => rfl) ?_))
  simp only [Bool.false_eq_true, if_false]
  exact Parses.bind' parses_error (Parses.pure _)

/-- A network header of two octets and a message type. -/
theorem parses_npdu_msg (v m t : UInt8) (h1 : checkMask m 0x20 = false) (h2 : checkMask m 0x08 = false)
    (h3 : checkMask m 0x80 = true) (ht : ¬ t > 0x80) (h13 : ¬ t = 0x13) (h01 : ¬ t = 0x01) :
    Parses npdu [v, m, t] ({ version := v, isNetworkLayerMessage := true, networkLayerMessageType := t, expectingReply := checkMask m 0x04, priority := m &&& 3 }, none, none) := by
  unfold npdu
  refine Parses.bind (bs := [m, t]) (parses_u8 v) (Parses.bind (bs := [t]) (parses_u8 m) ?_)
  rw [h1, h2, h3]
  refine Parses.bind0 (a := none) (fun _ _ => rfl) (Parses.bind0 (a := none) (fun _ _ => rfl)
    (Parses.bind0 (a := 0) (fun _ _ => rfl) ?_))
  simp only [if_true]
  refine Parses.bind' (parses_u8 t) ?_
  rw [decide_eq_false ht]
  refine Parses.bind0 (a := 0) (fun _ _ => rfl) ?_
  simp only [if_neg h13, if_neg h01]
  exact Parses.bind' parses_error (Parses.pure _)

theorem parses_ack (t inv svc : UInt8) (ht : t &&& 0xF0 = 0x30 ∨ t &&& 0xF0 = 0x20) :
    Parses apdu [t, inv, svc] ({ segmentedMessage := checkMask t 0x08, segmentedResponseAccepted := checkMask t 0x02, moreFollows := checkMask t 0x04, dataType := t &&& 0xF0, invokeId := inv, service := svc }, none) := by
  unfold apdu apduAck
  refine Parses.bind (bs := [inv, svc]) (parses_u8 t) ?_
  dsimp only
  rw [if_pos ht]
  exact Parses.bind (bs := [svc]) (parses_u8 inv) (Parses.bind' (parses_u8 svc)
    (Parses.bind' parses_error (Parses.pure _)))

theorem apdu_request_run (t sa inv svc : UInt8) (payload : List UInt8) (p : Option UInt8)
    (ht : t &&& 0xF0 = 0) (hseg : checkMask t 0x08 = false) :
    ∃ a d, apdu ⟨[t, sa, inv, svc] ++ payload, p, none⟩ = .ok ((a, none), d) ∧ d.buf = [] ∧ d.err = none ∧
      a.dataType = 0 ∧ a.invokeId = inv ∧ a.service = svc ∧ a.rawData = payload ∧
      a.errorClass = 0 ∧ a.errorCode = 0 := by
  have hrest : ∀ p, ∃ q, restBytes ⟨payload, p, none⟩ = .ok (payload, ⟨[], q, none⟩) := by
    intro p
    unfold restBytes
    cases payload with
    | nil => exact ⟨p, rfl⟩
    | cons x xs =>
      refine ⟨lastOr p (x :: xs), ?_⟩
      rw [D.bind_apply]
      show (if (x :: xs).length > 0 then bytes (x :: xs).length else pure []) _ = _
      rw [if_pos (by simp)]
      have := parses_bytes (x :: xs) p []
      rw [List.append_nil] at this
      exact this
  obtain ⟨q, hq⟩ := hrest (lastOr (lastOr (lastOr (lastOr p [t]) [sa]) [inv]) [svc])
  refine ⟨{ segmentedMessage := checkMask t 0x08, segmentedResponseAccepted := checkMask t 0x02, moreFollows := checkMask t 0x04, dataType := t &&& 0xF0, maxSegs := decodeMaxSegs sa, maxApdu := decodeMaxApdu sa, invokeId := inv, sequence := 0, windowNumber := 0, service := svc, rawData := payload }, ⟨[], q, none⟩, ?_, rfl, rfl, ?_⟩
  · unfold apdu
    rw [show ([t, sa, inv, svc] ++ payload) = [t] ++ ([sa] ++ ([inv] ++ ([svc] ++ payload))) from rfl,
      D.run_bind (parses_u8 t p _)]
    have n1 : ¬ (t &&& 0xF0 = 0x30 ∨ t &&& 0xF0 = 0x20) := by rw [ht]; decide
    have n2 : ¬ (t &&& 0xF0 = 0x10) := by rw [ht]; decide
    rw [if_neg n1, if_neg n2, if_pos ht]
    unfold apduConfirmed
    rw [D.run_bind (parses_u8 sa _ _), D.run_bind (parses_u8 inv _ _)]
    dsimp only
    rw [hseg]
    rw [D.run_bind (show optU8 false _ = .ok (0, _) from rfl),
      D.run_bind (show optU8 false _ = .ok (0, _) from rfl), D.run_bind (parses_u8 svc _ _),
      D.run_bind hq]
    rfl
  · exact ⟨ht, rfl, rfl, rfl, rfl, rfl⟩

theorem apdu_unconfirmed_run (t svc : UInt8) (payload : List UInt8) (p : Option UInt8)
    (ht : t &&& 0xF0 = 0x10) :
    ∃ a d, apdu ⟨[t, svc] ++ payload, p, none⟩ = .ok ((a, none), d) ∧ a.dataType = 0x10 ∧
      a.unconfirmedService = svc ∧ a.rawData = payload := by
  have hb : ∃ q, bytes payload.length ⟨payload, lastOr (lastOr p [t]) [svc], none⟩ = .ok (payload, ⟨[], q, none⟩) := by
    have := parses_bytes payload (lastOr (lastOr p [t]) [svc]) []
    rw [List.append_nil] at this
    exact ⟨_, this⟩
  obtain ⟨q, hq⟩ := hb
  refine ⟨{ segmentedMessage := checkMask t 0x08, segmentedResponseAccepted := checkMask t 0x02, moreFollows := checkMask t 0x04, dataType := t &&& 0xF0, unconfirmedService := svc, rawData := payload }, ⟨[], q, none⟩, ?_, ?_⟩
  · unfold apdu
    rw [show ([t, svc] ++ payload) = [t] ++ ([svc] ++ payload) from rfl, D.run_bind (parses_u8 t p _)]
    have n1 : ¬ (t &&& 0xF0 = 0x30 ∨ t &&& 0xF0 = 0x20) := by rw [ht]; decide
    rw [if_neg n1, if_pos ht]
    unfold apduUnconfirmed
    rw [D.run_bind (parses_u8 svc _ _), D.run_bind (show len _ = .ok (payload.length, _) from rfl),
      D.run_bind hq]
    rfl
  · exact ⟨ht, rfl, rfl⟩

theorem apdu_unsupported_run (t : UInt8) (rest : List UInt8) (p : Option UInt8)
    (ht : t &&& 0xF0 = 0x40 ∨ t &&& 0xF0 = 0x60 ∨ t &&& 0xF0 = 0x70 ∨ t ≥ 0x80) :
    ∃ a d e, apdu ⟨t :: rest, p, none⟩ = .ok ((a, some e), d) := by
  have key : ∀ t : UInt8, (t &&& 0xF0 = 0x40 ∨ t &&& 0xF0 = 0x60 ∨ t &&& 0xF0 = 0x70 ∨ t ≥ 0x80) →
      ¬ (t &&& 0xF0 = 0x30 ∨ t &&& 0xF0 = 0x20) ∧ ¬ (t &&& 0xF0 = 0x10) ∧ ¬ (t &&& 0xF0 = 0x00) ∧
        ¬ (t &&& 0xF0 = 0x50) := by decide +kernel
  obtain ⟨n1, n2, n3, n4⟩ := key t ht
  refine ⟨{ segmentedMessage := checkMask t 0x08, segmentedResponseAccepted := checkMask t 0x02, moreFollows := checkMask t 0x04, dataType := t &&& 0xF0 }, ⟨rest, lastOr p [t], none⟩, .unsupportedPdu, ?_⟩
  · unfold apdu
    rw [D.bind_apply, show t :: rest = [t] ++ rest from rfl, parses_u8 t p _]
    show (if _ then _ else _ : D _) _ = _
    rw [if_neg n1, if_neg n2, if_neg n3, if_neg n4]
    rfl

theorem apdu_error_run (t inv : UInt8) (rest : List UInt8) (p : Option UInt8)
    (ht : t &&& 0xF0 = 0x50) :
    ∃ a e d, apdu ⟨t :: inv :: rest, p, none⟩ = .ok ((a, e), d) ∧ a.dataType = 0x50 ∧ a.invokeId = inv := by
  obtain ⟨⟨a, e⟩, d, h⟩ := total_apdu ⟨t :: inv :: rest, p, none⟩
  refine ⟨a, e, d, h, ?_⟩
  unfold apdu at h
  rw [D.bind_apply, show t :: inv :: rest = [t] ++ (inv :: rest) from rfl, parses_u8 t p _] at h
  change (if _ then _ else _ : D _) _ = _ at h
  have n1 : ¬ (t &&& 0xF0 = 0x30 ∨ t &&& 0xF0 = 0x20) := by rw [ht]; decide
  have n2 : ¬ (t &&& 0xF0 = 0x10) := by rw [ht]; decide
  have n3 : ¬ (t &&& 0xF0 = 0x00) := by rw [ht]; decide
  rw [if_neg n1, if_neg n2, if_neg n3, if_pos ht] at h
  obtain ⟨h1, h2⟩ := apduError_inv h
  refine ⟨by rw [h1, ht], ?_⟩
  rcases h2 rfl with ⟨hb, _⟩ | ⟨r, hb⟩
  · cases hb
  · injection hb with hb1 _
    exact hb1.symm

end Dec

/-! ## The receive path -/

/-- The last part of `handleMsg` for frames that are not forwarded ones. -/
def ended (r : List Effect × Outcome Bool) : List Effect × Outcome Unit :=
  match r with
  | (es, .ok _) => (es, .ok ())
  | (es, .panic k) => (es, .panic k)
  | (es, .diverge) => (es, .diverge)

theorem handleMsg_frame (src : Address) (pending : UInt8 → Bool) (t f : UInt8) (l : UInt16)
    (payload : List UInt8) (hf : f = 10 ∨ f = 11) :
    ∃ p, handleMsg src pending ([t, f] ++ be16 l ++ payload) =
      ended (networkMsg src pending ⟨payload, p, none⟩) := by
  refine ⟨lastOr none ([t, f] ++ be16 l), ?_⟩
  have hb := Dec.parses_bvlc t f l none payload
  unfold handleMsg Dec.new
  rw [hb]
  simp only [Option.isSome_none, Bool.false_eq_true, if_false]
  rw [if_pos (by rcases hf with rfl | rfl <;> simp)]
  have h4 : f ≠ 4 := by rcases hf with rfl | rfl <;> decide
  cases hnm : networkMsg src pending _ with
  | mk es o => cases o <;> simp [ended, h4]

/-- The end of `handleMsg` for a frame with function `f` and a payload of `n` octets. -/
def endedFor (f : UInt8) (n : Nat) (r : List Effect × Outcome Bool) : List Effect × Outcome Unit :=
  match r with
  | (es, .ok reached) => if reached ∧ f = 4 ∧ n < 10 then (es, .panic .sliceBounds) else (es, .ok ())
  | (es, .panic k) => (es, .panic k)
  | (es, .diverge) => (es, .diverge)

theorem endedFor_fst (f : UInt8) (n : Nat) (r : List Effect × Outcome Bool) : (endedFor f n r).1 = r.1 := by
  rcases r with ⟨es, o⟩
  cases o with
  | ok x => simp only [endedFor]; split <;> rfl
  | panic k => rfl
  | diverge => rfl

theorem handleMsg_run (src : Address) (pending : UInt8 → Bool) (t f : UInt8) (l : UInt16)
    (payload : List UInt8) (hf : f = 11 ∨ f = 10 ∨ f = 4) :
    ∃ p, handleMsg src pending ([t, f] ++ be16 l ++ payload) =
      endedFor f payload.length (networkMsg src pending ⟨payload, p, none⟩) := by
  refine ⟨lastOr none ([t, f] ++ be16 l), ?_⟩
  have hb := Dec.parses_bvlc t f l none payload
  unfold handleMsg Dec.new
  rw [hb]
  simp only [Option.isSome_none, Bool.false_eq_true, if_false]
  rw [if_pos hf]
  have hlen : ([t, f] ++ be16 l ++ payload).length - 4 = payload.length := by simp [be16]
  rw [hlen]
  rfl

/-- A frame with another function is ignored. -/
theorem handleMsg_other (src : Address) (pending : UInt8 → Bool) (t f : UInt8) (l : UInt16)
    (payload : List UInt8) (hf : ¬ (f = 11 ∨ f = 10 ∨ f = 4)) :
    handleMsg src pending ([t, f] ++ be16 l ++ payload) = ([], .ok ()) := by
  have hb := Dec.parses_bvlc t f l none payload
  unfold handleMsg Dec.new
  rw [hb]
  simp only [Option.isSome_none, Bool.false_eq_true, if_false]
  rw [if_neg hf]

theorem apduEffects_octets (src : Address) (n : NPDU) (pending : UInt8 → Bool) (send : List UInt8)
    (a : APDU) (h : a.dataType = 0x20 ∨ a.dataType = 0x30 ∨ a.dataType = 0x00) :
    apduEffects src n pending send a =
      ([.deliver a.invokeId (.apdu send)], .ok (pending a.invokeId)) := by
  unfold apduEffects
  have h10 : ¬ a.dataType = 0x10 := by rcases h with h | h | h <;> rw [h] <;> decide
  rw [if_neg h10, if_pos h]

theorem apduEffects_error (src : Address) (n : NPDU) (pending : UInt8 → Bool) (send : List UInt8)
    (a : APDU) (h : a.dataType = 0x50) :
    apduEffects src n pending send a =
      ([.deliver a.invokeId (.error a.errorClass a.errorCode)], .ok true) := by
  unfold apduEffects
  have h10 : ¬ a.dataType = 0x10 := by rw [h]; decide
  have h20 : ¬ (a.dataType = 0x20 ∨ a.dataType = 0x30 ∨ a.dataType = 0x00) := by rw [h]; decide
  rw [if_neg h10, if_neg h20, if_pos h]

theorem networkMsg_of (src : Address) (pending : UInt8 → Bool) (hdr apdu : List UInt8) (n : NPDU)
    (hn : Parses Dec.npdu hdr (n, none, none)) (hnl : n.isNetworkLayerMessage = false)
    {p : Option UInt8} {a : APDU} {err : Option GoErr} {d : Dec}
    (ha : Dec.apdu ⟨apdu, lastOr p hdr, none⟩ = .ok ((a, err), d)) :
    networkMsg src pending ⟨hdr ++ apdu, p, none⟩ =
      if err.isSome then ([], .ok false) else apduEffects src n pending apdu a := by
  unfold networkMsg
  rw [hn p apdu]
  simp only [Option.isSome_none, Bool.false_eq_true, if_false, networkEffects, hnl, ha]
  split <;> simp

end Bac
