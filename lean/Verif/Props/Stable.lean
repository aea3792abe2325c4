import Verif.Lemmas.Stable
import Verif.Props.EndToEnd
/-!
# C135: whether decoding a ReadPropertyMultiple answer ends
-/

namespace Bac.Props

open Spec (AppVal)

/-- The decoder crashes on the octets `bs`. -/
def Crashes (bs : List UInt8) (k : PanicKind) : Prop :=
  ∃ N, ∀ fuel ≥ N, ∀ p, Dec.readMultipleAck fuel ⟨bs, p, none⟩ = .panic k

theorem verdict_run (bs : List UInt8) (fuel : Nat) (hf : bs.length < fuel) (p : Option UInt8) :
    (∀ k, Dec.readMultipleAck fuel ⟨bs, p, none⟩ = .panic k ↔ decoded (bs.length + 1) bs = .panic k) ∧
    (Dec.readMultipleAck fuel ⟨bs, p, none⟩ = .diverge ↔ decoded (bs.length + 1) bs = .diverge) ∧
    (∀ r, (∃ d, Dec.readMultipleAck fuel ⟨bs, p, none⟩ = .ok (r, d)) ↔
      decoded (bs.length + 1) bs = .ok r) := by
  have h1 : Dec.readMultipleAck fuel ⟨bs, p, none⟩
      = Dec.readMultipleAck (bs.length + 1) ⟨bs, p, none⟩ :=
    Dec.readMultipleAck_stable _ (Dec.Fine.of_ok rfl) _ _ hf (Nat.lt_succ_self _)
  rw [h1]
  unfold decoded Dec.new
  cases bs with
  | nil =>
    have e : ∀ q, Dec.readMultipleAck (([] : List UInt8).length + 1) ⟨[], q, none⟩
        = .ok (([], none), ⟨[], q, none⟩) := fun q => rfl
    rw [e, e]
    refine ⟨fun k => ⟨nofun, nofun⟩, ⟨nofun, nofun⟩,
      fun r => ⟨?_, ?_⟩⟩
    · rintro ⟨d, h⟩
      cases h
      rfl
    · intro h
      cases h
      exact ⟨_, rfl⟩
  | cons b rest =>
    rw [Dec.readMultipleAck_prev b rest p none]
    cases Dec.readMultipleAck ((b :: rest).length + 1) ⟨b :: rest, none, none⟩ with
    | ok r =>
      refine ⟨fun k => ⟨nofun, nofun⟩, ⟨nofun, nofun⟩,
        fun r' => ⟨?_, ?_⟩⟩
      · rintro ⟨d, h⟩
        cases h
        rfl
      · intro h
        cases h
        exact ⟨r.2, rfl⟩
    | panic k =>
      refine ⟨fun k' => ⟨fun h => (by cases h; rfl), fun h => (by cases h; rfl)⟩,
        ⟨nofun, nofun⟩, fun r' => ⟨?_, nofun⟩⟩
      rintro ⟨d, h⟩
      cases h
    | diverge =>
      refine ⟨fun k' => ⟨nofun, nofun⟩, ⟨fun _ => rfl, fun _ => rfl⟩,
        fun r' => ⟨?_, nofun⟩⟩
      rintro ⟨d, h⟩
      cases h

/-- C135.  As many rounds as there are octets, and one more, decide what the decoder does
with an answer: it runs forever, crashes or returns exactly if it does so within that bound. -/
theorem C135_decided (bs : List UInt8) :
    (Hangs bs ↔ decoded (bs.length + 1) bs = .diverge) ∧
    (∀ k, Crashes bs k ↔ decoded (bs.length + 1) bs = .panic k) ∧
    (∀ objects err, Decodes bs objects err ↔ decoded (bs.length + 1) bs = .ok (objects, err)) := by
  refine ⟨⟨?_, ?_⟩, fun k => ⟨?_, ?_⟩, fun objects err => ⟨?_, ?_⟩⟩
  · rintro ⟨N, h⟩
    exact (verdict_run bs (N + bs.length + 1) (by omega) none).2.1.1 (h _ (by omega) none)
  · intro h
    exact ⟨bs.length + 1, fun fuel hf p => (verdict_run bs fuel (by omega) p).2.1.2 h⟩
  · rintro ⟨N, h⟩
    exact ((verdict_run bs (N + bs.length + 1) (by omega) none).1 k).1 (h _ (by omega) none)
  · intro h
    exact ⟨bs.length + 1, fun fuel hf p => ((verdict_run bs fuel (by omega) p).1 k).2 h⟩
  · rintro ⟨N, h⟩
    exact ((verdict_run bs (N + bs.length + 1) (by omega) none).2.2 _).1 (h _ (by omega) none)
  · intro h
    exact ⟨bs.length + 1, fun fuel hf p => ((verdict_run bs fuel (by omega) p).2.2 _).2 h⟩

/-- Cut off after the value 5 (opening tag 4, unsigned 5): twelve rounds show that it never ends. -/
example : Hangs [0x0C, 0, 0, 0, 5, 0x1E, 0x29, 85, 0x4E, 0x21, 5] :=
  (C135_decided _).1.2 (by decide +kernel)

/-- The same, whole: it is decoded. -/
example : Decodes [0x0C, 0, 0, 0, 5, 0x1E, 0x29, 85, 0x4E, 0x21, 5, 0x4F, 0x1F]
    [{ id := ⟨0, 5⟩, properties := [⟨85, arrayAll, .one (.uint 5), 0⟩] }] none :=
  ((C135_decided _).2.2 _ _).2 (by decide +kernel)

/-- A character string whose length is cut: a crash. -/
example : Crashes [0x0C, 0, 0, 0, 5, 0x1E, 0x29, 85, 0x4E, 0x70, 0] .makesliceLen :=
  ((C135_decided _).2.1 _).2 (by decide +kernel)

/-- C135.  Every answer is decoded, hangs the decoder or crashes it; one of the three. -/
theorem C135_verdict (bs : List UInt8) :
    (Hangs bs ∨ (∃ k, Crashes bs k) ∨ ∃ objects err, Decodes bs objects err) ∧
    (Hangs bs → (∀ k, ¬ Crashes bs k) ∧ ∀ objects err, ¬ Decodes bs objects err) ∧
    (∀ k, Crashes bs k → ∀ objects err, ¬ Decodes bs objects err) ∧
    (∀ o e o' e', Decodes bs o e → Decodes bs o' e' → o = o' ∧ e = e') := by
  obtain ⟨h1, h2, h3⟩ := C135_decided bs
  simp only [h1, h2, h3]
  cases decoded (bs.length + 1) bs with
  | ok r =>
    refine ⟨.inr (.inr ⟨r.1, r.2, rfl⟩), nofun, fun k => nofun, ?_⟩
    intro o e o' e' h h'
    cases h
    cases h'
    exact ⟨rfl, rfl⟩
  | panic k =>
    refine ⟨.inr (.inl ⟨k, rfl⟩), nofun, fun k h _ _ h' => (by cases h'), ?_⟩
    intro o e o' e' h
    cases h
  | diverge =>
    refine ⟨.inl rfl, fun _ => ⟨fun k => nofun, fun _ _ => nofun⟩, fun k => nofun, ?_⟩
    intro o e o' e' h
    cases h

/-! ## Calls -/

theorem answerHeader_fine (b : List UInt8) (d : Dec) (hh : answerHeader b = .ok (.ok d)) :
    d.Fine ∧ d.buf.length ≤ b.length := by
  unfold answerHeader at hh
  cases ha : Dec.apdu (Dec.new b) with
  | panic k => rw [ha] at hh; cases hh
  | diverge => rw [ha] at hh; cases hh
  | ok y =>
    obtain ⟨⟨a, err⟩, d'⟩ := y
    rw [ha] at hh
    have i := apdu_sticky.1.2 _ _ _ (Dec.Fine.of_ok rfl) ha
    have l := apdu_sticky.2 _ _ _ ha
    cases err with
    | some e => cases hh
    | none =>
      dsimp only at hh
      split at hh
      · cases hh
      · cases hh
        exact ⟨i, l⟩

theorem readMultiStep_stable (f f' : Nat) (r : Recv) (h : ∀ b, r = .bytes b → b.length < f ∧ b.length < f') :
    readMultiStep f r = readMultiStep f' r := by
  cases r with
  | timeout => rfl
  | error c k => rfl
  | other => rfl
  | bytes b =>
    obtain ⟨l1, l2⟩ := h b rfl
    simp only [readMultiStep]
    cases hh : answerHeader b with
    | panic k => rw [Outcome.panic_bind, Outcome.panic_bind]
    | diverge => rw [Outcome.diverge_bind, Outcome.diverge_bind]
    | ok x =>
      cases x with
      | error e => simp only [Outcome.ok_bind]
      | ok d =>
        have hd := answerHeader_fine b d hh
        simp only [Outcome.ok_bind]
        rw [Dec.readMultipleAck_stable d hd.1 f f' (by omega) (by omega)]

theorem readStep_stable (f f' : Nat) (r : Recv) (h : ∀ b, r = .bytes b → b.length < f ∧ b.length < f') :
    readStep f r = readStep f' r := by
  cases r with
  | timeout => rfl
  | error c k => rfl
  | other => rfl
  | bytes b =>
    obtain ⟨l1, l2⟩ := h b rfl
    simp only [readStep, readAnswer]
    cases hh : answerHeader b with
    | panic k => simp only [Outcome.panic_bind]
    | diverge => simp only [Outcome.diverge_bind]
    | ok x =>
      cases x with
      | error e => simp only [Outcome.ok_bind]
      | ok d =>
        have hd := answerHeader_fine b d hh
        simp only [Outcome.ok_bind]
        rw [Dec.readProperty_stable d hd.1 f f' (by omega) (by omega)]

theorem attempts_congr {α : Type} (dest : Address) (pack : List UInt8) (s s' : Recv → Outcome (Step α))
    (script : Nat → Attempt) (h : ∀ i, s (script i).recv = s' (script i).recv) (n : Nat) :
    ∀ (i : Nat) (last : CallErr),
      attempts dest pack s script n i last = attempts dest pack s' script n i last := by
  induction n with
  | zero => intro i last; rfl
  | succ n ih =>
    intro i last
    unfold attempts
    simp only [h i, ih]

/-- C135.  The bound on the rounds does not show in a ReadMultiProperty call: any two bounds
above the length of the answers give the same datagrams and the same result. -/
theorem C135_call (f f' : Nat) (my : Address) (dev : Device) (os : List Object) (invoke : Option UInt8)
    (script : Nat → Attempt)
    (h : ∀ i b, (script i).recv = .bytes b → b.length < f ∧ b.length < f') :
    clientReadMulti f my dev os invoke script = clientReadMulti f' my dev os invoke script := by
  have key : ∀ dest pack n i last, attempts dest pack (readMultiStep f) script n i last
      = attempts dest pack (readMultiStep f') script n i last := fun dest pack n i last =>
    attempts_congr dest pack _ _ script (fun i => readMultiStep_stable f f' _ (h i)) n i last
  unfold clientReadMulti
  simp only [key]

/-- C135 for ReadProperty. -/
theorem C135_read (f f' : Nat) (my : Address) (dev : Device) (rp : PropertyData) (invoke : Option UInt8)
    (script : Nat → Attempt)
    (h : ∀ i b, (script i).recv = .bytes b → b.length < f ∧ b.length < f') :
    clientReadProperty f my dev rp invoke script = clientReadProperty f' my dev rp invoke script := by
  have key : ∀ dest pack n i last, attempts dest pack (readStep f) script n i last
      = attempts dest pack (readStep f') script n i last := fun dest pack n i last =>
    attempts_congr dest pack _ _ script (fun i => readStep_stable f f' _ (h i)) n i last
  unfold clientReadProperty
  simp only [key]

/-- C135 at work: one answer of nine octets, bounds 10 and 1000. -/
example (my : Address) (dev : Device) (os : List Object) :
    clientReadMulti 10 my dev os (some 7) (fun _ => ⟨none, .bytes [0x30, 7, 14, 0x0C, 0, 0, 0, 5, 0x1E]⟩)
      = clientReadMulti 1000 my dev os (some 7)
          (fun _ => ⟨none, .bytes [0x30, 7, 14, 0x0C, 0, 0, 0, 5, 0x1E]⟩) :=
  C135_call _ _ _ _ _ _ _ (fun i b hb => by cases hb; decide)

/-- C135 (the exact form of C81 for ReadMultiProperty).  A valid call whose first answer is an
acknowledgement hangs exactly if the decoder hangs on what the acknowledgement contains, and crashes
exactly if the decoder does. -/
theorem C135_hang (my : Address) (dev : Device) (os : List Object) (id : UInt8) (hmy : my.net = 0)
    (hv : ∀ o ∈ os, C04_Valid o.id) (h0 : dev.maxApdu ≠ 0)
    (hfit : (readMultiPack dev id os).length ≤ dev.maxApdu.toNat) (body : List UInt8)
    (script : Nat → Attempt) (hs : script 0 = ⟨none, .bytes (Spec.complexAck id 14 body)⟩)
    (hs1 : ∀ b, (script 1).recv ≠ .bytes b)
    (fuel : Nat) (hf : body.length < fuel) :
    ((clientReadMulti fuel my dev os (some id) script).2 = .diverge ↔ Hangs body) ∧
    (∀ k, (clientReadMulti fuel my dev os (some id) script).2 = .panic k ↔ Crashes body k) := by
  have hk : ¬ dev.maxApdu < UInt32.ofNat (readMultiPack dev id os).length := by
    have := dev.maxApdu.toNat_lt
    rw [UInt32.lt_iff_toNat_lt, UInt32.toNat_ofNat_of_lt' (by show (readMultiPack dev id os).length < 2 ^ 32; omega)]
    omega
  obtain ⟨hd1, hd2, -⟩ := C135_decided body
  obtain ⟨v2, v1, v3⟩ := verdict_run body fuel hf (some 14)
  have hnext : ∀ e, ∃ r, (attempts dev.addr.setLength (readMultiPack dev id os) (readMultiStep fuel)
      script 1 1 e).2 = .ok r := by
    intro e
    rcases attempts_cases dev.addr.setLength (readMultiPack dev id os) (readMultiStep fuel) script 0 1 e with
      ⟨x, _, h'⟩ | ⟨x, _, _, h'⟩ | ⟨r, _, _, h'⟩ | ⟨k, _, h1, _⟩ | ⟨_, h1, _⟩
    · rw [h']; exact ⟨_, rfl⟩
    · rw [h']; exact ⟨_, rfl⟩
    · rw [h']; exact ⟨_, rfl⟩
    · cases hr : (script 1).recv with
      | bytes b => exact absurd hr (hs1 b)
      | timeout => rw [hr] at h1; cases h1
      | error c k => rw [hr] at h1; cases h1
      | other => rw [hr] at h1; cases h1
    · cases hr : (script 1).recv with
      | bytes b => exact absurd hr (hs1 b)
      | timeout => rw [hr] at h1; cases h1
      | error c k => rw [hr] at h1; cases h1
      | other => rw [hr] at h1; cases h1
  have hstep : readMultiStep fuel (script 0).recv = (do
      let ((out, err), _) ← Dec.readMultipleAck fuel ⟨body, some 14, none⟩
      match err with
      | some e => pure (.retry (.decode e))
      | none => pure (.done (.ok out))) := by
    rw [hs]
    simp only [readMultiStep, Spec.complexAck]
    rw [answerHeader_ack 0x30 id 14 (Or.inl rfl)]
    rfl
  rw [readMulti_call fuel my dev os id script hmy hv h0, if_neg hk, hd1]
  simp only [hd2]
  cases hr : Dec.readMultipleAck fuel ⟨body, some 14, none⟩ with
  | diverge =>
    rw [hr] at hstep
    rw [attempts_diverge (by rw [hs]) hstep, v1.1 hr]
    exact ⟨⟨fun _ => rfl, fun _ => rfl⟩, fun k => ⟨nofun, nofun⟩⟩
  | panic k =>
    rw [hr] at hstep
    rw [attempts_panic (by rw [hs]) hstep, (v2 k).1 hr]
    exact ⟨⟨nofun, nofun⟩, fun k' => ⟨fun h => (by cases h; rfl), fun h => (by cases h; rfl)⟩⟩
  | ok y =>
    obtain ⟨⟨out, err⟩, d⟩ := y
    rw [hr] at hstep
    rw [(v3 _).1 ⟨d, hr⟩]
    have : ∃ r, wrapFailed (attempts dev.addr.setLength (readMultiPack dev id os) (readMultiStep fuel)
        script 2 0 (.failed .noId)).2 = .ok r := by
      cases err with
      | none =>
        rw [attempts_done (by rw [hs]) hstep]
        exact ⟨_, rfl⟩
      | some e =>
        rw [attempts_retry (by rw [hs]) hstep]
        obtain ⟨r, hr'⟩ := hnext (.decode e)
        dsimp only
        rw [hr']
        cases r <;> exact ⟨_, rfl⟩
    obtain ⟨r, hr'⟩ := this
    refine ⟨⟨fun h => ?_, nofun⟩, fun k => ⟨fun h => ?_, nofun⟩⟩
    · cases h.symm.trans hr'
    · cases h.symm.trans hr'

/-- The truncated answer above, sent in reply to a request for analogue input 5. -/
example (fuel : Nat) (hf : 11 < fuel) :
    (clientReadMulti fuel {} { maxApdu := 1476 } [{ id := ⟨0, 5⟩, properties := [⟨85, arrayAll, .one .nil, 0⟩] }]
      (some 7) (fun i => if i = 0 then ⟨none, .bytes [0x30, 7, 14, 0x0C, 0, 0, 0, 5, 0x1E, 0x29, 85, 0x4E, 0x21, 5]⟩
        else ⟨none, .timeout⟩)).2 = .diverge :=
  (C135_hang {} { maxApdu := 1476 } _ 7 rfl (by simp [C04_Valid]) (by decide) (by decide +kernel)
    [0x0C, 0, 0, 0, 5, 0x1E, 0x29, 85, 0x4E, 0x21, 5] _ rfl (by intro b h; cases h) fuel hf).1.2
    ((C135_decided _).1.2 (by decide +kernel))

end Bac.Props
