import Verif.Lemmas.ReadMultiple
/-!
# The loops of the ReadPropertyMultiple decoder: more rounds than octets change nothing
-/

namespace Bac

/-- Two programs agree after agreeing first steps. -/
theorem D.bind_eq {α β : Type} {m1 m2 : D α} {f1 f2 : α → D β} {d : Dec} (h : m1 d = m2 d)
    (hf : ∀ a d', m1 d = .ok (a, d') → f1 a d' = f2 a d') : (m1 >>= f1) d = (m2 >>= f2) d := by
  rw [D.bind_apply, D.bind_apply, ← h]
  cases hm : m1 d with
  | ok r => exact hf r.1 r.2 hm
  | panic k => rfl
  | diverge => rfl

theorem D.bind_apply_eq {α β : Type} {m : D α} {f : α → D β} {d d' : Dec} (h : m d = m d') :
    (m >>= f) d = (m >>= f) d' := by
  rw [D.bind_apply, D.bind_apply, h]

/-- The decoder is free of errors, or its input ran out. -/
def Dec.Fine (d : Dec) : Prop := d.err ≠ none → d.Failed

namespace Dec

theorem Failed.eta {d : Dec} (h : d.Failed) : ∃ e, d = ⟨[], none, some e⟩ := by
  obtain ⟨h1, h2, h3⟩ := h
  obtain ⟨buf, prev, err⟩ := d
  cases err with
  | none => exact absurd rfl h1
  | some e =>
    simp only at h2 h3
    subst h2 h3
    exact ⟨e, rfl⟩

theorem Fine.of_ok {d : Dec} (h : d.err = none) : d.Fine := fun hc => absurd h hc

/-! ## The date-time loop -/

theorem sticky_dateTimeField (tag : UInt8) (len : UInt32) (dt : Date × Time) :
    Sticky (dateTimeField tag len dt) := by
  unfold dateTimeField
  split
  · exact (date_total _ _).2.bind fun _ => Sticky.pure _
  split
  · exact (time_sticky _ _).bind fun _ => Sticky.pure _
  split
  · rename_i h
    refine Sticky.bind ?_ fun _ => Sticky.pure _
    refine (sticky_rawRead len.toNat ?_).bind fun _ => Sticky.pure _
    intro hc
    have : (0 : UInt32).toNat < len.toNat := UInt32.lt_iff_toNat_lt.mp h
    omega
  · exact Sticky.pure _

theorem shrinks_skip (n : Nat) : Shrinks (skip n) := (shrinks_rawRead n).bind fun _ => Shrinks.pure _

theorem shrinks_dateTimeField (tag : UInt8) (len : UInt32) (dt : Date × Time) :
    Shrinks (dateTimeField tag len dt) := by
  unfold dateTimeField
  exact Shrinks.ite ((shrinks_date _ _).bind fun _ => Shrinks.pure _)
    (Shrinks.ite ((shrinks_time _ _).bind fun _ => Shrinks.pure _)
      (Shrinks.ite ((shrinks_skip _).bind fun _ => Shrinks.pure _) (Shrinks.pure _)))

theorem tagNumberAndValue_failed (e : GoErr) :
    tagNumberAndValue ⟨[], none, some e⟩ = .ok ((0, 0, 0), ⟨[], none, some e⟩) := by
  unfold tagNumberAndValue
  rw [D.run_bind (tagNumber_failed e)]
  rfl

theorem tagNumberAndValue_progress (d d' : Dec) (r) (he : d.err = none) (hb : d.buf ≠ [])
    (h : tagNumberAndValue d = .ok (r, d')) : d'.buf.length < d.buf.length := by
  obtain ⟨b, d2, h3, h4⟩ := D.bind_inv h
  have hp := tagNumber_progress _ _ _ he hb h3
  have hs : Shrinks (value b.2 >>= fun v => (pure (b.1, b.2, v) : D (UInt8 × UInt8 × UInt32))) :=
    (shrinks_value _).bind fun _ => Shrinks.pure _
  have := hs _ _ _ h4
  omega

/-- On a failed decoder the loop over a date-time never ends. -/
theorem dateTimeLoop_failed (e : GoErr) (n : Nat) : ∀ dt,
    dateTimeLoop n dt ⟨[], none, some e⟩ = .diverge := by
  induction n with
  | zero => intro dt; rfl
  | succ n ih =>
    intro dt
    unfold dateTimeLoop
    rw [D.run_bind (tagNumberAndValue_failed e)]
    dsimp only
    rw [if_neg (by decide)]
    have h : dateTimeField 0 0 dt ⟨[], none, some e⟩ = .ok (dt, ⟨[], none, some e⟩) := rfl
    rw [D.run_bind h]
    exact ih _

theorem dateTimeLoop_stable (k : Nat) : ∀ (d : Dec) (dt : Date × Time) (n n' : Nat), d.Fine →
    d.buf.length ≤ k → k ≤ n → k ≤ n' → dateTimeLoop n dt d = dateTimeLoop n' dt d := by
  induction k with
  | zero =>
    intro d dt n n' hi hl _ _
    have key : ∀ n, dateTimeLoop n dt d = .diverge := by
      intro n
      by_cases he : d.err = none
      · obtain ⟨buf, prev, err⟩ := d
        simp only at he hl
        have hb : buf = [] := List.length_eq_zero_iff.mp (by omega)
        subst he hb
        cases n with
        | zero => rfl
        | succ n =>
          unfold dateTimeLoop
          have h : tagNumberAndValue ⟨[], prev, none⟩ = .ok ((0, 0, 0), ⟨[], none, some .eof⟩) := by
            unfold tagNumberAndValue
            rw [D.run_bind (tagNumber_empty prev)]
            rfl
          rw [D.run_bind h]
          dsimp only
          rw [if_neg (by decide)]
          have h : dateTimeField 0 0 dt ⟨[], none, some .eof⟩ = .ok (dt, ⟨[], none, some .eof⟩) := rfl
          rw [D.run_bind h]
          exact dateTimeLoop_failed _ _ _
      · obtain ⟨e, rfl⟩ := (hi he).eta
        exact dateTimeLoop_failed _ _ _
    rw [key, key]
  | succ k ih =>
    intro d dt n n' hi hl hn hn'
    by_cases he : d.err = none
    · by_cases hb : d.buf = []
      · exact ih d dt n n' hi (by rw [hb]; simp) (by omega) (by omega)
      obtain ⟨j, rfl⟩ : ∃ j, n = j + 1 := ⟨n - 1, by omega⟩
      obtain ⟨j', rfl⟩ : ∃ j, n' = j + 1 := ⟨n' - 1, by omega⟩
      unfold dateTimeLoop
      refine D.bind_eq rfl fun a d1 h1 => ?_
      have hp := tagNumberAndValue_progress _ _ _ he hb h1
      have i1 := tagNumberAndValue_total.2.2 _ _ _ hi h1
      dsimp only
      split
      · rfl
      refine D.bind_eq rfl fun dt' d2 h2 => ?_
      have l2 := shrinks_dateTimeField _ _ _ _ _ _ h2
      exact ih _ _ _ _ ((sticky_dateTimeField _ _ _).2 _ _ _ i1 h2) (by omega) (by omega) (by omega)
    · obtain ⟨e, rfl⟩ := (hi he).eta
      rw [dateTimeLoop_failed, dateTimeLoop_failed]

theorem sticky_dateTimeLoop (n : Nat) : ∀ dt, Sticky (dateTimeLoop n dt) := by
  induction n with
  | zero =>
    intro dt
    constructor
    · intro d a d' _ h; cases h
    · intro d a d' _ h; cases h
  | succ n ih =>
    intro dt
    unfold dateTimeLoop
    exact tagNumberAndValue_total.2.bind fun _ => Sticky.ite (Sticky.pure _)
      ((sticky_dateTimeField _ _ _).bind fun _ => ih _)

theorem shrinks_dateTimeLoop (n : Nat) : ∀ dt, Shrinks (dateTimeLoop n dt) := by
  induction n with
  | zero => intro dt d a d' h; cases h
  | succ n ih =>
    intro dt
    unfold dateTimeLoop
    exact shrinks_tagNumberAndValue.bind fun _ => Shrinks.ite (Shrinks.pure _)
      ((shrinks_dateTimeField _ _ _).bind fun _ => ih _)

/-! ## One element of a value list -/

theorem rpmElement_stable (f f' : Nat) (typ : UInt32) (obj : Object) (tag m : UInt8) (acc : RpmAcc)
    (d : Dec) (hi : d.Fine) (hf : d.buf.length ≤ f) (hf' : d.buf.length ≤ f') :
    rpmElement f typ obj tag m acc d = rpmElement f' typ obj tag m acc d := by
  unfold rpmElement
  split
  · split
    · rfl
    split
    · split
      · exact D.bind_eq (dateTimeLoop_stable d.buf.length d _ _ _ hi (Nat.le_refl _) hf hf')
          fun _ _ _ => rfl
      · rfl
    · rfl
  · rfl

theorem sticky_unreadByte : Sticky unreadByte := by
  constructor
  · intro d a d' hf h
    unfold unreadByte at h
    rw [hf.2.2] at h
    cases h
    exact hf
  · intro d a d' hi h hc
    unfold unreadByte at h
    cases hp : d.prev with
    | none =>
      rw [hp] at h
      cases h
      exact hi hc
    | some b =>
      rw [hp] at h
      cases h
      have := (hi hc).2.2
      rw [hp] at this
      cases this

theorem sticky_rawReadErr (n : Nat) : Sticky (rawReadErr n) := by
  constructor
  · intro d a d' hf h
    unfold rawReadErr at h
    rw [if_pos hf.2.1] at h
    cases h
    exact ⟨hf.1, rfl, rfl⟩
  · intro d a d' hi h hc
    unfold rawReadErr at h
    split at h
    · cases h
      exact ⟨hc, rfl, rfl⟩
    · rename_i hb
      cases h
      exact absurd (hi hc).2.1 hb

theorem sticky_rpmElement (f : Nat) (typ : UInt32) (obj : Object) (tag m : UInt8) (acc : RpmAcc) :
    Sticky (rpmElement f typ obj tag m acc) := by
  unfold rpmElement
  refine Sticky.ite (Sticky.ite (sticky_unreadByte.bind fun _ => Sticky.pure _) (Sticky.ite (Sticky.ite
    ((sticky_dateTimeLoop _ _).bind fun _ => Sticky.pure _) (Sticky.pure _)) ?_)) ?_
  · refine (value_total _).2.bind fun len => Sticky.ite (Sticky.ite ?_ (Sticky.pure _)) ?_
    · exact (sticky_rawReadErr _).bind fun _ => Sticky.pure _
    · exact (appDataOfTag_sticky _ _).bind fun _ => Sticky.ite (Sticky.pure _) (Sticky.pure _)
  · exact (value_total _).2.bind fun _ => (appDataOfTag_sticky _ _).bind fun _ =>
      Sticky.ite (Sticky.pure _) (Sticky.pure _)

/-- Other than at a closing context tag, an element does not lengthen the input. -/
theorem shrinks_rpmElement (f : Nat) (typ : UInt32) (obj : Object) (tag m : UInt8) (acc : RpmAcc)
    (hm : ¬ (isContextSpecific m = true ∧ isClosing m = true)) :
    Shrinks (rpmElement f typ obj tag m acc) := by
  unfold rpmElement
  by_cases hc : isContextSpecific m = true
  · rw [if_pos hc, if_neg (fun h => hm ⟨hc, h⟩)]
    refine Shrinks.ite (Shrinks.ite
      ((shrinks_dateTimeLoop _ _).bind fun _ => Shrinks.pure _) (Shrinks.pure _)) ?_
    refine (shrinks_value _).bind fun len => Shrinks.ite (Shrinks.ite ?_ (Shrinks.pure _)) ?_
    · exact (shrinks_rawReadErr _).bind fun _ => Shrinks.pure _
    · exact (shrinks_appDataOfTag _ _).bind fun _ => Shrinks.ite (Shrinks.pure _) (Shrinks.pure _)
  · rw [if_neg hc]
    exact (shrinks_value _).bind fun _ => (shrinks_appDataOfTag _ _).bind fun _ =>
      Shrinks.ite (Shrinks.pure _) (Shrinks.pure _)

theorem rpmElement_close (f : Nat) (typ : UInt32) (obj : Object) (tag m : UInt8) (acc : RpmAcc)
    (hc : isContextSpecific m = true) (hm : isClosing m = true) :
    rpmElement f typ obj tag m acc = (do
      let _ ← unreadByte
      pure (acc, none)) := by
  unfold rpmElement
  rw [if_pos hc, if_pos hm]

/-! ## The value loop -/

/-- A closing context tag of one octet, other than 4, stops the loop for good. -/
theorem rpmNextValue_close (typ : UInt32) (obj : Object) (b : UInt8) (rest : List UInt8)
    (hc : isContextSpecific b = true) (hm : isClosing b = true) (hx : isExtendedTagNumber b = false)
    (h4 : b >>> 4 ≠ 4) (f n : Nat) : ∀ (acc : RpmAcc) (p : Option UInt8),
    rpmNextValue f typ obj n acc ⟨b :: rest, p, none⟩ = .diverge := by
  have ht : ∀ p, tagNumber ⟨b :: rest, p, none⟩ = .ok ((b >>> 4, b), ⟨rest, some b, none⟩) := by
    intro p
    have h : u8 ⟨b :: rest, p, none⟩ = .ok (b, ⟨rest, some b, none⟩) := rfl
    unfold tagNumber
    rw [D.run_bind h, hx]
    rfl
  induction n with
  | zero =>
    intro acc p
    unfold rpmNextValue
    rw [D.run_bind (ht p)]
    dsimp only
    rw [if_neg (fun h => h4 h.2)]
    rfl
  | succ n ih =>
    intro acc p
    unfold rpmNextValue
    rw [D.run_bind (ht p)]
    dsimp only
    rw [if_neg (fun h => h4 h.2)]
    unfold rpmValues
    rw [rpmElement_close _ _ _ _ _ _ hc hm]
    have := ih acc none
    unfold rpmNextValue at this
    exact this

theorem rpmNextValue_failed (typ : UInt32) (obj : Object) (f n : Nat) (acc : RpmAcc) (d : Dec)
    (h : d.Failed) : rpmNextValue f typ obj n acc d = .diverge := by
  obtain ⟨e, rfl⟩ := h.eta
  unfold rpmNextValue
  rw [D.run_bind (tagNumber_failed e)]
  dsimp only
  rw [if_neg (by decide)]
  exact rpmValues_eof _ _ _ _ _ _

/-- The value loop, written from tag to tag. -/
theorem rpmValues_next (f : Nat) (typ : UInt32) (obj : Object) (n : Nat) (tag m : UInt8) (acc : RpmAcc) :
    rpmValues f typ obj (n + 1) tag m acc = (do
      let r ← rpmElement f typ obj tag m acc
      if r.2.isSome then pure (r.1, r.2) else rpmNextValue f typ obj n r.1) := by
  conv_lhs => unfold rpmValues
  rfl

/-- One element of a value list uses up input, or the input has run out, or it is the
closing tag at which the loop stays. -/
theorem element_progress (f : Nat) (typ : UInt32) (obj : Object) (tag m : UInt8) (acc acc' : RpmAcc)
    (d d1 d2 : Dec) (x : Option GoErr) (he : d.err = none) (h1 : tagNumber d = .ok ((tag, m), d1))
    (h4 : ¬ (isClosing m = true ∧ tag = 4))
    (h2 : rpmElement f typ obj tag m acc d1 = .ok ((acc', x), d2)) :
    d2.Failed ∨ (d2.Fine ∧ d2.buf.length < d.buf.length) ∨
      ∃ b rest p, d2 = ⟨b :: rest, p, none⟩ ∧ isContextSpecific b = true ∧ isClosing b = true ∧
        isExtendedTagNumber b = false ∧ b >>> 4 ≠ 4 := by
  have hi : d.Fine := Fine.of_ok he
  have i1 : d1.Fine := tagNumber_total.2.2 _ _ _ hi h1
  have i2 : d2.Fine := (sticky_rpmElement _ _ _ _ _ _).2 _ _ _ i1 h2
  by_cases f1 : d1.err = none
  swap
  · exact .inl ((sticky_rpmElement _ _ _ _ _ _).1 _ _ _ (i1 f1) h2)
  obtain ⟨buf, prev, err⟩ := d
  simp only at he
  subst he
  cases buf with
  | nil =>
    rw [tagNumber_empty] at h1
    cases h1
    cases f1
  | cons b rest =>
    by_cases hc : isContextSpecific m = true ∧ isClosing m = true
    · rw [rpmElement_close _ _ _ _ _ _ hc.1 hc.2] at h2
      have hu : u8 ⟨b :: rest, prev, none⟩ = .ok (b, ⟨rest, some b, none⟩) := rfl
      unfold tagNumber at h1
      rw [D.run_bind hu] at h1
      by_cases hx : isExtendedTagNumber b = true
      · rw [if_pos hx] at h1
        cases rest with
        | nil => cases h1; cases f1
        | cons c rest =>
          have hu : u8 ⟨c :: rest, some b, none⟩ = .ok (c, ⟨rest, some c, none⟩) := rfl
          rw [D.run_bind hu] at h1
          cases h1
          cases h2
          exact .inr (.inl ⟨i2, by simp⟩)
      · rw [if_neg hx] at h1
        cases h1
        cases h2
        exact .inr (.inr ⟨m, rest, none, rfl, hc.1, hc.2, by simpa using hx, fun h => h4 ⟨hc.2, h⟩⟩)
    · have l1 := tagNumber_progress _ _ _ rfl (by simp) h1
      have l2 := shrinks_rpmElement _ _ _ _ _ _ hc _ _ _ h2
      exact .inr (.inl ⟨i2, by omega⟩)

theorem rpmNextValue_stable (typ : UInt32) (obj : Object) (k : Nat) : ∀ (d : Dec) (acc : RpmAcc)
    (f f' n n' : Nat), d.Fine → d.buf.length ≤ k → k ≤ f → k ≤ f' → k ≤ n → k ≤ n' →
    rpmNextValue f typ obj n acc d = rpmNextValue f' typ obj n' acc d := by
  induction k with
  | zero =>
    intro d acc f f' n n' hi hl _ _ _ _
    have key : ∀ f n, rpmNextValue f typ obj n acc d = .diverge := by
      intro f n
      by_cases he : d.err = none
      · obtain ⟨buf, prev, err⟩ := d
        simp only at he hl
        have hb : buf = [] := List.length_eq_zero_iff.mp (by omega)
        subst he hb
        exact rpmNextValue_eof _ _ _ _ _ _
      · exact rpmNextValue_failed _ _ _ _ _ _ (hi he)
    rw [key, key]
  | succ k ih =>
    intro d acc f f' n n' hi hl hf hf' hn hn'
    by_cases he : d.err = none
    swap
    · rw [rpmNextValue_failed _ _ _ _ _ _ (hi he), rpmNextValue_failed _ _ _ _ _ _ (hi he)]
    unfold rpmNextValue
    refine D.bind_eq rfl fun r d1 h1 => ?_
    obtain ⟨tag, m⟩ := r
    dsimp only
    split
    · rfl
    rename_i h4
    obtain ⟨j, rfl⟩ : ∃ j, n = j + 1 := ⟨n - 1, by omega⟩
    obtain ⟨j', rfl⟩ : ∃ j, n' = j + 1 := ⟨n' - 1, by omega⟩
    have l1 := shrinks_tagNumber _ _ _ h1
    have i1 : d1.Fine := tagNumber_total.2.2 _ _ _ hi h1
    rw [rpmValues_next, rpmValues_next]
    refine D.bind_eq (rpmElement_stable _ _ _ _ _ _ _ _ i1 (by omega) (by omega)) fun r d2 h2 => ?_
    obtain ⟨acc', x⟩ := r
    dsimp only
    split
    · rfl
    rcases element_progress f typ obj tag m acc acc' d d1 d2 x he h1 h4 h2 with h | ⟨h, l⟩ |
      ⟨b, rest, p, rfl, c1, c2, c3, c4⟩
    · rw [rpmNextValue_failed _ _ _ _ _ _ h, rpmNextValue_failed _ _ _ _ _ _ h]
    · exact ih _ _ _ _ _ _ h (by omega) (by omega) (by omega) (by omega) (by omega)
    · rw [rpmNextValue_close _ _ _ _ c1 c2 c3 c4, rpmNextValue_close _ _ _ _ c1 c2 c3 c4]

/-- A tag and its element together do not lengthen the input. -/
theorem element_le (f : Nat) (typ : UInt32) (obj : Object) (tag m : UInt8) (acc acc' : RpmAcc)
    (d d1 d2 : Dec) (x : Option GoErr) (hi : d.Fine) (h1 : tagNumber d = .ok ((tag, m), d1))
    (h2 : rpmElement f typ obj tag m acc d1 = .ok ((acc', x), d2)) :
    d2.buf.length ≤ d.buf.length := by
  have i1 : d1.Fine := tagNumber_total.2.2 _ _ _ hi h1
  by_cases f1 : d1.err = none
  swap
  · rw [((sticky_rpmElement _ _ _ _ _ _).1 _ _ _ (i1 f1) h2).2.1]
    simp
  have he : d.err = none := by
    by_contra hc
    exact (tagNumber_total.2.1 _ _ _ (hi hc) h1).1 f1
  have hb : d.buf ≠ [] := by
    intro hb
    obtain ⟨buf, prev, err⟩ := d
    simp only at he hb
    subst he hb
    rw [tagNumber_empty] at h1
    cases h1
    cases f1
  have l1 := tagNumber_progress _ _ _ he hb h1
  by_cases hc : isContextSpecific m = true ∧ isClosing m = true
  · rw [rpmElement_close _ _ _ _ _ _ hc.1 hc.2] at h2
    obtain ⟨u, d3, h3, h4⟩ := D.bind_inv h2
    cases h4
    unfold unreadByte at h3
    split at h3
    · cases h3
      exact l1
    · cases h3
      omega
  · have := shrinks_rpmElement _ _ _ _ _ _ hc _ _ _ h2
    omega

theorem rpmValues_stable (typ : UInt32) (obj : Object) (tag m : UInt8) (acc : RpmAcc) (d d1 : Dec)
    (f f' n n' : Nat) (hi : d.Fine) (h1 : tagNumber d = .ok ((tag, m), d1))
    (hf : d.buf.length ≤ f) (hf' : d.buf.length ≤ f') (hn : d.buf.length + 1 ≤ n)
    (hn' : d.buf.length + 1 ≤ n') :
    rpmValues f typ obj n tag m acc d1 = rpmValues f' typ obj n' tag m acc d1 := by
  obtain ⟨j, rfl⟩ : ∃ j, n = j + 1 := ⟨n - 1, by omega⟩
  obtain ⟨j', rfl⟩ : ∃ j, n' = j + 1 := ⟨n' - 1, by omega⟩
  have l1 := shrinks_tagNumber _ _ _ h1
  have i1 : d1.Fine := tagNumber_total.2.2 _ _ _ hi h1
  rw [rpmValues_next, rpmValues_next]
  refine D.bind_eq (rpmElement_stable _ _ _ _ _ _ _ _ i1 (by omega) (by omega)) fun r d2 h2 => ?_
  obtain ⟨acc', x⟩ := r
  have := element_le _ _ _ _ _ _ _ _ _ _ _ hi h1 h2
  have i2 : d2.Fine := (sticky_rpmElement _ _ _ _ _ _).2 _ _ _ i1 h2
  dsimp only
  split
  · rfl
  · exact rpmNextValue_stable typ obj d.buf.length d2 acc' f f' j j' i2 (by omega) (by omega) (by omega)
      (by omega) (by omega)

theorem sticky_rpmValues (f : Nat) (typ : UInt32) (obj : Object) (n : Nat) : ∀ (tag m : UInt8)
    (acc : RpmAcc), Sticky (rpmValues f typ obj n tag m acc) := by
  induction n with
  | zero =>
    intro tag m acc
    constructor
    · intro d a d' _ h; cases h
    · intro d a d' _ h; cases h
  | succ n ih =>
    intro tag m acc
    unfold rpmValues
    exact (sticky_rpmElement _ _ _ _ _ _).bind fun _ => Sticky.ite (Sticky.pure _)
      (tagNumber_total.2.bind fun _ => Sticky.ite (Sticky.pure _) (ih _ _ _))

theorem rpmValues_le (f : Nat) (typ : UInt32) (obj : Object) (n : Nat) : ∀ (tag m : UInt8)
    (acc : RpmAcc) (d d1 d2 : Dec) (r), d.Fine → tagNumber d = .ok ((tag, m), d1) →
    rpmValues f typ obj n tag m acc d1 = .ok (r, d2) → d2.buf.length ≤ d.buf.length := by
  induction n with
  | zero => intro tag m acc d d1 d2 r _ _ h; cases h
  | succ n ih =>
    intro tag m acc d d1 d2 r hi h1 h
    unfold rpmValues at h
    obtain ⟨⟨acc', x⟩, d3, h2, h3⟩ := D.bind_inv h
    have l3 := element_le _ _ _ _ _ _ _ _ _ _ _ hi h1 h2
    have i1 : d1.Fine := tagNumber_total.2.2 _ _ _ hi h1
    have i3 : d3.Fine := (sticky_rpmElement _ _ _ _ _ _).2 _ _ _ i1 h2
    dsimp only at h3
    split at h3
    · cases h3
      exact l3
    · obtain ⟨⟨tag', m'⟩, d4, h4, h5⟩ := D.bind_inv h3
      dsimp only at h5
      split at h5
      · cases h5
        exact Nat.le_trans (shrinks_tagNumber _ _ _ h4) l3
      · exact Nat.le_trans (ih _ _ _ _ _ _ _ i3 h4 h5) l3

/-! ## One property -/

theorem bacError_sticky : Sticky bacError := by
  unfold bacError
  refine appData_sticky.bind fun a => ?_
  obtain ⟨s, err⟩ := a
  dsimp only
  split
  · exact Sticky.pure _
  · refine appData_sticky.bind fun b => ?_
    obtain ⟨s, err⟩ := b
    dsimp only
    split <;> exact Sticky.pure _
  · exact Sticky.pure _

theorem bacError_shrinks : Shrinks bacError := by
  unfold bacError
  refine shrinks_appData.bind fun a => ?_
  obtain ⟨s, err⟩ := a
  dsimp only
  split
  · exact Shrinks.pure _
  · refine shrinks_appData.bind fun b => ?_
    obtain ⟨s, err⟩ := b
    dsimp only
    split <;> exact Shrinks.pure _
  · exact Shrinks.pure _

theorem rpmResult_stable (f f' : Nat) (typ idx : UInt32) (tag m : UInt8) (obj : Object)
    (objects : List Object) (d : Dec) (hi : d.Fine) (hf : d.buf.length + 1 ≤ f)
    (hf' : d.buf.length + 1 ≤ f') :
    rpmResult f typ idx tag m obj objects d = rpmResult f' typ idx tag m obj objects d := by
  unfold rpmResult
  split
  · refine D.bind_eq rfl fun r d1 h1 => ?_
    refine D.bind_eq rfl fun x d2 h2 => ?_
    cases h2
    dsimp only
    split
    · rfl
    · exact D.bind_eq (rpmValues_stable _ _ _ _ _ _ _ _ _ _ _ hi h1 (by omega) (by omega) hf hf')
        fun _ _ _ => rfl
  · rfl

theorem sticky_rpmResult (f : Nat) (typ idx : UInt32) (tag m : UInt8) (obj : Object)
    (objects : List Object) : Sticky (rpmResult f typ idx tag m obj objects) := by
  unfold rpmResult
  refine Sticky.ite ?_ (Sticky.ite ?_ (Sticky.pure _))
  · exact tagNumber_total.2.bind fun _ => error_all.2.bind fun _ => Sticky.ite (Sticky.pure _)
      ((sticky_rpmValues _ _ _ _ _ _ _).bind fun _ => Sticky.ite (Sticky.pure _)
        (tagNumberAndValue_total.2.bind fun _ => Sticky.pure _))
  · refine bacError_sticky.bind fun r => ?_
    split
    · exact Sticky.pure _
    · exact tagNumber_total.2.bind fun _ => Sticky.pure _

theorem rpmResult_le (f : Nat) (typ idx : UInt32) (tag m : UInt8) (obj : Object)
    (objects : List Object) (d d' : Dec) (r) (hi : d.Fine)
    (h : rpmResult f typ idx tag m obj objects d = .ok (r, d')) : d'.buf.length ≤ d.buf.length := by
  unfold rpmResult at h
  split at h
  · obtain ⟨⟨tag', m'⟩, d1, h1, h2⟩ := D.bind_inv h
    obtain ⟨x, d2, h3, h4⟩ := D.bind_inv h2
    cases h3
    dsimp only at h4
    split at h4
    · cases h4
      exact shrinks_tagNumber _ _ _ h1
    · obtain ⟨r3, d3, h5, h6⟩ := D.bind_inv h4
      have l3 := rpmValues_le _ _ _ _ _ _ _ _ _ _ _ hi h1 h5
      split at h6
      · cases h6
        exact l3
      · obtain ⟨r4, d4, h7, h8⟩ := D.bind_inv h6
        cases h8
        exact Nat.le_trans (shrinks_tagNumberAndValue _ _ _ h7) l3
  · split at h
    · refine Shrinks.bind bacError_shrinks (fun r => ?_) _ _ _ h
      split
      · exact Shrinks.pure _
      · exact shrinks_tagNumber.bind fun _ => Shrinks.pure _
    · cases h
      exact Nat.le_refl _

theorem sticky_rpmIndex (tag m : UInt8) : Sticky (rpmIndex tag m) := by
  unfold rpmIndex
  exact Sticky.ite (Sticky.ite (Sticky.pure _) ((value_total _).2.bind fun _ =>
    (unsigned_total _).2.bind fun _ => tagNumber_total.2.bind fun _ => Sticky.pure _)) (Sticky.pure _)

theorem shrinks_rpmIndex (tag m : UInt8) : Shrinks (rpmIndex tag m) := by
  unfold rpmIndex
  exact Shrinks.ite (Shrinks.ite (Shrinks.pure _) ((shrinks_value _).bind fun _ =>
    (shrinks_unsigned _).bind fun _ => shrinks_tagNumber.bind fun _ => Shrinks.pure _)) (Shrinks.pure _)

theorem rpmProperty_stable (f f' : Nat) (m : UInt8) (len : UInt32) (obj : Object)
    (objects : List Object) (d : Dec) (hi : d.Fine) (hf : d.buf.length + 1 ≤ f)
    (hf' : d.buf.length + 1 ≤ f') :
    rpmProperty f m len obj objects d = rpmProperty f' m len obj objects d := by
  unfold rpmProperty
  split
  · rfl
  refine D.bind_eq rfl fun typ d1 h1 => ?_
  have l1 := shrinks_unsigned _ _ _ _ h1
  have i1 : d1.Fine := (unsigned_total _).2.2 _ _ _ hi h1
  refine D.bind_eq rfl fun r d2 h2 => ?_
  have l2 := shrinks_tagNumber _ _ _ h2
  have i2 : d2.Fine := tagNumber_total.2.2 _ _ _ i1 h2
  dsimp only
  split
  · rfl
  refine D.bind_eq rfl fun r d3 h3 => ?_
  have l3 := shrinks_rpmIndex _ _ _ _ _ h3
  have i3 : d3.Fine := (sticky_rpmIndex _ _).2 _ _ _ i2 h3
  cases r with
  | none => rfl
  | some r => exact rpmResult_stable _ _ _ _ _ _ _ _ _ i3 (by omega) (by omega)

theorem sticky_rpmProperty (f : Nat) (m : UInt8) (len : UInt32) (obj : Object)
    (objects : List Object) : Sticky (rpmProperty f m len obj objects) := by
  unfold rpmProperty
  refine Sticky.ite (Sticky.pure _) ((unsigned_total _).2.bind fun _ => tagNumber_total.2.bind fun _ =>
    Sticky.ite (Sticky.pure _) ((sticky_rpmIndex _ _).bind fun r => ?_))
  split
  · exact Sticky.pure _
  · exact sticky_rpmResult _ _ _ _ _ _ _

/-- A round of the property loop that goes on uses up input. -/
theorem rpmProperty_progress (f : Nat) (m : UInt8) (len : UInt32) (obj : Object)
    (objects : List Object) (d d' : Dec) (r : RpmNext) (hi : d.Fine) (hb : d.buf ≠ [])
    (hm : isContextSpecific m = true)
    (h : rpmProperty f m len obj objects d = .ok (r, d')) : d'.buf.length < d.buf.length := by
  unfold rpmProperty at h
  rw [if_neg (by simp [hm])] at h
  obtain ⟨typ, d1, h1, h⟩ := D.bind_inv h
  have l1 := shrinks_unsigned _ _ _ _ h1
  have i1 : d1.Fine := (unsigned_total _).2.2 _ _ _ hi h1
  obtain ⟨r, d2, h2, h⟩ := D.bind_inv h
  have i2 : d2.Fine := tagNumber_total.2.2 _ _ _ i1 h2
  have l2 : d2.buf.length < d.buf.length := by
    have hp : 0 < d.buf.length := List.length_pos_iff.mpr hb
    by_cases hb1 : d1.buf = []
    · have := shrinks_tagNumber _ _ _ h2
      rw [hb1] at this
      simp only [List.length_nil] at this
      omega
    · have he1 : d1.err = none := by
        by_contra hc
        exact hb1 (i1 hc).2.1
      have := tagNumber_progress _ _ _ he1 hb1 h2
      omega
  dsimp only at h
  split at h
  · cases h
    exact l2
  obtain ⟨r3, d3, h3, h⟩ := D.bind_inv h
  have l3 := shrinks_rpmIndex _ _ _ _ _ h3
  have i3 : d3.Fine := (sticky_rpmIndex _ _).2 _ _ _ i2 h3
  cases r3 with
  | none =>
    cases h
    omega
  | some r3 =>
    have := rpmResult_le _ _ _ _ _ _ _ _ _ _ i3 h
    omega

/-! ## The property loop -/

theorem rpmProperties_stable (k : Nat) : ∀ (d : Dec) (tag m : UInt8) (len : UInt32) (obj : Object)
    (objects : List Object) (f f' n n' : Nat), d.Fine → d.buf.length ≤ k → k + 1 ≤ f → k + 1 ≤ f' →
    k + 1 ≤ n → k + 1 ≤ n' →
    rpmProperties f n tag m len obj objects d = rpmProperties f' n' tag m len obj objects d := by
  induction k with
  | zero =>
    intro d tag m len obj objects f f' n n' hi hl hf hf' hn hn'
    obtain ⟨j, rfl⟩ : ∃ j, n = j + 1 := ⟨n - 1, by omega⟩
    obtain ⟨j', rfl⟩ : ∃ j, n' = j + 1 := ⟨n' - 1, by omega⟩
    unfold rpmProperties
    rw [D.run_bind (len_run _), D.run_bind (len_run _), if_neg (by omega), if_neg (by omega)]
  | succ k ih =>
    intro d tag m len obj objects f f' n n' hi hl hf hf' hn hn'
    obtain ⟨j, rfl⟩ : ∃ j, n = j + 1 := ⟨n - 1, by omega⟩
    obtain ⟨j', rfl⟩ : ∃ j, n' = j + 1 := ⟨n' - 1, by omega⟩
    unfold rpmProperties
    rw [D.run_bind (len_run _), D.run_bind (len_run _)]
    split
    swap
    · rfl
    rename_i hg
    have hb : d.buf ≠ [] := List.length_pos_iff.mp hg.1
    refine D.bind_eq (rpmProperty_stable _ _ _ _ _ _ _ hi (by omega) (by omega)) fun r d1 h1 => ?_
    have i1 : d1.Fine := (sticky_rpmProperty _ _ _ _ _).2 _ _ _ hi h1
    cases r with
    | stop l e => rfl
    | next tag' m' len' obj' objects' =>
      have hm : isContextSpecific m = true := by
        by_contra hc
        unfold rpmProperty at h1
        rw [if_pos hc] at h1
        cases h1
      have := rpmProperty_progress _ _ _ _ _ _ _ _ hi hb hm h1
      exact ih _ _ _ _ _ _ _ _ _ _ i1 (by omega) (by omega) (by omega) (by omega) (by omega)

theorem sticky_len : Sticky len := by
  constructor
  · intro d a d' h h'; cases h'; exact h
  · intro d a d' h h'; cases h'; exact h

theorem sticky_rpmProperties (f : Nat) (n : Nat) : ∀ (tag m : UInt8) (len : UInt32) (obj : Object)
    (objects : List Object), Sticky (rpmProperties f n tag m len obj objects) := by
  induction n with
  | zero =>
    intro tag m len obj objects
    constructor
    · intro d a d' _ h; cases h
    · intro d a d' _ h; cases h
  | succ n ih =>
    intro tag m len obj objects
    unfold rpmProperties
    refine sticky_len.bind fun _ => Sticky.ite ((sticky_rpmProperty _ _ _ _ _).bind fun r => ?_)
      (Sticky.pure _)
    cases r with
    | stop l e => exact Sticky.pure _
    | next => exact ih _ _ _ _ _

theorem rpmProperties_le (f : Nat) (n : Nat) : ∀ (tag m : UInt8) (len : UInt32) (obj : Object)
    (objects : List Object) (d d' : Dec) (r), d.Fine →
    rpmProperties f n tag m len obj objects d = .ok (r, d') → d'.buf.length ≤ d.buf.length := by
  induction n with
  | zero => intro tag m len obj objects d d' r _ h; cases h
  | succ n ih =>
    intro tag m len obj objects d d' r hi h
    unfold rpmProperties at h
    rw [D.run_bind (len_run _)] at h
    split at h
    swap
    · cases h
      exact Nat.le_refl _
    rename_i hg
    have hb : d.buf ≠ [] := List.length_pos_iff.mp hg.1
    obtain ⟨r1, d1, h1, h2⟩ := D.bind_inv h
    have i1 : d1.Fine := (sticky_rpmProperty _ _ _ _ _).2 _ _ _ hi h1
    have l1 : d1.buf.length ≤ d.buf.length := by
      by_cases hm : isContextSpecific m = true
      · exact Nat.le_of_lt (rpmProperty_progress _ _ _ _ _ _ _ _ hi hb hm h1)
      · unfold rpmProperty at h1
        rw [if_pos hm] at h1
        cases h1
        exact Nat.le_refl _
    cases r1 with
    | stop l e =>
      cases h2
      exact l1
    | next => exact Nat.le_trans (ih _ _ _ _ _ _ _ _ i1 h2) l1

/-! ## The object loop -/

theorem rpmObjects_stable (k : Nat) : ∀ (d : Dec) (objects : List Object) (f f' n n' : Nat), d.Fine →
    d.buf.length ≤ k → k + 1 ≤ f → k + 1 ≤ f' → k + 1 ≤ n → k + 1 ≤ n' →
    rpmObjects f n objects d = rpmObjects f' n' objects d := by
  induction k with
  | zero =>
    intro d objects f f' n n' hi hl hf hf' hn hn'
    obtain ⟨j, rfl⟩ : ∃ j, n = j + 1 := ⟨n - 1, by omega⟩
    obtain ⟨j', rfl⟩ : ∃ j, n' = j + 1 := ⟨n' - 1, by omega⟩
    unfold rpmObjects
    rw [D.run_bind (error_run _), D.run_bind (error_run _), D.run_bind (len_run _),
      D.run_bind (len_run _), if_neg (by omega), if_neg (by omega)]
  | succ k ih =>
    intro d objects f f' n n' hi hl hf hf' hn hn'
    obtain ⟨j, rfl⟩ : ∃ j, n = j + 1 := ⟨n - 1, by omega⟩
    obtain ⟨j', rfl⟩ : ∃ j, n' = j + 1 := ⟨n' - 1, by omega⟩
    unfold rpmObjects
    rw [D.run_bind (error_run _), D.run_bind (error_run _), D.run_bind (len_run _),
      D.run_bind (len_run _)]
    split
    swap
    · rfl
    rename_i hg
    have hb : d.buf ≠ [] := List.length_pos_iff.mp hg.2
    have he : d.err = none := by simpa using hg.1
    refine D.bind_eq rfl fun r d1 h1 => ?_
    have l1 := tagNumberAndValue_progress _ _ _ he hb h1
    have i1 : d1.Fine := tagNumberAndValue_total.2.2 _ _ _ hi h1
    dsimp only
    split
    · rfl
    split
    · rfl
    refine D.bind_eq rfl fun id d2 h2 => ?_
    have l2 := shrinks_objectId _ _ _ h2
    have i2 : d2.Fine := objectId_all.2.1.2 _ _ _ i1 h2
    refine D.bind_eq rfl fun r d3 h3 => ?_
    have l3 := shrinks_tagNumber _ _ _ h3
    have i3 : d3.Fine := tagNumber_total.2.2 _ _ _ i2 h3
    split
    · rfl
    split
    · rfl
    refine D.bind_eq rfl fun r d4 h4 => ?_
    have l4 := shrinks_tagNumberAndValue _ _ _ h4
    have i4 : d4.Fine := tagNumberAndValue_total.2.2 _ _ _ i3 h4
    split
    · rfl
    refine D.bind_eq (rpmProperties_stable k _ _ _ _ _ _ _ _ _ _ i4 (by omega) (by omega) (by omega)
      (by omega) (by omega)) fun r d5 h5 => ?_
    have l5 := rpmProperties_le _ _ _ _ _ _ _ _ _ _ i4 h5
    have i5 : d5.Fine := (sticky_rpmProperties _ _ _ _ _ _ _).2 _ _ _ i4 h5
    cases r with
    | inr r => rfl
    | inl r => exact ih _ _ _ _ _ _ i5 (by omega) (by omega) (by omega) (by omega) (by omega)

theorem readMultipleAck_stable (d : Dec) (hi : d.Fine) (f f' : Nat) (hf : d.buf.length < f)
    (hf' : d.buf.length < f') : readMultipleAck f d = readMultipleAck f' d := by
  unfold readMultipleAck
  exact D.bind_eq (rpmObjects_stable d.buf.length d [] f f' f f' hi (Nat.le_refl _) hf hf' hf hf')
    fun _ _ _ => rfl

/-! ## ReadProperty -/

theorem readPropertyValues_stable (k : Nat) : ∀ (d : Dec) (acc : List Scalar) (n n' : Nat), d.Fine →
    d.buf.length ≤ k → k + 1 ≤ n → k + 1 ≤ n' →
    readPropertyValues n acc d = readPropertyValues n' acc d := by
  induction k with
  | zero =>
    intro d acc n n' hi hl hn hn'
    obtain ⟨j, rfl⟩ : ∃ j, n = j + 1 := ⟨n - 1, by omega⟩
    obtain ⟨j', rfl⟩ : ∃ j, n' = j + 1 := ⟨n' - 1, by omega⟩
    unfold readPropertyValues
    rw [D.run_bind (len_run _), D.run_bind (len_run _), if_neg (by omega), if_neg (by omega)]
  | succ k ih =>
    intro d acc n n' hi hl hn hn'
    obtain ⟨j, rfl⟩ : ∃ j, n = j + 1 := ⟨n - 1, by omega⟩
    obtain ⟨j', rfl⟩ : ∃ j, n' = j + 1 := ⟨n' - 1, by omega⟩
    unfold readPropertyValues
    rw [D.run_bind (len_run _), D.run_bind (len_run _)]
    split
    swap
    · rfl
    rename_i hg
    have hb : d.buf ≠ [] := List.length_pos_iff.mp (by omega)
    have he : d.err = none := by
      by_contra hc
      exact hb (hi hc).2.1
    refine D.bind_eq rfl fun r d1 h1 => ?_
    have l1 := appData_progress _ _ _ he hb h1
    have i1 : d1.Fine := appData_sticky.2 _ _ _ hi h1
    obtain ⟨s, err⟩ := r
    dsimp only
    split
    · rfl
    · exact ih _ _ _ _ i1 (by omega) (by omega) (by omega)

theorem sticky_readPropertyIndex (tag m : UInt8) : Sticky (readPropertyIndex tag m) := by
  unfold readPropertyIndex
  exact (value_total _).2.bind fun _ => Sticky.ite ((unsigned_total _).2.bind fun _ =>
    sticky_len.bind fun _ => Sticky.ite (tagNumber_total.2.bind fun _ => Sticky.pure _) (Sticky.pure _))
    (Sticky.pure _)

theorem shrinks_readPropertyIndex (tag m : UInt8) : Shrinks (readPropertyIndex tag m) := by
  unfold readPropertyIndex
  exact (shrinks_value _).bind fun _ => Shrinks.ite ((shrinks_unsigned _).bind fun _ =>
    shrinks_len.bind fun _ => Shrinks.ite (shrinks_tagNumber.bind fun _ => Shrinks.pure _) (Shrinks.pure _))
    (Shrinks.pure _)

theorem readPropertyTail_stable (f f' : Nat) (id : ObjectID) (typ : UInt32) (tag m : UInt8) (d : Dec)
    (hi : d.Fine) (hf : d.buf.length < f) (hf' : d.buf.length < f') :
    readPropertyTail f id typ tag m d = readPropertyTail f' id typ tag m d := by
  unfold readPropertyTail
  rw [D.run_bind (len_run _), D.run_bind (len_run _)]
  refine D.bind_eq rfl fun r d1 h1 => ?_
  have l1 : d1.buf.length ≤ d.buf.length := by
    unfold optTagNumber at h1
    exact Shrinks.ite shrinks_tagNumber (Shrinks.pure _) _ _ _ h1
  have i1 : d1.Fine := by
    unfold optTagNumber at h1
    exact (Sticky.ite tagNumber_total.2 (Sticky.pure _)).2 _ _ _ hi h1
  obtain ⟨tag', m'⟩ := r
  dsimp only
  rw [D.run_bind (len_run _), D.run_bind (len_run _)]
  split
  swap
  · rfl
  refine D.bind_eq rfl fun r d2 h2 => ?_
  have l2 := shrinks_readPropertyIndex _ _ _ _ _ h2
  have i2 : d2.Fine := (sticky_readPropertyIndex _ _).2 _ _ _ i1 h2
  obtain ⟨idx, o⟩ := r
  dsimp only
  split
  swap
  · rfl
  exact D.bind_eq (readPropertyValues_stable d2.buf.length d2 _ _ _ i2 (Nat.le_refl _) (by omega) (by omega))
    fun _ _ _ => rfl

theorem readProperty_stable (d : Dec) (hi : d.Fine) (f f' : Nat) (hf : d.buf.length < f)
    (hf' : d.buf.length < f') : readProperty f d = readProperty f' d := by
  unfold readProperty
  rw [D.run_bind (len_run _), D.run_bind (len_run _)]
  split
  · rfl
  refine D.bind_eq rfl fun r d1 h1 => ?_
  have l1 := shrinks_tagNumber _ _ _ h1
  have i1 : d1.Fine := tagNumber_total.2.2 _ _ _ hi h1
  obtain ⟨tag, m⟩ := r
  dsimp only
  split
  · rfl
  split
  · rfl
  refine D.bind_eq rfl fun id d2 h2 => ?_
  have l2 := shrinks_objectId _ _ _ h2
  have i2 : d2.Fine := objectId_all.2.1.2 _ _ _ i1 h2
  refine D.bind_eq rfl fun r d3 h3 => ?_
  have l3 := shrinks_tagNumber _ _ _ h3
  have i3 : d3.Fine := tagNumber_total.2.2 _ _ _ i2 h3
  obtain ⟨tag', m'⟩ := r
  dsimp only
  split
  · rfl
  refine D.bind_eq rfl fun v d4 h4 => ?_
  have l4 := shrinks_value _ _ _ _ h4
  have i4 : d4.Fine := (value_total _).2.2 _ _ _ i3 h4
  refine D.bind_eq rfl fun typ d5 h5 => ?_
  have l5 := shrinks_unsigned _ _ _ _ h5
  have i5 : d5.Fine := (unsigned_total _).2.2 _ _ _ i4 h5
  exact readPropertyTail_stable _ _ _ _ _ _ _ i5 (by omega) (by omega)

/-! ## What could be unread at the start does not matter -/

theorem u8_prev (b : UInt8) (rest : List UInt8) (p q : Option UInt8) :
    u8 ⟨b :: rest, p, none⟩ = u8 ⟨b :: rest, q, none⟩ := rfl

theorem tagNumber_prev (b : UInt8) (rest : List UInt8) (p q : Option UInt8) :
    tagNumber ⟨b :: rest, p, none⟩ = tagNumber ⟨b :: rest, q, none⟩ := by
  unfold tagNumber
  exact D.bind_apply_eq (u8_prev b rest p q)

theorem readMultipleAck_prev (b : UInt8) (rest : List UInt8) (p q : Option UInt8) (f : Nat) :
    readMultipleAck f ⟨b :: rest, p, none⟩ = readMultipleAck f ⟨b :: rest, q, none⟩ := by
  unfold readMultipleAck
  refine D.bind_apply_eq ?_
  cases f with
  | zero => rfl
  | succ f =>
    unfold rpmObjects
    rw [D.run_bind (error_run _), D.run_bind (error_run _), D.run_bind (len_run _),
      D.run_bind (len_run _)]
    rw [if_pos ⟨rfl, by simp⟩]
    refine D.bind_apply_eq ?_
    unfold tagNumberAndValue
    exact D.bind_apply_eq (tagNumber_prev b rest p q)

end Dec

end Bac
