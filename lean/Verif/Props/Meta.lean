import Verif.Model.Meta
import Verif.Lemmas.Core
/-!
# C158: what was set in a control octet is what is read from it
-/

namespace Spec

/-- The value a history leaves: that of the last operation which says something, `d` if none does. -/
def lastSaid {α β : Type} (tells : α → Option β) (l : List α) (d : β) : β := ((l.filterMap tells).getLast?).getD d

/-- All values said, bit by bit together. -/
def allSaid {α : Type} (tells : α → Option UInt8) (l : List α) (d : UInt8) : UInt8 := (l.filterMap tells).foldl (· ||| ·) d

end Spec

namespace Bac.Props

open Bac.Meta

/-- What an operation is meant to say about a flag of the network header. -/
def C158_netSays (f : NetFlag) : NetOp → Option Bool
  | .networkMessage b => if f = .networkMessage then some b else none
  | .destination b => if f = .destination then some b else none
  | .source b => if f = .source then some b else none
  | .reply b => if f = .reply then some b else none
  | .priority _ => none

/-- What it is meant to say about the priority. -/
def C158_priority : NetOp → Option UInt8
  | .priority p => some p
  | _ => none

/-- What an operation is meant to say about a flag of the application header. -/
def C158_pduSays (f : PduFlag) : PduOp → Option Bool
  | .segmented b => if f = .segmented then some b else none
  | .more b => if f = .more then some b else none
  | .accepted b => if f = .accepted then some b else none
  | .type _ => none

/-- What it is meant to say about the type. -/
def C158_type : PduOp → Option UInt8
  | .type t => some t
  | _ => none

/-- The priority is one of the four. -/
def C158_Proper : NetOp → Prop
  | .priority p => p < 4
  | _ => True

theorem lastSaid_cons {α β : Type} (tells : α → Option β) (x : α) (l : List α) (d : β) :
    Spec.lastSaid tells (x :: l) d = Spec.lastSaid tells l ((tells x).getD d) := by
  unfold Spec.lastSaid
  cases h : tells x with
  | none => rw [List.filterMap_cons_none h]; rfl
  | some y =>
    rw [List.filterMap_cons_some h, List.getLast?_cons]
    simp only [Option.getD_some]

theorem foldl_lastSaid {α β : Type} (tells : α → Option β) (apply : UInt8 → α → UInt8) (get : UInt8 → β)
    (ok : α → Prop) (h : ∀ m x, ok x → get (apply m x) = (tells x).getD (get m)) (l : List α) (hl : ∀ x ∈ l, ok x) :
    ∀ m, get (l.foldl apply m) = Spec.lastSaid tells l (get m) := by
  induction l with
  | nil => intro m; rfl
  | cons x l ih =>
    intro m
    rw [List.foldl_cons, ih (fun y hy => hl y (List.mem_cons_of_mem _ hy)), h m x (hl x List.mem_cons_self), lastSaid_cons]

theorem foldl_allSaid {α : Type} (tells : α → Option UInt8) (apply : UInt8 → α → UInt8) (get : UInt8 → UInt8)
    (h : ∀ m x, get (apply m x) = (match tells x with | some p => get m ||| get p | none => get m))
    (hget : ∀ a b, get (a ||| b) = get a ||| get b) (l : List α) :
    ∀ m, get (l.foldl apply m) = get (Spec.allSaid tells l m) := by
  have hf : ∀ (ps : List UInt8) (m m' : UInt8), get m = get m' →
      get (ps.foldl (· ||| ·) m) = get (ps.foldl (· ||| ·) m') := by
    intro ps
    induction ps with
    | nil => intro m m' e; exact e
    | cons p ps ih =>
      intro m m' e
      simp only [List.foldl_cons]
      exact ih _ _ (by rw [hget, hget, e])
  induction l with
  | nil => intro m; rfl
  | cons x l ih =>
    intro m
    rw [List.foldl_cons, ih]
    unfold Spec.allSaid
    cases hs : tells x with
    | none =>
      rw [List.filterMap_cons_none hs]
      exact hf _ _ _ (by rw [h m x, hs])
    | some p =>
      rw [List.filterMap_cons_some hs, List.foldl_cons]
      exact hf _ _ _ (by rw [h m x, hs, hget])

theorem and_or_mask (a b k : UInt8) : (a ||| b) &&& k = (a &&& k) ||| (b &&& k) := by
  apply UInt8.toBitVec_inj.1
  simp only [UInt8.toBitVec_and, UInt8.toBitVec_or]
  exact BitVec.and_or_distrib_right ..

theorem checkMask_or (a b k : UInt8) : checkMask (a ||| b) k = (checkMask a k || checkMask b k) := by
  have pos : ∀ x : UInt8, decide (x > 0) = !decide (x = 0) := by
    intro x
    by_cases h : x = 0
    · subst h; rfl
    · have : x > 0 := by
        rw [gt_iff_lt, UInt8.lt_iff_toNat_lt]
        have : x.toNat ≠ 0 := fun hc => h (UInt8.toNat_inj.1 hc)
        show 0 < x.toNat
        omega
      simp [h, this]
  unfold checkMask
  rw [and_or_mask, pos, pos, pos]
  have e : (a &&& k) ||| (b &&& k) = 0 ↔ a &&& k = 0 ∧ b &&& k = 0 := UInt8.or_eq_zero_iff
  by_cases h1 : a &&& k = 0 <;> by_cases h2 : b &&& k = 0 <;> simp [h1, h2, e]

theorem netFlag_steps (m : UInt8) (x : NetOp) (hx : C158_Proper x) (f : NetFlag) :
    f.get (x.apply m) = (C158_netSays f x).getD (f.get m) := by
  have hm : ∀ b : Bool, ∀ m : UInt8, ∀ f g : UInt8, f ∈ [0x80, 0x20, 0x08, (0x04 : UInt8)] → g ∈ [0x80, 0x20, 0x08, (0x04 : UInt8)] →
      checkMask (setInfoMask m b f) g = if f = g then b else checkMask m g := by
    intro b m f g hf hg
    simp only [List.mem_cons, List.not_mem_nil, or_false] at hf hg
    rcases hf with rfl | rfl | rfl | rfl <;> rcases hg with rfl | rfl | rfl | rfl <;> cases b <;> revert m <;> decide +kernel
  have hp : ∀ p : UInt8, p < 4 → ∀ g ∈ [0x80, 0x20, 0x08, (0x04 : UInt8)], checkMask p g = false := by decide +kernel
  cases x <;> cases f <;> simp only [NetOp.apply, NetFlag.get, NetFlag.mask, C158_netSays]
  all_goals first
    | (rw [hm _ _ _ _ (by simp) (by simp)]; rfl)
    | (rw [checkMask_or, hp _ hx _ (by simp), Bool.or_false]; rfl)

/-- C158 for the flags of the network header: whatever was set before and in which order, a flag reads as
it was set last, provided the priorities are proper. -/
theorem C158_flags_partial (l : List NetOp) (h : ∀ x ∈ l, C158_Proper x) (f : NetFlag) (m : UInt8) :
    f.get (l.foldl NetOp.apply m) = Spec.lastSaid (C158_netSays f) l (f.get m) :=
  foldl_lastSaid (C158_netSays f) NetOp.apply (fun m => f.get m) C158_Proper (fun m x hx => netFlag_steps m x hx f) l h m

/-- What an operation does say about a flag of the network header: an improper priority may set it. -/
def C158_netDoes (f : NetFlag) : NetOp → Option Bool
  | .priority p => if f.get p then some true else none
  | x => C158_netSays f x

/-- C158, the flags of the network header exactly. -/
theorem C158_flags_exact (l : List NetOp) (f : NetFlag) (m : UInt8) :
    f.get (l.foldl NetOp.apply m) = Spec.lastSaid (C158_netDoes f) l (f.get m) := by
  refine foldl_lastSaid (C158_netDoes f) NetOp.apply (fun m => f.get m) (fun _ => True) (fun m x _ => ?_) l
    (fun _ _ => trivial) m
  cases x with
  | priority p =>
    show checkMask (m ||| p) f.mask = (if f.get p then some true else none).getD (checkMask m f.mask)
    rw [checkMask_or]
    unfold NetFlag.get
    cases checkMask p f.mask <;> simp
  | networkMessage b => exact netFlag_steps m (.networkMessage b) trivial f
  | destination b => exact netFlag_steps m (.destination b) trivial f
  | source b => exact netFlag_steps m (.source b) trivial f
  | reply b => exact netFlag_steps m (.reply b) trivial f

/-- C158, the priority exactly: what is read is all the priorities ever set, put together bit by bit. -/
theorem C158_priority_exact (l : List NetOp) (m : UInt8) :
    netPriority (l.foldl NetOp.apply m) = netPriority (Spec.allSaid C158_priority l m) := by
  refine foldl_allSaid _ _ _ ?_ (fun a b => and_or_mask a b 3) l m
  intro m x
  cases x <;> simp only [NetOp.apply, C158_priority]
  case priority p => exact and_or_mask m p 3
  all_goals (rename_i b; cases b <;> revert m <;> decide +kernel)

/-- C158 fails for the priority: after the priorities 1 and 2, and in fact after any two of which the
second lacks a bit of the first, the priority is another one. -/
theorem C158_fails_priority (p q : UInt8) (hq : q < 4) (h : p &&& 3 &&& q ≠ p &&& 3) :
    netPriority ([NetOp.priority p, .priority q].foldl NetOp.apply 0) ≠ q := by
  have key : ∀ p q : UInt8, q < 4 → p &&& 3 &&& q ≠ p &&& 3 → (0 ||| p ||| q) &&& 3 ≠ q := by
    intro p q
    have e : ∀ r : UInt8, r < 4 → ∀ q : UInt8, q < 4 → r &&& q ≠ r → r ||| q ≠ q := by decide +kernel
    intro hq hne hc
    have h3 : ∀ p : UInt8, p &&& 3 < 4 := by decide +kernel
    apply e (p &&& 3) (h3 p) q hq hne
    rw [and_or_mask, UInt8.zero_or] at hc
    have hq3 : ∀ q : UInt8, q < 4 → q &&& 3 = q := by decide +kernel
    rw [hq3 q hq] at hc
    exact hc
  exact key p q hq h

/-- C158 fails for the flags: a priority beyond the four announces a destination (0x20), say. -/
theorem C158_fails_flag (f : NetFlag) (m : UInt8) : f.get ((NetOp.priority f.mask).apply m) = true := by
  cases f <;> revert m <;> decide +kernel

/-- What an operation does say about a flag of the application header. -/
def C158_pduDoes (f : PduFlag) : PduOp → Option Bool
  | .type t => some (f.get t)
  | x => C158_pduSays f x

theorem pduFlag_steps (m : UInt8) (x : PduOp) (f : PduFlag) :
    f.get (x.apply m) = (C158_pduDoes f x).getD (f.get m) := by
  have hm : ∀ b : Bool, ∀ m : UInt8, ∀ f g : UInt8, f ∈ [0x08, 0x04, (0x02 : UInt8)] → g ∈ [0x08, 0x04, (0x02 : UInt8)] →
      checkMask (setInfoMask m b f) g = if f = g then b else checkMask m g := by
    intro b m f g hf hg
    simp only [List.mem_cons, List.not_mem_nil, or_false] at hf hg
    rcases hf with rfl | rfl | rfl <;> rcases hg with rfl | rfl | rfl <;> cases b <;> revert m <;> decide +kernel
  have hp : ∀ p : UInt8, ∀ g ∈ [0x08, 0x04, (0x02 : UInt8)], checkMask (p &&& 0xF0) g = false := by decide +kernel
  cases x <;> cases f <;> simp only [PduOp.apply, PduFlag.get, PduFlag.mask, C158_pduDoes, C158_pduSays]
  all_goals first
    | (rw [hm _ _ _ _ (by simp) (by simp)]; rfl)
    | (rw [checkMask_or, hp _ _ (by simp), Bool.false_or]; rfl)

/-- C158, the flags of the application header exactly: a flag reads as it was set last, but setting the
type clears it (a proper type says "no" to each flag). -/
theorem C158_pdu_flags (l : List PduOp) (f : PduFlag) (m : UInt8) :
    f.get (l.foldl PduOp.apply m) = Spec.lastSaid (C158_pduDoes f) l (f.get m) :=
  foldl_lastSaid (C158_pduDoes f) PduOp.apply (fun m => f.get m) (fun _ => True) (fun m x _ => pduFlag_steps m x f) l
    (fun _ _ => trivial) m

/-- C158, the type exactly: all the types ever set, put together bit by bit. -/
theorem C158_type_exact (l : List PduOp) (m : UInt8) :
    pduType (l.foldl PduOp.apply m) = pduType (Spec.allSaid C158_type l m) := by
  have hc : ∀ a b : UInt8, pduType (a ||| b) = pduType a ||| pduType b := by
    intro a b
    unfold pduType
    rw [UInt8.and_comm, and_or_mask, UInt8.and_comm a, UInt8.and_comm b]
  refine foldl_allSaid _ _ _ ?_ hc l m
  intro m x
  cases x <;> simp only [PduOp.apply, C158_type]
  case type t =>
    rw [hc]
    have : pduType (m &&& 0xF0) = pduType m := by revert m; decide +kernel
    rw [this]
  all_goals (rename_i b; cases b <;> revert m <;> decide +kernel)

/-- C158 for the application header: if the type is set once, first and to a proper one, as `Encoder.APDU`
does, then every flag reads as set last, and the type as set. -/
theorem C158_pdu_partial (t : UInt8) (ht : t &&& 0x0F = 0) (l : List PduOp) (hl : ∀ x ∈ l, C158_type x = none) :
    pduType ((PduOp.type t :: l).foldl PduOp.apply 0) = t ∧
    ∀ f : PduFlag, f.get ((PduOp.type t :: l).foldl PduOp.apply 0) = Spec.lastSaid (C158_pduSays f) l false := by
  have hnil : l.filterMap C158_type = [] := List.filterMap_eq_nil_iff.2 hl
  constructor
  · rw [C158_type_exact]
    unfold Spec.allSaid
    rw [List.filterMap_cons_some (show C158_type (.type t) = some t from rfl), hnil]
    have : ∀ t : UInt8, t &&& 0x0F = 0 → pduType (0 ||| t) = t := by decide +kernel
    exact this t ht
  · intro f
    rw [C158_pdu_flags, lastSaid_cons]
    have hz : ∀ t : UInt8, t &&& 0x0F = 0 → ∀ f : PduFlag, f.get t = false := by
      intro t ht f
      cases f <;> revert t <;> decide +kernel
    show Spec.lastSaid (C158_pduDoes f) l (f.get t) = _
    rw [hz t ht]
    clear hnil
    generalize false = d
    induction l generalizing d with
    | nil => rfl
    | cons x l ih =>
      rw [lastSaid_cons, lastSaid_cons, ih (fun y hy => hl y (List.mem_cons_of_mem _ hy))]
      have := hl x List.mem_cons_self
      cases x <;> first | rfl | simp [C158_type] at this

/-- C158 fails for the application header: setting the type loses the flags set before, all of them and
whatever was set. -/
theorem C158_fails_lost (l : List PduOp) (t : UInt8) (ht : t &&& 0x0F = 0) (f : PduFlag) :
    f.get ((l ++ [PduOp.type t]).foldl PduOp.apply 0) = false := by
  rw [List.foldl_append, List.foldl_cons, List.foldl_nil, pduFlag_steps]
  show f.get t = false
  cases f <;> revert t <;> decide +kernel

/-- The two encoders use the methods like this (encoding/npdu.go:16-32, apdu.go:11-15): the octets they
write are those of the model. -/
theorem C158_encoders (n : NPDU) (a : APDU) :
    npduMeta n = (([.networkMessage n.isNetworkLayerMessage, .reply n.expectingReply, .priority n.priority] : List NetOp) ++
      (if n.destination.any (fun x : Address => x.net ≠ 0) then [NetOp.destination true] else []) ++
      (if n.source.any (fun x : Address => x.net ≠ 0) then [NetOp.source true] else [])).foldl NetOp.apply 0 ∧
    apduMeta a = ([.type a.dataType, .more a.moreFollows, .segmented a.segmentedMessage,
      .accepted a.segmentedResponseAccepted] : List PduOp).foldl PduOp.apply 0 := by
  refine ⟨?_, rfl⟩
  unfold npduMeta
  cases hd : n.destination with
  | none =>
    cases hs : n.source with
    | none => rfl
    | some s => by_cases h : s.net = 0 <;> simp [h, NetOp.apply]
  | some d =>
    by_cases h' : d.net = 0 <;> cases hs : n.source with
    | none => simp [h', NetOp.apply]
    | some s => by_cases h : s.net = 0 <;> simp [h, h', NetOp.apply]

/-- Setting and clearing, with the priority in between; and the lost flag. -/
example : NetFlag.get ([NetOp.reply true, .priority 2, .source true, .reply false].foldl NetOp.apply 0) .reply = false ∧
    netPriority ([NetOp.priority 1, .reply true, .priority 2].foldl NetOp.apply 0) = 3 ∧
    PduFlag.get ([PduOp.more true, .type 0x30].foldl PduOp.apply 0) .more = false ∧
    pduType ([PduOp.type 0x10, .type 0x20].foldl PduOp.apply 0) = 0x30 := by decide +kernel

end Bac.Props
