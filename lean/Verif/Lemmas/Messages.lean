import Verif.Lemmas.Failure
import Verif.Model.Address
import Verif.Spec.Headers
/-!
# Lemmas about the frame, network and application headers
-/

namespace Bac

/-! ## Successful runs consumed a prefix -/

/-- Whenever `m` returns without recorded error, there was none before, and it
consumed a prefix of the input that is related to the result by `P`. -/
def Took {α : Type} (m : D α) (P : α → List UInt8 → Prop) : Prop :=
  ∀ d a d', m d = .ok (a, d') → d'.err = none →
    d.err = none ∧ ∃ bs, d.buf = bs ++ d'.buf ∧ P a bs

theorem Took.pure {α : Type} (a : α) : Took (pure a : D α) (fun x bs => x = a ∧ bs = []) := by
  intro d x d' h he
  cases h
  exact ⟨he, [], rfl, rfl, rfl⟩

theorem Took.bind {α β : Type} {m : D α} {f : α → D β} {P : α → List UInt8 → Prop}
    {Q : α → β → List UInt8 → Prop} (h1 : Took m P) (h2 : ∀ a, Took (f a) (Q a)) :
    Took (m >>= f) (fun b bs => ∃ a x y, bs = x ++ y ∧ P a x ∧ Q a b y) := by
  intro d b d' h he
  obtain ⟨a, d1, e1, e2⟩ := D.bind_inv h
  obtain ⟨he1, y, hy, hQ⟩ := h2 a _ _ _ e2 he
  obtain ⟨he0, x, hx, hP⟩ := h1 _ _ _ e1 he1
  exact ⟨he0, x ++ y, by rw [hx, hy, List.append_assoc], a, x, y, rfl, hP, hQ⟩

theorem Took.mono {α : Type} {m : D α} {P Q : α → List UInt8 → Prop} (h : Took m P)
    (hPQ : ∀ a bs, P a bs → Q a bs) : Took m Q := by
  intro d a d' h1 he
  obtain ⟨h0, bs, hb, hP⟩ := h d a d' h1 he
  exact ⟨h0, bs, hb, hPQ _ _ hP⟩

namespace Dec

theorem took_readN (n : Nat) :
    Took (readN n) (fun r bs => r = some bs ∧ bs.length = n) := by
  intro d a d' h he
  unfold readN at h
  rcases d with ⟨buf, p, err⟩
  cases err with
  | some x => simp only at h; cases h; cases he
  | none =>
    simp only at h
    by_cases hn : n = 0
    · rw [if_pos hn] at h
      cases h
      exact ⟨rfl, [], rfl, rfl, hn.symm⟩
    · rw [if_neg hn] at h
      by_cases hl : n ≤ buf.length
      · rw [if_pos hl] at h
        cases h
        exact ⟨rfl, buf.take n, by simp, rfl, by simp [hl]⟩
      · rw [if_neg hl] at h
        cases h
        cases he

theorem took_u8 : Took u8 (fun a bs => bs = [a]) := by
  intro d a d' h he
  unfold u8 at h
  obtain ⟨r, d1, e1, e2⟩ := D.bind_inv h
  have hd : d1.err = none := by
    have : d' = d1 := by
      rcases r with _ | _ | ⟨x, _ | ⟨y, l⟩⟩ <;> cases e2 <;> rfl
    rw [← this]; exact he
  obtain ⟨h0, bs, hb, rfl, hl⟩ := took_readN 1 _ _ _ e1 hd
  rcases bs with _ | ⟨x, _ | ⟨y, l⟩⟩
  · simp at hl
  · cases e2; exact ⟨h0, _, hb, rfl⟩
  · simp at hl

theorem took_u16 : Took u16 (fun a bs => bs = be16 a) := by
  intro d a d' h he
  unfold u16 at h
  obtain ⟨r, d1, e1, e2⟩ := D.bind_inv h
  have hd : d1.err = none := by
    have : d' = d1 := by
      rcases r with _ | _ | ⟨x, _ | ⟨y, _ | ⟨z, l⟩⟩⟩ <;> cases e2 <;> rfl
    rw [← this]; exact he
  obtain ⟨h0, bs, hb, rfl, hl⟩ := took_readN 2 _ _ _ e1 hd
  rcases bs with _ | ⟨x, _ | ⟨y, _ | ⟨z, l⟩⟩⟩
  · simp at hl
  · simp at hl
  · cases e2
    refine ⟨h0, _, hb, ?_⟩
    have h1 := rd16_toNat x y
    have hx := x.toNat_lt
    have hy := y.toNat_lt
    unfold be16
    congr 1
    · apply UInt8.toNat_inj.mp
      simp [Nat.shiftRight_eq_div_pow, h1]; omega
    · congr 1
      apply UInt8.toNat_inj.mp
      simp [h1]
  · simp at hl

theorem took_bytes (n : Nat) : Took (bytes n) (fun a bs => bs = a ∧ bs.length = n) := by
  intro d a d' h he
  unfold bytes at h
  obtain ⟨r, d1, e1, e2⟩ := D.bind_inv h
  have hd : d1.err = none := by
    have : d' = d1 := by
      rcases r with _ | x <;> cases e2 <;> rfl
    rw [← this]; exact he
  obtain ⟨h0, bs, hb, rfl, hl⟩ := took_readN n _ _ _ e1 hd
  cases e2
  exact ⟨h0, _, hb, rfl, hl⟩

theorem took_address : Took address (fun a bs =>
    bs = be16 a.net ++ [a.len] ++ a.adr ∧ a.adr.length = a.len.toNat ∧ a.mac = [] ∧ a.macLen = 0) := by
  unfold address
  refine Took.mono (Took.bind took_u16 fun net => Took.bind took_u8 fun len =>
    Took.bind (took_bytes len.toNat) fun adr => Took.pure _) ?_
  rintro a bs ⟨net, x, y, rfl, rfl, len, x, y, rfl, rfl, adr, x, y, rfl, ⟨rfl, hl⟩, rfl, rfl⟩
  simp [hl]

theorem took_optAddress (c : Bool) :
    Took (optAddress c)
      (fun o bs => (c = true → ∃ a, o = some a ∧ bs = be16 a.net ++ [a.len] ++ a.adr ∧
          a.adr.length = a.len.toNat ∧ a.mac = [] ∧ a.macLen = 0) ∧
        (c = false → o = none ∧ bs = [])) := by
  unfold optAddress
  cases c
  · simp only [Bool.false_eq_true, if_false]
    refine Took.mono (Took.pure _) ?_
    rintro o bs ⟨rfl, rfl⟩
    simp
  · simp only [if_true]
    refine Took.mono (Took.bind took_address fun a => Took.pure _) ?_
    rintro o bs ⟨a, x, y, rfl, ⟨rfl, h⟩, rfl, rfl⟩
    refine ⟨fun _ => ⟨a, rfl, by simp, h⟩, by simp⟩

theorem took_hop (c : Bool) :
    Took (optU8 c)
      (fun h bs => (c = true → bs = [h]) ∧ (c = false → h = 0 ∧ bs = [])) := by
  unfold optU8
  cases c
  · simp only [Bool.false_eq_true, if_false]
    refine Took.mono (Took.pure _) ?_
    rintro o bs ⟨rfl, rfl⟩; simp
  · simp only [if_true]
    refine Took.mono took_u8 ?_
    rintro o bs rfl; simp

/-! ## Totality -/

theorem total_address : Total address :=
  Total.bind u16_all.1 fun _ => Total.bind u8_all.1 fun _ => Total.bind (bytes_all _).1 fun _ =>
    Total.pure _

theorem total_u16Into (x : UInt16) : Total (u16Into x) := by
  apply Total.bind (total_readN 2)
  intro r
  split <;> exact Total.pure _

theorem total_len : Total len := fun _ => ⟨_, _, rfl⟩

/-- Proves totality of a composition of total readers. -/
macro "total_tac" : tactic => `(tactic| repeat' first
  | exact Total.pure _
  | exact u8_all.1 | exact u16_all.1 | exact u32_all.1 | exact u64_all.1
  | exact (bytes_all _).1 | exact error_all.1 | exact total_len
  | exact total_address | exact total_u16Into _
  | exact tagNumber_total.1 | exact tagNumberAndValue_total.1 | exact (unsigned_total _).1
  | exact (value_total _).1 | exact objectId_all.1
  | (refine Total.bind ?_ fun _ => ?_)
  | dsimp only
  | split)

theorem total_npdu : Total npdu := by
  unfold npdu optAddress optU8 optU16
  total_tac

theorem total_bvlc : Total bvlc := by
  unfold bvlc
  total_tac

theorem total_apdu : Total apdu := by
  unfold apdu apduAck apduUnconfirmed apduConfirmed apduError optU8 restBytes
  total_tac

/-! ## Reading an address -/

theorem parses_address (net : UInt16) (adr : List UInt8) (len : UInt8)
    (h : len.toNat = adr.length) :
    Parses address (be16 net ++ ([len] ++ adr)) { net := net, len := len, adr := adr } := by
  unfold address
  refine Parses.bind (parses_be16 net) (Parses.bind (parses_u8 len) (Parses.bind' ?_ (Parses.pure _)))
  rw [h]
  exact parses_bytes adr

theorem parses_bvlc (t f : UInt8) (l : UInt16) :
    Parses bvlc ([t, f] ++ be16 l) (⟨t, f, l, []⟩, none) := by
  unfold bvlc
  have : ([t, f] ++ be16 l : List UInt8) = [t] ++ ([f] ++ be16 l) := rfl
  rw [this]
  exact Parses.bind (parses_u8 t) (Parses.bind (parses_u8 f) (Parses.bind' (parses_be16 l)
    (Parses.bind' parses_error (Parses.pure _))))

end Dec

/-! ## Header octets -/

/-- The control octet as the code assembles it, from its five ingredients. -/
theorem npdu_meta_facts : ∀ (nl er dst src : Bool) (p : Fin 4),
    let m0 := setInfoMask (setInfoMask 0 nl 0x80) er 0x04 ||| UInt8.ofNat p.val
    let m1 := if dst then setInfoMask m0 true 0x20 else m0
    let m := if src then setInfoMask m1 true 0x08 else m1
    m = UInt8.ofNat ((if nl then 128 else 0) + (if dst then 32 else 0) + (if src then 8 else 0)
        + (if er then 4 else 0) + p.val) ∧
    checkMask m 0x80 = nl ∧ checkMask m 0x20 = dst ∧ checkMask m 0x08 = src ∧
    checkMask m 0x04 = er ∧ m &&& 3 = UInt8.ofNat p.val := by decide +kernel

/-- The first octet of an APDU as the code assembles it. -/
theorem apdu_meta_facts : ∀ (seg more acc : Bool) (t : Fin 16),
    let m := setInfoMask (setInfoMask (setInfoMask
      (((0 : UInt8) &&& 0xF0) ||| UInt8.ofNat (t.val * 16)) more 0x04) seg 0x08) acc 0x02
    m = UInt8.ofNat (t.val * 16 + (if seg then 8 else 0) + (if more then 4 else 0)
        + (if acc then 2 else 0)) ∧
    checkMask m 0x08 = seg ∧ checkMask m 0x04 = more ∧ checkMask m 0x02 = acc ∧
    m &&& 0xF0 = UInt8.ofNat (t.val * 16) := by decide +kernel

end Bac
