import Verif.Model.Network
import Verif.Spec.Network
import Verif.Props.EndToEnd
import Mathlib.Data.List.Forall2
/-!
# Lemmas about Model/Network.lean
-/

namespace Bac

open Spec (realTimes2p150 realError NearestReal RealIs AppVal Means)

/-! ## Single-precision numbers -/

theorem real_mono {a b : Nat} (h : a < b) : realTimes2p150 a < realTimes2p150 b := by
  unfold realTimes2p150
  have ha := Nat.div_add_mod a (2 ^ 23)
  have hb := Nat.div_add_mod b (2 ^ 23)
  have ma := Nat.mod_lt a (show 0 < 2 ^ 23 by decide)
  have mb := Nat.mod_lt b (show 0 < 2 ^ 23 by decide)
  generalize a / 2 ^ 23 = ea at *
  generalize a % 2 ^ 23 = fa at *
  generalize b / 2 ^ 23 = eb at *
  generalize b % 2 ^ 23 = fb at *
  have hle : ea ≤ eb := by omega
  by_cases he : ea = eb
  · subst he
    have : fa < fb := by omega
    split
    · omega
    · exact Nat.mul_lt_mul_of_pos_right (by omega) (Nat.two_pow_pos _)
  · have h1 : (2 ^ 23 + fa) * 2 ^ ea < 2 ^ 23 * 2 ^ eb := by
      have : 2 ^ eb = 2 * 2 ^ (eb - 1) := by
        rw [← Nat.pow_succ']; congr 1; omega
      rw [this]
      have h2 : 2 ^ ea ≤ 2 ^ (eb - 1) := Nat.pow_le_pow_right (by decide) (by omega)
      have h3 : (2 ^ 23 + fa) * 2 ^ ea < 2 ^ 24 * 2 ^ ea :=
        Nat.mul_lt_mul_of_pos_right (by omega) (Nat.two_pow_pos _)
      have h4 : 2 ^ 24 * 2 ^ ea ≤ 2 ^ 24 * 2 ^ (eb - 1) := Nat.mul_le_mul_left _ h2
      omega
    have h5 : 2 ^ 23 * 2 ^ eb ≤ (2 ^ 23 + fb) * 2 ^ eb := Nat.mul_le_mul_right _ (by omega)
    rw [if_neg (show ¬ eb = 0 by omega)]
    split
    · have : 2 ^ 1 ≤ 2 ^ eb := Nat.pow_le_pow_right (by decide) (by omega)
      have := Nat.mul_le_mul_left (2 ^ 23) this
      omega
    · omega

theorem real_le {a b : Nat} (h : a ≤ b) : realTimes2p150 a ≤ realTimes2p150 b := by
  rcases Nat.lt_or_eq_of_le h with h | rfl
  · exact Nat.le_of_lt (real_mono h)
  · exact Nat.le_refl _

/-- The number with exponent field `e` and significand `q`. -/
theorem real_parts (e q : Nat) (he : 0 < e) (h1 : 2 ^ 23 ≤ q) (h2 : q ≤ 2 ^ 24) :
    realTimes2p150 (e * 2 ^ 23 + (q - 2 ^ 23)) = q * 2 ^ e := by
  unfold realTimes2p150
  rcases Nat.lt_or_eq_of_le h2 with h2 | rfl
  · have hd : (e * 2 ^ 23 + (q - 2 ^ 23)) / 2 ^ 23 = e := by omega
    have hm : (e * 2 ^ 23 + (q - 2 ^ 23)) % 2 ^ 23 = q - 2 ^ 23 := by omega
    rw [hd, hm, if_neg (by omega), show 2 ^ 23 + (q - 2 ^ 23) = q by omega]
  · have hd : (e * 2 ^ 23 + (2 ^ 24 - 2 ^ 23)) / 2 ^ 23 = e + 1 := by omega
    have hm : (e * 2 ^ 23 + (2 ^ 24 - 2 ^ 23)) % 2 ^ 23 = 0 := by omega
    rw [hd, hm, if_neg (by omega), Nat.pow_succ]
    omega

theorem float_zero : float32OfUInt32 0 = 0 := rfl

theorem log2_bounds (v : UInt32) (h : v.toNat ≠ 0) :
    2 ^ v.toNat.log2 ≤ v.toNat ∧ v.toNat < 2 ^ (v.toNat.log2 + 1) ∧ v.toNat.log2 < 32 :=
  ⟨Nat.log2_self_le h, Nat.lt_log2_self, (Nat.log2_lt h).2 v.toNat_lt⟩

/-- Up to 2^24 the conversion is exact. -/
theorem float_small (v : UInt32) (h0 : v.toNat ≠ 0) (hk : v.toNat.log2 ≤ 23) :
    realTimes2p150 (float32OfUInt32 v).toNat = v.toNat * 2 ^ 150 ∧ (float32OfUInt32 v).toNat / 2 ^ 23 < 255 := by
  obtain ⟨h1, h2, h3⟩ := log2_bounds v h0
  unfold float32OfUInt32
  simp only [if_neg h0, if_pos hk]
  generalize v.toNat = n at *
  generalize n.log2 = k at *
  have hp : 2 ^ k * 2 ^ (23 - k) = 2 ^ 23 := by rw [← Nat.pow_add]; congr 1; omega
  have hp' : 2 ^ (k + 1) * 2 ^ (23 - k) = 2 ^ 24 := by rw [← Nat.pow_add]; congr 1; omega
  have hq1 : 2 ^ 23 ≤ n * 2 ^ (23 - k) := by rw [← hp]; exact Nat.mul_le_mul_right _ h1
  have hq2 : n * 2 ^ (23 - k) < 2 ^ 24 := by
    rw [← hp']; exact Nat.mul_lt_mul_of_pos_right h2 (Nat.two_pow_pos _)
  rw [UInt32.toNat_ofNat_of_lt' (by show _ < 2 ^ 32; omega)]
  refine ⟨?_, by omega⟩
  rw [real_parts _ _ (by omega) hq1 (by omega), Nat.mul_assoc, ← Nat.pow_add]
  congr 2
  omega

/-- Above, the result is one of the two neighbours, the nearer one. -/
theorem float_large (v : UInt32) (h0 : v.toNat ≠ 0) (hk : ¬ v.toNat.log2 ≤ 23) :
    ∃ low, low / 2 ^ 23 < 254 ∧ realTimes2p150 low ≤ v.toNat * 2 ^ 150 ∧
      v.toNat * 2 ^ 150 < realTimes2p150 (low + 1) ∧
      (((float32OfUInt32 v).toNat = low ∧
          2 * (v.toNat * 2 ^ 150) ≤ realTimes2p150 low + realTimes2p150 (low + 1)) ∨
        ((float32OfUInt32 v).toNat = low + 1 ∧
          realTimes2p150 low + realTimes2p150 (low + 1) ≤ 2 * (v.toNat * 2 ^ 150))) := by
  obtain ⟨h1, h2, h3⟩ := log2_bounds v h0
  unfold float32OfUInt32
  simp only [if_neg h0, if_neg hk]
  generalize v.toNat = n at *
  generalize n.log2 = k at *
  obtain ⟨s, rfl⟩ : ∃ s, k = s + 23 := ⟨k - 23, by omega⟩
  simp only [Nat.add_sub_cancel]
  have hd := Nat.div_add_mod n (2 ^ s)
  have hm := Nat.mod_lt n (Nat.two_pow_pos s)
  have hq1 : 2 ^ 23 ≤ n / 2 ^ s := by
    rw [Nat.le_div_iff_mul_le (Nat.two_pow_pos s), ← Nat.pow_add, Nat.add_comm]; exact h1
  have hq2 : n / 2 ^ s < 2 ^ 24 := by
    rw [Nat.div_lt_iff_lt_mul (Nat.two_pow_pos s), ← Nat.pow_add]
    have : 24 + s = s + 23 + 1 := by omega
    rw [this]; exact h2
  generalize n / 2 ^ s = q at *
  generalize n % 2 ^ s = r at *
  have e1 : 127 + (s + 23) = 150 + s := by omega
  rw [e1]
  have l1 : realTimes2p150 ((150 + s) * 2 ^ 23 + (q - 2 ^ 23)) = q * 2 ^ s * 2 ^ 150 := by
    rw [real_parts _ _ (by omega) hq1 (by omega), Nat.pow_add, Nat.mul_assoc, Nat.mul_comm (2 ^ s)]
  have l2 : realTimes2p150 ((150 + s) * 2 ^ 23 + (q - 2 ^ 23) + 1) = (q + 1) * 2 ^ s * 2 ^ 150 := by
    rw [show (150 + s) * 2 ^ 23 + (q - 2 ^ 23) + 1 = (150 + s) * 2 ^ 23 + (q + 1 - 2 ^ 23) by omega,
      real_parts _ _ (by omega) (by omega) (by omega), Nat.pow_add, Nat.mul_assoc, Nat.mul_comm (2 ^ s)]
  have hn : n = q * 2 ^ s + r := by rw [← hd, Nat.mul_comm]
  have hq : (q + 1) * 2 ^ s = q * 2 ^ s + 2 ^ s := by rw [Nat.add_mul, Nat.one_mul]
  refine ⟨(150 + s) * 2 ^ 23 + (q - 2 ^ 23), by omega, ?_, ?_, ?_⟩
  · rw [l1]; exact Nat.mul_le_mul_right _ (by omega)
  · rw [l2]; exact Nat.mul_lt_mul_of_pos_right (by omega) (Nat.two_pow_pos _)
  · rw [l1, l2, hq]
    have hf : ∀ q', 2 ^ 23 ≤ q' → q' ≤ 2 ^ 24 →
        (UInt32.ofNat ((150 + s) * 2 ^ 23 + (q' - 2 ^ 23))).toNat = (150 + s) * 2 ^ 23 + (q' - 2 ^ 23) := by
      intro q' _ _
      exact UInt32.toNat_ofNat_of_lt' (by show _ < 2 ^ 32; omega)
    have two : ∀ x y z : Nat, x + y ≤ 2 * z → x * 2 ^ 150 + y * 2 ^ 150 ≤ 2 * (z * 2 ^ 150) := by
      intro x y z h
      have := Nat.mul_le_mul_right (2 ^ 150) h
      rw [Nat.add_mul, Nat.mul_assoc] at this
      exact this
    have two' : ∀ x y z : Nat, 2 * z ≤ x + y → 2 * (z * 2 ^ 150) ≤ x * 2 ^ 150 + y * 2 ^ 150 := by
      intro x y z h
      have := Nat.mul_le_mul_right (2 ^ 150) h
      rw [Nat.add_mul, Nat.mul_assoc] at this
      exact this
    split
    · right
      refine ⟨?_, two _ _ _ (by omega)⟩
      rw [hf (q + 1) (by omega) (by omega)]; omega
    · left
      refine ⟨?_, two' _ _ _ (by omega)⟩
      rw [hf q hq1 (by omega)]

theorem float_nearest (v : UInt32) : NearestReal (float32OfUInt32 v).toNat v.toNat := by
  by_cases h0 : v.toNat = 0
  · obtain rfl : v = 0 := UInt32.toNat_inj.mp h0
    rw [float_zero]
    refine ⟨by decide, fun other _ => ?_⟩
    have : realError (UInt32.toNat 0) (UInt32.toNat 0) = 0 := by decide +kernel
    omega
  · by_cases hk : v.toNat.log2 ≤ 23
    · obtain ⟨h1, h2⟩ := float_small v h0 hk
      refine ⟨h2, fun other _ => ?_⟩
      have : realError (float32OfUInt32 v).toNat v.toNat = 0 := by
        unfold realError; rw [h1]; simp
      omega
    · obtain ⟨low, hl, h1, h2, h3⟩ := float_large v h0 hk
      refine ⟨by rcases h3 with h | h <;> omega, fun other _ => ?_⟩
      unfold realError
      have hcase : other ≤ low ∨ low + 1 ≤ other := by omega
      generalize v.toNat * 2 ^ 150 = n at *
      rcases hcase with hc | hc
      · have ho := real_le hc
        generalize realTimes2p150 other = o at *
        rcases h3 with ⟨e, h⟩ | ⟨e, h⟩ <;> rw [e] <;>
          generalize realTimes2p150 low = a at * <;> generalize realTimes2p150 (low + 1) = b at * <;> omega
      · have ho := real_le hc
        generalize realTimes2p150 other = o at *
        rcases h3 with ⟨e, h⟩ | ⟨e, h⟩ <;> rw [e] <;>
          generalize realTimes2p150 low = a at * <;> generalize realTimes2p150 (low + 1) = b at * <;> omega

theorem float_exact (v : UInt32) (h : v.toNat ≤ 2 ^ 24) : RealIs (float32OfUInt32 v).toNat v.toNat := by
  by_cases h0 : v.toNat = 0
  · obtain rfl : v = 0 := UInt32.toNat_inj.mp h0
    exact ⟨by decide, by decide +kernel⟩
  · by_cases hv : v.toNat = 2 ^ 24
    · obtain rfl : v = 16777216 := UInt32.toNat_inj.mp hv
      exact ⟨by decide +kernel, by decide +kernel⟩
    · have hk : v.toNat.log2 ≤ 23 := by
        have := (Nat.log2_lt (k := 24) h0).2 (by omega)
        omega
      obtain ⟨h1, h2⟩ := float_small v h0 hk
      exact ⟨by omega, h1⟩

/-! ## Sequences of calls -/

theorem N.pure_apply {α : Type} (a : α) (c : Calls) : (pure a : N α) c = (c, .ok a) := rfl

theorem N.lift_apply {α : Type} (x : Outcome α) (c : Calls) : N.lift x c = (c, x) := rfl

theorem N.bind_ok {α β : Type} {m : N α} {f : α → N β} {c c' : Calls} {a : α} (h : m c = (c', .ok a)) :
    (m >>= f) c = f a c' := by
  show (match m c with | (c, .ok a) => f a c | (c, .panic k) => (c, .panic k) | (c, .diverge) => (c, .diverge)) = _
  rw [h]

theorem N.bind_panic {α β : Type} {m : N α} {f : α → N β} {c c' : Calls} {k : PanicKind}
    (h : m c = (c', .panic k)) : (m >>= f) c = (c', .panic k) := by
  show (match m c with | (c, .ok a) => f a c | (c, .panic k) => (c, .panic k) | (c, .diverge) => (c, .diverge)) = _
  rw [h]

theorem N.bind_inv {α β : Type} {m : N α} {f : α → N β} {c c' : Calls} {b : β}
    (h : (m >>= f) c = (c', .ok b)) : ∃ a c1, m c = (c1, .ok a) ∧ f a c1 = (c', .ok b) := by
  have h' : (match m c with | (c, .ok a) => f a c | (c, .panic k) => (c, .panic k) | (c, .diverge) => (c, .diverge)) = (c', .ok b) := h
  rcases hm : m c with ⟨c1, a | k | _⟩
  · rw [hm] at h'; exact ⟨a, c1, rfl, h'⟩
  · rw [hm] at h'; simp at h'
  · rw [hm] at h'; simp at h'

/-- The function returns when every call of the client does, making calls with `P`. -/
def N.Runs {α : Type} (m : N α) (P : Device → PropertyData → Prop) : Prop :=
  ∀ c, ∃ c' a, m c = (c ++ c', .ok a) ∧ ∀ x ∈ c', P x.1 x.2

theorem N.Runs.pure {α : Type} (a : α) (P : Device → PropertyData → Prop) : (Pure.pure a : N α).Runs P :=
  fun c => ⟨[], a, by simp [N.pure_apply], by simp⟩

theorem N.Runs.bind {α β : Type} {m : N α} {f : α → N β} {P : Device → PropertyData → Prop}
    (h1 : m.Runs P) (h2 : ∀ a, (f a).Runs P) : (m >>= f).Runs P := by
  intro c
  obtain ⟨c1, a, e1, p1⟩ := h1 c
  obtain ⟨c2, b, e2, p2⟩ := h2 a (c ++ c1)
  refine ⟨c1 ++ c2, b, by rw [N.bind_ok e1, e2, List.append_assoc], fun x hx => ?_⟩
  rcases List.mem_append.mp hx with h | h
  · exact p1 x h
  · exact p2 x h

/-- A client whose calls all return. -/
def Reader.Returns (net : Reader) : Prop := ∀ n dev rp, ∃ r, net n dev rp = .ok r

theorem N.Runs.call {net : Reader} (h : net.Returns) (dev : Device) (rp : PropertyData)
    {P : Device → PropertyData → Prop} (hp : P dev rp) : (N.readProperty net dev rp).Runs P := by
  intro c
  obtain ⟨r, hr⟩ := h c.length dev rp
  exact ⟨[(dev, rp)], r, by unfold N.readProperty; rw [hr], by simpa using hp⟩

theorem N.Runs.read {net : Reader} (h : net.Returns) (d : NetDevice) (o : NetObject)
    {P : Device → PropertyData → Prop} (hp : P d.dev.target o.request) : (d.read net (some o)).Runs P := by
  unfold NetDevice.read
  refine N.Runs.bind (N.Runs.call h _ _ hp) fun r => ?_
  cases r <;> exact N.Runs.pure _ _

/-- The result of `Read` from that of the client. -/
def netResult : Except CallErr PropertyData → Except NetErr PropertyData
  | .error e => .error (.call e)
  | .ok out => .ok out

/-- A read that fails or succeeds, from what the client returns. -/
theorem read_of (net : Reader) (d : NetDevice) (o : NetObject) (c : Calls) (r : Except CallErr PropertyData)
    (h : net c.length d.dev.target o.request = .ok r) :
    d.read net (some o) c = (c ++ [(d.dev.target, o.request)],
      .ok (netResult r)) := by
  have : N.readProperty net d.dev.target o.request c = (c ++ [(d.dev.target, o.request)], .ok r) := by
    unfold N.readProperty; rw [h]
  refine (N.bind_ok this).trans ?_
  cases r <;> rfl

/-! ## Answered reads -/

/-- The reference to the property of a request. -/
def NetObject.ref (o : NetObject) : Spec.PropRef :=
  ⟨o.prop.toNat, if o.arrayIndex = 0xFFFFFFFF then none else some o.arrayIndex.toNat⟩

/-- The n-th call is answered with these values, octet for octet as in the standard. -/
def Answered (w : Wire) (n : Nat) (o : NetObject) (vs : List AppVal) : Prop :=
  ∃ id, w.invoke n = some id ∧ w.script n 0 = ⟨none, .bytes (Spec.complexAck id 12
    (Spec.readPropertyAckBody o.typ.toNat o.inst.toNat o.ref (vs.flatMap AppVal.encoding)))⟩

/-- A request that fits the protocol. -/
def NetObject.Valid (o : NetObject) : Prop := Props.C04_Valid ⟨o.typ, o.inst⟩ ∧ o.prop.toNat ≤ 4194303

/-- How the values of a property are handed over. -/
def shape (ss : List Scalar) : Value := if ss.length = 1 then .one ss.head! else .many ss

theorem call_answered (w : Wire) (hmy : w.my.net = 0) (dev : Device) (o : NetObject) (ho : o.Valid) (n : Nat)
    (vs : List AppVal) (hvs : ∀ v ∈ vs, Props.C71_Readable v) (hf : vs.length < w.fuel) (h : Answered w n o vs) :
    ∃ ss out, List.Forall₂ Props.DecodedAs ss vs ∧ out.object.id = ⟨o.typ, o.inst⟩ ∧
      out.object.properties = [⟨o.prop, o.arrayIndex, shape ss, 0⟩] ∧ w.reader n dev o.request = .ok (.ok out) := by
  obtain ⟨id, h1, h2⟩ := h
  obtain ⟨ss, out, hss, e1, e2, hans⟩ := Props.readAnswer_out w.fuel id 12 ⟨o.typ, o.inst⟩
    { typ := o.prop, arrayIndex := o.arrayIndex } vs ho.1 hvs hf
  refine ⟨ss, out, hss, e1, e2, ?_⟩
  unfold Wire.reader
  rw [h1, readProperty_call w.fuel w.my dev o.request { typ := o.prop, arrayIndex := o.arrayIndex } id (w.script n) hmy
    ⟨ho.1, ⟨[], rfl⟩, ho.2⟩, attempts_done (r := .ok out) (by rw [h2]) (by
      rw [h2]
      have : NetObject.ref o = Property.ref { typ := o.prop, arrayIndex := o.arrayIndex } := rfl
      simp only [readStep, this, hans, Outcome.ok_bind]
      rfl)]

theorem read_answered (w : Wire) (hmy : w.my.net = 0) (d : NetDevice) (o : NetObject) (ho : o.Valid) (c : Calls)
    (vs : List AppVal) (hvs : ∀ v ∈ vs, Props.C71_Readable v) (hf : vs.length < w.fuel) (h : Answered w c.length o vs) :
    ∃ ss out, List.Forall₂ Props.DecodedAs ss vs ∧ out.object.id = ⟨o.typ, o.inst⟩ ∧
      out.object.properties = [⟨o.prop, o.arrayIndex, shape ss, 0⟩] ∧
      d.read w.reader (some o) c = (c ++ [(d.dev.target, o.request)], .ok (.ok out)) := by
  obtain ⟨ss, out, h1, h2, h3, h4⟩ := call_answered w hmy d.dev.target o ho c.length vs hvs hf h
  exact ⟨ss, out, h1, h2, h3, read_of w.reader d o c (.ok out) h4⟩

/-! ## Priority arrays -/

/-- The entries the conversion accepts. -/
def GoodEntry (s : Scalar) : Prop := s = .null ∨ ∃ v, s = .uint v

/-- What is stored for an accepted entry. -/
def entryBits : Scalar → Option UInt32
  | .uint v => some (float32OfUInt32 v)
  | _ => none

theorem priorityEntry_good {s : Scalar} (h : GoodEntry s) : priorityEntry s = .ok (entryBits s) := by
  rcases h with rfl | ⟨v, rfl⟩ <;> rfl

theorem priorityEntry_bad {s : Scalar} (h : ¬ GoodEntry s) : (priorityEntry s).Panics := by
  cases s
  case null => exact absurd (Or.inl rfl) h
  case uint v => exact absurd (Or.inr ⟨v, rfl⟩) h
  all_goals trivial

theorem priorityLoop_good (l : List Scalar) : ∀ (i : Nat) (pri : Priorities), (∀ s ∈ l, GoodEntry s) →
    priorityLoop l i pri = .ok (fun j => if j.val < i then pri j else
      match l[j.val - i]? with
      | some s => entryBits s
      | none => pri j) := by
  induction l with
  | nil =>
    intro i pri _
    unfold priorityLoop
    congr 1
    funext j
    simp
  | cons s l ih =>
    intro i pri h
    unfold priorityLoop
    rw [priorityEntry_good (h s (by simp))]
    simp only [Outcome.ok_bind]
    rw [ih (i + 1) _ fun t ht => h t (by simp [ht])]
    congr 1
    funext j
    by_cases h1 : j.val < i
    · rw [if_pos (by omega), if_pos h1, if_neg (by omega)]
    · rw [if_neg h1]
      by_cases h2 : j.val = i
      · rw [if_pos (by omega), if_pos h2, h2]; simp
      · rw [if_neg (by omega), show j.val - i = (j.val - (i + 1)) + 1 by omega, List.getElem?_cons_succ, if_neg h2]

theorem priorityLoop_bad (l : List Scalar) : ∀ (i : Nat) (pri : Priorities), (∃ s ∈ l, ¬ GoodEntry s) →
    (priorityLoop l i pri).Panics := by
  induction l with
  | nil => intro i pri h; obtain ⟨s, hs, _⟩ := h; simp at hs
  | cons s l ih =>
    intro i pri h
    unfold priorityLoop
    by_cases hs : GoodEntry s
    · rw [priorityEntry_good hs]
      refine ih _ _ ?_
      obtain ⟨t, ht, hb⟩ := h
      rcases List.mem_cons.mp ht with rfl | ht
      · exact absurd hs hb
      · exact ⟨t, ht, hb⟩
    · have := priorityEntry_bad hs
      cases hp : priorityEntry s with
      | ok a => rw [hp] at this; exact absurd this id
      | panic k => trivial
      | diverge => rw [hp] at this; exact absurd this id

theorem highest_some {p : Priorities} {b : UInt32} (n : Fin 16) (h : p n = some b) (hl : ∀ m < n, p m = none) :
    highestFloat32 p = some b := by
  unfold highestFloat32
  rw [List.findSome?_eq_some_iff]
  refine ⟨(List.finRange 16).take n, n, (List.finRange 16).drop (n + 1), ?_, h, ?_⟩
  · have := List.take_append_drop n.val (List.finRange 16)
    rw [List.drop_eq_getElem_cons (by simp), List.getElem_finRange] at this
    exact this.symm
  · intro m hm
    rw [List.mem_take_iff_getElem] at hm
    obtain ⟨i, hi, rfl⟩ := hm
    refine hl _ ?_
    rw [List.getElem_finRange]
    show i < n.val
    omega

theorem highest_none {p : Priorities} (h : ∀ n, p n = none) : highestFloat32 p = none := by
  unfold highestFloat32
  rw [List.findSome?_eq_none_iff]
  exact fun x _ => h x

/-! ## Object lists -/

theorem asObjectIDs_map (ids : List ObjectID) : asObjectIDs (ids.map .objId) = .ok ids := by
  induction ids with
  | nil => rfl
  | cons i ids ih => simp [asObjectIDs, asObjectID, ih]

/-- The values of an object list. -/
def idValues (ids : List ObjectID) : List AppVal := ids.map fun i => .objId i.typ.toNat i.inst.toNat

theorem idValues_readable {ids : List ObjectID} (h : ∀ i ∈ ids, Props.C04_Valid i) :
    ∀ v ∈ idValues ids, Props.C71_Readable v := by
  intro v hv
  obtain ⟨i, hi, rfl⟩ := List.mem_map.mp hv
  exact ⟨h i hi, trivial⟩

theorem decoded_id {s : Scalar} {i : ObjectID} (h : Props.DecodedAs s (.objId i.typ.toNat i.inst.toNat)) :
    s = .objId i := by
  obtain ⟨⟨id, rfl, h1, h2⟩, _⟩ := h
  congr 1
  rcases id with ⟨t, n⟩
  rcases i with ⟨t', n'⟩
  simp only at h1 h2
  rw [UInt16.toNat_inj.mp h1, UInt32.toNat_inj.mp h2]

theorem decoded_ids {ss : List Scalar} {ids : List ObjectID} (h : List.Forall₂ Props.DecodedAs ss (idValues ids)) :
    ss = ids.map .objId := by
  induction ids generalizing ss with
  | nil => cases h; rfl
  | cons i ids ih =>
    cases h with
    | cons h1 h2 => rw [decoded_id h1, ih h2]; rfl

end Bac
