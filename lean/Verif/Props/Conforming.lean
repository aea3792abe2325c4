import Verif.Lemmas.Failure
import Verif.Props.AppData
import Verif.Props.Values
/-!
# C71 Every conforming application value is decoded to its meaning
-/

namespace Bac.Props

open Spec (AppVal Means)

/-- Values the decoder understands: well formed, and none of the known defects:
dates (C14), signed integers that need three octets and are negative (C08), bit
strings of more than 15 octets (C12). -/
def C71_Readable (v : AppVal) : Prop :=
  v.WF ∧ match v with
    | .date .. => False
    | .signed n => ¬ (-2 ^ 23 ≤ n ∧ n < -2 ^ 15)
    | .bits l => l.length ≤ 120
    | _ => True

theorem octetBits_packOctet8 : ∀ a b c d e f g h : Bool,
    Spec.octetBits (Spec.packOctet [a, b, c, d, e, f, g, h]) = [a, b, c, d, e, f, g, h] := by
  decide +kernel

theorem octetBits_packOctet (l : List Bool) (h : l.length ≤ 8) :
    Spec.octetBits (Spec.packOctet l) = l ++ List.replicate (8 - l.length) false := by
  have hp : Spec.packOctet l = Spec.packOctet (l ++ List.replicate (8 - l.length) false) := by
    have hlen : (l ++ List.replicate (8 - l.length) false).length = 8 := by
      rw [List.length_append, List.length_replicate]; omega
    unfold Spec.packOctet
    rw [hlen, Nat.sub_self, List.replicate_zero, List.append_nil]
  rw [hp]
  have hlen : (l ++ List.replicate (8 - l.length) false).length = 8 := by
    rw [List.length_append, List.length_replicate]; omega
  generalize l ++ List.replicate (8 - l.length) false = m at hlen
  match m, hlen with
  | [a, b, c, d, e, f, g, i], _ => exact octetBits_packOctet8 a b c d e f g i

theorem packBits_nil : Spec.packBits [] = [] := by rw [Spec.packBits]; simp

theorem packBits_cons (l : List Bool) (h : l ≠ []) :
    Spec.packBits l = Spec.packOctet (l.take 8) :: Spec.packBits (l.drop 8) := by
  rw [Spec.packBits]; simp [h]

theorem packBits_spec (n : Nat) : ∀ l : List Bool, l.length ≤ n →
    (Spec.packBits l).length = (l.length + 7) / 8 ∧
      (Spec.bitsOf (Spec.packBits l)).take l.length = l := by
  induction n with
  | zero =>
    intro l h
    have : l = [] := List.length_eq_zero_iff.mp (by omega)
    subst this
    rw [packBits_nil]; exact ⟨rfl, rfl⟩
  | succ n ih =>
    intro l h
    by_cases h0 : l = []
    · subst h0; rw [packBits_nil]; exact ⟨rfl, rfl⟩
    have hpos : 0 < l.length := List.length_pos_iff.mpr h0
    obtain ⟨h1, h2⟩ := ih (l.drop 8) (by rw [List.length_drop]; omega)
    rw [packBits_cons l h0]
    constructor
    · rw [List.length_cons, h1, List.length_drop]; omega
    · have ho := octetBits_packOctet (l.take 8) (by rw [List.length_take]; omega)
      unfold Spec.bitsOf at h2 ⊢
      rw [List.flatMap_cons, ho]
      by_cases h8 : 8 ≤ l.length
      · rw [show (l.take 8).length = 8 by rw [List.length_take]; omega, Nat.sub_self,
          List.replicate_zero, List.append_nil, List.take_append,
          show (l.take 8).length = 8 by rw [List.length_take]; omega,
          List.take_of_length_le (by rw [List.length_take]; omega)]
        rw [List.length_drop] at h2
        rw [h2, List.take_append_drop]
      · rw [List.take_of_length_le (show l.length ≤ 8 by omega), List.append_assoc,
          List.take_append_of_le_length (by omega), List.take_of_length_le (by omega)]

theorem signedValue_twos (n : Nat) (v : Int)
    (h : (n = 1 ∧ -2 ^ 7 ≤ v ∧ v < 2 ^ 7) ∨ (n = 2 ∧ -2 ^ 15 ≤ v ∧ v < 2 ^ 15) ∨
      (n = 3 ∧ -2 ^ 23 ≤ v ∧ v < 2 ^ 23) ∨ (n = 4 ∧ -2 ^ 31 ≤ v ∧ v < 2 ^ 31)) :
    Spec.signedValue (Spec.twosComplement n v) = v := by
  unfold Spec.signedValue Spec.twosComplement
  rw [value_bigEndian, length_bigEndian]
  rcases h with ⟨rfl, h⟩ | ⟨rfl, h⟩ | ⟨rfl, h⟩ | ⟨rfl, h⟩ <;> norm_num at h ⊢ <;>
    split_ifs <;> omega

/-- C71.  Every readable conforming value is decoded, from its exact octets and
whatever follows, to a Go value with the same meaning. -/
theorem C71_conforming_value_partial (v : AppVal) (h : C71_Readable v) :
    ∃ s, Parses Dec.appData v.encoding (s, none) ∧ Means s v := by
  obtain ⟨hw, hx⟩ := h
  cases v <;> simp only [AppVal.WF] at hw <;> simp only at hx
  case null => exact ⟨_, Dec.parses_null, rfl⟩
  case bool b => exact ⟨_, Dec.parses_bool b, rfl⟩
  case unsigned n =>
    have : (UInt32.ofNat n).toNat = n := UInt32.toNat_ofNat_of_lt' hw
    refine ⟨.uint (UInt32.ofNat n), ?_, ⟨_, rfl, this⟩⟩
    have h := Dec.parses_uint (UInt32.ofNat n)
    rwa [this] at h
  case enum n =>
    have : (UInt32.ofNat n).toNat = n := UInt32.toNat_ofNat_of_lt' hw
    refine ⟨.uint (UInt32.ofNat n), ?_, ⟨_, Or.inl rfl, this⟩⟩
    have h := Dec.parses_enum (UInt32.ofNat n)
    rwa [this] at h
  case real b => exact ⟨_, Dec.parses_real b, rfl⟩
  case double b =>
    refine ⟨_, ?_, rfl⟩
    have h := Dec.parses_double 8 b
    simp only [AppVal.encoding, AppVal.tag, AppVal.lenField, AppVal.contents, length_bigEndian]
    exact h
  case octets l => exact ⟨_, Dec.parses_octets l hw, rfl⟩
  case chars l => exact ⟨_, Dec.parses_str l hw, rfl⟩
  case objId t i =>
    refine ⟨_, Dec.parses_objId t i hw.1 hw.2, ⟨_, rfl, ?_, ?_⟩⟩
    · show (UInt16.ofNat t).toNat = t
      exact UInt16.toNat_ofNat_of_lt' (lt_trans hw.1 (by norm_num))
    · show (UInt32.ofNat i).toNat = i
      exact UInt32.toNat_ofNat_of_lt' (lt_trans hw.2 (by norm_num))
  case time h m s c =>
    obtain ⟨t, h1, h2, h3, h4, h5, _⟩ := C14_time h m s c
    refine ⟨.time t, h1, ?_⟩
    rcases t with ⟨a, b, c', e⟩
    simp only at h2 h3 h4 h5
    subst h2 h3 h4 h5
    rfl
  case signed n =>
    have hmin : (AppVal.signed n).encoding = Spec.tagHeader 3 false (Spec.signedMinOctets n) ++
        Spec.twosComplement (Spec.signedMinOctets n) n := by
      simp only [AppVal.encoding, AppVal.tag, AppVal.lenField, AppVal.contents,
        Spec.twosComplement, length_bigEndian]
    have key : ∃ x : Int32, Parses (Dec.signed (Spec.signedMinOctets n))
        (Spec.twosComplement (Spec.signedMinOctets n) n) x ∧ x.toInt = n := by
      have hlen : ∀ k, (Spec.twosComplement k n).length = k := fun k => length_bigEndian _ _
      have p : ∀ k, (k = 1 ∨ k = 2 ∨ k = 4) → Spec.signedValue (Spec.twosComplement k n) = n →
          ∃ x : Int32, Parses (Dec.signed k) (Spec.twosComplement k n) x ∧ x.toInt = n := by
        intro k hk hv
        obtain ⟨x, h1, h2⟩ := C08_signed_partial (Spec.twosComplement k n) (by rw [hlen]; exact hk)
        rw [hlen] at h1
        exact ⟨x, h1, h2.trans hv⟩
      unfold Spec.signedMinOctets
      split_ifs with a b c
      · exact p 1 (by simp) (signedValue_twos 1 n (by omega))
      · exact p 2 (by simp) (signedValue_twos 2 n (by omega))
      · have hv := signedValue_twos 3 n (by omega)
        have hge : 0 ≤ n := by omega
        have h3 := hlen 3
        have hval : Spec.value (Spec.twosComplement 3 n) = n.toNat := by
          unfold Spec.twosComplement
          rw [value_bigEndian]
          norm_num at *
          omega
        revert hval
        generalize Spec.twosComplement 3 n = bs at h3
        match bs, h3 with
        | [a, b, c], _ =>
          intro hval
          obtain ⟨x, h1, h2, _⟩ := C08_signed_three_exact a b c
          exact ⟨x, h1, by rw [h2, hval]; omega⟩
      · exact p 4 (by simp) (signedValue_twos 4 n (by omega))
    obtain ⟨x, h1, h2⟩ := key
    refine ⟨.int x, ?_, ⟨x, rfl, h2⟩⟩
    rw [hmin]
    have h4 : Spec.signedMinOctets n ≤ 4 := by unfold Spec.signedMinOctets; split_ifs <;> omega
    have hk : (UInt32.ofNat (Spec.signedMinOctets n)).toNat = Spec.signedMinOctets n :=
      UInt32.toNat_ofNat_of_lt' (lt_of_le_of_lt h4 (by norm_num))
    rw [← hk] at h1
    have := Dec.parses_appData_of (num := 3) (v := UInt32.ofNat (Spec.signedMinOctets n))
      (Dec.Parses.withError (f := Scalar.int) h1)
    rw [hk] at this
    exact this
  case bits l =>
    obtain ⟨h1, h2⟩ := packBits_spec l.length l (le_refl _)
    set u : UInt8 := UInt8.ofNat ((8 - l.length % 8) % 8) with hu
    have hut : u.toNat = (8 - l.length % 8) % 8 := by
      rw [hu, UInt8.toNat_ofNat_of_lt' (lt_of_lt_of_le (Nat.mod_lt _ (by norm_num)) (by norm_num))]
    obtain ⟨bs, h3, h4, h5⟩ := C12_bitstring_partial u (Spec.packBits l) (by omega) (by omega)
      (by
        intro h
        have : (Spec.packBits l).length = 0 := by rw [h]; rfl
        have : l.length = 0 := by omega
        apply UInt8.toNat_inj.mp
        rw [hut, this]; rfl)
    refine ⟨.bits (some bs), ?_, ⟨bs, rfl, ?_⟩⟩
    · have hk : (UInt32.ofNat ((Spec.packBits l).length + 1)).toNat = (Spec.packBits l).length + 1 :=
        UInt32.toNat_ofNat_of_lt' hw
      rw [← hk] at h3
      have := Dec.parses_appData_of (num := 8) h3
      rw [hk] at this
      exact this
    · rw [h5, show 8 * (Spec.packBits l).length - u.toNat = l.length by rw [hut, h1]; omega, h2]

/-- C71 fails for a conforming date: 1 January 2022 (122 - 1 - 1) is decoded as a
year other than 2022. -/
theorem C71_fails_date : ¬ ∃ s, Parses Dec.appData (AppVal.date 122 1 1 6).encoding (s, none) ∧
    Means s (.date 122 1 1 6) := by
  rintro ⟨s, h1, h2⟩
  have h := h1 none []
  have h3 : Dec.appData ⟨(AppVal.date 122 1 1 6).encoding ++ [], none, none⟩
      = .ok ((.date ⟨2112, 1, 1, 6⟩, none), ⟨[], some 6, none⟩) := by decide +kernel
  rw [h3] at h
  simp only [Outcome.ok.injEq, Prod.mk.injEq] at h
  rw [← h.1.1] at h2
  simp [Means] at h2

theorem getValueFrom_length (bs : BitString) (n : Nat) : ∀ i l, bs.getValueFrom n i = .ok l → l.length = n := by
  induction n with
  | zero => intro i l h; cases h; rfl
  | succ n ih =>
    intro i l h
    rw [BitString.getValueFrom] at h
    obtain ⟨b, _, h⟩ := ok_bind_inv h
    obtain ⟨r, h2, h⟩ := ok_bind_inv h
    cases h
    rw [List.length_cons, ih _ _ h2]

/-- The number of bits of a decoded bit string. -/
theorem bitStringOf_used {n : Nat} {data : List UInt8} {b : BitString} (h : Dec.bitStringOf (n + 1) data = .ok b) :
    b.bitUsed.toNat ≤ 120 ∨ n % 256 = 0 := by
  unfold Dec.bitStringOf at h
  have hn : (UInt8.ofNat n).toNat = n % 256 := UInt8.toNat_ofNat' ..
  simp only [Nat.add_sub_cancel] at h
  split at h
  next hk =>
    obtain ⟨c, _, h⟩ := ok_bind_inv h
    cases data with
    | nil => cases h
    | cons b0 d =>
      cases h
      have hk' : (UInt8.ofNat n).toNat ≤ 15 := hk
      by_cases h0 : n % 256 = 0
      · exact Or.inr h0
      · left
        show (UInt8.ofNat n * 8 - (b0 &&& 7)).toNat ≤ 120
        have h7 : (b0 &&& 7).toNat ≤ 7 := by rw [UInt8.toNat_and]; exact Nat.and_le_right
        have h8 : (UInt8.ofNat n * 8).toNat = n % 256 * 8 := by
          rw [UInt8.toNat_mul, hn]; show n % 256 * 8 % 256 = _; omega
        rw [UInt8.toNat_sub, h8]
        omega
  next => cases h; left; show (0 : UInt8).toNat ≤ 120; decide

/-- C71, exactly: the conforming values that are read as they are meant are the readable ones. -/
theorem C71_exact (v : AppVal) (hw : v.WF) :
    (∃ s, Parses Dec.appData v.encoding (s, none) ∧ Means s v) ↔ C71_Readable v := by
  refine ⟨?_, C71_conforming_value_partial v⟩
  rintro ⟨s, h1, h2⟩
  refine ⟨hw, ?_⟩
  have run := h1 none []
  rw [List.append_nil] at run
  cases v <;> simp only
  case date y m d w =>
    obtain ⟨dt, h3, h4, h5⟩ := C14_fails_year y m d w
    have e : (AppVal.date y m d w).encoding = [0xA4, y, m, d, w] := rfl
    rw [e] at run
    have h6 := h3 none []
    rw [List.append_nil, run] at h6
    simp only [Outcome.ok.injEq, Prod.mk.injEq] at h6
    rw [h6.1.1] at h2
    simp only [Means, Scalar.date.injEq] at h2
    rw [h2] at h4 h5
    dsimp only at h4 h5
    by_cases hy : y = 255
    · exact h5 hy (if_pos hy)
    · exact h4 (if_neg hy)
  case signed n =>
    intro hc
    obtain ⟨x, rfl, hx⟩ := h2
    have hm : Spec.signedMinOctets n = 3 := by
      unfold Spec.signedMinOctets
      rw [if_neg (by omega), if_neg (by omega), if_pos (by omega)]
    have hl : (Spec.twosComplement 3 n).length = 3 := length_bigEndian _ _
    have hval := signedValue_twos 3 n (by omega)
    have he : (AppVal.signed n).encoding = Spec.tagHeader 3 false 3 ++ Spec.twosComplement 3 n := by
      simp only [AppVal.encoding, AppVal.tag, AppVal.lenField, AppVal.contents, hm, hl]
    rw [he] at run
    generalize Spec.twosComplement 3 n = bs at hl hval run
    match bs, hl with
    | [a, b, c], _ =>
      obtain ⟨y, h3, h4, h5⟩ := C08_signed_three_exact a b c
      have h6 := Dec.parses_appData_of (num := 3) (v := 3) (Dec.Parses.withError (f := Scalar.int) h3) none []
      rw [List.append_nil] at h6
      have h7 := run.symm.trans h6
      simp only [Outcome.ok.injEq, Prod.mk.injEq, Scalar.int.injEq] at h7
      rw [← h7.1.1, hx] at h4
      omega
  case bits l =>
    by_contra hc
    obtain ⟨b, rfl, hb⟩ := h2
    have hlen : l.length = b.bitUsed.toNat := getValueFrom_length b _ _ _ hb
    obtain ⟨h3, _⟩ := packBits_spec l.length l (le_refl _)
    set u : UInt8 := UInt8.ofNat ((8 - l.length % 8) % 8) with hu
    have hk : (UInt32.ofNat ((Spec.packBits l).length + 1)).toNat = (Spec.packBits l).length + 1 :=
      UInt32.toNat_ofNat_of_lt' hw
    have he : (AppVal.bits l).encoding = Spec.tagHeader 8 false (UInt32.ofNat ((Spec.packBits l).length + 1)).toNat ++ (u :: Spec.packBits l) := by
      rw [hk]; rfl
    rw [he] at run
    have h4 := Dec.parses_tagHeader 8 false (UInt32.ofNat ((Spec.packBits l).length + 1))
    unfold Dec.appData at run
    obtain ⟨t, d1, e1, run⟩ := D.bind_inv run
    have e1' := (h4 none (u :: Spec.packBits l)).symm.trans e1
    rw [Outcome.ok.injEq, Prod.mk.injEq] at e1'
    obtain ⟨rfl, rfl⟩ := e1'
    dsimp only at run
    rw [hk] at run
    change (Dec.bitString ((Spec.packBits l).length + 1) >>= fun v => Dec.error >>= fun e => (pure (Scalar.bits v, e) : D (Scalar × Option GoErr))) _ = _ at run
    obtain ⟨w, d2, e2, run⟩ := D.bind_inv run
    have hwb : w = some b := by
      obtain ⟨x, d3, e3, run⟩ := D.bind_inv run
      cases run
      rfl
    subst hwb
    unfold Dec.bitString at e2
    rw [if_neg (by omega)] at e2
    obtain ⟨data, d3, e3, e2⟩ := D.bind_inv e2
    obtain ⟨c, d4, e4, e2⟩ := D.bind_inv e2
    cases e2
    unfold D.lift at e4
    obtain ⟨c', e5, e4⟩ := ok_bind_inv e4
    cases e4
    rcases bitStringOf_used e5 with h6 | h6
    · omega
    · have := b.bitUsed.toNat_lt
      omega

/-- The readable values are many: a negative signed number, a bit string, a string. -/
example : C71_Readable (.signed (-200)) ∧ C71_Readable (.bits [true, false, true]) ∧
    C71_Readable (.chars [72, 105]) ∧ C71_Readable (.double 0x4008000000000000) := by
  refine ⟨⟨by simp [AppVal.WF], by simp⟩, ⟨?_, by simp⟩, ⟨by simp [AppVal.WF], trivial⟩, trivial, trivial⟩
  simp only [AppVal.WF]
  have := (packBits_spec 3 [true, false, true] (by simp)).1
  rw [this]; simp

end Bac.Props
