import Verif.Model.AddrText
import Verif.Props.Network
import Verif.Props.Names

/-!
# C148 - C154: texts of addresses, texts of answers, values fetched from answers
-/

namespace Spec

/-- An octet in decimal digits without leading zeros ('0' is 48). -/
def octetText (n : UInt8) : List Nat :=
  if n.toNat < 10 then [48 + n.toNat]
  else if n.toNat < 100 then [48 + n.toNat / 10, 48 + n.toNat % 10]
  else [48 + n.toNat / 100, 48 + n.toNat / 10 % 10, 48 + n.toNat % 10]

/-- An IPv4 address in dotted decimal form ('.' is 46). -/
def dotted (a b c d : UInt8) : List Nat :=
  octetText a ++ (46 :: (octetText b ++ (46 :: (octetText c ++ (46 :: octetText d)))))

example : dotted 192 168 0 10 = t!"192.168.0.10" := by decide

end Spec

namespace Bac.Props
open Bac
open _root_.Spec (AppVal Means)

/-! ## Numbers in texts -/

/-- A character is a digit. -/
abbrev Digit (c : Nat) : Prop := 48 ≤ c ∧ c ≤ 57

/-- A text does not begin with a digit. -/
def Stops (s : List Nat) : Prop := ∀ c, s.head? = some c → ¬ Digit c

theorem dtoiLoop_stop (n : Nat) (r : List Nat) (h : Stops r) : dtoiLoop n r = some (n, r) := by
  cases r with
  | nil => rfl
  | cons c s => rw [dtoiLoop, if_neg (show ¬ (48 ≤ c ∧ c ≤ 57) from h c rfl)]

theorem dtoiLoop_digit (n c : Nat) (r : List Nat) (hc : Digit c) (hb : n * 10 + (c - 48) < 0xFFFFFF) :
    dtoiLoop n (c :: r) = dtoiLoop (n * 10 + (c - 48)) r := by
  rw [dtoiLoop, if_pos (show 48 ≤ c ∧ c ≤ 57 from hc)]
  simp only
  rw [if_neg (by omega)]

theorem dtoi_digit (c : Nat) (r : List Nat) (hc : Digit c) : dtoi (c :: r) = dtoiLoop 0 (c :: r) := by
  rw [dtoi, if_pos (show 48 ≤ c ∧ c ≤ 57 from hc)]

theorem dtoiLoop_inv (s : List Nat) : ∀ m n r, dtoiLoop m s = some (n, r) →
    ∃ ds, s = ds ++ r ∧ (∀ c ∈ ds, Digit c) ∧ n = ds.foldl (fun a c => a * 10 + (c - 48)) m ∧ Stops r := by
  induction s with
  | nil =>
    intro m n r h
    cases h
    exact ⟨[], rfl, nofun, rfl, nofun⟩
  | cons c s ih =>
    intro m n r h
    rw [dtoiLoop] at h
    split at h
    · rename_i hc
      simp only at h
      split at h
      · cases h
      · obtain ⟨ds, h1, h2, h3, h4⟩ := ih _ _ _ h
        refine ⟨c :: ds, by rw [h1]; rfl, ?_, h3, h4⟩
        intro x hx
        rcases List.mem_cons.mp hx with rfl | hx
        · exact hc
        · exact h2 x hx
    · rename_i hc
      cases h
      refine ⟨[], rfl, nofun, rfl, ?_⟩
      intro x hx
      cases hx
      exact hc

theorem dtoi_inv (s : List Nat) (n : Nat) (r : List Nat) (h : dtoi s = some (n, r)) :
    ∃ d ds, s = d :: ds ++ r ∧ (∀ c ∈ d :: ds, Digit c) ∧
      n = (d :: ds).foldl (fun a c => a * 10 + (c - 48)) 0 ∧ Stops r := by
  cases s with
  | nil => cases h
  | cons c s =>
    rw [dtoi] at h
    split at h
    · rename_i hc
      obtain ⟨ds, h1, h2, h3, h4⟩ := dtoiLoop_inv _ _ _ _ h
      cases ds with
      | nil =>
        rw [List.nil_append] at h1
        exact absurd hc (h4 c (by rw [← h1]; rfl))
      | cons d ds => exact ⟨d, ds, h1, h2, h3, h4⟩
    · cases h

theorem foldl_digits_ge (ds : List Nat) : ∀ m, m ≤ ds.foldl (fun a c => a * 10 + (c - 48)) m := by
  induction ds with
  | nil => intro m; exact Nat.le_refl _
  | cons d ds ih =>
    intro m
    have := ih (m * 10 + (d - 48))
    simp only [List.foldl_cons]
    omega

/-! ## One field of an IPv4 address -/

theorem octetText_digits (x : UInt8) : ∀ c ∈ Spec.octetText x, Digit c := by
  have hx := x.toNat_lt
  intro c hc
  unfold Spec.octetText at hc
  split at hc
  · simp only [List.mem_singleton] at hc; omega
  · split at hc
    · simp only [List.mem_cons, List.not_mem_nil, or_false] at hc; omega
    · simp only [List.mem_cons, List.not_mem_nil, or_false] at hc; omega

theorem ipField_octet (x : UInt8) (r : List Nat) (hr : Stops r) :
    ipField (Spec.octetText x ++ r) = some (x, r) := by
  have hx : x.toNat < 256 := x.toNat_lt
  have hback : UInt8.ofNat x.toNat = x := by simp
  have key : ∀ ds n, ds ++ r = Spec.octetText x ++ r → dtoi (ds ++ r) = some (n, r) → n = x.toNat →
      ¬ (ds.length > 1 ∧ ds.head? = some 48) → ds ≠ [] → ipField (Spec.octetText x ++ r) = some (x, r) := by
    intro ds n e hd hn hz hne
    unfold ipField
    rw [← e, hd, hn]
    simp only
    rw [if_neg (by omega), if_neg, hback]
    rintro ⟨h1, h2⟩
    refine hz ⟨by simpa using h1, ?_⟩
    cases ds with
    | nil => exact absurd rfl hne
    | cons d ds => simpa using h2
  by_cases h1 : x.toNat < 10
  · refine key [48 + x.toNat] (0 * 10 + (48 + x.toNat - 48)) (by rw [Spec.octetText, if_pos h1]) ?_
      (by omega) (by simp) (by simp)
    rw [List.singleton_append, dtoi_digit _ _ (by omega),
      dtoiLoop_digit _ _ _ (by omega) (by omega), dtoiLoop_stop _ _ hr]
  · by_cases h2 : x.toNat < 100
    · refine key [48 + x.toNat / 10, 48 + x.toNat % 10]
        ((0 * 10 + (48 + x.toNat / 10 - 48)) * 10 + (48 + x.toNat % 10 - 48))
        (by rw [Spec.octetText, if_neg h1, if_pos h2]) ?_ (by omega) (by simp; omega) (by simp)
      rw [List.cons_append, List.singleton_append, dtoi_digit _ _ (by omega),
        dtoiLoop_digit _ _ _ (by omega) (by omega),
        dtoiLoop_digit _ _ _ (by omega) (by omega), dtoiLoop_stop _ _ hr]
    · refine key [48 + x.toNat / 100, 48 + x.toNat / 10 % 10, 48 + x.toNat % 10]
        (((0 * 10 + (48 + x.toNat / 100 - 48)) * 10 + (48 + x.toNat / 10 % 10 - 48)) * 10 +
          (48 + x.toNat % 10 - 48))
        (by rw [Spec.octetText, if_neg h1, if_neg h2]) ?_ (by omega) (by simp; omega) (by simp)
      rw [List.cons_append, List.cons_append, List.singleton_append, dtoi_digit _ _ (by omega),
        dtoiLoop_digit _ _ _ (by omega) (by omega),
        dtoiLoop_digit _ _ _ (by omega) (by omega),
        dtoiLoop_digit _ _ _ (by omega) (by omega), dtoiLoop_stop _ _ hr]

theorem ipField_inv (s : List Nat) (x : UInt8) (r : List Nat) (h : ipField s = some (x, r)) :
    s = Spec.octetText x ++ r ∧ Stops r := by
  unfold ipField at h
  cases hd : dtoi s with
  | none => rw [hd] at h; cases h
  | some p =>
    obtain ⟨n, r'⟩ := p
    rw [hd] at h
    simp only at h
    split at h
    · cases h
    · rename_i hn
      split at h
      · cases h
      · rename_i hz
        cases h
        obtain ⟨d, ds, h1, h2, h3, h4⟩ := dtoi_inv s n r hd
        refine ⟨?_, h4⟩
        rw [h1]
        congr 1
        have hx : (UInt8.ofNat n).toNat = n := by simp; omega
        have hd1 := h2 d (by simp)
        have hz' : ¬ ((d :: ds).length > 1 ∧ d = 48) := by
          rintro ⟨g1, g2⟩
          refine hz ⟨?_, ?_⟩
          · rw [h1]; simp only [List.length_append]; omega
          · rw [h1, g2]; rfl
        unfold Spec.octetText
        rw [hx]
        cases ds with
        | nil =>
          simp only [List.foldl_cons, List.foldl_nil] at h3
          rw [if_pos (by omega)]
          congr 1; omega
        | cons e ds =>
          have hd2 := h2 e (by simp)
          have hd48 : d ≠ 48 := fun hh => hz' ⟨by simp, hh⟩
          cases ds with
          | nil =>
            simp only [List.foldl_cons, List.foldl_nil] at h3
            rw [if_neg (by omega), if_pos (by omega)]
            congr 1
            · omega
            · congr 1; omega
          | cons f ds =>
            have hd3 := h2 f (by simp)
            cases ds with
            | nil =>
              simp only [List.foldl_cons, List.foldl_nil] at h3
              rw [if_neg (by omega), if_neg (by omega)]
              congr 1
              · omega
              · congr 1
                · omega
                · congr 1; omega
            | cons g ds =>
              exfalso
              simp only [List.foldl_cons] at h3
              have := foldl_digits_ge ds ((((0 * 10 + (d - 48)) * 10 + (e - 48)) * 10 + (f - 48)) * 10 + (g - 48))
              omega

theorem stops_dot (r : List Nat) : Stops (46 :: r) := by
  intro c hc
  cases hc
  omega

theorem stops_nil : Stops [] := nofun

theorem ipDot_inv (s r : List Nat) (h : ipDot s = some r) : s = 46 :: r := by
  unfold ipDot at h
  split at h
  · cases h; rfl
  · cases h

/-! ## C150 -/

/-- C150, reading: a text is read as the IPv4 address a.b.c.d exactly when it is its
dotted decimal form. -/
theorem C150_read (t : List Nat) (a b c d : UInt8) :
    parseIPv4 t = some (a, b, c, d) ↔ t = Spec.dotted a b c d := by
  constructor
  · intro h
    unfold parseIPv4 at h
    simp only [Option.bind_eq_bind, Option.bind_eq_some_iff, Prod.exists] at h
    obtain ⟨a', s1, h1, s2, h2, b', s3, h3, s4, h4, c', s5, h5, s6, h6, d', s7, h7, h8⟩ := h
    split at h8
    · rename_i hnil
      cases h8
      obtain ⟨e1, -⟩ := ipField_inv _ _ _ h1
      obtain ⟨e3, -⟩ := ipField_inv _ _ _ h3
      obtain ⟨e5, -⟩ := ipField_inv _ _ _ h5
      obtain ⟨e7, -⟩ := ipField_inv _ _ _ h7
      rw [e1, ipDot_inv _ _ h2, e3, ipDot_inv _ _ h4, e5, ipDot_inv _ _ h6, e7, hnil, List.append_nil]
      rfl
    · cases h8
  · rintro rfl
    unfold parseIPv4 Spec.dotted
    have h4 := ipField_octet d [] stops_nil
    rw [List.append_nil] at h4
    simp only [ipField_octet _ _ (stops_dot _), ipDot, h4, Option.bind_eq_bind, Option.bind_some, if_true]

theorem decimal_octet (x : UInt8) : decimal x.toNat = Spec.octetText x := by
  have hx : x.toNat < 256 := x.toNat_lt
  unfold Spec.octetText
  rcases decimal_cases x.toNat with ⟨h, e⟩ | ⟨h, h', e⟩ | ⟨h, h', e⟩ | ⟨h, _⟩ | ⟨h, _⟩ | ⟨h, _⟩
  · rw [e, if_pos h]
  · rw [e, if_neg (by omega), if_pos h']
  · rw [e, if_neg (by omega), if_neg (by omega)]
  · omega
  · omega
  · omega

/-- The text the library makes of an address is the dotted decimal form. -/
theorem ipv4Text_dotted (a b c d : UInt8) : ipv4Text a b c d = Spec.dotted a b c d := by
  unfold ipv4Text Spec.dotted
  simp only [decimal_octet, List.append_assoc]
  rfl

/-- What reading of IPv6 text must satisfy: a ':' comes first, and no slash. -/
def V6Law (v6 : List Nat → Option (List UInt8)) : Prop :=
  ∀ s o, v6 s = some o → s.find? (fun c => c = 46 ∨ c = 58) = some 58 ∧ 47 ∉ s

theorem find_digits (l r : List Nat) (h : ∀ c ∈ l, Digit c) :
    (l ++ r).find? (fun c => c = 46 ∨ c = 58) = r.find? (fun c => c = 46 ∨ c = 58) := by
  rw [List.find?_append]
  have : l.find? (fun c => decide (c = 46 ∨ c = 58)) = none := by
    rw [List.find?_eq_none]
    intro c hc
    have := h c hc
    simp only [decide_eq_true_eq]
    omega
  rw [this, Option.none_or]

theorem find_dotted (a b c d : UInt8) (r : List Nat) :
    (Spec.dotted a b c d ++ r).find? (fun c => c = 46 ∨ c = 58) = some 46 := by
  unfold Spec.dotted
  rw [List.append_assoc, find_digits _ _ (octetText_digits a)]
  rfl

theorem dotted_chars (a b c d : UInt8) : ∀ x ∈ Spec.dotted a b c d, Digit x ∨ x = 46 := by
  intro x hx
  unfold Spec.dotted at hx
  simp only [List.mem_append, List.mem_cons] at hx
  rcases hx with h | h | h | h | h | h | h
  · exact .inl (octetText_digits _ x h)
  · exact .inr h
  · exact .inl (octetText_digits _ x h)
  · exact .inr h
  · exact .inl (octetText_digits _ x h)
  · exact .inr h
  · exact .inl (octetText_digits _ x h)

theorem dotted_noslash (a b c d : UInt8) : 47 ∉ Spec.dotted a b c d := by
  intro h
  rcases dotted_chars a b c d 47 h with h | h
  · omega
  · omega

theorem dotted_dot (a b c d : UInt8) : 46 ∈ Spec.dotted a b c d := by
  unfold Spec.dotted
  simp

theorem parseIP_dotted (v6 : List Nat → Option (List UInt8)) (a b c d : UInt8) :
    parseIP v6 (Spec.dotted a b c d) = .v4 a b c d := by
  unfold parseIP
  have := find_dotted a b c d []
  rw [List.append_nil] at this
  rw [this]
  simp only [if_true, (C150_read _ a b c d).mpr rfl]

/-- C150, round trip: the text made of any IPv4 address is read back as that address. -/
theorem C150_roundtrip (v6 : List Nat → Option (List UInt8)) (a b c d : UInt8) :
    parseIP v6 (ipv4Text a b c d) = .v4 a b c d := by
  rw [ipv4Text_dotted]
  exact parseIP_dotted v6 a b c d

/-- The text `whois.go` stores as the address of a device it found. -/
def foundText (f : FoundDevice) : List Nat :=
  match f.ip with
  | some (a, b, c, d) => ipv4Text a b c d
  | none => nilIPText

/-- C150, devices found: the octets of the address that discovery saw are those the
device built from the stored text is sent to. -/
theorem C150_found (v6 : List Nat → Option (List UInt8)) (f : FoundDevice) :
    parseIP v6 (foundText f) = f.toB.ip := by
  unfold foundText FoundDevice.toB
  cases f.ip with
  | none => rfl
  | some x => exact C150_roundtrip v6 _ _ _ _

example (v6 : List Nat → Option (List UInt8)) : parseIP v6 (t!"10.0.0.255") = .v4 10 0 0 255 :=
  parseIP_dotted v6 10 0 0 255
example : parseIPv4 (t!"10.0.0.256") = none := by decide +kernel
example : parseIPv4 (t!"10.00.0.2") = none := by decide +kernel
example : parseIPv4 (t!"10.0.0.2.") = none := by decide +kernel
example : ipv4Text 10 0 0 255 = t!"10.0.0.255" := (ipv4Text_dotted 10 0 0 255).trans (by decide)

/-! ## C151 -/

theorem parseIPv4_some {t : List Nat} {p : UInt8 × UInt8 × UInt8 × UInt8} (h : parseIPv4 t = some p) :
    t = Spec.dotted p.1 p.2.1 p.2.2.1 p.2.2.2 := (C150_read t _ _ _ _).mp h

theorem cidrHost_slash (v6 : List Nat → Option (List UInt8)) (law : V6Law v6) (t : List Nat)
    (h : 47 ∈ t) : cidrHost v6 t = .invalid := by
  unfold cidrHost
  cases h4 : parseIPv4 t with
  | some p =>
    rw [parseIPv4_some h4] at h
    exact absurd h (dotted_noslash _ _ _ _)
  | none =>
    cases h6 : v6 t with
    | none => rfl
    | some o => exact absurd h (law t o h6).2

theorem cidrHost_parseIP (v6 : List Nat → Option (List UInt8)) (law : V6Law v6) (t : List Nat) :
    cidrHost v6 t = parseIP v6 t := by
  unfold cidrHost
  cases h4 : parseIPv4 t with
  | some p =>
    obtain ⟨a, b, c, d⟩ := p
    rw [parseIPv4_some h4]
    exact (parseIP_dotted v6 a b c d).symm
  | none =>
    cases h6 : v6 t with
    | none =>
      unfold parseIP
      cases t.find? (fun c => c = 46 ∨ c = 58) with
      | none => rfl
      | some c =>
        simp only [h4, h6]
        split <;> rfl
    | some o =>
      unfold parseIP
      rw [(law t o h6).1]
      simp only [h6]
      rfl

theorem decimal_digits (n : Nat) : ∀ c ∈ decimal n, Digit c := by
  induction n using Nat.strongRecOn with
  | ind n ih =>
    intro c hc
    rw [decimal] at hc
    split at hc
    · simp only [List.mem_singleton] at hc
      omega
    · rcases List.mem_append.mp hc with hc | hc
      · exact ih (n / 10) (by omega) c hc
      · simp only [List.mem_singleton] at hc
        omega

theorem decimal_ne_nil (n : Nat) : decimal n ≠ [] := by
  rw [decimal]
  split <;> simp

theorem dtoiLoop_append (l : List Nat) : ∀ m n, dtoiLoop m l = some (n, []) → ∀ c, Digit c →
    n * 10 + (c - 48) < 0xFFFFFF → dtoiLoop m (l ++ [c]) = some (n * 10 + (c - 48), []) := by
  induction l with
  | nil =>
    intro m n h c hc hb
    cases h
    rw [List.nil_append, dtoiLoop_digit _ _ _ hc hb]
    rfl
  | cons x l ih =>
    intro m n h c hc hb
    rw [List.cons_append, dtoiLoop]
    rw [dtoiLoop] at h
    split at h
    · rename_i hx
      rw [if_pos hx]
      simp only at h ⊢
      split at h
      · cases h
      · rename_i hg
        rw [if_neg hg]
        exact ih _ _ h c hc hb
    · cases h

theorem dtoiLoop_decimal (n : Nat) (h : n < 0xFFFFFF) : dtoiLoop 0 (decimal n) = some (n, []) := by
  induction n using Nat.strongRecOn with
  | ind n ih =>
    rw [decimal]
    split
    · rw [dtoiLoop_digit _ _ _ (by omega) (by omega)]
      show some (0 * 10 + (48 + n - 48), []) = _
      congr 2; omega
    · rw [dtoiLoop_append _ _ _ (ih (n / 10) (by omega) (by omega)) _ (by omega) (by omega)]
      congr 2; omega

theorem dtoi_decimal (n : Nat) (h : n < 0xFFFFFF) : dtoi (decimal n) = some (n, []) := by
  have hd := decimal_digits n
  have hl := dtoiLoop_decimal n h
  cases hx : decimal n with
  | nil => exact absurd hx (decimal_ne_nil n)
  | cons c l =>
    rw [hx] at hd hl
    rw [dtoi_digit _ _ (hd c (by simp)), hl]

theorem digitsVal_foldl (l : List Nat) : ∀ m, l.foldl (fun a c => a * 10 + (c - 48)) m =
    l.foldl (fun a c => 10 * a + (c - 48)) m := by
  induction l with
  | nil => intro m; rfl
  | cons c l ih => intro m; simp only [List.foldl_cons, Nat.mul_comm m 10, ih]

theorem dtoi_decimal_val (n m : Nat) (h : dtoi (decimal n) = some (m, [])) : m = n := by
  obtain ⟨d, ds, h1, -, h3, -⟩ := dtoi_inv _ _ _ h
  rw [List.append_nil] at h1
  rw [← h1, digitsVal_foldl] at h3
  rw [h3]
  exact digitsVal_decimal n

theorem takeWhile_noslash (t r : List Nat) (h : 47 ∉ t) : (t ++ 47 :: r).takeWhile (· ≠ 47) = t ∧
    (t ++ 47 :: r).dropWhile (· ≠ 47) = 47 :: r := by
  induction t with
  | nil => exact ⟨rfl, rfl⟩
  | cons c t ih =>
    have hc : c ≠ 47 := fun e => h (by simp [e])
    obtain ⟨h1, h2⟩ := ih (fun hm => h (by simp [hm]))
    constructor
    · rw [List.cons_append, List.takeWhile_cons_of_pos (by simpa using hc), h1]
    · rw [List.cons_append, List.dropWhile_cons_of_pos (by simpa using hc), h2]

theorem dropWhile_slash (t r : List Nat) (h : 47 ∈ t) :
    ∃ u, (t ++ 47 :: r).dropWhile (· ≠ 47) = 47 :: (u ++ 47 :: r) := by
  induction t with
  | nil => cases h
  | cons c t ih =>
    by_cases hc : c = 47
    · subst hc
      exact ⟨t, rfl⟩
    · have hm : 47 ∈ t := by
        rcases List.mem_cons.mp h with h | h
        · exact absurd h.symm hc
        · exact h
      obtain ⟨u, hu⟩ := ih hm
      exact ⟨u, by rw [List.cons_append, List.dropWhile_cons_of_pos (by simpa using hc), hu]⟩

/-- C151, reading the configuration: for every text and every prefix length, the network
read from `text/length` is the one of the address the text denotes with this length, and
none when the text is not an address or the length is out of range. -/
theorem C151_refines (v6 : List Nat → Option (List UInt8)) (law : V6Law v6) (t : List Nat) (n : Int) :
    fromIPText v6 t n = parseCIDR (parseIP v6 t) n := by
  unfold fromIPText parseCIDRText
  rw [List.append_assoc, List.singleton_append]
  by_cases hs : 47 ∈ t
  · obtain ⟨u, hu⟩ := dropWhile_slash t (sprintD n) hs
    rw [hu]
    simp only
    rw [← cidrHost_parseIP v6 law, cidrHost_slash v6 law t hs]
    split
    · rename_i m hm
      obtain ⟨d, ds, h1, h2, -, -⟩ := dtoi_inv _ _ _ hm
      rw [List.append_nil] at h1
      have hdig := h2 47 (by rw [← h1]; simp)
      exact absurd hdig (by decide)
    · rfl
  · obtain ⟨h1, h2⟩ := takeWhile_noslash t (sprintD n) hs
    rw [h1, h2]
    simp only
    rw [cidrHost_parseIP v6 law]
    unfold sprintD
    by_cases hn : n < 0
    · rw [if_pos hn]
      have : dtoi (45 :: decimal n.natAbs) = none := rfl
      rw [this]
      simp only
      unfold parseCIDR
      cases parseIP v6 t with
      | invalid => rfl
      | v4 a b c d => simp only; rw [if_neg (by omega)]
      | v6 o => simp only; rw [if_neg (by omega)]
    · rw [if_neg hn]
      by_cases hb : n.toNat < 0xFFFFFF
      · rw [dtoi_decimal _ hb]
        simp only
        congr 1
        omega
      · have hnone : ∀ h : Host, parseCIDR h n = none := by
          intro h
          unfold parseCIDR
          cases h with
          | invalid => rfl
          | v4 a b c d => simp only; rw [if_neg (by omega)]
          | v6 o => simp only; rw [if_neg (by omega)]
        rw [hnone]
        split
        · rename_i m hm
          have := dtoi_decimal_val _ _ hm
          subst this
          rw [show ((n.toNat : Nat) : Int) = n from by omega]
          exact hnone _
        · rfl

/-- C151: the network of a client configured with the dotted text of an IPv4 address and a
length from 0 to 32 is opened on exactly that address. -/
theorem C151_opened (v6 : List Nat → Option (List UInt8)) (law : V6Law v6) (a b c d : UInt8) (n : Int) :
    (0 ≤ n ∧ n ≤ 32 → ∃ x, fromIPText v6 (Spec.dotted a b c d) n = some x ∧ x.ip = ipv4 a b c d) ∧
    (¬ (0 ≤ n ∧ n ≤ 32) → fromIPText v6 (Spec.dotted a b c d) n = none) := by
  rw [C151_refines v6 law, parseIP_dotted]
  constructor
  · intro h
    refine ⟨{ ip := ipv4 a b c d, net := List.zipWith (· &&& ·) [a, b, c, d] (cidrMask 4 n.toNat), mask := cidrMask 4 n.toNat }, ?_, rfl⟩
    simp only [parseCIDR, if_pos h]
  · intro h
    simp only [parseCIDR, if_neg h]

/-- The validation of address and length says exactly whether the network can be read. -/
theorem C151_valid (v6 : List Nat → Option (List UInt8)) (law : V6Law v6) (t : List Nat) (n : Int) :
    validCIDRText v6 t n = validCIDR (parseIP v6 t) n := by
  unfold validCIDRText validCIDR
  rw [← C151_refines v6 law]
  rfl

/-- No IPv6 at all satisfies the law. -/
theorem noV6 : V6Law (fun _ => none) := nofun

example : fromIPText (fun _ => none) (t!"192.168.15.10") 24
    = some ⟨ipv4 192 168 15 10, [192, 168, 15, 0], [255, 255, 255, 0]⟩ := by
  rw [C151_refines _ noV6]; decide +kernel
example : fromIPText (fun _ => none) (t!"192.168.15.10/24") 24 = none := by
  rw [C151_refines _ noV6]; decide +kernel

/-! ## C149 -/

theorem parseIP_valid (v6 : List Nat → Option (List UInt8)) (law : V6Law v6) (u : List Nat) :
    parseIP v6 u ≠ .invalid ↔ (∃ a b c d, u = Spec.dotted a b c d) ∨ (v6 u).isSome := by
  rw [← cidrHost_parseIP v6 law]
  unfold cidrHost
  cases h4 : parseIPv4 u with
  | some p =>
    simp only [ne_eq, reduceCtorEq, not_false_eq_true, true_iff]
    exact .inl ⟨_, _, _, _, parseIPv4_some h4⟩
  | none =>
    have hno : ¬ ∃ a b c d, u = Spec.dotted a b c d := by
      rintro ⟨a, b, c, d, h⟩
      rw [(C150_read u a b c d).mpr h] at h4
      cases h4
    cases h6 : v6 u with
    | none => simp [hno]
    | some o => simp

theorem suffix_split (t suf : List Nat) (h : hasSuffix t suf = true) : t = trimSuffix t suf ++ suf := by
  obtain ⟨u, hu⟩ := List.isSuffixOf_iff_suffix.mp h
  subst hu
  unfold trimSuffix
  simp

theorem hasSuffix_append (u suf : List Nat) : hasSuffix (u ++ suf) suf = true :=
  List.isSuffixOf_iff_suffix.mpr ⟨u, rfl⟩

theorem trimSuffix_append (u suf : List Nat) : trimSuffix (u ++ suf) suf = u := by
  unfold trimSuffix; simp

theorem hasSuffix_noslash (u suf : List Nat) (hs : 47 ∈ suf) (h : 47 ∉ u) : hasSuffix u suf = false := by
  cases hx : hasSuffix u suf with
  | false => rfl
  | true =>
    exfalso
    rw [suffix_split u suf hx] at h
    exact h (by simp [hs])

theorem suffix32_128 (u : List Nat) : hasSuffix (u ++ t!"/128") (t!"/32") = false := by
  unfold hasSuffix List.isSuffixOf
  rw [List.reverse_append]
  rfl

theorem valid_noslash (v6 : List Nat → Option (List UInt8)) (law : V6Law v6) (u : List Nat)
    (h : (∃ a b c d, u = Spec.dotted a b c d) ∨ (v6 u).isSome) : 47 ∉ u := by
  rcases h with ⟨a, b, c, d, rfl⟩ | h
  · exact dotted_noslash a b c d
  · obtain ⟨o, ho⟩ := Option.isSome_iff_exists.mp h
    exact (law u o ho).2

/-- C149, exactly what is accepted: an address, an address with "/128", or one that
contains a dot with "/32". -/
theorem C149_exact (v6 : List Nat → Option (List UInt8)) (law : V6Law v6) (t : List Nat) :
    validIP v6 t = true ↔ ∃ u, ((∃ a b c d, u = Spec.dotted a b c d) ∨ (v6 u).isSome) ∧
      (t = u ∨ (t = u ++ t!"/32" ∧ 46 ∈ u) ∨ t = u ++ t!"/128") := by
  unfold validIP
  simp only [decide_eq_true_eq]
  constructor
  · intro h
    refine ⟨normaliseIPAddr t, (parseIP_valid v6 law _).mp h, ?_⟩
    unfold normaliseIPAddr
    split
    · rename_i hc
      right; left
      have e := suffix_split t _ hc.1
      refine ⟨e, ?_⟩
      have hm := hc.2
      rw [e] at hm
      rcases List.mem_append.mp hm with hm | hm
      · exact hm
      · exact absurd hm (by decide)
    · split
      · rename_i hc
        right; right
        exact suffix_split t _ hc
      · left; rfl
  · rintro ⟨u, hu, ht⟩
    have hn := valid_noslash v6 law u hu
    have hv := (parseIP_valid v6 law u).mpr hu
    rcases ht with rfl | ⟨rfl, hd⟩ | rfl
    · unfold normaliseIPAddr
      rw [if_neg (by rw [hasSuffix_noslash _ _ (by decide) hn]; simp),
        if_neg (by rw [hasSuffix_noslash _ _ (by decide) hn]; simp)]
      exact hv
    · unfold normaliseIPAddr
      rw [if_pos ⟨hasSuffix_append _ _, by simp [hd]⟩, trimSuffix_append]
      exact hv
    · unfold normaliseIPAddr
      rw [if_neg (by rw [suffix32_128]; simp), if_pos (hasSuffix_append _ _), trimSuffix_append]
      exact hv

theorem parseIP_slash (v6 : List Nat → Option (List UInt8)) (law : V6Law v6) (t : List Nat) (h : 47 ∈ t) :
    parseIP v6 t = .invalid := by
  rw [← cidrHost_parseIP v6 law]
  exact cidrHost_slash v6 law t h

/-- C149: an accepted text that is the dotted form of an address gives the octets of the
address.  Missing: texts with a suffix (`C149_fails`) and IPv6 (`C149_fails_v6`). -/
theorem C149_partial (v6 : List Nat → Option (List UInt8)) (law : V6Law v6) (t : List Nat) (port : UInt16)
    (hv : validIP v6 t = true) (hs : 47 ∉ t) (h6 : v6 t = none) :
    ∃ a b c d, t = Spec.dotted a b c d ∧
      ipBytesText v6 t port = [a, b, c, d] ++ Spec.bigEndian 2 port.toNat := by
  obtain ⟨u, hu, ht⟩ := (C149_exact v6 law t).mp hv
  rcases ht with rfl | ⟨rfl, _⟩ | rfl
  · rcases hu with ⟨a, b, c, d, rfl⟩ | hu
    · refine ⟨a, b, c, d, rfl, ?_⟩
      unfold ipBytesText
      rw [parseIP_dotted]
      show [a, b, c, d] ++ be16 port = _
      rw [be16_spec]
    · rw [h6] at hu; cases hu
  · exact absurd (by simp) hs
  · exact absurd (by simp) hs

/-- C149 fails for every IPv4 address with the suffix "/32" or "/128": the text is
accepted, but the device built from it has the address 0.0.0.0, and a client cannot be
opened with it. -/
theorem C149_fails (v6 : List Nat → Option (List UInt8)) (law : V6Law v6) (a b c d : UInt8) (port : UInt16)
    (n : Int) (t : List Nat) (ht : t = Spec.dotted a b c d ++ t!"/32" ∨ t = Spec.dotted a b c d ++ t!"/128") :
    validIP v6 t = true ∧ ipBytesText v6 t port = [0, 0, 0, 0] ++ Spec.bigEndian 2 port.toNat ∧
      fromIPText v6 t n = none := by
  have hsl : 47 ∈ t := by rcases ht with rfl | rfl <;> simp
  refine ⟨?_, ?_, ?_⟩
  · rw [C149_exact v6 law]
    refine ⟨Spec.dotted a b c d, .inl ⟨a, b, c, d, rfl⟩, ?_⟩
    rcases ht with rfl | rfl
    · exact .inr (.inl ⟨rfl, dotted_dot a b c d⟩)
    · exact .inr (.inr rfl)
  · unfold ipBytesText
    rw [parseIP_slash v6 law t hsl, ← be16_spec]
    rfl
  · rw [C151_refines v6 law, parseIP_slash v6 law t hsl]
    rfl

/-- C149 fails for IPv6 addresses that are not IPv4 addresses in disguise: accepted, and
the device is built with the address 0.0.0.0. -/
theorem C149_fails_v6 (v6 : List Nat → Option (List UInt8)) (law : V6Law v6) (t : List Nat) (o : List UInt8)
    (port : UInt16) (h : v6 t = some o) (hl : o.length = 16)
    (hm : o.take 12 ≠ [0, 0, 0, 0, 0, 0, 0, 0, 0, 0, 0xFF, 0xFF]) :
    validIP v6 t = true ∧ ipBytesText v6 t port = [0, 0, 0, 0] ++ Spec.bigEndian 2 port.toNat := by
  constructor
  · rw [C149_exact v6 law]
    exact ⟨t, .inr (by rw [h]; rfl), .inl rfl⟩
  · unfold ipBytesText ipBytes
    have hp : parseIP v6 t = .v6 o := by
      unfold parseIP
      rw [(law t o h).1]
      simp only [h]
      rfl
    have h4 : to4 o = [] := by
      unfold to4
      rw [if_neg (by omega), if_neg (by rintro ⟨_, h⟩; exact hm h)]
    rw [hp, be16_spec]
    simp only [packIP4, h4]

example : validIP (fun _ => none) (t!"10.0.0.5/32") = true ∧
    ipBytesText (fun _ => none) (t!"10.0.0.5/32") 47808 = [0, 0, 0, 0, 0xBA, 0xC0] := by
  decide +kernel
example : ipBytesText (fun _ => none) (t!"10.0.0.5") 47808 = [10, 0, 0, 5, 0xBA, 0xC0] := by decide +kernel
example : validIP (fun _ => none) (t!"10.0.0.5/24") = false := by decide +kernel

/-! ## C152 -/

theorem split_text (x : Nat) (l l' r r' : List Nat) (h : x ∉ l) (h' : x ∉ l')
    (e : l ++ x :: r = l' ++ x :: r') : l = l' ∧ r = r' := by
  induction l generalizing l' with
  | nil =>
    cases l' with
    | nil => exact ⟨rfl, by simpa using e⟩
    | cons c l' =>
      simp only [List.nil_append, List.cons_append, List.cons.injEq] at e
      exact absurd (by simp [e.1]) h'
  | cons c l ih =>
    cases l' with
    | nil =>
      simp only [List.nil_append, List.cons_append, List.cons.injEq] at e
      exact absurd (by simp [e.1]) h
    | cons c' l' =>
      simp only [List.cons_append, List.cons.injEq] at e
      obtain ⟨g1, g2⟩ := ih l' (fun hm => h (by simp [hm])) (fun hm => h' (by simp [hm])) e.2
      exact ⟨by rw [e.1, g1], g2⟩

theorem decimal_notMem (n x : Nat) (hx : ¬ Digit x) : x ∉ decimal n := fun h => hx (decimal_digits n x h)

/-- C152: the text of an object identifier determines it: two different identifiers never
have the same text. -/
theorem C152 (a b : ObjectID) (h : objectIDString a = objectIDString b) : a = b := by
  unfold objectIDString at h
  simp only [List.append_assoc] at h
  have h := List.append_cancel_left h
  have h32 : ∀ n, 32 ∉ decimal n := fun n => decimal_notMem n 32 (by omega)
  obtain ⟨h1, h2⟩ := split_text 32 _ _ (t!"Type: " ++ objectTypeString a.typ)
    (t!"Type: " ++ objectTypeString b.typ) (h32 _) (h32 _) h
  have h3 := objectTypeString_inj (List.append_cancel_left h2)
  have h4 := UInt32.toNat_inj.mp (decimal_inj h1)
  cases a; cases b
  simp only at h3 h4
  rw [h3, h4]

example : objectIDString ⟨8, 1234⟩ = t!"Instance: 1234 Type: Device" := by decide +kernel
example : objectIDString ⟨129, 7⟩ = t!"Instance: 7 Type: Unknown (129)" := by decide +kernel

/-! ## C153 -/

/-- The properties that have a name in the library. -/
def C153_named : List UInt32 := [8, 28, 42, 43, 70, 75, 76, 77, 78, 79, 85, 87, 117]

theorem propertyString_unknown (p : UInt32) (h : p ∉ C153_named) : propertyString p = t!"Unknown" := by
  unfold propertyString
  have : mapGet p propertyStrMapping = none := by
    cases hg : mapGet p propertyStrMapping with
    | none => rfl
    | some s =>
      exfalso
      have := mapGet_mem hg
      have hall : ∀ e ∈ propertyStrMapping, e.1 ∈ C153_named := by decide +kernel
      exact h (hall _ this)
  rw [this]

theorem propertyString_named (p : UInt32) (h : p ∈ C153_named) :
    ∃ s, (p, s) ∈ propertyStrMapping ∧ propertyString p = s ++ t!" (" ++ decimal p.toNat ++ t!")" := by
  have hall : ∀ p ∈ C153_named, mapGet p propertyStrMapping ≠ none := by decide +kernel
  unfold propertyString
  cases hg : mapGet p propertyStrMapping with
  | none => exact absurd hg (hall p h)
  | some s => exact ⟨s, mapGet_mem hg, rfl⟩

theorem propertyString_eq (p q : UInt32) :
    propertyString p = propertyString q ↔ p = q ∨ (p ∉ C153_named ∧ q ∉ C153_named) := by
  have table : ∀ e ∈ propertyStrMapping, 40 ∉ e.2 := by decide +kernel
  have h41 : ∀ n, 41 ∉ decimal n := fun n => decimal_notMem n 41 (by omega)
  have key : ∀ p q, p ∈ C153_named → q ∉ C153_named → propertyString p ≠ propertyString q := by
    intro p q hp hq e
    obtain ⟨s, _, e1⟩ := propertyString_named p hp
    rw [e1, propertyString_unknown q hq] at e
    have : 40 ∈ (t!"Unknown") := by rw [← e]; simp
    exact absurd this (by decide)
  constructor
  · intro h
    by_cases hp : p ∈ C153_named
    · by_cases hq : q ∈ C153_named
      · left
        obtain ⟨s, h1, e1⟩ := propertyString_named p hp
        obtain ⟨r, h2, e2⟩ := propertyString_named q hq
        rw [e1, e2] at h
        have h' : (s ++ [32]) ++ 40 :: (decimal p.toNat ++ t!")") = (r ++ [32]) ++ 40 :: (decimal q.toNat ++ t!")") := by
          simpa [List.append_assoc] using h
        obtain ⟨_, g⟩ := split_text 40 _ _ _ _ (by simp [table _ h1]) (by simp [table _ h2]) h'
        obtain ⟨g, _⟩ := split_text 41 _ _ [] [] (h41 _) (h41 _) g
        exact UInt32.toNat_inj.mp (decimal_inj g)
      · exact absurd h (key p q hp hq)
    · by_cases hq : q ∈ C153_named
      · exact absurd h.symm (key q p hq hp)
      · exact .inr ⟨hp, hq⟩
  · rintro (rfl | ⟨hp, hq⟩)
    · rfl
    · rw [propertyString_unknown p hp, propertyString_unknown q hq]

/-- C153 fails: the answer for a property without a name prints the same text as the
answer for any other such property of the same object with the same value. -/
theorem C153_fails (show_ : Value → List Nat) (id : ObjectID) (p q idx : UInt32) (v : Value) (r r' : UInt8)
    (hp : p ∉ C153_named) (hq : q ∉ C153_named) :
    multiString show_ [{ id := id, properties := [⟨p, idx, v, r⟩] }] =
      multiString show_ [{ id := id, properties := [⟨q, idx, v, r'⟩] }] := by
  have : propertyLine show_ ⟨p, idx, v, r⟩ = propertyLine show_ ⟨q, idx, v, r'⟩ := by
    unfold propertyLine
    simp only [propertyString_unknown p hp, propertyString_unknown q hq]
  simp only [multiString, objectLines, List.flatMap_cons, List.flatMap_nil, this]

theorem objectTypeString_noline (t : UInt16) : 10 ∉ objectTypeString t := by
  rcases objectTypeString_cases t with ⟨s, hs, e⟩ | ⟨_, e⟩
  · rw [e]
    have : ∀ x ∈ objTypeMap, 10 ∉ x.2 := by decide +kernel
    exact this _ hs
  · rw [e]
    have := decimal_notMem t.toNat 10 (by omega)
    simp [this]

theorem objectIDString_noline (id : ObjectID) : 10 ∉ objectIDString id := by
  unfold objectIDString
  have := decimal_notMem id.inst.toNat 10 (by omega)
  simp [this, objectTypeString_noline]

theorem propertyString_nobracket (p : UInt32) : 91 ∉ propertyString p := by
  by_cases h : p ∈ C153_named
  · obtain ⟨s, hs, e⟩ := propertyString_named p h
    have : ∀ x ∈ propertyStrMapping, 91 ∉ x.2 := by decide +kernel
    have h2 := decimal_notMem p.toNat 91 (by omega)
    rw [e]
    simp [this _ hs, h2]
  · rw [propertyString_unknown p h]; decide

/-- C153: the printed answers of two reads of one property with equal values agree
exactly when object and index agree and the properties agree or both have no name.
Missing: telling apart properties without a name (`C153_fails`). -/
theorem C153_partial (show_ : Value → List Nat) (id id' : ObjectID) (p q idx idx' : UInt32) (v : Value) (r r' : UInt8) :
    multiString show_ [{ id := id, properties := [⟨p, idx, v, r⟩] }] =
      multiString show_ [{ id := id', properties := [⟨q, idx', v, r'⟩] }] ↔
    id = id' ∧ idx = idx' ∧ (p = q ∨ (p ∉ C153_named ∧ q ∉ C153_named)) := by
  rw [← propertyString_eq]
  constructor
  · intro h
    simp only [multiString, objectLines, List.flatMap_cons, List.flatMap_nil, List.append_nil] at h
    have e : ∀ (i : ObjectID) (l : List Nat), objectIDString i ++ [10] ++ l ++ [10] = objectIDString i ++ 10 :: (l ++ [10]) := by
      intro i l; simp
    rw [e, e] at h
    obtain ⟨h1, h2⟩ := split_text 10 _ _ _ _ (objectIDString_noline _) (objectIDString_noline _) h
    have h3 := C152 _ _ h1
    have e2 : ∀ (p idx : UInt32) (r : UInt8), propertyLine show_ ⟨p, idx, v, r⟩ ++ [10] =
        t!"    " ++ (propertyString p ++ 91 :: (decimal idx.toNat ++ 93 :: (t!": " ++ show_ v ++ [10] ++ [10]))) := by
      intro p idx r
      simp [propertyLine]
    rw [e2, e2] at h2
    have h2 := List.append_cancel_left h2
    obtain ⟨h4, h5⟩ := split_text 91 _ _ _ _ (propertyString_nobracket _) (propertyString_nobracket _) h2
    have h93 : ∀ n, 93 ∉ decimal n := fun n => decimal_notMem n 93 (by omega)
    obtain ⟨h6, _⟩ := split_text 93 _ _ _ _ (h93 _) (h93 _) h5
    exact ⟨h3, UInt32.toNat_inj.mp (decimal_inj h6), h4⟩
  · rintro ⟨rfl, rfl, h⟩
    have : propertyLine show_ ⟨p, idx, v, r⟩ = propertyLine show_ ⟨q, idx, v, r'⟩ := by
      unfold propertyLine
      simp only [h]
    simp only [multiString, objectLines, List.flatMap_cons, List.flatMap_nil, this]

/-- Reliability (103) and status flags (111) have no name. -/
example : multiString (fun _ => t!"0") [{ id := ⟨0, 1⟩, properties := [⟨103, 0xFFFFFFFF, .one (.uint 0), 0⟩] }]
    = t!"Instance: 1 Type: AnalogInput" ++ [10] ++ t!"    Unknown[4294967295]: 0" ++ [10, 10] := by decide +kernel
example : (103 : UInt32) ∉ C153_named ∧ (111 : UInt32) ∉ C153_named := by decide

/-! ## C148 -/

/-- The Go type of the value a device sent. -/
def C148_type : AppVal → GoType
  | .null => .null
  | .bool _ => .bool
  | .unsigned _ => .uint32
  | .signed _ => .int32
  | .real _ => .float32
  | .double _ => .float64
  | .octets _ => .bytes
  | .chars _ => .string
  | .bits _ => .bitString
  | .enum _ => .uint32
  | .date .. => .date
  | .time .. => .time
  | .objId .. => .objectID

theorem decoded_type {s : Scalar} {v : AppVal} (h : DecodedAs s v) : (Value.one s).goType = C148_type v := by
  obtain ⟨hm, hne⟩ := h
  cases v with
  | enum n =>
    obtain ⟨x, hx | hx, _⟩ := hm
    · subst hx; rfl
    · exact absurd hx (hne x)
  | unsigned n => obtain ⟨x, hx, _⟩ := hm; subst hx; rfl
  | signed n => obtain ⟨x, hx, _⟩ := hm; subst hx; rfl
  | bits l => obtain ⟨x, hx, _⟩ := hm; subst hx; rfl
  | objId t i => obtain ⟨x, hx, _⟩ := hm; subst hx; rfl
  | _ => simp only [Means] at hm; subst hm; rfl

/-- C148, exactly: for every device, object and value, when the device answers a read with
this one value, the functions that fetch a value of a Go type give it when its type is
the one asked for and nothing otherwise. -/
theorem C148_exact (w : Wire) (hmy : w.my.net = 0) (d : NetDevice) (o : NetObject) (ho : o.Valid) (c : Calls)
    (v : AppVal) (hv : C71_Readable v) (hf : 1 < w.fuel) (h : Answered w c.length o [v]) :
    ∃ s out c', DecodedAs s v ∧ d.read w.reader (some o) c = (c', .ok (.ok out)) ∧
      (∀ want, assertFirst want out = if C148_type v = want then some (.one s) else none) ∧
      (∀ want, indexFirst want out = .ok (if C148_type v = want then some (.one s) else none)) := by
  obtain ⟨ss, out, hss, -, h2, h3⟩ := read_answered w hmy d o ho c [v] (by simpa using hv) (by simpa using hf) h
  cases hss with
  | cons hs hnil =>
    cases hnil
    rename_i s
    refine ⟨s, out, _, hs, h3, ?_, ?_⟩
    · intro want
      unfold assertFirst
      rw [h2]
      simp only [shape_one, decoded_type hs]
    · intro want
      unfold indexFirst
      rw [h2]
      simp only [shape_one, decoded_type hs]

/-- C148: Booleans, double-precision numbers and bit strings of at most 120 bits are
fetched as sent.  Missing: signed integers (`C148_fails`). -/
theorem C148_partial (w : Wire) (hmy : w.my.net = 0) (d : NetDevice) (o : NetObject) (ho : o.Valid) (c : Calls)
    (v : AppVal) (hv : C71_Readable v) (hf : 1 < w.fuel) (h : Answered w c.length o [v]) :
    ∃ out c', d.read w.reader (some o) c = (c', .ok (.ok out)) ∧
      (∀ b, v = .bool b → toBool out = some (.one (.bool b))) ∧
      (∀ x, v = .double x → toFloat64 out = some (.one (.double x))) ∧
      (∀ l, v = .bits l → ∃ x, toBitString out = .ok (some (.one (.bits (some x)))) ∧ x.getValue = .ok l) := by
  obtain ⟨s, out, c', hs, hr, h1, h2⟩ := C148_exact w hmy d o ho c v hv hf h
  refine ⟨out, c', hr, ?_, ?_, ?_⟩
  · rintro b rfl
    have e : s = .bool b := hs.1
    rw [toBool, h1, if_pos (show C148_type (.bool b) = .bool from rfl), e]
  · rintro x rfl
    have e : s = .double x := hs.1
    rw [toFloat64, h1, if_pos (show C148_type (.double x) = .float64 from rfl), e]
  · rintro l rfl
    obtain ⟨x, e, hx⟩ := hs.1
    exact ⟨x, by rw [toBitString, h2, if_pos (show C148_type (.bits l) = .bitString from rfl), e], hx⟩

/-- C148 fails: a signed integer is never fetched as an integer: for all values a device
may answer with, the function for integers gives nothing. -/
theorem C148_fails (w : Wire) (hmy : w.my.net = 0) (d : NetDevice) (o : NetObject) (ho : o.Valid) (c : Calls)
    (vs : List AppVal) (hvs : ∀ v ∈ vs, C71_Readable v) (hf : vs.length < w.fuel) (h : Answered w c.length o vs) :
    ∃ out c', d.read w.reader (some o) c = (c', .ok (.ok out)) ∧ toInt out = none := by
  obtain ⟨ss, out, hss, -, h2, h3⟩ := read_answered w hmy d o ho c vs hvs hf h
  refine ⟨out, _, h3, ?_⟩
  unfold toInt assertFirst
  rw [h2]
  simp only
  rw [if_neg]
  unfold shape
  split
  · rename_i hl
    match ss, hss with
    | [], _ => cases hl
    | [s], hss =>
      cases hss with
      | cons hs hnil =>
        show (Value.one s).goType ≠ _
        rw [decoded_type hs]
        rename_i v _
        cases v <;> exact nofun
    | _ :: _ :: _, _ => simp at hl
  · exact nofun

/-! ## C154 -/

/-- C154, exactly: fetching a list or a bit string crashes when and only when the data has
no property. -/
theorem C154_exact (want : GoType) (d : PropertyData) :
    indexFirst want d = .panic .indexOutOfRange ↔ d.object.properties = [] := by
  unfold indexFirst
  cases d.object.properties with
  | nil => simp
  | cons p ps => simp

/-- C154 fails: after every failed read the data handed over makes the two functions
crash, while those for numbers, texts and truth values give nothing. -/
theorem C154_fails (e : NetErr) : toBitString (dataOf (.error e)) = .panic .indexOutOfRange ∧
    toArr (dataOf (.error e)) = .panic .indexOutOfRange ∧
    toInt (dataOf (.error e)) = none ∧ toBool (dataOf (.error e)) = none ∧
    toFloat64 (dataOf (.error e)) = none ∧ toStr (dataOf (.error e)) = [] ∧
    toUint32 (dataOf (.error e)) = 0 ∧ toFloat32 (dataOf (.error e)) = 0 := ⟨rfl, rfl, rfl, rfl, rfl, rfl, rfl, rfl⟩

/-- C154: with the answer of a device, however many values it has, none of them crashes.
Missing: failed reads (`C154_fails`). -/
theorem C154_partial (w : Wire) (hmy : w.my.net = 0) (d : NetDevice) (o : NetObject) (ho : o.Valid) (c : Calls)
    (vs : List AppVal) (hvs : ∀ v ∈ vs, C71_Readable v) (hf : vs.length < w.fuel) (h : Answered w c.length o vs) :
    ∃ out c', d.read w.reader (some o) c = (c', .ok (.ok out)) ∧
      (∃ r, toBitString out = .ok r) ∧ (∃ r, toArr out = .ok r) := by
  obtain ⟨ss, out, hss, -, h2, h3⟩ := read_answered w hmy d o ho c vs hvs hf h
  refine ⟨out, _, h3, ?_, ?_⟩
  · unfold toBitString indexFirst
    rw [h2]
    exact ⟨_, rfl⟩
  · unfold toArr
    rw [h2]
    simp only
    split
    · exact ⟨_, rfl⟩
    · exact ⟨_, rfl⟩

/-- -5 comes as a value of type int32. -/
example : assertFirst .int { object := { properties := [⟨85, arrayAll, .one (.int (-5)), 0⟩] } } = none ∧
    assertFirst .int32 { object := { properties := [⟨85, arrayAll, .one (.int (-5)), 0⟩] } }
      = some (.one (.int (-5))) := by decide +kernel
example : toBitString {} = .panic .indexOutOfRange := rfl

end Bac.Props
