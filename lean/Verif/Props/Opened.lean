import Verif.Props.DataLink
/-!
# C62: exactly which clients are opened, and which as asked for
-/

namespace Bac.Props

/-- The client got a link. -/
def C62_Opened (r : Outcome Opened) (l : Link) : Prop := ∃ o, r = .ok o ∧ o.link = some l

/-- The link is the one asked for: bound to the port (47808 for 0), and broadcasting to the last address of
the subnet of the given prefix length. -/
def C62_AsAsked (cb : Config) (a b c d : UInt8) (l : Link) : Prop :=
  l.listen = (if cb.port = 0 then 47808 else cb.port) ∧
  ∃ e f g i, Spec.IsEndpoint l.broadcast.mac e f g i 47808 ∧ 0 ≤ cb.subnet ∧
    Spec.IsLast cb.subnet.toNat (Spec.ipNumber a b c d) (Spec.ipNumber e f g i)

/-- C62, exactly: a client with an IPv4 address is opened exactly if the port is a prefix length other than 0
and the port given as prefix length (47808 for 0, any for no port) is free; it is the one asked for exactly
if, moreover, port and prefix length are the same number. -/
theorem C62_exact (free : Int → Bool) (cb : Config) (a b c d : UInt8) (hi : cb.iface = none)
    (hh : cb.host = .v4 a b c d) :
    ((∃ l, C62_Opened (newClient free cb) l) ↔
      (1 ≤ cb.port ∧ cb.port ≤ 32) ∧
        free (if cb.subnet = 0 then 47808 else if 0 < cb.subnet ∧ cb.subnet < 65536 then cb.subnet else 0) = true) ∧
    ((∃ l, C62_Opened (newClient free cb) l ∧ C62_AsAsked cb a b c d l) ↔
      (1 ≤ cb.port ∧ cb.port ≤ 32) ∧ cb.subnet = cb.port ∧ free cb.port = true) := by
  have hport : resolvePort (if cb.subnet = 0 then 0xBAC0 else cb.subnet) =
      (if cb.subnet = 0 then 47808 else if 0 < cb.subnet ∧ cb.subnet < 65536 then cb.subnet else 0) := by
    unfold resolvePort
    by_cases h0 : cb.subnet = 0
    · simp [h0]
    · rw [if_neg h0, if_neg h0]
      by_cases h1 : 0 < cb.subnet ∧ cb.subnet < 65536
      · rw [if_pos h1, if_pos (by omega)]
      · rw [if_neg h1, if_neg (by omega)]
  -- the first statement, with the port the link listens on
  have open_ : ∀ l, C62_Opened (newClient free cb) l → (1 ≤ cb.port ∧ cb.port ≤ 32) ∧
      l.listen = resolvePort (if cb.subnet = 0 then 0xBAC0 else cb.subnet) ∧
      free (resolvePort (if cb.subnet = 0 then 0xBAC0 else cb.subnet)) = true := by
    rintro l ⟨o, ho, hl⟩
    by_cases hp : 1 ≤ cb.port ∧ cb.port ≤ 32
    · refine ⟨hp, ?_⟩
      obtain ⟨n, hn⟩ : ∃ n : Nat, cb.port = n := ⟨cb.port.toNat, by omega⟩
      by_cases hf : free (resolvePort (if cb.subnet = 0 then 0xBAC0 else cb.subnet)) = true
      · obtain ⟨l', e, f, g, i, h1, h2, _⟩ := dataLink_v4 free a b c d n (by omega) cb.subnet hf
        refine ⟨?_, hf⟩
        simp only [newClient, hi] at ho
        rw [if_neg (by omega), newUDPDataLinkFromIP, hh, hn, h1] at ho
        simp only [Outcome.ok.injEq] at ho
        rw [← ho] at hl
        obtain rfl := Option.some.inj hl
        exact h2
      · exfalso
        simp only [newClient, hi] at ho
        rw [if_neg (by omega), newUDPDataLinkFromIP, hh] at ho
        simp only [dataLink, parseCIDR] at ho
        rw [if_pos (by omega)] at ho
        simp only [if_neg hf, Outcome.ok.injEq] at ho
        rw [← ho] at hl
        exact nomatch hl
    · obtain ⟨o', ho', hl', _⟩ := C62_fails free cb a b c d hi hh (by omega)
      rw [ho'] at ho
      obtain rfl := Outcome.ok.inj ho
      rw [hl'] at hl
      exact nomatch hl
  have back : (1 ≤ cb.port ∧ cb.port ≤ 32) →
      free (resolvePort (if cb.subnet = 0 then 0xBAC0 else cb.subnet)) = true →
      ∃ l e f g i, C62_Opened (newClient free cb) l ∧
        l.listen = resolvePort (if cb.subnet = 0 then 0xBAC0 else cb.subnet) ∧
        Spec.IsEndpoint l.broadcast.mac e f g i 47808 ∧
        Spec.IsLast cb.port.toNat (Spec.ipNumber a b c d) (Spec.ipNumber e f g i) := by
    intro hp hf
    obtain ⟨n, hn⟩ : ∃ n : Nat, cb.port = n := ⟨cb.port.toNat, by omega⟩
    obtain ⟨l, e, f, g, i, h1, h2, h3, h4, h5⟩ := dataLink_v4 free a b c d n (by omega) cb.subnet hf
    refine ⟨l, e, f, g, i, ⟨⟨some l, bufferSize cb.maxPDU, none⟩, ?_, rfl⟩, h2, h4, by rw [hn]; exact h5⟩
    simp only [newClient, hi]
    rw [if_neg (by omega), newUDPDataLinkFromIP, hh, hn, h1]
  rw [← hport]
  refine ⟨⟨fun ⟨l, hl⟩ => ⟨(open_ l hl).1, (open_ l hl).2.2⟩, fun ⟨hp, hf⟩ => ?_⟩, ?_, ?_⟩
  · obtain ⟨l, _, _, _, _, h1, _⟩ := back hp hf
    exact ⟨l, h1⟩
  · rintro ⟨l, hl, hls, _⟩
    obtain ⟨hp, h2, hf⟩ := open_ l hl
    rw [if_neg (by omega), h2] at hls
    have hs : cb.subnet = cb.port := by
      unfold resolvePort at hls
      by_cases h0 : cb.subnet = 0
      · rw [if_pos h0] at hls
        have : (47808 : Int) = cb.port := hls
        omega
      · rw [if_neg h0] at hls
        by_cases hr : 0 ≤ cb.subnet ∧ cb.subnet ≤ 65535
        · rw [if_pos hr] at hls; exact hls
        · rw [if_neg hr] at hls; omega
    refine ⟨hp, hs, ?_⟩
    rw [hls] at hf
    exact hf
  · rintro ⟨hp, hs, hf⟩
    have e : resolvePort (if cb.subnet = 0 then 0xBAC0 else cb.subnet) = cb.port := by
      rw [if_neg (by omega), hs]
      unfold resolvePort
      rw [if_pos (by omega)]
    obtain ⟨l, e1, f, g, i, h1, h2, h3, h4⟩ := back hp (by rw [e]; exact hf)
    refine ⟨l, h1, ?_, e1, f, g, i, h3, by omega, by rw [hs]; exact h4⟩
    rw [h2, e, if_neg (by omega)]

/-- A client that is opened as asked for, and one that is opened, but otherwise. -/
example : (C62_Opened (newClient (fun _ => true) { host := .v4 10 0 0 9, port := 24, subnet := 24 })
      { listen := 24, my := { mac := [10, 0, 0, 9, 0, 24], macLen := 6 }, broadcast := { mac := [10, 0, 0, 255, 0xBA, 0xC0], macLen := 6 } }) ∧
    (C62_Opened (newClient (fun _ => true) { host := .v4 10 0 0 9, port := 8, subnet := 24 })
      { listen := 24, my := { mac := [10, 0, 0, 9, 0, 24], macLen := 6 }, broadcast := { mac := [10, 255, 255, 255, 0xBA, 0xC0], macLen := 6 } }) :=
  ⟨⟨_, rfl, by decide⟩, ⟨_, rfl, by decide⟩⟩

end Bac.Props
