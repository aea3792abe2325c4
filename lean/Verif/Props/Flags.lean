import Verif.Model.Flags
/-!
# C134: flags and their defaults
-/

namespace Bac.Props

/-- The value given last for a flag. -/
def lastGiven (name : List Nat) : List (List Nat × FlagVal) → Option FlagVal
  | [] => none
  | (n, x) :: l => (lastGiven name l).or (if n = name then some x else none)

/-- Parsing: names and variables of the flags of a command are distinct. -/
theorem parseFlags_value (regs : List FlagReg) (c : Cmd) (r : FlagReg) (hr : r ∈ flagsOf regs c)
    (hd : ∀ q ∈ flagsOf regs c, (q.name = r.name ↔ q.var = r.var) ∧ (q.name = r.name → q = r)) (given : List (List Nat × FlagVal)) :
    ∀ m t, parseFlags regs c given m = some t → t r.var = (lastGiven r.name given).or (m r.var) := by
  induction given with
  | nil => intro m t h; cases h; rfl
  | cons a l ih =>
    obtain ⟨n, x⟩ := a
    intro m t h
    rw [parseFlags] at h
    cases hf : (flagsOf regs c).find? fun q => q.name = n with
    | none => rw [hf] at h; cases h
    | some q =>
      rw [hf] at h
      dsimp only at h
      split at h
      next hk =>
        have hq := List.mem_of_find?_eq_some hf
        have hn : q.name = n := by simpa using List.find?_some hf
        rw [ih _ _ h, lastGiven]
        cases hg : lastGiven r.name l with
        | some y => rfl
        | none =>
          by_cases hnr : n = r.name
          · have hqr := (hd q hq).2 (hn.trans hnr)
            subst hqr
            simp [FlagVars.set, hnr]
          · have hv : r.var ≠ q.var := fun hc => hnr (hn.symm.trans ((hd q hq).1.2 hc.symm))
            simp [FlagVars.set, hnr, hv]
      next => cases h

/-- The flags of every command have distinct names and distinct variables. -/
theorem flags_distinct : ∀ c : Cmd, ∀ r ∈ flagsOf flagRegs c, ∀ q ∈ flagsOf flagRegs c,
    (q.name = r.name ↔ q.var = r.var) ∧ (q.name = r.name → q = r) := by
  intro c
  cases c <;> decide +kernel

/-- C134, given flags: when a flag is given, its variable has the value given last. -/
theorem C134_given (c : Cmd) (given : List (List Nat × FlagVal)) (t : FlagVars) (h : runFlags c given = some t)
    (r : FlagReg) (hr : r ∈ flagsOf flagRegs c) (x : FlagVal) (hx : lastGiven r.name given = some x) : t r.var = some x := by
  rw [parseFlags_value flagRegs c r hr (flags_distinct c r hr) given _ t h, hx]
  rfl

/-- C134, defaults: a flag that is not given has the default its help announces, with two exceptions
(`C134_fails`). -/
theorem C134_partial (c : Cmd) (given : List (List Nat × FlagVal)) (t : FlagVars) (h : runFlags c given = some t)
    (r : FlagReg) (hr : r ∈ flagsOf flagRegs c) (hx : lastGiven r.name given = none)
    (hne : ¬ (r.cmd = .read ∧ (r.name = t!"device" ∨ r.name = t!"objectID"))) : t r.var = some r.default := by
  rw [parseFlags_value flagRegs c r hr (flags_distinct c r hr) given _ t h, hx]
  have htab : ∀ r ∈ flagRegs, ¬ (r.cmd = .read ∧ (r.name = t!"device" ∨ r.name = t!"objectID")) →
      registerFlags flagRegs r.var = some r.default := by decide +kernel
  exact htab r (List.mem_filter.1 hr).1 hne

/-- C134 fails: without the flags --device and --objectID the command read takes 1234 for both, the
defaults of the command write; its help announces 0 and -1. -/
theorem C134_fails (given : List (List Nat × FlagVal)) (t : FlagVars) (h : runFlags .read given = some t) :
    (lastGiven t!"device" given = none → t .deviceID = some (.int 1234) ∧
      (⟨.read, t!"device", .deviceID, .int 0⟩ : FlagReg) ∈ flagsOf flagRegs .read) ∧
    (lastGiven t!"objectID" given = none → t .objectID = some (.int 1234) ∧
      (⟨.read, t!"objectID", .objectID, .int (-1)⟩ : FlagReg) ∈ flagsOf flagRegs .read) := by
  have h1 : (⟨.read, t!"device", .deviceID, .int 0⟩ : FlagReg) ∈ flagsOf flagRegs .read := by decide +kernel
  have h2 : (⟨.read, t!"objectID", .objectID, .int (-1)⟩ : FlagReg) ∈ flagsOf flagRegs .read := by decide +kernel
  constructor
  · intro hx
    refine ⟨?_, h1⟩
    rw [parseFlags_value flagRegs .read _ h1 (flags_distinct .read _ h1) given _ t h, hx]
    decide +kernel
  · intro hx
    refine ⟨?_, h2⟩
    rw [parseFlags_value flagRegs .read _ h2 (flags_distinct .read _ h2) given _ t h, hx]
    decide +kernel

/-- C134, unknown flags: a command is run exactly if all flags given are flags it has, with values of their kind. -/
theorem C134_runs (c : Cmd) (given : List (List Nat × FlagVal)) :
    (runFlags c given).isSome ↔ ∀ a ∈ given, ∃ r ∈ flagRegs, (r.cmd = c ∨ r.cmd = .root) ∧ r.name = a.1 ∧ r.default.like a.2 = true := by
  unfold runFlags
  generalize registerFlags flagRegs = m
  induction given generalizing m with
  | nil => simp [parseFlags]
  | cons a l ih =>
    obtain ⟨n, x⟩ := a
    rw [parseFlags]
    simp only [List.mem_cons, forall_eq_or_imp]
    cases hf : (flagsOf flagRegs c).find? fun q => q.name = n with
    | none =>
      simp only [Option.isSome_none, Bool.false_eq_true, false_iff]
      rintro ⟨⟨r, hr, hc, hn, _⟩, _⟩
      rw [List.find?_eq_none] at hf
      exact hf r (List.mem_filter.2 ⟨hr, by simpa using hc⟩) (by simpa using hn)
    | some q =>
      have hq := List.mem_of_find?_eq_some hf
      have hn : q.name = n := by simpa using List.find?_some hf
      dsimp only
      have hq' := List.mem_filter.1 hq
      split
      next hk =>
        rw [ih]
        constructor
        · exact fun h => ⟨⟨q, hq'.1, by simpa using hq'.2, hn, hk⟩, h⟩
        · exact fun h => h.2
      next hk =>
        simp only [Option.isSome_none, Bool.false_eq_true, false_iff]
        rintro ⟨⟨r, hr, hc, hn', hk'⟩, _⟩
        have : r ∈ flagsOf flagRegs c := List.mem_filter.2 ⟨hr, by simpa using hc⟩
        have := (flags_distinct c q hq r this).2 (hn'.trans hn.symm)
        subst this
        exact hk hk'

/-- `read --address 10.0.0.9 --objectID 7 --objectID 8`. -/
example : ((runFlags .read [(t!"address", .text t!"10.0.0.9"), (t!"objectID", .int 7), (t!"objectID", .int 8)]).map fun m =>
    [m .deviceIP, m .objectID, m .deviceID, m .interface]) =
    some [some (.text t!"10.0.0.9"), some (.int 8), some (.int 1234), some (.text t!"eth0")] := by decide +kernel

end Bac.Props
