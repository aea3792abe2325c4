import Verif.Props.Points
/-!
# C103, C104, C110: what is returned for every answer, of one value or of several
-/

namespace Bac.Props

open Spec (AppVal Means)

/-- The value of a property that was answered with no or several values is a list. -/
theorem answered_list (w : Wire) (hmy : w.my.net = 0) (d : NetDevice) (o : NetObject) (ho : o.Valid) (c : Calls)
    (vs : List AppVal) (hvs : ∀ v ∈ vs, C71_Readable v) (hf : vs.length < w.fuel) (hl : vs.length ≠ 1)
    (h : Answered w c.length o vs) :
    ∃ ss out, out.object.properties = [⟨o.prop, o.arrayIndex, .many ss, 0⟩] ∧
      d.read w.reader (some o) c = (c ++ [(d.dev.target, o.request)], .ok (.ok out)) := by
  obtain ⟨ss, out, h1, _, h3, h4⟩ := read_answered w hmy d o ho c vs hvs hf h
  refine ⟨ss, out, ?_, h4⟩
  rw [h3, shape, if_neg (by rw [h1.length_eq]; exact hl)]

/-- What C103 lets be returned for an answer: the float sent if there is exactly one, and 0 for everything
else. -/
def C103_Float : List AppVal → UInt32
  | [.real b] => b
  | _ => 0

/-- What C104 lets be returned for an answer. -/
def C104_Number : List AppVal → Nat
  | [.unsigned n] => n
  | [.enum n] => n
  | _ => 0

/-- What C110 lets be returned for an answer. -/
def C110_Name : List AppVal → List UInt8
  | [.chars l] => l
  | _ => []

/-- A list of one element or not. -/
theorem one_or {α : Type} (l : List α) : (∃ v, l = [v]) ∨ l.length ≠ 1 := by
  match l with
  | [] => exact Or.inr nofun
  | [v] => exact Or.inl ⟨v, rfl⟩
  | _ :: _ :: l => exact Or.inr (by simp)

theorem C103_Float_list {vs : List AppVal} (h : vs.length ≠ 1) : C103_Float vs = 0 := by
  match vs with
  | [] => rfl
  | [v] => exact absurd rfl h
  | x :: y :: l => cases x <;> rfl

theorem C104_Number_list {vs : List AppVal} (h : vs.length ≠ 1) : C104_Number vs = 0 := by
  match vs with
  | [] => rfl
  | [v] => exact absurd rfl h
  | x :: y :: l => cases x <;> rfl

theorem C110_Name_list {vs : List AppVal} (h : vs.length ≠ 1) : C110_Name vs = [] := by
  match vs with
  | [] => rfl
  | [v] => exact absurd rfl h
  | x :: y :: l => cases x <;> rfl

/-- C103, exactly: for every answer, of any number of values of any types, the result is the REAL it consists of,
and 0 without an error if it consists of anything else. -/
theorem C103_exact (w : Wire) (hmy : w.my.net = 0) (d : NetDevice) (p : Point) (hp : C04_Valid ⟨p.typ, p.inst⟩)
    (c : Calls) (vs : List AppVal) (hvs : ∀ v ∈ vs, C71_Readable v) (hf : 1 < w.fuel) (hl : vs.length < w.fuel)
    (h : Answered w c.length (p.whole 85) vs) :
    ∃ c', pointReadFloat32 w.reader d (some p) c = (c', .ok (.ok (C103_Float vs))) := by
  rcases one_or vs with ⟨v, rfl⟩ | h1
  · by_cases hr : ∃ b, v = .real b
    · obtain ⟨b, rfl⟩ := hr
      exact (C103_partial w hmy d p hp hf c).1 b h
    · have hr' : ∀ b, v ≠ .real b := fun b e => hr ⟨b, e⟩
      have e : C103_Float [v] = 0 := by
        cases v
        case real b => exact absurd rfl (hr' b)
        all_goals rfl
      rw [e]
      exact C103_fails w hmy d p hp hf c v (hvs v (by simp)) hr' h
  · obtain ⟨ss, out, h2, h3⟩ := answered_list w hmy d (p.whole 85) (whole_valid hp 85 (by decide)) c vs hvs hl h1 h
    rw [C103_Float_list h1]
    have e : toFloat32 out = 0 := by unfold toFloat32; rw [h2]
    have e1 : pointReadFloat32 w.reader d (some p) c = (_, .ok (.ok (toFloat32 out))) := present_ok (f := toFloat32) h3
    rw [e] at e1
    exact ⟨_, e1⟩

/-- C104, exactly: for every answer the result is the unsigned or enumerated number it consists of, and 0
without an error if it consists of anything else. -/
theorem C104_exact (w : Wire) (hmy : w.my.net = 0) (d : NetDevice) (p : Point) (hp : C04_Valid ⟨p.typ, p.inst⟩)
    (c : Calls) (vs : List AppVal) (hvs : ∀ v ∈ vs, C71_Readable v) (hf : 1 < w.fuel) (hl : vs.length < w.fuel)
    (h : Answered w c.length (p.whole 85) vs) :
    ∃ c' x, pointReadBool w.reader d (some p) c = (c', .ok (.ok x)) ∧
      pointReadMultiState w.reader d (some p) c = (c', .ok (.ok x)) ∧ x.toNat = C104_Number vs := by
  rcases one_or vs with ⟨v, rfl⟩ | h1
  · have hv := hvs v (by simp)
    by_cases hr : ∃ n, v = .unsigned n ∨ v = .enum n
    · obtain ⟨n, hn⟩ := hr
      have hlt : n < 2 ^ 32 := by rcases hn with rfl | rfl <;> exact hv.1
      obtain ⟨c', x, e1, e2, e3⟩ := (C104_partial w hmy d p hp hf c).1 n v hn hlt h
      exact ⟨c', x, e1, e2, by rw [e3]; rcases hn with rfl | rfl <;> rfl⟩
    · have hr' : ∀ n, v ≠ .unsigned n ∧ v ≠ .enum n := fun n => ⟨fun e => hr ⟨n, Or.inl e⟩, fun e => hr ⟨n, Or.inr e⟩⟩
      have e : C104_Number [v] = 0 := by
        cases v
        case unsigned n => exact absurd rfl (hr' n).1
        case enum n => exact absurd rfl (hr' n).2
        all_goals rfl
      obtain ⟨c', e1, e2⟩ := C104_fails w hmy d p hp hf c v hv hr' h
      exact ⟨c', 0, e1, e2, e.symm⟩
  · obtain ⟨ss, out, h2, h3⟩ := answered_list w hmy d (p.whole 85) (whole_valid hp 85 (by decide)) c vs hvs hl h1 h
    have e : toUint32 out = 0 := by unfold toUint32; rw [h2]
    have e1 : pointReadBool w.reader d (some p) c = (_, .ok (.ok (toUint32 out))) := present_ok (f := toUint32) h3
    rw [e] at e1
    exact ⟨_, 0, e1, e1, (C104_Number_list h1).symm⟩

/-- C110, exactly: for every answer the name read is the character string it consists of, and the empty name
without an error if it consists of anything else. -/
theorem C110_exact (w : Wire) (hmy : w.my.net = 0) (d : NetDevice) (o : NetObject) (ho : o.Valid)
    (c : Calls) (vs : List AppVal) (hvs : ∀ v ∈ vs, C71_Readable v) (hf : 1 < w.fuel) (hl : vs.length < w.fuel)
    (h : Answered w c.length o vs) :
    ∃ c', readString w.reader d (some o) c = (c', .ok (.ok (C110_Name vs))) := by
  rcases one_or vs with ⟨v, rfl⟩ | h1
  · by_cases hr : ∃ l, v = .chars l
    · obtain ⟨l, rfl⟩ := hr
      obtain ⟨s1, o1, d1, p1, r1⟩ := read_single w hmy d.dev.target o ho c.length (.chars l) (hvs _ (by simp)) hf h
      have e1 := read_of w.reader d o c (.ok o1) r1
      have hn1 : toStr o1 = l := toStr_one p1 (by rw [show s1 = .str l from d1.1])
      exact ⟨_, string_step e1 hn1⟩
    · have hr' : ∀ l, v ≠ .chars l := fun l e => hr ⟨l, e⟩
      have e : C110_Name [v] = [] := by
        cases v
        case chars l => exact absurd rfl (hr' l)
        all_goals rfl
      rw [e]
      exact C110_fails w hmy d o ho hf c v (hvs v (by simp)) hr' h
  · obtain ⟨ss, out, h2, h3⟩ := answered_list w hmy d o ho c vs hvs hl h1 h
    rw [C110_Name_list h1]
    exact ⟨_, string_step h3 (by unfold toStr; rw [h2])⟩

/-- Two floats answered for one present value: 0, and no error. -/
example : (pointReadFloat32 (exampleReader fun _ => some (.many [.real 0x41200000, .real 0x41200000])) {} (some ⟨1, 2, 0⟩) []).2 = .ok (.ok 0) ∧
    C103_Float [.real 0x41200000] = 0x41200000 ∧ C104_Number [.enum 3] = 3 ∧ C110_Name [.chars [72], .chars [72]] = [] := by
  decide +kernel

end Bac.Props
