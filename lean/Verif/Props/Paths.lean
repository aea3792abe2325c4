import Verif.Props.HomeDir
import Mathlib.Logic.Relation
/-!
# C134, C144, C146: exactly which home directory is found, how paths are shortened, which flags are accepted
-/

namespace Spec

/-- White space. -/
def White (c : Nat) : Prop := c = 9 ∨ c = 10 ∨ c = 11 ∨ c = 12 ∨ c = 13 ∨ c = 32

/-- `t` is `out` without the white space around it. -/
def Trimmed (t out : List Nat) : Prop :=
  ∃ a b, out = a ++ t ++ b ∧ (∀ c ∈ a, White c) ∧ (∀ c ∈ b, White c) ∧
    (∀ c, t.head? = some c → ¬ White c) ∧ (∀ c, t.getLast? = some c → ¬ White c)

/-- `h` is the field of `line` after `n` colons. -/
def Field (n : Nat) (line h : List Nat) : Prop :=
  ∃ l : List (List Nat), l.length = n ∧ (∀ x ∈ l, 58 ∉ x) ∧ 58 ∉ h ∧
    ∃ tail, line = (l.flatMap fun x => x ++ [58]) ++ h ++ tail ∧ (tail = [] ∨ ∃ r, tail = 58 :: r)

/-- The names between the slashes. -/
def Pieces (p : List Nat) (l : List (List Nat)) : Prop := p = [47].intercalate l ∧ ∀ x ∈ l, 47 ∉ x

/-- One shortening of a path that does not change what it means, without symbolic links. -/
inductive Shorter (rooted : Bool) : List (List Nat) → List (List Nat) → Prop
  | empty (a b) : Shorter rooted (a ++ [] :: b) (a ++ b)
  | dot (a b) : Shorter rooted (a ++ t!"." :: b) (a ++ b)
  | up (a x b) (h : FileName x) : Shorter rooted (a ++ x :: t!".." :: b) (a ++ b)
  | root (b) (h : rooted = true) : Shorter rooted (t!".." :: b) b

/-- Names, after some `..` if the path does not begin with a slash. -/
def Simple (rooted : Bool) (l : List (List Nat)) : Prop :=
  ∃ n names, l = List.replicate n t!".." ++ names ∧ (∀ x ∈ names, FileName x) ∧ (rooted = true → n = 0)

/-- Going through the names from a place `n` levels below some directory never leaves that directory. -/
def Stays : Nat → List (List Nat) → Prop
  | _, [] => True
  | n, x :: l =>
    if x = [] ∨ x = t!"." then Stays n l
    else if x = t!".." then 0 < n ∧ Stays (n - 1) l
    else Stays (n + 1) l

end Spec

namespace Bac.Props
open HomeDir

/-! ## C144 -/

theorem white_iff (c : Nat) : isSpace c = true ↔ _root_.Spec.White c := by
  simp only [isSpace, Bool.or_eq_true, beq_iff_eq, Bool.and_eq_true, decide_eq_true_eq, _root_.Spec.White]
  omega

theorem trimLeft_white (a s : List Nat) (ha : ∀ c ∈ a, _root_.Spec.White c) : trimLeft (a ++ s) = trimLeft s := by
  induction a with
  | nil => rfl
  | cons c a ih =>
    have := (white_iff c).2 (ha c (by simp))
    simp only [trimLeft] at ih ⊢
    rw [List.cons_append, List.dropWhile_cons_of_pos this]
    exact ih fun x hx => ha x (by simp [hx])

theorem trimLeft_black (s : List Nat) (h : ∀ c, s.head? = some c → ¬ _root_.Spec.White c) : trimLeft s = s := by
  cases s with
  | nil => rfl
  | cons c s =>
    have : ¬ isSpace c = true := fun e => h c rfl ((white_iff c).1 e)
    rw [trimLeft, List.dropWhile_cons_of_neg this]

theorem trimLeft_split (s : List Nat) : ∃ a, s = a ++ trimLeft s ∧ (∀ c ∈ a, _root_.Spec.White c) ∧
    ∀ c, (trimLeft s).head? = some c → ¬ _root_.Spec.White c := by
  induction s with
  | nil => exact ⟨[], rfl, nofun, nofun⟩
  | cons c s ih =>
    by_cases hc : isSpace c = true
    · obtain ⟨a, h1, h2, h3⟩ := ih
      refine ⟨c :: a, ?_, ?_, ?_⟩
      · rw [trimLeft, List.dropWhile_cons_of_pos hc]
        exact congrArg _ h1
      · intro x hx
        rcases List.mem_cons.1 hx with rfl | hx
        · exact (white_iff _).1 hc
        · exact h2 x hx
      · rw [trimLeft, List.dropWhile_cons_of_pos hc]; exact h3
    · refine ⟨[], ?_, nofun, ?_⟩
      · rw [trimLeft, List.dropWhile_cons_of_neg hc]; rfl
      · rw [trimLeft, List.dropWhile_cons_of_neg hc]
        intro x hx
        obtain rfl := Option.some.inj hx
        exact fun e => hc ((white_iff _).2 e)

/-- `TrimSpace` takes away the white space around the text. -/
theorem trimSpace_iff (out t : List Nat) : trimSpace out = t ↔ _root_.Spec.Trimmed t out := by
  constructor
  · rintro rfl
    obtain ⟨a, h1, h2, h3⟩ := trimLeft_split out
    obtain ⟨b, h4, h5, h6⟩ := trimLeft_split (trimLeft out).reverse
    have e : trimLeft out = trimSpace out ++ b.reverse := by
      have := congrArg List.reverse h4
      rw [List.reverse_reverse, List.reverse_append] at this
      exact this
    refine ⟨a, b.reverse, ?_, h2, fun c hc => h5 c (by simpa using hc), ?_, ?_⟩
    · rw [List.append_assoc, ← e]; exact h1
    · intro c hc
      refine h3 c ?_
      rw [e]
      cases ht : trimSpace out with
      | nil => rw [ht] at hc; cases hc
      | cons x y => rw [ht] at hc; exact hc
    · intro c hc
      refine h6 c ?_
      rw [trimSpace, List.getLast?_reverse] at hc
      exact hc
  · rintro ⟨a, b, rfl, ha, hb, h1, h2⟩
    have hb' : ∀ c ∈ b.reverse, _root_.Spec.White c := fun c hc => hb c (by simpa using hc)
    unfold trimSpace
    rw [List.append_assoc, trimLeft_white a _ ha]
    cases t with
    | nil =>
      have : trimLeft (b ++ []) = [] := trimLeft_white b [] hb
      rw [List.append_nil] at this
      rw [List.nil_append, this]
      rfl
    | cons x t =>
      rw [trimLeft_black (x :: t ++ b) h1, List.reverse_append, trimLeft_white _ _ hb', trimLeft_black, List.reverse_reverse]
      intro c hc
      rw [List.head?_reverse] at hc
      exact h2 c hc

theorem colon_split (s : List Nat) : s = s.takeWhile (· ≠ 58) ++ s.dropWhile (· ≠ 58) ∧ 58 ∉ s.takeWhile (· ≠ 58) ∧
    (s.dropWhile (· ≠ 58) = [] ∨ ∃ r, s.dropWhile (· ≠ 58) = 58 :: r) := by
  refine ⟨List.takeWhile_append_dropWhile.symm, ?_, ?_⟩
  · induction s with
    | nil => simp
    | cons c s ih =>
      by_cases hc : c = 58
      · subst hc; rw [List.takeWhile_cons_of_neg (by simp)]; simp
      · rw [List.takeWhile_cons_of_pos (by simpa using hc)]
        intro h
        rcases List.mem_cons.1 h with h | h
        · exact hc h.symm
        · exact ih h
  · induction s with
    | nil => exact Or.inl rfl
    | cons c s ih =>
      by_cases hc : c = 58
      · subst hc; exact Or.inr ⟨s, by rw [List.dropWhile_cons_of_neg (by simp)]⟩
      · rw [List.dropWhile_cons_of_pos (by simpa using hc)]; exact ih

theorem field_unique_zero {line h h' tail tail' : List Nat} (e : line = h ++ tail) (e' : line = h' ++ tail') (hh : 58 ∉ h) (hh' : 58 ∉ h')
    (ht : tail = [] ∨ ∃ r, tail = 58 :: r) (ht' : tail' = [] ∨ ∃ r, tail' = 58 :: r) : h = h' ∧ tail = tail' := by
  subst e
  induction h generalizing h' with
  | nil =>
    cases h' with
    | nil => exact ⟨rfl, e'⟩
    | cons c h' =>
      rcases ht with rfl | ⟨r, rfl⟩
      · cases e'
      · rw [List.nil_append, List.cons_append] at e'
        exact absurd (List.cons.inj e').1 (fun e => hh' (by simp [← e]))
  | cons c h ih =>
    cases h' with
    | nil =>
      rcases ht' with rfl | ⟨r, rfl⟩
      · cases e'
      · rw [List.nil_append, List.cons_append] at e'
        exact absurd (List.cons.inj e').1 (fun e => hh (by simp [e]))
    | cons c' h' =>
      rw [List.cons_append, List.cons_append] at e'
      obtain ⟨rfl, e2⟩ := List.cons.inj e'
      obtain ⟨rfl, h2⟩ := ih (fun hx => hh (by simp [hx])) (fun hx => hh' (by simp [hx])) e2
      exact ⟨rfl, h2⟩

/-- The parts `SplitN` makes, except the last, are the fields. -/
theorem splitN_field (i n : Nat) (s h : List Nat) (hn : i + 2 ≤ n) :
    (splitN 58 n s)[i]? = some h ↔ _root_.Spec.Field i s h := by
  induction i generalizing n s with
  | zero =>
    obtain ⟨n, rfl⟩ : ∃ m, n = m + 2 := ⟨n - 2, by omega⟩
    obtain ⟨e, hx, ht⟩ := colon_split s
    have first : (splitN 58 (n + 2) s)[0]? = some (s.takeWhile (· ≠ 58)) := by
      rw [splitN]
      cases hd : s.dropWhile (· ≠ 58) with
      | nil =>
        rw [hd, List.append_nil] at e
        simp only [← e]; rfl
      | cons c r => rfl
    rw [first]
    constructor
    · intro hh
      obtain rfl := Option.some.inj hh
      exact ⟨[], rfl, nofun, hx, _, by simp, ht⟩
    · rintro ⟨l, hl, _, hh, tail, he, htl⟩
      rw [List.length_eq_zero_iff.1 hl] at he
      rw [(field_unique_zero (line := s) e (by simpa using he) hx hh ht htl).1]
  | succ i ih =>
    obtain ⟨n, rfl⟩ : ∃ m, n = m + 3 := ⟨n - 3, by omega⟩
    obtain ⟨e, hx, ht⟩ := colon_split s
    rcases ht with ht | ⟨r, ht⟩
    · have : splitN 58 (n + 3) s = [s] := by rw [splitN]; simp only [ht]
      rw [this]
      constructor
      · intro hh; simp at hh
      · rintro ⟨l, hl, hl', hh, tail, he, htl⟩
        exfalso
        cases l with
        | nil => cases hl
        | cons y l =>
          rw [ht, List.append_nil] at e
          refine hx ?_
          rw [← e, he]
          simp
    · have : splitN 58 (n + 3) s = s.takeWhile (· ≠ 58) :: splitN 58 (n + 2) r := by rw [splitN]; simp only [ht]
      rw [this, List.getElem?_cons_succ, ih (n + 2) r (by omega)]
      constructor
      · rintro ⟨l, hl, hl', hh, tail, he, htl⟩
        refine ⟨s.takeWhile (· ≠ 58) :: l, by simp [hl], ?_, hh, tail, ?_, htl⟩
        · intro y hy
          rcases List.mem_cons.1 hy with rfl | hy
          · exact hx
          · exact hl' y hy
        · rw [ht, he] at e
          rw [List.flatMap_cons]
          simpa using e
      · rintro ⟨l, hl, hl', hh, tail, he, htl⟩
        cases l with
        | nil => cases hl
        | cons y l =>
          have he' : s = y ++ (58 :: ((l.flatMap fun x => x ++ [58]) ++ h ++ tail)) := by
            rw [he, List.flatMap_cons]; simp
          have hu := field_unique_zero (line := s) e he' hx (hl' y (by simp)) (Or.inr ⟨r, ht⟩) (Or.inr ⟨_, rfl⟩)
          rw [ht] at hu
          exact ⟨l, by simpa using hl, fun z hz => hl' z (by simp [hz]), hh, tail, (List.cons.inj hu.2).2, htl⟩

/-- The program ran and printed a text; without the white space around it, it is `d`, and not empty. -/
def C144_Says (r : Ran) (d : List Nat) : Prop := ∃ out, r = .prints out ∧ _root_.Spec.Trimmed d out ∧ d ≠ []

/-- C144, exactly: the variable if it is set.  Otherwise on Windows the profile, or drive and path; on macOS what dscl prints, or
else what the shell prints; elsewhere the sixth field of what getent prints, and what the shell prints only if getent runs and there
is no such field. -/
theorem C144_exact (e : Env) (d : List Nat) : detect e = some d ↔
    (e.home ≠ [] ∧ d = e.home) ∨ (e.home = [] ∧
      ((e.os = .windows ∧ ((e.userProfile ≠ [] ∧ d = e.userProfile) ∨
          (e.userProfile = [] ∧ e.homeDrive ≠ [] ∧ e.homePath ≠ [] ∧ d = e.homeDrive ++ e.homePath))) ∨
        (e.os = .darwin ∧ (C144_Says e.dscl d ∨ ((¬ ∃ t, C144_Says e.dscl t) ∧ C144_Says e.shell d))) ∨
        (e.os ≠ .windows ∧ e.os ≠ .darwin ∧ ∃ out t, e.getent = .prints out ∧ _root_.Spec.Trimmed t out ∧
          (_root_.Spec.Field 5 t d ∨ ((¬ ∃ h, _root_.Spec.Field 5 t h) ∧ C144_Says e.shell d))))) := by
  have shell : fromShell e = some d ↔ C144_Says e.shell d := by
    unfold fromShell C144_Says
    cases hs : e.shell with
    | missing => simp
    | failed => simp
    | prints out =>
      simp only [Ran.prints.injEq, exists_eq_left', ← trimSpace_iff]
      by_cases ht : trimSpace out = []
      · rw [if_pos ht]
        exact ⟨nofun, fun h => absurd (h.1.symm.trans ht) h.2⟩
      · rw [if_neg ht, Option.some.injEq]
        exact ⟨fun h => ⟨h, h ▸ ht⟩, fun h => h.1⟩
  by_cases hh : e.home ≠ []
  · have : detect e = some e.home := C144_home e hh
    rw [this, Option.some.injEq]
    constructor
    · intro h; exact Or.inl ⟨hh, h.symm⟩
    · rintro (⟨_, h⟩ | ⟨h, _⟩)
      · exact h.symm
      · exact absurd h hh
  · have hh : e.home = [] := Decidable.not_not.1 hh
    have hd : ∀ q : Prop, ((e.home ≠ [] ∧ d = e.home) ∨ (e.home = [] ∧ q)) ↔ q := by
      intro q; simp [hh]
    rw [hd]
    unfold detect dirUnix dirWindows
    by_cases hw : e.os = .windows
    · rw [if_pos hw, if_neg (by simp [hh])]
      have : ¬ e.os = .darwin := by rw [hw]; decide
      simp only [hw, true_and, ne_eq, not_true_eq_false, false_and, or_false, reduceCtorEq]
      by_cases hu : e.userProfile = []
      · rw [if_neg (by simp [hu])]
        by_cases hx : e.homeDrive = [] ∨ e.homePath = []
        · rw [if_pos hx]
          simp only [hu, not_true_eq_false, false_and, true_and, false_or, reduceCtorEq, false_iff]
          rintro ⟨h1, h2, _⟩
          rcases hx with hx | hx
          · exact h1 hx
          · exact h2 hx
        · rw [if_neg hx, Option.some.injEq]
          simp only [hu, not_true_eq_false, false_and, true_and, false_or]
          exact ⟨fun h => ⟨fun h' => hx (Or.inl h'), fun h' => hx (Or.inr h'), h.symm⟩, fun h => h.2.2.symm⟩
      · rw [if_pos hu, Option.some.injEq]
        simp only [hu, not_false_eq_true, true_and, false_and, or_false]
        exact eq_comm
    · rw [if_neg hw, if_neg (by simp [hh])]
      by_cases hm : e.os = .darwin
      · rw [if_pos hm]
        simp only [hm, true_and, ne_eq, not_true_eq_false, false_and, or_false, reduceCtorEq, not_false_eq_true, false_or]
        cases hs : e.dscl with
        | missing => simp only [shell]; simp [C144_Says]
        | failed => simp only [shell]; simp [C144_Says]
        | prints out =>
          by_cases ht : trimSpace out = []
          · simp only [ht, not_true_eq_false, if_false, shell]
            have no : ¬ ∃ t, C144_Says (.prints out) t := by
              rintro ⟨t, o, ho, h1, h2⟩
              cases ho
              exact h2 (((trimSpace_iff _ _).2 h1).symm.trans ht)
            exact ⟨fun h => Or.inr ⟨no, h⟩, fun h => h.elim (fun h => absurd ⟨d, h⟩ no) (fun h => h.2)⟩
          · simp only [ht, not_false_eq_true, if_true, Option.some.injEq]
            have yes : C144_Says (.prints out) (trimSpace out) := ⟨out, rfl, (trimSpace_iff _ _).1 rfl, ht⟩
            constructor
            · rintro rfl; exact Or.inl yes
            · rintro (⟨o, ho, h1, _⟩ | h)
              · cases ho
                exact (trimSpace_iff _ _).2 h1
              · exact absurd ⟨_, yes⟩ h.1
      · rw [if_neg hm]
        simp only [hw, hm, false_and, false_or, ne_eq, not_false_eq_true, true_and]
        cases hs : e.getent with
        | missing => simp
        | failed => simp
        | prints out =>
          simp only [Ran.prints.injEq, exists_and_left, exists_eq_left', ← trimSpace_iff out]
          have nil : ¬ ∃ h, _root_.Spec.Field 5 [] h := by
            rintro ⟨h, l, hl, _, _, tail, he, _⟩
            cases l with
            | nil => cases hl
            | cons y l =>
              have := congrArg List.length he
              simp at this
          by_cases ht : trimSpace out = []
          · simp only [ht, not_true_eq_false, if_false, shell]
            exact ⟨fun h => Or.inr ⟨nil, h⟩, fun h => h.elim (fun h => absurd ⟨d, h⟩ nil) (fun h => h.2)⟩
          · simp only [ht, not_false_eq_true, if_true]
            cases hx : (splitN 58 7 (trimSpace out))[5]? with
            | none =>
              have no : ¬ ∃ h, _root_.Spec.Field 5 (trimSpace out) h := by
                rintro ⟨h, hf⟩
                rw [(splitN_field 5 7 _ h (by omega)).2 hf] at hx
                cases hx
              simp only [shell]
              exact ⟨fun h => Or.inr ⟨no, h⟩, fun h => h.elim (fun h => absurd ⟨d, h⟩ no) (fun h => h.2)⟩
            | some y =>
              have yes := (splitN_field 5 7 _ y (by omega)).1 hx
              simp only [Option.some.injEq]
              constructor
              · rintro rfl; exact Or.inl yes
              · rintro (h | h)
                · rw [(splitN_field 5 7 _ d (by omega)).2 h] at hx
                  exact (Option.some.inj hx).symm
                · exact absurd ⟨_, yes⟩ h.1

/-- On macOS, and on Windows. -/
example : detect { os := .darwin, dscl := .prints t!"/Users/bob\n" } = some t!"/Users/bob" ∧
    detect { os := .darwin, dscl := .prints t!"\n", shell := .prints t!" /Users/eve\t\n" } = some t!"/Users/eve" ∧
    detect { os := .windows, homeDrive := t!"C:", homePath := t!"\\Users\\bob" } = some t!"C:\\Users\\bob" ∧
    detect { os := .windows, homeDrive := t!"C:" } = none := by decide +kernel

/-! ## C146 -/

theorem joinElements_eq (l : List (List Nat)) : joinElements l = [47].intercalate l := by
  induction l with
  | nil => rfl
  | cons x l ih =>
    cases l with
    | nil => simp [joinElements, List.intercalate]
    | cons y l =>
      rw [joinElements, ih]
      · simp [List.intercalate]
      · simp

theorem elements_ne (p : List Nat) : ∃ x l, elements p = x :: l := by
  cases p with
  | nil => exact ⟨_, _, rfl⟩
  | cons c p =>
    simp only [elements]
    split
    · exact ⟨_, _, rfl⟩
    · split <;> exact ⟨_, _, rfl⟩

theorem elements_pieces (p : List Nat) : _root_.Spec.Pieces p (elements p) := by
  unfold _root_.Spec.Pieces
  rw [← joinElements_eq]
  induction p with
  | nil => exact ⟨rfl, by simp [elements]⟩
  | cons c p ih =>
    obtain ⟨x, l, e⟩ := elements_ne p
    obtain ⟨h1, h2⟩ := ih
    rw [elements]
    by_cases hc : c = 47
    · rw [if_pos hc, e]
      rw [e] at h1 h2
      refine ⟨?_, ?_⟩
      · rw [joinElements]
        · rw [← h1, hc]; rfl
        · simp
      · intro y hy
        rcases List.mem_cons.1 hy with rfl | hy
        · simp
        · exact h2 y hy
    · rw [if_neg hc, e]
      rw [e] at h1 h2
      refine ⟨?_, ?_⟩
      · cases l with
        | nil => simp only [joinElements] at h1 ⊢; rw [h1]
        | cons y l =>
          rw [joinElements] at h1 ⊢
          · rw [h1]; rfl
          · simp
          · simp
      · intro y hy
        rcases List.mem_cons.1 hy with rfl | hy
        · intro hm
          rcases List.mem_cons.1 hm with hm | hm
          · exact hc hm.symm
          · exact h2 x (by simp) hm
        · exact h2 y (by simp [hy])

theorem simple_snoc {rooted : Bool} {a : List (List Nat)} {k : List Nat} (h : _root_.Spec.Simple rooted (a ++ [k])) :
    (k = t!".." ∧ rooted = false ∧ ∃ n, a = List.replicate n t!"..") ∨
      (_root_.Spec.FileName k ∧ _root_.Spec.Simple rooted a) := by
  obtain ⟨n, names, h1, h2, h3⟩ := h
  rcases List.eq_nil_or_concat names with rfl | ⟨ns, y, rfl⟩
  · left
    cases n with
    | zero =>
      have := congrArg List.length h1
      simp at this
    | succ n =>
      rw [List.append_nil, List.replicate_succ'] at h1
      obtain ⟨h4, h5⟩ := List.append_inj' h1 rfl
      refine ⟨(List.cons.inj h5).1, ?_, n, h4⟩
      cases rooted with
      | true => exact absurd (h3 rfl) (by simp)
      | false => rfl
  · right
    rw [List.concat_eq_append, ← List.append_assoc] at h1
    obtain ⟨h4, h5⟩ := List.append_inj' h1 rfl
    obtain rfl := (List.cons.inj h5).1
    exact ⟨h2 _ (by simp), n, ns, h4, fun x hx => h2 x (by simp [hx]), h3⟩

theorem cleanElement_skip (rooted : Bool) (kept : List (List Nat)) {x : List Nat} (hx : x = [] ∨ x = t!".") :
    cleanElement rooted kept x = kept := by
  unfold cleanElement
  exact if_pos hx

theorem clean_fold (rooted : Bool) (rest kept : List (List Nat)) (hk : _root_.Spec.Simple rooted kept.reverse)
    (hp : ∀ x ∈ rest, 47 ∉ x) :
    _root_.Spec.Simple rooted (rest.foldl (cleanElement rooted) kept).reverse ∧
      Relation.ReflTransGen (_root_.Spec.Shorter rooted) (kept.reverse ++ rest) (rest.foldl (cleanElement rooted) kept).reverse := by
  induction rest generalizing kept with
  | nil => exact ⟨hk, by rw [List.append_nil]; exact .refl⟩
  | cons x rest ih =>
    have hp' : ∀ y ∈ rest, 47 ∉ y := fun y hy => hp y (by simp [hy])
    rw [List.foldl_cons]
    by_cases hx : x = [] ∨ x = t!"."
    · rw [cleanElement_skip _ _ hx]
      obtain ⟨h1, h2⟩ := ih kept hk hp'
      refine ⟨h1, .head ?_ h2⟩
      rcases hx with rfl | rfl
      · exact .empty _ _
      · exact .dot _ _
    · rw [cleanElement.eq_def, if_neg hx]
      by_cases hu : x = t!".."
      · rw [if_pos hu]
        subst hu
        cases kept with
        | nil =>
          cases rooted with
          | true =>
            obtain ⟨h1, h2⟩ := ih [] ⟨0, [], rfl, nofun, fun _ => rfl⟩ hp'
            exact ⟨h1, .head (.root _ rfl) h2⟩
          | false =>
            exact ih [t!".."] ⟨1, [], rfl, nofun, nofun⟩ hp'
        | cons k l =>
          rw [List.reverse_cons] at hk
          by_cases hku : k = t!".."
          · simp only [hku, if_true]
            rcases simple_snoc hk with ⟨_, hr, n, hn⟩ | ⟨hf, _⟩
            · have hs : _root_.Spec.Simple rooted (t!".." :: t!".." :: l).reverse := by
                refine ⟨n + 2, [], ?_, nofun, fun h => ?_⟩
                · rw [List.append_nil, List.reverse_cons, List.reverse_cons, hn, List.replicate_succ', List.replicate_succ']
                · rw [hr] at h; cases h
              obtain ⟨h1, h2⟩ := ih _ hs hp'
              refine ⟨h1, ?_⟩
              simpa using h2
            · exact absurd hku hf.2.2.2
          · simp only [hku, if_false]
            rcases simple_snoc hk with ⟨h, _⟩ | ⟨hf, hs⟩
            · exact absurd h hku
            · obtain ⟨h1, h2⟩ := ih _ hs hp'
              refine ⟨h1, .head ?_ h2⟩
              have := _root_.Spec.Shorter.up (rooted := rooted) l.reverse k rest hf
              simpa using this
      · rw [if_neg hu]
        have hf : _root_.Spec.FileName x := ⟨fun h => hx (Or.inl h), hp x (by simp), fun h => hx (Or.inr h), hu⟩
        have hs : _root_.Spec.Simple rooted (x :: kept).reverse := by
          obtain ⟨n, names, h1, h2, h3⟩ := hk
          refine ⟨n, names ++ [x], by rw [List.reverse_cons, h1, List.append_assoc], fun y hy => ?_, h3⟩
          rcases List.mem_append.1 hy with hy | hy
          · exact h2 y hy
          · rw [List.mem_singleton.1 hy]; exact hf
        obtain ⟨h1, h2⟩ := ih _ hs hp'
        exact ⟨h1, by simpa using h2⟩

/-- C146: any path whatever is shortened step by step, each step without changing its meaning, until it has no empty name, no `.`, and
no `..` except at the beginning of a path that does not begin with a slash; an empty path becomes `.`. -/
theorem C146_clean (p : List Nat) : ∃ l l', _root_.Spec.Pieces p l ∧
    Relation.ReflTransGen (_root_.Spec.Shorter (p.head? == some 47)) l l' ∧ _root_.Spec.Simple (p.head? == some 47) l' ∧
    ((p.head? = some 47 ∧ clean p = 47 :: [47].intercalate l') ∨
      (p.head? ≠ some 47 ∧ l' = [] ∧ clean p = t!".") ∨ (p.head? ≠ some 47 ∧ l' ≠ [] ∧ clean p = [47].intercalate l')) := by
  obtain ⟨h1, h2⟩ := clean_fold (p.head? == some 47) (elements p) [] ⟨0, [], rfl, nofun, fun _ => rfl⟩ (elements_pieces p).2
  refine ⟨elements p, _, elements_pieces p, h2, h1, ?_⟩
  rw [← joinElements_eq]
  unfold clean
  by_cases hr : p.head? = some 47
  · left
    exact ⟨hr, if_pos (by rw [hr]; rfl)⟩
  · right
    have hb : ¬ (p.head? == some 47) = true := by simpa using hr
    simp only [if_neg hb]
    by_cases hl : (List.foldl (cleanElement (p.head? == some 47)) [] (elements p)).reverse = []
    · left; exact ⟨hr, hl, if_pos hl⟩
    · right; exact ⟨hr, hl, if_neg hl⟩

theorem elements_path_any (l : List (List Nat)) (h : ∀ x ∈ l, 47 ∉ x) : elements (_root_.Spec.path l) = [] :: l := by
  induction l with
  | nil => rfl
  | cons x l ih =>
    have e1 : _root_.Spec.path (x :: l) = 47 :: (x ++ _root_.Spec.path l) := by simp [_root_.Spec.path]
    have hx := elements_name x (h x (by simp))
    rw [e1, elements, if_pos rfl]
    congr 1
    cases l with
    | nil => simpa [_root_.Spec.path] using hx
    | cons y l =>
      have e2 : _root_.Spec.path (y :: l) = 47 :: (y ++ _root_.Spec.path l) := by simp [_root_.Spec.path]
      have ih := ih (fun z hz => h z (by simp [hz]))
      rw [e2, elements, if_pos rfl] at ih
      rw [e2, elements_append, hx, List.cons.inj ih |>.2]
      rfl

theorem stays_fold (below rest kept : List (List Nat)) (hk : ∀ x ∈ kept, _root_.Spec.FileName x) (hp : ∀ x ∈ rest, 47 ∉ x)
    (hs : _root_.Spec.Stays kept.length rest) :
    ∃ names, (∀ x ∈ names, _root_.Spec.FileName x) ∧ rest.foldl (cleanElement true) (kept ++ below) = names ++ below := by
  induction rest generalizing kept with
  | nil => exact ⟨kept, hk, rfl⟩
  | cons x rest ih =>
    have hp' : ∀ y ∈ rest, 47 ∉ y := fun y hy => hp y (by simp [hy])
    rw [List.foldl_cons]
    rw [_root_.Spec.Stays] at hs
    by_cases hx : x = [] ∨ x = t!"."
    · rw [if_pos hx] at hs
      rw [cleanElement_skip _ _ hx]
      exact ih kept hk hp' hs
    · rw [if_neg hx] at hs
      rw [cleanElement.eq_def, if_neg hx]
      by_cases hu : x = t!".."
      · rw [if_pos hu] at hs
        rw [if_pos hu]
        cases kept with
        | nil => exact absurd hs.1 (by simp)
        | cons k l =>
          simp only [List.cons_append, if_neg (hk k (by simp)).2.2.2]
          exact ih l (fun y hy => hk y (by simp [hy])) hp' hs.2
      · rw [if_neg hu] at hs
        rw [if_neg hu]
        exact ih (x :: kept) (fun y hy => by
          rcases List.mem_cons.1 hy with rfl | hy
          · exact ⟨fun h => hx (Or.inl h), hp _ (by simp), fun h => hx (Or.inr h), hu⟩
          · exact hk y hy) hp' hs

theorem expand_fold (home rest : List (List Nat)) (hh : ∀ x ∈ home, _root_.Spec.FileName x) (hr : ∀ x ∈ rest, 47 ∉ x) (hne : home ≠ []) :
    expand (some (_root_.Spec.path home)) (126 :: _root_.Spec.path rest) =
      some (47 :: joinElements (rest.foldl (cleanElement true) home.reverse).reverse) := by
  obtain ⟨t, ht⟩ : ∃ t, _root_.Spec.path home = 47 :: t := by
    cases home with
    | nil => exact absurd rfl hne
    | cons x l => exact ⟨_, rfl⟩
  have main : join (_root_.Spec.path home) (_root_.Spec.path rest) =
      47 :: joinElements (rest.foldl (cleanElement true) home.reverse).reverse := by
    unfold join clean
    rw [if_pos (by rw [ht]; simp), elements_append, elements_path _ hh, elements_path_any _ hr]
    have hroot : ((_root_.Spec.path home ++ 47 :: _root_.Spec.path rest).head? == some 47) = true := by rw [ht]; rfl
    simp only [hroot, if_true]
    have skip (kept : List (List Nat)) : cleanElement true kept [] = kept := by simp [cleanElement]
    rw [List.cons_append, List.foldl_cons, skip, List.foldl_append, List.foldl_cons, skip, clean_names _ _ hh, List.append_nil]
  unfold expand
  simp only [ne_eq, not_true_eq_false, if_false]
  cases rest with
  | nil =>
    show some (join (_root_.Spec.path home) (_root_.Spec.path [])) = _
    rw [main]
  | cons x l =>
    have : _root_.Spec.path (x :: l) = 47 :: (x ++ _root_.Spec.path l) := by simp [_root_.Spec.path]
    rw [this]
    simp only [not_true_eq_false, false_and, if_false]
    rw [← this]
    show some (join (_root_.Spec.path home) (_root_.Spec.path (x :: l))) = _
    rw [main]

/-- C146: a path with any names, `.` and `..` in it that never leaves the home directory becomes a path below it. -/
theorem C146_stays (home rest : List (List Nat)) (hh : ∀ x ∈ home, _root_.Spec.FileName x) (hr : ∀ x ∈ rest, 47 ∉ x) (hne : home ≠ [])
    (hs : _root_.Spec.Stays 0 rest) :
    ∃ names, (∀ x ∈ names, _root_.Spec.FileName x) ∧
      expand (some (_root_.Spec.path home)) (126 :: _root_.Spec.path rest) = some (_root_.Spec.path (home ++ names)) := by
  obtain ⟨names, h1, h2⟩ := stays_fold home.reverse rest [] nofun hr hs
  refine ⟨names.reverse, fun x hx => h1 x (by simpa using hx), ?_⟩
  rw [expand_fold home rest hh hr hne, show rest.foldl (cleanElement true) home.reverse = names ++ home.reverse from h2]
  rw [List.reverse_append, List.reverse_reverse, join_path _ (by simp [hne])]

/-- C146 fails: a path that goes up leaves the home directory. -/
theorem C146_fails_up (above : List (List Nat)) (user x : List Nat) (ha : ∀ y ∈ above, _root_.Spec.FileName y)
    (hu : _root_.Spec.FileName user) (hx : _root_.Spec.FileName x) :
    expand (some (_root_.Spec.path (above ++ [user]))) (126 :: _root_.Spec.path [t!"..", x]) = some (_root_.Spec.path (above ++ [x])) ∧
      (x ≠ user → ¬ ∃ names, above ++ [x] = above ++ [user] ++ names) := by
  constructor
  · rw [expand_fold _ _ (fun y hy => by
      rcases List.mem_append.1 hy with hy | hy
      · exact ha y hy
      · rw [List.mem_singleton.1 hy]; exact hu) (fun y hy => by
      rcases List.mem_cons.1 hy with rfl | hy
      · decide
      · rw [List.mem_singleton.1 hy]; exact hx.2.1) (by simp)]
    have e1 : cleanElement true (user :: above.reverse) t!".." = above.reverse := by
      simp only [cleanElement, if_neg hu.2.2.2]
      rfl
    have e2 : cleanElement true above.reverse x = x :: above.reverse := by
      unfold cleanElement
      rw [if_neg (by rintro (h | h); exact hx.1 h; exact hx.2.2.1 h), if_neg hx.2.2.2]
    rw [List.reverse_append, List.reverse_singleton, List.singleton_append, List.foldl_cons, e1, List.foldl_cons, e2, List.foldl_nil,
      List.reverse_cons, List.reverse_reverse, join_path _ (by simp)]
  · rintro hne ⟨names, h⟩
    rw [List.append_assoc] at h
    have := List.append_cancel_left h
    exact hne (List.cons.inj this).1

example : expand (some t!"/home/bob") t!"~/a/../b//./c" = some t!"/home/bob/b/c" ∧
    expand (some t!"/home/bob") t!"~/../eve" = some t!"/home/eve" ∧
    _root_.Spec.Stays 0 [t!"a", t!"..", t!"b", t!"", t!".", t!"c"] ∧ clean t!"a/../.." = t!".." ∧ clean t!"a/.." = t!"." := by
  refine ⟨by decide +kernel, by decide +kernel, ?_, by decide +kernel, by decide +kernel⟩
  simp [_root_.Spec.Stays]

/-! ## C134 -/

/-- The kinds of values. -/
def C134_kind : FlagVal → List Nat
  | .int _ => t!"int"
  | .uint32 _ => t!"uint32"
  | .uint _ => t!"uint"
  | .text _ => t!"string"
  | .bool _ => t!"bool"

/-- C134, exactly: a command line is accepted if and only if each flag in it is one of the command or of all commands, with a value of
its kind. -/
theorem C134_exact (c : Cmd) (given : List (List Nat × FlagVal)) :
    (runFlags c given).isSome ↔ ∀ a ∈ given, ∃ r ∈ flagRegs, (r.cmd = c ∨ r.cmd = .root) ∧ r.name = a.1 ∧
      C134_kind r.default = C134_kind a.2 := by
  have like : ∀ x y : FlagVal, x.like y = true ↔ C134_kind x = C134_kind y := by
    intro x y
    cases x <;> cases y <;> simp [FlagVal.like, C134_kind]
  rw [C134_runs]
  simp only [like]

example : (runFlags .discover [(t!"size", .uint32 5), (t!"concurency", .int 2)]).isSome = true ∧
    (runFlags .discover [(t!"size", .int 5)]).isSome = false ∧ (runFlags .whois [(t!"size", .uint32 5)]).isSome = false := by
  decide +kernel

end Bac.Props
