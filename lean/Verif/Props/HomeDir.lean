import Verif.Model.HomeDir
import Verif.Props.Flags
/-!
# The home directory and the settings of the commands
-/

/-! ## What is expected -/

namespace Spec

/-- A line of the password file as `getent` prints it: name, password, numbers of user and group, comment, home directory, shell. -/
def passwdLine (name password uid gid comment home shell : List Nat) : List Nat :=
  name ++ 58 :: password ++ 58 :: uid ++ 58 :: gid ++ 58 :: comment ++ 58 :: home ++ 58 :: shell ++ [10]

/-- A name of a file or directory. -/
def FileName (x : List Nat) : Prop := x ≠ [] ∧ 47 ∉ x ∧ x ≠ t!"." ∧ x ≠ t!".."

/-- The absolute path through some names. -/
def path (l : List (List Nat)) : List Nat := l.flatMap fun x => 47 :: x

end Spec

namespace Bac.Props
open Bac.HomeDir

/-! ## C144 The home directory is found -/

/-- C144: the variable HOME, if it is set. -/
theorem C144_home (e : Env) (h : e.home ≠ []) : detect e = some e.home := by
  unfold detect dirWindows dirUnix
  simp [h]

theorem splitN_cons (n : Nat) (x s : List Nat) (hx : 58 ∉ x) : splitN 58 (n + 2) (x ++ 58 :: s) = x :: splitN 58 (n + 1) s := by
  have h1 : (x ++ 58 :: s).dropWhile (· ≠ 58) = 58 :: s := by
    induction x with
    | nil => simp
    | cons a l ih =>
      have : a ≠ 58 := fun h => hx (by simp [h])
      simp only [List.cons_append, List.dropWhile_cons, ne_eq, this, not_false_eq_true, decide_true, if_true]
      exact ih (fun h => hx (by simp [h]))
  have h2 : (x ++ 58 :: s).takeWhile (· ≠ 58) = x := by
    induction x with
    | nil => simp
    | cons a l ih =>
      have : a ≠ 58 := fun h => hx (by simp [h])
      simp only [List.cons_append, List.takeWhile_cons, ne_eq, this, not_false_eq_true, decide_true, if_true]
      rw [ih (fun h => hx (by simp [h])) (by
        simpa only [List.cons_append, List.dropWhile_cons, ne_eq, this, not_false_eq_true, decide_true, if_true] using h1)]
  rw [splitN, h1, h2]

/-- Trimming a text that begins with something else than white space and has something else further on keeps it up to there. -/
theorem trim_keep (a : Nat) (x : List Nat) (b : Nat) (y : List Nat) (ha : isSpace a = false) (hb : isSpace b = false) :
    ∃ z, trimSpace (a :: x ++ b :: y) = a :: x ++ b :: z := by
  have h1 : trimLeft (a :: x ++ b :: y) = a :: x ++ b :: y := by
    simp [trimLeft, ha]
  have h2 (w : List Nat) (v : List Nat) : ∃ z, trimLeft (w ++ b :: v) = z ++ b :: v := by
    induction w with
    | nil => exact ⟨[], by simp [trimLeft, hb]⟩
    | cons c w ih =>
      by_cases hc : isSpace c = true
      · obtain ⟨z, hz⟩ := ih
        exact ⟨z, by simpa [trimLeft, hc] using hz⟩
      · exact ⟨c :: w, by simp [trimLeft, hc]⟩
  obtain ⟨z, hz⟩ := h2 y.reverse (a :: x).reverse
  refine ⟨z.reverse, ?_⟩
  unfold trimSpace
  rw [h1]
  have : (a :: x ++ b :: y).reverse = y.reverse ++ b :: (a :: x).reverse := by simp
  rw [this, hz]
  simp

/-- C144 (partial): without HOME, the home directory of the password file, on systems with getent. -/
theorem C144_partial (e : Env) (ho : e.os = .other) (hh : e.home = []) (name password uid gid comment home shell : List Nat)
    (hn : ∃ a x, name = a :: x ∧ isSpace a = false)
    (hc : ∀ x ∈ [name, password, uid, gid, comment, home], 58 ∉ x)
    (hg : e.getent = .prints (Spec.passwdLine name password uid gid comment home shell)) : detect e = some home := by
  obtain ⟨a, x, rfl, ha⟩ := hn
  have h1 := hc (a :: x) (by simp)
  have h2 := hc password (by simp)
  have h3 := hc uid (by simp)
  have h4 := hc gid (by simp)
  have h5 := hc comment (by simp)
  have h6 := hc home (by simp)
  obtain ⟨z, hz⟩ := trim_keep a (x ++ 58 :: password ++ 58 :: uid ++ 58 :: gid ++ 58 :: comment ++ 58 :: home) 58 (shell ++ [10]) ha
    (by decide)
  have e1 : trimSpace (Spec.passwdLine (a :: x) password uid gid comment home shell) =
      a :: x ++ 58 :: (password ++ 58 :: (uid ++ 58 :: (gid ++ 58 :: (comment ++ 58 :: (home ++ 58 :: z))))) := by
    rw [show Spec.passwdLine (a :: x) password uid gid comment home shell =
      a :: (x ++ 58 :: password ++ 58 :: uid ++ 58 :: gid ++ 58 :: comment ++ 58 :: home) ++ 58 :: (shell ++ [10]) by
        simp [Spec.passwdLine], hz]
    simp
  unfold detect dirUnix
  rw [if_neg (by rw [ho]; decide), if_neg (by rw [hh]; decide), if_neg (by rw [ho]; decide), hg]
  simp only [e1]
  rw [if_pos (by simp), splitN_cons _ _ _ h1, splitN_cons _ _ _ h2, splitN_cons _ _ _ h3, splitN_cons _ _ _ h4, splitN_cons _ _ _ h5,
    splitN_cons _ _ _ h6]
  rfl

/-- C144 fails: where there is no getent, the shell is not asked, although the code means to. -/
theorem C144_fails (e : Env) (ho : e.os = .other) (hh : e.home = []) (hg : e.getent = .missing) : detect e = none := by
  unfold detect dirUnix
  rw [if_neg (by rw [ho]; decide), if_neg (by rw [hh]; decide), if_neg (by rw [ho]; decide), hg]

/-- C144, errors: on these systems the home directory is reported as unknown exactly if HOME is empty and either getent is missing or
fails, or it prints no sixth field and the shell does not help. -/
theorem C144_error (e : Env) (ho : e.os = .other) :
    detect e = none ↔ e.home = [] ∧ (e.getent = .missing ∨ e.getent = .failed ∨
      ∃ out, e.getent = .prints out ∧ (trimSpace out = [] ∨ (splitN 58 7 (trimSpace out)).length ≤ 5) ∧
        ∀ t, e.shell = .prints t → trimSpace t = []) := by
  have hs : fromShell e = none ↔ ∀ t, e.shell = .prints t → trimSpace t = [] := by
    unfold fromShell
    cases e.shell <;> simp
  unfold detect dirUnix
  rw [if_neg (by rw [ho]; decide)]
  by_cases hh : e.home = []
  · rw [if_neg (by rw [hh]; decide), if_neg (by rw [ho]; decide)]
    cases hg : e.getent with
    | missing => simp [hh]
    | failed => simp [hh]
    | prints out =>
      simp only [hh, true_and, reduceCtorEq, false_or, Ran.prints.injEq, exists_eq_left']
      by_cases ht : trimSpace out = []
      · simp [ht, hs]
      · rw [if_pos ht]
        cases hx : (splitN 58 7 (trimSpace out))[5]? with
        | none =>
          rw [List.getElem?_eq_none_iff] at hx
          simp [ht, hx, hs]
        | some d =>
          have := (List.getElem?_eq_some_iff.1 hx).1
          simp only [reduceCtorEq, ht, false_or, false_iff, not_and]
          intro hc
          omega
  · simp [hh]

example : detect { os := .other, getent := .prints t!"bob:x:1000:1000:Bob:/home/bob:/bin/sh\n" } = some t!"/home/bob" :=
  C144_partial _ rfl rfl t!"bob" t!"x" t!"1000" t!"1000" t!"Bob" t!"/home/bob" t!"/bin/sh" ⟨98, t!"ob", rfl, rfl⟩ (by decide) rfl

/-- An empty home directory is not reported as an error. -/
example : detect { os := .other, getent := .prints t!"bob:x:1000:1000:Bob::/bin/sh\n" } = some [] :=
  C144_partial _ rfl rfl t!"bob" t!"x" t!"1000" t!"1000" t!"Bob" [] t!"/bin/sh" ⟨98, t!"ob", rfl, rfl⟩ (by decide) rfl

example : detect { os := .other, getent := .missing, shell := .prints t!"/home/bob\n" } = none := C144_fails _ rfl rfl rfl

/-! ## C145 The cache -/

/-- What is known about a return of `Dir`. -/
def Explained (disabled : Bool) (s : HomeDir.State) (b : Nat) (r : Option (List Nat)) : Prop :=
  ∃ τ, τ ≤ s.now ∧ detect (s.past τ) = r ∧ (∀ ρ ∈ s.resets, ρ ≤ b → ρ ≤ τ) ∧ (disabled = true ∨ r = none → b ≤ τ)

structure HInv (disabled : Bool) (s : HomeDir.State) : Prop where
  env : s.past s.now = s.env
  resets : ∀ ρ ∈ s.resets, ρ ≤ s.now
  cache : s.cache ≠ [] → ∃ τ, τ ≤ s.now ∧ detect (s.past τ) = some s.cache ∧ ∀ ρ ∈ s.resets, ρ ≤ τ
  begun : ∀ g ∈ s.goroutines, ∀ b, (g = .called b ∨ g = .lock b) → b ≤ s.now
  returned : ∀ b r, .returned b r ∈ s.goroutines → b ≤ s.now ∧ Explained disabled s b r

theorem explained_later {disabled : Bool} {s s' : HomeDir.State} {b : Nat} {r : Option (List Nat)} (h : Explained disabled s b r)
    (hb : b ≤ s.now) (hn : s'.now = s.now + 1) (hp : ∀ t, t ≤ s.now → s'.past t = s.past t)
    (hr : ∀ ρ ∈ s'.resets, ρ ∈ s.resets ∨ ρ = s.now + 1) : Explained disabled s' b r := by
  obtain ⟨τ, h1, h2, h3, h4⟩ := h
  refine ⟨τ, by omega, by rw [hp τ h1]; exact h2, fun ρ hρ hle => ?_, h4⟩
  rcases hr ρ hρ with h | h
  · exact h3 ρ h hle
  · omega

/-- A step that leaves the cache and `resets` alone and moves one goroutine. -/
theorem hinv_move {disabled : Bool} {s s' : HomeDir.State} (hi : HInv disabled s) (e : Env) (l₁ l₂ : List Goroutine) (x y : Goroutine)
    (hs : s.goroutines = l₁ ++ x :: l₂) (hg : s'.goroutines = l₁ ++ y :: l₂) (hn : s'.now = s.now + 1)
    (hp : s'.past = fun t => if t ≤ s.now then s.past t else e) (he : s'.env = e)
    (hc : s'.cache = s.cache ∨ ∃ τ, τ ≤ s.now ∧ detect (s.past τ) = some s'.cache ∧ ∀ ρ ∈ s.resets, ρ ≤ τ)
    (hr : s'.resets = s.resets)
    (hy : ∀ b, (y = .called b ∨ y = .lock b) → b ≤ s.now)
    (hy' : ∀ b r, y = .returned b r → b ≤ s.now ∧ Explained disabled s b r) : HInv disabled s' := by
  have hp' : ∀ t, t ≤ s.now → s'.past t = s.past t := fun t ht => by rw [hp]; simp [ht]
  have lift : ∀ {c : List Nat}, (∃ τ, τ ≤ s.now ∧ detect (s.past τ) = some c ∧ ∀ ρ ∈ s.resets, ρ ≤ τ) →
      ∃ τ, τ ≤ s'.now ∧ detect (s'.past τ) = some c ∧ ∀ ρ ∈ s'.resets, ρ ≤ τ := by
    rintro c ⟨τ, h1, h2, h3⟩
    exact ⟨τ, by omega, by rw [hp' τ h1]; exact h2, by rw [hr]; exact h3⟩
  refine ⟨by rw [hp, hn, he]; simp only; rw [if_neg (by omega)], fun ρ hρ => ?_, fun hne => ?_, fun g hgm b hb => ?_, fun b r hm => ?_⟩
  · have := hi.resets ρ (hr ▸ hρ); omega
  · rcases hc with hc | hc
    · rw [hc] at hne ⊢
      exact lift (hi.cache hne)
    · exact lift hc
  · rw [hg] at hgm
    simp only [List.mem_append, List.mem_cons] at hgm
    rw [hn]
    rcases hgm with hm | rfl | hm
    · have := hi.begun g (by rw [hs]; simp [hm]) b hb; omega
    · have := hy b hb; omega
    · have := hi.begun g (by rw [hs]; simp [hm]) b hb; omega
  · rw [hg] at hm
    simp only [List.mem_append, List.mem_cons] at hm
    have old : b ≤ s.now ∧ Explained disabled s b r := by
      rcases hm with hm | hm | hm
      · exact hi.returned b r (by rw [hs]; simp [hm])
      · exact hy' b r hm.symm
      · exact hi.returned b r (by rw [hs]; simp [hm])
    exact ⟨by omega, explained_later old.2 old.1 hn hp' (fun ρ hρ => Or.inl (hr ▸ hρ))⟩

theorem hinv_reach {disabled : Bool} {e : Env} {n : Nat} {s : HomeDir.State} (h : HomeDir.Reach disabled e n s) : HInv disabled s := by
  induction h with
  | start =>
    constructor <;> simp [HomeDir.start, List.mem_replicate]
  | @step s s' r st hi =>
    cases st with
    | change e' =>
      refine ⟨by simp only [State.tick]; rw [if_neg (by omega)], fun ρ hρ => Nat.le_succ_of_le (hi.resets ρ hρ), fun hne => ?_,
        fun g hg b hb => Nat.le_succ_of_le (hi.begun g hg b hb), fun b r hm => ?_⟩
      · obtain ⟨τ, h1, h2, h3⟩ := hi.cache hne
        exact ⟨τ, Nat.le_succ_of_le h1, by simp only [State.tick, h1, if_true]; exact h2, h3⟩
      · have old := hi.returned b r hm
        exact ⟨Nat.le_succ_of_le old.1, explained_later old.2 old.1 rfl (fun t ht => by simp [State.tick, ht]) (fun ρ hρ => Or.inl hρ)⟩
    | reset =>
      refine ⟨by simp only [State.tick]; rw [if_neg (by omega)], fun ρ hρ => ?_, fun hne => absurd rfl hne,
        fun g hg b hb => Nat.le_succ_of_le (hi.begun g hg b hb), fun b r hm => ?_⟩
      · rcases List.mem_cons.1 hρ with rfl | hρ
        · exact Nat.le_refl _
        · exact Nat.le_succ_of_le (hi.resets ρ hρ)
      · have old := hi.returned b r hm
        exact ⟨Nat.le_succ_of_le old.1, explained_later old.2 old.1 rfl (fun t ht => by simp [State.tick, ht]) (fun ρ hρ => by
          rcases List.mem_cons.1 hρ with rfl | hρ
          · exact Or.inr rfl
          · exact Or.inl hρ)⟩
    | call l₁ l₂ hg =>
      exact hinv_move hi s.env l₁ l₂ _ _ hg rfl rfl rfl rfl (Or.inl rfl) rfl
        (fun b hb => by rcases hb with hb | hb <;> cases hb; exact Nat.le_refl _) nofun
    | hit l₁ l₂ b hg hd hc =>
      refine hinv_move hi s.env l₁ l₂ _ _ hg rfl rfl rfl rfl (Or.inl rfl) rfl
        (fun b hb => by rcases hb with hb | hb <;> cases hb) (fun b' r hb => ?_)
      cases hb
      have hb := hi.begun _ (by rw [hg]; simp) b (Or.inl rfl)
      obtain ⟨τ, h1, h2, h3⟩ := hi.cache hc
      exact ⟨hb, τ, h1, h2, fun ρ hρ _ => h3 ρ hρ, fun h => by
        rcases h with h | h
        · rw [hd] at h; cases h
        · cases h⟩
    | miss l₁ l₂ b hg hd =>
      refine hinv_move hi s.env l₁ l₂ _ _ hg rfl rfl rfl rfl (Or.inl rfl) rfl (fun b' hb => ?_) nofun
      rcases hb with hb | hb <;> cases hb
      exact hi.begun _ (by rw [hg]; simp) b (Or.inl rfl)
    | fail l₁ l₂ b hg hd =>
      refine hinv_move hi s.env l₁ l₂ _ _ hg rfl rfl rfl rfl (Or.inl rfl) rfl
        (fun b hb => by rcases hb with hb | hb <;> cases hb) (fun b' r hb => ?_)
      cases hb
      have hb := hi.begun _ (by rw [hg]; simp) b (Or.inr rfl)
      exact ⟨hb, s.now, Nat.le_refl _, by rw [hi.env]; exact hd, fun ρ hρ _ => hi.resets ρ hρ, fun _ => hb⟩
    | found l₁ l₂ b d hg hd =>
      refine hinv_move hi s.env l₁ l₂ _ _ hg rfl rfl rfl rfl
        (Or.inr ⟨s.now, Nat.le_refl _, by rw [hi.env]; exact hd, hi.resets⟩) rfl
        (fun b hb => by rcases hb with hb | hb <;> cases hb) (fun b' r hb => ?_)
      cases hb
      have hb := hi.begun _ (by rw [hg]; simp) b (Or.inr rfl)
      exact ⟨hb, s.now, Nat.le_refl _, by rw [hi.env]; exact hd, fun ρ hρ _ => hi.resets ρ hρ, fun _ => hb⟩
    | next l₁ l₂ b r hg =>
      exact hinv_move hi s.env l₁ l₂ _ _ hg rfl rfl rfl rfl (Or.inl rfl) rfl
        (fun b hb => by rcases hb with hb | hb <;> cases hb) nofun

/-- C145 (partial).  However many goroutines call `Dir`: what a call returns is the home directory at some time before it returned, and
no earlier than any `Reset` before the call; an error, and everything when the cache is not used, is of the time of the call. -/
theorem C145_partial (disabled : Bool) (e : Env) (n : Nat) (s : HomeDir.State) (h : HomeDir.Reach disabled e n s) (b : Nat)
    (r : Option (List Nat)) (hr : .returned b r ∈ s.goroutines) :
    ∃ τ, τ ≤ s.now ∧ detect (s.past τ) = r ∧ (∀ ρ ∈ s.resets, ρ ≤ b → ρ ≤ τ) ∧ (disabled = true ∨ r = none → b ≤ τ) :=
  ((hinv_reach h).returned b r hr).2

/-- C145 fails: after a first call, later calls return the old directory, whatever HOME is set to. -/
theorem C145_fails (e e' : Env) (d : List Nat) (hd : detect e = some d) (hne : d ≠ []) (n : Nat) :
    ∃ s b, HomeDir.Reach false e (n + 1) s ∧ s.env = e' ∧ (∀ t, b ≤ t → t ≤ s.now → s.past t = e') ∧
      s.goroutines = .returned b (some d) :: List.replicate n .idle := by
  have r := HomeDir.Reach.start (disabled := false) (e := e) (n := n + 1)
  have r := r.step (.call _ [] (List.replicate n .idle) rfl)
  have r := r.step (.miss _ [] (List.replicate n .idle) 0 rfl (Or.inr rfl))
  have r := r.step (.found _ [] (List.replicate n .idle) 0 d rfl hd)
  have r := r.step (.next _ [] (List.replicate n .idle) 0 _ rfl)
  have r := r.step (.change _ e')
  have r := r.step (.call _ [] (List.replicate n .idle) rfl)
  have r := r.step (.hit _ [] (List.replicate n .idle) 5 rfl rfl hne)
  refine ⟨_, 5, r, rfl, fun t h1 h2 => ?_, rfl⟩
  have : t = 5 ∨ t = 6 ∨ t = 7 := by
    have : t ≤ 7 := h2
    omega
  rcases this with rfl | rfl | rfl <;> rfl

/-- HOME is changed from /a to /b; the call still returns /a. -/
example : ∃ s b, HomeDir.Reach false { os := .other, home := t!"/a" } 1 s ∧ s.env = { os := .other, home := t!"/b" } ∧
    (∀ t, b ≤ t → t ≤ s.now → s.past t = { os := .other, home := t!"/b" }) ∧ s.goroutines = [.returned b (some t!"/a")] :=
  C145_fails { os := .other, home := t!"/a" } { os := .other, home := t!"/b" } t!"/a" rfl (by decide) 0

/-! ## C146 Expand -/

theorem elements_append (a b : List Nat) : elements (a ++ 47 :: b) = elements a ++ elements b := by
  induction a with
  | nil => rfl
  | cons c a ih =>
    simp only [List.cons_append, elements]
    by_cases hc : c = 47
    · simp [hc, ih]
    · rw [if_neg hc, if_neg hc, ih]
      cases h : elements a with
      | nil =>
        exfalso
        cases a with
        | nil => cases h
        | cons d a =>
          simp only [elements] at h
          split at h
          · cases h
          · split at h <;> cases h
      | cons x l => rfl

theorem elements_name (x : List Nat) (h : 47 ∉ x) : elements x = [x] := by
  induction x with
  | nil => rfl
  | cons c x ih =>
    have hc : c ≠ 47 := fun e => h (by simp [e])
    rw [elements, if_neg hc, ih (fun e => h (by simp [e]))]

theorem elements_path (l : List (List Nat)) (h : ∀ x ∈ l, Spec.FileName x) : elements (Spec.path l) = [] :: l := by
  induction l with
  | nil => rfl
  | cons x l ih =>
    have e1 : Spec.path (x :: l) = 47 :: (x ++ Spec.path l) := by simp [Spec.path]
    have hx := elements_name x (h x (by simp)).2.1
    rw [e1, elements, if_pos rfl]
    congr 1
    cases l with
    | nil => simpa [Spec.path] using hx
    | cons y l =>
      have e2 : Spec.path (y :: l) = 47 :: (y ++ Spec.path l) := by simp [Spec.path]
      have ih := ih (fun z hz => h z (by simp [hz]))
      rw [e2, elements, if_pos rfl] at ih
      rw [e2, elements_append, hx, List.cons.inj ih |>.2]
      rfl

theorem clean_names (rooted : Bool) (l : List (List Nat)) (h : ∀ x ∈ l, Spec.FileName x) (kept : List (List Nat)) :
    l.foldl (cleanElement rooted) kept = l.reverse ++ kept := by
  induction l generalizing kept with
  | nil => rfl
  | cons x l ih =>
    have hx := h x (by simp)
    have : cleanElement rooted kept x = x :: kept := by
      unfold cleanElement
      rw [if_neg (by rintro (h | h); exact hx.1 h; exact hx.2.2.1 h), if_neg hx.2.2.2]
    rw [List.foldl_cons, this, ih (fun y hy => h y (by simp [hy]))]
    simp

theorem join_path (l : List (List Nat)) (h : l ≠ []) : 47 :: joinElements l = Spec.path l := by
  induction l with
  | nil => exact absurd rfl h
  | cons x l ih =>
    cases l with
    | nil => simp [joinElements, Spec.path]
    | cons y l =>
      have := ih (by simp)
      rw [joinElements, this]
      · simp [Spec.path]
      · simp

/-- C146: a path below the home directory. -/
theorem C146_partial (home rest : List (List Nat)) (hh : ∀ x ∈ home, Spec.FileName x) (hr : ∀ x ∈ rest, Spec.FileName x) (hne : home ≠ []) :
    expand (some (Spec.path home)) (126 :: Spec.path rest) = some (Spec.path (home ++ rest)) := by
  have hp : ∃ t, Spec.path home = 47 :: t := by
    cases home with
    | nil => exact absurd rfl hne
    | cons x l => exact ⟨_, rfl⟩
  obtain ⟨t, ht⟩ := hp
  have main : join (Spec.path home) (Spec.path rest) = Spec.path (home ++ rest) := by
    unfold join clean
    rw [if_pos (by rw [ht]; simp), elements_append, elements_path _ hh, elements_path _ hr]
    have hroot : ((Spec.path home ++ 47 :: Spec.path rest).head? == some 47) = true := by rw [ht]; rfl
    simp only [hroot, if_true]
    have skip (kept : List (List Nat)) : cleanElement true kept [] = kept := by simp [cleanElement]
    rw [List.cons_append, List.foldl_cons, skip, List.foldl_append, List.foldl_cons, skip, clean_names _ _ hh, clean_names _ _ hr]
    rw [← join_path (home ++ rest) (by simp [hne])]
    simp
  unfold expand
  simp only [ne_eq, not_true_eq_false, if_false]
  cases rest with
  | nil =>
    show some (join (Spec.path home) (Spec.path [])) = _
    rw [main]
  | cons x l =>
    have : Spec.path (x :: l) = 47 :: (x ++ Spec.path l) := by simp [Spec.path]
    rw [this]
    simp only [not_true_eq_false, false_and, if_false]
    rw [← this]
    show some (join (Spec.path home) (Spec.path (x :: l))) = _
    rw [main]

/-- C146, other paths: they are left as they are, and the home directories of other users are refused. -/
theorem C146_other (dir : Option (List Nat)) (c : Nat) (rest : List Nat) :
    (c ≠ 126 → expand dir (c :: rest) = some (c :: rest)) ∧
    (c ≠ 47 → c ≠ 92 → expand dir (126 :: c :: rest) = none) := by
  constructor
  · intro h; simp [expand, h]
  · intro h1 h2; simp [expand, h1, h2]

/-- C146 fails: when the home directory is reported as empty (C144), a path below it becomes a path below the root. -/
theorem C146_fails (rest : List (List Nat)) (hr : ∀ x ∈ rest, Spec.FileName x) (hne : rest ≠ []) :
    expand (some []) (126 :: Spec.path rest) = some (Spec.path rest) := by
  cases rest with
  | nil => exact absurd rfl hne
  | cons x l =>
    have : Spec.path (x :: l) = 47 :: (x ++ Spec.path l) := by simp [Spec.path]
    unfold expand
    simp only [ne_eq, not_true_eq_false, if_false]
    rw [this]
    simp only [not_true_eq_false, false_and, if_false]
    rw [← this]
    show some (join [] (Spec.path (x :: l))) = _
    unfold join clean
    rw [if_neg (by simp), if_pos (by rw [this]; simp), elements_path _ hr]
    have hroot : ((Spec.path (x :: l)).head? == some 47) = true := by rw [this]; rfl
    simp only [hroot, if_true]
    have skip (kept : List (List Nat)) : cleanElement true kept [] = kept := by simp [cleanElement]
    rw [List.foldl_cons, skip, clean_names _ _ hr, ← join_path _ hne]
    simp

example : expand (some t!"/home/bob") t!"~/a/b.txt" = some t!"/home/bob/a/b.txt" :=
  C146_partial [t!"home", t!"bob"] [t!"a", t!"b.txt"] (by simp [Spec.FileName]) (by simp [Spec.FileName]) (by simp)

/-- `etc/passwd` below the home directory of somebody without one. -/
example : expand (detect { os := .other, getent := .prints t!"bob:x:1000:1000:Bob::/bin/sh\n" }) t!"~/etc/passwd" = some t!"/etc/passwd" := by
  rw [C144_partial _ rfl rfl t!"bob" t!"x" t!"1000" t!"1000" t!"Bob" [] t!"/bin/sh" ⟨98, t!"ob", rfl, rfl⟩ (by decide) rfl]
  exact C146_fails [t!"etc", t!"passwd"] (by simp [Spec.FileName]) (by simp)

/-! ## C147 Settings -/

/-- C147 fails, exactly: which variables a command runs with, and whether it runs, does not depend on the settings. -/
theorem C147_fails (dir : Option (List Nat)) (s₁ s₂ : List Nat → Settings) (c : Cmd) (given : List (List Nat × FlagVal)) :
    (runCommand dir s₁ c given).map Prod.fst = (runCommand dir s₂ c given).map Prod.fst := by
  unfold runCommand
  cases runFlags c given with
  | none => rfl
  | some vars =>
    simp only [Option.bind_eq_bind, Option.bind_some]
    split
    · rfl
    · cases dir <;> rfl

/-- C147 (partial): a flag that is given prevails over the settings. -/
theorem C147_partial (dir : Option (List Nat)) (s : List Nat → Settings) (c : Cmd) (given : List (List Nat × FlagVal)) (t : FlagVars)
    (u : Settings) (h : runCommand dir s c given = some (t, u)) (r : FlagReg) (hr : r ∈ flagsOf flagRegs c) (x : FlagVal)
    (hx : lastGiven r.name given = some x) : t r.var = some x := by
  refine C134_given c given t ?_ r hr x hx
  unfold runCommand at h
  cases hf : runFlags c given with
  | none => rw [hf] at h; cases h
  | some vars =>
    rw [hf] at h
    simp only [Option.bind_eq_bind, Option.bind_some] at h
    split at h
    · cases h; rfl
    · cases dir with
      | none => cases h
      | some d => cases h; rfl

/-- C147: without a home directory no command runs, unless a configuration file is named. -/
theorem C147_runs (dir : Option (List Nat)) (s : List Nat → Settings) (c : Cmd) (given : List (List Nat × FlagVal)) :
    (runCommand dir s c given).isSome = true ↔
      ∃ t, runFlags c given = some t ∧ (dir.isSome = true ∨ ∃ f, t .cfgFile = some (.text f) ∧ f ≠ []) := by
  unfold runCommand
  cases runFlags c given with
  | none => simp
  | some vars =>
    simp only [Option.bind_eq_bind, Option.bind_some, Option.some.injEq, exists_eq_left']
    split
    next x f hx => simp [hx]
    next hx =>
      cases dir with
      | some d => simp
      | none =>
        simp only [Option.bind_none, Option.isSome_none, Bool.false_eq_true, false_or, false_iff, not_exists, not_and]
        intro f hf
        cases f with
        | nil => exact fun h => h rfl
        | cons a f => exact absurd hf (hx a f)

/-- The configuration file says port 47809; the command uses 47808. -/
example : ∃ t u, runCommand (some t!"/home/bob") (fun _ n => if n = t!"port" then some (.int 47809) else none) .whois [] = some (t, u) ∧
    u t!"port" = some (.int 47809) ∧ t .port = some (.int 47808) :=
  ⟨_, _, rfl, by decide +kernel, by decide +kernel⟩

end Bac.Props
