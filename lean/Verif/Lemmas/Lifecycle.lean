import Verif.Model.Lifecycle
/-!
# Lemmas about the life of a client
-/

namespace Bac.Life

variable {δ : Type}

/-- Three kinds of steps, for counting them. -/
def Label.isRun : Label δ → Bool
  | .run => true
  | _ => false

def Label.isError : Label δ → Bool
  | .error => true
  | _ => false

def Label.isExit : Label δ → Bool
  | .exit => true
  | _ => false

theorem Exec.append {s u t : State δ} {a b : List (Label δ)} (h : Exec s a u) (h' : Exec u b t) : Exec s (a ++ b) t := by
  induction h' with
  | nil => simpa using h
  | snoc _ st ih => rw [← List.append_assoc]; exact ih.snoc st

theorem Exec.split {s t : State δ} {tr : List (Label δ)} (h : Exec s tr t) : ∀ a b, tr = a ++ b → ∃ u, Exec s a u ∧ Exec u b t := by
  induction h with
  | nil =>
    intro a b hab
    obtain ⟨rfl, rfl⟩ := List.append_eq_nil_iff.1 hab.symm
    exact ⟨_, .nil, .nil⟩
  | snoc h st ih =>
    rename_i tr l u t
    intro a b hab
    rcases List.eq_nil_or_concat b with rfl | ⟨b', x, rfl⟩
    · rw [List.append_nil] at hab
      subst hab
      exact ⟨_, h.snoc st, .nil⟩
    · rw [List.concat_eq_append] at hab ⊢
      rw [← List.append_assoc] at hab
      obtain ⟨h1, h2⟩ := List.append_inj' hab rfl
      cases h2
      obtain ⟨v, hv1, hv2⟩ := ih a b' h1
      exact ⟨v, hv1, hv2.snoc st⟩

theorem Exec.one {s t : State δ} {l : Label δ} (h : Exec s [l] t) : Step s l t := by
  generalize hx : [l] = tr at h
  cases h with
  | nil => cases hx
  | snoc h st =>
    rename_i tr l' u
    cases h with
    | nil => cases hx; exact st
    | snoc h' st' => have := congrArg List.length hx; simp at this

/-- A closed socket stays closed, and nothing arrives or is handed over. -/
theorem closed_exec {s t : State δ} {tr : List (Label δ)} (h : Exec s tr t) (hs : s.sock = false) :
    t.sock = false ∧ (∀ d, .handle d ∉ tr) ∧ (∀ d, .arrive d ∉ tr) ∧ .error ∉ tr := by
  induction h with
  | nil => exact ⟨hs, by simp, by simp, by simp⟩
  | snoc _ st ih =>
    obtain ⟨i1, i2, i3, i4⟩ := ih
    cases st <;> simp_all

/-- The numbers of loops. -/
theorem loops_exec {s t : State δ} {tr : List (Label δ)} (h : Exec s tr t) :
    t.link = s.link ∧ (s.link = true → s.loops + tr.countP Label.isRun =
      t.loops + tr.countP Label.isError + tr.countP Label.isExit ∧ t.crashed = s.crashed) := by
  induction h with
  | nil => exact ⟨rfl, fun _ => by simp⟩
  | snoc _ st ih =>
    obtain ⟨i1, i2⟩ := ih
    cases st with
    | run hc hl =>
      refine ⟨i1, fun h => ?_⟩
      obtain ⟨j1, j2⟩ := i2 h
      simp only [List.countP_append, List.countP_singleton]
      exact ⟨by simp [Label.isRun, Label.isError, Label.isExit]; omega, j2⟩
    | crash hc hl => exact ⟨i1, fun h => by rw [i1, h] at hl; cases hl⟩
    | arrive | handle | closeLogs | close =>
      refine ⟨i1, fun h => ?_⟩
      obtain ⟨j1, j2⟩ := i2 h
      simp only [List.countP_append, List.countP_singleton]
      exact ⟨by simp [Label.isRun, Label.isError, Label.isExit]; omega, j2⟩
    | error | exit =>
      refine ⟨i1, fun h => ?_⟩
      obtain ⟨j1, j2⟩ := i2 h
      simp only [List.countP_append, List.countP_singleton]
      exact ⟨by simp [Label.isRun, Label.isError, Label.isExit]; omega, j2⟩

/-- Without a link there are no loops. -/
theorem no_link {s t : State δ} {tr : List (Label δ)} (h : Exec s tr t) (hl : s.link = false) (h0 : s.loops = 0)
    (hs : s.sock = false) : t.loops = 0 ∧ t.sock = false ∧ t.link = false := by
  induction h with
  | nil => exact ⟨h0, hs, hl⟩
  | snoc _ st ih =>
    obtain ⟨i1, i2, i3⟩ := ih
    cases st <;> simp_all

/-- A socket is closed by `ClientClose(false)` only. -/
theorem open_exec {s t : State δ} {tr : List (Label δ)} (h : Exec s tr t) (hc : .close false ∉ tr) : t.sock = s.sock := by
  induction h with
  | nil => rfl
  | snoc _ st ih =>
    have hc' := fun hx => hc (List.mem_append_left _ hx)
    cases st <;> simp_all

theorem stderr_exec {s t : State δ} {tr : List (Label δ)} (h : Exec s tr t) :
    t.stderr = false ↔ s.stderr = false ∨ .close true ∈ tr := by
  induction h with
  | nil => simp
  | snoc _ st ih => cases st <;> simp_all

end Bac.Life
