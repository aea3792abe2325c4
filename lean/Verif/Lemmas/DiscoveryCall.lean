import Verif.Model.DiscoveryCall
/-!
# The discovery calls: invariants
-/

namespace Bac.DCall

variable {ε : Type} {lo hi : Int} {reports : Bool}

theorem Exec.trans {s u t : State ε} {tr tr' : List (Label ε)} (h : Exec lo hi reports s tr u) (h' : Exec lo hi reports u tr' t) :
    Exec lo hi reports s (tr ++ tr') t := by
  induction h' with
  | nil => simpa using h
  | snoc _ st ih => rw [← List.append_assoc]; exact .snoc ih st

theorem Exec.one {s t : State ε} {l : Label ε} (h : Step lo hi reports s l t) : Exec lo hi reports s [l] t := by
  simpa using Exec.snoc .nil h

/-- Where the errors in a state come from. -/
structure Told (tr : List (Label ε)) (s : State ε) : Prop where
  err : ∀ e, s.err = some e → .send (some e) ∈ tr
  offer : ∀ e, s.sender = .offering (some e) → .send (some e) ∈ tr
  ret : ∀ e, s.main = .returned (.error e) → .send (some e) ∈ tr

theorem told {tr : List (Label ε)} {s : State ε} (h : Exec lo hi reports {} tr s) : Told tr s := by
  induction h with
  | nil => exact ⟨nofun, nofun, nofun⟩
  | snoc _ st ih =>
    obtain ⟨i1, i2, i3⟩ := ih
    cases st with
    | send e h => exact ⟨fun e' he => by simp_all, nofun, fun e' he => by simp [i3 e' he]⟩
    | read h =>
      refine ⟨fun e' he => by simp [i1 e' he], fun e' he => ?_, fun e' he => by simp [i3 e' he]⟩
      simp only [Sender.offering.injEq] at he
      simp [i1 e' he]
    | enter h => exact ⟨fun e' he => by simp [i1 e' he], fun e' he => by simp [i2 e' he], nofun⟩
    | got id v h hr => exact ⟨fun e' he => by simp [i1 e' he], fun e' he => by simp [i2 e' he], fun e' he => by simp [i3 e' he]⟩
    | other id v h => exact ⟨fun e' he => by simp [i1 e' he], fun e' he => by simp [i2 e' he], fun e' he => by simp [i3 e' he]⟩
    | leave h => exact ⟨fun e' he => by simp [i1 e' he], fun e' he => by simp [i2 e' he], nofun⟩
    | leaveLate h => exact ⟨fun e' he => by simp [i1 e' he], fun e' he => by simp [i2 e' he], nofun⟩
    | assign h => exact ⟨nofun, fun e' he => by simp [i2 e' he], nofun⟩
    | checkErr e h he hr =>
      refine ⟨fun e' he => by simp [i1 e' he], fun e' he => by simp [i2 e' he], fun e' he' => ?_⟩
      simp only [Main.returned.injEq, Except.error.injEq] at he'
      subst he'
      simp [i1 e he]
    | check h he => exact ⟨fun e' he => by simp [i1 e' he], fun e' he => by simp [i2 e' he], nofun⟩
    | receive x h hx =>
      refine ⟨fun e' he => ?_, nofun, nofun⟩
      simp only at he
      subst he
      simp [i2 e' hx]
    | finishErr e h he hr =>
      refine ⟨fun e' he => by simp [i1 e' he], fun e' he => by simp [i2 e' he], fun e' he' => ?_⟩
      simp only [Main.returned.injEq, Except.error.injEq] at he'
      subst he'
      simp [i1 e he]
    | finish h he => exact ⟨fun e' he => by simp [i1 e' he], fun e' he => by simp [i2 e' he], nofun⟩

/-- How far the two goroutines can be apart. -/
structure Pos (s : State ε) : Prop where
  start : s.sender = .start → s.err = none
  done : s.sender = .done → s.main = .received ∨ ∃ r, s.main = .returned r
  recv : s.main = .received → s.sender = .done
  ok : ∀ vs, s.main = .returned (.ok vs) → s.sender = .done
  silent : ∀ r, s.main = .returned r → reports = false → s.sender = .done

theorem pos {tr : List (Label ε)} {s : State ε} (h : Exec lo hi reports {} tr s) : Pos (reports := reports) s := by
  induction h with
  | nil => exact ⟨fun _ => rfl, nofun, nofun, nofun, nofun⟩
  | snoc _ st ih =>
    obtain ⟨i1, i2, i3, i4, i5⟩ := ih
    cases st <;> refine ⟨?_, ?_, ?_, ?_, ?_⟩ <;> simp_all <;> done

/-- What the trace says about the sender. -/
theorem sender_trace {tr : List (Label ε)} {s : State ε} (h : Exec lo hi reports {} tr s) :
    ((∃ e, .send e ∈ tr) ↔ s.sender ≠ .start) ∧ (.read ∈ tr ↔ s.sender ≠ .start ∧ s.sender ≠ .assigned) := by
  induction h with
  | nil => simp
  | snoc _ st ih =>
    obtain ⟨i1, i2⟩ := ih
    cases st <;> simp_all

/-- There is one send. -/
theorem send_once {tr : List (Label ε)} {s : State ε} (h : Exec lo hi reports {} tr s) :
    ∀ e e', .send e ∈ tr → .send e' ∈ tr → e = e' := by
  induction h with
  | nil => intro e e' h; cases h
  | @snoc tr l u t h st ih =>
    intro e e' h1 h2
    obtain ⟨s1, _⟩ := sender_trace h
    rcases List.mem_append.1 h1 with q1 | q1 <;> rcases List.mem_append.1 h2 with q2 | q2
    · exact ih e e' q1 q2
    · rw [← List.mem_singleton.1 q2] at st
      cases st with | send _ h' => exact absurd h' (s1.1 ⟨_, q1⟩)
    · rw [← List.mem_singleton.1 q1] at st
      cases st with | send _ h' => exact absurd h' (s1.1 ⟨_, q2⟩)
    · have := (List.mem_singleton.1 q1).trans (List.mem_singleton.1 q2).symm
      cases this; rfl

/-- An execution in which the result of `Subscribe` is not assigned between the two accesses of
the sender: a failed send is in `err`, in the channel, or reported. -/
theorem reported {tr : List (Label ε)} {s : State ε} (h : Exec lo hi reports {} tr s) (hr : reports = true)
    (hc : ∀ t1 t2, tr = t1 ++ .assign :: t2 → ((∃ e, .send e ∈ t1) ↔ .read ∈ t1)) (e : ε) (he : .send (some e) ∈ tr) :
    (s.sender = .assigned → s.err = some e) ∧ (∀ x, s.sender = .offering x → x = some e) ∧
      (s.main = .received → s.err = some e) ∧ (∀ r, s.main = .returned r → r = .error e) := by
  induction h with
  | nil => cases he
  | @snoc tr l u t h st ih =>
    have hc' : ∀ t1 t2, tr = t1 ++ .assign :: t2 → ((∃ e, .send e ∈ t1) ↔ .read ∈ t1) := fun t1 t2 ht =>
      hc t1 (t2 ++ [l]) (by rw [ht]; simp)
    obtain ⟨s1, s2⟩ := sender_trace h
    obtain ⟨p1, p2, p3, p4, p5⟩ := pos h
    by_cases hl : l = .send (some e)
    · subst hl
      cases st with
      | send _ h' =>
        refine ⟨fun _ => rfl, nofun, fun hm => ?_, fun r hm => ?_⟩
        · have := p3 hm; rw [h'] at this
        · cases r with
          | ok vs => have := p4 vs hm; rw [h'] at this; cases this
          | error e' =>
            have := (told h).ret e' hm
            exact absurd h' (s1.1 ⟨_, this⟩)
    have he' : .send (some e) ∈ tr := by
      rcases List.mem_append.1 he with q | q
      · exact q
      · exact absurd (List.mem_singleton.1 q).symm hl
    obtain ⟨i1, i2, i3, i4⟩ := ih hc' he'
    cases st with
    | send e' h' => exact absurd h' (s1.1 ⟨_, he'⟩)
    | read h' => exact ⟨nofun, fun x hx => by cases hx; exact i1 h', i3, i4⟩
    | enter h' => exact ⟨i1, i2, nofun, nofun⟩
    | got id v h' _ => exact ⟨i1, i2, i3, i4⟩
    | other id v h' => exact ⟨i1, i2, i3, i4⟩
    | leave h' => exact ⟨i1, i2, nofun, nofun⟩
    | leaveLate h' => exact ⟨i1, i2, nofun, nofun⟩
    | assign h' =>
      refine ⟨fun hs => ?_, i2, nofun, nofun⟩
      have := (hc tr [] rfl).1 ⟨_, he'⟩
      exact absurd hs (s2.1 this).2
    | checkErr e' h' he1 _ =>
      refine ⟨i1, i2, nofun, fun r hm => ?_⟩
      cases hm
      have := send_once h _ _ he' ((told h).err e' he1)
      cases this
      rfl
    | check h' _ => exact ⟨i1, i2, nofun, nofun⟩
    | receive x h' hx => exact ⟨nofun, nofun, fun _ => i2 x hx, nofun⟩
    | finishErr e' h' he1 _ =>
      refine ⟨i1, i2, nofun, fun r hm => ?_⟩
      cases hm
      rw [i3 h'] at he1
      cases he1
      rfl
    | finish h' he1 =>
      rcases he1 with he1 | he1
      · rw [i3 h'] at he1; cases he1
      · rw [hr] at he1; cases he1

/-- The publications in a range. -/
def matching (lo hi : Int) (tr : List (Label ε)) : List Published :=
  tr.filterMap fun l => match l with
    | .publish id v => if lo ≤ id ∧ id ≤ hi then some v else none
    | _ => none

/-- Nothing in a trace starts or ends the subscription. -/
def Between (tr : List (Label ε)) : Prop := .enter ∉ tr ∧ .leave ∉ tr

/-- What has been received, by the place of the call. -/
def Heard (lo hi : Int) (tr : List (Label ε)) (s : State ε) : Prop :=
  match s.main with
  | .spawned => Between tr ∧ s.values = []
  | .listening => ∃ t1 t2, tr = t1 ++ .enter :: t2 ∧ Between t1 ∧ Between t2 ∧ s.values = matching lo hi t2
  | .returned (.ok vs) => vs = s.values ∧ ∃ t1 t2 t3, tr = t1 ++ .enter :: t2 ++ .leave :: t3 ∧ Between t1 ∧ Between t2 ∧ Between t3 ∧
      (s.values = matching lo hi t2 ∨ ∃ v, matching lo hi t2 = s.values ++ [v])
  | _ => ∃ t1 t2 t3, tr = t1 ++ .enter :: t2 ++ .leave :: t3 ∧ Between t1 ∧ Between t2 ∧ Between t3 ∧
      (s.values = matching lo hi t2 ∨ ∃ v, matching lo hi t2 = s.values ++ [v])

theorem matching_append (lo hi : Int) (t : List (Label ε)) (l : Label ε) : matching lo hi (t ++ [l]) =
    matching lo hi t ++ matching lo hi [l] := by simp [matching]

theorem Between.snoc {t : List (Label ε)} {l : Label ε} (h : Between t) (h1 : l ≠ .enter) (h2 : l ≠ .leave) : Between (t ++ [l]) := by
  refine ⟨fun hm => ?_, fun hm => ?_⟩
  · rcases List.mem_append.1 hm with q | q
    · exact h.1 q
    · exact h1 (List.mem_singleton.1 q).symm
  · rcases List.mem_append.1 hm with q | q
    · exact h.2 q
    · exact h2 (List.mem_singleton.1 q).symm

/-- A step that is not at the ends of the subscription and leaves the values. -/
theorem Heard.keep {tr : List (Label ε)} {s t : State ε} {l : Label ε} (h : Heard lo hi tr s) (hm : t.main = s.main)
    (hv : t.values = s.values) (h1 : l ≠ .enter) (h2 : l ≠ .leave) (hp : s.main = .listening → matching lo hi [l] = []) :
    Heard lo hi (tr ++ [l]) t := by
  unfold Heard at h ⊢
  rw [hm, hv]
  have fin : ∀ vs, (∃ t1 t2 t3, tr = t1 ++ .enter :: t2 ++ .leave :: t3 ∧ Between t1 ∧ Between t2 ∧ Between t3 ∧
      (vs = matching lo hi t2 ∨ ∃ v, matching lo hi t2 = vs ++ [v])) →
      (∃ t1 t2 t3, tr ++ [l] = t1 ++ .enter :: t2 ++ .leave :: t3 ∧ Between t1 ∧ Between t2 ∧ Between t3 ∧
      (vs = matching lo hi t2 ∨ ∃ v, matching lo hi t2 = vs ++ [v])) := by
    rintro vs ⟨t1, t2, t3, rfl, b1, b2, b3, h⟩
    exact ⟨t1, t2, t3 ++ [l], by simp, b1, b2, b3.snoc h1 h2, h⟩
  cases hs : s.main with
  | spawned => rw [hs] at h; exact ⟨h.1.snoc h1 h2, h.2⟩
  | listening =>
    rw [hs] at h
    obtain ⟨t1, t2, rfl, b1, b2, h⟩ := h
    exact ⟨t1, t2 ++ [l], by simp, b1, b2.snoc h1 h2, by rw [matching_append, hp hs, List.append_nil]; exact h⟩
  | left => rw [hs] at h; exact fin _ h
  | assigned => rw [hs] at h; exact fin _ h
  | receiving => rw [hs] at h; exact fin _ h
  | received => rw [hs] at h; exact fin _ h
  | returned r =>
    rw [hs] at h
    cases r with
    | ok vs => exact ⟨h.1, fin _ h.2⟩
    | error e => exact fin _ h

theorem heard {tr : List (Label ε)} {s : State ε} (h : Exec lo hi reports {} tr s) : Heard lo hi tr s := by
  induction h with
  | nil => exact ⟨⟨nofun, nofun⟩, rfl⟩
  | @snoc tr l u t h st ih =>
    have fin : ∀ vs, l ≠ .enter → l ≠ .leave → (∃ t1 t2 t3, tr = t1 ++ .enter :: t2 ++ .leave :: t3 ∧ Between t1 ∧ Between t2 ∧ Between t3 ∧
        (vs = matching lo hi t2 ∨ ∃ v, matching lo hi t2 = vs ++ [v])) →
        (∃ t1 t2 t3, tr ++ [l] = t1 ++ .enter :: t2 ++ .leave :: t3 ∧ Between t1 ∧ Between t2 ∧ Between t3 ∧
        (vs = matching lo hi t2 ∨ ∃ v, matching lo hi t2 = vs ++ [v])) := by
      rintro vs h1 h2 ⟨t1, t2, t3, rfl, b1, b2, b3, h⟩
      exact ⟨t1, t2, t3 ++ [l], by simp, b1, b2, b3.snoc h1 h2, h⟩
    have nil : Between ([] : List (Label ε)) := ⟨nofun, nofun⟩
    cases st with
    | send e h' => exact ih.keep rfl rfl nofun nofun fun _ => rfl
    | read h' => exact ih.keep rfl rfl nofun nofun fun _ => rfl
    | other id v h' => exact ih.keep rfl rfl nofun nofun fun hm => by simp [matching, h' hm]
    | enter h' =>
      unfold Heard at ih
      rw [h'] at ih
      exact ⟨tr, [], rfl, ih.1, nil, ih.2⟩
    | got id v h' hr =>
      unfold Heard at ih
      rw [h'] at ih
      obtain ⟨t1, t2, rfl, b1, b2, hv⟩ := ih
      unfold Heard
      dsimp only
      rw [h']
      exact ⟨t1, t2 ++ [.publish id v], by simp, b1, b2.snoc nofun nofun, by rw [matching_append, hv]; simp [matching, hr]⟩
    | leave h' =>
      unfold Heard at ih
      rw [h'] at ih
      obtain ⟨t1, t2, rfl, b1, b2, hv⟩ := ih
      exact ⟨t1, t2, [], by simp, b1, b2, nil, .inl hv⟩
    | leaveLate h' v vs hvs =>
      unfold Heard at ih
      rw [h'] at ih
      obtain ⟨t1, t2, rfl, b1, b2, hv⟩ := ih
      exact ⟨t1, t2, [], by simp, b1, b2, nil, .inr ⟨v, by rw [← hv, hvs]⟩⟩
    | assign h' => unfold Heard at ih; rw [h'] at ih; exact fin _ nofun nofun ih
    | checkErr e h' _ _ => unfold Heard at ih; rw [h'] at ih; exact fin _ nofun nofun ih
    | check h' _ => unfold Heard at ih; rw [h'] at ih; exact fin _ nofun nofun ih
    | receive x h' _ => unfold Heard at ih; rw [h'] at ih; exact fin _ nofun nofun ih
    | finishErr e h' _ _ => unfold Heard at ih; rw [h'] at ih; exact fin _ nofun nofun ih
    | finish h' _ => unfold Heard at ih; rw [h'] at ih; exact ⟨rfl, fin _ nofun nofun ih⟩

/-- The steps left to a call. -/
def Main.rank : Main ε → Nat
  | .spawned => 6 | .listening => 5 | .left => 4 | .assigned => 3 | .receiving => 2 | .received => 1 | .returned _ => 0

/-- The steps left to its sender, the last of which is common. -/
def Sender.rank : Sender ε → Nat
  | .start => 2 | .assigned => 1 | .offering _ => 0 | .done => 0

/-- Steps of other goroutines. -/
def Label.isPublish : Label ε → Bool
  | .publish _ _ => true
  | _ => false

theorem step_rank {s t : State ε} {l : Label ε} (h : Step lo hi reports s l t) (hl : l.isPublish = false) :
    t.main.rank + t.sender.rank < s.main.rank + s.sender.rank := by
  cases h <;> simp_all [Main.rank, Sender.rank, Label.isPublish]

theorem exec_rank {s t : State ε} {tr : List (Label ε)} (h : Exec lo hi reports s tr t) :
    (tr.filter fun l => !l.isPublish).length + (t.main.rank + t.sender.rank) ≤ s.main.rank + s.sender.rank := by
  induction h with
  | nil => simp
  | @snoc tr l u t h st ih =>
    rw [List.filter_append, List.length_append]
    cases hl : l.isPublish with
    | true =>
      cases st <;> simp_all [Label.isPublish]
    | false =>
      have := step_rank st hl
      simp [hl]
      omega

end Bac.DCall
