import Verif.Lemmas.Utsm
import Verif.Props.Discover
/-!
# Memory shared by goroutines in utsm and in the command discover

Two accesses race if two goroutines may make them next, they concern the same memory, one of them
writes, and there is no mutex that both hold.
-/

/-! ## What is accessed in utsm/utsm.go and utsm/subscriber.go -/

namespace Bac.Spec
open Bac.Utsm

/-- The list `m.subs`, and for each subscriber the fields `start` and `end`, the field `lastReceived`, the fields `timeout`
and `lastReceivedTimeout`. -/
inductive UCell where
  | subs
  | range (k : Nat)
  | last (k : Nat)
  | limits (k : Nat)
  deriving DecidableEq, Repr

/-- The mutex of the manager, and the mutexes of the subscribers. -/
inductive Mutex where
  | manager
  | subscriber (k : Nat)
  deriving DecidableEq, Repr

structure UAccess where
  cell : UCell
  write : Bool
  /-- the mutexes held -/
  held : List Mutex
  deriving DecidableEq, Repr

/-- What a goroutine in `Publish` accesses up to its next step. -/
def pubAccess : Pub → List UAccess
  /- utsm.go:65 -/
  | .idle => [⟨.subs, false, [.manager]⟩]
  | .loop _ [] => [⟨.subs, false, [.manager]⟩]
  /- utsm.go:65-66 -/
  | .loop _ (k :: _) => [⟨.subs, false, [.manager]⟩, ⟨.range k, false, [.manager]⟩]
  /- utsm.go:68 -/
  | .inSub _ k _ => [⟨.last k, true, [.manager, .subscriber k]⟩]

/-- What the goroutine of subscriber `k` accesses up to its next step. -/
def subAccess (k : Nat) : SubPc → List UAccess
  /- utsm.go:76-79, 84, 87-88 -/
  | .fresh => [⟨.range k, true, []⟩, ⟨.last k, true, []⟩, ⟨.subs, true, [.manager]⟩,
      ⟨.limits k, true, [.manager, .subscriber k]⟩]
  /- subscriber.go:58 and 47 -/
  | .top => [⟨.limits k, false, []⟩, ⟨.last k, false, [.subscriber k]⟩, ⟨.limits k, false, [.subscriber k]⟩]
  | .select => []
  /- utsm.go:104-119 -/
  | .leaving => [⟨.subs, true, [.manager]⟩]
  | .gone => []

/-- The goroutines. -/
inductive Who where
  | pub (p : Nat)
  | sub (k : Nat)
  deriving DecidableEq, Repr

def uAccesses (s : State) : Who → List UAccess
  | .pub p => pubAccess (s.pub p)
  | .sub k => subAccess k (s.sub k).pc

def UAccess.Conflict (a b : UAccess) : Prop :=
  a.cell = b.cell ∧ (a.write = true ∨ b.write = true) ∧ ∀ x ∈ a.held, x ∉ b.held

/-- Two goroutines race. -/
def URace (s : State) : Prop :=
  ∃ g h : Who, g ≠ h ∧ ∃ a ∈ uAccesses s g, ∃ b ∈ uAccesses s h, a.Conflict b

end Bac.Spec

namespace Bac.Props
open Bac.Utsm Bac.Spec

/-- The table above leaves no write to the list out. -/
theorem C155_writes (s s' : Utsm.State) (st : Utsm.Step s s') (h : s'.subs ≠ s.subs) :
    ∃ g, ⟨.subs, true, [.manager]⟩ ∈ uAccesses s g := by
  cases st <;> first | exact absurd rfl h | skip
  case subscribe k h1 _ => exact ⟨.sub k, by simp [uAccesses, h1, subAccess]⟩
  case unsubscribe k h1 _ => exact ⟨.sub k, by simp [uAccesses, h1, subAccess]⟩

/-- C155, the mutexes exclude: two goroutines are not in `Publish` at the same time, and a subscriber's mutex is held by
the one goroutine in `Publish` that serves it. -/
theorem C155_locks (range : Nat → Int × Int) (s : Utsm.State) (h : Utsm.Reach range s) :
    (∀ p q, s.pub p ≠ .idle → s.pub q ≠ .idle → p = q) ∧
    (∀ k, (s.sub k).locked = true ↔ ∃ p m rest, s.pub p = .inSub m k rest) := by
  have hi := inv_reach h
  refine ⟨fun p q hp hq => ?_, fun k => ?_⟩
  · have := (hi.lock p).1 hp
    rw [(hi.lock q).1 hq] at this
    exact (Option.some.inj this).symm
  · rw [hi.locked k]
    constructor
    · rintro ⟨m, rest, e⟩
      unfold holder at e
      split at e
      · cases e
      · next p _ => exact ⟨p, m, rest, e⟩
    · rintro ⟨p, m, rest, e⟩
      exact ⟨m, rest, (hi.holder_eq e nofun).2⟩

theorem pub_manager {x : Pub} {a : UAccess} (h : a ∈ pubAccess x) : .manager ∈ a.held := by
  cases x with
  | idle => simp only [pubAccess, List.mem_cons, List.not_mem_nil, or_false] at h; subst h; simp
  | loop m l => cases l <;> simp only [pubAccess, List.mem_cons, List.not_mem_nil, or_false] at h <;>
      rcases h with rfl | rfl <;> simp
  | inSub m k l => simp only [pubAccess, List.mem_cons, List.not_mem_nil, or_false] at h; subst h; simp

theorem sub_access {k : Nat} {x : SubPc} {a : UAccess} (h : a ∈ subAccess k x) :
    (a.cell = .subs ∧ a.held = [.manager]) ∨ (a.cell = .range k ∧ x = .fresh) ∨
    (a.cell = .last k ∧ (x = .fresh ∨ a.held = [.subscriber k])) ∨ a.cell = .limits k := by
  cases x <;> simp only [subAccess, List.mem_cons, List.not_mem_nil, or_false] at h
  · rcases h with rfl | rfl | rfl | rfl <;> simp
  · rcases h with rfl | rfl | rfl <;> simp
  · subst h; simp

theorem pub_access {x : Pub} {a : UAccess} (h : a ∈ pubAccess x) :
    a.cell = .subs ∨ (∃ k, a.cell = .range k ∧ k ∈ remaining x) ∨
    ∃ k, a.cell = .last k ∧ k ∈ remaining x ∧ a.held = [.manager, .subscriber k] := by
  cases x with
  | idle => simp only [pubAccess, List.mem_cons, List.not_mem_nil, or_false] at h; subst h; exact Or.inl rfl
  | loop m l =>
    cases l with
    | nil => simp only [pubAccess, List.mem_cons, List.not_mem_nil, or_false] at h; subst h; exact Or.inl rfl
    | cons k l =>
      simp only [pubAccess, List.mem_cons, List.not_mem_nil, or_false] at h
      rcases h with rfl | rfl
      · exact Or.inl rfl
      · exact Or.inr (Or.inl ⟨k, rfl, List.mem_cons_self ..⟩)
  | inSub m k l =>
    simp only [pubAccess, List.mem_cons, List.not_mem_nil, or_false] at h
    subst h
    exact Or.inr (Or.inr ⟨k, rfl, List.mem_cons_self .., rfl⟩)

/-- A subscriber that a goroutine in `Publish` still has to serve has subscribed. -/
theorem remaining_started {range : Nat → Int × Int} {s : Utsm.State} (hi : Utsm.Inv range s) {p k : Nat}
    (h : k ∈ remaining (s.pub p)) : (s.sub k).pc ≠ .fresh := by
  have hne : s.pub p ≠ .idle := by
    intro e
    rw [e] at h
    cases h
  have hh := (hi.holder_eq rfl hne).2
  have := (hi.subs k).1 (hi.rest.subset (by rw [hh]; exact h))
  intro e
  simp [subscribed, e] at this

theorem pub_sub {range : Nat → Int × Int} {s : Utsm.State} (hi : Utsm.Inv range s) {p k : Nat} {a b : UAccess}
    (ha : a ∈ pubAccess (s.pub p)) (hb : b ∈ subAccess k (s.sub k).pc) (hc : a.cell = b.cell)
    (hd : ∀ x ∈ a.held, x ∉ b.held) : False := by
  have hm := pub_manager ha
  rcases sub_access hb with ⟨_, e⟩ | ⟨e, hf⟩ | ⟨e, hf⟩ | e
  · exact hd _ hm (by rw [e]; simp)
  · rcases pub_access ha with e' | ⟨j, e', hj⟩ | ⟨j, e', hj, _⟩ <;> rw [e', e] at hc <;> cases hc
    exact remaining_started hi hj hf
  · rcases pub_access ha with e' | ⟨j, e', hj⟩ | ⟨j, e', hj, h1⟩ <;> rw [e', e] at hc <;> cases hc
    rcases hf with hf | hf
    · exact remaining_started hi hj hf
    · exact hd (.subscriber k) (by rw [h1]; simp) (by rw [hf]; simp)
  · rcases pub_access ha with e' | ⟨j, e', hj⟩ | ⟨j, e', hj, _⟩ <;> rw [e', e] at hc <;> cases hc

/-- C155: whatever is published and subscribed, no two goroutines race for the memory of the manager. -/
theorem C155_no_race (range : Nat → Int × Int) (s : Utsm.State) (h : Utsm.Reach range s) : ¬ URace s := by
  have hi := inv_reach h
  rintro ⟨g, g', hne, a, ha, b, hb, hc, _, hd⟩
  cases g with
  | pub p =>
    cases g' with
    | pub q => exact hd _ (pub_manager ha) (pub_manager hb)
    | sub k => exact pub_sub hi ha hb hc hd
  | sub j =>
    cases g' with
    | pub q => exact pub_sub hi hb ha hc.symm fun x h1 h2 => hd x h2 h1
    | sub k =>
      have hjk : j ≠ k := fun e => hne (by rw [e])
      rcases sub_access ha with ⟨e, hl⟩ | ⟨e, _⟩ | ⟨e, _⟩ | e <;> rcases sub_access hb with ⟨e', hl'⟩ | ⟨e', _⟩ | ⟨e', _⟩ | e' <;>
        rw [e, e'] at hc <;>
        first
        | exact hd .manager (by rw [hl]; simp) (by rw [hl']; simp)
        | exact hjk (by injection hc)

/-- A message is being delivered to subscriber 0, who is about to look at the time of the last one, while subscriber 1 is
about to subscribe: the accesses concern the same memory. -/
example : ∃ s, Utsm.Reach (fun k => if k = 0 then (0, 9) else (20, 30)) s ∧
    ⟨.last 0, true, [.manager, .subscriber 0]⟩ ∈ uAccesses s (.pub 0) ∧ ⟨.last 0, false, [.subscriber 0]⟩ ∈ uAccesses s (.sub 0) ∧
    ⟨.subs, true, [.manager]⟩ ∈ uAccesses s (.sub 1) := by
  have r := Utsm.Reach.start (range := fun k => if k = 0 then (0, 9) else (20, 30))
  have r := r.step (.subscribe _ 0 rfl rfl)
  have r := r.step (.pubStart _ 0 ⟨5, 77⟩ rfl rfl)
  have r := r.step (.pubLock _ 0 ⟨5, 77⟩ 0 [] rfl ⟨by decide, by decide⟩ rfl)
  exact ⟨_, r, by decide, by decide, by decide⟩

/-! ## The results of the command discover -/

open Bac.Discover

variable {δ ρ : Type} {key : ρ → UInt32}

/-- The main goroutine is about to read `results` (cmd/cmd/discover.go:140), and the merging one to write it
(cmd/cmd/discover.go:108). -/
def C156_race (key : ρ → UInt32) (s : Discover.State δ ρ) : Prop :=
  (∃ e t, Discover.Step key s e t ∧ ∃ l, t.main = .done l ∧ s.main ≠ .done l) ∧
  ∃ e t, Discover.Step key s e t ∧ t.results ≠ s.results

theorem C156_race_iff (s : Discover.State δ ρ) :
    C156_race key s ↔ s.main = .save ∧ ∃ r, s.merger = .got r ∧ key r ∉ s.repeats := by
  constructor
  · rintro ⟨⟨e, t, h1, l, h2, h3⟩, e', t', h4, h5⟩
    refine ⟨?_, ?_⟩
    · cases h1 <;> simp only [reduceCtorEq] at h2 <;> first | exact absurd h2 h3 | assumption
    · cases h4 <;> first | exact absurd rfl h5 | exact ⟨_, ‹_›, ‹_›⟩
  · rintro ⟨h1, r, h2, h3⟩
    exact ⟨⟨_, _, .snapshot s h1, _, rfl, by rw [h1]; nofun⟩, _, _, .merge s r h2 h3, by simp⟩

/-- C156 (partial): if the merging goroutine is through when the main one comes to save, nobody writes the results any more,
and what is saved is complete.  (Missing: nothing makes the main goroutine wait, see `C156_fails`.) -/
theorem C156_partial (n k : Nat) (tr : List (Event δ ρ)) (s : Discover.State δ ρ) (he : Exec key (Discover.start δ ρ n k) tr s)
    (hm : s.merger = .exited) (hs : s.main = .save) :
    ∃ order, (found tr).Perm order ∧ ∀ (e : List (Event δ ρ)) (t : Discover.State δ ρ), Exec key s e t →
      ¬ C156_race key t ∧ (t.main = .save ∨ t.main = .done (_root_.Spec.firsts key order)) := by
  obtain ⟨order, h1, h2⟩ := C120_merged n k tr s he hm
  refine ⟨order, h1, fun e t ht => ?_⟩
  have hinv : t.results = s.results ∧ t.merger = .exited ∧ (t.main = .save ∨ t.main = .done s.results) := by
    have hall : ∀ e t, Exec key s e t → Exec key (Discover.start δ ρ n k) (tr ++ e) t := fun e t h => he.trans h
    induction ht with
    | refl => exact ⟨rfl, hm, Or.inl hs⟩
    | tail m t e e' hx st ih =>
      obtain ⟨i1, i2, i3⟩ := ih
      have hnc := (Inv.exec (hall _ _ (hx.trans (.one st)))).noCrash
      have hnotloop : ∀ j, m.main ≠ .loop j := by rcases i3 with h | h <;> rw [h] <;> nofun
      have hnotpush : ∀ j l, m.main ≠ .push j l := by rcases i3 with h | h <;> rw [h] <;> nofun
      have hnotwait : m.main ≠ .wait := by rcases i3 with h | h <;> rw [h] <;> nofun
      have hnotshut : m.main ≠ .shut := by rcases i3 with h | h <;> rw [h] <;> nofun
      cases st <;> first
        | exact ⟨i1, i2, i3⟩
        | exact absurd ‹_› (hnotloop _)
        | exact absurd ‹_› (hnotpush _ _)
        | exact absurd ‹_› hnotwait
        | exact absurd ‹_› hnotshut
        | exact absurd rfl hnc
        | exact ⟨i1, i2, Or.inr (by rw [i1])⟩
        | (rw [i2] at *; simp_all)
  obtain ⟨i1, i2, i3⟩ := hinv
  refine ⟨fun hr => ?_, by rw [← h2]; exact i3⟩
  obtain ⟨_, r, hg, _⟩ := (C156_race_iff t).1 hr
  rw [i2] at hg
  cases hg

/-- C156 fails: with any number of workers, one device that is found is enough; the results are read while it is written. -/
theorem C156_fails (n k : Nat) (d : δ) (r : ρ) : ∃ tr s, Exec key (Discover.start δ ρ (n + 1) (k + 1)) tr s ∧ C156_race key s := by
  let s0 := Discover.start δ ρ (n + 1) (k + 1)
  have h1 : Exec key s0 _ _ := .one (.whoIsOk s0 k [d] rfl)
  have h2 := h1.trans (.one (.send _ k [d] rfl (Nat.succ_pos n)))
  have h3 := h2.trans (exec_errors _ k rfl)
  have h4 := h3.trans (.one (.closeScan _ rfl))
  have h5 := h4.trans (.one (.take _ 0 [d] [] rfl rfl))
  have h6 := h5.trans (exec_reads _ [(d, r)] rfl rfl (by simp [s0, Discover.start]))
  have h7 := h6.trans (.one (.next _ 0 rfl))
  have h8 := h7.trans (exec_leave _ 0 (n + 1) rfl rfl rfl rfl)
  have h9 := h8.trans (.one (.waited _ rfl rfl))
  have h10 := h9.trans (.one (.closeMerge _ rfl))
  have h11 := h10.trans (.one (.receive _ r [] rfl rfl))
  exact ⟨_, _, h11, (C156_race_iff _).2 ⟨rfl, r, rfl, by simp [s0, Discover.start]⟩⟩

/-- C156, exactly when it can happen: there are workers, and there is a call of `WhoIs`. -/
theorem C156_exact [Nonempty δ] [Nonempty ρ] (n k : Nat) :
    (∃ tr s, Exec key (Discover.start δ ρ n k) tr s ∧ C156_race key s) ↔ 0 < n ∧ 0 < k := by
  constructor
  · rintro ⟨tr, s, he, hr⟩
    obtain ⟨_, r, hg, _⟩ := (C156_race_iff s).1 hr
    have inv := Inv.exec he
    obtain ⟨taken, _, hf⟩ := inv.taken
    have hf := hf fun _ => true
    rw [hg] at hf
    have hfound : found tr ≠ [] := by
      intro e
      rw [e] at hf
      simp only [Merger.held, List.countP_nil, List.countP_cons, List.countP_nil, if_true] at hf
      omega
    have hcalled : called tr ≠ [] := by
      intro e
      apply hfound
      simp only [found, called, List.flatMap_eq_nil_iff] at e ⊢
      intro x hx
      have := e x hx
      cases x with
      | whoIs => rfl
      | objects d r => cases this
    have hscanned : scanned tr ≠ [] := by
      intro e
      have hrest := inv.rest fun _ => true
      rw [e] at hrest
      apply hcalled
      rw [List.countP_nil] at hrest
      have : (called tr).countP (fun _ => true) = 0 := by omega
      simpa using this
    refine ⟨?_, ?_⟩
    · rcases Nat.eq_zero_or_pos n with rfl | h
      · exfalso
        have key0 : ∀ (tr : List (Event δ ρ)) (t : Discover.State δ ρ), Exec key (Discover.start δ ρ 0 k) tr t → found tr = [] := by
          intro tr t he
          induction he with
          | refl => rfl
          | tail m t tr e he hst ih =>
            have hws : m.workers = [] := List.length_eq_zero_iff.1 (Inv.exec he).len
            rw [found_append, ih, List.nil_append]
            cases hst <;> first | rfl | (rw [hws] at *; simp_all)
        exact hfound (key0 tr s he)
      · exact h
    · have hask : 0 < asked tr := by
        rcases Nat.eq_zero_or_pos (asked tr) with h | h
        · exfalso
          apply hscanned
          have h := List.length_eq_zero_iff.1 h
          simp only [scanned, List.flatMap_eq_nil_iff] at h ⊢
          intro x hx
          have := h x hx
          cases x with
          | whoIs => cases this
          | objects => rfl
        · exact h
      cases ha : s.main.afterScan with
      | true => rw [← inv.all ha]; exact hask
      | false => have := inv.calls ha; omega
  · rintro ⟨hn, hk⟩
    obtain ⟨d⟩ := ‹Nonempty δ›
    obtain ⟨r⟩ := ‹Nonempty ρ›
    obtain ⟨n, rfl⟩ := Nat.exists_eq_succ_of_ne_zero (Nat.pos_iff_ne_zero.1 hn)
    obtain ⟨k, rfl⟩ := Nat.exists_eq_succ_of_ne_zero (Nat.pos_iff_ne_zero.1 hk)
    exact C156_fails n k d r

/-- Without workers, or without a call, there is no race. -/
example : ¬ ∃ tr s, Exec (fun x : UInt32 => x) (Discover.start Nat UInt32 0 5) tr s ∧ C156_race (fun x => x) s :=
  fun h => absurd ((C156_exact 0 5).1 h).1 (by decide)

end Bac.Props
