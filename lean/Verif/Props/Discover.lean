import Verif.Lemmas.Discover
import Verif.Props.Discovery
import Mathlib.Order.WellFounded
/-!
# C120 - C122: the command discover
-/

namespace Bac.Props

open Discover
open Spec (firsts)

variable {δ ρ : Type} {key : ρ → UInt32}

/-! ## C120 What is saved -/

theorem perm_of_countP {α : Type} {a b : List α} (h : ∀ p : α → Bool, a.countP p = b.countP p) : a.Perm b := by
  classical
  exact List.perm_iff_count.2 fun x => h fun y => y == x

/-- C120, what holds of the results saved: no device is in them twice; they are made of
the devices whose objects were read, except for at most `concurrency` + 1 of those.
(Missing: nothing lost, see `C120_fails`.) -/
theorem C120_saved_partial (n k : Nat) (tr : List (Event δ ρ)) (t : State δ ρ)
    (he : Exec key (start δ ρ n k) tr t) (saved : List ρ) (hd : t.main = .done saved) :
    (saved.map key).Nodup ∧ ∃ taken lost, (found tr).Perm (taken ++ lost) ∧ lost.length ≤ n + 1 ∧
      saved = firsts key taken := by
  obtain ⟨taken, lost, h1, h2, h3⟩ := (Inv.exec he).done saved hd
  refine ⟨by rw [h1]; exact firsts_nodup key taken, taken, lost, perm_of_countP fun p => ?_, h3, h1⟩
  rw [h2, List.countP_append]

/-- C120: when the results are saved all calls of `WhoIs` were made, and the objects of
every device they returned were read, once for each time it was returned. -/
theorem C120_read (n k : Nat) (tr : List (Event δ ρ)) (t : State δ ρ)
    (he : Exec key (start δ ρ n k) tr t) (saved : List ρ) (hd : t.main = .done saved) (hn : 0 < n) :
    asked tr = k ∧ (scanned tr).Perm (called tr) := by
  have h := Inv.exec he
  have hw : t.main.afterWait = true := by rw [hd]; rfl
  refine ⟨h.all (by rw [hd]; rfl), perm_of_countP fun p => ?_⟩
  have hr := h.rest p
  have hws : (t.workers.map fun w => w.rest.countP p).sum = 0 := by
    refine List.sum_eq_zero_iff_forall_eq_nat.2 ?_
    intro x hx
    obtain ⟨w, hw', rfl⟩ := List.mem_map.1 hx
    obtain ⟨i, hi⟩ := List.getElem?_of_mem hw'
    rw [h.gone hw i w hi]
    rfl
  have hq : t.scanQ = [] := by
    have hl : 0 < t.workers.length := by rw [h.len]; exact hn
    have h0 := List.getElem?_eq_getElem hl
    have := h.gone hw 0 _ h0
    rw [this] at h0
    exact (h.ex 0 h0).2
  rw [hr, hws, hq, hd]
  simp [Main.rest]

/-- C120, why: once the merging goroutine is through, its results are complete. -/
theorem C120_merged (n k : Nat) (tr : List (Event δ ρ)) (t : State δ ρ)
    (he : Exec key (start δ ρ n k) tr t) (hd : t.merger = .exited) :
    ∃ order, (found tr).Perm order ∧ t.results = firsts key order := by
  have h := Inv.exec he
  obtain ⟨h1, h2⟩ := h.mx hd
  rw [h.mc] at h1
  have hw : t.main.afterWait = true := by
    revert h1
    cases t.main <;> simp [Main.afterMerge, Main.afterWait]
  obtain ⟨order, h3, h4⟩ := h.taken
  refine ⟨order, perm_of_countP fun p => ?_, h3⟩
  have hws : (t.workers.map fun w => w.held.countP p).sum = 0 := by
    refine List.sum_eq_zero_iff_forall_eq_nat.2 ?_
    intro x hx
    obtain ⟨w, hw', rfl⟩ := List.mem_map.1 hx
    obtain ⟨i, hi⟩ := List.getElem?_of_mem hw'
    rw [h.gone hw i w hi]
    rfl
  rw [h4, hws, hd, h2]
  simp [Merger.held]

theorem observed_errors (k : Nat) : scanned (List.replicate k (.whoIs none : Event δ ρ)) = [] ∧
    found (List.replicate k (.whoIs none : Event δ ρ)) = [] := by
  constructor <;> simp [scanned, found, List.flatMap_eq_nil_iff, List.mem_replicate]

theorem observed_reads (l : List (δ × ρ)) :
    scanned (l.map fun x => (.objects x.1 (some x.2) : Event δ ρ)) = [] ∧
    found (l.map fun x => (.objects x.1 (some x.2) : Event δ ρ)) = l.map Prod.snd := by
  induction l with
  | nil => exact ⟨rfl, rfl⟩
  | cons x l ih => exact ⟨ih.1, congrArg (x.2 :: ·) ih.2⟩

/-- C120 fails, with any number of workers: the objects of up to `concurrency` devices
were all read without error, and none of them is saved - the results are read while they
still wait to be merged. -/
theorem C120_fails (n k : Nat) (hn : 0 < n) (l : List (δ × ρ)) (hl : l.length ≤ n) :
    ∃ tr t, Exec key (start δ ρ n (k + 1)) tr t ∧ scanned tr = l.map Prod.fst ∧ found tr = l.map Prod.snd ∧
      t.main = .done [] := by
  obtain ⟨n, rfl⟩ : ∃ m, n = m + 1 := ⟨n - 1, by omega⟩
  let s0 := start δ ρ (n + 1) (k + 1)
  have h1 : Exec key s0 _ _ := .one (.whoIsOk s0 k (l.map Prod.fst) rfl)
  have h2 := h1.trans (.one (.send _ k (l.map Prod.fst) rfl (Nat.succ_pos n)))
  have h3 := h2.trans (exec_errors _ k rfl)
  have h4 := h3.trans (.one (.closeScan _ rfl))
  have h5 := h4.trans (.one (.take _ 0 (l.map Prod.fst) [] rfl rfl))
  have h6 := h5.trans (exec_reads _ l rfl rfl (by simpa [s0, start] using hl))
  have h7 := h6.trans (.one (.next _ 0 rfl))
  have h8 := h7.trans (exec_leave _ 0 (n + 1) rfl rfl rfl rfl)
  have h9 := h8.trans (.one (.waited _ rfl rfl))
  have h10 := h9.trans (.one (.closeMerge _ rfl))
  have h11 := h10.trans (.one (.snapshot _ rfl))
  refine ⟨_, _, h11, ?_, ?_, rfl⟩
  · simp only [scanned_append, observed_errors k, observed_reads l, List.append_nil]
    simp [scanned]
  · simp only [found_append, observed_errors k, observed_reads l, List.append_nil]
    simp [found]

/-! ## C121 The command ends -/

/-- Work left besides the calls of `WhoIs`: in a worker, in the main goroutine, in the
merging one, and altogether. -/
def C121_worker : Worker δ ρ → Nat
  | .recv => 1
  | .each l => 5 * l.length + 2
  | .push _ l => 5 * l.length + 6
  | .exited => 0

def C121_main : Main δ ρ → Nat
  | .loop _ => 4
  | .push _ l => 5 * l.length + 7
  | .wait => 3
  | .shut => 2
  | .save => 1
  | .done _ => 0
  | .crashed => 0

def C121_merger : Merger ρ → Nat
  | .recv => 1
  | .got _ => 3
  | .exited => 0

def C121_work (s : State δ ρ) : Nat :=
  C121_main s.main + (s.scanQ.map fun l => 5 * l.length + 2).sum + (s.workers.map C121_worker).sum +
    3 * s.mergeQ.length + C121_merger s.merger

/-- Every step takes away a call of `WhoIs`, or else some of the other work; it can only
add to that when it takes away a call. -/
theorem C121_decreases {s t : State δ ρ} {e : List (Event δ ρ)} (h : Discover.Step key s e t) (hc : t.main ≠ .crashed) :
    t.main.left < s.main.left ∨ t.main.left = s.main.left ∧ C121_work t < C121_work s := by
  cases h with
  | whoIsErr k hm => left; rw [hm]; exact Nat.lt_succ_self k
  | whoIsOk k l hm => left; rw [hm]; exact Nat.lt_succ_self k
  | send k l hm hq =>
    right
    rw [hm]
    refine ⟨rfl, ?_⟩
    simp only [C121_work, hm, C121_main, List.map_append, List.map_cons, List.map_nil, List.sum_append, List.sum_cons, List.sum_nil]
    omega
  | closeScan hm => right; rw [hm]; refine ⟨rfl, ?_⟩; simp only [C121_work, hm, C121_main]; omega
  | waited hm hw => right; rw [hm]; refine ⟨rfl, ?_⟩; simp only [C121_work, hm, C121_main]; omega
  | closeMerge hm => right; rw [hm]; refine ⟨rfl, ?_⟩; simp only [C121_work, hm, C121_main]; omega
  | snapshot hm => right; rw [hm]; refine ⟨rfl, ?_⟩; simp only [C121_work, hm, C121_main]; omega
  | take i l q hi hq =>
    right
    refine ⟨rfl, ?_⟩
    have := sum_set C121_worker s.workers i _ (.each l) hi
    simp only [C121_work, hq, List.map_cons, List.sum_cons]
    simp only [C121_worker] at this
    omega
  | leave i hi hq hc hw =>
    right
    refine ⟨rfl, ?_⟩
    have := sum_set C121_worker s.workers i _ .exited hi
    simp only [C121_work]
    simp only [C121_worker] at this
    omega
  | leaveCrash => exact absurd rfl hc
  | objErr i d l hi =>
    right
    refine ⟨rfl, ?_⟩
    have := sum_set C121_worker s.workers i _ (.each l) hi
    simp only [C121_work]
    simp only [C121_worker, List.length_cons] at this
    omega
  | objOk i d l r hi =>
    right
    refine ⟨rfl, ?_⟩
    have := sum_set C121_worker s.workers i _ (.push r l) hi
    simp only [C121_work]
    simp only [C121_worker, List.length_cons] at this
    omega
  | emit i r l hi hc hq =>
    right
    refine ⟨rfl, ?_⟩
    have := sum_set C121_worker s.workers i _ (.each l) hi
    simp only [C121_work, List.length_append, List.length_cons, List.length_nil]
    simp only [C121_worker] at this
    omega
  | emitCrash => exact absurd rfl hc
  | next i hi =>
    right
    refine ⟨rfl, ?_⟩
    have := sum_set C121_worker s.workers i _ .recv hi
    simp only [C121_work]
    simp only [C121_worker, List.length_nil] at this
    omega
  | receive r q hm hq =>
    right
    refine ⟨rfl, ?_⟩
    simp only [C121_work, hm, hq, C121_merger, List.length_cons]
    omega
  | repeated r hm hk => right; refine ⟨rfl, ?_⟩; simp only [C121_work, hm, C121_merger]; omega
  | merge r hm hk => right; refine ⟨rfl, ?_⟩; simp only [C121_work, hm, C121_merger]; omega
  | mergerLeave hm hq hc => right; refine ⟨rfl, ?_⟩; simp only [C121_work, hm, C121_merger]; omega

/-- C121, no crash: no goroutine sends on a closed channel, the wait group never becomes
negative. -/
theorem C121_safe (n k : Nat) (tr : List (Event δ ρ)) (t : State δ ρ)
    (he : Exec key (start δ ρ n k) tr t) : t.main ≠ .crashed :=
  (Inv.exec he).noCrash

/-- C121, no endless execution: whatever the calls return, there is no infinite sequence
of steps. -/
theorem C121_finite (n k : Nat) (f : Nat → State δ ρ) (h0 : f 0 = start δ ρ n k) :
    ¬ ∀ i, ∃ e, Discover.Step key (f i) e (f (i + 1)) := by
  intro h
  have hex : ∀ i, ∃ tr, Exec key (start δ ρ n k) tr (f i) := by
    intro i
    induction i with
    | zero => rw [h0]; exact ⟨[], .refl _⟩
    | succ i ih =>
      obtain ⟨tr, ht⟩ := ih
      obtain ⟨e, he⟩ := h i
      exact ⟨_, .tail _ _ _ _ _ ht he⟩
  have hwf : WellFounded (Prod.Lex (· < · : Nat → Nat → Prop) (· < · : Nat → Nat → Prop)) :=
    (Prod.lex ⟨_, Nat.lt_wfRel.wf⟩ ⟨_, Nat.lt_wfRel.wf⟩).wf
  have key' : ∀ x : Nat × Nat, ∀ i, ((f i).main.left, C121_work (f i)) = x → False := by
    intro x
    induction x using hwf.induction with
    | _ x ih =>
      intro i hx
      obtain ⟨e, he⟩ := h i
      obtain ⟨tr, ht⟩ := hex (i + 1)
      refine ih _ ?_ (i + 1) rfl
      rw [← hx]
      rcases C121_decreases he (C121_safe n k tr _ ht) with hlt | ⟨heq, hlt⟩
      · exact Prod.Lex.left _ _ hlt
      · rw [heq]
        exact Prod.Lex.right _ hlt
  exact key' _ 0 rfl

/-- The merging goroutine can go on while `merge` is full. -/
theorem C121_merger_step {n k : Nat} {tr : List (Event δ ρ)} {t : State δ ρ} (h : Inv key n k tr t)
    (hq : t.mergeQ ≠ []) : ∃ e t', Discover.Step key t e t' := by
  cases hm : t.merger with
  | recv =>
    obtain ⟨r, q, e⟩ := List.exists_cons_of_ne_nil hq
    exact ⟨_, _, .receive t r q hm e⟩
  | got r =>
    by_cases hk : key r ∈ t.repeats
    · exact ⟨_, _, .repeated t r hm hk⟩
    · exact ⟨_, _, .merge t r hm hk⟩
  | exited => exact absurd (h.mx hm).2 hq

/-- A worker that has not left can go on, or somebody else can. -/
theorem C121_worker_step {n k : Nat} {tr : List (Event δ ρ)} {t : State δ ρ} (h : Inv key n k tr t) (hn : 0 < n)
    (hmc : t.mergeClosed = false) (hs : t.scanQ ≠ [] ∨ t.scanClosed = true) (i : Nat) (w : Worker δ ρ)
    (hi : t.workers[i]? = some w) (hw : w ≠ .exited) : ∃ e t', Discover.Step key t e t' := by
  cases w with
  | recv =>
    cases hq : t.scanQ with
    | cons l q => exact ⟨_, _, .take t i l q hi hq⟩
    | nil =>
      have hc : t.scanClosed = true := hs.resolve_left (fun h => h hq)
      refine ⟨_, _, .leave t i hi hq hc ?_⟩
      rw [h.wg]
      exact sum_pos Worker.alive _ _ _ hi
  | each l =>
    cases l with
    | nil => exact ⟨_, _, .next t i hi⟩
    | cons d l => exact ⟨_, _, .objErr t i d l hi⟩
  | push r l =>
    by_cases hq : t.mergeQ.length < t.n
    · exact ⟨_, _, .emit t i r l hi hmc hq⟩
    · refine C121_merger_step h fun e => ?_
      rw [e, h.size] at hq
      exact hq hn
  | exited => exact absurd rfl hw

/-- C121, no deadlock: with at least one worker, a state in which nobody can go on is one
in which the results were saved and every goroutine has ended. -/
theorem C121_ends (n k : Nat) (hn : 0 < n) (tr : List (Event δ ρ)) (t : State δ ρ)
    (he : Exec key (start δ ρ n k) tr t) (hstuck : ∀ e t', ¬ Discover.Step key t e t') :
    (∃ saved, t.main = .done saved) ∧ t.merger = .exited ∧ ∀ w ∈ t.workers, w = .exited := by
  have h := Inv.exec he
  have no : ¬ ∃ e t', Discover.Step key t e t' := fun ⟨e, t', hs⟩ => hstuck e t' hs
  have hd : ∃ saved, t.main = .done saved := by
    cases hm : t.main with
    | loop j =>
      cases j with
      | zero => exact absurd ⟨_, _, .closeScan t hm⟩ no
      | succ j => exact absurd ⟨_, _, .whoIsErr t j hm⟩ no
    | push j l =>
      by_cases hq : t.scanQ.length < t.n
      · exact absurd ⟨_, _, .send t j l hm hq⟩ no
      · have hne : t.scanQ ≠ [] := fun e => hq (by rw [e, h.size]; exact hn)
        have hl : 0 < t.workers.length := by rw [h.len]; exact hn
        have h0 := List.getElem?_eq_getElem hl
        refine absurd (C121_worker_step h hn (by rw [h.mc, hm]; rfl) (Or.inl hne) 0 _ h0 fun e => ?_) no
        rw [e] at h0
        exact hne (h.ex 0 h0).2
    | wait =>
      by_cases hw : t.wg = 0
      · exact absurd ⟨_, _, .waited t hm hw⟩ no
      · rw [h.wg] at hw
        have : ∃ w ∈ t.workers, w ≠ .exited := by
          by_contra hall
          refine hw (List.sum_eq_zero_iff_forall_eq_nat.2 fun x hx => ?_)
          obtain ⟨w, hw', rfl⟩ := List.mem_map.1 hx
          have : w = .exited := by
            by_contra hh
            exact hall ⟨w, hw', hh⟩
          rw [this]
          rfl
        obtain ⟨w, hwm, hne⟩ := this
        obtain ⟨i, hi⟩ := List.getElem?_of_mem hwm
        exact absurd (C121_worker_step h hn (by rw [h.mc, hm]; rfl) (Or.inr (by rw [h.sc, hm]; rfl)) i w hi hne) no
    | shut => exact absurd ⟨_, _, .closeMerge t hm⟩ no
    | save => exact absurd ⟨_, _, .snapshot t hm⟩ no
    | done saved => exact ⟨saved, rfl⟩
    | crashed => exact absurd hm h.noCrash
  obtain ⟨saved, hs⟩ := hd
  refine ⟨⟨saved, hs⟩, ?_, fun w hw => ?_⟩
  · cases hm : t.merger with
    | recv =>
      cases hq : t.mergeQ with
      | nil => exact absurd ⟨_, _, .mergerLeave t hm hq (by rw [h.mc, hs]; rfl)⟩ no
      | cons r q => exact absurd ⟨_, _, .receive t r q hm hq⟩ no
    | got r =>
      by_cases hk : key r ∈ t.repeats
      · exact absurd ⟨_, _, .repeated t r hm hk⟩ no
      · exact absurd ⟨_, _, .merge t r hm hk⟩ no
    | exited => rfl
  · obtain ⟨i, hi⟩ := List.getElem?_of_mem hw
    exact h.gone (by rw [hs]; rfl) i w hi

/-- C121 fails without workers: once a call of `WhoIs` has succeeded nothing happens any
more, and nothing is ever saved. -/
theorem C121_fails_zero (k : Nat) (tr : List (Event δ ρ)) (t : State δ ρ)
    (he : Exec key (start δ ρ 0 k) tr t) (l : List δ) (hl : .whoIs (some l) ∈ tr) :
    (∀ e t', ¬ Discover.Step key t e t') ∧ ∀ saved, t.main ≠ .done saved := by
  have nogot : ∀ (tr : List (Event δ ρ)) (t : State δ ρ), Exec key (start δ ρ 0 k) tr t → ∀ r, t.merger ≠ .got r := by
    intro tr t he
    induction he with
    | refl => exact nofun
    | tail m t tr e he hst ih =>
      have hq : m.mergeQ = [] := List.length_eq_zero_iff.1 (Nat.le_zero.1 (Inv.exec he).cap)
      cases hst with
      | receive _ _ _ hq' => rw [hq] at hq'; cases hq'
      | repeated => exact nofun
      | merge => exact nofun
      | mergerLeave => exact nofun
      | _ => exact ih
  have stuck : ∀ (tr : List (Event δ ρ)) (t : State δ ρ), Exec key (start δ ρ 0 k) tr t →
      (∃ j l, t.main = .push j l) → ∀ e t', ¬ Discover.Step key t e t' := by
    rintro tr t he ⟨j, l, hm⟩ e t' hs
    have h := Inv.exec he
    have hws : t.workers = [] := List.length_eq_zero_iff.1 h.len
    have hq : t.mergeQ = [] := List.length_eq_zero_iff.1 (Nat.le_zero.1 h.cap)
    have hsz := h.size
    have hmc : t.mergeClosed = false := by rw [h.mc, hm]; rfl
    cases hs with
    | send _ _ _ hq' => rw [hsz] at hq'; exact absurd hq' (Nat.not_lt_zero _)
    | receive _ _ _ hq' => rw [hq] at hq'; cases hq'
    | repeated r hg => exact nogot tr t he r hg
    | merge r hg => exact nogot tr t he r hg
    | mergerLeave _ _ hc => rw [hmc] at hc; cases hc
    | _ => simp_all
  have hp : ∃ j l, t.main = .push j l := by
    induction he with
    | refl => simp at hl
    | tail m t tr e he hst ih =>
      rcases List.mem_append.1 hl with hl | hl
      · exact absurd hst (stuck _ _ he (ih hl) _ _)
      · cases hst <;> simp at hl
        exact ⟨_, _, rfl⟩
  refine ⟨stuck tr t he hp, fun saved hd => ?_⟩
  obtain ⟨j, l, hm⟩ := hp
  rw [hm] at hd
  cases hd

example : ∃ tr t, Exec id (start Nat UInt32 1 1) tr t ∧ found tr = [9] ∧ t.main = .done [] := by
  obtain ⟨tr, t, h1, _, h2, h3⟩ := C120_fails (key := id) 1 0 (by decide) [((9 : Nat), (9 : UInt32))] (by decide)
  exact ⟨tr, t, h1, h2, h3⟩

/-! ## C122 What is asked for -/

/-- C122, coverage: with a scan size between 1 and 4194303 the first call accepts every
device there is and asks all of them, so whatever answers it is found. -/
theorem C122_covers (size : UInt32) (h0 : size ≠ 0) (h1 : size.toNat ≤ 4194303) :
    ∃ o rest, requests size = .ok (o :: rest) ∧
      (∀ published (r : IAm), ((r.id.inst.toNat : Int), Published.iam r) ∈ published → r.id.inst.toNat < 2 ^ 22 →
        ∃ d ∈ whoIs o published, d.deviceId = r.id.inst.toNat) ∧
      ∀ my broadcast : Address, my.net = 0 → broadcast.len = 0 ∧ broadcast.adr = [] →
        whoIsPack my (o.dest broadcast) o.limits.1 o.limits.2 = .ok ([1, 0] ++ Spec.whoIs none, none) := by
  have hs : 0 < size.toNat := by
    have : size.toNat ≠ 0 := fun h => h0 (UInt32.toNat_inj.1 h)
    omega
  obtain ⟨m, hm⟩ : ∃ m, 4194303 / size.toNat = m + 1 := ⟨4194303 / size.toNat - 1, by
    have := Nat.div_pos h1 hs
    omega⟩
  refine ⟨{ low := 0, high := 0 }, ((List.range m).map Nat.succ).map fun i =>
    { low := (i * size.toNat : Nat), high := (i * size.toNat : Nat) }, ?_, ?_, ?_⟩
  · rw [requests, if_neg h0, hm, List.range_succ_eq_map, List.map_cons, Nat.zero_mul]
    rfl
  · intro published r hr hlt
    exact C54_unlimited _ (by decide) published r hr (by simp) hlt
  · intro my broadcast hmy hb
    rw [C89_request _ my broadcast hmy hb (by decide) (by decide)]
    rfl

/-- C122 fails for the blocks: every further call asks for a single device and accepts
only it, the first of its block. -/
theorem C122_fails_blocks (size : UInt32) (os : List WhoIsOpts) (ho : requests size = .ok os) (i : Nat)
    (hi : 0 < i) (o : WhoIsOpts) (h : os[i]? = some o) :
    (∀ my broadcast : Address, my.net = 0 → broadcast.len = 0 ∧ broadcast.adr = [] →
      whoIsPack my (o.dest broadcast) o.limits.1 o.limits.2 =
        .ok ([1, 0] ++ Spec.whoIs (some (i * size.toNat, i * size.toNat)), none)) ∧
    ∀ pending frames, ∀ d ∈ whoIs o (publishedBy pending frames), d.deviceId = (i * size.toNat : Nat) := by
  by_cases h0 : size = 0
  · rw [requests, if_pos h0] at ho
    cases ho
  rw [requests, if_neg h0] at ho
  obtain rfl := (Outcome.ok.inj ho).symm
  have hs : 0 < size.toNat := by
    have : size.toNat ≠ 0 := fun h => h0 (UInt32.toNat_inj.1 h)
    omega
  rw [List.getElem?_map] at h
  cases hr : (List.range (4194303 / size.toNat))[i]? with
  | none => rw [hr] at h; cases h
  | some j =>
    rw [hr] at h
    obtain ⟨hlt, hj⟩ := List.getElem?_eq_some_iff.1 hr
    rw [List.getElem_range] at hj
    subst hj
    obtain rfl := (Option.some.inj h).symm
    rw [List.length_range] at hlt
    have hb : i * size.toNat < 4194303 := by
      have h1 : (i + 1) * size.toNat ≤ 4194303 := (Nat.le_div_iff_mul_le hs).1 hlt
      rw [Nat.succ_mul] at h1
      omega
    have hp : 0 < i * size.toNat := Nat.mul_pos hi hs
    dsimp only
    generalize i * size.toNat = b at hb hp
    constructor
    · intro my broadcast hmy hbr
      rw [C89_request _ my broadcast hmy hbr (by dsimp only; omega) (by dsimp only; omega)]
      dsimp only
      rw [if_neg Bool.false_ne_true, if_pos (show (0 : Int) < b by omega), Int.toNat_natCast]
      rfl
    · intro pending frames d hd
      have := C54_range _ pending frames d hd
      dsimp only at this
      omega

/-- C122 fails for the scan size 0, which crashes, and for those above 4194303, with
which nothing is asked at all. -/
theorem C122_fails_size (size : UInt32) : (size = 0 → requests size = .panic .divideByZero) ∧
    (4194303 < size.toNat → requests size = .ok []) := by
  refine ⟨fun h => if_pos h, fun h => ?_⟩
  rw [requests, if_neg (fun e => by subst e; simp at h), Nat.div_eq_of_lt h]
  rfl

example : requests 2000000 = .ok [{ low := 0, high := 0 }, { low := 2000000, high := 2000000 }] := by decide +kernel

end Bac.Props
