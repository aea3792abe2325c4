import Verif.Spec.Discover
import Verif.Lemmas.Discovery
/-!
# Lemmas on the command discover
-/

namespace Bac.Discover

open Spec

variable {δ ρ : Type} {key : ρ → UInt32}

/-- What the workers hold ready to send. -/
def Worker.held : Worker δ ρ → List ρ
  | .push r _ => [r]
  | _ => []

/-- The devices a worker still has to read. -/
def Worker.rest : Worker δ ρ → List δ
  | .each l => l
  | .push _ l => l
  | _ => []

def Worker.isExited : Worker δ ρ → Bool
  | .exited => true
  | _ => false

def Merger.held : Merger ρ → List ρ
  | .got r => [r]
  | _ => []

/-- The devices found that the main goroutine still has to send. -/
def Main.rest : Main δ ρ → List δ
  | .push _ l => l
  | _ => []

/-- Whether `scan` was closed. -/
def Main.afterScan : Main δ ρ → Bool
  | .loop _ => false
  | .push _ _ => false
  | _ => true

/-- Whether `merge` was closed. -/
def Main.afterMerge : Main δ ρ → Bool
  | .save => true
  | .done _ => true
  | _ => false

/-- Whether the wait for the workers is over. -/
def Main.afterWait : Main δ ρ → Bool
  | .shut => true
  | .save => true
  | .done _ => true
  | _ => false

theorem sum_set {α : Type} (f : α → Nat) (l : List α) (i : Nat) (a b : α) (h : l[i]? = some a) :
    ((l.set i b).map f).sum + f a = (l.map f).sum + f b := by
  induction l generalizing i with
  | nil => simp at h
  | cons x l ih =>
    cases i with
    | zero =>
      simp only [List.getElem?_cons_zero, Option.some.injEq] at h
      subst h
      simp only [List.set_cons_zero, List.map_cons, List.sum_cons]
      omega
    | succ i =>
      simp only [List.getElem?_cons_succ] at h
      have := ih i h
      simp only [List.set_cons_succ, List.map_cons, List.sum_cons]
      omega

theorem sum_pos {α : Type} (f : α → Nat) (l : List α) (i : Nat) (a : α) (h : l[i]? = some a) : f a ≤ (l.map f).sum := by
  induction l generalizing i with
  | nil => simp at h
  | cons x l ih =>
    cases i with
    | zero =>
      simp only [List.getElem?_cons_zero, Option.some.injEq] at h
      subst h
      simp
    | succ i =>
      simp only [List.getElem?_cons_succ] at h
      have := ih i h
      simp only [List.map_cons, List.sum_cons]
      omega

theorem firsts_concat {α κ : Type} [DecidableEq κ] (key : α → κ) (l : List α) (r : α) :
    firsts key (l ++ [r]) = if key r ∈ (firsts key l).map key then firsts key l else firsts key l ++ [r] := by
  induction l with
  | nil => simp [firsts]
  | cons a l ih =>
    simp only [List.cons_append, firsts, ih, List.map_cons, List.mem_cons]
    by_cases h1 : key r = key a
    · rw [if_pos (Or.inl h1)]
      split
      · rfl
      · rw [List.filter_append]
        simp [h1]
    · by_cases h2 : key r ∈ (firsts key l).map key
      · rw [if_pos h2, if_pos]
        right
        obtain ⟨x, hx, e⟩ := List.mem_map.1 h2
        exact List.mem_map.2 ⟨x, List.mem_filter.2 ⟨hx, by simp [e, h1]⟩, e⟩
      · rw [if_neg h2, if_neg]
        · rw [List.filter_append]
          simp [h1]
        · rintro (h | h)
          · exact h1 h
          · obtain ⟨x, hx, e⟩ := List.mem_map.1 h
            exact h2 (List.mem_map.2 ⟨x, (List.mem_filter.1 hx).1, e⟩)

/-! ## The invariant -/

def Main.left : Main δ ρ → Nat
  | .loop k => k
  | .push k _ => k
  | _ => 0

def Worker.alive (w : Worker δ ρ) : Nat := if w.isExited then 0 else 1

structure Inv (key : ρ → UInt32) (n k : Nat) (tr : List (Event δ ρ)) (s : State δ ρ) : Prop where
  size : s.n = n
  len : s.workers.length = n
  wg : s.wg = (s.workers.map Worker.alive).sum
  noCrash : s.main ≠ .crashed
  sc : s.scanClosed = s.main.afterScan
  mc : s.mergeClosed = s.main.afterMerge
  ex : ∀ i : Nat, s.workers[i]? = some Worker.exited → s.scanClosed = true ∧ s.scanQ = []
  aw : s.main.afterWait = true → s.wg = 0
  mx : s.merger = Merger.exited → s.mergeClosed = true ∧ s.mergeQ = []
  cap : s.mergeQ.length ≤ n
  scap : s.scanQ.length ≤ n
  rep : ∀ x, x ∈ s.repeats ↔ x ∈ s.results.map key
  taken : ∃ taken, s.results = firsts key taken ∧ ∀ p : ρ → Bool, (found tr).countP p =
    taken.countP p + s.merger.held.countP p + s.mergeQ.countP p + (s.workers.map fun w => w.held.countP p).sum
  rest : ∀ p : δ → Bool, (scanned tr).countP p = (called tr).countP p + s.main.rest.countP p +
    (s.scanQ.map fun l => l.countP p).sum + (s.workers.map fun w => w.rest.countP p).sum
  calls : s.main.afterScan = false → asked tr + s.main.left = k
  all : s.main.afterScan = true → asked tr = k
  done : ∀ saved, s.main = .done saved → ∃ (taken lost : List ρ), saved = firsts key taken ∧
    (∀ p : ρ → Bool, (found tr).countP p = taken.countP p + lost.countP p) ∧ lost.length ≤ n + 1

theorem Inv.start (n k : Nat) : Inv key n k ([] : List (Event δ ρ)) (Discover.start δ ρ n k) where
  size := rfl
  len := by simp [Discover.start]
  wg := by simp [Discover.start, Worker.alive, Worker.isExited]
  noCrash := nofun
  sc := rfl
  mc := rfl
  ex := fun i h => by
    obtain ⟨h, _⟩ := List.getElem?_eq_some_iff.1 h
    simp_all [Discover.start]
  aw := nofun
  mx := nofun
  cap := by simp [Discover.start]
  scap := by simp [Discover.start]
  rep := by simp [Discover.start]
  taken := ⟨[], rfl, fun p => by simp [Discover.start, found, Merger.held, Worker.held]⟩
  rest := fun p => by simp [Discover.start, scanned, called, Main.rest, Worker.rest]
  calls := fun _ => by simp [Discover.start, asked, Main.left]
  all := nofun
  done := nofun

theorem found_append (a b : List (Event δ ρ)) : found (a ++ b) = found a ++ found b := List.flatMap_append
theorem called_append (a b : List (Event δ ρ)) : called (a ++ b) = called a ++ called b := List.flatMap_append
theorem scanned_append (a b : List (Event δ ρ)) : scanned (a ++ b) = scanned a ++ scanned b := List.flatMap_append
theorem asked_append (a b : List (Event δ ρ)) : asked (a ++ b) = asked a + asked b := by
  simp [asked]

theorem mem_of_get {α : Type} {l : List α} {i : Nat} {a : α} (h : l[i]? = some a) : a ∈ l :=
  List.mem_of_getElem? h

/-- After the wait no worker is left. -/
theorem Inv.gone {n k : Nat} {tr : List (Event δ ρ)} {s : State δ ρ} (h : Inv key n k tr s)
    (hw : s.main.afterWait = true) (i : Nat) (w : Worker δ ρ) (hi : s.workers[i]? = some w) : w = .exited := by
  have h1 := h.aw hw
  rw [h.wg] at h1
  have := sum_pos Worker.alive s.workers i w hi
  cases w <;> simp_all [Worker.alive, Worker.isExited]

macro "inv_tac" h:ident : tactic => `(tactic|
  (first
    | rfl
    | (have hx := Inv.size $h; exact hx) | (have hx := Inv.len $h; exact hx) | (have hx := Inv.wg $h; exact hx) | (have hx := Inv.noCrash $h; exact hx) | (have hx := Inv.sc $h; exact hx)
    | (have hx := Inv.mc $h; exact hx) | (have hx := Inv.ex $h; exact hx) | (have hx := Inv.aw $h; exact hx) | (have hx := Inv.mx $h; exact hx) | (have hx := Inv.cap $h; exact hx)
    | (have hx := Inv.scap $h; exact hx) | (have hx := Inv.rep $h; exact hx) | (have hx := Inv.taken $h; exact hx) | (have hx := Inv.rest $h; exact hx) | (have hx := Inv.calls $h; exact hx)
    | (have hx := Inv.all $h; exact hx) | (have hx := Inv.done $h; exact hx)
    | (intro hh; cases hh; done) | (intro _ hh; cases hh; done)))

theorem get_set_exited {ws : List (Worker δ ρ)} {i j : Nat} {w : Worker δ ρ} (hw : w.isExited = false)
    (h : (ws.set i w)[j]? = some .exited) : ws[j]? = some .exited := by
  rw [List.getElem?_set] at h
  split at h
  · split at h
    · cases h
      cases hw
    · cases h
  · exact h

theorem countP_cons' {α : Type} (p : α → Bool) (a : α) (l : List α) :
    List.countP p (a :: l) = List.countP p [a] + List.countP p l := by
  rw [← List.singleton_append, List.countP_append]

theorem held_recv : (Worker.recv : Worker δ ρ).held = [] := rfl
theorem held_each (l : List δ) : (Worker.each l : Worker δ ρ).held = [] := rfl
theorem held_push (r : ρ) (l : List δ) : (Worker.push r l).held = [r] := rfl
theorem held_exited : (Worker.exited : Worker δ ρ).held = [] := rfl
theorem rest_recv : (Worker.recv : Worker δ ρ).rest = [] := rfl
theorem rest_each (l : List δ) : (Worker.each l : Worker δ ρ).rest = l := rfl
theorem rest_push (r : ρ) (l : List δ) : (Worker.push r l).rest = l := rfl
theorem rest_exited : (Worker.exited : Worker δ ρ).rest = [] := rfl

/-- What is lost when the results are read. -/
theorem Inv.at_save {n k : Nat} {tr : List (Event δ ρ)} {s : State δ ρ} (h : Inv key n k tr s)
    (hw : s.main.afterWait = true) : ∃ (taken lost : List ρ), s.results = firsts key taken ∧
    (∀ p : ρ → Bool, (found tr).countP p = taken.countP p + lost.countP p) ∧ lost.length ≤ n + 1 := by
  obtain ⟨taken, h1, h2⟩ := h.taken
  refine ⟨taken, s.merger.held ++ s.mergeQ, h1, fun p => ?_, ?_⟩
  · rw [h2, List.countP_append]
    have : (s.workers.map fun w => w.held.countP p).sum = 0 := by
      refine List.sum_eq_zero_iff_forall_eq_nat.2 ?_
      intro x hx
      obtain ⟨w, hw', rfl⟩ := List.mem_map.1 hx
      obtain ⟨i, hi⟩ := List.getElem?_of_mem hw'
      rw [h.gone hw i w hi]
      rfl
    omega
  · rw [List.length_append]
    have := h.cap
    have : s.merger.held.length ≤ 1 := by cases s.merger <;> simp [Merger.held]
    omega

theorem Inv.step {n k : Nat} {tr e : List (Event δ ρ)} {s t : State δ ρ} (h : Inv key n k tr s)
    (hs : Step key s e t) : Inv key n k (tr ++ e) t := by
  cases hs with
  | whoIsErr k' hm =>
    obtain ⟨sn, main, scanQ, scanClosed, workers, wg, mergeQ, mergeClosed, merger, results, repeats⟩ := s
    dsimp only at hm
    subst hm
    constructor <;> (try inv_tac h)
    · obtain ⟨taken, h1, h2⟩ := h.taken
      exact ⟨taken, h1, fun p => by rw [found_append, List.countP_append, h2]; rfl⟩
    · intro p
      have := h.rest p
      rw [scanned_append, called_append, List.countP_append, List.countP_append, this]
      rfl
    · intro _
      have := h.calls rfl
      rw [asked_append]
      simp only [Main.left] at this ⊢
      simp only [asked, List.flatMap_cons, List.flatMap_nil, List.length_append, List.length_cons, List.length_nil] at this ⊢
      omega
  | whoIsOk k' l hm =>
    obtain ⟨sn, main, scanQ, scanClosed, workers, wg, mergeQ, mergeClosed, merger, results, repeats⟩ := s
    dsimp only at hm
    subst hm
    constructor <;> (try inv_tac h)
    · obtain ⟨taken, h1, h2⟩ := h.taken
      exact ⟨taken, h1, fun p => by rw [found_append, List.countP_append, h2]; rfl⟩
    · intro p
      have := h.rest p
      rw [scanned_append, called_append, List.countP_append, List.countP_append, this]
      simp only [scanned, called, Main.rest, List.flatMap_cons, List.flatMap_nil, List.append_nil, List.countP_nil]
      omega
    · intro _
      have := h.calls rfl
      rw [asked_append]
      simp only [Main.left] at this ⊢
      simp only [asked, List.flatMap_cons, List.flatMap_nil, List.length_append, List.length_cons, List.length_nil] at this ⊢
      omega
  | send k' l hm hq =>
    rw [List.append_nil]
    obtain ⟨sn, main, scanQ, scanClosed, workers, wg, mergeQ, mergeClosed, merger, results, repeats⟩ := s
    dsimp only at hm hq
    subst hm
    constructor <;> (try inv_tac h)
    · intro i hi
      have := (h.ex i hi).1
      rw [h.sc] at this
      cases this
    · have := h.size
      simp only [List.length_append, List.length_cons, List.length_nil] at this ⊢
      omega
    · intro p
      have := h.rest p
      simp only [Main.rest, List.countP_nil, List.map_append, List.map_cons, List.map_nil, List.sum_append, List.sum_cons,
        List.sum_nil] at this ⊢
      omega
  | closeScan hm =>
    rw [List.append_nil]
    obtain ⟨sn, main, scanQ, scanClosed, workers, wg, mergeQ, mergeClosed, merger, results, repeats⟩ := s
    dsimp only at hm
    subst hm
    constructor <;> (try inv_tac h)
    · exact fun i hi => ⟨rfl, (h.ex i hi).2⟩
    · exact fun _ => h.calls rfl
  | waited hm hw =>
    rw [List.append_nil]
    obtain ⟨sn, main, scanQ, scanClosed, workers, wg, mergeQ, mergeClosed, merger, results, repeats⟩ := s
    dsimp only at hm hw
    subst hm
    constructor <;> (try inv_tac h)
    exact fun _ => hw
  | closeMerge hm =>
    rw [List.append_nil]
    obtain ⟨sn, main, scanQ, scanClosed, workers, wg, mergeQ, mergeClosed, merger, results, repeats⟩ := s
    dsimp only at hm
    subst hm
    constructor <;> (try inv_tac h)
    exact fun hx => ⟨rfl, (h.mx hx).2⟩
  | snapshot hm =>
    rw [List.append_nil]
    obtain ⟨sn, main, scanQ, scanClosed, workers, wg, mergeQ, mergeClosed, merger, results, repeats⟩ := s
    dsimp only at hm
    subst hm
    constructor <;> (try inv_tac h)
    intro saved hh
    cases hh
    exact h.at_save rfl
  | take i l q hi hq =>
    rw [List.append_nil]
    obtain ⟨sn, main, scanQ, scanClosed, workers, wg, mergeQ, mergeClosed, merger, results, repeats⟩ := s
    dsimp only at hi hq
    subst hq
    have ha := sum_set Worker.alive workers i _ (.each l) hi
    simp only [Worker.alive, Worker.isExited] at ha
    have hh := fun p : ρ → Bool => sum_set (fun w : Worker δ ρ => w.held.countP p) workers i _ (.each l) hi
    simp only [held_recv, held_each, held_push, held_exited, List.countP_nil, Nat.add_zero] at hh
    have hr := fun p : δ → Bool => sum_set (fun w : Worker δ ρ => w.rest.countP p) workers i _ (.each l) hi
    simp only [rest_recv, rest_each, rest_push, rest_exited, List.countP_nil, Nat.add_zero] at hr
    constructor <;> (try inv_tac h)
    · rw [List.length_set]; exact h.len
    · have := h.wg
      simp only [Bool.false_eq_true, if_false, if_true] at this ha ⊢
      omega
    · intro j hj
      have := h.ex j (get_set_exited rfl hj)
      exact absurd this.2 (List.cons_ne_nil _ _)
    · have := h.scap
      simp only [List.length_cons] at this ⊢
      omega
    · obtain ⟨taken, h1, h2⟩ := h.taken
      exact ⟨taken, h1, fun p => by have := h2 p; have := hh p; dsimp only at *; omega⟩
    · intro p
      have := h.rest p
      have := hr p
      simp only [List.map_cons, List.sum_cons] at *
      omega
  | leave i hi hq hc hw =>
    rw [List.append_nil]
    obtain ⟨sn, main, scanQ, scanClosed, workers, wg, mergeQ, mergeClosed, merger, results, repeats⟩ := s
    dsimp only at hi hq hc hw
    subst hq
    subst hc
    have ha := sum_set Worker.alive workers i _ (.exited) hi
    simp only [Worker.alive, Worker.isExited] at ha
    have hh := fun p : ρ → Bool => sum_set (fun w : Worker δ ρ => w.held.countP p) workers i _ (.exited) hi
    simp only [held_recv, held_each, held_push, held_exited, List.countP_nil, Nat.add_zero] at hh
    have hr := fun p : δ → Bool => sum_set (fun w : Worker δ ρ => w.rest.countP p) workers i _ (.exited) hi
    simp only [rest_recv, rest_each, rest_push, rest_exited, List.countP_nil, Nat.add_zero] at hr
    constructor <;> (try inv_tac h)
    · rw [List.length_set]; exact h.len
    · have := h.wg
      simp only [Bool.false_eq_true, if_false, if_true] at this ha ⊢
      omega
    · exact fun _ _ => ⟨rfl, rfl⟩
    · intro hh'
      have := h.aw hh'
      dsimp only at this ⊢
      omega
    · obtain ⟨taken, h1, h2⟩ := h.taken
      exact ⟨taken, h1, fun p => by have := h2 p; have := hh p; dsimp only at *; omega⟩
    · intro p
      have := h.rest p
      have := hr p
      dsimp only at *
      omega
  | leaveCrash i hi hq hc hw =>
    exfalso
    have := h.wg
    have := sum_pos Worker.alive _ _ _ hi
    simp only [Worker.alive, Worker.isExited, Bool.false_eq_true, if_false] at *
    omega
  | objErr i d l hi =>
    obtain ⟨sn, main, scanQ, scanClosed, workers, wg, mergeQ, mergeClosed, merger, results, repeats⟩ := s
    dsimp only at hi
    have ha := sum_set Worker.alive workers i _ (.each l) hi
    simp only [Worker.alive, Worker.isExited] at ha
    have hh := fun p : ρ → Bool => sum_set (fun w : Worker δ ρ => w.held.countP p) workers i _ (.each l) hi
    simp only [held_recv, held_each, held_push, held_exited, List.countP_nil, Nat.add_zero] at hh
    have hr := fun p : δ → Bool => sum_set (fun w : Worker δ ρ => w.rest.countP p) workers i _ (.each l) hi
    simp only [rest_recv, rest_each, rest_push, rest_exited, List.countP_nil, Nat.add_zero] at hr
    have hno : main.afterWait = false := by
      cases hw : main.afterWait with
      | false => rfl
      | true => exact absurd (h.gone hw i _ hi) nofun
    constructor <;> (try inv_tac h)
    · rw [List.length_set]; exact h.len
    · have := h.wg
      simp only [Bool.false_eq_true, if_false, if_true] at this ha ⊢
      omega
    · exact fun j hj => h.ex j (get_set_exited rfl hj)
    · obtain ⟨taken, h1, h2⟩ := h.taken
      refine ⟨taken, h1, fun p => ?_⟩
      have := h2 p
      have := hh p
      rw [found_append, List.countP_append]
      simp only [found, List.flatMap_cons, List.flatMap_nil, List.append_nil, List.countP_nil] at *
      omega
    · intro p
      have := h.rest p
      have := hr p
      rw [scanned_append, called_append, List.countP_append, List.countP_append]
      rw [countP_cons' p d l] at this
      simp only [scanned, called, List.flatMap_cons, List.flatMap_nil, List.append_nil, List.countP_nil] at *
      omega
    · intro hs
      have := h.calls hs
      rw [asked_append]
      simp only [asked, List.flatMap_cons, List.flatMap_nil, List.length_append, List.length_nil] at this ⊢
      omega
    · intro hs
      have := h.all hs
      rw [asked_append]
      simp only [asked, List.flatMap_cons, List.flatMap_nil, List.length_append, List.length_nil] at this ⊢
      omega
    · intro saved hd
      dsimp only at hd
      subst hd
      cases hno
  | objOk i d l r hi =>
    obtain ⟨sn, main, scanQ, scanClosed, workers, wg, mergeQ, mergeClosed, merger, results, repeats⟩ := s
    dsimp only at hi
    have ha := sum_set Worker.alive workers i _ (.push r l) hi
    simp only [Worker.alive, Worker.isExited] at ha
    have hh := fun p : ρ → Bool => sum_set (fun w : Worker δ ρ => w.held.countP p) workers i _ (.push r l) hi
    simp only [held_recv, held_each, held_push, held_exited, List.countP_nil, Nat.add_zero] at hh
    have hr := fun p : δ → Bool => sum_set (fun w : Worker δ ρ => w.rest.countP p) workers i _ (.push r l) hi
    simp only [rest_recv, rest_each, rest_push, rest_exited, List.countP_nil, Nat.add_zero] at hr
    have hno : main.afterWait = false := by
      cases hw : main.afterWait with
      | false => rfl
      | true => exact absurd (h.gone hw i _ hi) nofun
    constructor <;> (try inv_tac h)
    · rw [List.length_set]; exact h.len
    · have := h.wg
      simp only [Bool.false_eq_true, if_false, if_true] at this ha ⊢
      omega
    · exact fun j hj => h.ex j (get_set_exited rfl hj)
    · obtain ⟨taken, h1, h2⟩ := h.taken
      refine ⟨taken, h1, fun p => ?_⟩
      have := h2 p
      have := hh p
      rw [found_append, List.countP_append]
      simp only [found, List.flatMap_cons, List.flatMap_nil, List.append_nil, List.countP_nil] at *
      omega
    · intro p
      have := h.rest p
      have := hr p
      rw [scanned_append, called_append, List.countP_append, List.countP_append]
      rw [countP_cons' p d l] at this
      simp only [scanned, called, List.flatMap_cons, List.flatMap_nil, List.append_nil, List.countP_nil] at *
      omega
    · intro hs
      have := h.calls hs
      rw [asked_append]
      simp only [asked, List.flatMap_cons, List.flatMap_nil, List.length_append, List.length_nil] at this ⊢
      omega
    · intro hs
      have := h.all hs
      rw [asked_append]
      simp only [asked, List.flatMap_cons, List.flatMap_nil, List.length_append, List.length_nil] at this ⊢
      omega
    · intro saved hd
      dsimp only at hd
      subst hd
      cases hno
  | emit i r l hi hc hq =>
    rw [List.append_nil]
    obtain ⟨sn, main, scanQ, scanClosed, workers, wg, mergeQ, mergeClosed, merger, results, repeats⟩ := s
    dsimp only at hi hc hq
    subst hc
    have ha := sum_set Worker.alive workers i _ (.each l) hi
    simp only [Worker.alive, Worker.isExited] at ha
    have hh := fun p : ρ → Bool => sum_set (fun w : Worker δ ρ => w.held.countP p) workers i _ (.each l) hi
    simp only [held_recv, held_each, held_push, held_exited, List.countP_nil, Nat.add_zero] at hh
    have hr := fun p : δ → Bool => sum_set (fun w : Worker δ ρ => w.rest.countP p) workers i _ (.each l) hi
    simp only [rest_recv, rest_each, rest_push, rest_exited, List.countP_nil, Nat.add_zero] at hr
    constructor <;> (try inv_tac h)
    · rw [List.length_set]; exact h.len
    · have := h.wg
      simp only [Bool.false_eq_true, if_false, if_true] at this ha ⊢
      omega
    · exact fun j hj => h.ex j (get_set_exited rfl hj)
    · intro hx
      have := (h.mx hx).1
      cases this
    · have := h.size
      simp only [List.length_append, List.length_cons, List.length_nil] at this ⊢
      omega
    · obtain ⟨taken, h1, h2⟩ := h.taken
      refine ⟨taken, h1, fun p => ?_⟩
      have := h2 p
      have := hh p
      simp only [List.countP_append] at *
      omega
    · intro p
      have := h.rest p
      have := hr p
      dsimp only at *
      omega
  | emitCrash i r l hi hc =>
    exfalso
    rw [h.mc] at hc
    have hw : s.main.afterWait = true := by
      revert hc
      cases s.main <;> simp [Main.afterMerge, Main.afterWait]
    exact absurd (h.gone hw i _ hi) nofun
  | next i hi =>
    rw [List.append_nil]
    obtain ⟨sn, main, scanQ, scanClosed, workers, wg, mergeQ, mergeClosed, merger, results, repeats⟩ := s
    dsimp only at hi
    have ha := sum_set Worker.alive workers i _ (.recv) hi
    simp only [Worker.alive, Worker.isExited] at ha
    have hh := fun p : ρ → Bool => sum_set (fun w : Worker δ ρ => w.held.countP p) workers i _ (.recv) hi
    simp only [held_recv, held_each, held_push, held_exited, List.countP_nil, Nat.add_zero] at hh
    have hr := fun p : δ → Bool => sum_set (fun w : Worker δ ρ => w.rest.countP p) workers i _ (.recv) hi
    simp only [rest_recv, rest_each, rest_push, rest_exited, List.countP_nil, Nat.add_zero] at hr
    constructor <;> (try inv_tac h)
    · rw [List.length_set]; exact h.len
    · have := h.wg
      simp only [Bool.false_eq_true, if_false, if_true] at this ha ⊢
      omega
    · exact fun j hj => h.ex j (get_set_exited rfl hj)
    · obtain ⟨taken, h1, h2⟩ := h.taken
      exact ⟨taken, h1, fun p => by have := h2 p; have := hh p; dsimp only at *; omega⟩
    · intro p
      have := h.rest p
      have := hr p
      dsimp only at *
      omega
  | receive r q hm hq =>
    rw [List.append_nil]
    obtain ⟨sn, main, scanQ, scanClosed, workers, wg, mergeQ, mergeClosed, merger, results, repeats⟩ := s
    dsimp only at hm hq
    subst hm
    subst hq
    constructor <;> (try inv_tac h)
    · have := h.cap
      simp only [List.length_cons] at this ⊢
      omega
    · obtain ⟨taken, h1, h2⟩ := h.taken
      refine ⟨taken, h1, fun p => ?_⟩
      have := h2 p
      dsimp only at this ⊢
      rw [countP_cons'] at this
      simp only [Merger.held, List.countP_nil] at *
      omega
  | repeated r hm hk =>
    rw [List.append_nil]
    obtain ⟨sn, main, scanQ, scanClosed, workers, wg, mergeQ, mergeClosed, merger, results, repeats⟩ := s
    dsimp only at hm hk
    subst hm
    obtain ⟨taken, h1, h2⟩ := h.taken
    dsimp only at h1 h2
    have hrep : key r ∈ repeats ↔ key r ∈ results.map key := h.rep (key r)
    constructor <;> (try inv_tac h)
    · refine ⟨taken ++ [r], ?_, fun p => ?_⟩
      · dsimp only
        rw [firsts_concat, ← h1, if_pos]
        exact hrep.1 hk
      · have := h2 p
        rw [List.countP_append]
        simp only [Merger.held, List.countP_nil] at *
        omega
  | merge r hm hk =>
    rw [List.append_nil]
    obtain ⟨sn, main, scanQ, scanClosed, workers, wg, mergeQ, mergeClosed, merger, results, repeats⟩ := s
    dsimp only at hm hk
    subst hm
    obtain ⟨taken, h1, h2⟩ := h.taken
    dsimp only at h1 h2
    have hrep : key r ∈ repeats ↔ key r ∈ results.map key := h.rep (key r)
    constructor <;> (try inv_tac h)
    · intro x
      have hx : x ∈ repeats ↔ x ∈ results.map key := h.rep x
      simp only [List.mem_cons, hx, List.map_append, List.map_cons, List.map_nil, List.mem_append, List.not_mem_nil, or_false]
      exact or_comm
    · refine ⟨taken ++ [r], ?_, fun p => ?_⟩
      · dsimp only
        rw [firsts_concat, ← h1, if_neg]
        exact fun hx => hk (hrep.2 hx)
      · have := h2 p
        rw [List.countP_append]
        simp only [Merger.held, List.countP_nil] at *
        omega
  | mergerLeave hm hq hc =>
    rw [List.append_nil]
    obtain ⟨sn, main, scanQ, scanClosed, workers, wg, mergeQ, mergeClosed, merger, results, repeats⟩ := s
    dsimp only at hm hq hc
    subst hm
    constructor <;> (try inv_tac h)
    exact fun _ => ⟨hc, hq⟩

theorem Inv.exec {n k : Nat} {tr : List (Event δ ρ)} {t : State δ ρ}
    (he : Exec key (Discover.start δ ρ n k) tr t) : Inv key n k tr t := by
  induction he with
  | refl => exact Inv.start n k
  | tail m t tr e _ hst ih => exact ih.step hst

theorem Exec.trans {s m t : State δ ρ} {a b : List (Event δ ρ)} (h1 : Exec key s a m) (h2 : Exec key m b t) :
    Exec key s (a ++ b) t := by
  induction h2 with
  | refl => rw [List.append_nil]; exact h1
  | tail m' t' tr e _ hst ih => rw [← List.append_assoc]; exact .tail _ _ _ _ _ ih hst

theorem Exec.one {s t : State δ ρ} {e : List (Event δ ρ)} (h : Step key s e t) : Exec key s e t := by
  have := Exec.tail s s t [] e (.refl s) h
  rwa [List.nil_append] at this

/-- The calls of `WhoIs` that are left fail. -/
theorem exec_errors (s : State δ ρ) (j : Nat) (h : s.main = .loop j) :
    Exec key s (List.replicate j (.whoIs none)) { s with main := .loop 0 } := by
  induction j generalizing s with
  | zero => rw [← h]; exact .refl s
  | succ j ih =>
    exact Exec.trans (a := [_]) (.one (.whoIsErr s j h)) (ih _ rfl)

/-- The first worker reads all devices of its list; all results find place in `merge`. -/
theorem exec_reads (s : State δ ρ) (l : List (δ × ρ)) (h : s.workers[0]? = some (.each (l.map Prod.fst)))
    (hc : s.mergeClosed = false) (hq : s.mergeQ.length + l.length ≤ s.n) :
    Exec key s (l.map fun x => .objects x.1 (some x.2))
      { s with workers := s.workers.set 0 (.each []), mergeQ := s.mergeQ ++ l.map Prod.snd } := by
  have hlen : 0 < s.workers.length := (List.getElem?_eq_some_iff.1 h).1
  induction l generalizing s with
  | nil =>
    have : s.workers.set 0 (.each []) = s.workers := by
      refine List.ext_getElem? fun i => ?_
      rw [List.getElem?_set]
      split
      · next e => subst e; rw [h]; rfl
      · rfl
    rw [this, List.map_nil, List.map_nil, List.append_nil]
    exact .refl s
  | cons x l ih =>
    rw [List.length_cons] at hq
    have g : ∀ w : Worker δ ρ, (s.workers.set 0 w)[0]? = some w := fun w => by
      rw [List.getElem?_set, if_pos rfl, if_pos hlen]
    have h1 := Step.objOk (key := key) s 0 x.1 (l.map Prod.fst) x.2 h
    have h2 := Step.emit (key := key) { s with workers := s.workers.set 0 (.push x.2 (l.map Prod.fst)) } 0 x.2 (l.map Prod.fst)
      (g _) hc (by dsimp only; omega)
    have h3 := ih { s with workers := s.workers.set 0 (.each (l.map Prod.fst)), mergeQ := s.mergeQ ++ [x.2] } (g _) hc
      (by simp only [List.length_append, List.length_cons, List.length_nil]; omega)
      (by simpa using hlen)
    dsimp only at h2 h3
    rw [List.set_set] at h2 h3
    rw [List.append_assoc] at h3
    exact Exec.trans (a := [_]) (.one h1) (Exec.trans (a := []) (.one h2) h3)

/-- The workers leave one after the other. -/
theorem exec_leave (s : State δ ρ) (j m : Nat) (hq : s.scanQ = []) (hc : s.scanClosed = true)
    (h : s.workers = List.replicate j .exited ++ List.replicate m .recv) (hw : s.wg = m) :
    Exec key s [] { s with workers := List.replicate (j + m) .exited, wg := 0 } := by
  induction m generalizing s j with
  | zero =>
    have : s = { s with workers := List.replicate (j + 0) .exited, wg := 0 } := by
      rw [List.replicate_zero, List.append_nil] at h
      rw [Nat.add_zero, ← h, ← hw]
    rw [← this]
    exact .refl s
  | succ m ih =>
    have h1 := Step.leave (key := key) s j (by
      rw [h, List.getElem?_append_right (by simp)]
      simp [List.replicate_succ]) hq hc (by omega)
    have e : s.workers.set j .exited = List.replicate (j + 1) .exited ++ List.replicate m .recv := by
      rw [h, List.set_append_right _ _ (by simp)]
      rw [List.length_replicate, Nat.sub_self, List.replicate_succ, List.set_cons_zero, List.replicate_succ', List.append_assoc]
      rfl
    have h2 := ih { s with workers := s.workers.set j .exited, wg := s.wg - 1 } (j + 1) hq hc e (by dsimp only; omega)
    rw [show j + 1 + m = j + (m + 1) by omega] at h2
    exact Exec.trans (a := []) (.one h1) h2

end Bac.Discover
