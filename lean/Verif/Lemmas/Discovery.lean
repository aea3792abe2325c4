import Verif.Model.Discovery
import Verif.Spec.Discovery
import Verif.Props.EndToEnd
/-!
# Lemmas about discovery
-/

namespace Bac

open Spec (firsts)

/-- The I-Ams among the values. -/
def iams : List Published → List IAm
  | [] => []
  | .iam r :: l => r :: iams l
  | _ :: l => iams l

theorem firsts_subset {α κ : Type} [DecidableEq κ] (key : α → κ) (l : List α) :
    ∀ x ∈ firsts key l, x ∈ l := by
  induction l with
  | nil => simp [firsts]
  | cons a l ih =>
    intro x hx
    rcases List.mem_cons.1 hx with rfl | hx
    · simp
    · exact List.mem_cons_of_mem _ (ih x (List.mem_filter.1 hx).1)

theorem firsts_nodup {α κ : Type} [DecidableEq κ] (key : α → κ) (l : List α) :
    ((firsts key l).map key).Nodup := by
  induction l with
  | nil => simp [firsts]
  | cons a l ih =>
    simp only [firsts, List.map_cons, List.nodup_cons]
    refine ⟨?_, ?_⟩
    · simp only [List.mem_map, List.mem_filter, decide_eq_true_eq]
      rintro ⟨y, ⟨_, h⟩, e⟩
      exact h e
    · exact List.Nodup.sublist (List.Sublist.map _ List.filter_sublist) ih

theorem firsts_complete {α κ : Type} [DecidableEq κ] (key : α → κ) (l : List α) :
    ∀ x ∈ l, ∃ y ∈ firsts key l, key y = key x := by
  induction l with
  | nil => simp
  | cons a l ih =>
    intro x hx
    by_cases e : key x = key a
    · exact ⟨a, List.mem_cons_self, e.symm⟩
    · rcases List.mem_cons.1 hx with rfl | hx
      · exact absurd rfl e
      · obtain ⟨y, hy, hk⟩ := ih x hx
        refine ⟨y, List.mem_cons_of_mem _ (List.mem_filter.2 ⟨hy, ?_⟩), hk⟩
        simpa [hk] using e

theorem firsts_map {α β κ : Type} [DecidableEq κ] (key : β → κ) (f : α → β) (l : List α) :
    firsts key (l.map f) = (firsts (fun x => key (f x)) l).map f := by
  induction l with
  | nil => rfl
  | cons a l ih =>
    simp only [List.map_cons, firsts, ih, List.filter_map]
    rfl

theorem whoIsLoop_eq (vs : List Published) : ∀ (seen : List UInt32) (l : List FoundDevice),
    whoIsLoop vs seen l = l ++ ((firsts (fun r : IAm => r.id.inst) (iams vs)).filter
      fun r => decide (r.id.inst ∉ seen)).map foundDevice := by
  induction vs with
  | nil => intro seen l; simp [whoIsLoop, iams, firsts]
  | cons v vs ih =>
    intro seen l
    cases v with
    | iam r =>
      simp only [whoIsLoop, iams, firsts]
      by_cases h : r.id.inst ∈ seen
      · rw [if_pos h, ih, List.filter_cons, if_neg (by simpa using h), List.filter_filter]
        congr 2
        refine List.filter_congr fun x _ => ?_
        by_cases hx : x.id.inst = r.id.inst
        · simp [hx, h]
        · simp [hx]
      · rw [if_neg h, ih, List.filter_cons, if_pos (by simpa using h), List.filter_filter]
        simp only [List.map_cons, List.append_assoc, List.singleton_append]
        congr 3
        refine List.filter_congr fun x _ => ?_
        simp only [List.mem_cons, not_or]
        by_cases hx : x.id.inst = r.id.inst <;> by_cases h2 : x.id.inst ∈ seen <;> simp [hx, h2]
    | npdu n => simp only [whoIsLoop, iams]; exact ih seen l
    | networks n => simp only [whoIsLoop, iams]; exact ih seen l

theorem iams_eq (vs : List Published) : iams vs = vs.filterMap fun v => match v with
    | .iam r => some r
    | _ => none := by
  induction vs with
  | nil => rfl
  | cons v vs ih => cases v <;> simp [iams, ih]

theorem foundDevice_id (r : IAm) : (foundDevice r).id = r.id ∧ (foundDevice r).deviceId = r.id.inst.toNat ∧
    (foundDevice r).addr = r.addr ∧ (foundDevice r).maxApdu = r.maxApdu ∧
    (foundDevice r).segmentation = r.segmentation ∧ (foundDevice r).vendor = r.vendor ∧
    (foundDevice r).networkNumber = r.addr.net.toNat := by
  have hn : (if r.addr.net > 0 then (r.addr.net.toNat : Int) else 0) = r.addr.net.toNat := by
    split
    · rfl
    · rename_i h
      have : ¬ (0 : Nat) < r.addr.net.toNat := h
      omega
  unfold foundDevice
  dsimp only
  split <;> exact ⟨rfl, rfl, rfl, rfl, rfl, rfl, hn⟩

theorem appData_inst {d d' : Dec} {s : Scalar} {e : Option GoErr} (h : Dec.appData d = .ok ((s, e), d')) :
    (objIdOr s ⟨0, 0⟩).inst.toNat ≤ 4194303 := by
  unfold Dec.appData at h
  obtain ⟨⟨t, m, v⟩, d1, _, h⟩ := D.bind_inv h
  dsimp only at h
  generalize hm : Dec.appDataOfTag t v.toNat = m at h
  unfold Dec.appDataOfTag at hm
  split at hm <;> subst hm
  all_goals first
    | (simp only [D.pure_apply, Outcome.ok.injEq, Prod.mk.injEq] at h; obtain ⟨⟨rfl, _⟩, _⟩ := h; simp [objIdOr]; done)
    | skip
  all_goals first
    | (obtain ⟨x, d2, _, h⟩ := D.bind_inv h
       simp only [D.pure_apply, Outcome.ok.injEq, Prod.mk.injEq] at h; obtain ⟨⟨rfl, _⟩, _⟩ := h; simp [objIdOr]; done)
    | skip
  all_goals first
    | (obtain ⟨x, d2, _, h⟩ := D.bind_inv h
       obtain ⟨y, d3, _, h⟩ := D.bind_inv h
       simp only [D.pure_apply, Outcome.ok.injEq, Prod.mk.injEq] at h; obtain ⟨⟨rfl, _⟩, _⟩ := h; simp [objIdOr]; done)
    | skip
  obtain ⟨x, d2, hx, h⟩ := D.bind_inv h
  obtain ⟨y, d3, _, h⟩ := D.bind_inv h
  simp only [D.pure_apply, Outcome.ok.injEq, Prod.mk.injEq] at h
  obtain ⟨⟨rfl, _⟩, _⟩ := h
  unfold Dec.objectId at hx
  obtain ⟨w, d4, _, hx⟩ := D.bind_inv hx
  simp only [D.pure_apply, Outcome.ok.injEq, Prod.mk.injEq] at hx
  obtain ⟨rfl, _⟩ := hx
  show (w &&& 0x3FFFFF).toNat ≤ 4194303
  rw [UInt32.toNat_and]
  exact Nat.and_le_right

theorem iAm_inst {d d' : Dec} {r : IAm} {e : Option GoErr} (h : Dec.iAm d = .ok ((r, e), d')) :
    r.id.inst.toNat ≤ 4194303 := by
  unfold Dec.iAm at h
  obtain ⟨⟨a, err⟩, d1, ha, h⟩ := D.bind_inv h
  dsimp only at h
  split at h
  · simp only [D.pure_apply, Outcome.ok.injEq, Prod.mk.injEq] at h
    obtain ⟨⟨rfl, _⟩, _⟩ := h
    decide
  · obtain ⟨_, d2, _, h⟩ := D.bind_inv h
    obtain ⟨_, d3, _, h⟩ := D.bind_inv h
    obtain ⟨_, d4, _, h⟩ := D.bind_inv h
    obtain ⟨_, d5, _, h⟩ := D.bind_inv h
    simp only [D.pure_apply, Outcome.ok.injEq, Prod.mk.injEq] at h
    obtain ⟨⟨rfl, _⟩, _⟩ := h
    exact appData_inst ha

/-- Whatever the datagram, an I-Am is published under its own instance,
which has 22 bits. -/
theorem handleMsg_iam (src : Address) (pending : UInt8 → Bool) (b : List UInt8) (id : Int) (r : IAm)
    (h : Effect.publish id (.iam r) ∈ (handleMsg src pending b).1) : id = r.id.inst.toNat ∧ r.id.inst.toNat ≤ 4194303 := by
  have ha : ∀ n send a, Effect.publish id (.iam r) ∈ (apduEffects src n pending send a).1 → id = r.id.inst.toNat ∧ r.id.inst.toNat ≤ 4194303 := by
    intro n send a h
    unfold apduEffects at h
    split_ifs at h
    · split at h
      · rename_i hi
        split at h
        · simp at h
        · simp only [List.mem_singleton, Effect.publish.injEq, Published.iam.injEq] at h
          obtain ⟨rfl, rfl⟩ := h
          have := iAm_inst hi
          exact ⟨rfl, this⟩
      · simp at h
      · simp at h
    · split at h <;> simp at h
    · simp at h
    · simp at h
    · simp at h
    · simp at h
  have hne : ∀ n nets, Effect.publish id (.iam r) ∉ (networkEffects n nets).1 := by
    intro n nets h
    unfold networkEffects at h
    split_ifs at h
    · split at h <;> simp at h
    · split at h <;> simp at h
    · simp at h
    · simp at h
  have hnm : ∀ d, Effect.publish id (.iam r) ∈ (networkMsg src pending d).1 → id = r.id.inst.toNat ∧ r.id.inst.toNat ≤ 4194303 := by
    intro d h
    unfold networkMsg at h
    split at h
    · split at h
      · simp at h
      · rename_i n nets err d1 hn hs
        have := hne n nets
        split at h
        · rename_i es he
          rw [he] at this
          split at h
          · split at h
            · exact absurd h this
            · rcases List.mem_append.1 h with h | h
              · exact absurd h this
              · exact ha _ _ _ h
          · exact absurd h this
          · exact absurd h this
        · rename_i he; rw [he] at this; exact absurd h this
        · rename_i he; rw [he] at this; exact absurd h this
    · simp at h
    · simp at h
  unfold handleMsg at h
  split at h
  · split at h
    · simp at h
    · split at h
      · split at h
        · rename_i he
          have hx := hnm _ (by rw [he]; split at h <;> exact h)
          exact hx
        · rename_i he; exact hnm _ (by rw [he]; exact h)
        · rename_i he; exact hnm _ (by rw [he]; exact h)
      · simp at h
  · simp at h
  · simp at h

theorem publishedBy_iam (pending : UInt8 → Bool) (frames : List (Address × List UInt8)) (id : Int) (r : IAm)
    (h : (id, Published.iam r) ∈ publishedBy pending frames) : id = r.id.inst.toNat ∧ r.id.inst.toNat ≤ 4194303 := by
  unfold publishedBy at h
  obtain ⟨f, _, h⟩ := List.mem_flatMap.1 h
  obtain ⟨e, he, h⟩ := List.mem_filterMap.1 h
  cases e with
  | publish i p =>
    simp only [Option.some.injEq, Prod.mk.injEq] at h
    obtain ⟨rfl, rfl⟩ := h
    exact handleMsg_iam _ _ _ _ _ he
  | deliver _ _ => simp at h

end Bac
