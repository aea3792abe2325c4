import Verif.Model.Names
import Verif.Spec.Names
import Verif.Lemmas.ObjectList
import Verif.Lemmas.DataLink
/-!
# Lemmas about maps of maps and about names
-/

namespace Bac

section Maps

variable {κ ι α β : Type} [DecidableEq κ] [DecidableEq ι] [DecidableEq α]

theorem mapGet_none {k : κ} {m : List (κ × β)} (h : k ∉ m.map Prod.fst) : mapGet k m = none := by
  cases hg : mapGet k m with
  | none => rfl
  | some a => exact absurd (List.mem_map.2 ⟨_, mapGet_mem hg, rfl⟩) h

/-- Looking up after copying: the source wins. -/
theorem mapGet_mapCopy (k : κ) (src : List (κ × β)) (hn : (src.map Prod.fst).Nodup) (dst : List (κ × β)) :
    mapGet k (mapCopy dst src) = (mapGet k src).or (mapGet k dst) := by
  induction src generalizing dst with
  | nil => rfl
  | cons e rest ih =>
    obtain ⟨k', b⟩ := e
    simp only [List.map_cons, List.nodup_cons] at hn
    have := ih hn.2 (mapSet k' b dst)
    simp only [mapCopy, List.foldl_cons] at this ⊢
    rw [this, mapGet_set]
    by_cases hk : k' = k
    · subst hk
      rw [mapGet_none hn.1]
      simp [mapGet]
    · rw [if_neg (fun e => hk e.symm)]
      simp [mapGet, hk]

/-- Lookup in a map of maps. -/
def lookup2 (m : List (κ × List (ι × β))) (k : κ) (i : ι) : Option β := (mapGet k m).bind (mapGet i)

/-- Copying a map of maps into another with translated outer keys. -/
def rekey (f : α → κ) (m : List (α × List (ι × β))) (om : List (κ × List (ι × β))) : List (κ × List (ι × β)) :=
  m.foldl (fun om e => mapSet (f e.1) (mapCopy ((mapGet (f e.1) om).getD []) e.2) om) om

theorem lookup2_set (om : List (κ × List (ι × β))) (k k' : κ) (i : ι) (sub : List (ι × β))
    (hs : (sub.map Prod.fst).Nodup) :
    lookup2 (mapSet k (mapCopy ((mapGet k om).getD []) sub) om) k' i =
      if k' = k then (mapGet i sub).or (lookup2 om k' i) else lookup2 om k' i := by
  unfold lookup2
  rw [mapGet_set]
  by_cases hk : k' = k
  · subst hk
    rw [if_pos rfl, if_pos rfl, Option.bind_some, mapGet_mapCopy i sub hs]
    cases mapGet k' om <;> rfl
  · rw [if_neg hk, if_neg hk]

/-- A key that is not the translation of one of the source is left alone. -/
theorem lookup2_rekey_other (f : α → κ) (m : List (α × List (ι × β)))
    (hs : ∀ e ∈ m, (e.2.map Prod.fst).Nodup) (om : List (κ × List (ι × β))) (k : κ)
    (hk : ∀ e ∈ m, f e.1 ≠ k) (i : ι) : lookup2 (rekey f m om) k i = lookup2 om k i := by
  induction m generalizing om with
  | nil => rfl
  | cons e rest ih =>
    have := ih (fun x hx => hs x (by simp [hx])) (mapSet (f e.1) (mapCopy ((mapGet (f e.1) om).getD []) e.2) om)
      (fun x hx => hk x (by simp [hx]))
    simp only [rekey, List.foldl_cons] at this ⊢
    rw [this, lookup2_set _ _ _ _ _ (hs e (by simp)), if_neg (fun h => hk e (by simp) h.symm)]

/-- With an injective translation the entries of the source are found under their new keys. -/
theorem lookup2_rekey (f : α → κ) (m : List (α × List (ι × β))) (hn : (m.map Prod.fst).Nodup)
    (hs : ∀ e ∈ m, (e.2.map Prod.fst).Nodup)
    (hinj : ∀ a ∈ m.map Prod.fst, ∀ b ∈ m.map Prod.fst, f a = f b → a = b)
    (om : List (κ × List (ι × β))) (a : α) (ha : a ∈ m.map Prod.fst) (i : ι) :
    lookup2 (rekey f m om) (f a) i = (lookup2 m a i).or (lookup2 om (f a) i) := by
  induction m generalizing om with
  | nil => simp at ha
  | cons e rest ih =>
    obtain ⟨b, sub⟩ := e
    simp only [List.map_cons, List.nodup_cons] at hn
    simp only [rekey, List.foldl_cons]
    by_cases hab : a = b
    · subst hab
      have := lookup2_rekey_other f rest (fun x hx => hs x (by simp [hx]))
        (mapSet (f a) (mapCopy ((mapGet (f a) om).getD []) sub) om) (f a)
        (fun x hx h => hn.1 (by
          have := hinj x.1 (List.mem_cons_of_mem _ (List.mem_map.2 ⟨x, hx, rfl⟩)) a (by simp) h
          rw [← this]; exact List.mem_map.2 ⟨x, hx, rfl⟩)) i
      simp only [rekey] at this
      rw [this, lookup2_set _ _ _ _ _ (hs (a, sub) (by simp)), if_pos rfl]
      simp [lookup2, mapGet]
    · have ha' : a ∈ rest.map Prod.fst := by
        simp only [List.map_cons, List.mem_cons] at ha
        exact ha.resolve_left hab
      have := ih hn.2 (fun x hx => hs x (by simp [hx])) (fun x hx y hy => hinj x (List.mem_cons_of_mem _ hx) y (List.mem_cons_of_mem _ hy))
        (mapSet (f b) (mapCopy ((mapGet (f b) om).getD []) sub) om) ha'
      simp only [rekey] at this
      rw [this, lookup2_set _ _ _ _ _ (hs (b, sub) (by simp)), if_neg (fun h => hab (hinj a ha b (by simp) h))]
      simp [lookup2, mapGet, show ¬ b = a from fun h => hab h.symm]

/-- The keys of the result. -/
theorem rekey_keys (f : α → κ) (m : List (α × List (ι × β))) (om : List (κ × List (ι × β))) (k : κ) :
    k ∈ (rekey f m om).map Prod.fst ↔ k ∈ om.map Prod.fst ∨ k ∈ (m.map Prod.fst).map f := by
  induction m generalizing om with
  | nil => simp [rekey]
  | cons e rest ih =>
    have := ih (mapSet (f e.1) (mapCopy ((mapGet (f e.1) om).getD []) e.2) om)
    simp only [rekey, List.foldl_cons] at this ⊢
    rw [this, mapSet_keys]
    by_cases hk : f e.1 ∈ om.map Prod.fst
    · rw [if_pos hk]
      simp only [List.map_cons, List.mem_cons]
      constructor
      · rintro (h | h)
        · exact Or.inl h
        · exact Or.inr (Or.inr h)
      · rintro (h | h | h)
        · exact Or.inl h
        · exact Or.inl (h ▸ hk)
        · exact Or.inr h
    · rw [if_neg hk]
      simp only [List.map_cons, List.mem_cons, List.mem_append, List.not_mem_nil, or_false]
      constructor
      · rintro ((h | h) | h)
        · exact Or.inl h
        · exact Or.inr (Or.inl h)
        · exact Or.inr (Or.inr h)
      · rintro (h | h | h)
        · exact Or.inl (Or.inl h)
        · exact Or.inl (Or.inr h)
        · exact Or.inr h

end Maps

/-- The value of a text of digits. -/
def digitsVal (l : List Nat) : Nat := l.foldl (fun a c => 10 * a + (c - 48)) 0

theorem digitsVal_decimal (n : Nat) : digitsVal (decimal n) = n := by
  induction n using Nat.strongRecOn with
  | ind n ih =>
    rw [decimal]
    split
    · simp [digitsVal]
    · have := ih (n / 10) (by omega)
      simp only [digitsVal, List.foldl_append, List.foldl_cons, List.foldl_nil] at this ⊢
      rw [this]
      omega

theorem decimal_inj {n m : Nat} (h : decimal n = decimal m) : n = m := by
  rw [← digitsVal_decimal n, h, digitsVal_decimal]

/-- The names of object types are those of the table or begin with "Unknown (". -/
theorem objectTypeString_cases (t : UInt16) :
    (∃ s, (t, s) ∈ objTypeMap ∧ objectTypeString t = s) ∨
    (t ∉ Spec.namedTypes ∧ objectTypeString t = t!"Unknown (" ++ decimal t.toNat ++ t!")") := by
  unfold objectTypeString
  cases hg : mapGet t objTypeMap with
  | some s => exact Or.inl ⟨s, mapGet_mem hg, rfl⟩
  | none =>
    refine Or.inr ⟨fun h => ?_, rfl⟩
    have : ∀ t ∈ Spec.namedTypes, mapGet t objTypeMap ≠ none := by decide +kernel
    exact this t h hg

theorem objTypeMap_inj : ∀ a ∈ objTypeMap, ∀ b ∈ objTypeMap, a.2 = b.2 → a.1 = b.1 := by decide +kernel

theorem objTypeMap_head : ∀ a ∈ objTypeMap, ∀ t : List Nat, a.2 ≠ t!"Unknown (" ++ t := by
  have h : ∀ a ∈ objTypeMap, a.2.head? ≠ some 85 := by decide +kernel
  intro a ha t e
  apply h a ha
  rw [e]
  rfl

/-- Different object types have different names. -/
theorem objectTypeString_inj {a b : UInt16} (h : objectTypeString a = objectTypeString b) : a = b := by
  rcases objectTypeString_cases a with ⟨s, hs, e⟩ | ⟨_, e⟩ <;>
    rcases objectTypeString_cases b with ⟨r, hr, e'⟩ | ⟨_, e'⟩
  · exact objTypeMap_inj _ hs _ hr (by show s = r; rw [← e, ← e', h])
  · exact absurd (by show s = _; rw [← e, h, e', List.append_assoc]) (objTypeMap_head _ hs (decimal b.toNat ++ t!")"))
  · exact absurd (by show r = _; rw [← e', ← h, e, List.append_assoc]) (objTypeMap_head _ hr (decimal a.toNat ++ t!")"))
  · rw [e, e'] at h
    have := List.append_cancel_left (List.append_cancel_right h)
    exact UInt16.toNat_inj.1 (decimal_inj this)

theorem getType_named : ∀ t ∈ Spec.namedTypes, getType (objectTypeString t) = t := by decide +kernel

/-- `GetType` only gives named types. -/
theorem getType_mem (s : List Nat) : getType s ∈ Spec.namedTypes := by
  unfold getType
  cases hg : mapGet s objStrTypeMap with
  | none => decide
  | some t =>
    have : ∀ e ∈ objStrTypeMap, e.2 ∈ Spec.namedTypes := by decide +kernel
    exact this _ (mapGet_mem hg)

theorem marshalMap_eq (om : ObjectMap) : marshalMap om = rekey objectTypeString om [] := rfl

theorem unmarshalMap_eq (om : ObjectMap) (m : NamedMap) : unmarshalMap (some om) m = .ok (rekey getType m om) := by
  cases m <;> rfl

end Bac
