import Verif.Py.Value
/-! Lemmas about ordered dicts. -/
namespace Openleadr
namespace Dict
variable {α : Type}

theorem get?_set_self (d : List (String × α)) (k : String) (v : α) : get? (set d k v) k = some v := by
  induction d with
  | nil => simp [set, get?]
  | cons e d ih =>
    obtain ⟨k', v'⟩ := e
    by_cases h : k' = k <;> simp [set, get?, h, ih]

theorem get?_set_other (d : List (String × α)) (k k' : String) (v : α) (h : k' ≠ k) : get? (set d k v) k' = get? d k' := by
  induction d with
  | nil => simp [set, get?, h.symm]
  | cons e d ih =>
    obtain ⟨k'', v'⟩ := e
    by_cases h1 : k'' = k
    · subst h1; simp [set, get?, h.symm]
    · simp only [set, h1, if_false, get?, ih]

theorem get?_set (d : List (String × α)) (k k' : String) (v : α) :
    get? (set d k v) k' = if k' = k then some v else get? d k' := by
  split
  · rename_i h; rw [h, get?_set_self]
  · rename_i h; exact get?_set_other d k k' v h

theorem set_get?_self (d : List (String × α)) (k : String) (v : α) (h : get? d k = some v) : set d k v = d := by
  induction d with
  | nil => simp [get?] at h
  | cons e d ih =>
    obtain ⟨k', v'⟩ := e
    simp only [get?] at h
    split at h
    · rename_i hk; simp at h; simp [set, hk, h]
    · rename_i hk; simp [set, hk, ih h]

theorem get?_eq_find? (d : List (String × α)) (k : String) : get? d k = (d.find? (fun e => e.1 = k)).map Prod.snd := by
  induction d with
  | nil => rfl
  | cons e d ih =>
    obtain ⟨k', v'⟩ := e
    by_cases h : k' = k <;> simp [get?, h, ih]

theorem get?_isSome (d : List (String × α)) (k : String) : (get? d k).isSome ↔ k ∈ keys d := by
  induction d with
  | nil => simp [get?, keys]
  | cons e d ih =>
    obtain ⟨k', v'⟩ := e
    by_cases h : k' = k
    · simp [get?, h, keys]
    · simp only [get?, h, if_false, ih, keys, List.map_cons, List.mem_cons]
      constructor
      · exact Or.inr
      · rintro (e | e)
        · exact absurd e.symm h
        · exact e

theorem get?_none (d : List (String × α)) (k : String) : get? d k = none ↔ k ∉ keys d := by
  rw [← get?_isSome]; cases get? d k <;> simp

theorem mem_of_get? (d : List (String × α)) (k : String) (v : α) (h : get? d k = some v) : (k, v) ∈ d := by
  induction d with
  | nil => simp [get?] at h
  | cons e d ih =>
    obtain ⟨k', v'⟩ := e
    simp only [get?] at h
    split at h
    · rename_i hk; simp at h; simp [hk, h]
    · simp [ih h]

theorem get?_of_mem (d : List (String × α)) (hn : (keys d).Nodup) (k : String) (v : α) (h : (k, v) ∈ d) :
    get? d k = some v := by
  induction d with
  | nil => simp at h
  | cons e d ih =>
    obtain ⟨k', v'⟩ := e
    simp only [keys, List.map_cons, List.nodup_cons] at hn
    simp only [List.mem_cons, Prod.mk.injEq] at h
    rcases h with ⟨rfl, rfl⟩ | h
    · simp [get?]
    · have hne : k' ≠ k := by
        rintro rfl
        exact hn.1 (List.mem_map.mpr ⟨(k', v), h, rfl⟩)
      simp [get?, hne, ih hn.2 h]

theorem keys_set (d : List (String × α)) (k : String) (v : α) :
    keys (set d k v) = if k ∈ keys d then keys d else keys d ++ [k] := by
  induction d with
  | nil => simp [set, keys]
  | cons e d ih =>
    obtain ⟨k', v'⟩ := e
    by_cases h : k' = k
    · simp [set, h, keys]
    · have h' : ¬ k = k' := fun e => h e.symm
      simp only [keys] at ih
      simp only [set, h, if_false, keys, List.map_cons, ih, List.mem_cons, h', false_or]
      split <;> simp_all

theorem nodup_keys_set (d : List (String × α)) (k : String) (v : α) (h : (keys d).Nodup) : (keys (set d k v)).Nodup := by
  rw [keys_set]
  split
  · exact h
  · rename_i hk
    rw [List.nodup_append]
    refine ⟨h, by simp, ?_⟩
    intro a ha b hb
    simp only [List.mem_singleton] at hb
    subst hb
    rintro rfl; exact hk ha

theorem set_new (d : List (String × α)) (k : String) (v : α) (h : k ∉ keys d) : set d k v = d ++ [(k, v)] := by
  induction d with
  | nil => rfl
  | cons e d ih =>
    obtain ⟨k', v'⟩ := e
    simp only [keys, List.map_cons, List.mem_cons, not_or] at h
    have : k' ≠ k := fun e => h.1 e.symm
    simp only [set, this, if_false, List.cons_append]
    rw [ih h.2]

theorem get?_erase_self (d : List (String × α)) (k : String) (h : (keys d).Nodup) : get? (erase d k) k = none := by
  induction d with
  | nil => rfl
  | cons e d ih =>
    obtain ⟨k', v'⟩ := e
    simp only [keys, List.map_cons, List.nodup_cons] at h
    by_cases hk : k' = k
    · subst hk; simp only [erase, if_true]; exact (get?_none d k').mpr h.1
    · simp [erase, hk, get?, ih h.2]

theorem get?_erase_other (d : List (String × α)) (k k' : String) (h : k' ≠ k) : get? (erase d k) k' = get? d k' := by
  induction d with
  | nil => rfl
  | cons e d ih =>
    obtain ⟨k'', v'⟩ := e
    by_cases hk : k'' = k
    · subst hk; simp [erase, get?, h.symm]
    · simp only [erase, hk, if_false, get?, ih]

theorem keys_erase_sublist (d : List (String × α)) (k : String) : (keys (erase d k)).Sublist (keys d) := by
  induction d with
  | nil => simp [erase, keys]
  | cons e d ih =>
    obtain ⟨k', v'⟩ := e
    simp only [erase]
    split
    · exact List.sublist_cons_self _ _
    · exact ih.cons_cons _

end Dict
end Openleadr
