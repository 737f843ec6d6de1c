import Verif.Lemmas.Members
/-! Helper lemmas for targets and groups. -/
namespace Openleadr
open Spec

/-- All groups are non-empty and keys are unique. -/
def GoodGroups (g : TargetsByType) : Prop := (Dict.keys g).Nodup ∧ ∀ k l, Dict.get? g k = some l → l ≠ []

theorem addTarget_get (g : TargetsByType) (k : String) (v : Value) (k' : String) :
    (Dict.get? (addTarget g k v) k').getD [] = (Dict.get? g k').getD [] ++ (if k' = k then [v] else []) := by
  simp only [addTarget]
  split
  · rename_i h
    rw [Dict.get?_set]
    split
    · rename_i e; subst e; simp [h]
    · simp
  · rename_i l h
    rw [Dict.get?_set]
    split
    · rename_i e; subst e; simp [h]
    · simp

theorem addTarget_good (g : TargetsByType) (k : String) (v : Value) (h : GoodGroups g) : GoodGroups (addTarget g k v) := by
  constructor
  · simp only [addTarget]; split <;> exact Dict.nodup_keys_set _ _ _ h.1
  · intro k' l hl
    simp only [addTarget] at hl
    split at hl <;> rw [Dict.get?_set] at hl <;> split at hl
    · simp at hl; simp [← hl]
    · exact h.2 _ _ hl
    · simp at hl; simp [← hl]
    · exact h.2 _ _ hl

theorem groupTarget_get (g : TargetsByType) (t : Dict) (k' : String) :
    (Dict.get? (groupTarget g t) k').getD [] = (Dict.get? g k').getD [] ++
      (t.filter (fun e => decide (e.1 = k') && decide (e.2 ≠ .none))).map Prod.snd := by
  induction t generalizing g with
  | nil => simp [groupTarget]
  | cons e t ih =>
    obtain ⟨k, v⟩ := e
    simp only [groupTarget]
    split
    · rename_i h; rw [ih]; simp [h]
    · rename_i h
      rw [ih, addTarget_get]
      by_cases hk : k = k'
      · subst hk; simp [h]
      · have : ¬ k' = k := fun e => hk e.symm
        simp [this, hk]

theorem groupTarget_good (g : TargetsByType) (t : Dict) (h : GoodGroups g) : GoodGroups (groupTarget g t) := by
  induction t generalizing g with
  | nil => exact h
  | cons e t ih =>
    obtain ⟨k, v⟩ := e
    simp only [groupTarget]
    split
    · exact ih g h
    · exact ih _ (addTarget_good g k v h)

theorem foldl_groupTarget (ts : Targets) (g : TargetsByType) (k : String) :
    (Dict.get? (ts.foldl groupTarget g) k).getD [] = (Dict.get? g k).getD [] ++ valuesOfType ts k := by
  induction ts generalizing g with
  | nil => simp [valuesOfType]
  | cons t ts ih =>
    rw [List.foldl_cons, ih, groupTarget_get]
    simp [valuesOfType]

theorem foldl_groupTarget_good (ts : Targets) (g : TargetsByType) (h : GoodGroups g) : GoodGroups (ts.foldl groupTarget g) := by
  induction ts generalizing g with
  | nil => exact h
  | cons t ts ih => exact ih _ (groupTarget_good g t h)

theorem ungroup_append (g h : Dict) : ungroupTargetsByType (g ++ h) = ungroupTargetsByType g ++ ungroupTargetsByType h := by
  induction g with
  | nil => rfl
  | cons e g ih => obtain ⟨k, v⟩ := e; simp [ungroupTargetsByType, ih]

theorem ungroup_addTarget (g : TargetsByType) (k : String) (v : Value) :
    (ungroupTargetsByType (addTarget g k v).toDict).Perm (ungroupTargetsByType g.toDict ++ [[(k, v)]]) := by
  simp only [addTarget]
  split
  · rename_i h
    rw [Dict.set_new _ _ _ ((Dict.get?_none g k).mp h)]
    simp [TargetsByType.toDict, ungroup_append, ungroupTargetsByType]
  · rename_i l h
    induction g with
    | nil => simp [Dict.get?] at h
    | cons e g ih =>
      obtain ⟨k', l'⟩ := e
      simp only [Dict.get?] at h
      split at h
      · rename_i hk
        simp only [Option.some.injEq] at h
        subst hk; subst h
        simp only [Dict.set, if_true, TargetsByType.toDict, List.map_cons, ungroupTargetsByType, List.map_append, List.map_nil,
          List.append_assoc]
        exact (List.perm_append_comm).append_left _
      · rename_i hk
        simp only [Dict.set, hk, if_false, TargetsByType.toDict, List.map_cons, ungroupTargetsByType, List.append_assoc]
        exact (ih h).append_left _

theorem group_block (g0 : TargetsByType) (k : String) (l1 l2 : List Value) (hk : k ∉ Dict.keys g0)
    (hn : ∀ v ∈ l2, v ≠ .none) :
    (l2.map (fun x => [(k, x)])).foldl groupTarget (g0 ++ [(k, l1)]) = g0 ++ [(k, l1 ++ l2)] := by
  induction l2 generalizing l1 with
  | nil => simp
  | cons v l2 ih =>
    have hv := hn v (by simp)
    have key : addTarget (g0 ++ [(k, l1)]) k v = g0 ++ [(k, l1 ++ [v])] := by
      have hg : Dict.get? (g0 ++ [(k, l1)]) k = some l1 := by
        clear ih hn hv
        induction g0 with
        | nil => simp [Dict.get?]
        | cons e g0 ih =>
          obtain ⟨k', l'⟩ := e
          simp only [Dict.keys, List.map_cons, List.mem_cons, not_or] at hk
          have : k' ≠ k := fun e => hk.1 e.symm
          simp [Dict.get?, this, ih hk.2]
      have hs : ∀ w, Dict.set (g0 ++ [(k, l1)]) k w = g0 ++ [(k, w)] := by
        clear ih hn hv hg
        intro w
        induction g0 with
        | nil => simp [Dict.set]
        | cons e g0 ih =>
          obtain ⟨k', l'⟩ := e
          simp only [Dict.keys, List.map_cons, List.mem_cons, not_or] at hk
          have : k' ≠ k := fun e => hk.1 e.symm
          simp [Dict.set, this, ih hk.2]
      simp [addTarget, hg, hs]
    simp only [List.map_cons, List.foldl_cons, groupTarget, hv, if_false, key]
    rw [ih (l1 ++ [v]) (fun v hv => hn v (by simp [hv]))]
    simp

theorem group_ungroup_from (g0 g : TargetsByType) (hn : (Dict.keys (g0 ++ g)).Nodup)
    (hl : ∀ e ∈ g, e.2 ≠ [] ∧ ∀ v ∈ e.2, v ≠ .none) :
    (ungroupTargetsByType g.toDict).foldl groupTarget g0 = g0 ++ g := by
  induction g generalizing g0 with
  | nil => simp [TargetsByType.toDict, ungroupTargetsByType]
  | cons e g ih =>
    obtain ⟨k, l⟩ := e
    obtain ⟨hne, hnone⟩ := hl (k, l) (by simp)
    have hk : k ∉ Dict.keys g0 := by
      intro hk
      simp only [Dict.keys, List.map_append, List.map_cons] at hn
      have := (List.nodup_append.mp hn).2.2 k hk k (by simp)
      exact this rfl
    cases l with
    | nil => exact absurd rfl hne
    | cons v l =>
      have hv := hnone v (by simp)
      simp only [TargetsByType.toDict, List.map_cons, ungroupTargetsByType, List.foldl_append, List.foldl_cons, groupTarget,
        hv, if_false]
      have h1 : addTarget g0 k v = g0 ++ [(k, [v])] := by
        simp only [addTarget, (Dict.get?_none g0 k).mpr hk]
        exact Dict.set_new g0 k [v] hk
      rw [h1, group_block g0 k [v] l hk (fun v hv => hnone v (by simp [hv]))]
      have := ih (g0 ++ [(k, v :: l)]) (by simpa using hn) (fun e he => hl e (by simp [he]))
      simp only [TargetsByType.toDict] at this
      simpa using this

/-! ### group_by -/

theorem getChain_ok_iff (v : Value) (p : List String) (w : Value) : getChain v p = .ok w ↔ chainValue v p = some w := by
  induction p generalizing v with
  | nil => simp [getChain, chainValue]
  | cons k ks ih =>
    cases v <;> simp [getChain, chainValue]
    rename_i d
    rw [ih]
    rw [Dict.get?_eq_find?]

theorem groupByLoop_spec (l : List Value) (path : List String) (g0 g : List (Value × List Value))
    (h : groupByLoop g0 l path = .ok g) (hn : (g0.map Prod.fst).Nodup) (hne : ∀ e ∈ g0, e.2 ≠ []) :
    (g.map Prod.fst).Nodup ∧ (∀ e ∈ g, e.2 ≠ []) ∧
    (∀ k, groupItems g k = groupItems g0 k ++ l.filter (fun i => decide (chainValue i path = some k))) ∧
    (∀ i ∈ l, ∃ k, chainValue i path = some k) := by
  induction l generalizing g0 with
  | nil => simp [groupByLoop] at h; subst h; exact ⟨hn, hne, by simp, by simp⟩
  | cons i l ih =>
    simp only [groupByLoop] at h
    split at h
    · simp at h
    · rename_i k hk
      split at h
      · have hk' := (getChain_ok_iff i path k).mp hk
        have hne' : ∀ e ∈ addToGroup g0 k i, e.2 ≠ [] := by
          clear ih h hn
          induction g0 with
          | nil => simp [addToGroup]
          | cons e g0 ih =>
            obtain ⟨k', items⟩ := e
            simp only [addToGroup]
            split
            · intro e he
              simp only [List.mem_cons] at he
              rcases he with rfl | he
              · simp
              · exact hne e (by simp [he])
            · intro e he
              simp only [List.mem_cons] at he
              rcases he with rfl | he
              · exact hne _ (by simp)
              · exact ih (fun e he => hne e (by simp [he])) e he
        obtain ⟨h1, h2, h3, h4⟩ := ih _ h (addToGroup_nodup g0 k i hn) hne'
        refine ⟨h1, h2, ?_, ?_⟩
        · intro k'
          rw [h3, groupItems_add, List.append_assoc]
          by_cases hkk : k' = k
          · subst hkk; simp [hk']
          · have : ¬ k = k' := fun e => hkk e.symm
            simp [hkk, hk', this]
        · intro i' hi'
          simp only [List.mem_cons] at hi'
          rcases hi' with rfl | hi'
          · exact ⟨k, hk'⟩
          · exact h4 i' hi'
      · simp at h

theorem groupByLoop_ok (l : List Value) (path : List String) (g0 : List (Value × List Value))
    (h : ∀ i ∈ l, ∃ k, chainValue i path = some k ∧ hashable k = true) : ∃ g, groupByLoop g0 l path = .ok g := by
  induction l generalizing g0 with
  | nil => exact ⟨g0, rfl⟩
  | cons i l ih =>
    obtain ⟨k, hk, hh⟩ := h i (by simp)
    simp only [groupByLoop, (getChain_ok_iff i path k).mpr hk, hh, if_true]
    exact ih _ (fun i hi => h i (by simp [hi]))

end Openleadr
