import Verif.Props.Messages
import Verif.Lemmas.PlainTexts
import Verif.Lemmas.EventWire
/-!
C67: values that are written or read in other ways than those of the payloads.
-/
namespace Openleadr

variable {lib : Lib} {now : Int}

theorem set_again (d : Dict) (k : String) (v w : Value) : Dict.set (Dict.set d k v) k w = Dict.set d k w := by
  induction d with
  | nil => simp [Dict.set]
  | cons e d ih =>
    obtain ⟨k', v'⟩ := e
    simp only [Dict.set]
    split
    · rename_i h; simp [Dict.set, h]
    · rename_i h; simp [Dict.set, h, ih]

/-- **C67**: an event is a test event unless it is marked with `false`, whatever other text another program writes. -/
theorem c67_test_event_foreign (f : Dict → Res Dict) (acc : Dict) {s : String} {v : Value} (hp : plainText lib s = .ok v) :
    stepEntry lib f acc ("testEvent", .str s) = .ok (Dict.set acc "test_event" (.bool (decide (s ≠ "false")))) := by
  have h1 : isAttribute "testEvent" = false := by decide +kernel
  have h2 : normalizeKey "testEvent" = "test_event" := by decide +kernel
  have hx : "x_ei_".toList.isPrefixOf "test_event".toList = false := by decide +kernel
  have key : ∀ w b, ((∃ i, w = .int i) ∨ (∃ r, w = .float r) ∨ ∃ s, w = .str s) ∧ b = true ∨ w = .bool b →
      settle lib (Dict.set acc "test_event" w) "test_event" = .ok (Dict.set acc "test_event" (.bool b)) := by
    intro w b hw
    have hcur : currentOf (Dict.set acc "test_event" w) "test_event" = w := by simp [currentOf, Dict.get?_set_self]
    simp only [settle, renameEntry, hx, Bool.false_eq_true, if_false, groupTargetEntry, show ("test_event" = "target") = False by simp]
    rcases hw with ⟨⟨i, rfl⟩ | ⟨i, rfl⟩ | ⟨i, rfl⟩, rfl⟩ | rfl <;> simp [arrangeEntry, unnest, onlyEntry, hcur, set_again]
  simp only [stepEntry, h1, h2, entryValue, Bool.false_eq_true, if_false]
  rw [leafValue_text lib _ _ (by decide +kernel)]
  by_cases ht : s = "true" ∨ s = "false"
  · rw [if_pos ht]
    refine key _ _ (Or.inr ?_)
    rcases ht with rfl | rfl <;> simp
  · rw [if_neg ht, hp]
    have hs : s ≠ "false" := fun e => ht (Or.inr e)
    refine key _ _ (Or.inl ⟨?_, by simp [hs]⟩)
    unfold plainText at hp
    split at hp
    · split at hp <;> simp at hp
      exact Or.inl ⟨_, hp.symm⟩
    · split at hp
      · split at hp <;> simp at hp
        exact Or.inr (Or.inl ⟨_, hp.symm⟩)
      · simp at hp
        exact Or.inr (Or.inr ⟨_, hp.symm⟩)

/-- A number and the word of Python for a boolean mark test events. -/
example (f : Dict → Res Dict) : stepEntry plainLib f [] ("testEvent", .str "1") = .ok [("test_event", .bool true)] ∧
    stepEntry plainLib f [] ("testEvent", .str "False") = .ok [("test_event", .bool true)] ∧
    stepEntry plainLib f [] ("testEvent", .str "false") = .ok [("test_event", .bool false)] := by
  refine ⟨?_, ?_, ?_⟩
  · rw [c67_test_event_foreign f [] (v := .int 1) (by decide +kernel)]; decide +kernel
  · rw [c67_test_event_foreign f [] (v := .str "False") (by decide +kernel)]; decide +kernel
  · rw [c67_test_event_foreign f [] (v := .str "false") (by decide +kernel)]; decide +kernel

/-- **C67, refuted** for booleans in the place of texts: what is received is the text that Python writes for them. -/
theorem c67_bool_text_violated (sound : lib.Sound) (b : Bool) :
    Arrives lib now "oadrPoll" [("ven_id", .bool b)] [("ven_id", .str (if b then "True" else "False"))] := by
  have ho : ∀ b : Bool, Ordinary lib (if b then "True" else "False") := by
    intro b
    cases b
    · exact ordinary_word sound (by decide) (onWire_of (by decide +kernel)) (by decide) (by decide)
    · exact ordinary_word sound (by decide) (onWire_of (by decide +kernel)) (by decide) (by decide)
  have hw : Wired lib "ven_id" .plain (.bool b) (.str (if b then "True" else "False")) := by
    refine .of (some (.bool b)) (if b then "True" else "False") rfl (by simp) rfl rfl (ho b).toOnWire ?_ rfl
    rw [leafValue_text lib _ _ (by decide +kernel), if_neg (by simp [(ho b).notTrue, (ho b).notFalse]), (ho b).plain]
  exact arrives_of (by rfl) (fun _ => .cons (carries_leaf "venID" "ven_id" (by lk) hw) .nil) (by simp) (by simp)

theorem get_mergeName (name : String) (item : Dict) (hn : (Dict.keys item).Nodup) (k : String) :
    Dict.get? (mergeName name item) k = match Dict.get? item k with
      | some v => some v
      | none => if k = "name" then some (.str name) else none := by
  have key : ∀ (item acc : Dict), (Dict.keys item).Nodup →
      Dict.get? (item.foldl (fun d e => Dict.set d e.1 e.2) acc) k = match Dict.get? item k with
        | some v => some v
        | none => Dict.get? acc k := by
    intro item
    induction item with
    | nil => intro acc _; rfl
    | cons e item ih =>
      intro acc h
      obtain ⟨k', v⟩ := e
      simp only [Dict.keys, List.map_cons, List.nodup_cons] at h
      rw [List.foldl_cons, ih _ h.2]
      simp only [Dict.get?]
      by_cases hk : k' = k
      · subst hk
        have : Dict.get? item k' = none := by
          cases hg : Dict.get? item k' with
          | none => rfl
          | some w => exact absurd (by
              have := Dict.mem_of_get? _ _ _ hg
              exact List.mem_map.mpr ⟨_, this, rfl⟩) h.1
        simp [this, Dict.get?_set_self]
      · simp only [if_neg hk]
        rw [Dict.get?_set_other _ _ _ _ (fun e => hk e.symm)]
  rw [mergeName, key item _ hn]
  cases Dict.get? item k with
  | some v => rfl
  | none =>
    simp only [Dict.get?]
    by_cases hk : k = "name"
    · subst hk; simp
    · rw [if_neg hk, if_neg (fun e => hk e.symm)]

theorem get_takeEntry {item : Dict} (hn : (Dict.keys item).Nodup) {old new : String} (ho : old ≠ new) (k : String) :
    Dict.get? (takeEntry item old new) k = if k = new then some ((Dict.get? item old).getD .none) else if k = old then none else Dict.get? item k := by
  unfold takeEntry
  by_cases h1 : k = new
  · subst h1; rw [if_pos rfl, Dict.get?_set_self]
  · rw [if_neg h1, Dict.get?_set_other _ _ _ _ h1]
    by_cases h2 : k = old
    · subst h2; rw [if_pos rfl, Dict.get?_erase_self _ _ hn]
    · rw [if_neg h2, Dict.get?_erase_other _ _ _ h2]

theorem get_moveEntry {item : Dict} (hn : (Dict.keys item).Nodup) {old new : String} (ho : old ≠ new) (k : String) :
    Dict.get? (moveEntry item old new) k = match Dict.get? item old with
      | some v => if k = new then some v else if k = old then none else Dict.get? item k
      | none => Dict.get? item k := by
  unfold moveEntry
  cases hg : Dict.get? item old with
  | none => rfl
  | some v =>
    simp only
    by_cases h1 : k = new
    · subst h1; rw [if_pos rfl, Dict.get?_set_self]
    · rw [if_neg h1, Dict.get?_set_other _ _ _ _ h1]
      by_cases h2 : k = old
      · subst h2; rw [if_pos rfl, Dict.get?_erase_self _ _ hn]
      · rw [if_neg h2, Dict.get?_erase_other _ _ _ h2]

theorem nodup_takeEntry {item : Dict} (hn : (Dict.keys item).Nodup) (old new : String) : (Dict.keys (takeEntry item old new)).Nodup :=
  Dict.nodup_keys_set _ _ _ (hn.sublist (Dict.keys_erase_sublist _ _))

theorem nodup_moveEntry {item : Dict} (hn : (Dict.keys item).Nodup) (old new : String) : (Dict.keys (moveEntry item old new)).Nodup := by
  unfold moveEntry
  split
  · exact Dict.nodup_keys_set _ _ _ (hn.sublist (Dict.keys_erase_sublist _ _))
  · exact hn

/-- **C67**: a measurement of another program is received with the description and the unit it has, or `None` in their place; with its scale and its pulse factor only
    if it has them; with everything else it has; and with the name of its kind. -/
theorem c67_measurement_foreign {item d : Dict} {name : String} (hn : (Dict.keys item).Nodup) (hd : Dict.get? d name = some (.dict item))
    (hf : findMeasurement (measurementNamespaces.map (·.1)) (.dict d) = .ok (some name)) :
    ∃ m, describe (.dict d) = .ok (some (.dict (Dict.set (Dict.erase d name) "measurement" (.dict m)))) ∧
      Dict.get? m "description" = some ((Dict.get? item "item_description").getD .none) ∧
      Dict.get? m "unit" = some ((Dict.get? item "item_units").getD .none) ∧
      Dict.get? m "scale" = (match Dict.get? item "si_scale_code" with
        | some v => some v
        | none => Dict.get? item "scale") ∧
      Dict.get? m "name" = some ((Dict.get? item "name").getD (.str name)) ∧
      (∀ k ∈ ["item_description", "item_units", "si_scale_code"], Dict.get? m k = none) ∧
      ∀ k, k ∉ ["description", "unit", "scale", "name", "item_description", "item_units", "si_scale_code"] → Dict.get? m k = Dict.get? item k := by
  refine ⟨measurementItem name item, by simp only [describe, hf, hd], ?_⟩
  have n1 := nodup_takeEntry hn "item_description" "description"
  have n2 := nodup_takeEntry n1 "item_units" "unit"
  have n3 := nodup_moveEntry n2 "si_scale_code" "scale"
  have hp : ∀ k, Dict.get? (moveEntry (moveEntry (takeEntry (takeEntry item "item_description" "description") "item_units" "unit") "si_scale_code" "scale")
      "pulse_factor" "pulse_factor") k =
      Dict.get? (moveEntry (takeEntry (takeEntry item "item_description" "description") "item_units" "unit") "si_scale_code" "scale") k := by
    intro k
    generalize moveEntry (takeEntry (takeEntry item "item_description" "description") "item_units" "unit") "si_scale_code" "scale" = x
    unfold moveEntry
    cases hg : Dict.get? x "pulse_factor" with
    | none => rfl
    | some v =>
      simp only
      by_cases h1 : k = "pulse_factor"
      · subst h1; rw [Dict.get?_set_self, hg]
      · rw [Dict.get?_set_other _ _ _ _ h1, Dict.get?_erase_other _ _ _ h1]
  have all : ∀ k, Dict.get? (measurementItem name item) k = match (match Dict.get? item "si_scale_code" with
        | some v => if k = "scale" then some v else if k = "si_scale_code" then none else if k = "unit" then some ((Dict.get? item "item_units").getD .none)
          else if k = "item_units" then none else if k = "description" then some ((Dict.get? item "item_description").getD .none)
          else if k = "item_description" then none else Dict.get? item k
        | none => if k = "unit" then some ((Dict.get? item "item_units").getD .none)
          else if k = "item_units" then none else if k = "description" then some ((Dict.get? item "item_description").getD .none)
          else if k = "item_description" then none else Dict.get? item k) with
      | some v => some v
      | none => if k = "name" then some (.str name) else none := by
    intro k
    rw [measurementItem, get_mergeName _ _ (nodup_moveEntry n3 _ _), hp, get_moveEntry n2 (by decide), get_takeEntry n1 (by decide), get_takeEntry n1 (by decide),
      get_takeEntry hn (by decide), get_takeEntry hn (by decide), get_takeEntry hn (by decide)]
    simp only [show ("si_scale_code" = "unit") = False by decide, show ("si_scale_code" = "item_units") = False by decide,
      show ("si_scale_code" = "description") = False by decide, show ("si_scale_code" = "item_description") = False by decide,
      show ("item_units" = "description") = False by decide, show ("item_units" = "item_description") = False by decide, if_false]
  refine ⟨?_, ?_, ?_, ?_, ?_, ?_⟩
  · rw [all]; cases Dict.get? item "si_scale_code" <;> simp
  · rw [all]; cases Dict.get? item "si_scale_code" <;> simp
  · rw [all]; cases Dict.get? item "si_scale_code" <;> simp
    cases Dict.get? item "scale" <;> rfl
  · rw [all]; cases Dict.get? item "si_scale_code" <;> simp <;> cases Dict.get? item "name" <;> rfl
  · intro k hk
    simp only [List.mem_cons, List.not_mem_nil, or_false] at hk
    rcases hk with rfl | rfl | rfl <;> rw [all] <;> cases Dict.get? item "si_scale_code" <;> simp
  · intro k hk
    simp only [List.mem_cons, List.not_mem_nil, or_false, not_or] at hk
    obtain ⟨h1, h2, h3, h4, h5, h6, h7⟩ := hk
    rw [all]
    cases Dict.get? item "si_scale_code" <;> simp [h1, h2, h3, h4, h5, h6, h7] <;> cases Dict.get? item k <;> rfl

/-- A measurement with just a scale. -/
example : describe (.dict [("r_id", .str "ax"), ("voltage", .dict [("si_scale_code", .str "k")])]) =
    .ok (some (.dict [("r_id", .str "ax"), ("measurement", .dict [("name", .str "voltage"), ("description", .none), ("unit", .none), ("scale", .str "k")])])) := by
  decide +kernel

end Openleadr
