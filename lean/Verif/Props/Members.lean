import Verif.Lemmas.Targets
import Verif.Lemmas.Infix
/-!
C09 Searching a collection by keys is exact. C10 Popping by keys removes exactly the found item.
C11 Grouping keeps every item exactly once. C12 Reading back a member gives what was written, and nothing else changes.
C13 The two representations of targets agree.
-/
namespace Openleadr
open Spec

/-- **C09** (partial: the intermediate levels of each key path exist in each item): the search returns the first item that meets all
    conditions, and `None` exactly when no item meets them. For one-level keys the hypothesis only says that the items are dicts or
    dataclasses. What is missing is the case of a missing intermediate level, see `c09_missing_level_violated`. -/
theorem c09_find_by_partial (items : List Value) (conds : List (List String × Value))
    (h : ∀ i ∈ items, ∀ c ∈ conds, PlainPath c.1 ∧ reaches i c.1) :
    findBy (.list items) (conds.map (fun c => (dotted c.1, c.2))) = .ok (items.find? (fun i => conds.all (meets i))) :=
  findByList_eq items conds h

/-- **C09**, searching the values of a dict. -/
theorem c09_find_by_dict_partial (d : List (String × Value)) (conds : List (List String × Value))
    (h : ∀ e ∈ d, ∀ c ∈ conds, PlainPath c.1 ∧ reaches e.2 c.1) :
    findBy (.dict d) (conds.map (fun c => (dotted c.1, c.2))) =
      .ok ((d.map Prod.snd).find? (fun i => conds.all (meets i))) := by
  refine findByList_eq _ conds ?_
  intro i hi c hc
  obtain ⟨e, he, rfl⟩ := List.mem_map.mp hi
  exact h e he c hc

/-- **C09**, searching a tuple is searching the list of its members, whatever they are; nothing else can be searched. -/
theorem c09_find_by_tuple (items : List Value) (conds : List (String × Value)) :
    findBy (.tuple items) conds = findBy (.list items) conds ∧
    ∀ v, (∀ l, v ≠ .list l) → (∀ l, v ≠ .tuple l) → (∀ d, v ≠ .dict d) → findBy v conds = .error .typeError := by
  refine ⟨rfl, fun v h1 h2 h3 => ?_⟩
  cases v with
  | list l => exact absurd rfl (h1 l)
  | tuple l => exact absurd rfl (h2 l)
  | dict d => exact absurd rfl (h3 d)
  | _ => rfl

/-- **C09, refuted** for a text in the place of an inner level: if the last level of the key occurs in the text, the whole search fails with a
    `TypeError`, whatever comes after that item; if it does not, the item is passed over as it should be. -/
theorem c09_text_level_violated (item : Value) (rest : List Value) (k1 k s : String) (value : Value) (hp : PlainPath [k1, k])
    (h : lookup item [k1] = some (.str s)) :
    (Occurs k.toList s.toList → findBy (.list (item :: rest)) [(dotted [k1, k], value)] = .error .typeError) ∧
    (¬ Occurs k.toList s.toList → findBy (.list (item :: rest)) [(dotted [k1, k], value)] = findBy (.list rest) [(dotted [k1, k], value)]) := by
  have hw : walkDown item [k1] = .ok (.str s) := by
    cases item <;> simp only [lookup, entries, reduceCtorEq] at h
    all_goals
      rename_i d
      cases hf : d.find? (fun e => decide (e.1 = k1)) with
      | none => rw [hf] at h; cases h
      | some e =>
        rw [hf] at h
        have hg := Dict.get?_eq_find? d k1
        rw [hf] at hg
        simp only [Option.map_some, Option.some.injEq] at h hg
        simp [walkDown, hasmember, Dict.has, getmemberInner, hg, h]
  have hc : condsHold item [(dotted [k1, k], value)] = if isInfix k.toList s.toList then .error .typeError else .ok false := by
    simp only [condsHold, condHolds, splitKey_dotted _ hp, List.dropLast, hw, List.getLastD, List.getLast, hasmember]
    cases isInfix k.toList s.toList <;> simp [getmemberInner]
  rw [← isInfix_iff]
  constructor
  · intro ho
    simp only [findBy, findByList, hc, ho, if_true]
  · intro ho
    simp only [findBy, findByList, hc, ho, Bool.false_eq_true, if_false]

/-- non-vacuity: the search for `x.a = 1` fails at the text `bar`, although the second item is what is searched for. -/
example : findBy (.list [.dict [("x", .str "bar")], .dict [("x", .dict [("a", .int 1)])]]) [("x.a", .int 1)] = .error .typeError ∧
    findBy (.list [.dict [("x", .str "foo")], .dict [("x", .dict [("a", .int 1)])]]) [("x.a", .int 1)] = .ok (some (.dict [("x", .dict [("a", .int 1)])])) := by
  decide +kernel

/-- non-vacuity: nested conditions on two items, with a tuple of values. -/
example : findBy (.list [.dict [("event_descriptor", .dict [("event_id", .str "a")])],
                         .dict [("event_descriptor", .dict [("event_id", .str "b")])]])
      [("event_descriptor.event_id", .tuple [.str "b", .str "c"])]
    = .ok (some (.dict [("event_descriptor", .dict [("event_id", .str "b")])])) := by decide +kernel

example : reaches (.dict [("event_descriptor", .dict [("event_id", .str "a")])]) ["event_descriptor", "event_id"] := by
  exact ⟨.dict [("event_id", .str "a")], by decide +kernel, rfl⟩

/-- **C09, refuted** for a missing intermediate level: the search for `x.a = 1` returns an item without `x`. -/
theorem c09_missing_level_violated :
    ∃ (item : Value), findBy (.list [item]) [("x.a", .int 1)] = .ok (some item) ∧ lookup item ["x", "a"] = none :=
  ⟨.dict [("a", .int 1)], by decide +kernel, by decide +kernel⟩

/-- **C10**: popping returns what the search returns; the item found is removed at its first position, which is the position of the
    search result (nothing before it meets the conditions), and everything else stays in order. -/
theorem c10_pop_by_removes_found (l : List Value) (conds : List (String × Value)) (item : Value)
    (h : findBy (.list l) conds = .ok (some item)) :
    ∃ pre post, l = pre ++ item :: post ∧ popBy l conds = .ok (some item, pre ++ post) ∧
      ∀ x ∈ pre, condsHold x conds = .ok false := by
  have h' : findByList l conds = .ok (some item) := h
  obtain ⟨pre, post, rfl, h1, h2⟩ := findByList_some l conds item h'
  refine ⟨pre, post, rfl, ?_, h2⟩
  have hni : item ∉ pre := by
    intro hm; have := h2 item hm; rw [h1] at this; simp at this
  simp [popBy, h', removeFirst_eq pre post item hni]

/-- **C10**: when nothing is found the list is unchanged; when the search fails with an error nothing is popped. -/
theorem c10_pop_by_nothing (l : List Value) (conds : List (String × Value)) :
    (findBy (.list l) conds = .ok none → popBy l conds = .ok (none, l)) ∧
    (∀ e, findBy (.list l) conds = .error e → popBy l conds = .error e) := by
  simp only [findBy, popBy]
  constructor
  · intro h; rw [h]
  · intro e h; rw [h]

/-- non-vacuity: equal items before and after. -/
example : popBy [.dict [("id", .int 1)], .dict [("id", .int 2)], .dict [("id", .int 2)]] [("id", .int 2)]
    = .ok (some (.dict [("id", .int 2)]), [.dict [("id", .int 1)], .dict [("id", .int 2)]]) := by decide +kernel

/-- **C11**: the groups have distinct keys, are not empty, and the group of a key is the sub-list, in the original order, of the items
    with that key value; so each item is in exactly one group, as often as it was in the list. -/
theorem c11_group_by (l : List Value) (path : List String) (hp : PlainPath path) (g : List (Value × List Value))
    (h : groupBy l (dotted path) = .ok g) :
    (g.map Prod.fst).Nodup ∧
    (∀ k items, (k, items) ∈ g → items ≠ [] ∧ items = l.filter (fun i => decide (chainValue i path = some k))) ∧
    (∀ i ∈ l, ∃ k items, (k, items) ∈ g ∧ i ∈ items) := by
  simp only [groupBy, splitKey_dotted path hp] at h
  obtain ⟨h1, h2, h3, h4⟩ := groupByLoop_spec l path [] g h (by simp) (by simp)
  refine ⟨h1, ?_, ?_⟩
  · intro k items hm
    refine ⟨h2 _ hm, ?_⟩
    have := h3 k
    rw [groupItems_of_mem g h1 k items hm] at this
    simpa [groupItems] using this
  · intro i hi
    obtain ⟨k, hk⟩ := h4 i hi
    have hik : i ∈ groupItems g k := by
      rw [h3 k]; simp [hi, hk]
    have : ∃ items, (k, items) ∈ g ∧ groupItems g k = items := by
      clear h h1 h2 h3 h4
      induction g with
      | nil => simp [groupItems] at hik
      | cons e g ih =>
        obtain ⟨k', items⟩ := e
        simp only [groupItems] at hik ⊢
        split at hik
        · rename_i hk'; exact ⟨items, by simp [hk'], by simp [hk']⟩
        · rename_i hk'
          obtain ⟨items', hm, he⟩ := ih hik
          exact ⟨items', by simp [hm], by simp [hk', he]⟩
    obtain ⟨items, hm, he⟩ := this
    exact ⟨k, items, hm, he ▸ hik⟩

mutual
theorem hashable_iff (v : Value) : hashable v = true ↔ ¬ Unhashable v := by
  cases v <;> simp only [hashable, Bool.false_eq_true, true_iff, false_iff, Classical.not_not]
  case list l => exact .list l
  case dict d => exact .dict d
  case obj c d => exact .obj c d
  case tuple l =>
    rw [hashableAll_iff l]
    exact ⟨fun h => by rintro (_ | _ | _ | ⟨_, v, hv, hu⟩); exact h v hv hu, fun h v hv hu => h (.tuple l v hv hu)⟩
  all_goals intro h; cases h
theorem hashableAll_iff (l : List Value) : hashableAll l = true ↔ ∀ v ∈ l, ¬ Unhashable v := by
  cases l with
  | nil => simp [hashableAll]
  | cons v vs => simp only [hashableAll, Bool.and_eq_true, hashable_iff v, hashableAll_iff vs, List.mem_cons, forall_eq_or_imp]
end

/-- **C11**: grouping succeeds exactly if every item is a dict, down to the last level of the key, whose key value can be hashed. -/
theorem c11_group_by_succeeds (l : List Value) (path : List String) (hp : PlainPath path) :
    (∃ g, groupBy l (dotted path) = .ok g) ↔ ∀ i ∈ l, ∃ k, chainValue i path = some k ∧ ¬ Unhashable k := by
  simp only [groupBy, splitKey_dotted path hp, ← hashable_iff]
  refine ⟨?_, groupByLoop_ok l path []⟩
  rintro ⟨g, h⟩
  generalize ([] : List (Value × List Value)) = g0 at h
  induction l generalizing g0 with
  | nil => simp
  | cons i l ih =>
    simp only [groupByLoop] at h
    split at h
    · cases h
    · rename_i k hk
      split at h
      · rename_i hh
        intro i' hi'
        rcases List.mem_cons.mp hi' with rfl | hi'
        · exact ⟨k, (getChain_ok_iff _ path k).mp hk, hh⟩
        · exact ih _ h i' hi'
      · cases h

/-- non-vacuity -/
example : groupBy [.dict [("r_id", .str "a"), ("v", .int 1)], .dict [("r_id", .str "b")], .dict [("r_id", .str "a"), ("v", .int 2)]] "r_id"
    = .ok [(.str "a", [.dict [("r_id", .str "a"), ("v", .int 1)], .dict [("r_id", .str "a"), ("v", .int 2)]]),
           (.str "b", [.dict [("r_id", .str "b")]])] := by decide +kernel

/-- **C12** (reading back) -/
theorem c12_get_after_set (obj obj' v : Value) (p : List String) (hp : PlainPath p)
    (h : setmember obj (dotted p) v = .ok obj') : getmember obj' (dotted p) = .ok v := by
  simp only [setmember, getmember, splitKey_dotted p hp] at h ⊢
  exact (getPath_ok_iff obj' p v).mpr (setPath_get_self obj p v obj' h)

/-- **C12** (nothing else changes): a member on a path that parts from the written one reads as before, also when it is absent. -/
theorem c12_other_members_kept (obj obj' v w : Value) (p q : List String) (hp : PlainPath p) (hq : PlainPath q) (hd : Diverge p q)
    (h : setmember obj (dotted p) v = .ok obj') :
    getmember obj' (dotted q) = .ok w ↔ getmember obj (dotted q) = .ok w := by
  simp only [setmember, getmember, splitKey_dotted p hp, splitKey_dotted q hq] at h ⊢
  rw [getPath_ok_iff, getPath_ok_iff, setPath_get_diverge obj p q v obj' hd h]

/-- **C12** (writing back what is there changes nothing) -/
theorem c12_set_after_get (obj v : Value) (p : List String) (hp : PlainPath p) (h : getmember obj (dotted p) = .ok v) :
    setmember obj (dotted p) v = .ok obj := by
  simp only [setmember, getmember, splitKey_dotted p hp] at h ⊢
  exact setPath_same obj p v hp.1 ((getPath_ok_iff obj p v).mp h)

/-- **C12** (setting succeeds) whenever the levels above the last exist. -/
theorem c12_set_succeeds (obj v : Value) (p : List String) (hp : PlainPath p) (h : reaches obj p) :
    ∃ obj', setmember obj (dotted p) v = .ok obj' := by
  simp only [setmember, splitKey_dotted p hp]
  exact setPath_ok obj p v hp.1 h

/-- **C12** (a default is used only if the member is missing) -/
theorem c12_default_unused (obj d v : Value) (p : List String) (hp : PlainPath p) (h : lookup obj p = some v) :
    getmember obj (dotted p) (some d) = .ok v := by
  simp only [getmember, splitKey_dotted p hp]
  exact getPath_default obj p d v h

/-- **C12** (a default is used if the last level is missing and the levels above exist) -/
theorem c12_default_used (obj d : Value) (p : List String) (hp : PlainPath p) (hr : reaches obj p) (h : lookup obj p = none) :
    getmember obj (dotted p) (some d) = .ok d := by
  simp only [getmember, splitKey_dotted p hp]
  exact getPath_missing obj p d hp.1 hr h

example : getmember (.dict [("a", .dict [("b", .int 1)])]) "a.c" (some (.str "none")) = .ok (.str "none") := by decide +kernel

/-- non-vacuity: a nested member of an event. -/
example : setmember (.dict [("event_descriptor", .obj "EventDescriptor" [("event_id", .str "e"), ("modification_number", .int 0)])])
      "event_descriptor.modification_number" (.int 1)
    = .ok (.dict [("event_descriptor", .obj "EventDescriptor" [("event_id", .str "e"), ("modification_number", .int 1)])])
    ∧ PlainPath ["event_descriptor", "modification_number"]
    ∧ Diverge ["event_descriptor", "modification_number"] ["event_descriptor", "event_id"] := by
  refine ⟨by decide +kernel, ⟨by decide +kernel, by decide +kernel⟩, ?_⟩
  exact ⟨["event_descriptor"], "modification_number", "event_id", [], [], by decide +kernel, rfl, rfl⟩

/-- **C13** (grouping): under each type there are exactly the values of that type, in order and without `None`; a type without values
    does not occur; types do not repeat. -/
theorem c13_group_targets (ts : Targets) (type : String) :
    Dict.get? (groupTargetsByType ts) type = (if valuesOfType ts type = [] then none else some (valuesOfType ts type)) ∧
    (Dict.keys (groupTargetsByType ts)).Nodup := by
  have hg : GoodGroups (groupTargetsByType ts) := foldl_groupTarget_good ts [] ⟨by simp [Dict.keys], by simp [Dict.get?]⟩
  refine ⟨?_, hg.1⟩
  have := foldl_groupTarget ts [] type
  simp only [Dict.get?, Option.getD_none, List.nil_append] at this
  have e : groupTargetsByType ts = List.foldl groupTarget [] ts := rfl
  rw [← e] at this
  cases hgt : Dict.get? (groupTargetsByType ts) type with
  | none => rw [hgt] at this; simp at this; simp [← this]
  | some l =>
    rw [hgt] at this
    simp only [Option.getD_some] at this
    rw [← this, if_neg (hg.2 type l hgt)]

/-- **C13** (expanding a grouping and grouping again gives the grouping back). -/
theorem c13_group_of_ungroup (g : TargetsByType) (hn : (Dict.keys g).Nodup) (hl : ∀ e ∈ g, e.2 ≠ [] ∧ ∀ v ∈ e.2, v ≠ .none) :
    groupTargetsByType (ungroupTargetsByType g.toDict) = g := by
  have := group_ungroup_from [] g (by simpa using hn) hl
  simpa [groupTargetsByType] using this

/-- **C13** (expanding the grouping of single targets gives the same targets, each as often as before). -/
theorem c13_ungroup_of_group (ts : List (String × Value)) (h : ∀ e ∈ ts, e.2 ≠ .none) :
    (ungroupTargetsByType (groupTargetsByType (ts.map (fun e => [e]))).toDict).Perm (ts.map (fun e => [e])) := by
  have gen : ∀ (g : TargetsByType), (ungroupTargetsByType ((ts.map (fun e => [e])).foldl groupTarget g).toDict).Perm
      (ungroupTargetsByType g.toDict ++ ts.map (fun e => [e])) := by
    induction ts with
    | nil => intro g; simp
    | cons e ts ih =>
      intro g
      obtain ⟨k, v⟩ := e
      have hv := h (k, v) (by simp)
      simp only at hv
      simp only [List.map_cons, List.foldl_cons, groupTarget, hv, if_false]
      refine (ih (fun e he => h e (by simp [he])) _).trans ?_
      have := (ungroup_addTarget g k v).append_right (ts.map (fun e => [e]))
      simpa using this
  have := gen []
  simpa [TargetsByType.toDict, ungroupTargetsByType, groupTargetsByType] using this

/-- non-vacuity -/
example : groupTargetsByType [[("ven_id", .str "v")], [("resource_id", .str "a"), ("group_id", .none)], [("ven_id", .str "w")]]
    = [("ven_id", [.str "v", .str "w"]), ("resource_id", [.str "a"])] := by decide +kernel

end Openleadr
