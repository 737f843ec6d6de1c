import Verif.Lemmas.EventParts
/-!
The targets of events: each kind of target in a list, grouped again by the receiver.
-/
namespace Openleadr

variable {lib : Lib} {n : Nat} {env : Dict}

theorem loop_some {α : Type} (key : String) (f : Nat → Value → Res (List Piece)) (F : α → Value) (g : α → Option String) (xs : List α)
    (h : ∀ i, ∀ x ∈ xs, f i (F x) = .ok (((g x).map (fun s => Piece.entry key (.str s))).toList)) :
    ∀ i, eachPiece f i (xs.map F) = .ok ((xs.filterMap g).map (fun s => .entry key (.str s))) := by
  induction xs with
  | nil => intro i; rfl
  | cons x xs ih =>
    intro i
    simp only [List.map_cons, eachPiece, h i x (by simp), ih (fun j y hy => h j y (by simp [hy])) (i + 1)]
    cases hg : g x <;> simp [List.filterMap_cons, hg]

/-- The part of the template for one kind of target. -/
theorem sure_targets {ts : List EventTargetP} {kind name key : String} (g : EventTargetP → Option String)
    (hl : lookup env ["event", "targets"] = .ok (some (.list ((ts.map EventTargetP.dict).map .dict))))
    (hg : ∀ t ∈ ts, Dict.get? t.dict kind = text? (g t)) (hs : ∀ t ∈ ts, ∀ x, g t = some x → Ordinary lib x)
    (hf : leafFacts name [] key (normalizeKey key) = true := by decide +kernel) :
    sure lib env (tEventTargets kind name) = .ok ((ts.filterMap g).map (fun s => .entry key (.str s))) := by
  simp only [leafFacts, Bool.and_eq_true, decide_eq_true_eq, Bool.not_eq_true'] at hf
  obtain ⟨⟨⟨⟨f1, -⟩, -⟩, -⟩, f5⟩ := hf
  simp only [tEventTargets, sure, hl]
  rw [List.map_map]
  refine loop_some key _ _ g ts (fun i t ht => ?_) 0
  have hlk : lookup (loopEnv env "target" i (.dict t.dict)) ["target", kind] = .ok (text? (g t)) := by
    simp [lookup, loopEnv, Dict.get?, walk, attrOf, hg t ht]
  have hc := surely_truthy hlk (fun x hx => by
    cases h : g t with
    | none => simp [h, text?] at hx
    | some s =>
      simp only [h, text?, Option.map_some, Option.some.injEq] at hx
      subst hx
      simp [Value.truthy, (hs t ht s h).notEmpty])
  cases h : g t with
  | none =>
    rw [h] at hc
    simp [sureAll, sure, ifTrue, hc, text?]
  | some s =>
    rw [h] at hc hlk
    have := sure_text (lib := lib) (name := name) (attrs := []) hlk (hs t ht s h).toOnWire f1 f5
    simp [sureAll, sure, ifTrue, hc, text?, this]

/-- Texts under one key. -/
theorem carries_sureTexts {t : Tmpl} {key : String} (key' : String) {ss : List String}
    (h : sure lib env t = .ok (ss.map (fun s => .entry key (.str s)))) (one : ∀ s, ss = [s] → Ordinary lib s)
    (hk : (decide (normalizeKey key = key') && !(isAttribute key) && plainKey key' && textKey key' && decide (key' ≠ "event")) = true
      := by decide +kernel) : Carries lib n env t key [key'] (if ss = [] then [] else [(key', wrapTexts ss)]) := by
  simp only [Bool.and_eq_true, decide_eq_true_eq, Bool.not_eq_true'] at hk
  obtain ⟨⟨⟨⟨f1, f2⟩, f3⟩, f4⟩, f5⟩ := hk
  refine ⟨ss.map .str, ?_, by simp, ?_, ?_⟩
  · simp only [h, Group.pieces, List.map_map]
    rfl
  · split <;> simp [Dict.keys]
  · match ss, one with
    | [], _ => simp [wrapVals]
    | [s], one =>
      have ho := one s rfl
      simp only [List.map_cons, List.map_nil, wrapVals, wrapTexts]
      refine appends_leaf lib _ key key' _ _ f1 f2 f3 ?_ (by simp) (by simp) (by simp) (by simp)
      rw [leafValue_text lib key' s f4, if_neg (by simp [ho.notTrue, ho.notFalse]), ho.plain]
    | s :: s' :: ss, _ =>
      simp only [List.map_cons, wrapVals]
      refine appends_inPlace lib _ key key' _ (.list ((s :: s' :: ss).map .str)) _ f1 f2 ?_ ?_
      · have := twice_leaves (f := normalize lib n) ((s :: s' :: ss).map .str) (by simp)
        simp only [List.map_cons] at this
        simp [entryValue, this, Except.map]
      · intro acc hg
        simp only [wrapTexts]
        rw [Dict.set_get?_self _ _ _ hg]
        exact settle_leaf lib acc key' _ f3 hg (by simp) (fun e => absurd e f5)

/-! ### The element with all targets -/

/-- The entries of the element. -/
def targetTexts (ts : List EventTargetP) : Dict :=
  targetKinds.flatMap (fun k => if ts.filterMap k.2 = [] then [] else [(k.1, wrapTexts (ts.filterMap k.2))])

theorem EventTargetP.Good.get {lib : Lib} {t : EventTargetP} (h : t.Good lib) :
    Dict.get? t.dict "emix_interfaces" = none ∧ Dict.get? t.dict "group_id" = text? t.groupId ∧ Dict.get? t.dict "group_name" = text? t.groupName ∧
    Dict.get? t.dict "resource_id" = text? t.resourceId ∧ Dict.get? t.dict "ven_id" = text? t.venId ∧
    Dict.get? t.dict "party_id" = text? t.partyId := by
  have h0 := h.others "emix_interfaces" (by simp)
  have h1 := h.others "group_id" (by simp)
  have h2 := h.others "group_name" (by simp)
  have h3 := h.others "resource_id" (by simp)
  have h4 := h.others "ven_id" (by simp)
  have h5 := h.others "party_id" (by simp)
  simp [EventTargetP.dict, Dict.get?_append, Dict.get?_entry?, h0, h1, h2, h3, h4, h5]

/-- No target has interfaces. -/
theorem sure_interfaces {ts : List EventTargetP} (hg : ∀ t ∈ ts, t.Good lib)
    (hl : lookup env ["event", "targets"] = .ok (some (.list ((ts.map EventTargetP.dict).map .dict)))) :
    sure lib env (.loop "target" ["event", "targets"] [
      ifTrue ["target", "emix_interfaces"] [.loop "emix_interface" ["target", "emix_interface"] emixInterface]]) = .ok [] := by
  simp only [sure, hl]
  rw [List.map_map]
  refine (loop_some "" _ _ (fun _ => none) ts (fun i t ht => ?_) 0).trans (by simp)
  have hlk : lookup (loopEnv env "target" i (.dict t.dict)) ["target", "emix_interfaces"] = .ok none := by
    simp [lookup, loopEnv, Dict.get?, walk, attrOf, (hg t ht).get.1]
  simp [sureAll, sure, ifTrue, surely_truthy hlk (by simp)]

theorem targetsOf_texts (ts : List EventTargetP) : targetsOf (targetTexts ts) = targetsReceived ts := by
  have one : ∀ (k : String) (ss : List String), targetsOf (if ss = [] then [] else [(k, wrapTexts ss)]) = ss.map (fun s => [(k, .str s)]) := by
    intro k ss
    match ss with
    | [] => simp [targetsOf]
    | [s] => simp [targetsOf, wrapTexts]
    | s :: s' :: ss => simp [targetsOf, wrapTexts]
  have app : ∀ a b, targetsOf (a ++ b) = targetsOf a ++ targetsOf b := by intro a b; simp [targetsOf]
  simp only [targetTexts, targetsReceived, targetKinds, List.flatMap_cons, List.flatMap_nil, app, one]
  rfl

theorem foldl_same (k : String) (ss : List String) (g : TargetsByType) (h : k ∉ Dict.keys g) :
    (ss.map (fun s => [(k, Value.str s)])).foldl groupTarget g = g ++ (if ss = [] then [] else [(k, ss.map .str)]) := by
  have more : ∀ (ss : List String) (l : List Value),
      (ss.map (fun s => [(k, Value.str s)])).foldl groupTarget (g ++ [(k, l)]) = g ++ [(k, l ++ ss.map .str)] := by
    intro ss
    induction ss with
    | nil => simp
    | cons s ss ih =>
      intro l
      have hget : Dict.get? (g ++ [(k, l)]) k = some l := by
        rw [Dict.get?_append, (Dict.get?_none _ _).mpr h]
        simp [Dict.get?]
      have hset : Dict.set (g ++ [(k, l)]) k (l ++ [.str s]) = g ++ [(k, l ++ [.str s])] := by
        clear ih hget
        induction g with
        | nil => simp [Dict.set]
        | cons e g ih' =>
          obtain ⟨k', x⟩ := e
          simp only [Dict.keys, List.map_cons, List.mem_cons, not_or] at h
          simp only [List.cons_append, Dict.set]
          rw [if_neg (fun e => h.1 e.symm), ih' h.2]
      simp only [List.map_cons, List.foldl_cons, groupTarget, addTarget, hget, hset, reduceCtorEq, if_false]
      rw [ih]
      simp
  match ss with
  | [] => simp
  | s :: ss =>
    have hget : Dict.get? g k = none := (Dict.get?_none _ _).mpr h
    simp only [List.map_cons, List.foldl_cons, groupTarget, addTarget, hget, reduceCtorEq, if_false]
    rw [Dict.set_new _ _ _ h, more]
    simp

theorem groups_texts (ts : List EventTargetP) : (groupTargetsByType (targetsReceived ts)).toDict = groupsReceived ts := by
  have hk : ∀ (k : String) (ss : List String), ∀ x ∈ Dict.keys (if ss = [] then ([] : TargetsByType) else [(k, ss.map .str)]), x = k := by
    intro k ss x hx
    split at hx <;> simp [Dict.keys] at hx
    exact hx
  have app : ∀ a b, TargetsByType.toDict (a ++ b) = a.toDict ++ b.toDict := by intro a b; simp [TargetsByType.toDict]
  have one : ∀ (k : String) (ss : List String), TargetsByType.toDict (if ss = [] then [] else [(k, ss.map .str)]) =
      if ss = [] then [] else [(k, .list (ss.map .str))] := by
    intro k ss
    split <;> simp [TargetsByType.toDict]
  simp only [groupTargetsByType, targetsReceived, groupsReceived, targetKinds, List.flatMap_cons, List.flatMap_nil, List.append_nil,
    List.foldl_append]
  rw [foldl_same "group_id" _ [] (by simp [Dict.keys])]
  rw [foldl_same "group_name"]
  rw [foldl_same "resource_id"]
  rw [foldl_same "ven_id"]
  rw [foldl_same "party_id"]
  · simp only [app, one, List.nil_append, List.append_assoc]
  all_goals
    simp only [Dict.keys, List.map_append, List.mem_append, not_or, List.nil_append]
    repeat' constructor
    all_goals
      intro hm
      have := hk _ _ _ hm
      revert this
      decide +kernel

theorem settle_target (lib : Lib) (d : Dict) (v : Value) (l : List Dict) (hd : Dict.get? d "target" = some v) (hl : newTargets v = .ok l) :
    settle lib d "target" =
      .ok (Dict.set (Dict.set (Dict.erase d "target") "targets" (.list (l.map .dict))) "targets_by_type" (.dict (groupTargetsByType l).toDict)) := by
  have hx : "x_ei_".toList.isPrefixOf "target".toList = false := by decide +kernel
  have hcur : currentOf d "target" = v := by simp [currentOf, hd]
  simp only [settle, renameEntry, hx, Bool.false_eq_true, if_false, groupTargetEntry, if_true, hcur, hl]
  rw [← settle_plain lib _ "targets" (by decide +kernel)]
  refine settle_leaf lib _ "targets" (.list (l.map .dict)) (by decide +kernel) ?_ (by simp) (by simp)
  rw [Dict.get?_set_other _ _ _ _ (by decide), Dict.get?_set_self]

theorem appends_target {f : Dict → Res Dict} {v w : Value} {l : List Dict} (hv : entryValue lib f "target" v = .ok w) (hl : newTargets w = .ok l) :
    Appends lib f ("eiTarget", v) [("targets", .list (l.map .dict)), ("targets_by_type", .dict (groupTargetsByType l).toDict)] := by
  have hkey : normalizeKey "eiTarget" = "target" := by decide +kernel
  have hat : isAttribute "eiTarget" = false := by decide +kernel
  intro acc hf
  have h1 : "target" ∉ Dict.keys acc := by rw [← hkey]; exact hf _ (by simp)
  have h2 : "targets" ∉ Dict.keys acc := hf _ (by simp [Dict.keys])
  have h3 : "targets_by_type" ∉ Dict.keys acc := hf _ (by simp [Dict.keys])
  simp only [stepEntry, hat, hkey, hv]
  simp only [Bool.false_eq_true, if_false]
  rw [settle_target lib _ w l (Dict.get?_set_self _ _ _) hl, Dict.set_new _ "target" _ h1, erase_append_single _ _ _ h1, Dict.set_new _ "targets" _ h2,
    Dict.set_new _ "targets_by_type" _ (by simp [keys_append, h3, Dict.keys] at *; exact h3)]
  simp

/-- The targets of an event. -/
theorem carries_eventTargets {ts : List EventTargetP} (hg : ∀ t ∈ ts, t.Good lib)
    (hl : lookup env ["event", "targets"] = .ok (some (.list ((ts.map EventTargetP.dict).map .dict)))) :
    Carries lib (n + 1) env tEventTarget "eiTarget" ["targets", "targets_by_type"]
      [("targets", .list ((targetsReceived ts).map .dict)), ("targets_by_type", .dict (groupsReceived ts))] := by
  have h0 := sure_interfaces (lib := lib) hg hl
  have h1 := sure_targets (lib := lib) (kind := "group_id") (name := "ei:groupID") (key := "groupID") EventTargetP.groupId hl
    (fun t ht => (hg t ht).get.2.1) (fun t ht => (hg t ht).texts ("group_id", EventTargetP.groupId) (by simp [targetKinds]))
  have h2 := sure_targets (lib := lib) (kind := "group_name") (name := "ei:groupName") (key := "groupName") EventTargetP.groupName hl
    (fun t ht => (hg t ht).get.2.2.1) (fun t ht => (hg t ht).texts ("group_name", EventTargetP.groupName) (by simp [targetKinds]))
  have h3 := sure_targets (lib := lib) (kind := "resource_id") (name := "ei:resourceID") (key := "resourceID") EventTargetP.resourceId hl
    (fun t ht => (hg t ht).get.2.2.2.1) (fun t ht => (hg t ht).texts ("resource_id", EventTargetP.resourceId) (by simp [targetKinds]))
  have h4 := sure_targets (lib := lib) (kind := "ven_id") (name := "ei:venID") (key := "venID") EventTargetP.venId hl
    (fun t ht => (hg t ht).get.2.2.2.2.1) (fun t ht => (hg t ht).texts ("ven_id", EventTargetP.venId) (by simp [targetKinds]))
  have h5 := sure_targets (lib := lib) (kind := "party_id") (name := "ei:partyID") (key := "partyID") EventTargetP.partyId hl
    (fun t ht => (hg t ht).get.2.2.2.2.2) (fun t ht => (hg t ht).texts ("party_id", EventTargetP.partyId) (by simp [targetKinds]))
  have hord : ∀ k ∈ targetKinds, ∀ s, ts.filterMap k.2 = [s] → Ordinary lib s := by
    intro k hk s hs
    have hm : s ∈ ts.filterMap k.2 := by simp [hs]
    rw [List.mem_filterMap] at hm
    obtain ⟨t, ht, e⟩ := hm
    exact (hg t ht).texts k hk s e
  rw [← groups_texts, ← targetsOf_texts]
  have hk : ∀ l : List Dict, ∀ k ∈ Dict.keys [("targets", Value.list (l.map .dict)), ("targets_by_type", .dict (groupTargetsByType l).toDict)],
    k ∈ ["targets", "targets_by_type"] := by simp [Dict.keys]
  by_cases hne : targetTexts ts = []
  · rw [hne]
    refine carries_one .none ?_ (by simp) (appends_target (w := .none) ?_ ?_) (hk _)
    · simp only [targetTexts, targetKinds, List.flatMap_cons, List.flatMap_nil, List.append_eq_nil_iff, ite_eq_left_iff, List.cons_ne_nil, imp_false,
        Classical.not_not] at hne
      obtain ⟨e1, e2, e3, e4, e5, -⟩ := hne
      rw [e1] at h1
      rw [e2] at h2
      rw [e3] at h3
      rw [e4] at h4
      rw [e5] at h5
      have f1 : localName "ei:eiTarget" = "eiTarget" := by decide +kernel
      have f2 : attrItem [] = [] := by decide +kernel
      unfold tEventTarget el
      rw [sure]
      simp only [sureAll, h0, h1, h2, h3, h4, h5, List.map_nil, List.append_nil]
      simp [sureKey, f1, f2, elementValue, charsOf, childDict, closeValue, strip]
    · have : durationKeys.contains "target" = false := by decide +kernel
      simp only [entryValue, leafValue, this, Bool.false_eq_true, if_false]
    · rfl
  · refine carries_inside (d := targetTexts ts) (inside_elem (n := n) (.cons (key := "emixInterface") (keys := []) (out := []) ?_
      (.cons (carries_sureTexts "group_id" h1 (hord ("group_id", EventTargetP.groupId) (by simp [targetKinds])))
      (.cons (carries_sureTexts "group_name" h2 (hord ("group_name", EventTargetP.groupName) (by simp [targetKinds])))
      (.cons (carries_sureTexts "resource_id" h3 (hord ("resource_id", EventTargetP.resourceId) (by simp [targetKinds])))
      (.cons (carries_sureTexts "ven_id" h4 (hord ("ven_id", EventTargetP.venId) (by simp [targetKinds])))
      (.cons (carries_sureTexts "party_id" h5 (hord ("party_id", EventTargetP.partyId) (by simp [targetKinds]))) .nil)))))) ?_ hne)
      (fun raw hr => appends_target (w := .dict (targetTexts ts)) ?_ rfl) (hk _)
    · exact ⟨[], by simp [h0, Group.pieces], by simp, by simp [Dict.keys], by simp [wrapVals]⟩
    · simp [targetTexts, targetKinds]
    · simp [entryValue, hr, Except.map]

end Openleadr
