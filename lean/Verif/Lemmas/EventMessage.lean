import Verif.Lemmas.EventTargets
/-!
Events as a whole: the element of the event inside of the element with the wish for a response is flattened, and several events are normalized twice.
-/
namespace Openleadr

variable {lib : Lib} {n : Nat} {env : Dict}

/-! ### Loops whose members are changed once more -/

theorem twice_again {f : Dict → Res Dict} (raws ds es : List Dict) (h : raws.map f = ds.map .ok) (hs : ds.map f = es.map .ok) :
    twice f (raws.map .dict) = .ok (es.map .dict) := by
  induction raws generalizing ds es with
  | nil =>
    cases ds with
    | nil => cases es with
      | nil => rfl
      | cons e es => simp at hs
    | cons d ds => simp at h
  | cons r raws ih =>
    cases ds with
    | nil => simp at h
    | cons d ds =>
      cases es with
      | nil => simp at hs
      | cons e es =>
        simp only [List.map_cons, List.cons.injEq] at h hs
        simp only [List.map_cons, twice, h.1, hs.1, Except.map, ih ds es h.2 hs.2]

/-- A loop over the members of a list, each of which gives one element; several are normalized twice. -/
theorem carries_loopAgain {var : String} {over : List String} {t : Tmpl} {key : String} (key' : String)
    {keys : List String} {out : Dict} {l : List Value} {ds es : List Dict} (hl : lookup env over = .ok (some (.list l))) (len : l.length = ds.length)
    (each : ∀ (i : Nat) x d, l[i]? = some x → ds[i]? = some d → Inside lib n (loopEnv env var i x) t key d)
    (one : ds.length < 2 → es = ds) (again : 2 ≤ ds.length → ds.map (normalize lib n) = es.map .ok) (h0 : ds = [] → out = [])
    (hk : ∀ k ∈ Dict.keys out, k ∈ keys)
    (ha : ds ≠ [] → ∀ v, entryValue lib (normalize lib n) key' v = .ok (wrapDicts es) → Appends lib (normalize lib n) (key, v) out) :
    Carries lib n env (.loop var over [t]) key keys out := by
  obtain ⟨raws, h1, h2⟩ := loop_raws key (fun i x => sureAll lib (loopEnv env var i x) [t]) (normalize lib n) l 0 ds len
    (fun j x d hx hd => by
      obtain ⟨raw, e1, e2⟩ := each j x d hx hd
      exact ⟨raw, by simp [sureAll, e1], e2⟩)
  refine ⟨raws.map .dict, ?_, by simp, hk, ?_⟩
  · simp only [sure, hl, h1, Group.pieces, List.map_map]
    rfl
  · match raws, ds, h2, h0, ha, one, again with
    | [], [], _, h0, _, _, _ => simp only [List.map_nil, wrapVals]; exact h0 rfl
    | [r], [d], h2, _, ha, one, _ =>
      simp only [List.map_cons, List.map_nil, wrapVals]
      apply ha (by simp)
      simp only [List.map_cons, List.map_nil, List.cons.injEq, and_true] at h2
      simp [entryValue, h2, wrapDicts, Except.map, one (by simp)]
    | r :: r' :: raws, d :: d' :: ds, h2, _, ha, _, again =>
      simp only [List.map_cons, wrapVals]
      apply ha (by simp)
      have := twice_again (r :: r' :: raws) (d :: d' :: ds) es h2 (again (by simp))
      simp only [List.map_cons] at this
      have hlen : es.length = ds.length + 2 := by
        have := congrArg List.length (again (by simp))
        simpa using this.symm
      match es, hlen with
      | e :: e' :: es, _ => simp [entryValue, this, wrapDicts, Except.map]
    | [], _ :: _, h2, _, _, _, _ => simp at h2
    | _ :: _, [], h2, _, _, _, _ => simp at h2
    | [_], _ :: _ :: _, h2, _, _, _, _ => simp at h2
    | _ :: _ :: _, [_], h2, _, _, _, _ => simp at h2

/-! ### The event itself -/

theorem settle_inner (lib : Lib) (d p : Dict) (hd : Dict.get? d "event" = some (.dict p)) (he : Dict.has p "event" = false) (h2 : 2 ≤ p.length)
    (hp : Dict.has p "properties" = false) : settle lib d "event" = .ok d := by
  rw [settle_plain lib d "event" (by decide +kernel)]
  have hcur : currentOf d "event" = .dict p := by simp [currentOf, hd]
  have hne : p ≠ [] := by rintro rfl; simp at h2
  unfold arrangeEntry
  simp only [hcur, he]
  unfold unnest
  simp [onlyEntry_many p _ h2, hp, hne]

theorem appends_inner {f : Dict → Res Dict} {key : String} {raw d : Dict} (hr : f raw = .ok d) (he : Dict.has d "event" = false) (h2 : 2 ≤ d.length)
    (hp : Dict.has d "properties" = false) (hkey : normalizeKey key = "event") (hat : isAttribute key = false) :
    Appends lib f (key, .dict raw) [("event", .dict d)] := by
  refine appends_inPlace lib _ key "event" _ (.dict d) _ hkey hat (by simp [entryValue, hr, Except.map]) (fun acc hg => ?_)
  rw [settle_inner lib acc d hg he h2 hp, Dict.set_get?_self _ _ _ hg]

theorem EventP.inner_facts (r : EventP) (several : Bool) : Dict.has (r.inner several) "event" = false ∧ 2 ≤ (r.inner several).length ∧
    Dict.has (r.inner several) "properties" = false ∧ "response_required" ∉ Dict.keys (r.inner several) := by
  unfold EventP.inner EventP.targetEntries
  cases r.targets with
  | none => simp [Dict.has, Dict.get?, Dict.keys]
  | some ts =>
    simp only
    split <;> simp [Dict.has, Dict.get?, Dict.keys]

theorem inside_inner (sound : lib.Sound) {r : EventP} (hr : r.Good lib) (hv : Dict.get? env "event" = some (.dict r.dict)) :
    Inside lib (n + 7) env (el "ei:eiEvent" [
      tEventDescriptor,
      tActivePeriod,
      el "ei:eiEventSignals" [.loop "event_signal" ["event", "event_signals"] [tEventSignal]],
      ifTrue ["event", "report_requests"] [.loop "report_request" ["event", "report_requests"] [.missing]],
      ifGiven ["event", "targets"] [tEventTarget]]) "eiEvent" (r.inner false) := by
  have ht : Carries lib (n + 6) env (ifGiven ["event", "targets"] [tEventTarget]) "eiTarget" ["targets", "targets_by_type"] (r.targetEntries false) := by
    have hl : lookup env ["event", "targets"] = .ok (r.targets.map (fun l => .list ((l.map EventTargetP.dict).map .dict))) := by lkd [hv, EventP.dict]
    unfold EventP.targetEntries
    cases h : r.targets with
    | none =>
      rw [h] at hl
      exact carries_skip _ _ (surely_given hl (by simp))
    | some ts =>
      rw [h] at hl
      exact carries_yes (surely_given hl (by simp)) (carries_eventTargets (hr.targets ts h) hl)
  refine inside_elem (.cons (carries_dict "event_descriptor" (inside_descriptor sound hr.descriptor hv (by simp [EventP.dict, Dict.get?])) r.descriptor.keeps.1 r.descriptor.keeps.2)
    (.cons (carries_active hr.period hv (by simp [EventP.dict, Dict.get?])) (.cons (carries_signals sound hr.signals (by lkd [hv, EventP.dict]))
    (.cons (carries_skip "eiReportRequest" [] (surely_truthy (v := none) (by lkd [hv, EventP.dict]) (by simp))) (.cons ht .nil))))) ?_ ?_
  · simp [EventP.inner]
  · simp [EventP.inner]

/-- The event with the wish for a response around it. -/
def EventP.outer (several : Bool) (r : EventP) : Dict := [("event", .dict (r.inner several)), ("response_required", .str r.response)]

theorem inside_event (sound : lib.Sound) {r : EventP} (hr : r.Good lib) (hv : Dict.get? env "event" = some (.dict r.dict)) :
    Inside lib (n + 8) env tEvent "oadrEvent" (r.outer false) := by
  obtain ⟨h1, h2, h3, -⟩ := r.inner_facts false
  refine inside_elem (.cons (carries_inside (key := "eiEvent") (keys := ["event"]) (out := [("event", .dict (r.inner false))]) (inside_inner sound hr hv)
    (fun raw hr => appends_inner hr h1 h2 h3 (by decide +kernel) (by decide +kernel)) (by simp [Dict.keys]))
    (.cons (carries_text "oadrResponseRequired" "response_required" (s := r.response) (by lkd [hv, EventP.dict]) hr.response) .nil)) rfl (by simp [EventP.outer])

/-! ### The second time -/

theorem settled_received (ts : List EventTargetP) (h : ∀ t ∈ ts, t.Good lib) : ∀ d ∈ targetsReceived ts, Settled lib 1 d := by
  intro d hd
  simp only [targetsReceived, List.mem_flatMap, List.mem_map] at hd
  obtain ⟨k, hk, s, hs, rfl⟩ := hd
  rw [List.mem_filterMap] at hs
  obtain ⟨t, ht, hs⟩ := hs
  have ho := (h t ht).texts k hk s hs
  have hf : (targetKinds.map (·.1)).all (fun k => textKey k && steadyKey k) = true := by decide +kernel
  have hk' := List.all_eq_true.mp hf k.1 (List.mem_map_of_mem hk)
  simp only [Bool.and_eq_true] at hk'
  exact settled_of (ks := [k.1]) (.cons (settled_text 0 ho hk'.1 hk'.2) .nil) (by simp)

theorem settled_groups (ts : List EventTargetP) : Settled lib 1 (groupsReceived ts) := by
  have e : ∀ (k : String), groupsReceived ts = entry? "group_id" (if ts.filterMap EventTargetP.groupId = [] then none else some (.list ((ts.filterMap EventTargetP.groupId).map .str))) ++
    (entry? "group_name" (if ts.filterMap EventTargetP.groupName = [] then none else some (.list ((ts.filterMap EventTargetP.groupName).map .str))) ++
    (entry? "resource_id" (if ts.filterMap EventTargetP.resourceId = [] then none else some (.list ((ts.filterMap EventTargetP.resourceId).map .str))) ++
    (entry? "ven_id" (if ts.filterMap EventTargetP.venId = [] then none else some (.list ((ts.filterMap EventTargetP.venId).map .str))) ++
    entry? "party_id" (if ts.filterMap EventTargetP.partyId = [] then none else some (.list ((ts.filterMap EventTargetP.partyId).map .str)))))) := by
    have : ∀ (k : String) (ss : List String), (if ss = [] then [] else [(k, Value.list (ss.map .str))]) = entry? k (if ss = [] then none else some (.list (ss.map .str))) := by
      intro k ss; split <;> rfl
    intro _
    simp only [groupsReceived, targetKinds, List.flatMap_cons, List.flatMap_nil, List.append_nil, this]
  rw [e ""]
  have hs : ∀ (k : String) (ss : List String), steadyList k = true → ∀ x, (if ss = [] then none else some (Value.list (ss.map .str))) = some x →
      SettledEntry lib 0 k x := by
    intro k ss hk x hx
    split at hx
    · simp at hx
    · simp only [Option.some.injEq] at hx
      subst hx
      exact settled_leaves 0 (by simp) hk
  exact settled_of (ks := ["group_id", "group_name", "resource_id", "ven_id", "party_id"]) (.opt (hs _ _ (by decide +kernel)) (.opt (hs _ _ (by decide +kernel))
    (.opt (hs _ _ (by decide +kernel)) (.opt (hs _ _ (by decide +kernel)) (.last (hs _ _ (by decide +kernel)))))))

theorem keeps_groups (ts : List EventTargetP) (hne : groupsReceived ts ≠ []) : Keeps "targets_by_type" (groupsReceived ts) := by
  have hkeys : ∀ k ∈ Dict.keys (groupsReceived ts), k ∈ targetKinds.map (·.1) := by
    intro k hk
    simp only [Dict.keys, groupsReceived, List.mem_map, List.mem_flatMap] at hk
    obtain ⟨e, ⟨k', hk', he⟩, rfl⟩ := hk
    split at he
    · simp at he
    · simp only [List.mem_singleton] at he
      subst he
      exact List.mem_map_of_mem hk'
  match hg : groupsReceived ts, hne, hkeys with
  | [(k, x)], _, hkeys =>
    refine .inr ⟨k, x, rfl, ?_⟩
    have hf : (targetKinds.map (·.1)).all (fun k => !(hollow "targets_by_type" k)) = true := by decide +kernel
    simpa using List.all_eq_true.mp hf k (hkeys k (by simp [Dict.keys]))
  | e :: e' :: d, _, hkeys =>
    refine .inl ⟨by simp, ?_⟩
    rw [Dict.has, Option.isSome_eq_false_iff, Option.isNone_iff_eq_none, Dict.get?_none]
    intro hm
    have := hkeys _ hm
    revert this
    decide +kernel

/-- The entries before the grouping of the targets. -/
theorem settles_inner (sound : lib.Sound) {r : EventP} (hr : r.Good lib) : Settles lib 3 ["event_descriptor", "active_period", "event_signals", "targets"]
    ([("event_descriptor", .dict r.descriptor.received), ("active_period", .dict r.period.received),
      ("event_signals", listed (upToFirst SignalP.raw SignalP.done r.signals))] ++
      entry? "targets" (r.targets.map (fun ts => .list ((targetsReceived ts).map .dict)))) := by
  simp only [List.nil_append, List.cons_append]
  refine .cons ((settled_dict (settled_descriptor hr.descriptor) (.inl r.descriptor.keeps)).mono (by omega))
    (.cons ((settled_dict (settled_active) (.inl r.period.keeps)).mono (by omega))
    (.cons (settled_signals sound hr.signals) (.last (fun x hx => ?_))))
  simp only [Option.map_eq_some_iff] at hx
  obtain ⟨ts, ht, rfl⟩ := hx
  exact (settled_dicts (settled_received ts (hr.targets ts ht))).mono (by omega)

theorem Settles.append {m : Nat} {ks ks' : List String} {d d' : Dict} (h : Settles lib m ks d) (h' : Settles lib m ks' d') :
    Settles lib m (ks ++ ks') (d ++ d') := by
  induction h with
  | nil => exact h'
  | cons a _ ih => exact .cons a ih
  | opt a _ ih => rw [List.append_assoc]; exact .opt a ih

/-- An empty dict is removed. -/
theorem step_emptyGroups (f : Dict → Res Dict) (hf : f [] = .ok []) (acc : Dict) (h : "targets_by_type" ∉ Dict.keys acc) :
    stepEntry lib f acc ("targets_by_type", .dict []) = .ok acc := by
  have hkey : normalizeKey "targets_by_type" = "targets_by_type" := by decide +kernel
  have hat : isAttribute "targets_by_type" = false := by decide +kernel
  have hn : nestKey "targets_by_type" = true := by decide +kernel
  have hv : entryValue lib f "targets_by_type" (.dict []) = .ok (.dict []) := by simp [entryValue, hf, Except.map]
  simp only [stepEntry, hat, hkey, hv]
  simp only [Bool.false_eq_true, if_false]
  rw [settle_nest lib _ "targets_by_type" [] hn (Dict.get?_set_self _ _ _), Dict.set_new _ _ _ h]
  simp only [unnest, onlyEntry]
  simp [Dict.has, Dict.get?, erase_append_single _ _ _ h]

theorem again_inner (sound : lib.Sound) {r : EventP} (hr : r.Good lib) (m : Nat) (hm : 4 ≤ m) : normalize lib m (r.inner false) = .ok (r.inner true) := by
  have hb := settles_inner sound hr
  unfold EventP.inner EventP.targetEntries
  cases ht : r.targets with
  | none =>
    rw [ht] at hb
    exact settled_of hb (by decide +kernel) m hm
  | some ts =>
    rw [ht] at hb
    simp only [Option.map_some, entry?] at hb
    by_cases hg : groupsReceived ts = []
    · obtain ⟨m, rfl⟩ : ∃ k, m = k + 1 := ⟨m - 1, by omega⟩
      have h1 := settled_of hb (by decide +kernel) (m + 1) hm
      simp only [normalize] at h1 ⊢
      simp only [hg, Bool.false_eq_true, false_and, if_false, if_true, and_self, List.append_nil]
      rw [← List.append_assoc, normalizeEntries_append]
      cases h2 : normalizeEntries lib (normalize lib m) [] ([("event_descriptor", .dict r.descriptor.received), ("active_period", .dict r.period.received),
          ("event_signals", listed (upToFirst SignalP.raw SignalP.done r.signals))] ++ [("targets", .list ((targetsReceived ts).map .dict))]) with
      | error e => rw [h2] at h1; simp at h1
      | ok acc =>
        rw [h2] at h1
        simp only [Except.ok.injEq] at h1
        subst h1
        simp only [normalizeEntries_cons]
        obtain ⟨m, rfl⟩ : ∃ k, m = k + 1 := ⟨m - 1, by omega⟩
        rw [step_emptyGroups (normalize lib (m + 1)) rfl _ (by simp [Dict.keys])]
        rfl
    · have hs : Settles lib 3 ["event_descriptor", "active_period", "event_signals", "targets", "targets_by_type"]
          ([("event_descriptor", .dict r.descriptor.received), ("active_period", .dict r.period.received),
            ("event_signals", listed (upToFirst SignalP.raw SignalP.done r.signals))] ++
            ([("targets", .list ((targetsReceived ts).map .dict))] ++ [("targets_by_type", .dict (groupsReceived ts))])) := by
        rw [← List.append_assoc]
        exact hb.append (.cons ((settled_dict (settled_groups ts) (keeps_groups ts hg)).mono (by omega)) .nil)
      simp only [hg, and_false, if_false]
      exact settled_of hs (by decide +kernel) m hm

theorem again_outer (sound : lib.Sound) {r : EventP} (hr : r.Good lib) (m : Nat) (hm : 5 ≤ m) : normalize lib m (r.outer false) = .ok (r.outer true) := by
  obtain ⟨m, rfl⟩ : ∃ k, m = k + 1 := ⟨m - 1, by omega⟩
  obtain ⟨h1, h2, h3, -⟩ := r.inner_facts true
  have ha := appends_inner (lib := lib) (key := "event") (again_inner sound hr m (by omega)) h1 h2 h3 (by decide +kernel) (by decide +kernel) [] (by simp [Fresh, Dict.keys])
  have ht := (settled_text (k := "response_required") 0 hr.response).2 m (by omega) [("event", .dict (r.inner true))] (by
    intro k hk
    have : normalizeKey "response_required" = "response_required" := by decide +kernel
    simp only [this, Dict.keys, List.map_cons, List.map_nil, List.mem_cons, List.not_mem_nil, or_false, or_self] at hk ⊢
    subst hk
    decide)
  simp only [List.nil_append] at ha
  simp only [normalize, EventP.outer, normalizeEntries_cons, ha, ht]
  rfl

/-! ### All events -/

theorem flatEvent_outer (several : Bool) (r : EventP) : flatEvent (.dict (r.outer several)) = .ok (.dict (r.received several)) := by
  obtain ⟨-, -, -, h⟩ := r.inner_facts several
  simp [flatEvent, EventP.outer, entryAt, Dict.get?, withEntry, Dict.set_new _ _ _ h, EventP.received]

theorem flatEvents_outer (several : Bool) (rs : List EventP) :
    flatEvents ((rs.map (EventP.outer several)).map .dict) = .ok ((rs.map (EventP.received several)).map .dict) := by
  induction rs with
  | nil => rfl
  | cons r rs ih =>
    simp only [List.map_cons, flatEvents, flatEvent_outer]
    rw [ih]

theorem settle_events (lib : Lib) (several : Bool) (d : Dict) (rs : List EventP) (hne : rs ≠ [])
    (hd : Dict.get? d "event" = some (wrapDicts (rs.map (EventP.outer several)))) :
    settle lib d "event" = .ok (Dict.set (Dict.erase d "event") "events" (.list ((rs.map (EventP.received several)).map .dict))) := by
  rw [settle_plain lib d "event" (by decide +kernel)]
  have hcur : currentOf d "event" = wrapDicts (rs.map (EventP.outer several)) := by simp [currentOf, hd]
  unfold arrangeEntry
  match rs, hne, hcur with
  | [r], _, hcur =>
    simp only [List.map_cons, List.map_nil, wrapDicts] at hcur
    have he : Dict.has (r.outer several) "event" = true := by simp [EventP.outer, Dict.has, Dict.get?]
    simp [hcur, he, flatEvent_outer]
  | r :: r' :: rs, _, hcur =>
    simp only [List.map_cons, wrapDicts] at hcur
    have := flatEvents_outer several (r :: r' :: rs)
    simp only [List.map_cons] at this
    simp only [List.map_map] at this
    simp [hcur, asListV, this]

theorem carries_events (sound : lib.Sound) {rs : List EventP} (hr : ∀ r ∈ rs, r.Good lib)
    (hl : lookup env ["events"] = .ok (some (.list ((rs.map EventP.dict).map .dict)))) :
    Carries lib (n + 8) env (.loop "event" ["events"] [tEvent]) "oadrEvent" ["events"]
      (entry? "events" (dicts? (rs.map (EventP.received (decide (2 ≤ rs.length)))))) := by
  refine carries_loopAgain "event" (ds := rs.map (EventP.outer false)) (es := rs.map (EventP.outer (decide (2 ≤ rs.length)))) hl (by simp) (fun i x d hx hd => ?_)
    (fun h => ?_) (fun h => ?_) (fun h => ?_) (fun k hk => by rw [keys_entry? hk]; simp) (fun hne v hv => ?_)
  · simp only [List.getElem?_map, Option.map_eq_some_iff] at hx hd
    obtain ⟨a, ⟨r, h1, rfl⟩, rfl⟩ := hx
    obtain ⟨r', h1', rfl⟩ := hd
    obtain rfl : r = r' := Option.some.inj (h1.symm.trans h1')
    exact inside_event sound (hr r (List.mem_of_getElem? h1)) (by simp [loopEnv, Dict.get?])
  · simp only [List.length_map] at h
    simp only [show ¬ 2 ≤ rs.length by omega, decide_false]
  · simp only [List.length_map] at h
    simp only [h, decide_true, List.map_map]
    exact List.map_congr_left (fun r hm => again_outer sound (hr r hm) _ (by omega))
  · simp only [List.map_eq_nil_iff] at h
    subst h
    rfl
  · have hne' : rs ≠ [] := by simpa using hne
    have : dicts? (rs.map (EventP.received (decide (2 ≤ rs.length)))) = some (.list ((rs.map (EventP.received (decide (2 ≤ rs.length)))).map .dict)) := by
      simp [dicts?, hne']
    rw [this]
    refine appends_rename lib _ "oadrEvent" "event" "events" v _ _ (by decide +kernel) (by decide +kernel) hv (fun d hd => ?_)
    exact settle_events lib _ d rs hne' hd

theorem carries_response? (sound : lib.Sound) {r : Option ResponseP} (hr : ∀ x, r = some x → x.Good lib)
    (hl : Dict.get? env "response" = r.map (fun x => .dict x.dict)) :
    Carries lib (n + 1) env (ifGiven ["response"] [eiResponse]) "eiResponse" ["response"] (entry? "response" (r.map (fun x => .dict x.dict))) := by
  refine carries_there (v := r.map (fun x => .dict x.dict)) (by simpa [lookup, walk] using hl) (fun y hy => ?_) (fun e => e)
  cases hx : r with
  | none => simp [hx] at hy
  | some x =>
    rw [hx] at hl hy
    simp only [Option.map_some, Option.some.injEq] at hy
    subst hy
    exact ⟨by simp, carries_response sound (hr x hx) hl⟩

end Openleadr
