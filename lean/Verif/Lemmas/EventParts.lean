import Verif.Lemmas.Reports
import Verif.Spec.EventPayloads
/-!
Events: descriptors, periods and signals.
-/
namespace Openleadr

variable {lib : Lib} {n : Nat} {env : Dict}

/-! ### Descriptors -/

theorem carries_date? {name : String} (key key' : String) {path : List String} {attrs : List (String × String)} {d : Option Int}
    (hl : lookup env path = .ok (date? d)) (hd : ∀ x, d = some x → Datable x)
    (hk : (!(durationKeys.contains key') && isDateKey key') = true := by decide +kernel)
    (hf : leafFacts name attrs key key' = true := by decide +kernel) :
    Carries lib n env (ifGiven path [leaf name path .datetimeformat attrs]) key [key'] (entry? key' (date? d)) := by
  refine carries_given key key' hl (fun y hy => ?_) hf
  simp only [date?, Option.map_eq_some_iff] at hy
  obtain ⟨x, hx, rfl⟩ := hy
  exact wired_datetime (hd x hx) hk

theorem carries_priority (sound : lib.Sound) {path : List String} {i : Option Int} (hl : lookup env path = .ok (some ((int? i).getD .none))) :
    Carries lib n env (.cond (.notNone path) [leaf "ei:priority" path] []) "priority" ["priority"] (entry? "priority" (int? i)) := by
  cases i with
  | none => exact carries_skip _ _ (by simp [surely, hl, int?])
  | some i =>
    have hl' : lookup env path = .ok (some (.int i)) := hl
    exact carries_yes (by simp [surely, hl']) (carries_int sound "priority" "priority" hl')

theorem inside_descriptor (sound : lib.Sound) {r : DescriptorP} (hr : r.Good lib) {e : Dict} (hv : Dict.get? env "event" = some (.dict e))
    (he : Dict.get? e "event_descriptor" = some (.dict r.dict)) : Inside lib (n + 2) env tEventDescriptor "eventDescriptor" r.received := by
  refine inside_elem (.cons (carries_text "eventID" "event_id" (s := r.eventId) (by lkd [hv, he, DescriptorP.dict]) hr.eventId)
    (.cons (carries_int sound "modificationNumber" "modification_number" (i := r.modification) (by lkd [hv, he, DescriptorP.dict]))
    (.cons (carries_date? "modificationDateTime" "modification_date_time" (d := r.modified) (by lkd [hv, he, DescriptorP.dict]) hr.modified)
    (.cons (carries_text? "modificationReason" "modification_reason" (s := r.reason) (by lkd [hv, he, DescriptorP.dict]) hr.reason)
    (.cons (carries_priority sound (i := r.priority) (by lkd [hv, he, DescriptorP.dict]))
    (.cons (carries_nested "market_context" (key := "eiMarketContext") (inside_elem (.cons (carries_text "marketContext" "market_context" (s := r.marketContext)
      (by lkd [hv, he, DescriptorP.dict]) hr.marketContext) .nil) rfl (by simp)))
    (.cons (carries_date "createdDateTime" "created_date_time" (us := r.created) (by lkd [hv, he, DescriptorP.dict]) hr.created)
    (.cons (carries_text "eventStatus" "event_status" (s := r.status) (by lkd [hv, he, DescriptorP.dict]) hr.status)
    (.cons (carries_opt (key := "testEvent") (key' := "test_event") (v := bool? r.test) (by lkd [hv, he, DescriptorP.dict]) (fun y hy => ?_))
    (.cons (carries_text? "vtnComment" "vtn_comment" (s := r.comment) (by lkd [hv, he, DescriptorP.dict]) hr.comment) .nil)))))))))) ?_ ?_
  · simp only [bool?, Option.map_eq_some_iff] at hy
    obtain ⟨b, hb, rfl⟩ := hy
    exact ⟨by simp, carries_test b (by lkd [hv, he, DescriptorP.dict, hb, bool?])⟩
  · simp [DescriptorP.received]
  · simp [DescriptorP.received]

theorem settled_descriptor {r : DescriptorP} (h : r.Good lib) : Settled lib 1 r.received := by
  have h1 : Settles lib 0 ["event_id", "modification_number", "modification_date_time", "modification_reason", "priority", "market_context",
      "created_date_time", "event_status", "test_event", "vtn_comment"] r.received := by
    simp only [DescriptorP.received, List.nil_append, List.cons_append, List.append_assoc]
    refine .cons (settled_text 0 h.eventId) (.cons (settled_int 0) (.opt (settled_date? 0) (.opt (settled_text? 0 h.reason) (.opt (settled_int? 0)
      (.cons (settled_text 0 h.marketContext) (.cons (settled_other 0 (by simp [isLeaf])) (.cons (settled_text 0 h.status)
      (.opt (fun x hx => ?_) (.last (settled_text? 0 h.comment))))))))))
    simp only [bool?, Option.map_eq_some_iff] at hx
    obtain ⟨b, -, rfl⟩ := hx
    exact settled_test 0
  exact settled_of h1

theorem DescriptorP.keeps (r : DescriptorP) : 2 ≤ r.received.length ∧ Dict.has r.received "properties" = false := by
  constructor
  · simp [DescriptorP.received]
  · simp [DescriptorP.received, Dict.has, Dict.get?, Dict.get?_append, Dict.get?_entry?]

/-! ### Periods -/

/-- What has to be checked of the name of an element that is renamed. -/
def shortFacts (key key' key'' : String) : Bool :=
  decide (normalizeKey key = key') && !(isAttribute key) && "x_ei_".toList.isPrefixOf key'.toList && decide (String.ofList (key'.toList.drop 5) = key'') &&
    nestKey key''

theorem settle_short (d : Dict) (k k' : String) (x : Value) (hk : "x_ei_".toList.isPrefixOf k.toList = true) (hk' : String.ofList (k.toList.drop 5) = k')
    (hn : nestKey k' = true) (hd : Dict.get? d k = some (.dict [("duration", x)])) :
    settle lib d k = .ok (Dict.set (Dict.set (Dict.erase d k) k' (.dict [("duration", x)])) k' x) := by
  have h1 : settle lib (Dict.set (Dict.erase d k) k' (.dict [("duration", x)])) k' = .ok (Dict.set (Dict.set (Dict.erase d k) k' (.dict [("duration", x)])) k' x) := by
    rw [settle_nest lib _ k' _ hn (Dict.get?_set_self _ _ _)]
    simp [unnest, onlyEntry]
  rw [← h1]
  have hx : "x_ei_".toList.isPrefixOf k'.toList = false := by
    simp only [nestKey, plainKey, Bool.and_eq_true, Bool.not_eq_true'] at hn
    exact hn.1.1
  simp only [settle, renameEntry, hk, hk', hx, if_true, Bool.false_eq_true, if_false, currentOf, hd, Option.getD_some]

theorem carries_short {outer inner : String} (key key' key'' : String) {path : List String} {attrs attrs' : List (String × String)} {us : Int}
    (hl : lookup env path = .ok (some (.timedelta us))) (hd : Spans us) (h0 : localName outer = key := by decide +kernel)
    (h1 : leafFacts inner attrs' "duration" "duration" = true := by decide +kernel)
    (h2 : elemFacts attrs [("duration", ["duration"])] = true := by decide +kernel) (hf : shortFacts key key' key'' = true := by decide +kernel) :
    Carries lib (n + 1) env (el outer [leaf inner path .timedeltaformat attrs'] attrs) key [key''] [(key'', .timedelta us)] := by
  simp only [shortFacts, Bool.and_eq_true, decide_eq_true_eq, Bool.not_eq_true'] at hf
  obtain ⟨⟨⟨⟨f1, f2⟩, f3⟩, f4⟩, f5⟩ := hf
  refine carries_inside (inside_elem (.cons (carries_span "duration" "duration" hl hd (by decide +kernel) h1) .nil) rfl (by simp) h0 h2) (fun raw hr => ?_)
    (by simp [Dict.keys])
  intro acc hfr
  have g1 : key' ∉ Dict.keys acc := by rw [← f1]; exact hfr _ (by simp)
  have g2 : key'' ∉ Dict.keys acc := hfr _ (by simp [Dict.keys])
  have hv : entryValue lib (normalize lib (n + 1)) key' (.dict raw) = .ok (.dict [("duration", .timedelta us)]) := by
    simp [entryValue, hr, Except.map]
  simp only [stepEntry, f2, f1, hv, Bool.false_eq_true, if_false]
  rw [settle_short _ key' key'' _ f3 f4 f5 (Dict.get?_set_self _ _ _), Dict.set_new _ key' _ g1, erase_append_single _ _ _ g1, Dict.set_new _ key'' _ g2]
  have : ∀ (d : Dict) (v w : Value), key'' ∉ Dict.keys d → Dict.set (d ++ [(key'', v)]) key'' w = d ++ [(key'', w)] := by
    intro d v w h
    induction d with
    | nil => simp [Dict.set]
    | cons e d ih =>
      simp only [Dict.keys, List.map_cons, List.mem_cons, not_or] at h
      simp [Dict.set, Ne.symm h.1, ih h.2]
  rw [this _ _ _ g2]

theorem carries_shortTrue {outer inner : String} (key key' key'' : String) {path : List String} {attrs attrs' : List (String × String)} {us : Option Int}
    (hl : lookup env path = .ok (span? us)) (hd : ∀ d, us = some d → Spans d) (h0 : localName outer = key := by decide +kernel)
    (h1 : leafFacts inner attrs' "duration" "duration" = true := by decide +kernel)
    (h2 : elemFacts attrs [("duration", ["duration"])] = true := by decide +kernel) (hf : shortFacts key key' key'' = true := by decide +kernel) :
    Carries lib (n + 1) env (ifTrue path [el outer [leaf inner path .timedeltaformat attrs'] attrs]) key [key''] (entry? key'' (span? (nonzero? us))) := by
  cases us with
  | none => exact carries_skip _ _ (surely_truthy hl (by simp [span?]))
  | some d =>
    have hl' : lookup env path = .ok (some (.timedelta d)) := hl
    by_cases e : d = 0
    · subst e
      exact carries_skip _ _ (by simp [surely, hl', Value.truthy])
    · have : nonzero? (some d) = some d := by simp [nonzero?, e]
      rw [this]
      exact carries_yes (by simp [surely, hl', Value.truthy, e]) (carries_short key key' key'' hl' (hd d rfl) h0 h1 h2 hf)

theorem carries_active {r : ActiveP} (hr : r.Good) {e : Dict} (hv : Dict.get? env "event" = some (.dict e))
    (he : Dict.get? e "active_period" = some (.dict r.dict)) :
    Carries lib (n + 4) env tActivePeriod "eiActivePeriod" ["active_period"] [("active_period", .dict r.received)] := by
  refine carries_properties "active_period" (rest := [("components", .none)]) (inside_elem (.cons (carries_dict "properties" (key := "properties") (d := r.received)
    (inside_elem
      (.cons (carries_dateIn "dtstart" "dtstart" (us := r.start) (by lkd [hv, he, ActiveP.dict]) hr.start)
      (.cons (carries_spanIn "duration" "duration" (us := r.duration) (by lkd [hv, he, ActiveP.dict]) hr.duration)
      (.cons (carries_truth (key := "tolerance") (key' := "tolerance") (v := r.tolerance.map (fun d => .dict [("startafter", .timedelta d)]))
        (w := r.tolerance.map (fun d => .dict [("tolerate", .dict [("startafter", .timedelta d)])])) (by lkd [hv, he, ActiveP.dict]) (fun y hy => ?_) (by cases r.tolerance <;> simp))
      (.cons (carries_shortTrue "x-eiNotification" "x_ei_notification" "notification" (us := r.notification) (by lkd [hv, he, ActiveP.dict]) hr.notification)
      (.cons (carries_shortTrue "x-eiRampUp" "x_ei_ramp_up" "ramp_up" (us := r.rampUp) (by lkd [hv, he, ActiveP.dict]) hr.rampUp)
      (.cons (carries_shortTrue "x-eiRecovery" "x_ei_recovery" "recovery" (us := r.recovery) (by lkd [hv, he, ActiveP.dict]) hr.recovery) .nil))))))
      (by simp [ActiveP.received]) (by simp [ActiveP.received])) ?_ ?_) (.cons (carries_empty "components" "components") .nil)) (by simp) (by simp))
    (by simp)
  · simp only [Option.map_eq_some_iff] at hy
    obtain ⟨d, hd, rfl⟩ := hy
    refine ⟨by simp [Value.truthy], ?_⟩
    simp only [hd, Option.map_some, entry?]
    exact carries_single "tolerance" (inside_elem (.cons (carries_single "tolerate" (key := "tolerate") (k := "startafter") (x := .timedelta d) (inside_elem (.cons
      (carries_span "startafter" "startafter" (us := d) (by lkd [hv, he, ActiveP.dict, hd]) (hr.tolerance d hd)) .nil) (by simp) (by simp))) .nil) (by simp) (by simp))
  · simp [ActiveP.received]
  · simp [ActiveP.received, Dict.has, Dict.get?, Dict.get?_append, Dict.get?_entry?]

theorem settled_active {r : ActiveP} : Settled lib 3 r.received := by
  have h1 : Settles lib 2 ["dtstart", "duration", "tolerance", "notification", "ramp_up", "recovery"] r.received := by
    simp only [ActiveP.received, List.nil_append, List.cons_append, List.append_assoc]
    refine .cons (settled_other 2 (by simp [isLeaf])) (.cons (settled_duration 2) (.opt (fun x hx => ?_) (.opt (settled_spanOther? 2)
      (.opt (settled_spanOther? 2) (.last (settled_spanOther? 2))))))
    simp only [Option.map_eq_some_iff] at hx
    obtain ⟨d, -, rfl⟩ := hx
    exact settled_dict (settled_of (ks := ["tolerate"]) (.cons (settled_dict (settled_of (ks := ["startafter"]) (.cons (settled_duration 0) .nil))
      (.inr ⟨_, _, rfl, by decide +kernel⟩)) .nil)) (.inr ⟨_, _, rfl, by decide +kernel⟩)
  exact settled_of h1

theorem ActiveP.keeps (r : ActiveP) : 2 ≤ r.received.length ∧ Dict.has r.received "properties" = false := by
  constructor
  · simp [ActiveP.received]
  · simp [ActiveP.received, Dict.has, Dict.get?, Dict.get?_append, Dict.get?_entry?]

/-! ### Signals -/

/-- A part that is written if it is there. -/
theorem carries_there {t : Tmpl} {key key' : String} {path : List String} {v w : Option Value}
    (hl : lookup env path = .ok v) (hv : ∀ y, v = some y → y ≠ .none ∧ Carries lib n env t key [key'] (entry? key' w)) (hw : v = none → w = none) :
    Carries lib n env (ifGiven path [t]) key [key'] (entry? key' w) := by
  cases v with
  | none =>
    rw [hw rfl]
    exact carries_skip _ _ (surely_given hl (by simp))
  | some v =>
    obtain ⟨h1, h2⟩ := hv v rfl
    exact carries_yes (surely_given hl (by simp [h1])) h2

theorem inside_interval (sound : lib.Sound) {r : IntervalP} (hr : r.Good lib) {i : Nat} (hv : Dict.get? env "interval" = some (.dict r.dict))
    (hi : lookup env ["loop", "index0"] = .ok (some (.int i))) :
    Inside lib (n + 3) env (el "ei:interval" [
          ifGiven ["interval", "dtstart"] [el "xcal:dtstart" [leaf "xcal:date-time" ["interval", "dtstart"] .datetimeformat]],
          ifGiven ["interval", "duration"] [el "xcal:duration" [leaf "xcal:duration" ["interval", "duration"] .timedeltaformat]],
          el "uid" [leaf "text" ["loop", "index0"]] [("xmlns", nsXcal)],
          el "ei:signalPayload" [el "ei:payloadFloat" [leaf "ei:value" ["interval", "signal_payload"]]]]) "interval" (r.received i) := by
  refine inside_elem (.cons (carries_dateIn? "dtstart" "dtstart" (us := r.start) (by lkd [hv, IntervalP.dict]) hr.start)
    (.cons (carries_spanIn? "duration" "duration" (us := r.duration) (by lkd [hv, IntervalP.dict]) hr.duration)
    (.cons (carries_uid sound hi) (.cons (carries_signal sound "signalPayload" "signal_payload" (by lkd [hv, IntervalP.dict]) hr.number) .nil)))) ?_ ?_
  · simp [IntervalP.received]
  · simp [IntervalP.received]

theorem settled_interval {r : IntervalP} (i : Nat) : Settled lib 1 (r.received i) := by
  have h1 : Settles lib 0 ["dtstart", "duration", "uid", "signal_payload"] (r.received i) := by
    simp only [IntervalP.received, List.append_assoc]
    exact .opt (settled_date? 0) (.opt (settled_span? 0) (.cons (settled_int 0) (.cons (settled_other 0 (by simp [isLeaf])) .nil)))
  exact settled_of h1

theorem keeps_interval {r : IntervalP} (i : Nat) : Keeps "interval" (r.received i) := by
  refine .inl ⟨?_, ?_⟩
  · simp [IntervalP.received]
    omega
  · simp [IntervalP.received, Dict.has, Dict.get?, Dict.get?_append, Dict.get?_entry?]

theorem carries_intervals (sound : lib.Sound) {rs : List IntervalP} (hr : ∀ r ∈ rs, r.Good lib)
    (hl : lookup env ["event_signal", "intervals"] = .ok (some (.list ((rs.map IntervalP.dict).map .dict)))) :
    Carries lib (n + 4) env (el "strm:intervals" [
      .loop "interval" ["event_signal", "intervals"] [
        el "ei:interval" [
          ifGiven ["interval", "dtstart"] [el "xcal:dtstart" [leaf "xcal:date-time" ["interval", "dtstart"] .datetimeformat]],
          ifGiven ["interval", "duration"] [el "xcal:duration" [leaf "xcal:duration" ["interval", "duration"] .timedeltaformat]],
          el "uid" [leaf "text" ["loop", "index0"]] [("xmlns", nsXcal)],
          el "ei:signalPayload" [el "ei:payloadFloat" [leaf "ei:value" ["interval", "signal_payload"]]]]]]
      [("xmlns:strm", nsStrm), ("xmlns:xcal", nsXcal)]) "intervals" ["intervals"] [("intervals", listed (rs.mapIdx IntervalP.received))] := by
  by_cases hne : rs = []
  · subst hne
    refine carries_void "intervals" "intervals" ?_
    simp [sureAll, sure, hl, eachPiece]
  · have hne' : rs.mapIdx IntervalP.received ≠ [] := by simpa using hne
    rw [listed, if_neg hne', ← asListV_wrap]
    refine carries_plural "intervals" "interval" (inside_elem (.cons (carries_wrap (key := "interval") "interval" hl (ds := rs.mapIdx IntervalP.received) (by simp)
        (fun i x d hx hd => ?_) (fun d hd => ?_) hne' (fun d hd => ?_)) .nil) rfl (by simp))
    · simp only [List.getElem?_map, List.getElem?_mapIdx, Option.map_eq_some_iff] at hx hd
      obtain ⟨a, ⟨r, h1, rfl⟩, rfl⟩ := hx
      obtain ⟨r', h1', rfl⟩ := hd
      obtain rfl : r = r' := Option.some.inj (h1.symm.trans h1')
      exact inside_interval sound (hr r (List.mem_of_getElem? h1)) (by simp [loopEnv, Dict.get?]) (by lk)
    · simp only [List.mem_mapIdx] at hd
      obtain ⟨i, hi, rfl⟩ := hd
      exact settled_interval i _ (by omega)
    · simp only [List.mem_mapIdx] at hd
      obtain ⟨i, hi, rfl⟩ := hd
      exact keeps_interval i

theorem SignalP.raw_eq (r : SignalP) : r.raw = r.before ++ measurementEntry r.measurement ++ r.after := by
  cases h : r.measurement <;> simp [SignalP.raw, measurementEntry, h]

theorem inside_signal (sound : lib.Sound) {r : SignalP} (hr : r.Good lib) (hv : Dict.get? env "event_signal" = some (.dict r.dict)) :
    Inside lib (n + 5) env tEventSignal "eiEventSignal" r.raw := by
  have hf : elemFacts [] [("intervals", ["intervals"]), ("signalName", ["signal_name"]), ("signalType", ["signal_type"]), ("signalID", ["signal_id"]),
      (measurementKey r.measurement, [measurementKey r.measurement]), ("currentValue", ["current_value"])] = true :=
    for_measurements (P := fun k => elemFacts [] [("intervals", ["intervals"]), ("signalName", ["signal_name"]), ("signalType", ["signal_type"]),
      ("signalID", ["signal_id"]), (k, [k]), ("currentValue", ["current_value"])]) (by decide +kernel) (measurementKey_mem hr.measurement)
  refine inside_elem (.cons (carries_intervals sound hr.intervals (by lkd [hv, SignalP.dict]))
    (.cons (carries_text "signalName" "signal_name" (s := r.name) (by lkd [hv, SignalP.dict]) hr.name)
    (.cons (carries_text "signalType" "signal_type" (s := r.type) (by lkd [hv, SignalP.dict]) hr.type)
    (.cons (carries_text "signalID" "signal_id" (s := r.id) (by lkd [hv, SignalP.dict]) hr.id)
    (.cons (carries_measurement sound hr.measurement hv (by lkd [SignalP.dict]))
    (.cons (carries_there (key := "currentValue") (key' := "current_value") (v := r.current.map (·.1)) (w := r.current.map (fun c => .float c.2))
      (by lkd [hv, SignalP.dict]) (fun y hy => ?_) (by cases r.current <;> simp)) .nil)))))) ?_ ?_ (by decide +kernel) hf
  · simp only [Option.map_eq_some_iff] at hy
    obtain ⟨⟨v, x⟩, hc, rfl⟩ := hy
    have ha : AsFloat lib v x := hr.current _ hc
    refine ⟨by cases ha <;> simp, ?_⟩
    simp only [hc, Option.map_some, entry?]
    exact carries_signal sound "currentValue" "current_value" (by lkd [hv, SignalP.dict, hc]) ha
  · rw [r.raw_eq]
    simp [SignalP.before, SignalP.after]
  · simp [r.raw_eq, SignalP.before]

theorem settled_listed {m : Nat} {k : String} {ds : List Dict} (h : ∀ d ∈ ds, Settled lib m d) (hd : durationKeys.contains k = false := by decide +kernel)
    (hf : steadyList k = true := by decide +kernel) : SettledEntry lib m k (listed ds) := by
  unfold listed
  split
  · refine settled_other m (by simp [isLeaf]) hd ?_
    simp only [steadyList, Bool.and_eq_true] at hf
    exact hf.1
  · exact settled_dicts h hf

theorem settled_current? {r : SignalP} (m : Nat) : ∀ x, r.current.map (fun c => Value.float c.2) = some x → SettledEntry lib m "current_value" x := by
  intro x hx
  simp only [Option.map_eq_some_iff] at hx
  obtain ⟨c, -, rfl⟩ := hx
  exact settled_other m (by simp [isLeaf])

theorem settled_intervals {rs : List IntervalP} : SettledEntry lib 1 "intervals" (listed (rs.mapIdx IntervalP.received)) :=
  settled_listed (fun d hd => by
    simp only [List.mem_mapIdx] at hd
    obtain ⟨i, hi, rfl⟩ := hd
    exact settled_interval i)

theorem settled_rawSignal {r : SignalP} (h : r.Good lib) : Settled lib 3 r.raw := by
  have hk := measurementKey_mem h.measurement
  have hnd : ["intervals", "signal_name", "signal_type", "signal_id", measurementKey r.measurement, "current_value"].Nodup := by
    have := for_measurements (P := fun k => decide (["intervals", "signal_name", "signal_type", "signal_id", k, "current_value"].Nodup)) (by decide +kernel) hk
    simpa using this
  have h1 : Settles lib 2 ["intervals", "signal_name", "signal_type", "signal_id", measurementKey r.measurement, "current_value"] r.raw := by
    have hm : measurementEntry r.measurement = entry? (measurementKey r.measurement) (r.measurement.map (fun m => .dict m.raw)) := by
      cases r.measurement <;> rfl
    rw [r.raw_eq, hm]
    simp only [SignalP.before, SignalP.after, List.nil_append, List.cons_append, List.append_assoc]
    refine .cons settled_intervals.mono (.cons (settled_text 2 h.name) (.cons (settled_text 2 h.type) (.cons (settled_text 2 h.id)
      (.opt (fun x hx => ?_) (.last (settled_current? 2))))))
    cases hm : r.measurement with
    | none => simp [hm] at hx
    | some m =>
      simp only [hm, Option.map_some, Option.some.injEq] at hx
      subst hx
      exact settled_measurementRaw (h.measurement m hm)
  exact settled_of h1 hnd

theorem settled_doneSignal (sound : lib.Sound) {r : SignalP} (h : r.Good lib) : ∀ d, r.done = some d → Settled lib 3 d := by
  intro d hd
  simp only [SignalP.done, Option.map_eq_some_iff] at hd
  obtain ⟨m, hm, rfl⟩ := hd
  have h1 : Settles lib 2 ["intervals", "signal_name", "signal_type", "signal_id", "current_value", "measurement"]
      (r.before ++ r.after ++ [("measurement", .dict m.received)]) := by
    simp only [SignalP.before, SignalP.after, List.nil_append, List.cons_append, List.append_assoc]
    refine .cons settled_intervals.mono (.cons (settled_text 2 h.name) (.cons (settled_text 2 h.type) (.cons (settled_text 2 h.id)
      (.opt (settled_current? 2) (.cons (settled_dict (settled_measurement sound (h.measurement m hm)) (.inl ?_)) .nil)))))
    cases hs : m.size <;> cases hp : m.power <;> simp [MeasurementP.received, hs, hp, SizeP.entry, entry?, Dict.has, Dict.get?]
  exact settled_of h1

theorem describe_signal {r : SignalP} (h : r.Good lib) : describe (.dict r.raw) = .ok (r.done.map .dict) := by
  rw [r.raw_eq, describe_middle _ _ _ (fun x hx => (h.measurement x hx).name)]
  · simp [SignalP.done, Option.map_map, Function.comp_def]
  · intro k hk
    have hall : ["intervals", "signal_name", "signal_type", "signal_id", "current_value"].all
      (fun k => decide (k ∉ measurementNamespaces.map (·.1) ∧ k ≠ "measurement")) = true := by decide +kernel
    rw [List.all_eq_true] at hall
    suffices hm : k ∈ ["intervals", "signal_name", "signal_type", "signal_id", "current_value"] by simpa using hall k hm
    simp only [SignalP.before, SignalP.after, keys_append] at hk
    rcases hk with hk | hk
    · simp only [Dict.keys, List.map_cons, List.map_nil] at hk
      simp only [List.mem_cons, List.not_mem_nil, or_false] at hk ⊢
      rcases hk with h | h | h | h <;> simp [h]
    · rw [keys_entry? hk]; simp

theorem upToFirst_nil {α : Type} {raw : α → Dict} {done : α → Option Dict} {xs : List α} : upToFirst raw done xs = [] ↔ xs = [] := by
  cases xs with
  | nil => simp [upToFirst]
  | cons x xs =>
    simp only [upToFirst]
    split <;> simp

theorem carries_signals (sound : lib.Sound) {rs : List SignalP} (hr : ∀ r ∈ rs, r.Good lib)
    (hl : lookup env ["event", "event_signals"] = .ok (some (.list ((rs.map SignalP.dict).map .dict)))) :
    Carries lib (n + 6) env (el "ei:eiEventSignals" [.loop "event_signal" ["event", "event_signals"] [tEventSignal]]) "eiEventSignals" ["event_signals"]
      [("event_signals", listed (upToFirst SignalP.raw SignalP.done rs))] := by
  by_cases hne : rs = []
  · subst hne
    refine carries_void "eiEventSignals" "event_signals" ?_
    simp [sureAll, sure, hl, eachPiece]
  · have hne' : upToFirst SignalP.raw SignalP.done rs ≠ [] := fun e => hne (upToFirst_nil.mp e)
    have h1 := carries_descriptions (lib := lib) (n := n + 5) (env := env) (var := "event_signal") "eiEventSignal" "event_signal" "event_signals" (F := SignalP.dict)
      SignalP.raw SignalP.done hl (fun r hm _ => inside_signal sound (hr r hm) (by simp [loopEnv, Dict.get?])) (fun r hm => settled_rawSignal (hr r hm) _ (by omega))
      (fun r hm => describe_signal (hr r hm))
    rw [listed, if_neg hne']
    refine carries_nested "event_signals" (inside_elem (.cons h1 .nil) ?_ (by simp))
    simp [dicts?, hne', entry?]

theorem settled_signals (sound : lib.Sound) {rs : List SignalP} (hr : ∀ r ∈ rs, r.Good lib) :
    SettledEntry lib 3 "event_signals" (listed (upToFirst SignalP.raw SignalP.done rs)) :=
  settled_listed (fun d hd => by
    obtain ⟨x, hx, hd⟩ := upToFirst_mem hd
    rcases hd with rfl | hd
    · exact settled_rawSignal (hr x hx)
    · exact settled_doneSignal sound (hr x hx) d hd)

end Openleadr
