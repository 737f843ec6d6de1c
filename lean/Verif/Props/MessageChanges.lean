import Verif.Lemmas.Changes
import Verif.Lemmas.PlainTexts
import Verif.Props.Messages
import Verif.Props.OptMessages
import Verif.Props.EventMessages
import Verif.Props.ReportMessages
/-!
C67: which messages are received as they were sent, if the receiver is generous (`Kept`): the exact conditions, and what is lost.
-/
namespace Openleadr

variable {lib : Lib} {now : Int} {α : Type}

theorem alike_loose {r : LooseResponseP} : Alike lib (.dict r.received) (.dict r.dict) := by
  refine alike_cons (.same _) (alike_cons (.same _) ?_)
  exact alike_there (k := "request_id") (w := text? r.requestId) (a := []) (b := []) (.same _) (.same _) rfl rfl |> (by simpa using ·)

/-- **C67** for oadrResponse: whether there is an id of the request or not. -/
theorem c67_response_kept (sound : lib.Sound) {r : LooseResponseP} {ven : String} (h : r.Good lib) (h2 : Ordinary lib ven) :
    Kept lib now "oadrResponse" [("response", .dict r.dict), ("ven_id", .str ven)] :=
  (kept_iff (c67_response_arrives sound h h2 _ (.same _))).mpr (alike_cons alike_loose (.same _))

/-- **C67** for oadrCreatedPartyRegistration: whether the ids are given or not. -/
theorem c67_created_party_registration_kept (sound : lib.Sound) {r : RegisteredP} (h : r.Good lib) :
    Kept lib now "oadrCreatedPartyRegistration" r.dict := by
  refine (kept_iff (c67_created_party_registration_arrives sound h _ (.same _))).mpr ?_
  simp only [RegisteredP.received, RegisteredP.dict, List.append_assoc, List.cons_append, List.nil_append]
  exact alike_cons (.same _) (alike_there (.same _) (alike_there (.same _) (.same _)))

/-- **C67** for oadrCreateReport, with any number of report requests. -/
theorem c67_create_report_kept {id ven : String} {rs : List ReportRequestP} (h1 : Ordinary lib id) (h2 : Ordinary lib ven) (h3 : ∀ r ∈ rs, r.Good lib) :
    Kept lib now "oadrCreateReport"
      [("request_id", .str id), ("report_requests", .list ((rs.map ReportRequestP.dict).map .dict)), ("ven_id", .str ven)] := by
  refine (kept_iff (c67_create_report_arrives h1 h2 h3 _ (.same _))).mpr ?_
  simp only [List.append_assoc, List.cons_append, List.nil_append]
  exact alike_cons (.same _) (alike_sent (alike_dicts (.same _)) (.same _))

/-- **C67** for oadrRegisteredReport, with any number of report requests. -/
theorem c67_registered_report_kept (sound : lib.Sound) {r : ResponseP} {ven : Option String} {rs : List ReportRequestP} (h1 : r.Good lib)
    (h2 : ∀ x, ven = some x → Ordinary lib x) (h3 : ∀ r ∈ rs, r.Good lib) :
    Kept lib now "oadrRegisteredReport"
      ([("response", .dict r.dict), ("report_requests", .list ((rs.map ReportRequestP.dict).map .dict))] ++ entry? "ven_id" (text? ven)) := by
  refine (kept_iff (c67_registered_report_arrives sound h1 h2 h3 _ (.same _))).mpr ?_
  simp only [List.append_assoc, List.cons_append, List.nil_append]
  exact alike_cons (.same _) (alike_sent (alike_dicts (.same _)) (.same _))

/-- **C67** for oadrCreatedEvent: exactly the messages without both an id of the request and answers to events are received as they were sent. -/
theorem c67_created_event_exactly_partial (sound : lib.Sound) {r : CreatedEventP} (h : r.Good lib) :
    Kept lib now "oadrCreatedEvent" r.dict ↔ r.eventResponses = none ∨ r.response.requestId = none := by
  rw [kept_iff (c67_created_event_arrives sound h _ (.same _))]
  constructor
  · intro ha
    cases he : r.eventResponses with
    | none => exact .inl rfl
    | some l =>
      right
      have h1 : Alike lib (.dict { r.response with requestId := none }.received) (.dict r.response.dict) := by
        simpa [entryOf, CreatedEventP.received, CreatedEventP.dict, he, Dict.get?] using ha.entries "response"
      have h2 : Alike lib .none ((text? r.response.requestId).getD .none) := by
        simpa [entryOf, LooseResponseP.received, LooseResponseP.dict, Dict.get?, Dict.get?_entry?, text?] using h1.entries "request_id"
      cases hr : r.response.requestId with
      | none => rfl
      | some x =>
        have := (show Alike lib .none (.str x) by simpa [hr, text?] using h2).ofText
        cases this
  · intro hor
    simp only [CreatedEventP.received, CreatedEventP.dict, List.append_assoc, List.cons_append, List.nil_append]
    refine alike_cons ?_ (alike_opt ?_ (.same _))
    · cases he : r.eventResponses with
      | none => exact alike_loose
      | some l =>
        have hn : r.response.requestId = none := by simpa [he] using hor
        have : ({ r.response with requestId := none } : LooseResponseP) = r.response := by rw [← hn]
        simp only [this]
        exact alike_loose
    · cases r.eventResponses with
      | none => exact .same _
      | some l => exact alike_dicts (.same _)

/-- **C67, refuted** for oadrCreatedEvent: of a message with answers to events the id of the request is received as `None`. -/
theorem c67_created_event_violated (sound : lib.Sound) {r : CreatedEventP} (h : r.Good lib) {l : List EventResponseP} {id : String}
    (h1 : r.eventResponses = some l) (h2 : r.response.requestId = some id) :
    ¬ Kept lib now "oadrCreatedEvent" r.dict ∧
    ∃ got, Received lib now "oadrCreatedEvent" r.dict got ∧ lookup got ["response", "request_id"] = .ok (some .none) := by
  refine ⟨fun hk => ?_, _, c67_created_event_arrives sound h _ (.same _), ?_⟩
  · rw [c67_created_event_exactly_partial sound h] at hk
    simp [h1, h2] at hk
  · simp [lookup, walk, CreatedEventP.received, h1, Dict.get?, LooseResponseP.received, text?, attrOf]

/-- **C67** for oadrUpdatedReport: exactly the messages that do not cancel a single report are received as they were sent. -/
theorem c67_updated_report_exactly_partial (sound : lib.Sound) {r : UpdatedReportP} (h : r.Good lib) :
    Kept lib now "oadrUpdatedReport" r.dict ↔ ∀ c, r.cancel = some c → c.reportRequestIds.length ≠ 1 := by
  rw [kept_iff (c67_updated_report_arrives sound h _ (.same _))]
  constructor
  · intro ha c hc hl
    obtain ⟨s, hs⟩ := List.length_eq_one_iff.mp hl
    have h1 : Alike lib (.dict c.received) (.dict c.dict) := by
      simpa [entryOf, UpdatedReportP.received, UpdatedReportP.dict, hc, Dict.get?, Dict.get?_append, Dict.get?_entry?] using ha.entries "cancel_report"
    have h2 : Alike lib (.str s) (.list [.str s]) := by
      simpa [entryOf, CancelP.received, CancelP.dict, hs, Dict.get?, Dict.get?_append, Dict.get?_entry?] using h1.entries "report_request_id"
    exact h2.textList
  · intro hall
    simp only [UpdatedReportP.received, UpdatedReportP.dict, List.append_assoc, List.cons_append, List.nil_append]
    refine alike_cons alike_loose (alike_opt ?_ (.same _) (by simp [Dict.get?_entry?]) (by simp [Dict.get?_entry?]))
    cases hc : r.cancel with
    | none => exact .same _
    | some c =>
      simp only [Option.map_some, Option.getD_some, CancelP.received, CancelP.dict, List.append_assoc, List.cons_append, List.nil_append]
      refine alike_cons (.same _) (alike_sent ?_ (.same _))
      match hi : c.reportRequestIds with
      | [] => exact .nothing _ _ (.inl rfl) (.inr (.inl rfl))
      | [s] => exact absurd (by simp [hi]) (hall c hc)
      | _ :: _ :: _ => exact .same _

/-- **C67, refuted** for oadrUpdatedReport: of a list with a single report that is to be cancelled only the text of its id is received. -/
theorem c67_updated_report_violated (sound : lib.Sound) {r : UpdatedReportP} (h : r.Good lib) {c : CancelP} {id : String}
    (h1 : r.cancel = some c) (h2 : c.reportRequestIds = [id]) :
    ¬ Kept lib now "oadrUpdatedReport" r.dict ∧
    ∃ got, Received lib now "oadrUpdatedReport" r.dict got ∧ lookup got ["cancel_report", "report_request_id"] = .ok (some (.str id)) := by
  refine ⟨fun hk => ?_, _, c67_updated_report_arrives sound h _ (.same _), ?_⟩
  · rw [c67_updated_report_exactly_partial sound h] at hk
    exact hk c h1 (by simp [h2])
  · simp [lookup, walk, UpdatedReportP.received, h1, Dict.get?, Dict.get?_append, Dict.get?_entry?, CancelP.received, h2, attrOf]

/-- **C67** for oadrCreateOpt with at most one target: exactly those opts are received as they were sent that have no periods of availability, no id
    of a device, no number of a modification without an event, and targets that are received as they were sent. -/
theorem c67_create_opt_exactly_partial (sound : lib.Sound) {r : OptP} (h : r.Good lib) (h1 : r.meantTargets.length ≤ 1) :
    Kept lib now "oadrCreateOpt" r.dict ↔
      r.availability.getD [] = [] ∧ r.signalTarget = none ∧ (r.eventId = none → r.modification = none) ∧
      Alike lib (.list ((targetsReceived r.meantTargets).map .dict)) (.list ((r.meantTargets.map EventTargetP.dict).map .dict)) ∧
      Alike lib (.dict (groupsReceived r.meantTargets)) (r.targetsByType.getD .none) := by
  have hsent : Alike lib (.list ((targetsReceived r.meantTargets).map .dict)) (.list ((r.meantTargets.map EventTargetP.dict).map .dict)) ↔
      Alike lib (.list ((targetsReceived r.meantTargets).map .dict)) ((r.targets.map (fun l => .list ((l.map EventTargetP.dict).map .dict))).getD .none) := by
    cases ht : r.targets with
    | none =>
      have hm : r.meantTargets = [] := by simp [OptP.meantTargets, ht]
      have hr : targetsReceived [] = [] := by decide +kernel
      rw [hm, hr]
      exact ⟨fun _ => .nothing _ _ (.inr (.inl rfl)) (.inl rfl), fun _ => .same _⟩
    | some l => simp [OptP.meantTargets, ht]
  rw [kept_iff (c67_create_opt_arrives sound h h1 _ (.same _)), hsent]
  constructor
  · intro ha
    refine ⟨?_, ?_, ?_, ?_, ?_⟩
    · have h1 := ha.entries "vavailability"
      cases hv : r.availability with
      | none => rfl
      | some l =>
        have h2 : Alike lib (.dict [("components", periodsReceived l)]) (.dict [("components", .list ((l.map PeriodP.dict).map .dict))]) := by
          simpa [entryOf, OptP.received, OptP.dict, hv, Dict.get?, Dict.get?_append, Dict.get?_entry?] using h1
        have h3 : Alike lib (periodsReceived l) (.list ((l.map PeriodP.dict).map .dict)) := by
          simpa [entryOf, Dict.get?] using h2.entries "components"
        match l with
        | [] => rfl
        | [p] => simpa using h3.dictList.1
        | _ :: _ :: _ => simpa using h3.dictList.1
    · cases hs : r.signalTarget with
      | none => rfl
      | some s =>
        have h2 : Alike lib .none (.str s) := by
          have := ha.entries "signal_target_mrid"
          have hm : Dict.get? (if r.eventId = none then [] else entry? "modification_number" (int? r.modification)) "signal_target_mrid" = none := by
            split <;> simp [Dict.get?, Dict.get?_entry?]
          simpa [entryOf, OptP.received, OptP.dict, hs, Dict.get?, Dict.get?_append, Dict.get?_entry?, text?, hm] using this
        have := h2.ofText
        cases this
    · intro he
      cases hm : r.modification with
      | none => rfl
      | some m =>
        have h2 : Alike lib .none (.int m) := by
          simpa [entryOf, OptP.received, OptP.dict, he, hm, Dict.get?, Dict.get?_append, Dict.get?_entry?, int?] using ha.entries "modification_number"
        have := h2.toNone
        simp [Nothing] at this
    · have hm : Dict.get? (if r.eventId = none then [] else entry? "modification_number" (int? r.modification)) "targets" = none := by
        split <;> simp [Dict.get?, Dict.get?_entry?]
      simpa [entryOf, OptP.received, OptP.dict, Dict.get?, Dict.get?_append, Dict.get?_entry?, hm] using ha.entries "targets"
    · have hm : Dict.get? (if r.eventId = none then [] else entry? "modification_number" (int? r.modification)) "targets_by_type" = none := by
        split <;> simp [Dict.get?, Dict.get?_entry?]
      simpa [entryOf, OptP.received, OptP.dict, Dict.get?, Dict.get?_append, Dict.get?_entry?, hm] using ha.entries "targets_by_type"
  · rintro ⟨a1, a2, a3, a4, a5⟩
    have e1 : (if r.eventId = none then [] else entry? "modification_number" (int? r.modification)) = entry? "modification_number" (int? r.modification) := by
      split
      · rename_i he; simp [a3 he, int?, entry?]
      · rfl
    have n1 : text? none = none := rfl
    have n2 : ∀ k, entry? k none = [] := fun _ => rfl
    simp only [OptP.received, OptP.dict, e1, a2, Option.map_none, n1, n2, List.append_nil, List.append_assoc, List.cons_append, List.nil_append]
    refine alike_cons (.same _) (alike_cons (.same _) (alike_cons (.same _) ?_))
    refine alike_opt (.same _) (alike_cons (.same _) (alike_opt ?_ (alike_cons (.same _) (alike_cons (.same _) (alike_opt (.same _)
      (alike_opt (.same _) (alike_there a4 (by simpa using alike_there (k := "targets_by_type") (a := []) (b := []) a5 (.same _)))))))))
    cases hv : r.availability with
    | none => exact .same _
    | some l =>
      have : l = [] := by simpa [hv] using a1
      subst this
      exact alike_cons (.nothing _ _ (.inl rfl) (.inr (.inl rfl))) (.same _)

/-- **C67, refuted** for oadrCreateOpt with periods of availability: instead of their list a dict is received. -/
theorem c67_availability_violated (sound : lib.Sound) {r : OptP} (h : r.Good lib) (h1 : r.meantTargets.length ≤ 1) {l : List PeriodP}
    (hl : r.availability = some l) (hne : l ≠ []) :
    ¬ Kept lib now "oadrCreateOpt" r.dict ∧
    ∃ got d, Received lib now "oadrCreateOpt" r.dict got ∧ lookup got ["vavailability", "components"] = .ok (some (.dict d)) := by
  constructor
  · rw [c67_create_opt_exactly_partial sound h h1, hl]
    exact fun hk => hne hk.1
  · obtain ⟨d, hd⟩ : ∃ d, periodsReceived l = .dict d := by
      match l with
      | [] => exact absurd rfl hne
      | [p] => exact ⟨_, rfl⟩
      | _ :: _ :: _ => exact ⟨_, rfl⟩
    exact ⟨_, d, c67_create_opt_arrives sound h h1 _ (.same _), by
      simp [lookup, walk, attrOf, OptP.received, hl, hd, Dict.get?, Dict.get?_append, Dict.get?_entry?]⟩

/-- **C67, refuted** for oadrCreateOpt with the id of a device: there is no such entry in what is received. -/
theorem c67_device_violated (sound : lib.Sound) {r : OptP} (h : r.Good lib) (h1 : r.meantTargets.length ≤ 1) {s : String}
    (hs : r.signalTarget = some s) :
    ¬ Kept lib now "oadrCreateOpt" r.dict ∧
    ∃ got, Received lib now "oadrCreateOpt" r.dict got ∧ lookup got ["signal_target_mrid"] = .ok none := by
  constructor
  · rw [c67_create_opt_exactly_partial sound h h1, hs]
    exact fun hk => by simp at hk
  · have hm : Dict.get? (if r.eventId = none then [] else entry? "modification_number" (int? r.modification)) "signal_target_mrid" = none := by
      split <;> simp [Dict.get?, Dict.get?_entry?]
    exact ⟨_, c67_create_opt_arrives sound h h1 _ (.same _), by
      simp [lookup, walk, OptP.received, hm, Dict.get?, Dict.get?_append, Dict.get?_entry?]⟩

theorem upToFirst_get {α : Type} {raw : α → Dict} {done : α → Option Dict} {l : List α} {j : Nat} {x : α} (h : l[j]? = some x) :
    ∃ y, (upToFirst raw done l)[j]? = some y ∧ (y = raw x ∨ done x = some y) := by
  induction l generalizing j with
  | nil => simp at h
  | cons a l ih =>
    simp only [upToFirst]
    cases hd : done a with
    | none => exact ⟨raw x, by simp only [List.getElem?_map, h, Option.map_some], .inl rfl⟩
    | some d =>
      cases j with
      | zero =>
        simp only [List.getElem?_cons_zero, Option.some.injEq] at h
        subst h
        exact ⟨d, by simp, .inr hd⟩
      | succ j =>
        obtain ⟨y, h1, h2⟩ := ih (by simpa using h)
        exact ⟨y, by simpa using h1, h2⟩

theorem SignalP.intervals_of {s : SignalP} {y : Dict} (h : y = s.raw ∨ s.done = some y) :
    Dict.get? y "intervals" = some (listed (s.intervals.mapIdx IntervalP.received)) := by
  rcases h with rfl | h
  · simp [SignalP.raw, SignalP.before, Dict.get?]
  · simp only [SignalP.done, Option.map_eq_some_iff] at h
    obtain ⟨m, -, rfl⟩ := h
    simp [SignalP.before, Dict.get?]

theorem alike_listed {a : List Dict} {b : List Dict} (h : Alike lib (listed a) (.list (b.map .dict))) (hb : b ≠ []) :
    a.length = b.length ∧ ∀ (i : Nat) x y, a[i]? = some x → b[i]? = some y → Alike lib (.dict x) (.dict y) := by
  by_cases ha : a = []
  · subst ha
    have := h.toNone
    simp [Nothing, hb] at this
  · simp only [listed, ha, if_false] at h
    obtain ⟨h1, h2⟩ := h.items
    exact ⟨by simpa using h1, fun i x y hx hy => h2 i _ _ (by simp [hx]) (by simp [hy])⟩

/-- **C67, refuted** for oadrDistributeEvent: no message with an interval is received as it was sent. The intervals get numbers. -/
theorem c67_distribute_event_violated (sound : lib.Sound) {r : DistributeEventP} (h : r.Good lib) (hr : ∀ x ∈ r.events, x.Ready)
    {e : EventP} {s : SignalP} {i : IntervalP} (he : e ∈ r.events) (hs : s ∈ e.signals) (hi : i ∈ s.intervals) :
    ¬ Kept lib now "oadrDistributeEvent" r.dict := by
  rw [kept_iff (c67_ready_event_arrives sound h hr)]
  intro ha
  have hne : r.events ≠ [] := List.ne_nil_of_mem he
  have h1 : Alike lib (.list ((r.events.map (EventP.received (decide (2 ≤ r.events.length)))).map .dict)) (.list ((r.events.map EventP.dict).map .dict)) := by
    simpa [entryOf, DistributeEventP.received, DistributeEventP.dict, dicts?, hne, Dict.get?, Dict.get?_append, Dict.get?_entry?] using ha.entries "events"
  obtain ⟨j, hj⟩ := List.mem_iff_getElem?.mp he
  have h2 : Alike lib (.dict (e.received (decide (2 ≤ r.events.length)))) (.dict e.dict) := h1.items.2 j _ _ (by simp [hj]) (by simp [hj])
  have h3 : Alike lib (listed (upToFirst SignalP.raw SignalP.done e.signals)) (.list ((e.signals.map SignalP.dict).map .dict)) := by
    simpa [entryOf, EventP.received, EventP.inner, EventP.dict, Dict.get?, Dict.get?_append, Dict.get?_entry?] using h2.entries "event_signals"
  obtain ⟨k, hk⟩ := List.mem_iff_getElem?.mp hs
  obtain ⟨y, y1, y2⟩ := upToFirst_get (raw := SignalP.raw) (done := SignalP.done) hk
  have h4 : Alike lib (.dict y) (.dict s.dict) :=
    (alike_listed h3 (by simpa using List.ne_nil_of_mem hs)).2 k _ _ y1 (by simp [hk])
  have h5 : Alike lib (listed (s.intervals.mapIdx IntervalP.received)) (.list ((s.intervals.map IntervalP.dict).map .dict)) := by
    simpa [entryOf, SignalP.intervals_of y2, SignalP.dict, Dict.get?] using h4.entries "intervals"
  obtain ⟨m, hm⟩ := List.mem_iff_getElem?.mp hi
  have h6 : Alike lib (.dict (i.received m)) (.dict i.dict) :=
    (alike_listed h5 (by simpa using List.ne_nil_of_mem hi)).2 m _ _ (by simp [hm]) (by simp [hm])
  have h7 : Alike lib (.int m) .none := by
    simpa [entryOf, IntervalP.received, IntervalP.dict, Dict.get?, Dict.get?_append, Dict.get?_entry?] using h6.entries "uid"
  simpa [Nothing] using h7.ofNone

/-- The event without the targets of its signals. -/
def EventP.withoutSignalTargets (e : EventP) : EventP :=
  { e with signals := e.signals.map (fun s => { s with targets := none, targetsByType := none }) }

/-- The message without the targets of signals. -/
def DistributeEventP.withoutSignalTargets (r : DistributeEventP) : DistributeEventP := { r with events := r.events.map EventP.withoutSignalTargets }

theorem upToFirst_map {α : Type} {raw : α → Dict} {done : α → Option Dict} {f : α → α} (h1 : ∀ x, raw (f x) = raw x) (h2 : ∀ x, done (f x) = done x)
    (l : List α) : upToFirst raw done (l.map f) = upToFirst raw done l := by
  induction l with
  | nil => rfl
  | cons a l ih => simp [upToFirst, h1, h2, ih, Function.comp_def]

theorem EventP.received_withoutSignalTargets (b : Bool) (e : EventP) : e.withoutSignalTargets.received b = e.received b := by
  have : upToFirst SignalP.raw SignalP.done e.withoutSignalTargets.signals = upToFirst SignalP.raw SignalP.done e.signals :=
    upToFirst_map (f := fun s : SignalP => { s with targets := none, targetsByType := none }) (fun _ => rfl) (fun _ => rfl) _
  simp only [EventP.received, EventP.inner, this]
  rfl

/-- **C67, refuted** for oadrDistributeEvent: the receiver cannot tell a message with targets of signals from one without. -/
theorem c67_signal_targets_violated (sound : lib.Sound) {r : DistributeEventP} (h : r.Good lib) (hr : ∀ x ∈ r.events, x.Ready) :
    ∃ got, Received lib now "oadrDistributeEvent" r.dict got ∧ Received lib now "oadrDistributeEvent" r.withoutSignalTargets.dict got := by
  refine ⟨r.received, c67_ready_event_arrives sound h hr, ?_⟩
  have e : r.withoutSignalTargets.received = r.received := by
    simp [DistributeEventP.received, DistributeEventP.withoutSignalTargets, EventP.received_withoutSignalTargets, Function.comp_def]
  rw [← e]
  refine c67_ready_event_arrives sound ⟨h.response, h.requestId, h.vtnId, ?_⟩ ?_
  · intro x hx
    simp only [DistributeEventP.withoutSignalTargets, List.mem_map] at hx
    obtain ⟨y, hy, rfl⟩ := hx
    have hy := h.events y hy
    refine ⟨hy.descriptor, hy.period, fun s hs => ?_, hy.targets, hy.response⟩
    simp only [EventP.withoutSignalTargets, List.mem_map] at hs
    obtain ⟨t, ht, rfl⟩ := hs
    have ht := hy.signals t ht
    exact ⟨ht.intervals, ht.name, ht.type, ht.id, ht.measurement, ht.current⟩
  · intro x hx
    simp only [DistributeEventP.withoutSignalTargets, List.mem_map] at hx
    obtain ⟨y, hy, rfl⟩ := hx
    have hy := hr y hy
    refine ⟨fun s hs => ?_, hy.response, hy.targets⟩
    simp only [EventP.withoutSignalTargets, List.mem_map] at hs
    obtain ⟨t, ht, rfl⟩ := hs
    have ht := hy.signals t ht
    exact ⟨ht.durations, ht.total, ht.levels, ht.current, ht.namespaces⟩

theorem alike_members {f g : α → Dict} {l : List α} (h : Alike lib ((dicts? (l.map f)).getD .none) (.list ((l.map g).map .dict))) {x : α} (hx : x ∈ l) :
    Alike lib (.dict (f x)) (.dict (g x)) := by
  have hne : l ≠ [] := List.ne_nil_of_mem hx
  obtain ⟨j, hj⟩ := List.mem_iff_getElem?.mp hx
  simp only [dicts?, List.map_eq_nil_iff, hne, if_false, Option.getD_some] at h
  exact h.items.2 j _ _ (by simp [hj]) (by simp [hj])

/-- **C67, refuted** for oadrRegisterReport: the mode of collection, the start and the intervals of an offer are not received. -/
theorem c67_register_report_violated (sound : lib.Sound) {r : RegisterReportP} (h : r.Good lib) (hr : ∀ x ∈ r.reports, x.Ready) {x : OfferP}
    (hx : x ∈ r.reports) (h1 : ¬ Nothing (x.mode.getD .none) ∨ ¬ Nothing (x.start.getD .none) ∨ ¬ Nothing (x.intervals.getD .none)) :
    ¬ Kept lib now "oadrRegisterReport" r.dict := by
  rw [kept_iff (c67_ready_report_arrives sound h hr)]
  intro ha
  have h2 : Alike lib ((dicts? (r.reports.map OfferP.received)).getD .none) (.list ((r.reports.map OfferP.dict).map .dict)) := by
    simpa [entryOf, RegisterReportP.received, RegisterReportP.dict, Dict.get?, Dict.get?_append, Dict.get?_entry?] using ha.entries "reports"
  have h3 := alike_members h2 hx
  rcases h1 with h1 | h1 | h1 <;> apply h1 <;> refine Alike.toNone (lib := lib) ?_
  · simpa [entryOf, OfferP.received, OfferP.dict, Dict.get?, Dict.get?_append, Dict.get?_entry?] using h3.entries "data_collection_mode"
  · simpa [entryOf, OfferP.received, OfferP.dict, Dict.get?, Dict.get?_append, Dict.get?_entry?] using h3.entries "dtstart"
  · simpa [entryOf, OfferP.received, OfferP.dict, Dict.get?, Dict.get?_append, Dict.get?_entry?] using h3.entries "intervals"

/-- **C67, refuted** for oadrRegisterReport: the id of a report with a name of metadata is not received, and instead of a missing id of the request
    the number zero is received. -/
theorem c67_offer_ids_violated (sound : lib.Sound) {r : RegisterReportP} (h : r.Good lib) (hr : ∀ x ∈ r.reports, x.Ready) {x : OfferP}
    (hx : x ∈ r.reports) (h1 : (x.reportId ≠ none ∧ Metadata x.name = true) ∨ x.requestId = none) :
    ¬ Kept lib now "oadrRegisterReport" r.dict := by
  rw [kept_iff (c67_ready_report_arrives sound h hr)]
  intro ha
  have h2 : Alike lib ((dicts? (r.reports.map OfferP.received)).getD .none) (.list ((r.reports.map OfferP.dict).map .dict)) := by
    simpa [entryOf, RegisterReportP.received, RegisterReportP.dict, Dict.get?, Dict.get?_append, Dict.get?_entry?] using ha.entries "reports"
  have h3 := alike_members h2 hx
  rcases h1 with ⟨h1, hm⟩ | h1
  · obtain ⟨s, hs⟩ := Option.ne_none_iff_exists'.mp h1
    have h4 : Alike lib .none (.str s) := by
      simpa [entryOf, OfferP.received, OfferP.dict, Dict.get?, Dict.get?_append, Dict.get?_entry?, hm, hs, text?] using h3.entries "report_id"
    have := h4.ofText
    cases this
  · have h4 : Alike lib (.int 0) .none := by
      simpa [entryOf, OfferP.received, OfferP.dict, Dict.get?, Dict.get?_append, Dict.get?_entry?, h1, text?] using h3.entries "report_request_id"
    simpa [Nothing] using h4.ofNone

/-- **C67, refuted** for oadrUpdateReport: the duration and the mode of collection of a report are not received. -/
theorem c67_update_report_violated (sound : lib.Sound) {r : UpdateReportP} (h : r.Good lib) {x : ReportP} (hx : x ∈ r.reports)
    (h1 : ¬ Nothing (x.duration.getD .none) ∨ ¬ Nothing (x.mode.getD .none)) : ¬ Kept lib now "oadrUpdateReport" r.dict := by
  rw [kept_iff (c67_update_report_arrives sound h _ (.same _))]
  intro ha
  have h2 : Alike lib ((dicts? (r.reports.map ReportP.received)).getD .none) (.list ((r.reports.map ReportP.dict).map .dict)) := by
    simpa [entryOf, UpdateReportP.received, UpdateReportP.dict, Dict.get?, Dict.get?_append, Dict.get?_entry?] using ha.entries "reports"
  have h3 := alike_members h2 hx
  rcases h1 with h1 | h1 <;> apply h1 <;> refine Alike.toNone (lib := lib) ?_
  · simpa [entryOf, ReportP.received, ReportP.dict, Dict.get?, Dict.get?_append, Dict.get?_entry?] using h3.entries "duration"
  · simpa [entryOf, ReportP.received, ReportP.dict, Dict.get?, Dict.get?_append, Dict.get?_entry?] using h3.entries "data_collection_mode"

theorem alike_reading {x : ReadingP} (h : x.Good lib) : Alike lib (.dict x.received) (.dict x.dict) := by
  simp only [ReadingP.received, ReadingP.dict, List.append_assoc, List.cons_append, List.nil_append]
  refine alike_cons (.same _) (alike_opt (.same _) (alike_cons ?_ (.same _)))
  exact alike_cons (.same _) (alike_opt (.same _) (alike_opt (.same _) (alike_opt (.same _) (alike_cons (.number _ _ h.number) (.same _)))))

/-- **C67** for oadrUpdateReport: exactly the messages whose reports have no duration and no mode of collection are received as they were sent, if they
    have no descriptions. Numbers may be integers or floats, and ids may be missing. -/
theorem c67_update_report_exactly_partial (sound : lib.Sound) {r : UpdateReportP} (h : r.Good lib) (hd : ∀ x ∈ r.reports, x.descriptions.getD [] = []) :
    Kept lib now "oadrUpdateReport" r.dict ↔ ∀ x ∈ r.reports, Nothing (x.duration.getD .none) ∧ Nothing (x.mode.getD .none) := by
  constructor
  · intro hk x hx
    refine ⟨Classical.byContradiction fun hc => ?_, Classical.byContradiction fun hc => ?_⟩
    · exact c67_update_report_violated sound h hx (.inl hc) hk
    · exact c67_update_report_violated sound h hx (.inr hc) hk
  · intro hall
    rw [kept_iff (c67_update_report_arrives sound h _ (.same _))]
    simp only [UpdateReportP.received, UpdateReportP.dict, List.append_assoc, List.cons_append, List.nil_append]
    refine alike_cons (.same _) (alike_sent (alike_dicts (alike_maps fun x hx => ?_)) (.same _) (by simp [Dict.get?_entry?]) (by simp [Dict.get?_entry?]))
    obtain ⟨a1, a2⟩ := hall x hx
    have hx' := h.reports x hx
    have e0 : dicts? (upToFirst DescriptionP.raw DescriptionP.done []) = none := rfl
    simp only [ReportP.received, hd x hx, e0]
    simp only [ReportP.dict, List.append_assoc, List.cons_append, List.nil_append]
    refine alike_opt (.same _) (alike_opt ?_ (alike_there (.same _) (alike_opt ?_ (alike_cons (.same _) (alike_cons (.same _)
      (alike_opt (.same _) (alike_cons (.same _) ?_)))))))
    · cases hr : x.readings with
      | none => exact .same _
      | some l => exact alike_dicts (alike_maps fun y hy => alike_reading (hx'.readings l hr y hy))
    · have := hd x hx
      cases hr : x.descriptions with
      | none => exact .same _
      | some l =>
        have : l = [] := by simpa [hr] using this
        subst this
        exact .nothing _ _ (.inl rfl) (.inr (.inl rfl))
    · have h1 : Alike lib .none (x.duration.getD .none) := .nothing _ _ (.inl rfl) a1
      have h2 : Alike lib .none (x.mode.getD .none) := .nothing _ _ (.inl rfl) a2
      refine .dict _ _ (fun k => ?_)
      simp only [entryOf, Dict.get?_append, Dict.get?_entry?, Dict.get?]
      split
      · cases hh : x.duration with
        | none =>
          simp only [Option.none_or]
          split
          · exact h2
          · exact .same _
        | some v => simpa [hh] using h1
      · simp only [Option.none_or]
        split
        · exact h2
        · exact .same _

theorem ordinary_None (sound : lib.Sound) : Ordinary lib "None" := by
  refine ⟨onWire_of (by decide +kernel), ?_, by decide, by decide⟩
  rintro ⟨sign, body, h, hs, -, hb⟩
  have hN : lib.isDigit 'N' = false := sound.letters 'N' (by decide +kernel)
  rcases hs with rfl | rfl
  · have hm : 'N' ∈ body := by
      rw [List.nil_append] at h
      rw [← h]
      decide +kernel
    rcases hb 'N' hm with h | h
    · rw [hN] at h; cases h
    · exact absurd h (by decide)
  · have := congrArg List.head? h
    exact absurd this (by simp)

/-- A value that is `None` is written, if nothing is asked. -/
theorem carries_none (sound : lib.Sound) {n : Nat} {env : Dict} {name : String} (key key' : String) {path : List String}
    {attrs : List (String × String)} (hl : lookup env path = .ok (some .none)) (hk : textKey key' = true := by decide +kernel)
    (hf : leafFacts name attrs key key' = true := by decide +kernel) :
    Carries lib n env (leaf name path .plain attrs) key [key'] [(key', .str "None")] := by
  have ho := ordinary_None sound
  obtain ⟨w, s, h1, h2, h3, h4⟩ := (wired_text (lib := lib) (k := key') ho hk).text
  simp only [leafFacts, Bool.and_eq_true, decide_eq_true_eq, Bool.not_eq_true'] at hf
  obtain ⟨⟨⟨⟨f1, f2⟩, f3⟩, f4⟩, f5⟩ := hf
  have hla : leafAt env path = .ok .none := by simp [leafAt, hl, isLeaf]
  have hs : s = "None" := by
    simp only [applyFilter, Except.ok.injEq] at h1
    subst h1
    rw [← h2]; rfl
  subst hs
  have hp : pyText lib (some Value.none) = "None" := rfl
  have hsure : sure lib env (leaf name path .plain attrs) = .ok [.entry key (.str "None")] := by
    simp only [leaf, sure, sureKey, f1, sureAll, hla, applyFilter, hp, h3.clean, if_true, List.append_nil]
    have hv : elementValue attrs [.chars "None".toList] = .str "None" := by
      simp only [elementValue, f5, if_true, charsOf, List.flatMap_cons, List.flatMap_nil, List.append_nil]
      exact h3.close
    rw [hv]
  exact carries_one _ hsure (by simp) (appends_leaf lib _ key key' _ _ f2 f3 f4 h4 (by simp) (by simp) (by simp) (by simp)) (by simp [Dict.keys])

/-- **C67, refuted** for oadrPoll of a VEN that has no `ven_id` yet: the VTN receives the text `None` as its `ven_id`. -/
theorem c67_poll_violated (sound : lib.Sound) :
    Received lib now "oadrPoll" [("ven_id", .none)] [("ven_id", .str "None")] ∧ ¬ Kept lib now "oadrPoll" [("ven_id", .none)] := by
  have h : Arrives lib now "oadrPoll" [("ven_id", .none)] [("ven_id", .str "None")] :=
    arrives_of (by rfl) (fun _ => .cons (carries_none sound "venID" "ven_id" (by lk)) .nil) (by simp) (by simp)
  have h := h _ (.same _)
  refine ⟨h, ?_⟩
  rw [kept_iff h]
  intro ha
  have h1 : Alike lib (.str "None") .none := by simpa [entryOf, Dict.get?] using ha.entries "ven_id"
  have := h1.text
  cases this

/-! ### Concrete cases -/

/-- An event of an hour with one interval and a target. -/
def distributedSample : DistributeEventP where
  response := some ⟨200, "OK", "r1x"⟩
  requestId := "r1x"
  vtnId := "vtn"
  events := [{
    descriptor := ⟨"e1x", 0, none, none, some 1, "http://market", 0, "far", none, none⟩
    period := ⟨3600000000, 3600000000, some 60000000, some 0, some 60000000, none⟩
    signals := [⟨[⟨none, some 3600000000, .int 2, "2.0"⟩], "SIMPLE", "level", "s1x", none, some (.int 0, "0.0"), some (.list [.dict [("ven_id", .str "v")]]), none⟩]
    targets := some [⟨none, none, some "res", some "ven", none, []⟩]
    targetsByType := none
    response := "always" }]

theorem asFloat_plain (i : Int) (r : String) (h : plainLib.readFloat (String.ofList (intText i)) = some r) : AsFloat plainLib (.int i) r := .int i r h

theorem spans_of {d : Int} (h : (decide (0 ≤ d) && decide (d ≤ Spec.maxTimedelta) && decide (d % 1000000 = 0)) = true) : Spans d := by
  simp only [Bool.and_eq_true, decide_eq_true_eq] at h
  exact ⟨d / 1000000, by omega, by omega, h.1.2⟩

theorem distributedSample_good : distributedSample.Good plainLib where
  response := by
    intro x hx
    cases hx
    exact ⟨ordinary_of (by decide +kernel), ordinary_of (by decide +kernel)⟩
  requestId := ordinary_of (by decide +kernel)
  vtnId := ordinary_of (by decide +kernel)
  events := by
    intro e he
    simp only [distributedSample, List.mem_singleton] at he
    subst he
    refine ⟨⟨ordinary_of (by decide +kernel), by simp, by simp, ordinary_of (by decide +kernel), by constructor <;> decide +kernel,
      ordinary_of (by decide +kernel), by simp⟩, ⟨by constructor <;> decide +kernel, spans_of (by decide +kernel), ?_, ?_, ?_, by simp⟩, ?_, ?_,
      ordinary_of (by decide +kernel)⟩
    · intro d hd; cases hd; exact spans_of (by decide +kernel)
    · intro d hd; cases hd; exact spans_of (by decide +kernel)
    · intro d hd; cases hd; exact spans_of (by decide +kernel)
    · intro s hs
      simp only [List.mem_singleton] at hs
      subst hs
      refine ⟨?_, ordinary_of (by decide +kernel), ordinary_of (by decide +kernel), ordinary_of (by decide +kernel), by simp, ?_⟩
      · intro i hi
        simp only [List.mem_singleton] at hi
        subst hi
        exact ⟨by simp, by intro d hd; cases hd; exact spans_of (by decide +kernel), asFloat_plain _ _ (by decide +kernel)⟩
      · intro c hc; cases hc; exact asFloat_plain _ _ (by decide +kernel)
    · intro l hl t ht
      cases hl
      simp only [List.mem_singleton] at ht
      subst ht
      refine ⟨?_, by simp [Dict.get?]⟩
      intro k hk x hx
      simp only [targetKinds, List.mem_cons, List.not_mem_nil, or_false] at hk
      rcases hk with rfl | rfl | rfl | rfl | rfl <;> simp at hx <;> subst hx <;> exact ordinary_of (by decide +kernel)

theorem distributedSample_ready : ∀ x ∈ distributedSample.events, x.Ready := by
  intro e he
  simp only [distributedSample, List.mem_singleton] at he
  subst he
  refine ⟨?_, .inr rfl, rfl⟩
  intro s hs
  simp only [List.mem_singleton] at hs
  subst hs
  refine ⟨by simp, by simp, ?_, ?_, by simp⟩
  · intro _ i hi
    simp only [List.mem_singleton] at hi
    subst hi
    decide +kernel
  · intro _ _ c hc; cases hc; decide +kernel

/-- What is received of the event: the interval has a number, its value is a float, the targets of the signal are gone, the periods have other names or
    are gone, and the target is there twice. -/
example : Received plainLib now "oadrDistributeEvent" distributedSample.dict
    [("response", .dict [("response_code", .int 200), ("response_description", .str "OK"), ("request_id", .str "r1x")]), ("request_id", .str "r1x"),
      ("vtn_id", .str "vtn"), ("events", .list [.dict [
        ("event_descriptor", .dict [("event_id", .str "e1x"), ("modification_number", .int 0), ("priority", .int 1), ("market_context", .str "http://market"),
          ("created_date_time", .datetime 0), ("event_status", .str "far")]),
        ("active_period", .dict [("dtstart", .datetime 3600000000), ("duration", .timedelta 3600000000),
          ("tolerance", .dict [("tolerate", .dict [("startafter", .timedelta 60000000)])]), ("ramp_up", .timedelta 60000000)]),
        ("event_signals", .list [.dict [("intervals", .list [.dict [("duration", .timedelta 3600000000), ("uid", .int 0), ("signal_payload", .float "2.0")]]),
          ("signal_name", .str "SIMPLE"), ("signal_type", .str "level"), ("signal_id", .str "s1x"), ("current_value", .float "0.0")]]),
        ("targets", .list [.dict [("resource_id", .str "res")], .dict [("ven_id", .str "ven")]]),
        ("targets_by_type", .dict [("resource_id", .list [.str "res"]), ("ven_id", .list [.str "ven"])]),
        ("response_required", .str "always")]])]
    ∧ ¬ Kept plainLib now "oadrDistributeEvent" distributedSample.dict :=
  ⟨c67_ready_event_arrives plainLib_sound distributedSample_good distributedSample_ready,
    c67_distribute_event_violated plainLib_sound distributedSample_good distributedSample_ready (List.mem_singleton.mpr rfl) (List.mem_singleton.mpr rfl)
      (List.mem_singleton.mpr rfl)⟩

/-- An opt for an event with a target of one kind is kept; with the id of a device it is not. -/
def optSample : OptP where
  optId := "o1x"
  optType := "optOut"
  reason := "overrideStatus"
  marketContext := none
  venId := "ven"
  availability := none
  created := 0
  requestId := "r1x"
  eventId := some "e1x"
  modification := some 3
  targets := some [⟨none, none, some "res", none, none, []⟩]
  targetsByType := some (.dict [("resource_id", .list [.str "res"])])
  signalTarget := none

theorem optSample_good (x : Option String) (hx : ∀ s, x = some s → Ordinary plainLib s) : ({ optSample with signalTarget := x } : OptP).Good plainLib where
  optId := ordinary_of (s := "o1x") (by decide +kernel)
  optType := ordinary_of (s := "optOut") (by decide +kernel)
  reason := ordinary_of (s := "overrideStatus") (by decide +kernel)
  marketContext := by simp [optSample]
  venId := ordinary_of (s := "ven") (by decide +kernel)
  availability := by simp [optSample]
  created := show Datable 0 by constructor <;> decide +kernel
  requestId := ordinary_of (s := "r1x") (by decide +kernel)
  eventId := by intro x hx; cases hx; exact ordinary_of (by decide +kernel)
  modification := by simp [optSample]
  targets := by
    intro l hl t ht
    cases hl
    simp only [List.mem_singleton] at ht
    subst ht
    refine ⟨?_, by simp [Dict.get?]⟩
    intro k hk x hx
    simp only [targetKinds, List.mem_cons, List.not_mem_nil, or_false] at hk
    rcases hk with rfl | rfl | rfl | rfl | rfl <;> simp at hx <;> subst hx <;> exact ordinary_of (by decide +kernel)
  signalTarget := hx

example : Kept plainLib now "oadrCreateOpt" optSample.dict ∧
    ¬ Kept plainLib now "oadrCreateOpt" { optSample with signalTarget := some "dev" }.dict := by
  constructor
  · refine (c67_create_opt_exactly_partial plainLib_sound (optSample_good none (by simp)) (by decide)).mpr ⟨rfl, rfl, by simp [optSample], .same _, .same _⟩
  · exact (c67_device_violated plainLib_sound (optSample_good (some "dev") (by intro s hs; cases hs; exact ordinary_of (by decide +kernel))) (by decide) rfl).1

/-- The id of the request of a message with answers is lost, also without any answers. -/
example : ¬ Kept plainLib now "oadrCreatedEvent"
    [("response", .dict [("response_code", .int 200), ("response_description", .str "OK"), ("request_id", .str "r1x")]), ("event_responses", .list []),
      ("ven_id", .str "ven")] :=
  (c67_created_event_violated (r := ⟨⟨200, "OK", some "r1x"⟩, some [], "ven"⟩) plainLib_sound
    ⟨⟨ordinary_of (by decide +kernel), by intro x hx; cases hx; exact ordinary_of (by decide +kernel)⟩, by intro l hl; cases hl; simp,
      ordinary_of (by decide +kernel)⟩ rfl rfl).1

end Openleadr
