import Verif.Lemmas.EventMessage
import Verif.Lemmas.Offers
/-!
Events that are left as they are when they are prepared for sending.
-/
namespace Openleadr

variable {lib : Lib} {n : Nat} {env : Dict}

/-- A signal of an event in this state and with a period of this length that is left as it is when it is prepared. -/
structure SignalP.Ready (status : String) (duration : Int) (r : SignalP) : Prop where
  durations : ∀ i ∈ r.intervals, i.duration ≠ none
  total : (r.intervals.map (fun i => i.duration.getD 0)).sum = duration
  levels : r.name = "SIMPLE" → ∀ i ∈ r.intervals, i.number.isLevel = true
  current : r.name = "SIMPLE" → status ≠ "ACTIVE" → ∀ c, r.current = some c → c.1.isZero = true
  namespaces : ∀ m, r.measurement = some m → (m.name, m.ns) ∈ measurementNamespaces

/-- An event that is left as it is when it is prepared. -/
structure EventP.Ready (r : EventP) : Prop where
  signals : ∀ s ∈ r.signals, s.Ready r.descriptor.status r.period.duration
  response : r.response = "never" ∨ r.response = "always"
  targets : r.targetsByType = none

theorem EventP.gets (r : EventP) : Dict.get? r.dict "event_descriptor" = some (.dict r.descriptor.dict) ∧
    Dict.get? r.dict "active_period" = some (.dict r.period.dict) ∧
    Dict.get? r.dict "event_signals" = some (.list ((r.signals.map SignalP.dict).map .dict)) ∧
    Dict.get? r.dict "targets_by_type" = r.targetsByType ∧ Dict.get? r.dict "response_required" = some (.str r.response) := by
  simp [EventP.dict, Dict.get?, Dict.get?_append, Dict.get?_entry?]

theorem SignalP.gets (r : SignalP) : Dict.get? r.dict "intervals" = some (.list ((r.intervals.map IntervalP.dict).map .dict)) ∧
    Dict.get? r.dict "signal_name" = some (.str r.name) ∧ Dict.get? r.dict "current_value" = r.current.map (·.1) ∧
    Dict.get? r.dict "measurement" = r.measurement.map (fun m => .dict m.dict) := by
  simp [SignalP.dict, Dict.get?, Dict.get?_append, Dict.get?_entry?]

theorem sum_nonneg {l : List Int} (hl : ∀ d ∈ l, 0 ≤ d) : 0 ≤ l.sum := by
  induction l with
  | nil => simp
  | cons x l ih =>
    have h1 := ih (fun y hy => hl y (List.mem_cons_of_mem _ hy))
    have h2 := hl x (by simp)
    simp only [List.sum_cons]
    omega

theorem sumDurations_spans {l : List Int} (hl : ∀ d ∈ l, 0 ≤ d) (start : Int) (h0 : 0 ≤ start) (hmax : start + l.sum ≤ Spec.maxTimedelta) :
    sumDurations start l = .ok (start + l.sum) := by
  induction l generalizing start with
  | nil => simp [sumDurations]
  | cons d l ih =>
    have hd := hl d (by simp)
    have hs := sum_nonneg (fun y hy => hl y (List.mem_cons_of_mem _ hy))
    simp only [List.sum_cons, Spec.maxTimedelta] at hmax ⊢
    have : mkTimedelta (start + d) = .ok (start + d) := by
      rw [mkTimedelta, if_pos]
      simp only [tdDays, usPerDay]
      omega
    simp only [sumDurations, this]
    rw [ih (fun y hy => hl y (by simp [hy])) _ (by omega) (by simp only [Spec.maxTimedelta]; omega)]
    simp only [Except.ok.injEq]; omega

theorem signalDuration_ready {r : SignalP} {status : String} {d : Int} (hg : r.Good lib) (hr : r.Ready status d) (hd : d ≤ Spec.maxTimedelta) :
    signalDuration (.dict r.dict) = .ok d := by
  have hi : eachOk intervalDuration ((r.intervals.map IntervalP.dict).map .dict) = .ok (r.intervals.map (fun i => i.duration.getD 0)) := by
    have hdur := hr.durations
    clear hr hg
    generalize r.intervals = l at hdur
    induction l with
    | nil => rfl
    | cons i l ih =>
      obtain ⟨x, hx⟩ := Option.ne_none_iff_exists'.mp (hdur i (by simp))
      have h1 : intervalDuration (.dict i.dict) = .ok x := by
        have : Dict.get? i.dict "duration" = some (.timedelta x) := by
          simp [IntervalP.dict, Dict.get?_append, Dict.get?_entry?, hx, span?]
        simp [intervalDuration, item, this, parseDurationV]
      simp only [List.map_cons, eachOk, h1, ih (fun j hj => hdur j (by simp [hj])), hx, Option.getD_some]
  have ht := hr.total
  have hnn : ∀ x ∈ r.intervals.map (fun i => i.duration.getD 0), 0 ≤ x := by
    intro x hx
    simp only [List.mem_map] at hx
    obtain ⟨i, hi, rfl⟩ := hx
    cases h : i.duration with
    | none => simp
    | some y =>
      obtain ⟨s, h1, h2, -⟩ := (hg.intervals i hi).duration y h
      simp only [Option.getD_some]; omega
  simp only [signalDuration, item, r.gets.1, elements, hi]
  rw [sumDurations_spans hnn 0 (by omega) (by rw [ht]; omega), ht]
  simp

theorem adjust_ready {r : EventP} (hg : r.Good lib) (h : r.Ready) : adjustDuration (.dict r.dict) = .ok (.dict r.dict) := by
  obtain ⟨-, g2, g3, -⟩ := r.gets
  have hd : Dict.get? r.period.dict "duration" = some (.timedelta r.period.duration) := by simp [ActiveP.dict, Dict.get?]
  obtain ⟨-, -, -, hmax⟩ := hg.period.duration
  have hs : eachOk signalDuration ((r.signals.map SignalP.dict).map .dict) = .ok (r.signals.map (fun _ => r.period.duration)) := by
    have h1 := h.signals
    have h2 := hg.signals
    generalize r.signals = l at h1 h2
    induction l with
    | nil => rfl
    | cons s l ih =>
      simp only [List.map_cons, eachOk, signalDuration_ready (h2 s (by simp)) (h1 s (by simp)) hmax,
        ih (fun x hx => h1 x (by simp [hx])) (fun x hx => h2 x (by simp [hx]))]
  simp only [adjustDuration, item, g2, g3, hd, signalDurations, elements, hs]
  rw [if_pos]
  simp

theorem eachSignal {r : EventP} {f : Value → Res Value} (h : ∀ s ∈ r.signals, f (.dict s.dict) = .ok (.dict s.dict)) :
    modifyItem (.dict r.dict) "event_signals" (forEach f) = .ok (.dict r.dict) := by
  refine modifyItem_same r.gets.2.2.1 (forEach_same (fun x hx => ?_))
  simp only [List.map_map, List.mem_map, Function.comp_apply] at hx
  obtain ⟨s, hm, rfl⟩ := hx
  exact h s hm

theorem simple_ready {r : EventP} (h : r.Ready) : checkSimple (.dict r.dict) = .ok (.dict r.dict) := by
  refine eachSignal (fun s hs => ?_)
  obtain ⟨g1, g2, -⟩ := s.gets
  simp only [checkSimpleSignal, item, g1, g2]
  by_cases e : s.name = "SIMPLE"
  · have : forEach checkLevel (.list ((s.intervals.map IntervalP.dict).map .dict)) = .ok (.list ((s.intervals.map IntervalP.dict).map .dict)) := by
      refine forEach_same (fun x hx => ?_)
      simp only [List.map_map, List.mem_map, Function.comp_apply] at hx
      obtain ⟨i, hm, rfl⟩ := hx
      have hg : Dict.get? i.dict "signal_payload" = some i.number := by simp [IntervalP.dict, Dict.get?, Dict.get?_append, Dict.get?_entry?]
      simp [checkLevel, item, hg, (h.signals s hs).levels e i hm]
    simp only [e, if_true, this]
  · simp [e]

theorem zero_ready {r : EventP} (h : r.Ready) : zeroCurrent (.dict r.dict) = .ok (.dict r.dict) := by
  refine eachSignal (fun s hs => ?_)
  obtain ⟨-, g2, g3, -⟩ := s.gets
  have hst : Dict.get? r.descriptor.dict "event_status" = some (.str r.descriptor.status) := by
    simp [DescriptorP.dict, Dict.get?, Dict.get?_append, Dict.get?_entry?]
  cases hc : s.current with
  | none =>
    rw [hc] at g3
    simp only [zeroSignal, pyIn, Dict.has, g3, Option.map_none, Option.isSome_none]
  | some c =>
    rw [hc] at g3
    have hcur := (h.signals s hs).current
    simp only [zeroSignal, pyIn, Dict.has, g3, Option.map_some, Option.isSome_some, item, g2, r.gets.1, hst]
    by_cases e : s.name = "SIMPLE"
    · by_cases e' : r.descriptor.status = "ACTIVE"
      · simp [e, e']
      · simp [hcur e e' c hc]
    · simp [e]

theorem namespaces_ready {r : EventP} (h : r.Ready) : namespaces (.dict r.dict) = .ok (.dict r.dict) := by
  refine eachSignal (fun s hs => ?_)
  obtain ⟨-, -, -, g4⟩ := s.gets
  cases hm : s.measurement with
  | none =>
    rw [hm] at g4
    simp [onMeasurement, pyIn, Dict.has, g4]
  | some m =>
    rw [hm] at g4
    have hns := (h.signals s hs).namespaces m hm
    have hg : Dict.get? m.dict "ns" = some (.str m.ns) := by simp [MeasurementP.dict, Dict.get?]
    have hg' : Dict.get? m.dict "name" = some (.str m.name) := by simp [MeasurementP.dict, Dict.get?]
    have hset : setNamespace (.dict m.dict) = .ok (.dict m.dict) := by
      simp [setNamespace, item, hg', namespace_of hns, setItem, Dict.set_get?_self _ _ _ hg]
    simp only [onMeasurement, pyIn, Dict.has, g4, Option.map_some, Option.isSome_some, item]
    simp [modifyItem_same g4 hset]

theorem response_ready {r : EventP} (h : r.Ready) : requireResponse (.dict r.dict) = .ok (.dict r.dict) := by
  have g := r.gets.2.2.2.2
  have := h.response
  simp [requireResponse, pyIn, Dict.has, g, item, this]

theorem created_ready {now : Int} (r : EventP) : stampCreated now (.dict r.dict) = .ok (.dict r.dict) := by
  have hc : Dict.get? r.descriptor.dict "created_date_time" = some (.datetime r.descriptor.created) := by
    simp [DescriptorP.dict, Dict.get?, Dict.get?_append, Dict.get?_entry?]
  refine modifyItem_same r.gets.1 ?_
  simp [stampDescriptor, pyIn, Dict.has, hc, item, Value.truthy]

theorem targets_ready {r : EventP} (h : r.Ready) : checkTargets (.dict r.dict) = .ok (.dict r.dict) := by
  have g := r.gets.2.2.2.1
  rw [h.targets] at g
  cases hp : pyIn "targets" (.dict r.dict) with
  | error e => simp [pyIn] at hp
  | ok b =>
    have hb : pyIn "targets_by_type" (.dict r.dict) = .ok false := by simp [pyIn, Dict.has, g]
    cases b <;> simp only [checkTargets, hp, hb]

theorem preflight_events_ready {now : Int} {r : DistributeEventP} (hg : r.Good lib) (h : ∀ e ∈ r.events, e.Ready) :
    preflightMessage now "oadrDistributeEvent" r.dict = .ok (.dict r.dict) := by
  have hp : r.dict.map (fun e => (e.1, plainEntry e.2)) = r.dict := by
    cases hv : r.response <;> simp [DistributeEventP.dict, entry?, hv, plainEntry, Value.asPlain]
  have hge : Dict.get? r.dict "events" = some (.list ((r.events.map EventP.dict).map .dict)) := by
    simp [DistributeEventP.dict, Dict.get?, Dict.get?_append, Dict.get?_entry?]
  have each : ∀ f : Value → Res Value, (∀ e ∈ r.events, f (.dict e.dict) = .ok (.dict e.dict)) →
      modifyItem (.dict r.dict) "events" (forEach f) = .ok (.dict r.dict) := by
    intro f hf
    refine modifyItem_same hge (forEach_same (fun x hx => ?_))
    simp only [List.map_map, List.mem_map, Function.comp_apply] at hx
    obtain ⟨e, hm, rfl⟩ := hx
    exact hf e hm
  simp only [preflightMessage, hp, preflightDistributeEvent, if_true, phases,
    each _ (fun e he => adjust_ready (hg.events e he) (h e he)), each _ (fun e he => simple_ready (h e he)), each _ (fun e he => zero_ready (h e he)),
    each _ (fun e he => namespaces_ready (h e he)), each _ (fun e he => response_ready (h e he)), each _ (fun e _ => created_ready e),
    each _ (fun e he => targets_ready (h e he))]

end Openleadr
