import Verif.Model.EventObject
import Verif.Props.ServerAdd
import Verif.Props.Members
/-!
C100 An event object is complete, consistent and queued as it was made: what `EventDescriptor`, `EventSignal` and `Event` fill in, and what
`add_raw_event` makes of the object.
-/
namespace Openleadr
open Spec

/-- The period covers exactly the given intervals: it starts with the earliest and ends with the latest. -/
def CoversExactly (is : List Interval) (p : ActivePeriod) : Prop :=
  (∃ i ∈ is, i.dtstart = p.dtstart) ∧ (∃ i ∈ is, i.dtstart + i.duration = p.dtstart + p.duration) ∧
  ∀ i ∈ is, p.dtstart ≤ i.dtstart ∧ i.dtstart + i.duration ≤ p.dtstart + p.duration

/-- A period with a start and a duration and nothing else. -/
def Bare (p : ActivePeriod) : Prop := p.tolerance = none ∧ p.notification = none ∧ p.rampUp = none ∧ p.recovery = none

/-- There is at most one bare period that covers given intervals exactly. -/
theorem covers_unique {is : List Interval} {p q : ActivePeriod} (hp : CoversExactly is p) (hq : CoversExactly is q)
    (bp : Bare p) (bq : Bare q) : p = q := by
  obtain ⟨⟨i, hi, hi'⟩, ⟨j, hj, hj'⟩, hall⟩ := hp
  obtain ⟨⟨k, hk, hk'⟩, ⟨m, hm, hm'⟩, hall'⟩ := hq
  have a1 := hall k hk
  have a2 := hall m hm
  have a3 := hall' i hi
  have a4 := hall' j hj
  obtain ⟨ps, pd, pt, pn, pr, pc⟩ := p
  obtain ⟨qs, qd, qt, qn, qr, qc⟩ := q
  obtain ⟨rfl, rfl, rfl, rfl⟩ := bp
  obtain ⟨rfl, rfl, rfl, rfl⟩ := bq
  simp only at *
  have e1 : ps = qs := by omega
  have e2 : pd = qd := by omega
  rw [e1, e2]

/-- The period of an event made without one. -/
theorem periodOfSignals_spec (signals : List Signal) :
    ((∀ sig ∈ signals, sig.intervals = []) ∧ periodOfSignals signals = .error .valueError) ∨
    (∃ p, periodOfSignals signals = .ok p ∧ CoversExactly (signals.flatMap (fun s => s.intervals)) p ∧ Bare p) := by
  simp only [periodOfSignals]
  cases hl : signals.flatMap (fun s => s.intervals) with
  | nil => exact .inl ⟨by simpa using hl, rfl⟩
  | cons i rest =>
    right
    refine ⟨_, rfl, ?_, rfl, rfl, rfl, rfl⟩
    obtain ⟨h1, h2⟩ := minList_spec i.dtstart (rest.map (fun j => j.dtstart))
    obtain ⟨h3, h4⟩ := maxList_spec (i.dtstart + i.duration) (rest.map (fun j => j.dtstart + j.duration))
    simp only [CoversExactly]
    generalize minList _ _ = s at *
    generalize maxList _ _ = d at *
    simp only [List.mem_cons, List.mem_map, forall_eq_or_imp, forall_exists_index, and_imp, forall_apply_eq_imp_iff₂,
      exists_eq_or_imp] at *
    refine ⟨?_, ?_, ⟨h2.1, by omega⟩, fun j hj => ⟨h2.2 j hj, by have := h4.2 j hj; omega⟩⟩
    · rcases h1 with h1 | ⟨j, hj, hj'⟩
      · exact .inl h1.symm
      · exact .inr ⟨j, hj, hj'⟩
    · rcases h3 with h3 | ⟨j, hj, hj'⟩
      · exact .inl (by omega)
      · exact .inr ⟨j, hj, by omega⟩

/-- The period that `add_raw_event` computes has a start and a duration only. -/
theorem eventPeriod_bare {signals : List Signal} {p : ActivePeriod} (h : eventPeriod signals = .ok p) : Bare p := by
  simp only [eventPeriod] at h
  cases hm : signals.mapM (fun s => activePeriodOf (s.intervals.map (fun i => (i.dtstart, i.duration)))) with
  | error e => rw [hm] at h; simp [bind, Except.bind] at h
  | ok ps =>
    rw [hm] at h
    simp only [bind, Except.bind] at h
    cases hps : ps.map (fun p => (p.dtstart, p.duration)) with
    | nil => rw [hps] at h; simp [activePeriodOf] at h
    | cons x xs =>
      rw [hps] at h
      simp only [activePeriodOf, Except.ok.injEq] at h
      subst h
      exact ⟨rfl, rfl, rfl, rfl⟩

/-- The period that `add_raw_event` computes exists if and only if there is a signal and no signal is empty. -/
theorem eventPeriod_exists (signals : List Signal) :
    (∃ p, eventPeriod signals = .ok p) ↔ signals ≠ [] ∧ ∀ sig ∈ signals, sig.intervals ≠ [] := by
  have each : ∀ sig : Signal, (∃ p, activePeriodOf (sig.intervals.map (fun i => (i.dtstart, i.duration))) = .ok p) ↔ sig.intervals ≠ [] := by
    intro sig
    cases sig.intervals with
    | nil => simp [activePeriodOf]
    | cons i l => simp [activePeriodOf]
  simp only [eventPeriod]
  constructor
  · rintro ⟨p, h⟩
    cases hm : signals.mapM (fun s => activePeriodOf (s.intervals.map (fun i => (i.dtstart, i.duration)))) with
    | error e => rw [hm] at h; simp [bind, Except.bind] at h
    | ok ps =>
      rw [hm] at h
      simp only [bind, Except.bind] at h
      refine ⟨?_, fun sig hs => ?_⟩
      · rintro rfl
        simp only [List.mapM_nil, pure, Except.pure, Except.ok.injEq] at hm
        subst hm
        simp [activePeriodOf] at h
      · obtain ⟨b, _, hb⟩ := (mapM_ok_spec _ _ _ hm).1 sig hs
        exact (each sig).mp ⟨b, hb⟩
  · rintro ⟨hne, hall⟩
    have hm : ∀ l : List Signal, (∀ sig ∈ l, sig.intervals ≠ []) →
        ∃ ps, l.mapM (fun s => activePeriodOf (s.intervals.map (fun i => (i.dtstart, i.duration)))) = .ok ps ∧ ps.length = l.length := by
      intro l
      induction l with
      | nil => intro _; exact ⟨[], rfl, rfl⟩
      | cons sig l ih =>
        intro h
        obtain ⟨p, hp⟩ := (each sig).mpr (h sig (by simp))
        obtain ⟨ps, hps, hlen⟩ := ih (fun x hx => h x (by simp [hx]))
        refine ⟨p :: ps, ?_, by simp [hlen]⟩
        simp only [List.mapM_cons, hp, hps, bind, Except.bind, pure, Except.pure]
    obtain ⟨ps, hps, hlen⟩ := hm signals hall
    rw [hps]
    simp only [bind, Except.bind]
    cases ps with
    | nil => exact absurd (List.length_eq_zero_iff.mp hlen.symm) hne
    | cons x xs => exact ⟨_, rfl⟩

/-- The two ways to compute the period of an event agree whenever `add_raw_event`'s way succeeds. -/
theorem period_both_ways {signals : List Signal} {p : ActivePeriod} (h : eventPeriod signals = .ok p) : periodOfSignals signals = .ok p := by
  have hc : CoversExactly (signals.flatMap (fun s => s.intervals)) p := by
    obtain ⟨⟨s, hs, i, hi, hi'⟩, ⟨t, ht, j, hj, hj'⟩, hall⟩ := c17_event_period_spans_signals signals p h
    refine ⟨⟨i, List.mem_flatMap.mpr ⟨s, hs, hi⟩, hi'⟩, ⟨j, List.mem_flatMap.mpr ⟨t, ht, hj⟩, hj'⟩, fun k hk => ?_⟩
    obtain ⟨s', hs', hk'⟩ := List.mem_flatMap.mp hk
    exact hall s' hs' k hk'
  rcases periodOfSignals_spec signals with ⟨he, _⟩ | ⟨q, hq, hcq, hbq⟩
  · obtain ⟨⟨s, hs, i, hi, _⟩, _⟩ := c17_event_period_spans_signals signals p h
    rw [he s hs] at hi
    simp at hi
  · rw [hq, covers_unique hcq hc hbq (eventPeriod_bare h)]

/-- **C100**: what a descriptor is filled up with: times that were not given are the readings of the clock, a missing modification number is
    0; everything that was given is kept. -/
theorem c100_descriptor (now now' : Int) (a : DescriptorArgs) :
    (∀ n, (newDescriptor now now' a).modificationNumber = n ↔ a.modificationNumber = some n ∨ (a.modificationNumber = none ∧ n = 0)) ∧
    (∀ t, (newDescriptor now now' a).modified = some t ↔ a.modified = some t ∨ (a.modified = none ∧ t = now)) ∧
    (∀ t, (newDescriptor now now' a).created = some t ↔ a.created = some t ∨ (a.created = none ∧ t = now')) ∧
    (newDescriptor now now' a).eventId = a.eventId ∧ (newDescriptor now now' a).marketContext = a.marketContext ∧
    (newDescriptor now now' a).priority = a.priority ∧ (newDescriptor now now' a).testEvent = a.testEvent ∧
    (newDescriptor now now' a).vtnComment = a.vtnComment := by
  refine ⟨fun n => ?_, fun t => ?_, fun t => ?_, rfl, rfl, rfl, rfl, rfl⟩
  · cases h : a.modificationNumber <;> simp [newDescriptor, h, eq_comm]
  · cases h : a.modified <;> simp [newDescriptor, h, eq_comm]
  · cases h : a.created <;> simp [newDescriptor, h, eq_comm]

/-- **C100**: which signals can be made: a known type, a known name or one of the user's own, and targets of one type (if only the list is
    given) or in agreement with their grouping (if both are); the signal is as given, but for a list of targets made from their grouping. -/
theorem c100_signal (sig : Signal) :
    ((∃ sig', newSignal sig = .ok sig') ↔
      sig.signalType ∈ signalTypes ∧ (sig.signalName ∈ signalNames ∨ ∃ rest, sig.signalName.toList = 'x' :: '-' :: rest) ∧
      (∀ ts, sig.targets = some ts → sig.targetsByType = none → (groupTargetsByType ts).length ≤ 1) ∧
      (∀ ts g, sig.targets = some ts → sig.targetsByType = some g → groupTargetsByType ts = g)) ∧
    (∀ err, newSignal sig = .error err → err = .valueError) ∧
    ∀ sig', newSignal sig = .ok sig' → sig'.targetsByType = sig.targetsByType ∧
      sig' = { sig with targets := sig'.targets } ∧
      (sig.targets ≠ none ∨ sig.targetsByType = none → sig'.targets = sig.targets) ∧
      (∀ g, sig.targets = none → sig.targetsByType = some g → sig'.targets = some (ungroupTargetsByType g.toDict)) := by
  have hn : signalNameOk sig.signalName = true ↔ sig.signalName ∈ signalNames ∨ ∃ rest, sig.signalName.toList = 'x' :: '-' :: rest := by
    simp only [signalNameOk, Bool.or_eq_true, List.contains_eq_mem, decide_eq_true_eq, List.isPrefixOf_iff_prefix]
    constructor
    · rintro (h | ⟨t, h⟩)
      · exact .inl h
      · exact .inr ⟨t, by simpa using h.symm⟩
    · rintro (h | ⟨t, h⟩)
      · exact .inl h
      · exact .inr ⟨t, by simpa using h.symm⟩
  have ht : signalTypes.contains sig.signalType = true ↔ sig.signalType ∈ signalTypes := List.contains_iff_mem
  obtain ⟨is, name, type, id, cur, ts, g, m⟩ := sig
  simp only at hn ht
  simp only [newSignal, signalChecks]
  by_cases h1 : signalTypes.contains type = true
  · rw [if_neg (by simpa using h1)]
    by_cases h2 : signalNameOk name = true
    · rw [if_neg (by simpa using h2)]
      cases ts with
      | none =>
        cases g with
        | none => simp [ht.mp h1, hn.mp h2]
        | some g => simp [ht.mp h1, hn.mp h2]
      | some ts =>
        cases g with
        | none =>
          by_cases h3 : (groupTargetsByType ts).length ≤ 1
          · simp only; rw [if_neg (by omega)]; simp [ht.mp h1, hn.mp h2, h3]
          · simp only; rw [if_pos (by omega)]; simp [h3]
        | some g =>
          by_cases h3 : groupTargetsByType ts = g
          · simp only; rw [if_pos h3]; simp [ht.mp h1, hn.mp h2, h3]
          · simp only; rw [if_neg h3]; simp [h3]
    · rw [if_pos (by simpa using h2)]
      have h2' := fun h => h2 (hn.mpr h)
      refine ⟨⟨by simp, fun h => absurd h.2.1 h2'⟩, by simp, by simp⟩
  · rw [if_pos (by simpa using h1)]
    have h1' := fun h => h1 (ht.mpr h)
    refine ⟨⟨by simp, fun h => absurd h.1 h1'⟩, by simp, by simp⟩

/-- The period of an event that is made. -/
theorem givenPeriod_spec (a : EventArgs) :
    (givenPeriod a = .error .valueError ∧ a.activePeriod = none ∧ ∀ sig ∈ a.signals, sig.intervals = []) ∨
    (∃ p, givenPeriod a = .ok p ∧ (∀ q, a.activePeriod = some q → p = q) ∧
      (a.activePeriod = none → CoversExactly (a.signals.flatMap (fun s => s.intervals)) p ∧ Bare p) ∧
      ¬ (a.activePeriod = none ∧ ∀ sig ∈ a.signals, sig.intervals = [])) := by
  obtain ⟨d, sigs, ts, g, p, r⟩ := a
  cases p with
  | some q => exact .inr ⟨q, rfl, by simp, by simp, by simp⟩
  | none =>
    rcases periodOfSignals_spec sigs with ⟨h1, h2⟩ | ⟨q, hq, hc, hb⟩
    · exact .inl ⟨h2, rfl, h1⟩
    · refine .inr ⟨q, hq, by simp, fun _ => ⟨hc, hb⟩, fun h => ?_⟩
      obtain ⟨⟨i, hi, _⟩, _⟩ := hc
      obtain ⟨s, hs, hi'⟩ := List.mem_flatMap.mp hi
      rw [h.2 s hs] at hi'
      simp at hi'

/-- **C100**: an event that was made has the given signals and descriptor, the status that its period has at that time (whatever status was
    given), the given period or else one that covers the intervals of all signals exactly, and both representations of the targets: the given
    ones, in agreement if the list was given, or if the grouping that was given is a proper one. -/
theorem c100_made (now : Int) (a : EventArgs) (e : Event) (h : newEvent now a = .ok e) :
    e.signals = a.signals ∧ e.responseRequired = some a.responseRequired ∧
    e.descriptor = { a.descriptor with status := e.status } ∧ StatusAt e.activePeriod now e.status ∧
    (∀ p, a.activePeriod = some p → e.activePeriod = p) ∧
    (a.activePeriod = none → CoversExactly (a.signals.flatMap (fun s => s.intervals)) e.activePeriod ∧ Bare e.activePeriod) ∧
    ∃ ts g, e.targets = some ts ∧ e.targetsByType = some g ∧ (∀ l, a.targets = some l → ts = l) ∧ (∀ m, a.targetsByType = some m → g = m) ∧
      (a.targets = none → ts = ungroupTargetsByType g.toDict) ∧
      ((a.targets ≠ none ∨ ((Dict.keys g).Nodup ∧ ∀ x ∈ g, x.2 ≠ [] ∧ ∀ v ∈ x.2, v ≠ .none)) → g = groupTargetsByType ts) := by
  obtain ⟨d, sigs, ts, g, p, r⟩ := a
  have key : ∃ p', (∀ q, p = some q → p' = q) ∧ (p = none → CoversExactly (sigs.flatMap (fun s => s.intervals)) p' ∧ Bare p') ∧
      ∃ tg, eventTargets ts g = .ok tg ∧ e = { descriptor := { d with status := determineStatus now p' }, signals := sigs, targets := some tg.1, targetsByType := some tg.2, activePeriod := p', responseRequired := some r } := by
    rcases givenPeriod_spec ⟨d, sigs, ts, g, p, r⟩ with ⟨he, _⟩ | ⟨p', hp, h1, h2, _⟩
    · simp [newEvent, he] at h
    · simp only [newEvent, hp] at h
      cases ht : eventTargets ts g with
      | error err => rw [ht] at h; simp at h
      | ok tg =>
        rw [ht] at h
        simp only [Except.ok.injEq] at h
        exact ⟨p', h1, h2, tg, rfl, h.symm⟩
  obtain ⟨p', h1, h2, ⟨l, m⟩, ht, rfl⟩ := key
  refine ⟨rfl, rfl, rfl, (c16_status_by_clock _ _ _).mpr rfl, h1, h2, l, m, rfl, rfl, ?_⟩
  cases ts with
  | none =>
    cases g with
    | none => simp [eventTargets] at ht
    | some g =>
      simp only [eventTargets, Except.ok.injEq, Prod.mk.injEq] at ht
      obtain ⟨rfl, rfl⟩ := ht
      refine ⟨by simp, by simp, fun _ => rfl, ?_⟩
      rintro (h | ⟨h, h'⟩)
      · simp at h
      · exact (c13_group_of_ungroup g h h').symm
  | some t =>
    cases g with
    | none =>
      simp only [eventTargets, Except.ok.injEq, Prod.mk.injEq] at ht
      obtain ⟨rfl, rfl⟩ := ht
      exact ⟨by simp, by simp, by simp, fun _ => rfl⟩
    | some g =>
      simp only [eventTargets] at ht
      split at ht
      · rename_i hg
        simp only [Except.ok.injEq, Prod.mk.injEq] at ht
        obtain ⟨rfl, rfl⟩ := ht
        exact ⟨by simp, by simp, by simp, fun _ => hg.symm⟩
      · simp at ht

/-- **C100**: exactly these events cannot be made: no period and not one interval, no targets at all, or two representations of the targets
    that disagree; it is always a `ValueError`. -/
theorem c100_refused (now : Int) (a : EventArgs) (err : Err) :
    newEvent now a = .error err ↔ err = .valueError ∧
      ((a.activePeriod = none ∧ ∀ sig ∈ a.signals, sig.intervals = []) ∨ (a.targets = none ∧ a.targetsByType = none) ∨
       ∃ ts g, a.targets = some ts ∧ a.targetsByType = some g ∧ groupTargetsByType ts ≠ g) := by
  obtain ⟨d, sigs, ts, g, p, r⟩ := a
  have ht : (eventTargets ts g = .error .valueError ∧ ((ts = none ∧ g = none) ∨ ∃ t m, ts = some t ∧ g = some m ∧ groupTargetsByType t ≠ m)) ∨
      (∃ tg, eventTargets ts g = .ok tg) ∧ ¬ ((ts = none ∧ g = none) ∨ ∃ t m, ts = some t ∧ g = some m ∧ groupTargetsByType t ≠ m) := by
    cases ts with
    | none => cases g <;> simp [eventTargets]
    | some t =>
      cases g with
      | none => simp [eventTargets]
      | some m => by_cases hg : groupTargetsByType t = m <;> simp [eventTargets, hg]
  rcases givenPeriod_spec ⟨d, sigs, ts, g, p, r⟩ with ⟨h1, h2⟩ | ⟨q, h1, _, _, h2⟩
  · simp only [newEvent, h1, Except.error.injEq]
    exact ⟨fun h => ⟨h.symm, .inl h2⟩, fun h => h.1.symm⟩
  · simp only [newEvent, h1]
    rcases ht with ⟨h3, h4⟩ | ⟨⟨tg, h3⟩, h4⟩
    · rw [h3]
      simp only [Except.error.injEq]
      exact ⟨fun h => ⟨h.symm, .inr h4⟩, fun h => h.1.symm⟩
    · rw [h3]
      constructor
      · intro h; cases h
      · rintro ⟨_, h | h⟩
        · exact absurd h h2
        · exact absurd h h4

/-- **C100** (partial: every signal has an interval and no period was given; for the others see below): an event that was made and is
    accepted for a VEN stands at the end of its queue exactly as it was made, a missing priority being 0. -/
theorem c100_added_partial (now : Int) (a : EventArgs) (e : Event) (s s' : Server) (ven id : String) (cb : Option Callback) (d : Option Nat)
    (h : newEvent now a = .ok e) (hp : a.activePeriod = none) (hadd : addRawEvent s ven e cb d = (s', .ok id)) :
    id = a.descriptor.eventId ∧
    s'.queue ven = s.queue ven ++ [{ e with descriptor := { e.descriptor with priority := some (e.descriptor.priority.getD 0) } }] := by
  obtain ⟨hsig, _, hd, _, _, hper, _⟩ := c100_made now a e h
  obtain ⟨hc, hb⟩ := hper hp
  have hid : e.id = a.descriptor.eventId := by simp only [Event.id, hd]
  rcases addRawEvent_spec s ven e cb d with ⟨err, he, _⟩ | ⟨p, _, hpe, hi, hs⟩
  · rw [hadd] at he; simp at he
  · rw [hadd] at hi hs
    simp only [Except.ok.injEq] at hi hs
    refine ⟨hi.trans hid, ?_⟩
    have hq : p = e.activePeriod := by
      have hpe' := hpe
      rw [hsig] at hpe'
      rcases periodOfSignals_spec a.signals with ⟨_, he⟩ | ⟨q, hq, hcq, hbq⟩
      · rw [period_both_ways hpe'] at he; simp at he
      · rw [period_both_ways hpe'] at hq
        simp only [Except.ok.injEq] at hq
        subst hq
        exact covers_unique hcq hc hbq hb
    rw [hs]
    simp only [Server.queue, Dict.get?_set_self, Option.getD_some, withDefaults, hq]

/-- **C100** (partial: no callback; the signals that are missing here are refused, see below): an event of which every signal has an interval
    is accepted. -/
theorem c100_accepted_partial (now : Int) (a : EventArgs) (e : Event) (s : Server) (ven : String) (d : Option Nat)
    (h : newEvent now a = .ok e) (hne : a.signals ≠ []) (hall : ∀ sig ∈ a.signals, sig.intervals ≠ []) :
    (addRawEvent s ven e none d).2 = .ok a.descriptor.eventId := by
  obtain ⟨hsig, hr, hd, _⟩ := c100_made now a e h
  have hid : e.id = a.descriptor.eventId := by simp only [Event.id, hd]
  rcases addRawEvent_spec s ven e none d with ⟨err, _, _, hc | hc⟩ | ⟨p, _, _, hi, _⟩
  · have hok : callbackOk e none = .ok () := by
      simp only [callbackOk, hr]
      split <;> rfl
    rw [hok] at hc; simp at hc
  · obtain ⟨p, hp⟩ := (eventPeriod_exists e.signals).mpr (by rw [hsig]; exact ⟨hne, hall⟩)
    rw [hp] at hc; simp at hc
  · rw [hi, hid]

/-- **C100, refuted** for an event with a signal that has no intervals: however the event was made (it can be, by giving a period or by
    another signal's intervals), `add_raw_event` fails. -/
theorem c100_empty_signal_violated (now : Int) (a : EventArgs) (e : Event) (s : Server) (ven : String) (cb : Option Callback) (d : Option Nat)
    (h : newEvent now a = .ok e) (sig : Signal) (hs : sig ∈ a.signals) (hi : sig.intervals = []) :
    ∃ err, (addRawEvent s ven e cb d).2 = .error err ∧ (addRawEvent s ven e cb d).1.queue ven = s.queue ven := by
  obtain ⟨hsig, _⟩ := c100_made now a e h
  rcases addRawEvent_spec s ven e cb d with ⟨err, he, hq, _⟩ | ⟨p, _, hp, _, _⟩
  · refine ⟨err, he, ?_⟩
    rcases hx : addRawEvent s ven e cb d with ⟨s', r⟩
    rw [hx] at he
    simp only at he
    subst he
    exact (c25_raw_refused_without_effect s s' ven e cb d err hx ven).1
  · have := ((eventPeriod_exists e.signals).mp ⟨p, hp⟩).2 sig (by rw [hsig]; exact hs)
    exact absurd hi this

/-- **C100, refuted** for an event made with a period of its own: what is queued has another period than the event that was made, unless the
    given one is bare and covers the intervals exactly; the status is still the one that the given period had. -/
theorem c100_own_period_violated (now : Int) (a : EventArgs) (e : Event) (s s' : Server) (ven id : String) (cb : Option Callback)
    (d : Option Nat) (p : ActivePeriod) (h : newEvent now a = .ok e) (hp : a.activePeriod = some p)
    (hadd : addRawEvent s ven e cb d = (s', .ok id)) :
    ∃ q x, s'.queue ven = s.queue ven ++ [x] ∧ x.activePeriod = q ∧ CoversExactly (a.signals.flatMap (fun s => s.intervals)) q ∧ Bare q ∧
      x.status = determineStatus now p ∧ (¬ (CoversExactly (a.signals.flatMap (fun s => s.intervals)) p ∧ Bare p) → x.activePeriod ≠ p) := by
  obtain ⟨hsig, _, hd, hst, hper, _⟩ := c100_made now a e h
  rcases addRawEvent_spec s ven e cb d with ⟨err, he, _⟩ | ⟨q, _, hpe, hi, hs⟩
  · rw [hadd] at he; simp at he
  · rw [hadd] at hi hs
    simp only [Except.ok.injEq] at hi hs
    have hb := eventPeriod_bare hpe
    have hc : CoversExactly (a.signals.flatMap (fun s => s.intervals)) q := by
      rw [hsig] at hpe
      rcases periodOfSignals_spec a.signals with ⟨_, he⟩ | ⟨q', hq, hcq, hbq⟩
      · rw [period_both_ways hpe] at he; simp at he
      · rw [period_both_ways hpe] at hq
        simp only [Except.ok.injEq] at hq
        subst hq
        exact hcq
    refine ⟨q, withDefaults e q, ?_, rfl, hc, hb, ?_, fun hn heq => hn (heq ▸ ⟨hc, hb⟩)⟩
    · rw [hs]; simp only [Server.queue, Dict.get?_set_self, Option.getD_some]
    · have := (c16_status_by_clock _ _ _).mp hst
      rw [hper p hp] at this
      exact this

/-- A signal of two intervals, for the examples. -/
def madeSignal : Signal :=
  { intervals := [⟨200, 50, .int 1, none⟩, ⟨100, 100, .int 2, none⟩], signalName := "x-own", signalType := "level", signalId := "s" }
/-- The arguments of an event, for the examples. -/
def madeArgs : EventArgs :=
  { descriptor := newDescriptor 5 6 { eventId := "e", modificationNumber := none, marketContext := "m", status := .cancelled },
    signals := [madeSignal, { madeSignal with intervals := [⟨300, 20, .int 3, none⟩] }], targetsByType := some [("ven_id", [.str "v"])] }

/-- non-vacuity: an event made of two signals, from its targets by type; it covers 100 to 320, and is far, although it was to be cancelled. -/
example : ∃ e, newEvent 10 madeArgs = .ok e ∧ e.activePeriod = { dtstart := 100, duration := 220 } ∧ e.status = .far ∧
    e.targets = some [[("ven_id", .str "v")]] ∧ e.modnum = 0 ∧ e.descriptor.modified = some 5 ∧ e.descriptor.created = some 6 ∧
    (addRawEvent Server.init "v" e none none).1.queue "v" = [e] := ⟨_, rfl, by decide +kernel⟩

/-- non-vacuity: an event with its own period, during the ramp-up of it; in the queue it is near, with a period that has no ramp-up. -/
example : ∃ e x, newEvent 90 { madeArgs with activePeriod := some { dtstart := 100, duration := 400, rampUp := some 30 } } = .ok e ∧
    (addRawEvent Server.init "v" e none none).1.queue "v" = [x] ∧ x.status = .near ∧ x.activePeriod = { dtstart := 100, duration := 220 } :=
  ⟨_, _, rfl, rfl, by decide +kernel⟩

/-- non-vacuity: a signal without intervals beside one with intervals: the event can be made, but not added. -/
example : ∃ e, newEvent 10 { madeArgs with signals := [madeSignal, { madeSignal with intervals := [] }] } = .ok e ∧
    (addRawEvent Server.init "v" e none none).2 = .error .indexError := ⟨_, rfl, by decide +kernel⟩

/-- non-vacuity: the refusals. -/
example : newEvent 10 { madeArgs with signals := [] } = .error .valueError ∧
    newEvent 10 { madeArgs with targetsByType := none } = .error .valueError ∧
    newEvent 10 { madeArgs with targets := some [[("ven_id", .str "w")]] } = .error .valueError ∧
    newSignal { madeSignal with targets := some [[("ven_id", .str "w")], [("group_id", .str "g")]] } = .error .valueError ∧
    (newSignal { madeSignal with targetsByType := some [("ven_id", [.str "w"])] }).toOption.map (fun s => s.targets) =
      some (some [[("ven_id", .str "w")]]) := by decide +kernel

end Openleadr
