import Verif.Lemmas.Server
import Verif.Props.Events
/-!
C23 Adding an event queues it for that VEN only. C24 Periods given with an event are kept. C25 Invalid events are refused without effect.
C26 Cancelling an event marks it and bumps its modification number. Also C17 for whole events.
-/
namespace Openleadr
open Spec

/-- Two lists with the same keys of every position. -/
theorem mapM_ok_spec {α β : Type} (f : α → Res β) (l : List α) (l' : List β) (h : l.mapM f = .ok l') :
    (∀ a ∈ l, ∃ b ∈ l', f a = .ok b) ∧ (∀ b ∈ l', ∃ a ∈ l, f a = .ok b) := by
  induction l generalizing l' with
  | nil =>
    simp only [List.mapM_nil, pure, Except.pure, Except.ok.injEq] at h
    subst h; simp
  | cons a l ih =>
    simp only [List.mapM_cons] at h
    cases ha : f a with
    | error e => rw [ha] at h; simp [bind, Except.bind] at h
    | ok b =>
      rw [ha] at h
      simp only [bind, Except.bind] at h
      cases hl : l.mapM f with
      | error e => rw [hl] at h; simp at h
      | ok bs =>
        rw [hl] at h
        simp only [pure, Except.pure, Except.ok.injEq] at h
        subst h
        obtain ⟨h1, h2⟩ := ih bs hl
        constructor
        · intro x hx
          simp only [List.mem_cons] at hx
          rcases hx with rfl | hx
          · exact ⟨b, by simp, ha⟩
          · obtain ⟨y, hy, hf⟩ := h1 x hx; exact ⟨y, by simp [hy], hf⟩
        · intro y hy
          simp only [List.mem_cons] at hy
          rcases hy with rfl | hy
          · exact ⟨a, by simp, ha⟩
          · obtain ⟨x, hx, hf⟩ := h2 y hy; exact ⟨x, by simp [hx], hf⟩

/-- **C17**, for the events that are added: the period of the event starts at the earliest start and ends at the latest end over all
    intervals of all signals. -/
theorem c17_event_period_spans_signals (signals : List Signal) (p : ActivePeriod) (h : eventPeriod signals = .ok p) :
    (∃ sig ∈ signals, ∃ i ∈ sig.intervals, i.dtstart = p.dtstart) ∧
    (∃ sig ∈ signals, ∃ i ∈ sig.intervals, i.dtstart + i.duration = p.dtstart + p.duration) ∧
    (∀ sig ∈ signals, ∀ i ∈ sig.intervals, p.dtstart ≤ i.dtstart ∧ i.dtstart + i.duration ≤ p.dtstart + p.duration) := by
  simp only [eventPeriod] at h
  cases hm : signals.mapM (fun s => activePeriodOf (s.intervals.map (fun i => (i.dtstart, i.duration)))) with
  | error e => rw [hm] at h; simp [bind, Except.bind] at h
  | ok ps =>
    rw [hm] at h
    simp only [bind, Except.bind] at h
    obtain ⟨m1, m2⟩ := mapM_ok_spec _ _ _ hm
    obtain ⟨⟨a, ha, ha'⟩, h2, ⟨b, hb, hb'⟩, h4⟩ := c17_period_spans_intervals _ _ h
    simp only [List.mem_map] at ha hb
    obtain ⟨pa, hpa, rfl⟩ := ha
    obtain ⟨pb, hpb, rfl⟩ := hb
    obtain ⟨sa, hsa, hsa'⟩ := m2 pa hpa
    obtain ⟨sb, hsb, hsb'⟩ := m2 pb hpb
    obtain ⟨⟨i, hi, hi'⟩, _, _, _⟩ := c17_period_spans_intervals _ _ hsa'
    obtain ⟨_, _, ⟨j, hj, hj'⟩, _⟩ := c17_period_spans_intervals _ _ hsb'
    simp only [List.mem_map] at hi hj
    obtain ⟨i, hi, rfl⟩ := hi
    obtain ⟨j, hj, rfl⟩ := hj
    refine ⟨⟨sa, hsa, i, hi, hi'.trans ha'⟩, ⟨sb, hsb, j, hj, hj'.trans hb'⟩, ?_⟩
    intro sig hsig k hk
    obtain ⟨q, hq, hq'⟩ := m1 sig hsig
    obtain ⟨_, g2, _, g4⟩ := c17_period_spans_intervals _ _ hq'
    have e1 := g2 (k.dtstart, k.duration) (List.mem_map.mpr ⟨k, hk, rfl⟩)
    have e2 := g4 (k.dtstart, k.duration) (List.mem_map.mpr ⟨k, hk, rfl⟩)
    have e3 := h2 (q.dtstart, q.duration) (List.mem_map.mpr ⟨q, hq, rfl⟩)
    have e4 := h4 (q.dtstart, q.duration) (List.mem_map.mpr ⟨q, hq, rfl⟩)
    simp only at e1 e2 e3 e4
    omega

/-- The members of a stored event that come from the arguments of `add_event`. -/
def MadeFrom (a : AddArgs) (e : Event) : Prop :=
  e.descriptor.eventId = a.eventId ∧ e.descriptor.modificationNumber = 0 ∧ e.descriptor.marketContext = a.marketContext ∧
  e.descriptor.priority = some 0 ∧ e.responseRequired = some a.responseRequired ∧
  (∃ sig, e.signals = [sig] ∧ sig.intervals = a.intervals ∧ sig.signalName = a.signalName ∧ sig.signalType = a.signalType) ∧
  (∃ ts, e.targets = some ts ∧ e.targetsByType = some (groupTargetsByType ts) ∧
    (a.target = none → a.targets = none → a.targetsByType = none → ts = [[("ven_id", .str a.ven)]]) ∧
    (∀ t, a.target = some t → ts = [t]) ∧
    (∀ l, a.target = none → a.targetsByType = none → a.targets = some l → ts = l) ∧
    (∀ g, a.target = none → a.targetsByType = some g → ts = ungroupTargetsByType g.toDict)) ∧
  (∀ i ∈ a.intervals, e.activePeriod.dtstart ≤ i.dtstart ∧ i.dtstart + i.duration ≤ e.activePeriod.dtstart + e.activePeriod.duration)

/-- **C23**: an event that is accepted is appended to the queue of its VEN, with the given contents; the VEN's flag is set; no other VEN is
    affected. -/
theorem c23_add_event (s s' : Server) (a : AddArgs) (id : String) (h : addEvent s a = (s', .ok (some id))) :
    id = a.eventId ∧ s'.flag a.ven = true ∧ (∃ e, s'.queue a.ven = s.queue a.ven ++ [e] ∧ MadeFrom a e) ∧
    ∀ v, v ≠ a.ven → SameFor v s s' := by
  simp only [addEvent] at h
  split at h
  · simp at h
  · split at h
    · simp at h
    · split at h
      · simp at h
      · split at h
        · simp at h
        · cases hp : activePeriodOf (a.intervals.map (fun i => (i.dtstart, i.duration))) with
          | error e => rw [hp] at h; simp at h
          | ok period =>
            rw [hp] at h
            simp only at h
            have hf := (addRawEvent_frame s a.ven (makeEvent a period) a.callback a.delivery).2.2.2
            rcases addRawEvent_spec s a.ven (makeEvent a period) a.callback a.delivery with
              ⟨err, he, _, _⟩ | ⟨p', _, hp', hid, hs⟩
            · cases hx : addRawEvent s a.ven (makeEvent a period) a.callback a.delivery with
              | mk t r =>
                rw [hx] at he h
                simp only at he
                subst he
                simp at h
            · cases hx : addRawEvent s a.ven (makeEvent a period) a.callback a.delivery with
              | mk t r =>
                rw [hx] at hid hs h hf
                simp only at hid hs hf
                subst hid
                simp only [Prod.mk.injEq, Except.ok.injEq, Option.some.injEq] at h
                obtain ⟨rfl, rfl⟩ := h
                refine ⟨rfl, ?_, ⟨withDefaults (makeEvent a period) p', ?_, ?_⟩, hf⟩
                · rw [hs]; simp [Server.flag, Dict.get?_set_self]
                · rw [hs]; simp [Server.queue, Dict.get?_set_self]
                · refine ⟨rfl, rfl, rfl, rfl, rfl, ⟨_, rfl, rfl, rfl, rfl⟩, ⟨pickTargets a, rfl, rfl, ?_, ?_, ?_, ?_⟩, ?_⟩
                  · intro h1 h2 h3; simp [pickTargets, h1, h2, h3]
                  · intro t h1; simp [pickTargets, h1]
                  · intro l h1 h2 h3; simp [pickTargets, h1, h2, h3]
                  · intro g h1 h2; simp [pickTargets, h1, h2]
                  · intro i hi
                    obtain ⟨_, _, h3⟩ := c17_event_period_spans_signals _ _ hp'
                    exact h3 _ (List.mem_singleton.mpr rfl) i hi

/-- **C23**: the same for an event given as a whole: only its period and a missing priority are filled in. -/
theorem c23_add_raw_event (s s' : Server) (ven id : String) (event : Event) (cb : Option Callback) (d : Option Nat)
    (h : addRawEvent s ven event cb d = (s', .ok id)) :
    id = event.id ∧ s'.flag ven = true ∧
    (∃ p, s'.queue ven = s.queue ven ++
      [{ event with activePeriod := p, descriptor := { event.descriptor with priority := some (event.descriptor.priority.getD 0) } }] ∧
      ∀ sig ∈ event.signals, ∀ i ∈ sig.intervals, p.dtstart ≤ i.dtstart ∧ i.dtstart + i.duration ≤ p.dtstart + p.duration) ∧
    ∀ v, v ≠ ven → SameFor v s s' := by
  have hf := (addRawEvent_frame s ven event cb d).2.2.2
  rcases addRawEvent_spec s ven event cb d with ⟨err, he, _, _⟩ | ⟨p, _, hp, hid, hs⟩
  · rw [h] at he; simp at he
  · rw [h] at hid hs hf
    simp only [Except.ok.injEq] at hid hs hf
    refine ⟨hid, ?_, ⟨p, ?_, (c17_event_period_spans_signals _ _ hp).2.2⟩, hf⟩
    · rw [hs]; simp [Server.flag, Dict.get?_set_self]
    · rw [hs]; simp [Server.queue, Dict.get?_set_self, withDefaults]

/-- **C23**: in external polling mode nothing is queued. -/
theorem c23_external_adds_nothing (s : Server) (a : AddArgs) (h : s.external = true) : addEvent s a = (s, .ok none) := by
  simp [addEvent, h]

/-- non-vacuity: an event is accepted by a server that already has events of two VENs. -/
def sampleArgs : AddArgs :=
  { ven := "ven1", signalName := "SIMPLE", signalType := "level", intervals := [{ dtstart := 100, duration := 50, payload := .int 1 }],
    eventId := "event1", signalId := "sig1", now := 0 }
def sampleEvent (id : String) : Event :=
  { descriptor := { eventId := id, modificationNumber := 0, marketContext := "m", status := .far },
    signals := [], activePeriod := { dtstart := 10, duration := 5 } }
def sampleServer : Server :=
  { Server.init with events := [("ven1", [sampleEvent "x"]), ("ven2", [sampleEvent "y", sampleEvent "z"])] }
example : ∃ s', addEvent sampleServer sampleArgs = (s', .ok (some "event1")) ∧ s'.queue "ven1" ≠ [sampleEvent "x"] ∧
    s'.queue "ven2" = [sampleEvent "y", sampleEvent "z"] :=
  ⟨_, rfl, by decide +kernel, by decide +kernel⟩

/-- **C24, refuted**: whatever periods are given, the stored event has none of them. -/
theorem c24_periods_lost_violated (s s' : Server) (a : AddArgs) (id : String) (h : addEvent s a = (s', .ok (some id))) :
    ∃ e, s'.queue a.ven = s.queue a.ven ++ [e] ∧
      e.activePeriod.rampUp = none ∧ e.activePeriod.notification = none ∧ e.activePeriod.recovery = none := by
  obtain ⟨_, _, ⟨e, hq, _⟩, _⟩ := c23_add_event s s' a id h
  refine ⟨e, hq, ?_⟩
  have plain : ∀ l q, activePeriodOf l = .ok q → q.rampUp = none ∧ q.notification = none ∧ q.recovery = none := by
    intro l q hq
    cases l with
    | nil => simp [activePeriodOf] at hq
    | cons i r => simp only [activePeriodOf, Except.ok.injEq] at hq; rw [← hq]; simp
  rcases addEvent_cases s a with hs | ⟨_, p, _, hs⟩
  · rw [h] at hs; simp only at hs; rw [hs] at hq
    have := congrArg List.length hq
    simp at this
  · rw [h] at hs; simp only at hs
    rcases addRawEvent_queue s a.ven (makeEvent a p) a.callback a.delivery a.ven with hq' | ⟨_, p', hp', hq'⟩
    · rw [← hs, hq] at hq'
      have := congrArg List.length hq'
      simp at this
    · rw [← hs, hq] at hq'
      have he : e = withDefaults (makeEvent a p) p' := by simpa using List.append_cancel_left hq'
      rw [he]
      simp only [eventPeriod] at hp'
      cases hm : ((makeEvent a p).signals.mapM (fun s => activePeriodOf (s.intervals.map (fun i => (i.dtstart, i.duration))))) with
      | error x => rw [hm] at hp'; simp [bind, Except.bind] at hp'
      | ok ps =>
        rw [hm] at hp'
        simp only [bind, Except.bind] at hp'
        exact plain _ _ hp'

/-- **C24, refuted**: an event with a ramp-up period of 30 that starts at 100 is handed out as 'far' at 90, not as 'near'. -/
theorem c24_never_near_violated : ∃ (a : AddArgs) (env : Env) (e : Event), a.rampUp = some 30 ∧ (∀ i ∈ a.intervals, i.dtstart = 100) ∧
    (requestEvent env (fun _ => 90) (addEvent Server.init a).1 a.ven).2.2 = .ok (.distribute [e]) ∧ e.status = .far :=
  ⟨{ sampleArgs with rampUp := some 30 }, ⟨fun _ => none, fun _ => none, fun _ => .nothing⟩,
    { descriptor := { eventId := "event1", modificationNumber := 0, marketContext := "oadr://unknown.context",
                      status := .far, created := some 0, modified := some 0 },
      signals := [{ intervals := [{ dtstart := 100, duration := 50, payload := .int 1 }], signalName := "SIMPLE", signalType := "level",
                    signalId := "sig1" }],
      targets := some [[("ven_id", .str "ven1")]], targetsByType := some [("ven_id", [.str "ven1"])],
      activePeriod := { dtstart := 100, duration := 50 } },
    rfl, by decide +kernel, by decide +kernel, by decide +kernel⟩

/-- **C25**: when `add_event` refuses, nothing has changed. -/
theorem c25_refused_without_effect (s s' : Server) (a : AddArgs) (err : Err) (h : addEvent s a = (s', .error err)) : s' = s := by
  simp only [addEvent] at h
  split at h
  · simp at h
  · split at h
    · simp at h; exact h.1.symm
    · split at h
      · simp at h; exact h.1.symm
      · split at h
        · simp at h; exact h.1.symm
        · cases hp : activePeriodOf (a.intervals.map (fun i => (i.dtstart, i.duration))) with
          | error e => rw [hp] at h; simp at h; exact h.1.symm
          | ok period =>
            rw [hp] at h
            simp only at h
            have hep : ∃ p', eventPeriod (makeEvent a period).signals = .ok p' := by
              simp only [eventPeriod, makeEvent, List.mapM_cons, List.mapM_nil, hp, bind, Except.bind, pure, Except.pure]
              exact ⟨_, rfl⟩
            obtain ⟨p', hp'⟩ := hep
            simp only [addRawEvent] at h
            cases hc : callbackOk (makeEvent a period) a.callback with
            | error e => rw [hc] at h; simp at h; exact h.1.symm
            | ok u => rw [hc, hp'] at h; simp at h

/-- **C25**: exactly these calls are refused with an error (in internal polling mode): an unusable response requirement, an unknown signal
    type, an unknown signal name that does not begin with `x-`, no intervals, or a callback without the needed parameters. -/
theorem c25_refused_iff (s : Server) (a : AddArgs) (hi : s.external = false) :
    (∃ err, (addEvent s a).2 = .error err) ↔
      (a.responseRequired ≠ "always" ∧ a.responseRequired ≠ "never") ∨ a.signalType ∉ signalTypes ∨
      (a.signalName ∉ signalNames ∧ ¬ ∃ rest, a.signalName.toList = 'x' :: '-' :: rest) ∨ a.intervals = [] ∨
      (a.responseRequired = "always" ∧ ∃ c, a.callback = some (.func c false)) := by
  have hx : signalNameOk a.signalName = true ↔ (a.signalName ∈ signalNames ∨ ∃ rest, a.signalName.toList = 'x' :: '-' :: rest) := by
    simp only [signalNameOk, Bool.or_eq_true, List.contains_eq_mem, decide_eq_true_eq, List.isPrefixOf_iff_prefix]
    constructor
    · rintro (h | ⟨t, h⟩)
      · exact .inl h
      · exact .inr ⟨t, by simpa using h.symm⟩
    · rintro (h | ⟨t, h⟩)
      · exact .inl h
      · exact .inr ⟨t, by simpa using h.symm⟩
  simp only [addEvent, hi, Bool.false_eq_true, if_false]
  by_cases h1 : a.responseRequired = "always" ∨ a.responseRequired = "never"
  · rw [if_neg (by simp only [Decidable.not_not]; rcases h1 with h | h <;> simp [h])]
    by_cases h2 : a.signalType ∈ signalTypes
    · rw [if_neg (by simpa using h2)]
      by_cases h3 : signalNameOk a.signalName = true
      · rw [if_neg (by simpa using h3)]
        have h3' := hx.mp h3
        cases hl : a.intervals with
        | nil => simp [activePeriodOf]
        | cons i r =>
          have hp : ∃ period, activePeriodOf ((i :: r).map (fun i => (i.dtstart, i.duration))) = .ok period := ⟨_, rfl⟩
          obtain ⟨period, hp⟩ := hp
          have hep : ∃ p', eventPeriod (makeEvent a period).signals = .ok p' := by
            simp only [eventPeriod, makeEvent, List.mapM_cons, List.mapM_nil, hl, hp, bind, Except.bind, pure, Except.pure]
            exact ⟨_, rfl⟩
          obtain ⟨p', hp'⟩ := hep
          rw [hp]
          simp only [addRawEvent, hp']
          have hr : (makeEvent a period).responseRequired = some a.responseRequired := rfl
          have key : (∃ e, callbackOk (makeEvent a period) a.callback = .error e) ↔
              (a.responseRequired = "always" ∧ ∃ c, a.callback = some (.func c false)) := by
            simp only [callbackOk, hr]
            by_cases hal : a.responseRequired = "always"
            · rw [if_pos hal]
              cases hcb : a.callback with
              | none => simp
              | some c =>
                cases c with
                | future f => simp
                | func c b => cases b <;> simp [hal]
            · rw [if_neg hal]; simp [hal]
          cases hc : callbackOk (makeEvent a period) a.callback with
          | error e =>
            simp only [Except.error.injEq, exists_eq', true_iff]
            have := key.mp ⟨e, hc⟩
            exact .inr (.inr (.inr (.inr this)))
          | ok u =>
            simp only [reduceCtorEq, exists_false, false_iff]
            rintro (h | h | h | h | h)
            · rcases h1 with h1 | h1
              · exact h.1 h1
              · exact h.2 h1
            · exact h h2
            · rcases h3' with h3' | h3'
              · exact h.1 h3'
              · exact h.2 h3'
            · cases h
            · obtain ⟨e, he⟩ := key.mpr h
              rw [hc] at he; cases he
      · rw [if_pos (by simpa using h3)]
        have h3' : ¬ (a.signalName ∈ signalNames ∨ ∃ rest, a.signalName.toList = 'x' :: '-' :: rest) := fun h => h3 (hx.mpr h)
        rw [not_or] at h3'
        exact ⟨fun _ => .inr (.inr (.inl h3')), fun _ => ⟨_, rfl⟩⟩
    · rw [if_pos (by simpa using h2)]
      exact ⟨fun _ => .inr (.inl h2), fun _ => ⟨_, rfl⟩⟩
  · rw [if_pos (by simpa using h1)]
    rw [not_or] at h1
    exact ⟨fun _ => .inl h1, fun _ => ⟨_, rfl⟩⟩

/-- **C25**: a whole event that is refused leaves all queues and flags as they were. -/
theorem c25_raw_refused_without_effect (s s' : Server) (ven : String) (event : Event) (cb : Option Callback) (d : Option Nat) (err : Err)
    (h : addRawEvent s ven event cb d = (s', .error err)) :
    ∀ v, s'.queue v = s.queue v ∧ s'.flag v = s.flag v ∧ s'.callbacks = s.callbacks ∧ s'.delivery = s.delivery := by
  intro v
  rcases addRawEvent_spec s ven event cb d with ⟨err', he, hs | hs, _⟩ | ⟨p, _, hp, hid, hs⟩
  · rw [h] at hs; simp only at hs; subst hs; simp
  · rw [h] at hs; simp only at hs; subst hs
    refine ⟨?_, rfl, rfl, rfl⟩
    simp only [Server.queue, ensureKey_get]
    split
    · rename_i hv; subst hv; rfl
    · rfl
  · rw [h] at hid; simp at hid

/-- **C25**: an event without targets or with conflicting targets is refused when it is made, any other gets both representations, which
    agree. -/
theorem c25_event_targets (ts : Option Targets) (g : Option TargetsByType) :
    ((ts = none ∧ g = none) ∨ (∃ l m, ts = some l ∧ g = some m ∧ groupTargetsByType l ≠ m) → eventTargets ts g = .error .valueError) ∧
    (∀ l m, eventTargets ts g = .ok (l, m) → (ts = none ∨ ts = some l) ∧ (g = none ∨ g = some m) ∧
      (ts.isSome → m = groupTargetsByType l)) := by
  constructor
  · rintro (⟨rfl, rfl⟩ | ⟨l, m, rfl, rfl, h⟩)
    · rfl
    · simp [eventTargets, h]
  · intro l m h
    cases ts with
    | none =>
      cases g with
      | none => simp [eventTargets] at h
      | some g => simp only [eventTargets, Except.ok.injEq, Prod.mk.injEq] at h; exact ⟨.inl rfl, .inr (by rw [h.2]), by simp⟩
    | some t =>
      cases g with
      | none =>
        simp only [eventTargets, Except.ok.injEq, Prod.mk.injEq] at h
        obtain ⟨rfl, rfl⟩ := h
        exact ⟨.inr rfl, .inl rfl, fun _ => rfl⟩
      | some g =>
        simp only [eventTargets] at h
        split at h
        · rename_i hg
          simp only [Except.ok.injEq, Prod.mk.injEq] at h
          obtain ⟨rfl, rfl⟩ := h
          exact ⟨.inr rfl, .inr rfl, fun _ => hg.symm⟩
        · simp at h

/-- **C25, refuted** for payloads: a SIMPLE event with level 7 is accepted. -/
theorem c25_payload_violated : ∃ (a : AddArgs) (s' : Server), a.signalName = "SIMPLE" ∧ (∃ i ∈ a.intervals, i.payload = .int 7) ∧
    addEvent Server.init a = (s', .ok (some a.eventId)) :=
  ⟨{ sampleArgs with intervals := [{ dtstart := 100, duration := 50, payload := .int 7 }] }, _, rfl,
    ⟨_, List.mem_singleton.mpr rfl, rfl⟩, rfl⟩

/-- non-vacuity of the refusals -/
example : (addEvent sampleServer { sampleArgs with signalType := "nonsense" }) = (sampleServer, .error .valueError) := by decide +kernel

/-- **C26** (partial: the event is queued; what is missing is the creation time, and that a second cancellation changes nothing, see
    below): the first event with the id is marked and its number goes up by one, everything else stays, and the flag is set. -/
theorem c26_cancel_partial (s : Server) (ven id : String) (pre post : List Event) (e : Event)
    (hq : s.queue ven = pre ++ e :: post) (hid : e.id = id) (hpre : ∀ x ∈ pre, x.id ≠ id) :
    ∃ e', (cancelEvent s ven id).queue ven = pre ++ e' :: post ∧
      e' = { e with descriptor := { e.descriptor with status := .cancelled, modificationNumber := e.descriptor.modificationNumber + 1 } } ∧
      (cancelEvent s ven id).flag ven = true ∧ ∀ v, v ≠ ven → SameFor v s (cancelEvent s ven id) := by
  rcases cancelEvent_cases s ven id with ⟨_, h⟩ | ⟨_, h⟩
  · exact absurd hid (h e (by rw [hq]; simp))
  · refine ⟨_, ?_, rfl, ?_, ?_⟩
    · rw [h]
      simp only [Server.queue, Dict.get?_set_self, Option.getD_some]
      have : (Dict.get? s.events ven).getD [] = pre ++ e :: post := hq
      rw [this]
      clear h hq this
      induction pre with
      | nil => simp [updateFirst, hasId, hid, cancelled]
      | cons x pre ih =>
        have hx : (hasId id x) = false := by simpa [hasId] using hpre x (by simp)
        simp only [List.cons_append, updateFirst, hx, Bool.false_eq_true, if_false]
        rw [ih (fun y hy => hpre y (by simp [hy]))]
    · rw [h]; simp [Server.flag, Dict.get?_set_self]
    · intro v hv
      rw [h]
      exact ⟨Dict.get?_set_other _ _ _ _ hv, Dict.get?_set_other _ _ _ _ hv, rfl⟩

/-- **C26**: cancelling an unknown event changes nothing. -/
theorem c26_cancel_unknown (s : Server) (ven id : String) (h : ∀ e ∈ s.queue ven, e.id ≠ id) : cancelEvent s ven id = s := by
  rcases cancelEvent_cases s ven id with ⟨h', _⟩ | ⟨⟨e, he, hi⟩, _⟩
  · exact h'
  · exact absurd hi (h e he)

/-- **C26, refuted**: cancelling twice changes the event again (the modification number goes up again), and cancelling does not set the
    creation time. -/
theorem c26_cancel_twice_violated : ∃ (s : Server) (ven id : String),
    cancelEvent (cancelEvent s ven id) ven id ≠ cancelEvent s ven id ∧
    (∀ e ∈ s.queue ven, ∀ e' ∈ (cancelEvent s ven id).queue ven, e'.descriptor.created = e.descriptor.created) :=
  ⟨sampleServer, "ven1", "x", by decide +kernel, by decide +kernel⟩

/-- non-vacuity of the partial theorem -/
example : sampleServer.queue "ven2" = [sampleEvent "y"] ++ sampleEvent "z" :: [] ∧ (sampleEvent "y").id ≠ "z" := by decide +kernel

end Openleadr
