import Verif.Lemmas.EventObjects
import Verif.Props.Exchange
import Verif.Props.MessageChanges
/-!
The events of the server on the wire, and as the VEN reads them.
-/
namespace Openleadr

variable {lib : Lib} {now : Int}

/-- A text that begins with a letter is not taken for a number. -/
theorem ordinary_word (sound : lib.Sound) {s : String} (ha : (s.toList.head?.any Char.isAlpha) = true) (hw : OnWire s) (h1 : s ≠ "true") (h2 : s ≠ "false") :
    Ordinary lib s := by
  cases hl : s.toList with
  | nil => simp [hl] at ha
  | cons c l =>
    simp only [hl, List.head?_cons, Option.any_some] at ha
    refine ⟨hw, ?_, h1, h2⟩
    rintro ⟨sign, body, h, hs, -, hb⟩
    have hc := sound.letters c ha
    rw [hl] at h
    rcases hs with rfl | rfl
    · rw [List.nil_append] at h
      rcases hb c (by rw [← h]; simp) with h | h
      · rw [hc] at h; cases h
      · subst h; exact absurd ha (by decide)
    · simp only [List.cons_append, List.nil_append, List.cons.injEq] at h
      rw [h.1] at ha
      exact absurd ha (by decide)

theorem ordinary_status (sound : lib.Sound) (s : Status) : Ordinary lib s.text := by
  cases s <;> exact ordinary_word sound (by decide +kernel) (onWire_of (by decide +kernel)) (by decide) (by decide)

theorem ordinary_required (sound : lib.Sound) {s : String} (h : s = "always" ∨ s = "never") : Ordinary lib s := by
  rcases h with rfl | rfl <;> exact ordinary_word sound (by decide +kernel) (onWire_of (by decide +kernel)) (by decide) (by decide)

theorem ordinary_opt (sound : lib.Sound) {s : String} (h : s = "optIn" ∨ s = "optOut") : Ordinary lib s := by
  rcases h with rfl | rfl <;> exact ordinary_word sound (by decide +kernel) (onWire_of (by decide +kernel)) (by decide) (by decide)

/-- The text of a number as a float. -/
def floatOf (lib : Lib) : Value → String
  | .float r => r
  | .int i => (lib.readFloat (String.ofList (intText i))).getD ""
  | _ => ""

/-- The entry of a target, if it is a text. -/
def targetText (t : Dict) (k : String) : Option String := (Dict.get? t k).bind Value.text?

/-- The kinds of targets that are sent. -/
def sentKinds : List String := ["group_id", "group_name", "resource_id", "ven_id", "party_id"]

/-- A target on the wire. -/
def targetP (t : Dict) : EventTargetP :=
  ⟨targetText t "group_id", targetText t "group_name", targetText t "resource_id", targetText t "ven_id", targetText t "party_id",
    t.filter (fun e => !sentKinds.contains e.1)⟩

def intervalP (lib : Lib) (i : Interval) : IntervalP := ⟨some i.dtstart, some i.duration, i.payload, floatOf lib i.payload⟩

def signalP (lib : Lib) (s : Signal) : SignalP :=
  ⟨s.intervals.map (intervalP lib), s.signalName, s.signalType, s.signalId, none, s.currentValue.map (fun v => (v, floatOf lib v)),
    s.targets.map (fun ts => .list (ts.map .dict)), s.targetsByType.map (fun g => .dict g.toDict)⟩

def descriptorP (d : Descriptor) : DescriptorP :=
  ⟨d.eventId, d.modificationNumber, d.modified, none, d.priority, d.marketContext, d.created.getD 0, d.status.text, some d.testEvent, d.vtnComment⟩

def periodP (p : ActivePeriod) : ActiveP := ⟨p.dtstart, p.duration, p.tolerance, p.notification, p.rampUp, p.recovery⟩

/-- An event on the wire. -/
def eventP (lib : Lib) (e : Event) : EventP :=
  ⟨descriptorP e.descriptor, periodP e.activePeriod, e.signals.map (signalP lib), e.targets.map (fun ts => ts.map targetP),
    e.targetsByType.map (fun g => .dict g.toDict), e.responseRequired.getD "always"⟩

/-- A target that can be sent: the kinds that are sent are texts or `None`. -/
structure GoodTarget (lib : Lib) (t : Dict) : Prop where
  texts : ∀ k ∈ sentKinds, Dict.get? t k = none ∨ Dict.get? t k = some .none ∨ ∃ s, Dict.get? t k = some (.str s) ∧ Ordinary lib s
  others : Dict.get? t "emix_interfaces" = none

/-- The texts, numbers, instants and durations of an event can be sent. -/
structure Event.Wired (lib : Lib) (e : Event) : Prop where
  id : Ordinary lib e.descriptor.eventId
  context : Ordinary lib e.descriptor.marketContext
  created : ∀ d, e.descriptor.created = some d → Datable d
  modified : ∀ d, e.descriptor.modified = some d → Datable d
  comment : ∀ s, e.descriptor.vtnComment = some s → Ordinary lib s
  start : Datable e.activePeriod.dtstart
  duration : Spans e.sentDuration
  tolerance : ∀ d, e.activePeriod.tolerance = some d → Spans d
  notification : ∀ d, e.activePeriod.notification = some d → Spans d
  rampUp : ∀ d, e.activePeriod.rampUp = some d → Spans d
  recovery : ∀ d, e.activePeriod.recovery = some d → Spans d
  names : ∀ s ∈ e.signals, Ordinary lib s.signalName ∧ Ordinary lib s.signalType ∧ Ordinary lib s.signalId
  starts : ∀ s ∈ e.signals, ∀ i ∈ s.intervals, Datable i.dtstart
  payloads : ∀ s ∈ e.signals, ∀ i ∈ s.intervals, AsFloat lib i.payload (floatOf lib i.payload)
  numbers : ∀ s ∈ e.signals, ∀ i ∈ s.intervals, i.uid = none
  currents : ∀ s ∈ e.signals, ∀ v, s.currentValue = some v → AsFloat lib v (floatOf lib v)
  targets : ∀ ts, e.targets = some ts → ∀ t ∈ ts, GoodTarget lib t

/-- All keys are among these. -/
def Within (ks : List String) (d : Dict) : Prop := ∀ k ∈ Dict.keys d, k ∈ ks

theorem within_nil (ks : List String) : Within ks [] := by simp [Within, Dict.keys]

theorem within_cons {ks : List String} {k : String} {v : Value} {d : Dict} (h : Within ks d) (hk : k ∈ ks := by decide) : Within ks ((k, v) :: d) := by
  intro x hx
  simp only [Dict.keys, List.map_cons, List.mem_cons] at hx
  rcases hx with rfl | hx
  · exact hk
  · exact h x hx

theorem within_entry {ks : List String} {k : String} {v : Option Value} (hk : k ∈ ks := by decide) : Within ks (entry? k v) := by
  cases v with
  | none => exact within_nil ks
  | some v => exact within_cons (within_nil ks) hk

theorem within_append {ks : List String} {a b : Dict} (ha : Within ks a) (hb : Within ks b) : Within ks (a ++ b) := by
  intro k hk
  simp only [Dict.keys, List.map_append, List.mem_append] at hk
  rcases hk with hk | hk
  · exact ha k hk
  · exact hb k hk

/-- What becomes of an entry that is sent. -/
def Accounted (q : Dict) (e : String × Value) : Prop :=
  (∃ y, Dict.get? q e.1 = some y ∧ Conforms e.2 y) ∨ (Dict.get? q e.1 = none ∧ e.2 = .none ∧ bareKey e.1 = false)

theorem accounted_as {q : Dict} {k : String} {v : Option Value} (h : Dict.get? q k = v) (hb : bareKey k = false := by decide) : Accounted q (k, orNone v) := by
  cases v with
  | none => exact .inr ⟨h, rfl, hb⟩
  | some v => exact .inl ⟨v, h, .same v⟩

theorem accounted_text {q : Dict} {k : String} {v : Option String} (h : Dict.get? q k = text? v) (hb : bareKey k = false := by decide) :
    Accounted q (k, textOrNone v) := by
  cases v with
  | none => exact .inr ⟨h, rfl, hb⟩
  | some v => exact .inl ⟨.str v, h, .same _⟩

/-- Dicts of which one has all the entries of the other, and otherwise `None`. -/
theorem conforms_entries {f q : Dict} {ks : List String} (hk : Dict.keys f = ks) (hn : ks.Nodup) (hq : Within ks q) (h : ∀ e ∈ f, Accounted q e) :
    Conforms (.dict f) (.dict q) := by
  refine conforms_dict (fun k => ?_)
  cases hf : Dict.get? f k with
  | none =>
    have : Dict.get? q k = none := by
      rw [Dict.get?_none]
      intro hc
      have := hq k hc
      rw [← hk] at this
      exact (Dict.get?_none f k).1 hf this
    rw [this]
    exact .inl rfl
  | some v =>
    rcases h (k, v) (Dict.mem_of_get? f k v hf) with ⟨y, h1, h2⟩ | ⟨h1, h2, h3⟩
    · simp only at h1 h2
      rw [h1]; exact ⟨v, rfl, h2⟩
    · simp only at h1 h2
      subst h2
      rw [h1]; exact .inr ⟨rfl, h3⟩

theorem all_cons {q : Dict} {e : String × Value} {f : Dict} (h1 : Accounted q e) (h2 : ∀ x ∈ f, Accounted q x) : ∀ x ∈ e :: f, Accounted q x := by
  intro x hx
  rcases List.mem_cons.1 hx with rfl | hx
  · exact h1
  · exact h2 x hx

theorem all_nil {q : Dict} : ∀ x ∈ ([] : Dict), Accounted q x := by simp

theorem conforms_descriptor {d : Descriptor} (h : ∃ t, d.created = some t) : Conforms (.dict d.fields) (.dict (descriptorP d).dict) := by
  obtain ⟨t, ht⟩ := h
  refine conforms_entries (ks := ["event_id", "modification_number", "market_context", "event_status", "created_date_time", "modification_date_time", "priority",
    "test_event", "vtn_comment"]) rfl (by decide) ?_ ?_
  · exact within_append (within_append (within_append (within_append (within_append (within_cons (within_cons (within_nil _))) within_entry) (within_nil _))
      (within_cons (within_cons (within_cons (within_cons (within_nil _)))))) within_entry) within_entry
  · refine all_cons (accounted_as (v := some _) ?_) (all_cons (accounted_as (v := some _) ?_) (all_cons (accounted_as (v := some _) ?_)
      (all_cons (accounted_as (v := some _) ?_) (all_cons (accounted_as ?_) (all_cons (accounted_as ?_) (all_cons (.inl ⟨_, ?_, .same _⟩)
      (all_cons (accounted_as (v := some _) ?_) (all_cons (accounted_text ?_) all_nil)))))))) <;>
      simp [descriptorP, DescriptorP.dict, Dict.get?, Dict.get?_append, Dict.get?_entry?, ht, date?, int?, bool?, orNone]

theorem conforms_period (p : ActivePeriod) : Conforms (.dict p.fields) (.dict (periodP p).dict) := by
  refine conforms_entries (ks := ["dtstart", "duration", "tolerance", "notification_period", "ramp_up_period", "recovery_period"]) rfl (by decide) ?_ ?_
  · exact within_append (within_append (within_append (within_append (within_cons (within_cons (within_nil _))) within_entry) within_entry) within_entry) within_entry
  · refine all_cons (accounted_as (v := some _) ?_) (all_cons (accounted_as (v := some _) ?_) (all_cons (accounted_as ?_) (all_cons (accounted_as ?_)
      (all_cons (accounted_as ?_) (all_cons (accounted_as ?_) all_nil))))) <;>
      simp [periodP, ActiveP.dict, Dict.get?, Dict.get?_append, Dict.get?_entry?, span?]

theorem conforms_interval {i : Interval} (h : i.uid = none) : Conforms (.dict i.fields) (.dict (intervalP lib i).dict) := by
  refine conforms_entries (ks := ["dtstart", "duration", "signal_payload", "uid"]) rfl (by decide) ?_ ?_
  · exact within_append (within_append within_entry within_entry) (within_cons (within_nil _))
  · refine all_cons (accounted_as (v := some _) ?_) (all_cons (accounted_as (v := some _) ?_) (all_cons (accounted_as (v := some _) ?_) (all_cons (accounted_as ?_) all_nil))) <;>
      simp [intervalP, IntervalP.dict, Dict.get?, Dict.get?_append, Dict.get?_entry?, date?, span?, h]

theorem conforms_each {α : Type} {l : List α} {f g : α → Dict} (h : ∀ a ∈ l, Conforms (.dict (f a)) (.dict (g a))) :
    Conforms (.list ((l.map f).map .dict)) (.list ((l.map g).map .dict)) := by
  refine .list _ _ (by simp) (fun i x y hx hy => ?_)
  simp only [List.getElem?_map, Option.map_map, Option.map_eq_some_iff, Function.comp_apply] at hx hy
  obtain ⟨a, ha, rfl⟩ := hx
  obtain ⟨b, hb, rfl⟩ := hy
  rw [ha] at hb
  cases hb
  exact h a (List.mem_of_getElem? ha)

theorem conforms_signal {s : Signal} (h : ∀ i ∈ s.intervals, i.uid = none) : Conforms (.dict s.fields) (.dict (signalP lib s).dict) := by
  refine conforms_entries (ks := ["intervals", "signal_name", "signal_type", "signal_id", "current_value", "targets", "targets_by_type", "measurement"]) rfl
    (by decide) ?_ ?_
  · exact within_append (within_append (within_append (within_append (within_cons (within_cons (within_cons (within_cons (within_nil _))))) (within_nil _))
      within_entry) within_entry) within_entry
  · have hi : Conforms (.list ((s.intervals.map Interval.fields).map .dict)) (.list ((((s.intervals.map (intervalP lib))).map IntervalP.dict).map .dict)) := by
      have := conforms_each (l := s.intervals) (f := Interval.fields) (g := fun i => (intervalP lib i).dict) (fun i hm => conforms_interval (h i hm))
      simpa [Function.comp_def] using this
    refine all_cons (.inl ⟨_, ?_, hi⟩) (all_cons (accounted_as (v := some _) ?_) (all_cons (accounted_as (v := some _) ?_) (all_cons (accounted_as (v := some _) ?_)
      (all_cons (accounted_as ?_) (all_cons (accounted_as ?_) (all_cons (accounted_as ?_) (all_cons (accounted_as (v := none) ?_) all_nil))))))) <;>
      simp [signalP, SignalP.dict, Dict.get?, Dict.get?_append, Dict.get?_entry?, Function.comp_def]

theorem get?_filter_keys (p : String → Bool) (d : Dict) (k : String) :
    Dict.get? (d.filter (fun e => p e.1)) k = if p k then Dict.get? d k else none := by
  induction d with
  | nil => simp [Dict.get?]
  | cons e d ih =>
    obtain ⟨k', v⟩ := e
    by_cases hp : p k' = true
    · by_cases hk : k' = k
      · subst hk; simp [hp, Dict.get?]
      · simp only [List.filter_cons, hp, if_true, Dict.get?, hk, if_false, ih]
    · by_cases hk : k' = k
      · subst hk; simp [hp, ih]
      · simp only [List.filter_cons, hp, Dict.get?, hk, if_false, ih, Bool.false_eq_true]

theorem targetP_get (t : Dict) (k : String) :
    Dict.get? (targetP t).dict k = if k ∈ sentKinds then text? (targetText t k) else Dict.get? t k := by
  have hf := get?_filter_keys (fun x => !sentKinds.contains x) t k
  simp only [targetP, EventTargetP.dict, Dict.get?_append, Dict.get?_entry?]
  rw [hf]
  by_cases hk : k ∈ sentKinds
  · have hc : sentKinds.contains k = true := by simpa using hk
    rw [if_pos hk, hc]
    simp only [sentKinds, List.mem_cons, List.not_mem_nil, or_false] at hk
    rcases hk with rfl | rfl | rfl | rfl | rfl <;> simp
  · have hc : sentKinds.contains k = false := by simpa using hk
    rw [if_neg hk, hc]
    simp only [sentKinds, List.mem_cons, List.not_mem_nil, or_false, not_or] at hk
    obtain ⟨h1, h2, h3, h4, h5⟩ := hk
    simp [Ne.symm h1, Ne.symm h2, Ne.symm h3, Ne.symm h4, Ne.symm h5]

theorem conforms_target {t : Dict} (h : GoodTarget lib t) : Conforms (.dict t) (.dict (targetP t).dict) := by
  refine conforms_dict (fun k => ?_)
  rw [targetP_get]
  by_cases hk : k ∈ sentKinds
  · rw [if_pos hk]
    rcases h.texts k hk with h1 | h1 | ⟨s, h1, -⟩
    · simp [targetText, h1, text?]
    · have : k ≠ "report_id" := by rintro rfl; exact absurd hk (by decide)
      simp [targetText, h1, text?, Value.text?, bareKey, this]
    · simpa [targetText, h1, text?, Value.text?] using Conforms.same _
  · rw [if_neg hk]
    cases hg : Dict.get? t k with
    | none => simp
    | some v => exact ⟨v, rfl, .same v⟩

theorem conforms_event {e : Event} (h : ∃ t, e.descriptor.created = some t) (hu : ∀ s ∈ e.signals, ∀ i ∈ s.intervals, i.uid = none)
    (ht : ∀ ts, e.targets = some ts → ∀ t ∈ ts, GoodTarget lib t) (hr : ∃ s, e.responseRequired = some s) :
    Conforms (.dict e.fields) (.dict (eventP lib e).dict) := by
  obtain ⟨r, hr⟩ := hr
  refine conforms_entries (ks := ["event_descriptor", "event_signals", "targets", "targets_by_type", "active_period", "response_required"]) rfl (by decide) ?_ ?_
  · exact within_append (within_append (within_append (within_cons (within_cons (within_cons (within_nil _)))) within_entry) within_entry) (within_cons (within_nil _))
  · have hs : Conforms (.list ((e.signals.map Signal.fields).map .dict)) (.list ((((e.signals.map (signalP lib))).map SignalP.dict).map .dict)) := by
      have := conforms_each (l := e.signals) (f := Signal.fields) (g := fun s => (signalP lib s).dict) (fun s hm => conforms_signal (hu s hm))
      simpa [Function.comp_def] using this
    refine all_cons (.inl ⟨_, ?_, conforms_descriptor h⟩) (all_cons (.inl ⟨_, ?_, hs⟩) (all_cons ?_ (all_cons (accounted_as ?_)
      (all_cons (.inl ⟨_, ?_, conforms_period _⟩) (all_cons (accounted_text ?_) all_nil)))))
    · simp [eventP, EventP.dict, Dict.get?]
    · simp [eventP, EventP.dict, Dict.get?]
    · cases hts : e.targets with
      | none => exact accounted_as (v := none) (by simp [eventP, EventP.dict, Dict.get?, Dict.get?_append, Dict.get?_entry?, hts])
      | some ts =>
        refine .inl ⟨.list ((ts.map (fun t => (targetP t).dict)).map .dict), ?_, ?_⟩
        · simp [eventP, EventP.dict, Dict.get?, Dict.get?_append, Dict.get?_entry?, hts, Function.comp_def]
        · have := conforms_each (l := ts) (f := fun t => t) (g := fun t => (targetP t).dict) (fun t hm => conforms_target (ht ts hts t hm))
          simpa [targetsValue, orNone] using this
    · simp [eventP, EventP.dict, Dict.get?, Dict.get?_append, Dict.get?_entry?]
    · simp [eventP, EventP.dict, Dict.get?, Dict.get?_append, Dict.get?_entry?]
    · simp [eventP, EventP.dict, Dict.get?, Dict.get?_append, Dict.get?_entry?, hr, text?]

/-- An event that can be sent. -/
structure Event.Sendable (lib : Lib) (e : Event) : Prop where
  plain : e.Plain
  sound : e.Sound
  wired : e.Wired lib

theorem prepared_current (s : Signal) : s.prepared.currentValue = s.currentValue ∨ s.prepared.currentValue = some (.int 0) := by
  simp only [Signal.prepared]
  split
  · exact .inr rfl
  · exact .inl rfl

theorem prepared_rest (s : Signal) : s.prepared = { s with currentValue := s.prepared.currentValue } := by
  simp only [Signal.prepared]
  split <;> rfl

theorem prepared_intervals (s : Signal) : s.prepared.intervals = s.intervals := by rw [prepared_rest]
theorem prepared_names (s : Signal) : s.prepared.signalName = s.signalName ∧ s.prepared.signalType = s.signalType ∧ s.prepared.signalId = s.signalId := by
  rw [prepared_rest]; exact ⟨rfl, rfl, rfl⟩

theorem conforms_prepared {e : Event} (h : e.Sendable lib) : Conforms (.dict (e.prepared now).fields) (.dict (eventP lib (e.prepared now)).dict) := by
  refine conforms_event ⟨_, rfl⟩ (fun s hs i hi => ?_) h.wired.targets ?_
  · simp only [Event.prepared, List.mem_map] at hs
    obtain ⟨a, ha, rfl⟩ := hs
    rw [prepared_intervals] at hi
    exact h.wired.numbers a ha i hi
  · rcases h.sound.response with h | h <;> exact ⟨_, h⟩

theorem good_prepared (sound : lib.Sound) {e : Event} (hnow : Datable now) (hz : AsFloat lib (.int 0) (floatOf lib (.int 0))) (h : e.Sendable lib) :
    (eventP lib (e.prepared now)).Good lib := by
  have hw := h.wired
  refine ⟨⟨hw.id, hw.modified, by simp [eventP, descriptorP], hw.context, ?_, ordinary_status sound _, hw.comment⟩,
    ⟨hw.start, hw.duration, hw.tolerance, hw.notification, hw.rampUp, hw.recovery⟩, ?_, ?_, ?_⟩
  · simp only [eventP, descriptorP, Event.prepared, Option.getD_some]
    cases hc : e.descriptor.created with
    | none => exact hnow
    | some t => exact hw.created t hc
  · intro s hs
    simp only [eventP, Event.prepared, List.map_map, List.mem_map, Function.comp_apply] at hs
    obtain ⟨a, ha, rfl⟩ := hs
    obtain ⟨n1, n2, n3⟩ := prepared_names a
    obtain ⟨o1, o2, o3⟩ := hw.names a ha
    refine ⟨fun i hi => ?_, by simpa [signalP, n1] using o1, by simpa [signalP, n2] using o2, by simpa [signalP, n3] using o3, by simp [signalP], fun c hc => ?_⟩
    · simp only [signalP, prepared_intervals, List.mem_map] at hi
      obtain ⟨x, hx, rfl⟩ := hi
      refine ⟨fun d hd => ?_, fun d hd => ?_, hw.payloads a ha x hx⟩
      · simp only [intervalP, Option.some.injEq] at hd
        subst hd
        exact hw.starts a ha x hx
      · simp only [intervalP, Option.some.injEq] at hd
        subst hd
        exact h.sound.durations a ha x hx
    · simp only [signalP, Option.map_eq_some_iff] at hc
      obtain ⟨v, hv, rfl⟩ := hc
      rcases prepared_current a with e1 | e1
      · exact hw.currents a ha v (by rw [← e1]; exact hv)
      · rw [e1] at hv
        cases hv
        exact hz
  · intro l hl t ht
    simp only [eventP, Event.prepared, Option.map_eq_some_iff] at hl
    obtain ⟨ts, hts, rfl⟩ := hl
    simp only [List.mem_map] at ht
    obtain ⟨d, hd, rfl⟩ := ht
    have hg := hw.targets ts hts d hd
    refine ⟨fun k hk x hx => ?_, fun k hk => ?_⟩
    · have key : ∀ n, n ∈ sentKinds → targetText d n = some x → Ordinary lib x := by
        intro n hn hx
        rcases hg.texts n hn with h1 | h1 | ⟨s, h1, h2⟩
        · simp [targetText, h1] at hx
        · simp [targetText, h1, Value.text?] at hx
        · simp only [targetText, h1, Option.bind_some, Value.text?, Option.some.injEq] at hx
          subst hx; exact h2
      simp only [targetKinds, List.mem_cons, List.not_mem_nil, or_false] at hk
      rcases hk with rfl | rfl | rfl | rfl | rfl <;> exact key _ (by decide) hx
    · have hf := get?_filter_keys (fun x => !sentKinds.contains x) d k
      simp only [targetP]
      rw [hf]
      simp only [List.mem_cons, List.not_mem_nil, or_false] at hk
      rcases hk with rfl | rfl | rfl | rfl | rfl | rfl
      · rw [hg.others]; simp
      all_goals rw [if_neg (by decide)]
  · refine ordinary_required sound ?_
    rcases h.sound.response with h | h <;> simp [eventP, Event.prepared, h]

/-! ### Received -/

/-- The message, as it is meant. -/
def meantWith (es : List EventP) (vtn ven id : String) (rid : Option String) : Dict :=
  [("response", .dict [("response_code", .int 200), ("response_description", .str "OK"), ("request_id", textOrNone rid)]), ("request_id", .str id),
    ("vtn_id", .str vtn), ("events", .list ((es.map EventP.dict).map .dict)), ("ven_id", .str ven)]

/-- The message, as it is received: the id of a request that had none is the text `None`. -/
def receivedWith (es : List EventP) (vtn id : String) (rid : Option String) : Dict :=
  [("response", .dict [("response_code", .int 200), ("response_description", .str "OK"), ("request_id", .str (rid.getD "None"))]), ("request_id", .str id),
    ("vtn_id", .str vtn)] ++ entry? "events" (dicts? (es.map (EventP.received (decide (2 ≤ es.length)))))

theorem carries_answer (sound : lib.Sound) {n : Nat} {env : Dict} {rid : Option String} (hr : ∀ x, rid = some x → Ordinary lib x)
    (hl : Dict.get? env "response" = some (.dict [("response_code", .int 200), ("response_description", .str "OK"), ("request_id", textOrNone rid)])) :
    Carries lib (n + 1) env (ifGiven ["response"] [eiResponse]) "eiResponse" ["response"]
      (entry? "response" (some (.dict [("response_code", .int 200), ("response_description", .str "OK"), ("request_id", .str (rid.getD "None"))]))) := by
  refine carries_there (v := some (.dict [("response_code", .int 200), ("response_description", .str "OK"), ("request_id", textOrNone rid)]))
    (by simpa [lookup, walk] using hl) (fun y hy => ?_) (fun e => by cases e)
  refine ⟨by cases hy; simp, ?_⟩
  refine carries_dict "response" (inside_elem (.cons (carries_int sound "responseCode" "response_code" (i := 200) ?_)
    (.cons (carries_text "responseDescription" "response_description" ?_ (ordinary_OK sound))
    (.cons (keys := ["request_id"]) (out := [("request_id", .str (rid.getD "None"))]) (key := "requestID") ?_ .nil))) (by simp) (by simp)) (by simp) (by simp [Dict.has, Dict.get?])
  · simp [lookup, walk, hl, attrOf, Dict.get?]
  · simp [lookup, walk, hl, attrOf, Dict.get?]
  · cases rid with
    | none => exact carries_none sound "requestID" "request_id" (by simp [lookup, walk, hl, attrOf, Dict.get?, textOrNone])
    | some x => exact carries_text "requestID" "request_id" (by simp [lookup, walk, hl, attrOf, Dict.get?, textOrNone]) (hr x rfl)

/-- The prepared message says what is meant. -/
theorem conforms_meant {es : List Event} {vtn ven id : String} {rid : Option String} (h : ∀ e ∈ es, e.Sendable lib) :
    Conforms (.dict (messageWith (.list (((es.map (Event.prepared now)).map Event.fields).map .dict)) vtn ven id (textOrNone rid)))
      (.dict (meantWith (es.map (fun e => eventP lib (e.prepared now))) vtn ven id rid)) := by
  have he : Conforms (.list (((es.map (Event.prepared now)).map Event.fields).map .dict))
      (.list (((es.map (fun e => eventP lib (e.prepared now))).map EventP.dict).map .dict)) := by
    have := conforms_each (l := es) (f := fun e => (e.prepared now).fields) (g := fun e => (eventP lib (e.prepared now)).dict)
      (fun e hm => conforms_prepared (h e hm))
    simpa [Function.comp_def] using this
  refine conforms_entries (ks := ["events", "vtn_id", "ven_id", "response", "request_id"]) rfl (by decide)
    (within_cons (within_cons (within_cons (within_cons (within_cons (within_nil _)))))) ?_
  refine all_cons (.inl ⟨_, ?_, he⟩) (all_cons (accounted_as (v := some _) ?_) (all_cons (accounted_as (v := some _) ?_)
    (all_cons (.inl ⟨.dict [("response_code", .int 200), ("response_description", .str "OK"), ("request_id", textOrNone rid)], ?_, ?_⟩)
    (all_cons (accounted_as (v := some _) ?_) all_nil))))
  · simp [meantWith, Dict.get?]
  · simp [meantWith, Dict.get?]
  · simp [meantWith, Dict.get?]
  · simp [meantWith, Dict.get?]
  · refine conforms_entries (ks := ["request_id", "response_code", "response_description"]) rfl (by decide)
      (within_cons (within_cons (within_cons (within_nil _)))) ?_
    refine all_cons (.inl ⟨_, ?_, .same _⟩) (all_cons (accounted_as (v := some _) ?_) (all_cons (accounted_as (v := some _) ?_) all_nil)) <;> simp [Dict.get?]
  · simp [meantWith, Dict.get?]

/-- What is received of events of the server. -/
theorem events_received (sound : lib.Sound) {es : List Event} {vtn ven id : String} {rid : Option String} (hnow : Datable now)
    (hz : AsFloat lib (.int 0) (floatOf lib (.int 0))) (h : ∀ e ∈ es, e.Sendable lib) (hr : ∀ x, rid = some x → Ordinary lib x)
    (hv : Ordinary lib vtn) (hi : Ordinary lib id) :
    Received lib now "oadrDistributeEvent" (messageWith (.list (es.map Event.object)) vtn ven id (textOrNone rid))
      (receivedWith (es.map (fun e => eventP lib (e.prepared now))) vtn id rid) := by
  have hp : (textOrNone rid).asPlain = textOrNone rid ∧ ∀ l, textOrNone rid ≠ .list l := by cases rid <;> simp [textOrNone, Value.asPlain]
  have hc := conforms_meant (now := now) (vtn := vtn) (ven := ven) (id := id) (rid := rid) h
  have hg : ∀ p ∈ es.map (fun e => eventP lib (e.prepared now)), p.Good lib := by
    intro p hp
    simp only [List.mem_map] at hp
    obtain ⟨e, he, rfl⟩ := hp
    exact good_prepared sound hnow hz (h e he)
  have hpre := preflight_objects (now := now) (vtn := vtn) (ven := ven) (id := id) (fun e he => (h e he).plain) (fun e he => (h e he).sound) hp
  generalize es.map (fun e => eventP lib (e.prepared now)) = ps at hc hg
  exact received_of _ hpre hc (by rfl)
    (template_ok "oadrDistributeEvent" _ (by rfl)) (fun n => inside_elem
    (.cons (carries_answer sound hr (by simp [meantWith, Dict.get?]))
    (.cons (carries_text "requestID" "request_id" (by lkd [meantWith]) hi)
    (.cons (carries_text "vtnID" "vtn_id" (by lkd [meantWith]) hv)
    (.cons (carries_events (n := n + 12) (rs := ps) sound hg (by lkd [meantWith])) .nil)))) (by simp [receivedWith, entry?]) (by simp [receivedWith]))
    (by decide +kernel)

end Openleadr
