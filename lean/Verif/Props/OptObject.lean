import Verif.Model.OptObject
import Verif.Props.SentMessages
import Verif.Props.OptMessages
import Verif.Props.Enums
import Verif.Props.RegisterOffers
/-!
C102: an opt says to the VTN what its user said: which opts can be made, and what the VTN reads of them.
-/
namespace Openleadr
open Spec (valuesOfType)

variable {lib : Lib} {now : Int}

/-- The targets of signals that the library knows are the values of its enumeration. -/
theorem c102_signal_targets (metaNames inherited : List String) (hi : ∀ n ∈ inherited, publicName n = false)
    (hm : ∀ n ∈ metaNames, publicName n = true → n ∈ ["members", "mro", "values"]) (v : String) :
    v ∈ signalTargets ↔ v ∈ enumValues metaNames inherited classSignalTarget := by
  rw [values_of_class metaNames inherited classSignalTarget hi hm (by decide +kernel) (by decide +kernel)]
  rw [show signalTargets = classSignalTarget.map Prod.snd from rfl]

theorem signalTargetOk_iff (t : Option String) : signalTargetOk t = true ↔ ∀ s, t = some s → s ∈ signalTargets ∨ Own s := by
  cases t with
  | none => simp [signalTargetOk]
  | some s =>
    simp only [signalTargetOk, Bool.or_eq_true, List.contains_eq_mem, decide_eq_true_eq, List.isPrefixOf_iff_prefix, Option.some.injEq, forall_eq']
    have : ['x', '-'] <+: s.toList ↔ Own s := ⟨fun ⟨t, h⟩ => ⟨t, by simpa using h.symm⟩, fun ⟨t, h⟩ => ⟨t, by simpa using h.symm⟩⟩
    rw [this]

/-- **C102**: an opt can be made exactly with a type and a reason of the schema, with no target of a signal, a known one or one of the user's own, for either
    an event or a schedule, and with a list of targets, which may be empty; otherwise the user gets a `ValueError`. -/
theorem c102_made (now : Int) (fresh : String) (a : OptCall) :
    ((∃ o, newOpt now fresh a = .ok o) ↔
      a.optType ∈ schemaOptType ∧ a.optReason ∈ schemaOptReason ∧ (∀ s, a.signalTarget = some s → s ∈ signalTargets ∨ Own s) ∧
      (a.eventId = none ↔ a.vavailability ≠ none) ∧ a.targets ≠ none) ∧
    ((∀ o, newOpt now fresh a ≠ .ok o) → newOpt now fresh a = .error .valueError) := by
  obtain ⟨_, _, _, e4, e5, _⟩ := lists_schema
  rw [← signalTargetOk_iff]
  simp only [newOpt, e4, e5, List.contains_eq_mem, decide_eq_false_iff_not]
  by_cases h1 : a.optType ∈ schemaOptType
  · by_cases h2 : a.optReason ∈ schemaOptReason
    · cases h3 : signalTargetOk a.signalTarget with
      | false => simp [h1, h2]
      | true =>
        cases h4 : a.eventId <;> cases h5 : a.vavailability <;> cases h6 : a.targets <;> simp [h1, h2]
    · simp [h1, h2]
  · simp [h1]

/-- **C102**: an opt that was made says what its user said; it has the id that was given, or else a fresh one, the time at which it was made, the modification
    number 0 if none was given, and both representations of the targets, in agreement. -/
theorem c102_content {now : Int} {fresh : String} {a : OptCall} {o : OptObject} (h : newOpt now fresh a = .ok o) :
    o.optType = a.optType ∧ o.optReason = a.optReason ∧ (∀ s, a.optId = some s → s ≠ "" → o.optId = s) ∧
    (a.optId = none ∨ a.optId = some "" → o.optId = fresh) ∧ o.created = now ∧ o.eventId = a.eventId ∧ o.vavailability = a.vavailability ∧
    (∀ n, a.modificationNumber = some n → o.modificationNumber = n) ∧ (a.modificationNumber = none → o.modificationNumber = 0) ∧
    o.marketContext = a.marketContext ∧ o.signalTarget = a.signalTarget ∧ some o.targets = a.targets ∧
    ∀ k, Dict.get? o.targetsByType k = (if valuesOfType o.targets k = [] then none else some (valuesOfType o.targets k)) := by
  simp only [newOpt] at h
  split at h
  · cases h
  split at h
  · cases h
  split at h
  · cases h
  split at h
  · cases h
  split at h
  · cases h
  cases hts : a.targets with
  | none => simp [hts] at h
  | some ts =>
    simp only [hts, Except.ok.injEq] at h
    subst h
    refine ⟨rfl, rfl, ?_, ?_, rfl, rfl, rfl, ?_, ?_, rfl, rfl, rfl, fun k => (c13_group_targets ts k).1⟩
    · intro s hs hne
      simp [hs, textOr, hne]
    · rintro (hs | hs) <;> simp [hs, textOr]
    · intro n hn
      simp [hn]
    · intro hn
      simp [hn]

/-- The same call for the model of the client, which looks at less. -/
def OptCall.args (a : OptCall) : OptArgs :=
  { optType := a.optType, optReason := a.optReason, eventId := textEntry a.eventId, vavailability := scheduleEntry a.vavailability,
    modificationNumber := match a.modificationNumber with | some n => .int n | none => .none,
    optId := textEntry a.optId, mridOk := signalTargetOk a.signalTarget,
    groups := match a.targets with | some ts => .ok (.dict (groupTargetsByType ts).toDict) | none => .error .valueError }

theorem textEntry_none (t : Option String) : textEntry t = .none ↔ t = none := by cases t <;> simp [textEntry]

theorem scheduleEntry_none (t : Option (List (Int × Int))) : scheduleEntry t = .none ↔ t = none := by cases t <;> simp [scheduleEntry]

/-- **C102**: the opts that the client keeps and looks up (C62) are these opts: the client makes one exactly if this one can be made, and it has the same entries. -/
theorem c102_client (now : Int) (fresh q ven : String) (a : OptCall) :
    (∀ e, newOpt now fresh a = .error e → makeOpt (.str fresh) a.args = .error e) ∧
    (∀ o, newOpt now fresh a = .ok o → ∃ d, makeOpt (.str fresh) a.args = .ok d ∧
      ∀ k ∈ ["opt_id", "opt_type", "opt_reason", "event_id", "vavailability", "modification_number", "targets_by_type"],
        ∃ v, Dict.get? d k = some v ∧ Dict.get? (o.payload q ven) k = some v) := by
  rcases a with ⟨ty, re, ts, va, ev, mo, oi, rq, mc, st⟩
  simp only [makeOpt, newOpt, OptCall.args, textEntry_none, scheduleEntry_none, ne_eq]
  split
  · simp
  split
  · simp
  split
  · simp
  split
  · simp
  split
  · simp
  cases ts with
  | none => simp
  | some ts =>
    simp only [reduceCtorEq, false_implies, implies_true, Except.ok.injEq, forall_eq', true_and]
    refine ⟨_, rfl, ?_⟩
    intro k hk
    simp only [List.mem_cons, List.not_mem_nil, or_false] at hk
    rcases hk with rfl | rfl | rfl | rfl | rfl | rfl | rfl
    · cases oi with
      | none => exact ⟨_, rfl, rfl⟩
      | some s =>
        refine ⟨_, rfl, ?_⟩
        by_cases hs : s = ""
        · subst hs; rfl
        · simp [OptObject.payload, Dict.get?, textEntry, Value.truthy, textOr, hs]
    · exact ⟨_, rfl, rfl⟩
    · exact ⟨_, rfl, rfl⟩
    · exact ⟨_, rfl, rfl⟩
    · exact ⟨_, rfl, rfl⟩
    · cases mo <;> exact ⟨_, rfl, rfl⟩
    · exact ⟨_, rfl, rfl⟩

/-- The texts, times and numbers of an opt can be sent. -/
structure OptObject.Sendable (lib : Lib) (q ven : String) (o : OptObject) : Prop where
  requestId : Ordinary lib q
  venId : Ordinary lib ven
  optId : Ordinary lib o.optId
  optType : o.optType ∈ schemaOptType
  optReason : o.optReason ∈ schemaOptReason
  created : Datable o.created
  eventId : ∀ x, o.eventId = some x → Ordinary lib x
  marketContext : ∀ x, o.marketContext = some x → Ordinary lib x
  signalTarget : ∀ x, o.signalTarget = some x → Ordinary lib x
  schedule : ∀ l, o.vavailability = some l → ∀ p ∈ l, Datable p.1 ∧ Spans p.2
  targets : ∀ t ∈ o.targets, GoodTarget lib t

/-- The payload as it is meant. -/
def OptObject.wire (q ven : String) (o : OptObject) : OptP where
  optId := o.optId
  optType := o.optType
  reason := o.optReason
  marketContext := o.marketContext
  venId := ven
  availability := o.vavailability.map (fun l => l.map (fun p => ⟨p.1, p.2⟩))
  created := o.created
  requestId := q
  eventId := o.eventId
  modification := some o.modificationNumber
  targets := some (o.targets.map targetP)
  targetsByType := some (.dict o.targetsByType.toDict)
  signalTarget := o.signalTarget

theorem targetP_good {t : Dict} (h : GoodTarget lib t) : (targetP t).Good lib := by
  refine ⟨fun k hk x hx => ?_, fun k hk => ?_⟩
  · have key : ∀ n, n ∈ sentKinds → targetText t n = some x → Ordinary lib x := by
      intro n hn hx
      rcases h.texts n hn with h1 | h1 | ⟨s, h1, h2⟩
      · simp [targetText, h1] at hx
      · simp [targetText, h1, Value.text?] at hx
      · simp only [targetText, h1, Option.bind_some, Value.text?, Option.some.injEq] at hx
        subst hx; exact h2
    simp only [targetKinds, List.mem_cons, List.not_mem_nil, or_false] at hk
    rcases hk with rfl | rfl | rfl | rfl | rfl <;> exact key _ (by decide) hx
  · have hf := get?_filter_keys (fun x => !sentKinds.contains x) t k
    simp only [targetP]
    rw [hf]
    simp only [List.mem_cons, List.not_mem_nil, or_false] at hk
    rcases hk with rfl | rfl | rfl | rfl | rfl | rfl
    · rw [h.others]; simp
    all_goals rw [if_neg (by decide)]

theorem wire_good (sound : lib.Sound) {q ven : String} {o : OptObject} (h : o.Sendable lib q ven) : (o.wire q ven).Good lib := by
  have hw : ∀ s ∈ schemaOptType ++ schemaOptReason, Ordinary lib s := fun s hs =>
    ordinary_wordB sound (words_of (l := schemaOptType ++ schemaOptReason) (by decide +kernel) s hs)
  refine ⟨h.optId, hw _ (List.mem_append_left _ h.optType), hw _ (List.mem_append_right _ h.optReason), h.marketContext, h.venId, ?_, h.created, h.requestId,
    h.eventId, by simp [OptObject.wire], ?_, h.signalTarget⟩
  · intro l hl p hp
    simp only [OptObject.wire, Option.map_eq_some_iff] at hl
    obtain ⟨l', hl', rfl⟩ := hl
    obtain ⟨x, hx, rfl⟩ := List.mem_map.mp hp
    exact ⟨(h.schedule l' hl' x hx).1, (h.schedule l' hl' x hx).2⟩
  · intro l hl t ht
    simp only [OptObject.wire, Option.some.injEq] at hl
    subst hl
    obtain ⟨x, hx, rfl⟩ := List.mem_map.mp ht
    exact targetP_good (h.targets x hx)

theorem conforms_opt {q ven : String} {o : OptObject} (h : ∀ t ∈ o.targets, GoodTarget lib t) :
    Conforms (.dict (o.payload q ven)) (.dict (o.wire q ven).dict) := by
  refine conforms_entries (ks := ["request_id", "ven_id", "opt_type", "opt_reason", "opt_id", "created_date_time", "event_id", "modification_number",
    "vavailability", "targets", "targets_by_type", "market_context", "signal_target_mrid"]) rfl (by decide) ?_ ?_
  · exact within_append (within_append (within_append (within_append (within_append (within_append (within_append (within_append (within_append
      (within_cons (within_cons (within_cons (within_nil _)))) within_entry) (within_cons (within_nil _))) within_entry) (within_cons (within_cons (within_nil _))))
      within_entry) within_entry) within_entry) within_entry) within_entry
  · have ht : Conforms (.list (o.targets.map .dict)) (.list (((o.targets.map targetP).map EventTargetP.dict).map .dict)) := by
      have := conforms_each (l := o.targets) (f := fun t => t) (g := fun t => (targetP t).dict) (fun t hm => conforms_target (h t hm))
      simpa [Function.comp_def] using this
    have hs : Accounted (o.wire q ven).dict ("vavailability", scheduleEntry o.vavailability) := by
      cases hv : o.vavailability with
      | none => exact .inr ⟨by simp [OptObject.wire, OptP.dict, Dict.get?_append, Dict.get?_entry?, Dict.get?, hv], rfl, by decide⟩
      | some l =>
        refine .inl ⟨_, by simp [OptObject.wire, OptP.dict, Dict.get?_append, Dict.get?_entry?, Dict.get?, hv]; rfl, ?_⟩
        simp only [scheduleEntry, PeriodP.dict, Function.comp_def]
        exact .same _
    have he : ∀ (k : String) (t : Option String), Dict.get? (o.wire q ven).dict k = text? t → bareKey k = false → Accounted (o.wire q ven).dict (k, textEntry t) := by
      intro k t hk hb
      cases t with
      | none => exact .inr ⟨hk, rfl, hb⟩
      | some s => exact .inl ⟨.str s, hk, .same _⟩
    refine all_cons (.inl ⟨_, ?_, .same _⟩) (all_cons (.inl ⟨_, ?_, .same _⟩) (all_cons (.inl ⟨_, ?_, .same _⟩) (all_cons (.inl ⟨_, ?_, .same _⟩)
      (all_cons (.inl ⟨_, ?_, .same _⟩) (all_cons (.inl ⟨_, ?_, .same _⟩) (all_cons (he _ _ ?_ (by decide)) (all_cons (.inl ⟨_, ?_, .same _⟩)
      (all_cons hs (all_cons (.inl ⟨_, ?_, ht⟩) (all_cons (.inl ⟨_, ?_, .same _⟩) (all_cons (he _ _ ?_ (by decide)) (all_cons (he _ _ ?_ (by decide))
      all_nil)))))))))))) <;>
      simp [OptObject.wire, OptP.dict, Dict.get?_append, Dict.get?_entry?, Dict.get?, text?, int?]

/-- **C102** (partial: opts with at most one target; the schedule and the target of the signal are received otherwise than they were sent, see below): the VTN reads
    the ids, the type, the reason, the event, the market context and the time of the opt as they are, and of its target just the entries that can be sent. -/
theorem c102_arrives_partial (sound : lib.Sound) {q ven : String} {o : OptObject} (h : o.Sendable lib q ven) (h1 : o.targets.length ≤ 1) :
    ∃ (r : Dict) (ts : List Dict), Received lib now "oadrCreateOpt" (o.payload q ven) r ∧
      Dict.get? r "request_id" = some (.str q) ∧ Dict.get? r "ven_id" = some (.str ven) ∧ Dict.get? r "opt_id" = some (.str o.optId) ∧
      Dict.get? r "opt_type" = some (.str o.optType) ∧ Dict.get? r "opt_reason" = some (.str o.optReason) ∧
      Dict.get? r "created_date_time" = some (.datetime o.created) ∧ Dict.get? r "event_id" = o.eventId.map .str ∧
      Dict.get? r "modification_number" = (if o.eventId = none then none else some (.int o.modificationNumber)) ∧
      Dict.get? r "market_context" = o.marketContext.map .str ∧ (o.vavailability = none → Dict.get? r "vavailability" = none) ∧
      Dict.get? r "targets" = some (.list (ts.map .dict)) ∧
      ∀ x, x ∈ ts ↔ ∃ k s, k ∈ ["group_id", "group_name", "resource_id", "ven_id", "party_id"] ∧ x = [(k, .str s)] ∧
        ∃ t ∈ o.targets, Dict.get? t k = some (.str s) := by
  have hg := wire_good sound h
  have ha := c67_create_opt_arrives (now := now) sound hg (by simpa [OptP.meantTargets, OptObject.wire] using h1)
  refine ⟨_, targetsReceived (o.targets.map targetP), ha _ (conforms_opt h.targets), ?_⟩
  obtain ⟨oi, ty, re, mc, ei, mn, va, ts, gs, st, cr⟩ := o
  have htail : ∀ x, x ∈ targetsReceived (ts.map targetP) ↔ ∃ k s, k ∈ ["group_id", "group_name", "resource_id", "ven_id", "party_id"] ∧ x = [(k, .str s)] ∧
      ∃ t ∈ ts, Dict.get? t k = some (.str s) := by
    have ht : ∀ (t : Dict) (k s : String), targetText t k = some s ↔ Dict.get? t k = some (.str s) := by
      intro t k s
      unfold targetText
      cases hk : Dict.get? t k with
      | none => simp
      | some v => cases v <;> simp [Value.text?]
    intro x
    simp only [targetsReceived, targetKinds, List.mem_flatMap, List.mem_map, List.mem_filterMap, List.mem_cons, List.not_mem_nil, or_false]
    constructor
    · rintro ⟨k, rfl | rfl | rfl | rfl | rfl, s, ⟨_, ⟨t, hm, rfl⟩, hs⟩, rfl⟩ <;>
        exact ⟨_, s, by simp, rfl, t, hm, (ht _ _ _).mp hs⟩
    · rintro ⟨k, s, hk, rfl, t, hm, hs⟩
      rcases hk with rfl | rfl | rfl | rfl | rfl
      · exact ⟨_, .inl rfl, s, ⟨_, ⟨t, hm, rfl⟩, (ht _ _ _).mpr hs⟩, rfl⟩
      · exact ⟨_, .inr (.inl rfl), s, ⟨_, ⟨t, hm, rfl⟩, (ht _ _ _).mpr hs⟩, rfl⟩
      · exact ⟨_, .inr (.inr (.inl rfl)), s, ⟨_, ⟨t, hm, rfl⟩, (ht _ _ _).mpr hs⟩, rfl⟩
      · exact ⟨_, .inr (.inr (.inr (.inl rfl))), s, ⟨_, ⟨t, hm, rfl⟩, (ht _ _ _).mpr hs⟩, rfl⟩
      · exact ⟨_, .inr (.inr (.inr (.inr rfl))), s, ⟨_, ⟨t, hm, rfl⟩, (ht _ _ _).mpr hs⟩, rfl⟩
  refine ⟨?_, ?_, ?_, ?_, ?_, ?_, ?_, ?_, ?_, ?_, ?_, htail⟩
  case refine_10 =>
    intro hv
    cases hv
    cases ei <;> simp [OptP.received, OptObject.wire, Dict.get?_append, Dict.get?_entry?, Dict.get?, text?, int?]
  all_goals cases ei <;> simp [OptP.received, OptObject.wire, OptP.meantTargets, Dict.get?_append, Dict.get?_entry?, Dict.get?, text?, int?]

/-- **C102, refuted** for opts with two targets or more: the message is created, but reading it fails with a `TypeError`. -/
theorem c102_several_targets_violated (sound : lib.Sound) {q ven : String} {o : OptObject} (h : o.Sendable lib q ven) (h2 : 2 ≤ o.targets.length) :
    Refused lib now "oadrCreateOpt" (o.payload q ven) .typeError :=
  c67_create_opt_violated sound (wire_good sound h) (by simpa [OptP.meantTargets, OptObject.wire] using h2) _ (conforms_opt h.targets)

/-- **C102, refuted** for opts with a schedule: whatever the schedule is, the VTN does not read the list of its periods. -/
theorem c102_schedule_violated (sound : lib.Sound) {q ven : String} {o : OptObject} (h : o.Sendable lib q ven) (h1 : o.targets.length ≤ 1)
    {l : List (Int × Int)} (hv : o.vavailability = some l) :
    ∃ r v, Received lib now "oadrCreateOpt" (o.payload q ven) r ∧ Dict.get? r "vavailability" = some (.dict [("components", v)]) ∧ ∀ ps, v ≠ .list ps := by
  have ha := c67_create_opt_arrives (now := now) sound (wire_good sound h) (by simpa [OptP.meantTargets, OptObject.wire] using h1)
  refine ⟨_, periodsReceived (l.map (fun p => ⟨p.1, p.2⟩)), ha _ (conforms_opt h.targets), ?_, ?_⟩
  · obtain ⟨oi, ty, re, mc, ei, mn, va, ts, gs, st, cr⟩ := o
    cases hv
    simp [OptP.received, OptObject.wire, Dict.get?_append, Dict.get?_entry?, Dict.get?, text?, int?]
  · intro ps
    match l with
    | [] => simp [periodsReceived]
    | [a] => simp [periodsReceived]
    | a :: b :: l => simp [periodsReceived]

/-- **C102, refuted** for opts that name a class of devices: the VTN does not read the `signal_target_mrid` the client sent, but an entry of another name and shape. -/
theorem c102_signal_target_violated (sound : lib.Sound) {q ven s : String} {o : OptObject} (h : o.Sendable lib q ven) (h1 : o.targets.length ≤ 1)
    (hs : o.signalTarget = some s) :
    ∃ r, Received lib now "oadrCreateOpt" (o.payload q ven) r ∧ Dict.get? (o.payload q ven) "signal_target_mrid" = some (.str s) ∧
      Dict.get? r "signal_target_mrid" = none ∧ Dict.get? r "device_class" = some (.dict [("end_device_asset", .dict [("mrid", .str s)])]) := by
  have ha := c67_create_opt_arrives (now := now) sound (wire_good sound h) (by simpa [OptP.meantTargets, OptObject.wire] using h1)
  refine ⟨_, ha _ (conforms_opt h.targets), ?_, ?_, ?_⟩
  all_goals
    obtain ⟨oi, ty, re, mc, ei, mn, va, ts, gs, st, cr⟩ := o
    cases hs
    cases ei <;> simp [OptObject.payload, textEntry, OptP.received, OptObject.wire, Dict.get?_append, Dict.get?_entry?, Dict.get?, text?, int?]

/-- A call: the user opts out of an event for a thermostat, for a resource that has a name of its own. -/
def someOptCall : OptCall :=
  { optType := "optOut", optReason := "emergency", targets := some [[("resource_id", .str "device"), ("ven_id", .none)]], eventId := some "e-one",
    marketContext := some "http://context", signalTarget := some "x-mine", modificationNumber := some 3 }

/-- It can be made, and the opt has a fresh id. -/
example : (newOpt 0 "fresh" someOptCall).toOption.map (fun o => (o.optId, o.modificationNumber, o.eventId)) = some ("fresh", 3, some "e-one") := by
  decide +kernel

/-- Not for an event and a schedule at once, nor for neither of them. -/
example : newOpt 0 "fresh" { someOptCall with vavailability := some [(0, 1)] } = .error .valueError ∧
    newOpt 0 "fresh" { someOptCall with eventId := none } = .error .valueError ∧
    newOpt 0 "fresh" { someOptCall with signalTarget := some "toaster" } = .error .valueError := by
  refine ⟨?_, ?_, ?_⟩ <;> rfl

/-- The opt of the call. -/
def someOpt : OptObject :=
  { optType := "optOut", optReason := "emergency", optId := "fresh", created := 0, eventId := some "e-one", modificationNumber := 3,
    vavailability := none, targets := [[("resource_id", .str "device"), ("ven_id", .none)]],
    targetsByType := groupTargetsByType [[("resource_id", .str "device"), ("ven_id", .none)]], marketContext := some "http://context",
    signalTarget := some "x-mine" }

/-- It can be sent: the theorems above hold for it. -/
example (sound : lib.Sound) : newOpt 0 "fresh" someOptCall = .ok someOpt ∧ someOpt.Sendable lib "request" "ven" ∧ someOpt.targets.length ≤ 1 := by
  refine ⟨rfl, ?_⟩
  have w : ∀ s ∈ ["request", "ven", "fresh", "e-one", "http://context", "x-mine", "device"], Ordinary lib s := fun s hs =>
    ordinary_wordB sound (words_of (by decide +kernel) s hs)
  refine ⟨⟨w _ (by simp), w _ (by simp), w _ (by simp [someOpt]), by decide +kernel, by decide +kernel, by constructor <;> decide +kernel, ?_, ?_, ?_, by simp [someOpt], ?_⟩, by simp [someOpt]⟩
  · intro x hx; cases hx; exact w _ (by simp)
  · intro x hx; cases hx; exact w _ (by simp)
  · intro x hx; cases hx; exact w _ (by simp)
  · intro t ht
    simp only [someOpt, List.mem_cons, List.not_mem_nil, or_false] at ht
    subst ht
    refine ⟨fun k hk => ?_, rfl⟩
    simp only [sentKinds, List.mem_cons, List.not_mem_nil, or_false] at hk
    rcases hk with rfl | rfl | rfl | rfl | rfl
    · exact .inl rfl
    · exact .inl rfl
    · exact .inr (.inr ⟨_, rfl, w _ (by simp)⟩)
    · exact .inr (.inl rfl)
    · exact .inl rfl

end Openleadr
