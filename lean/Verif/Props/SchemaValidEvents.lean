import Verif.Lemmas.ValidItems
import Verif.Lemmas.EventReady
import Verif.Lemmas.OptMessage
import Verif.Props.SchemaValid
/-!
C104: what the library says is valid against the schema it comes with: opts and events.
-/
namespace Openleadr

variable {lib : Lib} {now : Int}

section
variable {env : Dict} {names : Xsd.Names}

/-- A text of any kind. -/
theorem gives_uri {name : String} {path : List String} {attrs : List (String × String)} {q : Xsd.QName} {s : String}
    (hl : lookup env path = .ok (some (.str s))) (h : OnWire s) (hf : tagFacts names name attrs q = true := by decide +kernel) :
    Gives lib env names (leaf name path .plain attrs) [(q, Xsd.anyURI)] 1 := gives_leaf hl (reads_text h trivial) hf

/-- The ids of all targets of one kind. -/
theorem gives_kind {kind name : String} {q : Xsd.QName} {ts : List EventTargetP} (k : EventTargetP → Option String)
    (hl : lookup env ["event", "targets"] = .ok (some (.list ((ts.map EventTargetP.dict).map .dict))))
    (hk : ∀ t ∈ ts, Dict.get? t.dict kind = text? (k t)) (hg : ∀ t ∈ ts, ∀ x, k t = some x → OnWire x)
    (hf : tagFacts names name [] q = true := by decide +kernel) :
    ∃ m, Gives lib env names (tEventTargets kind name) [(q, Xsd.string)] m := by
  refine gives_loopSome (fun v => if ((attrOf v kind).isSome) then 1 else 0) hl (fun i v hv => ?_)
  simp only [List.map_map, List.mem_map, Function.comp_apply] at hv
  obtain ⟨t, ht, rfl⟩ := hv
  have hl2 : lookup (loopEnv env "target" i (.dict t.dict)) ["target", kind] = .ok (text? (k t)) := by
    simp [lookup, walk, loopEnv, Dict.get?, attrOf, hk t ht]
  have ha : attrOf (.dict t.dict) kind = text? (k t) := by simp [attrOf, hk t ht]
  rw [ha]
  cases hx : k t with
  | none =>
    rw [hx] at hl2
    exact gives_skip (surely_truthy hl2 (by simp [text?]))
  | some x =>
    rw [hx] at hl2
    have ho := hg t ht x hx
    exact gives_yes (surely_truthy hl2 (by simpa [text?, Value.truthy] using ho.notEmpty)) (gives_text hl2 ho hf)

theorem eachTree_none {f : Nat → Value → Res (List Xsd.Tree)} {l : List Value} (h : ∀ i, ∀ x ∈ l, f i x = .ok []) : ∀ i, eachTree f i l = .ok [] := by
  induction l with
  | nil => intro i; rfl
  | cons x l ih =>
    intro i
    simp [eachTree, h i x (by simp), ih (fun j y hy => h j y (by simp [hy])) (i + 1)]

/-- The targets of an event. -/
theorem gives_eventTarget {ts : List EventTargetP} (hg : ∀ t ∈ ts, t.Good lib)
    (hl : lookup env ["event", "targets"] = .ok (some (.list ((ts.map EventTargetP.dict).map .dict)))) :
    Gives lib env (Xsd.inside (Xsd.inside plainNames []) []) tEventTarget [(Xsd.ei "eiTarget", Xsd.target)] 1 := by
  have hw : ∀ k ∈ targetKinds, ∀ t ∈ ts, ∀ x, k.2 t = some x → OnWire x := fun k hk t ht x hx => ((hg t ht).texts k hk x hx).toOnWire
  have h0 : grow lib env (.loop "target" ["event", "targets"] [
      ifTrue ["target", "emix_interfaces"] [.loop "emix_interface" ["target", "emix_interface"] emixInterface]]) = .ok [] := by
    simp only [grow, hl]
    refine eachTree_none (fun i v hv => ?_) 0
    simp only [List.map_map, List.mem_map, Function.comp_apply] at hv
    obtain ⟨t, ht, rfl⟩ := hv
    have : lookup (loopEnv env "target" i (.dict t.dict)) ["target", "emix_interfaces"] = .ok none := by
      simp [lookup, walk, loopEnv, Dict.get?, attrOf, (hg t ht).get.1]
    rw [growAll_one]
    exact grow_skip (surely_truthy this (by simp))
  obtain ⟨n1, h1⟩ := gives_kind (lib := lib) (names := Xsd.inside (Xsd.inside (Xsd.inside plainNames []) []) []) (kind := "group_id") (name := "ei:groupID")
    (q := Xsd.ei "groupID") EventTargetP.groupId hl (fun t ht => (hg t ht).get.2.1) (hw ("group_id", _) (by simp [targetKinds]))
  obtain ⟨n2, h2⟩ := gives_kind (lib := lib) (names := Xsd.inside (Xsd.inside (Xsd.inside plainNames []) []) []) (kind := "group_name") (name := "ei:groupName")
    (q := Xsd.ei "groupName") EventTargetP.groupName hl (fun t ht => (hg t ht).get.2.2.1) (hw ("group_name", _) (by simp [targetKinds]))
  obtain ⟨n3, h3⟩ := gives_kind (lib := lib) (names := Xsd.inside (Xsd.inside (Xsd.inside plainNames []) []) []) (kind := "resource_id") (name := "ei:resourceID")
    (q := Xsd.ei "resourceID") EventTargetP.resourceId hl (fun t ht => (hg t ht).get.2.2.2.1) (hw ("resource_id", _) (by simp [targetKinds]))
  obtain ⟨n4, h4⟩ := gives_kind (lib := lib) (names := Xsd.inside (Xsd.inside (Xsd.inside plainNames []) []) []) (kind := "ven_id") (name := "ei:venID")
    (q := Xsd.ei "venID") EventTargetP.venId hl (fun t ht => (hg t ht).get.2.2.2.2.1) (hw ("ven_id", _) (by simp [targetKinds]))
  obtain ⟨n5, h5⟩ := gives_kind (lib := lib) (names := Xsd.inside (Xsd.inside (Xsd.inside plainNames []) []) []) (kind := "party_id") (name := "ei:partyID")
    (q := Xsd.ei "partyID") EventTargetP.partyId hl (fun t ht => (hg t ht).get.2.2.2.2.2) (hw ("party_id", _) (by simp [targetKinds]))
  exact gives_el (.nothing h0 (.skip (.skip (.skip (.skip (.skip (.skip (.many h1 (Nat.zero_le _) (.many h2 (Nat.zero_le _) (.many h3 (Nat.zero_le _)
    (.many h4 (Nat.zero_le _) (.many h5 (Nat.zero_le _) .nil))))))))))))

/-- The descriptor of an event. -/
theorem gives_descriptor {r : DescriptorP} (h : r.Good lib) (ha : r.Allowed) {e : Dict} (hv : Dict.get? env "event" = some (.dict e))
    (he : Dict.get? e "event_descriptor" = some (.dict r.dict)) :
    Gives lib env (Xsd.inside (Xsd.inside plainNames []) []) tEventDescriptor [(Xsd.ei "eventDescriptor", Xsd.eventDescriptor)] 1 := by
  have priority : Maybe lib env (Xsd.inside (Xsd.inside (Xsd.inside plainNames []) []) [])
      (.cond (.notNone ["event", "event_descriptor", "priority"]) [leaf "ei:priority" ["event", "event_descriptor", "priority"]] [])
      [(Xsd.ei "priority", Xsd.unsignedInt)] := by
    have hl : lookup env ["event", "event_descriptor", "priority"] = .ok (some ((int? r.priority).getD .none)) := by lkd [hv, he, DescriptorP.dict]
    cases hp : r.priority with
    | none =>
      rw [hp] at hl
      exact ⟨0, by omega, gives_skip (by simp [surely, hl, int?])⟩
    | some i =>
      rw [hp] at hl
      exact ⟨1, by omega, gives_yes (by simp [surely, hl, int?]) (gives_unsigned hl (ha.priority i hp))⟩
  exact gives_el (.one (gives_text (by lkd [hv, he, DescriptorP.dict]) h.eventId.toOnWire)
    (.one (gives_unsigned (by lkd [hv, he, DescriptorP.dict]) ha.modification)
    (.maybe (maybe_given (o := r.modified) (f := .datetime) (by lkd [hv, he, DescriptorP.dict, date?]) (by simp) (fun d hd =>
      gives_datetime (by lkd [hv, he, DescriptorP.dict, date?, hd]) (h.modified d hd)))
    (.maybe (maybe_text (by lkd [hv, he, DescriptorP.dict]) (fun x hx => (h.reason x hx).toOnWire))
    (.maybe priority
    (.one (gives_el (.one (gives_uri (by lkd [hv, he, DescriptorP.dict]) h.marketContext.toOnWire) .nil))
    (.one (gives_datetime (by lkd [hv, he, DescriptorP.dict]) h.created)
    (.one (gives_token (by lkd [hv, he, DescriptorP.dict]) h.status.toOnWire ha.status)
    (.maybe (maybe_given (o := r.test) (f := .bool) (by lkd [hv, he, DescriptorP.dict, bool?]) (by simp) (fun b hb =>
      gives_leaf (v := .bool b) (by lkd [hv, he, DescriptorP.dict, bool?, hb]) (reads_bool.weaken fun _ _ => trivial)))
    (.maybe (maybe_text (by lkd [hv, he, DescriptorP.dict]) (fun x hx => (h.comment x hx).toOnWire)) .nil))))))))))

/-- A duration that is only there if it is not zero. -/
theorem maybe_spanTrue {outer name : String} {path : List String} {q : Xsd.QName} {o : Option Int}
    (hl : lookup env path = .ok (span? o)) (h : ∀ d, o = some d → Spans d)
    (hf : (tagFacts names outer [] q && tagFacts (Xsd.inside names []) name [] (Xsd.xcal "duration")) = true := by decide +kernel) :
    Maybe lib env names (ifTrue path [el outer [leaf name path .timedeltaformat]]) [(q, Xsd.durationProp)] := by
  cases ho : o with
  | none =>
    rw [ho] at hl
    exact ⟨0, by omega, gives_skip (surely_truthy hl (by simp [span?]))⟩
  | some d =>
    rw [ho] at hl
    by_cases hd : d = 0
    · exact ⟨0, by omega, gives_skip (by simp [surely, hl, span?, Value.truthy, hd])⟩
    · exact ⟨1, by omega, gives_yes (surely_truthy hl (by simp [span?, Value.truthy, hd])) (gives_span hl (h d ho) hf)⟩

/-- The active period of an event. -/
theorem gives_active {r : ActiveP} (h : r.Good) {e : Dict} (hv : Dict.get? env "event" = some (.dict e))
    (he : Dict.get? e "active_period" = some (.dict r.dict)) :
    Gives lib env (Xsd.inside (Xsd.inside plainNames []) []) tActivePeriod [(Xsd.ei "eiActivePeriod", Xsd.activePeriod)] 1 :=
  gives_el (.one (gives_el (.one (gives_moment (by lkd [hv, he, ActiveP.dict]) h.start) (.one (gives_span (by lkd [hv, he, ActiveP.dict]) h.duration)
    (.maybe (maybe_true (o := r.tolerance) (f := fun d => .dict [("startafter", .timedelta d)]) (by lkd [hv, he, ActiveP.dict]) (fun _ _ => by simp [Value.truthy])
      (fun d hd => gives_el (.one (gives_el (.opt (gives_duration (by lkd [hv, he, ActiveP.dict, hd]) (h.tolerance d hd)) (Nat.le_refl _) .nil)) .nil)))
    (.maybe (maybe_spanTrue (o := r.notification) (by lkd [hv, he, ActiveP.dict]) h.notification)
    (.maybe (maybe_spanTrue (o := r.rampUp) (by lkd [hv, he, ActiveP.dict]) h.rampUp)
    (.maybe (maybe_spanTrue (o := r.recovery) (by lkd [hv, he, ActiveP.dict]) h.recovery) .nil))))))) (.one gives_any .nil))

/-- A signal of an event. -/
theorem gives_signal {r : SignalP} (h : r.Good lib) (ha : r.Allowed) (hv : Dict.get? env "event_signal" = some (.dict r.dict)) :
    Gives lib env (Xsd.inside (Xsd.inside (Xsd.inside plainNames []) []) []) tEventSignal [(Xsd.ei "eiEventSignal", Xsd.eventSignal)] 1 := by
  refine gives_el (.one (gives_el (.many (gives_each (xs := r.intervals) (F := IntervalP.dict) (by lkd [hv, SignalP.dict]) (fun i x hx => ?_))
      (List.length_pos_iff.2 ha.nonempty) .nil))
    (.skip (.one (gives_extended (by lkd [hv, SignalP.dict]) h.name.toOnWire ha.name)
    (.one (gives_token (by lkd [hv, SignalP.dict]) h.type.toOnWire ha.type)
    (.one (gives_text (by lkd [hv, SignalP.dict]) h.id.toOnWire)
    (.maybe (maybe_emix h.measurement ha.measurement hv (by simp [SignalP.dict, Dict.get?, Dict.get?_append, Dict.get?_entry?]))
    (.maybe ?_ .nil)))))))
  · have g := h.intervals x hx
    exact gives_el (.maybe (maybe_given (o := x.start) (f := .datetime) (by lkd [IntervalP.dict, date?]) (by simp) (fun d hd =>
        gives_moment (by lkd [IntervalP.dict, date?, hd]) (g.start d hd)))
      (.maybe (maybe_given (o := x.duration) (f := .timedelta) (by lkd [IntervalP.dict, span?]) (by simp) (fun d hd =>
        gives_span (by lkd [IntervalP.dict, span?, hd]) (g.duration d hd)))
      (.opt (gives_el (.one (gives_leaf (v := .int i) (by lk) (reads_int trivial)) .nil)) (Nat.le_refl _)
      (.many (gives_either (gives_el (.one (gives_el (.one (gives_number (by lkd [IntervalP.dict]) g.number (ha.intervals x hx).number) .nil)) .nil)))
        (Nat.le_refl _) .nil))))
  · have hl : lookup env ["event_signal", "current_value"] = .ok (r.current.map (·.1)) := by lkd [hv, SignalP.dict]
    cases hc : r.current with
    | none =>
      rw [hc] at hl
      exact ⟨0, by omega, gives_skip (surely_given hl (by simp))⟩
    | some c =>
      rw [hc] at hl
      have hn := h.current c hc
      exact ⟨1, by omega, gives_yes (surely_given hl (by obtain ⟨v, w⟩ := c; dsimp only at hn; cases hn <;> simp)) (gives_el (.one (gives_el (.one
        (gives_number hl hn (ha.current c hc)) .nil)) .nil))⟩

/-- An event. -/
theorem gives_event {r : EventP} (h : r.Good lib) (ha : r.Allowed) (hv : Dict.get? env "event" = some (.dict r.dict)) :
    Gives lib env plainNames tEvent [(Xsd.oadr "oadrEvent", Xsd.seq [Xsd.one (Xsd.ei "eiEvent") Xsd.event,
      Xsd.one (Xsd.oadr "oadrResponseRequired") (Xsd.exactly ["always", "never"])])] 1 := by
  obtain ⟨ts, ht⟩ := Option.ne_none_iff_exists'.1 ha.targets
  have hl : lookup env ["event", "targets"] = .ok (some (.list ((ts.map EventTargetP.dict).map .dict))) := by lkd [hv, EventP.dict, ht]
  exact gives_el (.one (gives_el (.one (gives_descriptor h.descriptor ha.descriptor hv (by simp [EventP.dict, Dict.get?]))
    (.one (gives_active h.period hv (by simp [EventP.dict, Dict.get?]))
    (.one (gives_el (.many (gives_each (xs := r.signals) (F := SignalP.dict) (by lkd [hv, EventP.dict]) (fun i s hs =>
      gives_signal (h.signals s hs) (ha.signals s hs) (by simp [loopEnv, Dict.get?]))) (List.length_pos_iff.2 ha.nonempty) .nil))
    (.nothing (grow_skip (surely_truthy (v := none) (by lkd [hv, EventP.dict]) (by simp)))
    (.one (gives_yes (surely_given hl (by simp)) (gives_eventTarget (h.targets ts ht) hl)) .nil))))))
    (.one (gives_exactly (by lkd [hv, EventP.dict]) h.response.toOnWire ha.response) .nil))

end

/-- **C104** for oadrDistributeEvent, for every payload that becomes one of this form when it is prepared. -/
theorem c104_distribute_event {r : DistributeEventP} (h : r.Good lib) (ha : r.Allowed) (p sent : Dict)
    (hp : preflightMessage now "oadrDistributeEvent" p = .ok (.dict sent)) (hc : Conforms (.dict sent) (.dict r.dict)) :
    ∃ txt root, createMessage lib now "oadrDistributeEvent" p = .ok txt ∧ Xsd.Document txt root ∧ Xsd.ValidAs "oadrDistributeEvent" root :=
  valid_of 0 sent hp hc (by rfl) (by rfl) (.maybe (maybe_given (o := r.response) (f := fun x => .dict x.dict) (by lkd [DistributeEventP.dict]) (by simp)
      (fun x hx => gives_response (h.response x hx) (ha.response x hx) (by lkd [DistributeEventP.dict, hx])))
    (.one (gives_text (by lkd [DistributeEventP.dict]) h.requestId.toOnWire) (.one (gives_text (by lkd [DistributeEventP.dict]) h.vtnId.toOnWire)
    (.many (gives_each (xs := r.events) (F := EventP.dict) (by lkd [DistributeEventP.dict]) (fun i e he =>
      gives_event (h.events e he) (ha.events e he) (by simp [loopEnv, Dict.get?]))) (Nat.zero_le _) .nil)))) (by decide +kernel)

/-- **C104** for oadrDistributeEvent, for events that are left as they are when they are prepared. -/
theorem c104_ready_event {r : DistributeEventP} (h : r.Good lib) (ha : r.Allowed) (hr : ∀ e ∈ r.events, e.Ready) :
    ∃ txt root, createMessage lib now "oadrDistributeEvent" r.dict = .ok txt ∧ Xsd.Document txt root ∧ Xsd.ValidAs "oadrDistributeEvent" root :=
  c104_distribute_event h ha r.dict r.dict (preflight_events_ready h hr) (.same _)

/-- The names that are known in oadrCreateOpt. -/
abbrev optNames : Xsd.Names := messageNames [("xmlns:emix", nsEmix), ("xmlns:power", nsPower), ("xmlns:xcal", nsXcal)] []

theorem sequence_none {names : Xsd.Names} : ∀ parts : List Xsd.Part, (∀ p ∈ parts, p.1 = 0) → Xsd.Sequence names parts []
  | [], _ => .nil
  | (min, max, alts) :: parts, h => by
    have h0 : min = 0 := h (min, max, alts) List.mem_cons_self
    exact .part (ts := []) min max .nil (by simp [h0]) (by simp) (sequence_none parts (fun p hp => h p (by simp [hp])))

theorem optTarget_empty {env : Dict} : Gives lib env optNames (.empty (.fixed "ei:eiTarget") []) [(Xsd.ei "eiTarget", Xsd.target)] 1 :=
  gives_emptySeq (sequence_none _ (by simp [Xsd.many]))

/-- A target of an opt. -/
theorem gives_optTarget {env : Dict} {i : Nat} {t : EventTargetP} (g : t.Good lib) :
    Gives lib (loopEnv env "target" i (.dict t.dict)) optNames tTarget [(Xsd.ei "eiTarget", Xsd.target)] 1 := by
  have lt : ∀ k v, Dict.get? t.dict k = v → lookup (loopEnv env "target" i (.dict t.dict)) ["target", k] = .ok v := by
    intro k v e
    simp [lookup, walk, loopEnv, Dict.get?, attrOf, e]
  have hw : ∀ k ∈ targetKinds, ∀ x, k.2 t = some x → OnWire x := fun k hk x hx => (g.texts k hk x hx).toOnWire
  exact gives_el (.nothing (grow_skip (surely_given (v := none) (lt _ _ g.get.1) (by simp)))
    (.skip (.skip (.skip (.skip (.skip (.skip
    (.few (maybe_text (lt _ _ g.get.2.1) (hw ("group_id", EventTargetP.groupId) (by simp [targetKinds])))
    (.few (maybe_text (lt _ _ g.get.2.2.1) (hw ("group_name", EventTargetP.groupName) (by simp [targetKinds])))
    (.few (maybe_text (lt _ _ g.get.2.2.2.1) (hw ("resource_id", EventTargetP.resourceId) (by simp [targetKinds])))
    (.few (maybe_text (lt _ _ g.get.2.2.2.2.1) (hw ("ven_id", EventTargetP.venId) (by simp [targetKinds])))
    (.few (maybe_text (lt _ _ g.get.2.2.2.2.2) (hw ("party_id", EventTargetP.partyId) (by simp [targetKinds]))) .nil))))))))))))

/-- **C104** for oadrCreateOpt, with at most one target. -/
theorem c104_create_opt {r : OptP} (h : r.Good lib) (ha : r.Allowed) : SchemaValid lib now "oadrCreateOpt" r.dict := by
  have hl : lookup r.dict ["targets"] = .ok (r.targets.map (fun l => .list ((l.map EventTargetP.dict).map .dict))) := by lkd [OptP.dict]
  refine schemaValid_of 6 (by rfl) (by rfl) (.one (gives_text (by lkd [OptP.dict]) h.optId.toOnWire)
    (.one (gives_token (by lkd [OptP.dict]) h.optType.toOnWire ha.optType)
    (.one (gives_extended (by lkd [OptP.dict]) h.reason.toOnWire ha.reason)
    (.maybe (maybe_given (o := r.marketContext) (f := .str) (by lkd [OptP.dict, text?]) (by simp) (fun x hx =>
      gives_uri (by lkd [OptP.dict, text?, hx]) (h.marketContext x hx).toOnWire))
    (.one (gives_text (by lkd [OptP.dict]) h.venId.toOnWire)
    (.maybe (maybe_given (o := r.availability) (f := fun l => .dict [("components", .list ((l.map PeriodP.dict).map .dict))]) (by lkd [OptP.dict]) (by simp) (fun l hr =>
      gives_el (.one (gives_el (.many (gives_each (xs := l) (F := PeriodP.dict) (by lkd [OptP.dict, hr]) (fun i x hx =>
        gives_el (.one (gives_el (.one (gives_moment (by lkd [PeriodP.dict]) (h.availability l hr x hx).start)
          (.one (gives_span (by lkd [PeriodP.dict]) (h.availability l hr x hx).duration) (.skip (.skip (.skip (.skip .nil))))))) .nil))) (Nat.zero_le _) .nil)) .nil)))
    (.one (gives_datetime (by lkd [OptP.dict]) h.created)
    (.one (gives_text (by lkd [OptP.dict]) h.requestId.toOnWire)
    (.maybe (maybe_given (o := r.eventId) (f := .str) (by lkd [OptP.dict, text?]) (by simp) (fun e he => ?_))
    (.one ?_
    (.maybe (maybe_given (o := r.signalTarget) (f := .str) (by lkd [OptP.dict, text?]) (by simp) (fun x hx =>
      gives_el (.skip (.many (gives_el (.one (gives_text (by lkd [OptP.dict, text?, hx]) (h.signalTarget x hx).toOnWire) .nil)) (Nat.zero_le _)
        (.skip (.skip (.skip (.skip (.skip (.skip (.skip (.skip (.skip .nil)))))))))))))
    .nil)))))))))))
  · obtain ⟨m, hm⟩ := Option.ne_none_iff_exists'.1 (h.modification (by simp [he]))
    exact gives_el (.one (gives_text (by lkd [OptP.dict, text?, he]) (h.eventId e he).toOnWire)
      (.one (gives_unsigned (by lkd [OptP.dict, int?, hm]) (ha.modification m hm)) .nil))
  · cases ht : r.targets with
    | none =>
      rw [ht] at hl
      exact gives_no (by simp [surely, holds, hl, Except.map]) (optTarget_empty)
    | some l =>
      rw [ht] at hl
      have g := h.targets l ht
      have hn := ha.targets l ht
      cases l with
      | nil => exact gives_no (by simp [surely, holds, hl, Except.map]) (optTarget_empty)
      | cons t l =>
        cases l with
        | cons u l => simp at hn
        | nil => exact gives_yes (by simp [surely, holds, hl, Except.map]) (gives_each (xs := [t]) (F := EventTargetP.dict) hl (fun i x hx => gives_optTarget (g x hx)))

end Openleadr
