import Verif.Props.ClientState
import Verif.Props.MessageChanges
import Verif.Props.SchemaValidEvents
import Verif.Props.SchemaValidReports
/-!
Concrete messages for C104, and for the smaller theorems of C67 and C49.
-/
namespace Openleadr

/-! ### C104 -/

theorem schemaNumber_int (i : Int) : SchemaNumber (.int i) := fun r h => by cases h

theorem distributedSample_allowed : distributedSample.Allowed where
  response := by
    intro x hx
    cases hx
    exact ⟨by decide, by decide⟩
  events := by
    intro e he
    simp only [distributedSample, List.mem_singleton] at he
    subst he
    refine ⟨⟨⟨by decide, by decide⟩, ?_, by decide +kernel⟩, by simp, ?_, by simp, by simp⟩
    · intro i hi
      cases hi
      exact ⟨by decide, by decide⟩
    · intro s hs
      simp only [List.mem_singleton] at hs
      subst hs
      refine ⟨by simp, ?_, .inl (by decide +kernel), by decide +kernel, by simp, ?_⟩
      · intro i hi
        simp only [List.mem_singleton] at hi
        subst hi
        exact ⟨schemaNumber_int 2⟩
      · intro c hc
        cases hc
        exact schemaNumber_int 0

/-- The document of the event is valid (`c104_ready_event`). -/
example : ∃ txt root, createMessage plainLib 0 "oadrDistributeEvent" distributedSample.dict = .ok txt ∧ Xsd.Document txt root ∧ Xsd.ValidAs "oadrDistributeEvent" root :=
  c104_ready_event distributedSample_good distributedSample_allowed distributedSample_ready

/-- The document of the opt is valid (`c104_create_opt`). -/
example : SchemaValid plainLib 0 "oadrCreateOpt" optSample.dict :=
  c104_create_opt (optSample_good none (by simp)) ⟨by decide +kernel, .inl (by decide +kernel), by intro i hi; cases hi; exact ⟨by decide, by decide⟩,
    by intro l hl; cases hl; decide⟩

/-- An answer to an event. -/
example : SchemaValid plainLib 0 "oadrCreatedEvent"
    [("response", .dict [("response_code", .int 200), ("response_description", .str "OK"), ("request_id", .str "r1x")]),
      ("event_responses", .list [.dict [("response_code", .int 200), ("response_description", .str "OK"), ("request_id", .str "r1x"), ("event_id", .str "e1x"),
        ("modification_number", .int 3), ("opt_type", .str "optOut")]]), ("ven_id", .str "ven")] := by
  refine c104_created_event (r := ⟨⟨200, "OK", some "r1x"⟩, some [⟨200, some "OK", "r1x", "e1x", 3, "optOut"⟩], "ven"⟩) ⟨⟨ordinary_of (by decide +kernel), ?_⟩, ?_,
    ordinary_of (by decide +kernel)⟩ ⟨⟨by decide, by decide⟩, ?_⟩
  · intro x hx; cases hx; exact ordinary_of (by decide +kernel)
  · intro l hl e he
    cases hl
    simp only [List.mem_singleton] at he
    subst he
    constructor <;> first | exact ordinary_of (by decide +kernel) | (intro x hx; cases hx; exact ordinary_of (by decide +kernel))
  · intro l hl e he
    cases hl
    simp only [List.mem_singleton] at he
    subst he
    exact ⟨⟨by decide, by decide⟩, ⟨by decide, by decide⟩, by decide +kernel⟩

/-- A report with two values, one of them with a duration. -/
def reportSample : UpdateReportP where
  requestId := "r1x"
  reports := [{
    start := some 0
    readings := some [⟨0, none, "p1x", none, none, none, .int 2, "2.0"⟩, ⟨60000000, some 60000000, "p1x", some 90, none, some "Quality Good - Non Specific", .int 3, "3.0"⟩]
    reportId := some "i1x"
    descriptions := none
    requestId := "q1x"
    specifierId := "s1x"
    name := some "TELEMETRY_USAGE"
    created := 0
    duration := none
    mode := none }]
  venId := some "ven"

theorem reportSample_good : reportSample.Good plainLib where
  requestId := ordinary_of (by decide +kernel)
  reports := by
    intro x hx
    simp only [reportSample, List.mem_singleton] at hx
    subst hx
    refine ⟨?_, ?_, ?_, by simp, ordinary_of (by decide +kernel), ordinary_of (by decide +kernel), ?_, by constructor <;> decide +kernel⟩
    · intro d hd; cases hd; constructor <;> decide +kernel
    · intro l hl i hi
      cases hl
      simp only [List.mem_cons, List.not_mem_nil, or_false] at hi
      rcases hi with rfl | rfl
      · exact ⟨by constructor <;> decide +kernel, by simp, ordinary_of (by decide +kernel), by simp, asFloat_plain _ _ (by decide +kernel)⟩
      · exact ⟨by constructor <;> decide +kernel, by intro d hd; cases hd; exact spans_of (by decide +kernel), ordinary_of (by decide +kernel),
          by intro x hx; cases hx; exact ordinary_of (by decide +kernel), asFloat_plain _ _ (by decide +kernel)⟩
    · intro x hx; cases hx; exact ordinary_of (by decide +kernel)
    · intro x hx; cases hx; exact ordinary_of (by decide +kernel)
  venId := by intro x hx; cases hx; exact ordinary_of (by decide +kernel)

/-- The document of the report is valid (`c104_update_report`), and what is received of it has floats for the values (`c67_update_report_arrives`). -/
example : SchemaValid plainLib 0 "oadrUpdateReport" reportSample.dict ∧ Arrives plainLib 0 "oadrUpdateReport" reportSample.dict reportSample.received := by
  refine ⟨c104_update_report reportSample_good ?_, c67_update_report_arrives plainLib_sound reportSample_good⟩
  intro x hx
  simp only [reportSample, List.mem_singleton] at hx
  subst hx
  refine ⟨?_, by simp, by intro x hx; cases hx; exact .inl (by decide +kernel)⟩
  intro l hl i hi
  cases hl
  simp only [List.mem_cons, List.not_mem_nil, or_false] at hi
  rcases hi with rfl | rfl
  · exact ⟨by simp, by simp, schemaNumber_int 2⟩
  · exact ⟨by intro c hc; cases hc; exact ⟨by decide, by decide⟩, by intro x hx; cases hx; exact .inl (by decide +kernel), schemaNumber_int 3⟩

/-- The offer of a report with one data point, a voltage. -/
def offerSample : RegisterReportP where
  requestId := "r1x"
  reports := [{
    duration := some 3600000000
    reportId := none
    descriptions := [{
      rId := "p1x"
      subject := none
      source := some ⟨none, none, none, some "res", none, none, []⟩
      reportType := "usage"
      measurement := some ⟨"voltage", "power", "Voltage", "V", .scale "none", none, none⟩
      readingType := "Direct Read"
      marketContext := some "http://market"
      sampling := some ⟨10000000, 60000000, false⟩ }]
    requestId := none
    specifierId := "s1x"
    name := "METADATA_TELEMETRY_USAGE"
    created := 0
    start := none
    intervals := none
    mode := none }]
  venId := some "ven"

theorem offerSample_good : offerSample.Good plainLib where
  requestId := ordinary_of (by decide +kernel)
  reports := by
    intro x hx
    simp only [offerSample, List.mem_singleton] at hx
    subst hx
    refine ⟨by intro d hd; cases hd; exact spans_of (by decide +kernel), by simp, ?_, by simp, ordinary_of (by decide +kernel), ordinary_of (by decide +kernel),
      by constructor <;> decide +kernel⟩
    intro d hd
    simp only [List.mem_singleton] at hd
    subst hd
    refine ⟨ordinary_of (by decide +kernel), by simp, ?_, ordinary_of (by decide +kernel), ?_, ordinary_of (by decide +kernel), ?_, ?_⟩
    · intro t ht
      cases ht
      exact ⟨by simp, by simp, by simp, by intro x hx; cases hx; exact ordinary_of (by decide +kernel), by simp, by simp, by simp [Dict.get?]⟩
    · intro m hm
      cases hm
      exact ⟨by decide +kernel, ordinary_of (by decide +kernel), ordinary_of (by decide +kernel), ordinary_of (by decide +kernel)⟩
    · intro x hx; cases hx; exact ordinary_of (by decide +kernel)
    · intro s hs
      cases hs
      exact ⟨spans_of (by decide +kernel), spans_of (by decide +kernel)⟩
  venId := by intro x hx; cases hx; exact ordinary_of (by decide +kernel)

/-- The document of the offer is valid (`c104_ready_report`). -/
example : ∃ txt root, createMessage plainLib 0 "oadrRegisterReport" offerSample.dict = .ok txt ∧ Xsd.Document txt root ∧ Xsd.ValidAs "oadrRegisterReport" root := by
  refine c104_ready_report offerSample_good ?_ ?_ <;> intro x hx <;> simp only [offerSample, List.mem_singleton] at hx <;> subst hx
  · refine ⟨?_, .inl (by decide +kernel)⟩
    intro d hd
    simp only [List.mem_singleton] at hd
    subst hd
    refine ⟨.inl (by decide +kernel), ?_, .inl (by decide +kernel)⟩
    intro m hm
    cases hm
    exact ⟨.inr ⟨_, rfl, by decide +kernel, by decide +kernel⟩, .inl ⟨by decide, "none", by decide +kernel, rfl⟩, by decide⟩
  · refine ⟨.inl (by decide +kernel), ?_, ?_⟩ <;> intro d hd m hm <;> simp only [List.mem_singleton] at hd <;> subst hd <;> cases hm <;> decide +kernel

/-! ### C67: payloads of other programs -/

/-- `c67_pending_id_violated`: the id `007` of a single pending report is received as another one. -/
example : ∃ id', id' ≠ "007" ∧
    Arrives plainLib 0 "oadrCreatedReport" ([("response", .dict (ResponseP.dict ⟨200, "OK", "r1x"⟩)), ("pending_reports", pendingP ["007"])] ++ entry? "ven_id" (text? (some "ven")))
      ([("response", .dict (ResponseP.dict ⟨200, "OK", "r1x"⟩)), ("pending_reports", pendingP [id'])] ++ entry? "ven_id" (text? (some "ven"))) :=
  c67_pending_id_violated (i := 7) plainLib_sound ⟨ordinary_of (by decide +kernel), ordinary_of (by decide +kernel)⟩ (onWire_of (by decide +kernel)) (by decide +kernel)
    (by decide +kernel) (by decide +kernel) (by decide) (by intro x hx; cases hx; exact ordinary_of (by decide +kernel))

/-- `c67_payload_kinds`: the integer 3 and the word `true`. -/
example : payloadValue plainLib [("payload_int", .dict [("value", .int 3)])] = .ok (some (.int 3)) ∧
    payloadValue plainLib [("payload_float", .dict [("value", .int 3)])] = .ok (some (.float "3.0")) ∧
    payloadValue plainLib [("payload_int", .dict [("value", .bool true)])] = .ok (some (.int 1)) ∧
    payloadValue plainLib [("payload_float", .dict [("value", .bool true)])] = .ok (some (.float "1.0")) := by decide +kernel

/-! ### C49 -/

/-- A poll is answered with an event: the handler is called for it, and one answer is sent; nothing else of the client changes. -/
example :
    let w := worldOf [some (some "oadrDistributeEvent", ⟨[], some ⟨.str "VTN", .str "q", [venEvent "e" 0]⟩, none, none⟩)]
    let c := newClient (.str "v7")
    (clientPoll w c).1.log.map (fun x => x.1.kind) = ["oadrPoll", "oadrCreatedEvent"] ∧ (clientPoll w c).1.calls.map (fun x => x.event.id) = ["e"] ∧
      (clientPoll w c).1.registrationId = c.registrationId ∧ (clientPoll w c).1.polling = c.polling := by decide +kernel

/-- A poll is answered with the request to register again: it is acknowledged, and the VEN registers, offers its reports and asks for events. -/
example :
    let w := worldOf [some (some "oadrRequestReregistration", ⟨[("ven_id", .str "v7")], none, none, none⟩), some (some "oadrResponse", okResponse),
      some (some "oadrCreatedPartyRegistration", registered "v7" "r2" 30000000)]
    let c := newClient (.str "v7")
    (clientPoll w c).1.log.map (fun x => x.1.kind) = ["oadrPoll", "oadrResponse", "oadrCreatePartyRegistration", "oadrRegisterReport", "oadrRequestEvent"] ∧
      (clientPoll w c).1.registrationId = .str "r2" := by decide +kernel

/-- A poll is answered with a message of a type that is not known: nothing follows. -/
example :
    let w := worldOf [some (some "oadrSomething", okResponse)]
    let c := newClient (.str "v7")
    (clientPoll w c).1.log.map (fun x => x.1.kind) = ["oadrPoll"] ∧ (clientPoll w c).2 = .ok () ∧ (clientPoll w c).1.calls = [] := by decide +kernel

end Openleadr
