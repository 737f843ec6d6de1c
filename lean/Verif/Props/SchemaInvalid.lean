import Verif.Lemmas.Clash
import Verif.Props.SchemaValidReports
import Verif.Props.SchemaValidQueued
/-!
C104: messages that the library creates although the schema does not allow them.
-/
namespace Openleadr

open Xsd (seq one opt many some' ei oadr pyld xcal emix strm string)

variable {lib : Lib} {now : Int}

/-- What is in an element is not what this type allows. -/
abbrev notA (ok : List Char → Prop) : Xsd.XType := .simple (fun t => ¬ ok t)

theorem clash_not (ok : List Char → Prop) : Clash (.simple ok) (notA ok) := .simple (fun _ h h' => h' h)

/-- **C104, refuted** for response codes that do not have three digits: they are sent, in an oadrResponse that is not valid. -/
theorem c104_code_violated {r : LooseResponseP} {ven : String} (h : r.Good lib) (hc : ¬ ResponseCode r.code) (h2 : OnWire ven) :
    SchemaInvalid lib now "oadrResponse" [("response", .dict r.dict), ("ven_id", .str ven)] :=
  schemaInvalid_of 3 (by rfl) (by rfl) (parts' := [
      one (ei "eiResponse") (seq [one (ei "responseCode") (notA (fun t => Spec.digits t 3)), opt (ei "responseDescription") string, one (pyld "requestID") string]),
      opt (ei "venID") string])
    (.one (gives_el (.one (gives_leaf (v := .int r.code) (by lkd [LooseResponseP.dict]) (reads_int (fun hd => hc (responseCode_only hd))))
    (.one (gives_text (s := r.description) (by lkd [LooseResponseP.dict]) h.description.toOnWire)
    (.one (gives_looseId (s := r.requestId) (by lkd [LooseResponseP.dict]) (fun x hx => (h.requestId x hx).toOnWire)) .nil))))
    (.one (gives_text (by lk) h2) .nil))
    (.inner 0 0 0 rfl (Nat.le_refl 1) rfl rfl rfl rfl (.inner 0 0 0 rfl (Nat.le_refl 1) rfl rfl rfl rfl (clash_not _)))

/-- **C104, refuted** for requests for reports that do not say how often the reports are to be sent: the schema requires it. -/
theorem c104_back_duration_violated {id ven : String} {rs : List ReportRequestP} (h1 : OnWire id) (h2 : OnWire ven)
    (h3 : ∀ r ∈ rs, r.Good lib) (ha : ∀ r ∈ rs, ∀ p ∈ r.payloads, SchemaText schemaReadingType p.2) (h4 : rs ≠ []) (hb : ∀ r ∈ rs, r.backDuration = none) :
    SchemaInvalid lib now "oadrCreateReport"
      [("request_id", .str id), ("report_requests", .list ((rs.map ReportRequestP.dict).map .dict)), ("ven_id", .str ven)] := by
  refine schemaInvalid_of 10 (by rfl) (by rfl) (parts' := [one (pyld "requestID") string,
      some' (oadr "oadrReportRequest") (seq [one (ei "reportRequestID") string, one (ei "reportSpecifier") (seq [
        one (ei "reportSpecifierID") string, one (xcal "granularity") Xsd.durationProp, opt (ei "reportInterval") Xsd.calendarInterval,
        some' (ei "specifierPayload") Xsd.specifierPayload])]), opt (ei "venID") string])
    (.one (gives_text (by lk) h1) (.many (gives_each (xs := rs) (F := ReportRequestP.dict) (by lk) (fun i r hr => ?_)) (List.length_pos_iff.2 h4)
    (.one (gives_text (by lk) h2) .nil)))
    (.inner 1 0 1 rfl (Nat.le_refl 1) rfl rfl (by decide +kernel) rfl (.inner 1 0 1 rfl (Nat.le_refl 1) rfl rfl (by decide +kernel) rfl
      (.missing 2 rfl (Nat.le_refl 1) (by decide +kernel))))
  have g := h3 r hr
  exact gives_el (.one (gives_text (by lkd [ReportRequestP.dict]) g.requestId.toOnWire)
    (.one (gives_el (.one (gives_text (by lkd [ReportRequestP.dict, ReportRequestP.specifier]) g.specifierId.toOnWire)
      (.one (gives_span (by lkd [ReportRequestP.dict, ReportRequestP.specifier]) g.granularity)
      (.nothing (grow_skip (surely_given (v := none) (by lkd [ReportRequestP.dict, ReportRequestP.specifier, hb r hr, span?]) (by simp)))
      (.maybe (maybe_given (o := r.interval) (f := fun i => .dict i.dict) (by lkd [ReportRequestP.dict, ReportRequestP.specifier]) (by simp) (fun x hx =>
        gives_el (.one (gives_el (.one (gives_moment (by lkd [ReportRequestP.dict, ReportRequestP.specifier, hx, PeriodP.dict]) (g.interval x hx).start)
          (.one (gives_span (by lkd [ReportRequestP.dict, ReportRequestP.specifier, hx, PeriodP.dict]) (g.interval x hx).duration)
          (.skip (.skip (.skip (.skip .nil))))))) .nil)))
      (.many (gives_each (xs := r.payloads) (F := specifierPayload) (by lkd [ReportRequestP.dict, ReportRequestP.specifier]) (fun j p hp =>
        gives_el (.one (gives_text (by lkd [specifierPayload]) (g.payloads p hp).1.toOnWire)
          (.skip (.one (gives_extended (by lkd [specifierPayload]) (g.payloads p hp).2.toOnWire (ha r hr p hp)) .nil)))))
        (List.length_pos_iff.2 g.nonempty) .nil)))))) .nil))

/-- **C104, refuted** for opts with several targets: each gets an element of its own, where the schema allows only one. -/
theorem c104_targets_violated (sound : lib.Sound) {q ven : String} {o : OptObject} (h : o.Sendable lib q ven) (hm : Unsigned32 o.modificationNumber) (h1 : 2 ≤ o.targets.length) :
    ∃ txt, createMessage lib now "oadrCreateOpt" (o.payload q ven) = .ok txt ∧ Xsd.Invalid txt := by
  suffices hs : SchemaInvalid lib now "oadrCreateOpt" (o.wire q ven).dict from hs _ (conforms_opt h.targets)
  have g := wire_good sound h
  generalize hr : o.wire q ven = r at g
  have hm' : ∀ i, r.modification = some i → Unsigned32 i := by
    intro i hi
    rw [← hr] at hi
    cases hi
    exact hm
  have ht : r.targets = some (o.targets.map targetP) := by rw [← hr]; rfl
  have hty : r.optType ∈ schemaOptType := by rw [← hr]; exact h.optType
  have hre : r.reason ∈ schemaOptReason := by rw [← hr]; exact h.optReason
  generalize hl : o.targets.map targetP = l at ht
  have h2 : 2 ≤ l.length := by rw [← hl, List.length_map]; exact h1
  clear hr hl
  have hne : l ≠ [] := by intro e; rw [e] at h2; simp at h2
  have hlk : lookup r.dict ["targets"] = .ok (some (.list ((l.map EventTargetP.dict).map .dict))) := by lkd [OptP.dict, ht]
  refine schemaInvalid_of 6 (by rfl) (by rfl) (parts' := [
      one (ei "optID") string, one (ei "optType") (Xsd.token schemaOptType), one (ei "optReason") (Xsd.extended schemaOptReason),
      opt (emix "marketContext") Xsd.anyURI, one (ei "venID") string, opt (xcal "vavailability") Xsd.vavailability, one (ei "createdDateTime") Xsd.dateTime,
      one (pyld "requestID") string, opt (ei "qualifiedEventID") Xsd.qualifiedEventID, (2, none, [(ei "eiTarget", Xsd.target)]), opt (oadr "oadrDeviceClass") Xsd.target])
    (.one (gives_text (by lkd [OptP.dict]) g.optId.toOnWire)
    (.one (gives_token (by lkd [OptP.dict]) g.optType.toOnWire hty)
    (.one (gives_extended (by lkd [OptP.dict]) g.reason.toOnWire (.inl hre))
    (.maybe (maybe_given (o := r.marketContext) (f := .str) (by lkd [OptP.dict, text?]) (by simp) (fun x hx =>
      gives_uri (by lkd [OptP.dict, text?, hx]) (g.marketContext x hx).toOnWire))
    (.one (gives_text (by lkd [OptP.dict]) g.venId.toOnWire)
    (.maybe (maybe_given (o := r.availability) (f := fun l => .dict [("components", .list ((l.map PeriodP.dict).map .dict))]) (by lkd [OptP.dict]) (by simp) (fun l hr =>
      gives_el (.one (gives_el (.many (gives_each (xs := l) (F := PeriodP.dict) (by lkd [OptP.dict, hr]) (fun i x hx =>
        gives_el (.one (gives_el (.one (gives_moment (by lkd [PeriodP.dict]) (g.availability l hr x hx).start)
          (.one (gives_span (by lkd [PeriodP.dict]) (g.availability l hr x hx).duration) (.skip (.skip (.skip (.skip .nil))))))) .nil))) (Nat.zero_le _) .nil)) .nil)))
    (.one (gives_datetime (by lkd [OptP.dict]) g.created)
    (.one (gives_text (by lkd [OptP.dict]) g.requestId.toOnWire)
    (.maybe (maybe_given (o := r.eventId) (f := .str) (by lkd [OptP.dict, text?]) (by simp) (fun e he => ?_))
    (.many (gives_yes (by simp [surely, holds, hlk, Except.map, hne]) (gives_each (xs := l) (F := EventTargetP.dict) hlk (fun i x hx => gives_optTarget (g.targets l ht x hx)))) h2
    (.maybe (maybe_given (o := r.signalTarget) (f := .str) (by lkd [OptP.dict, text?]) (by simp) (fun x hx =>
      gives_el (.skip (.many (gives_el (.one (gives_text (by lkd [OptP.dict, text?, hx]) (g.signalTarget x hx).toOnWire) .nil)) (Nat.zero_le _)
        (.skip (.skip (.skip (.skip (.skip (.skip (.skip (.skip (.skip .nil)))))))))))))
    .nil)))))))))))
    (.many (ei "eiTarget") 1 (by decide +kernel) (by decide +kernel))
  obtain ⟨m, hmm⟩ := Option.ne_none_iff_exists'.1 (g.modification (by simp [he]))
  exact gives_el (.one (gives_text (by lkd [OptP.dict, text?, he]) (g.eventId e he).toOnWire)
    (.one (gives_unsigned (by lkd [OptP.dict, int?, hmm]) (hm' m hmm)) .nil))

/-- The type of events that have no targets. -/
def untargeted : Xsd.XType := seq [one (ei "eiEvent") (seq [
    one (ei "eventDescriptor") Xsd.eventDescriptor, one (ei "eiActivePeriod") Xsd.activePeriod,
    one (ei "eiEventSignals") (seq [some' (ei "eiEventSignal") Xsd.eventSignal])]),
  one (oadr "oadrResponseRequired") (Xsd.exactly ["always", "never"])]

/-- **C104, refuted** for events without targets: the element for the targets is left out, which the schema requires. -/
theorem c104_untargeted_violated {r : DistributeEventP} (h : r.Good lib) (hc : ∀ x, r.response = some x → ResponseCode x.code) (hne : r.events ≠ [])
    (ha : ∀ e ∈ r.events, e.descriptor.Allowed ∧ e.signals ≠ [] ∧ (∀ s ∈ e.signals, s.Allowed) ∧ e.response ∈ ["always", "never"])
    (ht : ∀ e ∈ r.events, e.targets = none) (p sent : Dict)
    (hp : preflightMessage now "oadrDistributeEvent" p = .ok (.dict sent)) (hcf : Conforms (.dict sent) (.dict r.dict)) :
    ∃ txt, createMessage lib now "oadrDistributeEvent" p = .ok txt ∧ Xsd.Invalid txt := by
  refine invalid_of 0 sent hp hcf (by rfl) (by rfl) (parts' := [
      opt (ei "eiResponse") Xsd.eiResponse, one (pyld "requestID") string, one (ei "vtnID") string, some' (oadr "oadrEvent") untargeted])
    (.maybe (maybe_given (o := r.response) (f := fun x => .dict x.dict) (by lkd [DistributeEventP.dict]) (by simp)
      (fun x hx => gives_response (h.response x hx) (hc x hx) (by lkd [DistributeEventP.dict, hx])))
    (.one (gives_text (by lkd [DistributeEventP.dict]) h.requestId.toOnWire) (.one (gives_text (by lkd [DistributeEventP.dict]) h.vtnId.toOnWire)
    (.many (gives_each (xs := r.events) (F := EventP.dict) (by lkd [DistributeEventP.dict]) (fun i e he => ?_)) (List.length_pos_iff.2 hne) .nil))))
    (.inner 3 0 3 rfl (Nat.le_refl 1) rfl rfl (by decide +kernel) rfl (.inner 0 0 0 rfl (Nat.le_refl 1) rfl rfl (by decide +kernel) rfl
      (.missing 3 rfl (Nat.le_refl 1) (by decide +kernel)))) (by decide +kernel) (by decide +kernel)
  have g := h.events e he
  obtain ⟨a1, a2, a3, a4⟩ := ha e he
  have hv : Dict.get? (loopEnv r.dict "event" i (.dict e.dict)) "event" = some (.dict e.dict) := by simp [loopEnv, Dict.get?]
  exact gives_el (.one (gives_el (.one (gives_descriptor g.descriptor a1 hv (by simp [EventP.dict, Dict.get?]))
    (.one (gives_active g.period hv (by simp [EventP.dict, Dict.get?]))
    (.one (gives_el (.many (gives_each (xs := e.signals) (F := SignalP.dict) (by lkd [hv, EventP.dict]) (fun i s hs =>
      gives_signal (g.signals s hs) (a3 s hs) (by simp [loopEnv, Dict.get?]))) (List.length_pos_iff.2 a2) .nil))
    (.nothing (grow_skip (surely_truthy (v := none) (by lkd [hv, EventP.dict]) (by simp)))
    (.nothing (grow_skip (surely_given (v := none) (by lkd [hv, EventP.dict, ht e he]) (by simp))) .nil))))))
    (.one (gives_exactly (by lkd [hv, EventP.dict]) g.response.toOnWire a4) .nil))

/-- **C104, refuted** for reports of values that are no numbers: Python writes `nan` and `inf`, XML Schema reads `NaN` and `INF`. -/
theorem c104_number_violated {r : UpdateReportP} (h : r.Good lib) (hne : r.reports ≠ [])
    (ha : ∀ x ∈ r.reports, (∀ n, x.name = some n → SchemaText schemaReportName n) ∧ x.descriptions = none ∧ ∃ l, x.readings = some l ∧ l ≠ [] ∧
      ∀ y ∈ l, (∀ c, y.confidence = some c → 0 ≤ c ∧ c ≤ (100 : Nat)) ∧ (∀ x, y.quality = some x → SchemaText Xsd.dataQualities x) ∧ ¬ SchemaNumber y.number) :
    SchemaInvalid lib now "oadrUpdateReport" r.dict := by
  have hl : lookup r.dict ["reports"] = .ok (some (.list ((r.reports.map ReportP.dict).map .dict))) := by lkd [UpdateReportP.dict]
  refine schemaInvalid_of 14 (by rfl) (by rfl) (parts' := [one (pyld "requestID") string, some' (oadr "oadrReport") (seq [
      opt (xcal "dtstart") Xsd.dtstart, one (strm "intervals") (seq [some' (ei "interval") (Xsd.seq [
        opt (xcal "dtstart") Xsd.dtstart, opt (xcal "duration") Xsd.durationProp, opt (xcal "uid") (seq [one (xcal "text") string]),
        (1, none, [(oadr "oadrReportPayload", reportPayloadOf (notA Xsd.IsFloat))])])]),
      opt (ei "eiReportID") string, one (ei "reportRequestID") string, one (ei "reportSpecifierID") string,
      opt (ei "reportName") (Xsd.extended schemaReportName), one (ei "createdDateTime") Xsd.dateTime]), opt (ei "venID") string])
    (.one (gives_text (by lkd [UpdateReportP.dict]) h.requestId.toOnWire)
    (.many (gives_yes (by simp [surely, hl, Value.truthy, hne]) (gives_each hl (fun i x hx => ?_))) (List.length_pos_iff.2 hne)
    (.maybe (maybe_text (by lkd [UpdateReportP.dict]) (fun x hx => (h.venId x hx).toOnWire)) .nil)))
    (.inner 1 0 1 rfl (Nat.le_refl 1) rfl rfl (by decide +kernel) rfl (.inner 2 0 1 rfl (Nat.le_refl 1) rfl rfl (by decide +kernel) rfl
      (.inner 0 0 0 rfl (Nat.le_refl 1) rfl rfl (by decide +kernel) rfl (.inner 3 1 3 rfl (Nat.le_refl 1) rfl rfl (by decide +kernel) (by decide +kernel)
      (.inner 3 0 3 rfl (Nat.le_refl 1) rfl rfl (by decide +kernel) rfl (.inner 0 0 0 rfl (Nat.le_refl 1) rfl rfl rfl rfl (clash_not _)))))))
  have g := h.reports x hx
  obtain ⟨a1, a2, l, a3, a4, a5⟩ := ha x hx
  have hread : lookup (loopEnv r.dict "report" i (.dict x.dict)) ["report", "intervals"] = .ok (some (.list ((l.map ReadingP.dict).map .dict))) := by
    lkd [ReportP.dict, a3]
  have hid : Gives lib (loopEnv r.dict "report" i (.dict x.dict)) (Xsd.inside (messageNames [] [("xmlns:pyld", nsPyld), ("xmlns:emix", nsEmix)]) [("xmlns:xcal", nsXcal)])
      (leaf "ei:eiReportID" ["report", "report_id"]) [(ei "eiReportID", string)] 1 := by
    cases hr : x.reportId with
    | none => exact gives_bare trivial (by simp only [bare, Bool.and_eq_true, decide_eq_true_eq]; exact ⟨by decide, by lkd [ReportP.dict, hr, text?]⟩)
    | some s => exact gives_text (s := s) (by lkd [ReportP.dict, hr, text?]) (g.reportId s hr).toOnWire
  refine gives_el (.maybe (maybe_given (o := x.start) (f := .datetime) (by lkd [ReportP.dict, date?]) (by simp) (fun d hd =>
      gives_moment (by lkd [ReportP.dict, hd, date?]) (g.start d hd)))
    (.one (gives_yes (by simp [surely, hread, Value.truthy, a4]) (gives_el (.many (gives_each hread (fun j y hy =>
      gives_readingOf (g.readings l a3 y hy) j (gives_payloadOf (g.readings l a3 y hy) (a5 y hy).1 (a5 y hy).2.1 j (fun names hf => ?_)))) (List.length_pos_iff.2 a4) .nil)))
    (.opt hid (Nat.le_refl _) (.nothing (grow_skip (surely_truthy (v := none) (by lkd [ReportP.dict, a2]) (by simp)))
    (.one (gives_text (by lkd [ReportP.dict]) g.requestId.toOnWire) (.one (gives_text (by lkd [ReportP.dict]) g.specifierId.toOnWire)
    (.maybe (maybe_true (o := x.name) (f := .str) (by lkd [ReportP.dict, text?]) (fun n hn => by simpa [Value.truthy] using (g.name n hn).notEmpty) (fun n hn =>
      gives_extended (by lkd [ReportP.dict, hn, text?]) (g.name n hn).toOnWire (a1 n hn)))
    (.one (gives_datetime (by lkd [ReportP.dict]) g.created) .nil))))))))
  obtain ⟨-, -, hn⟩ := a5 y hy
  have hg := (g.readings l a3 y hy).number
  have hlv : lookup (loopEnv (loopEnv r.dict "report" i (.dict x.dict)) "interval" j (.dict y.dict)) ["interval", "report_payload", "value"] = .ok (some y.number) := by
    lkd [ReadingP.dict]
  generalize y.number = v at hn hg hlv
  generalize y.value = w at hg
  cases hg with
  | float s hs => exact gives_leaf hlv (reads_float hs.toOnWire (ok := fun t => ¬ Xsd.IsFloat t) (fun hf => hn (fun r hr => by cases hr; exact hf))) hf
  | int i s hs => exact absurd (fun r hr => by cases hr) hn

theorem decimal_digit {m : List Char} (h : Xsd.IsDecimal m) : ∃ c ∈ Xsd.collapse m, c.isDigit = true := by
  obtain ⟨sign, whole, frac, -, ⟨h1, h2, h3⟩ | ⟨h1, h2, h3⟩⟩ := h
  · obtain ⟨c, hc⟩ := List.exists_mem_of_ne_nil _ h2
    exact ⟨c, by rw [h1]; simp [hc], h3 c hc⟩
  · obtain ⟨c, hc⟩ := List.exists_mem_of_ne_nil _ h3
    refine ⟨c, ?_, h2 c hc⟩
    rw [h1]
    rcases List.mem_append.1 hc with hc | hc <;> simp [hc]

theorem float_digit {t : List Char} (h : Xsd.IsFloat t) : Xsd.collapse t ∈ ["INF".toList, "-INF".toList, "NaN".toList] ∨ ∃ c ∈ Xsd.collapse t, c.isDigit = true := by
  rcases h with h | h | h | ⟨m, e, hd, hm, h⟩
  · exact .inl (by simp [h])
  · exact .inl (by simp [h])
  · exact .inl (by simp [h])
  · right
    obtain ⟨c, h1, h2⟩ := decimal_digit hd
    rw [hm] at h1
    rcases h with h | ⟨-, h | h⟩ <;> exact ⟨c, by rw [h]; simp [h1], h2⟩

/-- `nan`, `inf` and `-inf` are not read by XML Schema. -/
example : ¬ SchemaNumber (.float "nan") ∧ ¬ SchemaNumber (.float "inf") ∧ ¬ SchemaNumber (.float "-inf") ∧ SchemaNumber (.float "-2.5e-07") := by
  refine ⟨fun h => ?_, fun h => ?_, fun h => ?_, ?_⟩
  · exact absurd (float_digit (h _ rfl)) (by decide +kernel)
  · exact absurd (float_digit (h _ rfl)) (by decide +kernel)
  · exact absurd (float_digit (h _ rfl)) (by decide +kernel)
  · intro r hr
    cases hr
    exact .inr (.inr (.inr ⟨"-2.5".toList, "-07".toList, ⟨['-'], ['2'], ['5'], .inr (.inr rfl), .inr ⟨by decide +kernel, by decide, by decide⟩⟩, by decide +kernel,
      .inr ⟨⟨['-'], ['0', '7'], by decide +kernel, .inr (.inr rfl), by decide, by decide⟩, .inl (by decide +kernel)⟩⟩))

/-- The opt of C102 is sent in a valid message; with two targets it would not be. -/
example (sound : lib.Sound) (h : someOpt.Sendable lib "request" "ven") :
    ∃ txt root, createMessage lib now "oadrCreateOpt" (someOpt.payload "request" "ven") = .ok txt ∧ Xsd.Document txt root ∧ Xsd.ValidAs "oadrCreateOpt" root :=
  c104_made_opt sound h (by constructor <;> decide) (by decide)

/-- A poll. -/
example : ∃ txt root, createMessage lib now "oadrPoll" [("ven_id", .str "ven one")] = .ok txt ∧ Xsd.Document txt root ∧ Xsd.ValidAs "oadrPoll" root :=
  c104_poll (onWire_of (by decide +kernel)) _ (.same _)

/-- An answer with the code 2000 is not valid, one with 200 is. -/
example (sound : lib.Sound) : SchemaInvalid lib now "oadrResponse" [("response", .dict (LooseResponseP.dict ⟨2000, "OK", none⟩)), ("ven_id", .str "ven")] ∧
    SchemaValid lib now "oadrResponse" [("response", .dict (LooseResponseP.dict ⟨200, "OK", none⟩)), ("ven_id", .str "ven")] := by
  have w : OnWire "ven" := onWire_of (by decide +kernel)
  exact ⟨c104_code_violated ⟨ordinary_OK sound, by simp⟩ (by simp [ResponseCode]) w, c104_response ⟨ordinary_OK sound, by simp⟩ ⟨by decide, by decide⟩ w⟩

end Openleadr
