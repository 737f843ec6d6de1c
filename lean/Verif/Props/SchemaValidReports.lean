import Verif.Lemmas.ValidItems
import Verif.Lemmas.Offers
/-!
C104: what the library says is valid against the schema it comes with: reports.
-/
namespace Openleadr

variable {lib : Lib} {now : Int}

/-- The type of the elements with values in reports, with this type of values. -/
def reportPayloadOf (value : Xsd.XType) : Xsd.XType := Xsd.seq [
  Xsd.one (Xsd.ei "rID") Xsd.string, Xsd.opt (Xsd.ei "confidence") (.simple (Xsd.IsUnsigned 100)), Xsd.opt (Xsd.ei "accuracy") Xsd.float,
  Xsd.one (Xsd.ei "payloadFloat") (Xsd.seq [Xsd.one (Xsd.ei "value") value]), Xsd.opt (Xsd.oadr "oadrDataQuality") (Xsd.extended Xsd.dataQualities)]

/-- The names that are known where the values of reports are. -/
abbrev readingNames : Xsd.Names :=
  Xsd.inside (Xsd.inside (messageNames [] [("xmlns:pyld", nsPyld), ("xmlns:emix", nsEmix)]) [("xmlns:xcal", nsXcal)]) [("xmlns:strm", nsStrm), ("xmlns:xcal", nsXcal)]

/-- The element of a value in a report. -/
def tReportPayload : Tmpl :=
  el "oadr:oadrReportPayload" [
    leaf "ei:rID" ["interval", "report_payload", "r_id"],
    ifGiven ["interval", "report_payload", "confidence"] [leaf "ei:confidence" ["interval", "report_payload", "confidence"]],
    ifGiven ["interval", "report_payload", "accuracy"] [leaf "ei:accuracy" ["interval", "report_payload", "accuracy"]],
    el "ei:payloadFloat" [leaf "ei:value" ["interval", "report_payload", "value"]],
    ifGiven ["interval", "report_payload", "data_quality"] [leaf "oadr:oadrDataQuality" ["interval", "report_payload", "data_quality"]]]

/-- A value in a report, whatever its type is. -/
theorem gives_payloadOf {env : Dict} {r : ReadingP} (h : r.Good lib) (hconf : ∀ c, r.confidence = some c → 0 ≤ c ∧ c ≤ (100 : Nat))
    (hq : ∀ x, r.quality = some x → SchemaText Xsd.dataQualities x) (i : Nat) {ty : Xsd.XType}
    (hn : ∀ names, tagFacts names "ei:value" [] (Xsd.ei "value") = true →
      Gives lib (loopEnv env "interval" i (.dict r.dict)) names (leaf "ei:value" ["interval", "report_payload", "value"]) [(Xsd.ei "value", ty)] 1) :
    Gives lib (loopEnv env "interval" i (.dict r.dict)) (Xsd.inside readingNames []) tReportPayload [(Xsd.oadr "oadrReportPayload", reportPayloadOf ty)] 1 :=
  gives_el (.one (gives_text (by lkd [ReadingP.dict]) h.rId.toOnWire)
      (.maybe (maybe_given (o := r.confidence) (f := .int) (by lkd [ReadingP.dict, int?]) (by simp) (fun c hc =>
        gives_unsigned (by lkd [ReadingP.dict, hc, int?]) (hconf c hc)))
      (.maybe (maybe_given (o := r.accuracy) (f := .int) (by lkd [ReadingP.dict, int?]) (by simp) (fun c hc =>
        gives_leaf (v := .int c) (by lkd [ReadingP.dict, hc, int?]) (reads_int (isFloat_int c))))
      (.one (gives_el (.one (hn _ (by decide +kernel)) .nil))
      (.maybe (maybe_given (o := r.quality) (f := .str) (by lkd [ReadingP.dict, text?]) (by simp) (fun x hx =>
        gives_extended (by lkd [ReadingP.dict, hx, text?]) (h.quality x hx).toOnWire (hq x hx))) .nil)))))

/-- The interval of a value in a report. -/
def tReading : Tmpl :=
  el "ei:interval" [
    el "xcal:dtstart" [leaf "xcal:date-time" ["interval", "dtstart"] .datetimeformat],
    ifGiven ["interval", "duration"] [el "xcal:duration" [leaf "xcal:duration" ["interval", "duration"] .timedeltaformat]],
    tReportPayload]

theorem gives_readingOf {env : Dict} {r : ReadingP} (h : r.Good lib) (i : Nat) {alts : List (Xsd.QName × Xsd.XType)}
    (hp : Gives lib (loopEnv env "interval" i (.dict r.dict)) (Xsd.inside readingNames []) tReportPayload alts 1) :
    Gives lib (loopEnv env "interval" i (.dict r.dict)) readingNames tReading [(Xsd.ei "interval", Xsd.seq [
      Xsd.opt (Xsd.xcal "dtstart") Xsd.dtstart, Xsd.opt (Xsd.xcal "duration") Xsd.durationProp,
      Xsd.opt (Xsd.xcal "uid") (Xsd.seq [Xsd.one (Xsd.xcal "text") Xsd.string]), (1, none, alts)])] 1 :=
  gives_el (.opt (gives_moment (by lkd [ReadingP.dict]) h.start) (Nat.le_refl _)
    (.maybe (maybe_given (o := r.duration) (f := .timedelta) (by lkd [ReadingP.dict, span?]) (by simp) (fun d hd =>
      gives_span (by lkd [ReadingP.dict, hd, span?]) (h.duration d hd))) (.skip (.many hp (Nat.le_refl _) .nil))))

/-- The value in a report. -/
theorem gives_reading {env : Dict} {r : ReadingP} (h : r.Good lib) (ha : r.Allowed) (i : Nat) :
    Gives lib (loopEnv env "interval" i (.dict r.dict)) readingNames tReading [(Xsd.ei "interval", Xsd.interval)] 1 :=
  gives_readingOf h i (gives_or (gives_payloadOf h ha.confidence ha.quality i (fun _ hf => gives_number (by lkd [ReadingP.dict]) h.number ha.number hf)))

/-- **C104** for oadrUpdateReport, with any number of reports, values and descriptions. -/
theorem c104_update_report {r : UpdateReportP} (h : r.Good lib) (ha : ∀ x ∈ r.reports, x.Allowed) : SchemaValid lib now "oadrUpdateReport" r.dict := by
  refine schemaValid_of 14 (by rfl) (by rfl) (.one (gives_text (by lkd [UpdateReportP.dict]) h.requestId.toOnWire)
    (.many (n := r.reports.length) ?_ (Nat.zero_le _) (.maybe (maybe_text (by lkd [UpdateReportP.dict]) (fun x hx => (h.venId x hx).toOnWire)) .nil)))
  have hl : lookup r.dict ["reports"] = .ok (some (.list ((r.reports.map ReportP.dict).map .dict))) := by lkd [UpdateReportP.dict]
  by_cases hne : r.reports = []
  · rw [hne] at hl ⊢
    exact gives_skip (by simp [surely, hl, Value.truthy])
  refine gives_yes (by simp [surely, hl, Value.truthy, hne]) (gives_each hl (fun i x hx => ?_))
  have g := h.reports x hx
  have a := ha x hx
  have hread : lookup (loopEnv r.dict "report" i (.dict x.dict)) ["report", "intervals"] = .ok (x.readings.map (fun l => .list ((l.map ReadingP.dict).map .dict))) := by
    lkd [ReportP.dict]
  have hdesc : lookup (loopEnv r.dict "report" i (.dict x.dict)) ["report", "report_descriptions"] = .ok (x.descriptions.map (fun l => .list ((l.map DescriptionP.dict).map .dict))) := by
    lkd [ReportP.dict]
  refine gives_el (.maybe (maybe_given (o := x.start) (f := .datetime) (by lkd [ReportP.dict, date?]) (by simp) (fun d hd =>
      gives_moment (by lkd [ReportP.dict, hd, date?]) (g.start d hd)))
    (.skip (.maybe ?_ (.opt (n := 1) ?_ (Nat.le_refl _) (.many (n := (x.descriptions.getD []).length) ?_ (Nat.zero_le _)
    (.one (gives_text (by lkd [ReportP.dict]) g.requestId.toOnWire) (.one (gives_text (by lkd [ReportP.dict]) g.specifierId.toOnWire)
    (.maybe (maybe_true (o := x.name) (f := .str) (by lkd [ReportP.dict, text?]) (fun n hn => by simpa [Value.truthy] using (g.name n hn).notEmpty) (fun n hn =>
      gives_extended (by lkd [ReportP.dict, hn, text?]) (g.name n hn).toOnWire (a.name n hn)))
    (.one (gives_datetime (by lkd [ReportP.dict]) g.created) .nil)))))))))
  · cases hr : x.readings with
    | none =>
      rw [hr] at hread
      exact ⟨0, by omega, gives_skip (surely_truthy hread (by simp))⟩
    | some l =>
      rw [hr] at hread
      by_cases hn : l = []
      · subst hn
        exact ⟨0, by omega, gives_skip (by simp [surely, hread, Value.truthy])⟩
      · exact ⟨1, by omega, gives_yes (by simp [surely, hread, Value.truthy, hn]) (gives_el (.many (gives_each hread (fun j y hy =>
          gives_reading (g.readings l hr y hy) (a.readings l hr y hy) j)) (List.length_pos_iff.2 hn) .nil))⟩
  · cases hr : x.reportId with
    | none => exact gives_bare trivial (by simp only [bare, Bool.and_eq_true, decide_eq_true_eq]; exact ⟨by decide, by lkd [ReportP.dict, hr, text?]⟩)
    | some s => exact gives_text (s := s) (by lkd [ReportP.dict, hr, text?]) (g.reportId s hr).toOnWire
  · cases hr : x.descriptions with
    | none =>
      rw [hr] at hdesc
      exact gives_skip (surely_truthy hdesc (by simp))
    | some l =>
      rw [hr] at hdesc
      by_cases hn : l = []
      · subst hn
        exact gives_skip (by simp [surely, hdesc, Value.truthy])
      · exact gives_yes (by simp [surely, hdesc, Value.truthy, hn]) (gives_each hdesc (fun j y hy =>
          gives_description (g.descriptions l hr y hy) (a.descriptions l hr y hy) (by simp [loopEnv, Dict.get?]) (by decide +kernel)))

/-- **C104** for oadrRegisterReport, for every payload that becomes one of this form when it is prepared. -/
theorem c104_register_report {r : RegisterReportP} (h : r.Good lib) (ha : ∀ x ∈ r.reports, x.Allowed) (p sent : Dict)
    (hp : preflightMessage now "oadrRegisterReport" p = .ok (.dict sent)) (hc : Conforms (.dict sent) (.dict r.dict)) :
    ∃ txt root, createMessage lib now "oadrRegisterReport" p = .ok txt ∧ Xsd.Document txt root ∧ Xsd.ValidAs "oadrRegisterReport" root := by
  refine valid_of 12 sent hp hc (by rfl) (by rfl) (.one (gives_text (by lkd [RegisterReportP.dict]) h.requestId.toOnWire)
    (.many (gives_each (xs := r.reports) (F := OfferP.dict) (by lkd [RegisterReportP.dict]) (fun i x hx => ?_)) (Nat.zero_le _)
    (.maybe (maybe_text (by lkd [RegisterReportP.dict]) (fun x hx => (h.venId x hx).toOnWire)) (.skip .nil)))) (by decide +kernel)
  have g := h.reports x hx
  have a := ha x hx
  refine gives_el (.skip (.maybe (maybe_given (o := x.duration) (f := .timedelta) (by lkd [OfferP.dict, span?]) (by simp) (fun d hd =>
      gives_span (by lkd [OfferP.dict, hd, span?]) (g.duration d hd)))
    (.skip (.maybe ?_ (.many (gives_each (xs := x.descriptions) (F := DescriptionP.dict) (by lkd [OfferP.dict]) (fun j y hy =>
      gives_description (g.descriptions y hy) (a.descriptions y hy) (by simp [loopEnv, Dict.get?]) (by decide +kernel))) (Nat.zero_le _)
    (.one ?_ (.one (gives_text (by lkd [OfferP.dict]) g.specifierId.toOnWire)
    (.opt (gives_extended (by lkd [OfferP.dict]) g.name.toOnWire a.name) (Nat.le_refl _)
    (.one (gives_datetime (by lkd [OfferP.dict]) g.created) .nil)))))))))
  · have hi : lookup (loopEnv r.dict "report" i (.dict x.dict)) ["report", "report_id"] = .ok (text? x.reportId) := by lkd [OfferP.dict]
    have hn : surely (loopEnv r.dict "report" i (.dict x.dict)) (.neg (.startsWith ["report", "report_name"] "METADATA")) = .ok (!Metadata x.name) := by
      have : lookup (loopEnv r.dict "report" i (.dict x.dict)) ["report", "report_name"] = .ok (some (.str x.name)) := by lkd [OfferP.dict]
      simp [surely, this, Metadata, Except.map]
    cases hx' : x.reportId with
    | none =>
      rw [hx'] at hi
      exact ⟨0, by omega, gives_skip (by rw [surely, surely_given hi (by simp [text?])]; rfl)⟩
    | some s =>
      rw [hx'] at hi
      cases hm : Metadata x.name with
      | true =>
        rw [hm] at hn
        exact ⟨0, by omega, gives_skip (by rw [surely, surely_given hi (by simp [text?])]; exact hn)⟩
      | false =>
        rw [hm] at hn
        exact ⟨1, by omega, gives_yes (by rw [surely, surely_given hi (by simp [text?])]; exact hn) (gives_text hi (g.reportId s hx').toOnWire)⟩
  · have hi : lookup (loopEnv r.dict "report" i (.dict x.dict)) ["report", "report_request_id"] = .ok x.requestId := by lkd [OfferP.dict]
    cases hx' : x.requestId with
    | none =>
      rw [hx'] at hi
      refine gives_no (surely_given hi (by simp)) ⟨[.elem "ei:reportRequestID" [] [.chars ['0']]], rfl, rfl, ?_, .cons (List.mem_singleton.2 rfl) (by decide +kernel)
        (.simple rfl (attributes_declared _ (by decide +kernel)) rfl trivial) .nil⟩
      intro k hk
      rw [List.mem_singleton.1 hk]
      refine ⟨sound_elem (by decide +kernel) ?_, rfl⟩
      intro k hk
      rw [List.mem_singleton.1 hk]
      have w := written_safe (t := ['0']) (by decide) (by decide)
      exact ⟨.chars _ w.literal, w.line⟩
    | some v =>
      rw [hx'] at hi
      rcases g.requestId v hx' with ⟨n, rfl⟩ | ⟨s, rfl, hs⟩
      · exact gives_yes (surely_given hi (by simp)) (gives_leaf hi (reads_int trivial))
      · exact gives_yes (surely_given hi (by simp)) (gives_text hi hs.toOnWire)

/-- **C104** for oadrRegisterReport, for offers that are left as they are when they are prepared. -/
theorem c104_ready_report {r : RegisterReportP} (h : r.Good lib) (ha : ∀ x ∈ r.reports, x.Allowed) (hr : ∀ x ∈ r.reports, x.Ready) :
    ∃ txt root, createMessage lib now "oadrRegisterReport" r.dict = .ok txt ∧ Xsd.Document txt root ∧ Xsd.ValidAs "oadrRegisterReport" root :=
  c104_register_report h ha r.dict r.dict (preflight_offers hr) (.same _)

end Openleadr
