import Verif.Lemmas.RegisterWire
/-!
C89: reports that the VEN offers, from its list of reports to the handler of the VTN, and what the VTN requests, from there to the requests of the VEN.
-/
namespace Openleadr
open Spec

variable {lib : Lib} {now : Int}

/-! ### What the VTN reads -/

theorem upToFirst_done {α : Type} {raw : α → Dict} {done : α → Option Dict} {d : α → Dict} {l : List α} (h : ∀ x ∈ l, done x = some (d x)) :
    upToFirst raw done l = l.map d := by
  induction l with
  | nil => rfl
  | cons x l ih => simp only [upToFirst, h x (by simp), List.map_cons, ih (fun y hy => h y (by simp [hy]))]

theorem upToFirst_raw {α : Type} {raw : α → Dict} {done : α → Option Dict} {l : List α} (h : ∀ x ∈ l, done x = none) : upToFirst raw done l = l.map raw := by
  cases l with
  | nil => rfl
  | cons x l => simp only [upToFirst, h x (by simp)]

theorem read_done {heap : List Measurement} {a : Along} {p : VenPoint} (h : p.Offerable lib heap a) {m : Measurement} (hm : p.measured heap = some m) :
    readPoint (.dict ((wirePoint heap a p).before ++ (wirePoint heap a p).after ++ [("measurement", .dict (wireMeasurement m).received)])) =
      .ok (p.offered heap) := by
  obtain ⟨r, hr, -⟩ := h.rId
  obtain ⟨u, hu, -⟩ := (h.measurement m hm).unit
  obtain ⟨sc, hs, -⟩ := (h.measurement m hm).scale
  have e1 : entryIn (.dict (wireMeasurement m).received) "description" = some (.str m.description) := by
    simp [entryIn, wireMeasurement, MeasurementP.received, Dict.get?, Dict.get?_append, Dict.get?_entry?]
  have e2 : entryIn (.dict (wireMeasurement m).received) "unit" = some (.str u) := by
    simp [entryIn, wireMeasurement, MeasurementP.received, Dict.get?, Dict.get?_append, Dict.get?_entry?, hu]
  have e3 : entryIn (.dict (wireMeasurement m).received) "scale" = some (.str sc) := by
    simp [entryIn, wireMeasurement, MeasurementP.received, SizeP.entry, Dict.get?, Dict.get?_append, Dict.get?_entry?, hs]
  generalize (wireMeasurement m).received = mr at e1 e2 e3
  simp only [entryIn] at e1 e2 e3
  cases hk : a.market p <;> cases ho : p.resourceId <;>
    simp [readPoint, wirePoint, DescriptionP.before, DescriptionP.after, Dict.get?, Dict.get?_append, wireTarget, TargetP.source, TargetP.members,
      TargetP.subject, text?, entry?, SamplingP.dict, VenPoint.offered, hm, hu, hs, e1, e2, e3, hr, hk, ho, textOrNone, Value.text?, entryIn]

theorem read_raw {heap : List Measurement} {a : Along} {p : VenPoint} (h : p.Offerable lib heap a) (hm : p.measured heap = none) :
    readPoint (.dict (wirePoint heap a p).raw) = .ok (p.offered heap) := by
  obtain ⟨r, hr, -⟩ := h.rId
  cases hk : a.market p <;> cases ho : p.resourceId <;>
    simp [readPoint, wirePoint, DescriptionP.raw, DescriptionP.before, DescriptionP.after, Dict.get?, Dict.get?_append, wireTarget, TargetP.source,
      TargetP.subject, TargetP.members, text?, entry?, SamplingP.dict, VenPoint.offered, hm, hr, hk, ho, textOrNone, Value.text?, entryIn]

theorem readPoints_map {α : Type} {f : α → Dict} {g : α → OfferedPoint} {l : List α} (h : ∀ x ∈ l, readPoint (.dict (f x)) = .ok (g x)) :
    readPoints ((l.map f).map .dict) = .ok (l.map g) := by
  induction l with
  | nil => rfl
  | cons x l ih => simp only [List.map_cons, readPoints, h x (by simp), ih (fun y hy => h y (by simp [hy]))]

theorem read_points {heap : List Measurement} {a : Along} {r : VenReport} (h : r.Offerable lib heap a) :
    readPoints ((upToFirst DescriptionP.raw DescriptionP.done (wireOffer heap a r).descriptions).map .dict) = .ok (r.points.map (VenPoint.offered heap)) := by
  rcases h.alike with ha | ha
  · have hd : ∀ d ∈ (wireOffer heap a r).descriptions, d.done = some (d.before ++ d.after ++ [("measurement", .dict ((d.measurement.map MeasurementP.received).getD []))]) := by
      intro d hd
      simp only [wireOffer, List.mem_map] at hd
      obtain ⟨p, hp, rfl⟩ := hd
      obtain ⟨m, hm⟩ := Option.ne_none_iff_exists'.mp (ha p hp)
      simp [DescriptionP.done, wirePoint, hm]
    rw [upToFirst_done hd]
    simp only [wireOffer, List.map_map]
    rw [← List.map_map]
    refine readPoints_map (fun p hp => ?_)
    obtain ⟨m, hm⟩ := Option.ne_none_iff_exists'.mp (ha p hp)
    have := read_done (h.points p hp) hm
    have e : (wirePoint heap a p).measurement = some (wireMeasurement m) := by simp [wirePoint, hm]
    simpa [e] using this
  · have hd : ∀ d ∈ (wireOffer heap a r).descriptions, d.done = none := by
      intro d hd
      simp only [wireOffer, List.mem_map] at hd
      obtain ⟨p, hp, rfl⟩ := hd
      simp [DescriptionP.done, wirePoint, ha p hp]
    rw [upToFirst_raw hd]
    simp only [wireOffer, List.map_map]
    rw [← List.map_map]
    exact readPoints_map (fun p hp => read_raw (h.points p hp) (ha p hp))

theorem read_offer {heap : List Measurement} {a : Along} {r : VenReport} (h : r.Offerable lib heap a) :
    readOffer (.dict (wireOffer heap a r).received) = .ok (r.offered heap) := by
  have hp := read_points h
  have hne : upToFirst DescriptionP.raw DescriptionP.done (wireOffer heap a r).descriptions ≠ [] := by
    intro e
    rw [e] at hp
    simp only [List.map_nil, readPoints, Except.ok.injEq] at hp
    exact h.some (List.map_eq_nil_iff.mp hp.symm)
  have g1 : Dict.get? (wireOffer heap a r).received "report_name" = some (.str (offeredName r.name)) := by
    simp [OfferP.received, wireOffer, Dict.get?, Dict.get?_append, Dict.get?_entry?]
  have g2 : Dict.get? (wireOffer heap a r).received "report_specifier_id" = some (.str r.specifierId) := by
    simp [OfferP.received, wireOffer, Dict.get?, Dict.get?_append, Dict.get?_entry?]
  have g3 : Dict.get? (wireOffer heap a r).received "report_descriptions" =
      some (.list ((upToFirst DescriptionP.raw DescriptionP.done (wireOffer heap a r).descriptions).map .dict)) := by
    simp only [OfferP.received, Dict.get?_append, Dict.get?_entry?, dicts?, hne, if_false]
    simp [Dict.get?]
  generalize (wireOffer heap a r).received = d at g1 g2 g3
  simp [readOffer, g1, g2, g3, hp, VenReport.offered]

theorem read_offers {heap : List Measurement} {a : Along} {rs : List VenReport} (h : ∀ r ∈ rs, r.Offerable lib heap a) :
    readOffers (((rs.map (wireOffer heap a)).map OfferP.received).map .dict) = .ok (rs.map (VenReport.offered heap)) := by
  induction rs with
  | nil => rfl
  | cons r rs ih => simp only [List.map_cons, readOffers, read_offer (h r (by simp)), ih (fun y hy => h y (by simp [hy]))]

/-! ### What the VTN requests -/

/-- A request that can be sent. -/
structure RequestOut.Sendable (lib : Lib) (q : RequestOut) : Prop where
  requestId : Ordinary lib q.requestId
  specifierId : ∃ t, q.specifierId = .str t ∧ Ordinary lib t
  granularity : ∃ g, q.granularity = .timedelta g ∧ Spans g
  reportBack : ∃ b, q.reportBack = .timedelta b ∧ Spans b
  some : q.payloads ≠ []
  payloads : ∀ p ∈ q.payloads, (∃ r, p.rId = .str r ∧ Ordinary lib r) ∧ ∃ t, p.readingType = .str t ∧ Ordinary lib t

/-- The request, as the VEN is asked. -/
def RequestOut.asked (q : RequestOut) : ReportRequest :=
  { requestId := .str q.requestId, specifierId := q.specifierId, reportBack := q.reportBack.span?, granularity := some q.granularity.span?, start := none,
    payloads := q.payloads.map (fun p => ⟨p.rId, none⟩) }

def wireRequest (q : RequestOut) : ReportRequestP :=
  ⟨q.requestId, (q.specifierId.text?).getD "", (q.granularity.span?).getD 0, q.reportBack.span?, none,
    q.payloads.map (fun p => ((p.rId.text?).getD "", (p.readingType.text?).getD ""))⟩

theorem conforms_wireRequest {q : RequestOut} (h : q.Sendable lib) : Conforms q.object (.dict (wireRequest q).dict) := by
  obtain ⟨t, ht, -⟩ := h.specifierId
  obtain ⟨g, hg, -⟩ := h.granularity
  obtain ⟨b, hb, -⟩ := h.reportBack
  have hl : Conforms (.list (q.payloads.map SpecifierOut.object)) (.list (((wireRequest q).payloads.map specifierPayload).map .dict)) := by
    refine .list _ _ (by simp [wireRequest]) (fun i x y hx hy => ?_)
    simp only [wireRequest, List.getElem?_map, Option.map_map, Option.map_eq_some_iff, Function.comp_apply] at hx hy
    obtain ⟨p, hp, rfl⟩ := hx
    obtain ⟨p', hp', rfl⟩ := hy
    rw [hp] at hp'
    cases hp'
    obtain ⟨⟨r, hr, -⟩, rt, hrt, -⟩ := h.payloads p (List.mem_of_getElem? hp)
    refine conforms_object (conforms_entries (ks := ["r_id", "reading_type", "measurement"]) rfl (by decide) (within_cons (within_cons (within_nil _))) ?_)
    refine all_cons (.inl ⟨_, ?_, .same _⟩) (all_cons (.inl ⟨_, ?_, .same _⟩) (all_cons (.inr ⟨?_, rfl, by decide⟩) all_nil)) <;>
      simp [specifierPayload, Dict.get?, hr, hrt, Value.text?]
  have hs : Conforms (.obj "ReportSpecifier" [("report_specifier_id", q.specifierId), ("granularity", q.granularity),
      ("specifier_payloads", .list (q.payloads.map SpecifierOut.object)), ("report_interval", .none), ("report_back_duration", q.reportBack)])
      (.dict (wireRequest q).specifier) := by
    refine conforms_object (conforms_entries (ks := ["report_specifier_id", "granularity", "specifier_payloads", "report_interval", "report_back_duration"]) rfl
      (by decide) (within_append (within_append (within_append (within_cons (within_cons (within_nil _))) within_entry) within_entry) (within_cons (within_nil _))) ?_)
    refine all_cons (.inl ⟨_, ?_, .same _⟩) (all_cons (.inl ⟨_, ?_, .same _⟩) (all_cons (.inl ⟨_, ?_, hl⟩) (all_cons (.inr ⟨?_, rfl, by decide⟩)
      (all_cons (.inl ⟨_, ?_, .same _⟩) all_nil)))) <;>
      simp [ReportRequestP.specifier, wireRequest, Dict.get?, Dict.get?_append, Dict.get?_entry?, ht, hg, hb, Value.text?, Value.span?, span?]
  refine conforms_object (conforms_entries (ks := ["report_request_id", "report_specifier"]) rfl (by decide) (within_cons (within_cons (within_nil _))) ?_)
  refine all_cons (.inl ⟨_, ?_, .same _⟩) (all_cons (.inl ⟨_, ?_, hs⟩) all_nil) <;> simp [ReportRequestP.dict, wireRequest, Dict.get?]

theorem good_wireRequest {q : RequestOut} (h : q.Sendable lib) : (wireRequest q).Good lib := by
  obtain ⟨t, ht, ht'⟩ := h.specifierId
  obtain ⟨g, hg, hg'⟩ := h.granularity
  obtain ⟨b, hb, hb'⟩ := h.reportBack
  refine ⟨h.requestId, by simpa [wireRequest, ht, Value.text?] using ht', by simpa [wireRequest, hg, Value.span?] using hg', ?_, by simp [wireRequest],
    by simpa [wireRequest] using h.some, ?_⟩
  · intro d hd
    simp only [wireRequest, hb, Value.span?, Option.some.injEq] at hd
    exact hd ▸ hb'
  · intro x hx
    simp only [wireRequest, List.mem_map] at hx
    obtain ⟨p, hp, rfl⟩ := hx
    obtain ⟨⟨r, hr, hr'⟩, rt, hrt, hrt'⟩ := h.payloads p hp
    simp only [hr, hrt, Value.text?, Option.getD_some]
    exact ⟨hr', hrt'⟩

/-- The reply of the VTN, as the VEN receives it. -/
def registeredReply (ven rid : String) (out : List RequestOut) : Dict :=
  [("response", .dict (ResponseP.dict ⟨200, "OK", rid⟩))] ++ entry? "report_requests" (dicts? ((out.map wireRequest).map ReportRequestP.dict)) ++
    entry? "ven_id" (text? (some ven))

theorem registered_received (sound : lib.Sound) {c : Config} {m : Dict} {ven rid : String} (hv : Dict.get? m "ven_id" = some (.str ven))
    (hr : Dict.get? m "request_id" = some (.str rid)) (ho : Ordinary lib ven) (hor : Ordinary lib rid) {out : List RequestOut} (h : ∀ q ∈ out, q.Sendable lib) :
    Received lib now "oadrRegisteredReport" (completed c m (finishPayload c m [("report_requests", .list (out.map RequestOut.object))]))
      (registeredReply ven rid out) := by
  have h1 := c67_registered_report_arrives (now := now) sound (r := ⟨200, "OK", rid⟩) (ven := some ven) (rs := out.map wireRequest) ⟨ordinary_OK sound, hor⟩
    (fun x hx => by cases hx; exact ho) (fun x hx => by
      simp only [List.mem_map] at hx
      obtain ⟨q, hq, rfl⟩ := hx
      exact good_wireRequest (h q hq))
    [("response", .dict [("request_id", .str rid), ("response_code", .int 200), ("response_description", .str "OK")]),
      ("report_requests", .list (out.map RequestOut.object)), ("ven_id", .str ven)] (by
      have hresp : Conforms (.dict [("request_id", .str rid), ("response_code", .int 200), ("response_description", .str "OK")])
          (.dict (ResponseP.dict ⟨200, "OK", rid⟩)) := by
        refine conforms_entries (ks := ["request_id", "response_code", "response_description"]) rfl (by decide) (within_cons (within_cons (within_cons (within_nil _)))) ?_
        refine all_cons (accounted_as (v := some _) ?_) (all_cons (accounted_as (v := some _) ?_) (all_cons (accounted_as (v := some _) ?_) all_nil)) <;>
          simp [ResponseP.dict, Dict.get?]
      have hl : Conforms (.list (out.map RequestOut.object)) (.list (((out.map wireRequest).map ReportRequestP.dict).map .dict)) := by
        refine .list _ _ (by simp) (fun i x y hx hy => ?_)
        simp only [List.getElem?_map, Option.map_map, Option.map_eq_some_iff, Function.comp_apply] at hx hy
        obtain ⟨q, hq, rfl⟩ := hx
        obtain ⟨q', hq', rfl⟩ := hy
        rw [hq] at hq'
        cases hq'
        exact conforms_wireRequest (h q (List.mem_of_getElem? hq))
      refine conforms_entries (ks := ["response", "report_requests", "ven_id"]) rfl (by decide)
        (within_append (within_cons (within_cons (within_nil _))) within_entry) ?_
      refine all_cons (.inl ⟨_, ?_, hresp⟩) (all_cons (.inl ⟨_, ?_, hl⟩) (all_cons (.inl ⟨_, ?_, .same _⟩) all_nil)) <;>
        simp [Dict.get?, Dict.get?_append, Dict.get?_entry?, text?])
  refine received_agree (t := tRegisteredReport) (by rfl) (fun j hj => ?_) h1
  have hr' : tRegisteredReport.reads.all (fun j => j != "vtn_id" && j != "request_id") = true := by decide +kernel
  have hne : j ≠ "vtn_id" ∧ j ≠ "request_id" := by
    have := List.all_eq_true.mp hr' j hj
    simpa using this
  rw [completed_get]
  by_cases e1 : j = "ven_id"
  · subst e1; simp [Dict.get?, hv, Value.truthy]
  · by_cases e2 : j = "response"
    · subst e2; simp [Dict.get?, hr]
    · simp [Dict.get?, hne.1, hne.2, e1, e2, Ne.symm e1, Ne.symm e2]

/-! ### What the VEN reads -/

theorem read_request {q : RequestOut} (h : q.Sendable lib) : readRequest (.dict (wireRequest q).dict) = some q.asked := by
  obtain ⟨t, ht, -⟩ := h.specifierId
  obtain ⟨g, hg, -⟩ := h.granularity
  obtain ⟨b, hb, -⟩ := h.reportBack
  have hp : ∀ (l : List SpecifierOut), (∀ p ∈ l, (∃ r, p.rId = .str r ∧ Ordinary lib r) ∧ ∃ t, p.readingType = .str t ∧ Ordinary lib t) →
      (((l.map (fun p => ((p.rId.text?).getD "", (p.readingType.text?).getD ""))).map specifierPayload).map Value.dict).mapM readSpecifier =
        some (l.map (fun p => (⟨p.rId, none⟩ : SpecPayload))) := by
    intro l hl
    induction l with
    | nil => rfl
    | cons p l ih =>
      obtain ⟨⟨r, hr, -⟩, -⟩ := hl p (by simp)
      simp only [List.map_cons, List.mapM_cons, ih (fun y hy => hl y (by simp [hy]))]
      simp [readSpecifier, entryIn, specifierPayload, Dict.get?, hr, Value.text?]
  have hp' := hp q.payloads h.payloads
  have g1 : Dict.get? (wireRequest q).specifier "report_specifier_id" = some (.str t) := by
    simp [ReportRequestP.specifier, wireRequest, Dict.get?, Dict.get?_append, Dict.get?_entry?, ht, Value.text?]
  have g2 : Dict.get? (wireRequest q).specifier "specifier_payloads" = some (.list (((wireRequest q).payloads.map specifierPayload).map .dict)) := by
    simp [ReportRequestP.specifier, Dict.get?, Dict.get?_append, Dict.get?_entry?]
  have g3 : Dict.get? (wireRequest q).specifier "report_back_duration" = some (.timedelta b) := by
    simp [ReportRequestP.specifier, wireRequest, Dict.get?, Dict.get?_append, Dict.get?_entry?, hb, Value.span?, span?]
  have g4 : Dict.get? (wireRequest q).specifier "granularity" = some (.timedelta g) := by
    simp [ReportRequestP.specifier, wireRequest, Dict.get?, Dict.get?_append, Dict.get?_entry?, hg, Value.span?]
  have g5 : Dict.get? (wireRequest q).specifier "report_interval" = none := by
    simp [ReportRequestP.specifier, wireRequest, Dict.get?, Dict.get?_append, Dict.get?_entry?]
  have e1 : Dict.get? (wireRequest q).dict "report_request_id" = some (.str q.requestId) := by simp [ReportRequestP.dict, wireRequest, Dict.get?]
  have e2 : Dict.get? (wireRequest q).dict "report_specifier" = some (.dict (wireRequest q).specifier) := by simp [ReportRequestP.dict, Dict.get?]
  have hp'' : (((wireRequest q).payloads.map specifierPayload).map Value.dict).mapM readSpecifier = some (q.payloads.map (fun p => (⟨p.rId, none⟩ : SpecPayload))) := hp'
  generalize (wireRequest q).specifier = sp at g1 g2 g3 g4 g5 e2
  generalize (wireRequest q).dict = d at e1 e2
  simp only [readRequest, entryIn, e1, e2, g1, g2, g3, g4, g5, Option.bind_some, Value.list?, hp'', RequestOut.asked, ht, hg, hb, Value.span?, Option.map_some, Option.bind_none]

theorem read_requests {out : List RequestOut} (h : ∀ q ∈ out, q.Sendable lib) :
    (((out.map wireRequest).map ReportRequestP.dict).map Value.dict).mapM readRequest = some (out.map RequestOut.asked) := by
  induction out with
  | nil => rfl
  | cons q out ih =>
    simp only [List.map_cons, List.mapM_cons, ih (fun y hy => h y (by simp [hy])), read_request (h q (by simp))]
    rfl

theorem reply_requests (ven rid : String) (out : List RequestOut) :
    Dict.get? (registeredReply ven rid out) "report_requests" =
      if out = [] then none else some (.list (((out.map wireRequest).map ReportRequestP.dict).map .dict)) := by
  by_cases ho : out = []
  · subst ho
    simp [registeredReply, Dict.get?, Dict.get?_append, Dict.get?_entry?, dicts?]
  · simp [registeredReply, Dict.get?, Dict.get?_append, Dict.get?_entry?, dicts?, ho]

theorem reply_confirmed (ven rid : String) (out : List RequestOut) : confirmedId (registeredReply ven rid out) = some (.str rid) := by
  have h1 : Dict.get? (registeredReply ven rid out) "request_id" = none := by
    simp [registeredReply, Dict.get?, Dict.get?_append, Dict.get?_entry?]
  have h2 : Dict.get? (registeredReply ven rid out) "response" = some (.dict (ResponseP.dict ⟨200, "OK", rid⟩)) := by
    simp [registeredReply, Dict.get?]
  simp [confirmedId, h1, h2, entryIn, ResponseP.dict, Dict.get?]

/-! ### The two exchanges -/

theorem offers_entries (ven rid : String) (heap : List Measurement) (a : Along) (rs : List VenReport) :
    Dict.get? (wireOffers ven rid heap a rs).received "ven_id" = some (.str ven) ∧
    Dict.get? (wireOffers ven rid heap a rs).received "request_id" = some (.str rid) ∧
    Dict.get? (wireOffers ven rid heap a rs).received "vtn_id" = none ∧
    Dict.get? (wireOffers ven rid heap a rs).received "reports" = dicts? ((rs.map (wireOffer heap a)).map OfferP.received) := by
  refine ⟨?_, ?_, ?_, ?_⟩ <;> simp [wireOffers, RegisterReportP.received, Dict.get?, Dict.get?_append, Dict.get?_entry?, text?]

/-- The reports that the VTN finds in the message: none at all if there are none. -/
def offersOf (heap : List Measurement) (rs : List VenReport) : Option (List OfferedReport) := if rs = [] then none else some (rs.map (VenReport.offered heap))

/-- What the handler of the VTN makes of the offers. -/
theorem register_handled {c : Config} {h : ReportAsk → Res Value} {compact : Bool} {fresh : Nat → String} {user : ReportCall → Res Unit} {s : ReportServer}
    {log : List ReportCall} {secure : Bool} {peer : Option String} {ven rid : String} {heap : List Measurement} {a : Along} {rs : List VenReport}
    (hr : ∀ r ∈ rs, r.Offerable lib heap a) :
    handleMessage c (reportService h compact fresh user) (s, log) "oadrRegisterReport"
        (withPeer secure peer "oadrRegisterReport" (wireOffers ven rid heap a rs).received) =
      (match registerReport h compact fresh s ven (offersOf heap rs) with
      | (s', .error e) => ((s', log), .error (serviceExn e))
      | (s', .ok out) => ((s', log), .ok ("oadrRegisteredReport", finishPayload c (wireOffers ven rid heap a rs).received
          [("report_requests", .list (out.map RequestOut.object))]))) := by
  obtain ⟨g1, -, -, g4⟩ := offers_entries ven rid heap a rs
  have hp : ∀ m, withPeer secure peer "oadrRegisterReport" m = m := fun m => by simp [withPeer]
  rw [hp]
  have hf : Dict.get? (reportService h compact fresh user).handlers "oadrRegisterReport" = some (registerHandler h compact fresh) := by
    simp [reportService, Dict.get?]
  have hro := read_offers (lib := lib) (heap := heap) (a := a) hr
  generalize (wireOffers ven rid heap a rs).received = m at g1 g4
  simp only [handleMessage, hf]
  by_cases he : rs = []
  · subst he
    simp only [List.map_nil, dicts?, if_true] at g4
    simp [registerHandler, g4, offersOf, registerReport, payloadDict]
  · have hd : dicts? ((rs.map (wireOffer heap a)).map OfferP.received) = some (.list (((rs.map (wireOffer heap a)).map OfferP.received).map .dict)) := by
      rw [dicts?, if_neg (by simp [he])]
    rw [hd] at g4
    simp only [registerHandler, g4, Option.getD_some, hro, venKey, g1, offersOf, if_neg he]
    generalize registerReport h compact fresh s ven (some (rs.map (VenReport.offered heap))) = x
    obtain ⟨s', r⟩ := x
    cases r <;> simp [payloadDict]

/-- The offers can be sent over this link. -/
structure Offering.Ready (k : Link) (c : Config) (secure : Bool) (peer : Option String) (ven requestId : String) (a : Along) (x : Offering) : Prop where
  connected : Connected k c secure peer x.cache ven
  request : Ordinary k.lib requestId
  created : Datable a.created
  reports : ∀ r ∈ x.ven.reports, r.Offerable k.lib x.ven.heap a
  valid : ∀ txt, createMessage k.lib k.clientNow "oadrRegisterReport" (registerPayload (.str ven) requestId x.ven.heap a x.ven.reports) = .ok txt →
    ∃ tree, c.validate (String.ofList txt) = .ok tree
  accepts : ∀ txt, k.accepts txt = true

/-- The offers and the reply. -/
theorem offers_exchanged {k : Link} {c : Config} {h : ReportAsk → Res Value} {compact : Bool} {fresh : Nat → String} {user : ReportCall → Res Unit}
    {secure : Bool} {peer : Option String} {ven rid : String} {a : Along} {x : Offering} (ready : x.Ready k c secure peer ven rid a) {s' : ReportServer}
    {out : List RequestOut} (hreg : registerReport h compact fresh x.vtn.1 ven (offersOf x.ven.heap x.ven.reports) = (s', .ok out))
    (ho : ∀ q ∈ out, q.Sendable k.lib) :
    exchange k c (reportService h compact fresh user) x.cache x.vtn secure peer "oadrRegisterReport" (registerPayload (.str ven) rid x.ven.heap a x.ven.reports) =
      ((x.cache, (s', x.vtn.2)), .ok (some (some "oadrRegisteredReport", registeredReply ven rid out))) := by
  have con := ready.connected
  have hs := offers_received (now := k.clientNow) con.sound con.venId ready.request ready.created ready.reports
  obtain ⟨g1, g2, g3, -⟩ := offers_entries ven rid x.ven.heap a x.ven.reports
  have hh := register_handled (c := c) (h := h) (compact := compact) (fresh := fresh) (user := user) (s := x.vtn.1) (log := x.vtn.2) (secure := secure) (peer := peer)
    (ven := ven) (rid := rid) ready.reports
  rw [hreg] at hh
  have hp : ∀ m, withPeer secure peer "oadrRegisterReport" m = m := fun m => by simp [withPeer]
  refine exchange_answered hs (fun txt h1 h2 => ?_) (registered_received (now := k.serverNow) con.sound (c := c) g1 g2 con.venId ready.request ho)
    (fun txt _ => ready.accepts _)
  obtain ⟨tree, hv⟩ := ready.valid txt h1
  have := handle_passed (now := k.serverNow) hv h2 (by decide) (by simp [g3]) (con.letsIn.known _ _ g1) (con.letsIn.authentic txt tree _ hv g1) hh
  rw [hp] at this
  exact this

theorem conforms_confirmation (sound : lib.Sound) {code : Nat} {ids : List String} {ven rid : String} :
    Conforms (.dict ((⟨code, ids.map Value.str⟩ : CreatedReport).payload (.str rid) (.str ven)))
      (.dict ([("response", .dict (ResponseP.dict ⟨code, if code = 200 then "OK" else "ERROR", rid⟩)), ("pending_reports", pendingP ids)] ++
        entry? "ven_id" (text? (some ven)))) := by
  have hresp : Conforms (.dict [("response_code", .int code), ("response_description", .str (if code = 200 then "OK" else "ERROR")), ("request_id", .str rid)])
      (.dict (ResponseP.dict ⟨code, if code = 200 then "OK" else "ERROR", rid⟩)) := by
    refine conforms_entries (ks := ["response_code", "response_description", "request_id"]) rfl (by decide) (within_cons (within_cons (within_cons (within_nil _)))) ?_
    refine all_cons (accounted_as (v := some _) ?_) (all_cons (accounted_as (v := some _) ?_) (all_cons (accounted_as (v := some _) ?_) all_nil)) <;>
      simp [ResponseP.dict, Dict.get?]
  refine conforms_entries (ks := ["response", "ven_id", "pending_reports"]) rfl (by decide)
    (within_append (within_cons (within_cons (within_nil _))) within_entry) ?_
  refine all_cons (.inl ⟨_, ?_, hresp⟩) (all_cons (.inl ⟨_, ?_, .same _⟩) (all_cons (.inl ⟨_, ?_, .same _⟩) all_nil)) <;>
    simp [Dict.get?, Dict.get?_append, Dict.get?_entry?, text?, pendingP, Function.comp_def]

/-- The confirmation of the VEN is noted by the VTN. -/
theorem confirmation_noted {k : Link} {c : Config} {h : ReportAsk → Res Value} {compact : Bool} {fresh : Nat → String} {user : ReportCall → Res Unit}
    {cache : NonceCache} {s : ReportServer} {log : List ReportCall} {secure : Bool} {peer : Option String} {ven rid : String} {code : Nat} {ids : List String}
    (con : Connected k c secure peer cache ven) (hr : Ordinary k.lib rid) (hi : ∀ id ∈ ids, Ordinary k.lib id)
    (hval : ∀ txt, createMessage k.lib k.clientNow "oadrCreatedReport" ((⟨code, ids.map Value.str⟩ : CreatedReport).payload (.str rid) (.str ven)) = .ok txt →
      ∃ tree, c.validate (String.ofList txt) = .ok tree) :
    ∃ r, exchange k c (reportService h compact fresh user) cache (s, log) secure peer "oadrCreatedReport"
        ((⟨code, ids.map Value.str⟩ : CreatedReport).payload (.str rid) (.str ven)) =
      ((cache, ((createdReport s ven (some (ids.map Value.str))).1, log)), .ok r) := by
  have sound := con.sound
  have hp : PendingIds k.lib ids := ⟨fun id h => (hi id h).toOnWire, fun id h => .inl (hi id (by simp [h]))⟩
  obtain ⟨txt, h1, h2⟩ := c67_created_report (now := k.clientNow) sound (r := ⟨code, if code = 200 then "OK" else "ERROR", rid⟩) (ven := some ven)
    ⟨by have := ordinary_described sound code; simpa using this, hr⟩ hp (fun x hx => by cases hx; exact con.venId) _ (conforms_confirmation sound)
  obtain ⟨tree, hv⟩ := hval txt h1
  generalize hm : ([("response", .dict (ResponseP.dict ⟨code, if code = 200 then "OK" else "ERROR", rid⟩)), ("pending_reports", pendingP ids)] ++
        entry? "ven_id" (text? (some ven)) : Dict) = m at h2
  have gv : Dict.get? m "ven_id" = some (.str ven) := by subst hm; simp [Dict.get?, Dict.get?_append, Dict.get?_entry?, text?]
  have gn : Dict.get? m "vtn_id" = none := by subst hm; simp [Dict.get?, Dict.get?_append, Dict.get?_entry?]
  have gp : Dict.get? m "pending_reports" = some (pendingP ids) := by subst hm; simp [Dict.get?]
  have hs := handle_state (now := k.serverNow) (svc := reportService h compact fresh user) (st := (s, log)) hv h2 (by decide) (by simp [gn])
    (con.letsIn.known _ _ gv) (con.letsIn.authentic txt tree _ hv gv)
  have hh : (handleMessage c (reportService h compact fresh user) (s, log) "oadrCreatedReport" (withPeer secure peer "oadrCreatedReport" m)).1 =
      ((createdReport s ven (some (ids.map Value.str))).1, log) := by
    have hw : withPeer secure peer "oadrCreatedReport" m = m := by simp [withPeer]
    have hf : Dict.get? (reportService h compact fresh user).handlers "oadrCreatedReport" = some createdReportHandler := by simp [reportService, Dict.get?]
    have hpend : ((Dict.get? m "pending_reports").bind Value.list?).map (fun l => l.map (fun p => (entryIn p "report_request_id").getD .none)) =
        some (ids.map Value.str) := by
      simp [gp, pendingP, Value.list?, entryIn, Dict.get?, Function.comp_def]
    rw [hw]
    simp only [handleMessage, hf, createdReportHandler, venKey, gv, hpend]
    generalize createdReport s ven (some (ids.map Value.str)) = x
    obtain ⟨s', w, r⟩ := x
    cases r <;> rfl
  refine ⟨clientReads k.lib k.accepts (handle (wired c k.lib k.serverNow) (reportService h compact fresh user) k.surroundings k.count cache (s, log)
    (requestOf secure peer txt)).2, ?_⟩
  simp only [exchange, h1]
  rw [show (⟨some "application/xml", secure, peer, String.ofList txt⟩ : Request) = requestOf secure peer txt from rfl, hs, hh]

/-! ### What is asked of the handler of the VTN -/

/-- The intervals that the handler returns are whole seconds that Python can hold. -/
def WholeIntervals (h : ReportAsk → Res Value) : Prop :=
  ∀ a v, h a = .ok v → ∀ l, (v = .tuple l ∨ ∃ vs, v = .list vs ∧ Value.tuple l ∈ vs) → ∀ d, Value.timedelta d ∈ l → Spans d

/-- The entries of a list of choices come from the handler. -/
theorem choices_whole {h : ReportAsk → Res Value} {compact : Bool} {ven : String} {r : OfferedReport} (hw : WholeIntervals h)
    {out : Option (List Value)} (hc : choicesFor h compact ven r = .ok out) (hid : ∀ p ∈ r.points, ∃ t, p.rId = .str t) :
    ∀ vs, out = some vs → ∀ l, Value.tuple l ∈ vs → ∀ d, Value.timedelta d ∈ l → Spans d := by
  have hask : ∀ (status : Bool) (ps : List OfferedPoint) (vs : List Value), askPoints h ven status ps = .ok vs → ∀ v ∈ vs, ∃ a, h a = .ok v := by
    intro status ps
    induction ps with
    | nil => intro vs hv v hm; simp only [askPoints, Except.ok.injEq] at hv; subst hv; simp at hm
    | cons p ps ih =>
      intro vs hv v hm
      simp only [askPoints] at hv
      split at hv
      · simp at hv
      · rename_i a ha
        cases hh : h a with
        | error e => rw [hh] at hv; simp at hv
        | ok w =>
          rw [hh] at hv
          simp only [] at hv
          cases hr : askPoints h ven status ps with
          | error e => rw [hr] at hv; simp at hv
          | ok ws =>
            rw [hr] at hv
            simp only [Except.ok.injEq] at hv
            subst hv
            rcases List.mem_cons.mp hm with rfl | hm
            · exact ⟨a, hh⟩
            · exact ih ws hr v hm
  have hids : ∀ (ps : List OfferedPoint) (vs : List Value), (∀ p ∈ ps, ∃ t, p.rId = .str t) → ∀ l, Value.tuple l ∈ withIds ps (tuplesOnly vs) →
      ∃ t l', l = .str t :: l' ∧ Value.tuple l' ∈ vs := by
    intro ps
    induction ps with
    | nil => intro vs _ l hl; cases vs <;> simp [withIds, tuplesOnly] at hl
    | cons p ps ih =>
      intro vs hp l hl
      cases vs with
      | nil => simp [withIds, tuplesOnly] at hl
      | cons v vs =>
        have ih' := ih vs (fun q hq => hp q (by simp [hq])) l
        unfold tuplesOnly at ih' hl
        have hrest : Value.tuple l ∈ withIds ps (vs.map (fun r => match r with | .tuple l => .tuple l | _ => .none)) →
            ∃ t l', l = .str t :: l' ∧ Value.tuple l' ∈ v :: vs := by
          intro hm
          obtain ⟨t, l', h1, h2⟩ := ih' hm
          exact ⟨t, l', h1, by simp [h2]⟩
        obtain ⟨t, ht⟩ := hp p (by simp)
        cases v <;> simp only [List.map_cons, withIds] at hl <;> try exact hrest hl
        rename_i l'
        rcases List.mem_cons.mp hl with hl | hl
        · refine ⟨t, l', ?_, by simp⟩
          rw [ht] at hl
          simpa using hl
        · exact hrest hl
  intro vs hvs l hl d hd
  subst hvs
  unfold choicesFor at hc
  split at hc
  · split at hc
    · cases hno : r.noPoints with
      | true => rw [hno] at hc; simp at hc
      | false =>
      simp only [hno, Bool.false_eq_true, if_false] at hc
      cases ha : askPoints h ven (decide (r.reportName = "METADATA_TELEMETRY_STATUS")) r.points with
      | error e => rw [ha] at hc; simp at hc
      | ok ws =>
        rw [ha] at hc
        simp only [Except.ok.injEq, Option.some.injEq] at hc
        subst hc
        obtain ⟨t, l', rfl, hm⟩ := hids r.points ws hid l hl
        obtain ⟨a, ha'⟩ := hask _ _ _ ha _ hm
        have hd' : Value.timedelta d ∈ l' := by simpa using hd
        exact hw a _ ha' l' (.inl rfl) d hd'
    · cases hh : h (.full r) with
      | error e => rw [hh] at hc; simp at hc
      | ok v =>
        rw [hh] at hc
        cases v <;> simp at hc
        rename_i ws
        subst hc
        have hm : Value.tuple l ∈ ws := by
          simp only [tuplesOnly, List.mem_map] at hl
          obtain ⟨w, hw', he⟩ := hl
          cases w <;> simp at he
          subst he; exact hw'
        exact hw _ _ hh l (.inr ⟨ws, rfl, hm⟩) d hd
  · simp at hc

/-- Entering choices: every data point is one that was offered, and the intervals are those of some choice. -/
theorem enterChoices_shape (requestId : String) (points : List OfferedPoint) (vs : List Value) (callbacks : List ((Value × Value) × Value)) (g b : Value)
    {cbs : List ((Value × Value) × Value)} {ps : List SpecifierOut} {g' b' : Value}
    (h : enterChoices requestId points callbacks g b vs = (cbs, .ok (ps, g', b'))) :
    ps.length = vs.length ∧ (∀ p ∈ ps, ∃ q ∈ points, q.rId = p.rId ∧ q.readingType = some p.readingType) ∧
    ((vs = [] ∧ g' = g ∧ b' = b) ∨ ∃ l, Value.tuple l ∈ vs ∧ ((∃ r f, l = [r, f, g', b']) ∨ ∃ r f, l = [r, f, g'] ∧ b' = g')) := by
  induction vs generalizing callbacks g b ps g' b' cbs with
  | nil =>
    simp only [enterChoices, Prod.mk.injEq, Except.ok.injEq] at h
    obtain ⟨-, rfl, rfl, rfl⟩ := h
    exact ⟨rfl, by simp, .inl ⟨rfl, rfl, rfl⟩⟩
  | cons v vs ih =>
    have step : ∀ (r f si ri : Value), enterChoices requestId points callbacks g b (v :: vs) =
        (match points.find? (fun p => decide (p.rId = r)) with
        | none => (callbacks, .error .typeError)
        | some p =>
          match p.readingType with
          | none => (callbacks, .error .keyError)
          | some rt =>
            match enterChoices requestId points (setCallback callbacks (.str requestId, r) f) si ri vs with
            | (cbs, .error e) => (cbs, .error e)
            | (cbs, .ok (ps, g, b)) => (cbs, .ok (⟨r, rt⟩ :: ps, g, b))) →
        (∃ l, v = .tuple l ∧ (l = [r, f, si, ri] ∨ (l = [r, f, si] ∧ ri = si))) →
        ps.length = (v :: vs).length ∧ (∀ p ∈ ps, ∃ q ∈ points, q.rId = p.rId ∧ q.readingType = some p.readingType) ∧
        ((v :: vs = [] ∧ g' = g ∧ b' = b) ∨
          ∃ l, Value.tuple l ∈ v :: vs ∧ ((∃ r f, l = [r, f, g', b']) ∨ ∃ r f, l = [r, f, g'] ∧ b' = g')) := by
      intro r f si ri he ⟨l, hl, hs⟩
      rw [h] at he
      cases hf : points.find? (fun p => decide (p.rId = r)) with
      | none => rw [hf] at he; simp at he
      | some p =>
        rw [hf] at he
        simp only [] at he
        cases hrt : p.readingType with
        | none => rw [hrt] at he; simp at he
        | some rt =>
          rw [hrt] at he
          simp only [] at he
          generalize hx : enterChoices requestId points (setCallback callbacks (.str requestId, r) f) si ri vs = x at he
          obtain ⟨cbs2, res⟩ := x
          cases res with
          | error e => simp at he
          | ok t =>
            obtain ⟨ps2, g2, b2⟩ := t
            simp only [Prod.mk.injEq, Except.ok.injEq] at he
            obtain ⟨-, rfl, rfl, rfl⟩ := he
            obtain ⟨h1, h2, h3⟩ := ih _ _ _ hx
            refine ⟨by simp [h1], ?_, .inr ?_⟩
            · intro q hq
              rcases List.mem_cons.mp hq with rfl | hq
              · refine ⟨p, List.mem_of_find?_eq_some hf, ?_, hrt⟩
                have := List.find?_some hf
                simpa using this
              · exact h2 q hq
            · rcases h3 with ⟨rfl, rfl, rfl⟩ | ⟨l', hm, h4⟩
              · refine ⟨l, by simp [hl], ?_⟩
                rcases hs with rfl | ⟨rfl, rfl⟩
                · exact .inl ⟨_, _, rfl⟩
                · exact .inr ⟨_, _, rfl, rfl⟩
              · exact ⟨l', by simp [hm], h4⟩
    cases v with
    | tuple l =>
      match l with
      | [r, f, si] => exact step r f si si (by simp only [enterChoices]; rfl) ⟨_, rfl, .inr ⟨rfl, rfl⟩⟩
      | [r, f, si, ri] => exact step r f si ri (by simp only [enterChoices]; rfl) ⟨_, rfl, .inl rfl⟩
      | [] => simp [enterChoices] at h
      | [_] => simp [enterChoices] at h
      | [_, _] => simp [enterChoices] at h
      | _ :: _ :: _ :: _ :: _ :: _ => simp [enterChoices] at h
    | _ => simp [enterChoices] at h

/-- What an offer that arrived is like. -/
structure OfferedReport.Ordinary (lib : Lib) (r : OfferedReport) : Prop where
  specifierId : ∃ t, r.specifierId = .str t ∧ Openleadr.Ordinary lib t
  points : ∀ p ∈ r.points, (∃ t, p.rId = .str t ∧ Openleadr.Ordinary lib t) ∧ ∃ t, p.readingType = some (.str t) ∧ Openleadr.Ordinary lib t

theorem ordinary_offered {heap : List Measurement} {a : Along} {r : VenReport} (h : r.Offerable lib heap a) : (r.offered heap).Ordinary lib := by
  refine ⟨⟨_, rfl, h.specifierId⟩, fun p hp => ?_⟩
  simp only [VenReport.offered, List.mem_map] at hp
  obtain ⟨q, hq, rfl⟩ := hp
  exact ⟨(h.points q hq).rId, _, rfl, (h.points q hq).readingType⟩

theorem makeRequests_sendable {fresh : Nat → String} (hf : ∀ n, Ordinary lib (fresh n)) (l : List (OfferedReport × Option (List Value)))
    (hl : ∀ x ∈ l, x.1.Ordinary lib ∧ ∀ vs, x.2 = some vs → (∀ v ∈ vs, v = .none ∨ WellFormedChoice v) ∧
      ∀ t, Value.tuple t ∈ vs → ∀ d, Value.timedelta d ∈ t → Spans d)
    {s s' : ReportServer} {out : List RequestOut} (h : makeRequests fresh s l = (s', .ok out)) : ∀ q ∈ out, q.Sendable lib := by
  induction l generalizing s s' out with
  | nil => simp only [makeRequests, Prod.mk.injEq, Except.ok.injEq] at h; obtain ⟨-, rfl⟩ := h; simp
  | cons x l ih =>
    obtain ⟨r, c⟩ := x
    have hl' := fun y hy => hl y (List.mem_cons_of_mem _ hy)
    cases c with
    | none => simp only [makeRequests] at h; exact ih hl' h
    | some cs =>
      simp only [makeRequests] at h
      split at h
      · exact ih hl' h
      · rename_i hne
        obtain ⟨hr, hcs⟩ := hl (r, some cs) (by simp)
        obtain ⟨hwf, hsp⟩ := hcs cs rfl
        generalize hx : enterChoices (fresh s.ids) r.points s.callbacks .none .none cs = x at h
        obtain ⟨cbs, res⟩ := x
        cases res with
        | error e => simp at h
        | ok t =>
          obtain ⟨ps, g, b⟩ := t
          simp only [] at h
          generalize hy : makeRequests fresh { s with callbacks := cbs, ids := s.ids + 1 } l = y at h
          obtain ⟨s2, res2⟩ := y
          cases res2 with
          | error e => simp at h
          | ok out2 =>
            simp only [Prod.mk.injEq, Except.ok.injEq] at h
            obtain ⟨-, rfl⟩ := h
            intro q hq
            rcases List.mem_cons.mp hq with rfl | hq
            · obtain ⟨h1, h2, h3⟩ := enterChoices_shape _ _ _ _ _ _ hx
              have hsome : cs ≠ [] := fun e => hne (.inl e)
              have hgb : (∃ d, g = .timedelta d ∧ Spans d) ∧ ∃ d, b = .timedelta d ∧ Spans d := by
                rcases h3 with ⟨h, -⟩ | ⟨t, hm, h4⟩
                · exact absurd h hsome
                · have hw : WellFormedChoice (.tuple t) := by
                    rcases hwf _ hm with h | h
                    · simp at h
                    · exact h
                  have hs := hsp t hm
                  rcases h4 with ⟨r', f, rfl⟩ | ⟨r', f, rfl, rfl⟩
                  · rcases hw with ⟨_, _, _, h⟩ | ⟨_, _, d, d', h⟩
                    · simp at h
                    · simp only [Value.tuple.injEq, List.cons.injEq, and_true] at h
                      obtain ⟨-, -, rfl, rfl⟩ := h
                      exact ⟨⟨d, rfl, hs d (by simp)⟩, d', rfl, hs d' (by simp)⟩
                  · rcases hw with ⟨_, _, d, h⟩ | ⟨_, _, _, _, h⟩
                    · simp only [Value.tuple.injEq, List.cons.injEq, and_true] at h
                      obtain ⟨-, -, rfl⟩ := h
                      exact ⟨⟨d, rfl, hs d (by simp)⟩, d, rfl, hs d (by simp)⟩
                    · simp at h
              refine ⟨hf _, hr.specifierId, hgb.1, hgb.2, fun e => ?_, fun p hp => ?_⟩
              · simp only at e
                rw [e] at h1
                exact hsome (List.length_eq_zero_iff.mp h1.symm)
              · obtain ⟨q, hq, e1, e2⟩ := h2 p hp
                obtain ⟨⟨t, ht, ho⟩, t', ht', ho'⟩ := hr.points q hq
                refine ⟨⟨t, by rw [← e1, ht], ho⟩, t', ?_, ho'⟩
                rw [ht'] at e2
                simpa using e2.symm
            · exact ih hl' hy q hq

/-- The checked choices of all reports. -/
theorem collectChoices_whole {h : ReportAsk → Res Value} {compact : Bool} {ven : String} (hw : WholeIntervals h) (rs : List OfferedReport)
    (hr : ∀ r ∈ rs, r.Ordinary lib) {s s' : ReportServer} {cs : List (Option (List Value))} (hc : collectChoices h compact ven s rs = (s', .ok cs)) :
    ∀ x ∈ rs.zip (validateChoices cs), x.1.Ordinary lib ∧ ∀ vs, x.2 = some vs → (∀ v ∈ vs, v = .none ∨ WellFormedChoice v) ∧
      ∀ t, Value.tuple t ∈ vs → ∀ d, Value.timedelta d ∈ t → Spans d := by
  induction rs generalizing s s' cs with
  | nil => simp
  | cons r rs ih =>
    simp only [collectChoices] at hc
    cases hcf : choicesFor h compact ven r with
    | error e => rw [hcf] at hc; simp at hc
    | ok c =>
      rw [hcf] at hc
      simp only [] at hc
      generalize hx : collectChoices h compact ven
          { s with registered := Dict.set s.registered ven ((Dict.get? s.registered ven).getD [] ++ [(String.ofList (r.reportName.toList.drop 9), r)]) } rs = x at hc
      obtain ⟨s2, res⟩ := x
      cases res with
      | error e => simp at hc
      | ok cs2 =>
        simp only [Prod.mk.injEq, Except.ok.injEq] at hc
        obtain ⟨-, rfl⟩ := hc
        intro x hx'
        have hm : x = (r, c.map (fun vs => vs.map checkChoice)) ∨ x ∈ rs.zip (validateChoices cs2) := by
          simpa [validateChoices] using hx'
        rcases hm with rfl | hm
        · refine ⟨hr r (by simp), fun vs hvs => ⟨?_, ?_⟩⟩
          · refine (c54_all_well_formed [c]).1 vs ?_
            simp only at hvs
            simp [validateChoices, hvs]
          · simp only [Option.map_eq_some_iff] at hvs
            obtain ⟨ws, rfl, rfl⟩ := hvs
            intro t ht d hd
            obtain ⟨w, hw', he⟩ := List.mem_map.mp ht
            have : w = .tuple t := by
              by_cases hwf : WellFormedChoice w
              · rwa [checkChoice_wellFormed w hwf] at he
              · rw [checkChoice_other w hwf] at he; simp at he
            subst this
            exact choices_whole hw hcf (fun p hp => by obtain ⟨t, ht, -⟩ := ((hr r (by simp)).points p hp).1; exact ⟨t, ht⟩) ws rfl t hw' d hd
        · exact ih (fun y hy => hr y (by simp [hy])) hx x hm

/-- Whatever the handler chooses, the requests of the VTN can be sent, if the intervals are whole. -/
theorem registered_sendable {h : ReportAsk → Res Value} {compact : Bool} {fresh : Nat → String} {s s' : ReportServer} {ven : String} {heap : List Measurement}
    {a : Along} {rs : List VenReport} {out : List RequestOut} (hw : WholeIntervals h) (hf : ∀ n, Ordinary lib (fresh n))
    (hr : ∀ r ∈ rs, r.Offerable lib heap a) (hreg : registerReport h compact fresh s ven (offersOf heap rs) = (s', .ok out)) :
    ∀ q ∈ out, q.Sendable lib := by
  unfold offersOf at hreg
  split at hreg
  · simp only [registerReport, Prod.mk.injEq, Except.ok.injEq] at hreg
    obtain ⟨-, rfl⟩ := hreg
    simp
  · simp only [registerReport] at hreg
    generalize hx : collectChoices h compact ven s (rs.map (VenReport.offered heap)) = x at hreg
    obtain ⟨s1, res⟩ := x
    cases res with
    | error e => simp at hreg
    | ok cs =>
      simp only [] at hreg
      generalize hy : makeRequests fresh s1 ((rs.map (VenReport.offered heap)).zip (validateChoices cs)) = y at hreg
      obtain ⟨s2, res2⟩ := y
      cases res2 with
      | error e => simp at hreg
      | ok out2 =>
        simp only [Prod.mk.injEq, Except.ok.injEq] at hreg
        obtain ⟨-, rfl⟩ := hreg
        refine makeRequests_sendable hf _ (collectChoices_whole hw _ (fun r hr' => ?_) hx) hy
        obtain ⟨r0, h0, rfl⟩ := List.mem_map.mp hr'
        exact ordinary_offered (hr r0 h0)

/-! ### C89 -/

/-- Both messages of the VEN can be sent: the offers over the first link, the confirmation over the second. -/
structure Offering.Ready' (k k' : Link) (c : Config) (secure : Bool) (peer : Option String) (ven requestId : String) (a : Along) (x : Offering) : Prop
    extends x.Ready k c secure peer ven requestId a where
  sameLib : k'.lib = k.lib
  connected' : Connected k' c secure peer x.cache ven
  valid' : ∀ (m : CreatedReport) txt, createMessage k'.lib k'.clientNow "oadrCreatedReport" (m.payload (.str requestId) (.str ven)) = .ok txt →
    ∃ tree, c.validate (String.ofList txt) = .ok tree

/-- The equation behind C89: what `register_report` of the VTN makes of the reports, exactly as they are, is what `create_report` of the VEN is given, and the
    ids come back to the VTN. -/
theorem offers_done {k k' : Link} {c : Config} {h : ReportAsk → Res Value} {compact : Bool} {fresh : Nat → String} {user : ReportCall → Res Unit}
    {sampler : Sampler} {secure : Bool} {peer : Option String} {ven rid : String} {a : Along} {x : Offering} (ready : x.Ready' k k' c secure peer ven rid a)
    {s' : ReportServer} {out : List RequestOut} (hreg : registerReport h compact fresh x.vtn.1 ven (offersOf x.ven.heap x.ven.reports) = (s', .ok out))
    (ho : ∀ q ∈ out, q.Sendable k.lib) :
    offerReports k k' c (reportService h compact fresh user) sampler now secure peer (.str ven) rid a x =
      (if out = [] then ({ x with vtn := (s', x.vtn.2) }, .ok ())
      else match createReport sampler now x.ven (out.map RequestOut.asked) with
        | (v, calls, .error e) => ({ x with vtn := (s', x.vtn.2), ven := v, calls := x.calls ++ calls }, .error e)
        | (v, calls, .ok _) => (⟨x.cache, ((createdReport s' ven (some (out.map (fun q => .str q.requestId)))).1, x.vtn.2), v, x.calls ++ calls⟩, .ok ())) := by
  have he := offers_exchanged (user := user) ready.toReady hreg ho
  by_cases hout : out = []
  · subst hout
    simp only [offerReports, he, reply_requests, if_true]
  · simp only [offerReports, he, reply_requests, if_neg hout, Value.list?, Option.bind_some, read_requests ho]
    generalize hc : createReport sampler now x.ven (out.map RequestOut.asked) = y
    obtain ⟨v, calls, res⟩ := y
    cases res with
    | error e => rfl
    | ok reply =>
      have hids : reply.pendingIds = (out.map RequestOut.requestId).map Value.str := by
        unfold createReport at hc
        simp only [] at hc
        split at hc
        · simp at hc
        · simp only [Prod.mk.injEq, Except.ok.injEq] at hc
          obtain ⟨-, -, rfl⟩ := hc
          simp [RequestOut.asked, Function.comp_def]
      obtain ⟨code, ids⟩ := reply
      simp only at hids
      subst hids
      obtain ⟨r, hr⟩ := confirmation_noted (h := h) (compact := compact) (fresh := fresh) (user := user) (s := s') (log := x.vtn.2) (rid := rid) (code := code)
        (ids := out.map RequestOut.requestId) ready.connected' (by rw [ready.sameLib]; exact ready.request)
        (fun id hid => by
          obtain ⟨q, hq, rfl⟩ := List.mem_map.mp hid
          rw [ready.sameLib]; exact (ho q hq).requestId) (ready.valid' _)
      simp only [reply_confirmed, hr]
      simp only [List.map_map, Function.comp_def]

/-- **C89.** Whatever the handler of the VTN chooses from reports that can be offered: it is asked exactly about the reports of the VEN (`register_report`
    runs on them as they are), the VEN handles exactly the requests the VTN made, in order, and the VTN notes the ids of exactly these requests as created. If
    nothing is requested, nothing happens at the VEN. -/
theorem c89_offered {k k' : Link} {c : Config} {h : ReportAsk → Res Value} {compact : Bool} {fresh : Nat → String} {user : ReportCall → Res Unit}
    {sampler : Sampler} {secure : Bool} {peer : Option String} {ven rid : String} {a : Along} {x : Offering} (ready : x.Ready' k k' c secure peer ven rid a)
    (hw : WholeIntervals h) (hf : ∀ n, Ordinary k.lib (fresh n)) {s' : ReportServer} {out : List RequestOut}
    (hreg : registerReport h compact fresh x.vtn.1 ven (offersOf x.ven.heap x.ven.reports) = (s', .ok out)) :
    (out = [] → offerReports k k' c (reportService h compact fresh user) sampler now secure peer (.str ven) rid a x = ({ x with vtn := (s', x.vtn.2) }, .ok ())) ∧
    (∀ v calls reply, out ≠ [] → createReport sampler now x.ven (out.map RequestOut.asked) = (v, calls, .ok reply) →
      offerReports k k' c (reportService h compact fresh user) sampler now secure peer (.str ven) rid a x =
        (⟨x.cache, ((createdReport s' ven (some (out.map (fun q => .str q.requestId)))).1, x.vtn.2), v, x.calls ++ calls⟩, .ok ())) ∧
    (∀ v calls e, out ≠ [] → createReport sampler now x.ven (out.map RequestOut.asked) = (v, calls, .error e) →
      offerReports k k' c (reportService h compact fresh user) sampler now secure peer (.str ven) rid a x =
        (⟨x.cache, (s', x.vtn.2), v, x.calls ++ calls⟩, .error e)) := by
  have hd := offers_done (now := now) (user := user) (sampler := sampler) ready hreg (registered_sendable hw hf ready.reports hreg)
  refine ⟨fun e => ?_, fun v calls reply hne hc => ?_, fun v calls e hne hc => ?_⟩
  · rw [hd, if_pos e]
  · rw [hd, if_neg hne, hc]
  · rw [hd, if_neg hne, hc]

/-! #### One report is chosen -/

/-- What the handler of the VTN returns for a data point in mode 'compact': a tuple of the callback and the intervals, or `None`. -/
def choiceOf (g b : Int) : Option Nat → Value
  | some f => .tuple [.func f, .timedelta g, .timedelta b]
  | none => .none

/-- What it returns for a report in mode 'full'. -/
def choicesOf (g b : Int) (pick : VenPoint → Option Nat) (points : List VenPoint) : List Value :=
  points.filterMap (fun p => (pick p).map (fun f => Value.tuple [p.rId, .func f, .timedelta g, .timedelta b]))

/-- How the handler of the VTN answers a report of the VEN: in mode 'compact' it is asked about every data point with its own data, in mode 'full' about the
    report; about other reports than those of telemetry it is not asked. -/
def Picks (h : ReportAsk → Res Value) (compact : Bool) (ven : String) (heap : List Measurement) (g b : Int) (r : VenReport) (pick : VenPoint → Option Nat) : Prop :=
  (compact = true ∧ offeredName r.name = "METADATA_TELEMETRY_USAGE" ∧ ∀ p ∈ r.points, ∃ x m u sc, p.resourceId = some x ∧ p.measured heap = some m ∧ m.unit = some u ∧
    m.scale = some sc ∧ h (.compact ven (.str x) (.str m.description) (.str u) (.str sc) (.timedelta p.rate.minPeriod) (.timedelta p.rate.maxPeriod)) =
      .ok (choiceOf g b (pick p))) ∨
  (compact = true ∧ offeredName r.name = "METADATA_TELEMETRY_STATUS" ∧ ∀ p ∈ r.points, ∃ x, p.resourceId = some x ∧
    h (.compact ven (.str x) (.str "Status") .none .none (.timedelta p.rate.minPeriod) (.timedelta p.rate.maxPeriod)) = .ok (choiceOf g b (pick p))) ∨
  (compact = false ∧ (offeredName r.name = "METADATA_TELEMETRY_USAGE" ∨ offeredName r.name = "METADATA_TELEMETRY_STATUS") ∧
    h (.full (r.offered heap)) = .ok (.list (choicesOf g b pick r.points))) ∨
  (offeredName r.name ≠ "METADATA_TELEMETRY_USAGE" ∧ offeredName r.name ≠ "METADATA_TELEMETRY_STATUS" ∧ ∀ p ∈ r.points, pick p = none)

theorem askPoints_picks {h : ReportAsk → Res Value} {ven : String} {status : Bool} {heap : List Measurement} {g b : Int} {pick : VenPoint → Option Nat}
    (points : List VenPoint)
    (hs : ∀ p ∈ points, p.resourceId ≠ none)
    (hp : ∀ p ∈ points, (if status then ∃ lo hi, (p.offered heap).samplingRate = some (lo, hi) ∧
        h (.compact ven (p.offered heap).resourceId (.str "Status") .none .none lo hi) = .ok (choiceOf g b (pick p))
      else ∃ d u sc lo hi, (p.offered heap).measurement = some (d, u, sc) ∧ (p.offered heap).samplingRate = some (lo, hi) ∧
        h (.compact ven (p.offered heap).resourceId d u sc lo hi) = .ok (choiceOf g b (pick p)))) :
    askPoints h ven status (points.map (VenPoint.offered heap)) = .ok (points.map (fun p => choiceOf g b (pick p))) := by
  induction points with
  | nil => rfl
  | cons p ps ih =>
    have h1 := hp p (by simp)
    have h2 := ih (fun q hq => hs q (by simp [hq])) (fun q hq => hp q (by simp [hq]))
    have h0 : (p.offered heap).noSource = false := by
      have := hs p (by simp)
      cases ho : p.resourceId <;> simp_all [VenPoint.offered]
    cases status with
    | true =>
      simp only [if_true] at h1
      obtain ⟨lo, hi, h3, h4⟩ := h1
      simp only [List.map_cons, askPoints, h0, Bool.false_eq_true, if_false, if_true, h3, h4, h2]
    | false =>
      simp only [Bool.false_eq_true, if_false] at h1
      obtain ⟨d, u, sc, lo, hi, h3, h4, h5⟩ := h1
      simp only [List.map_cons, askPoints, h0, Bool.false_eq_true, if_false, h3, h4, h5, h2]

theorem withIds_picks (heap : List Measurement) (g b : Int) (pick : VenPoint → Option Nat) (points : List VenPoint) :
    withIds (points.map (VenPoint.offered heap)) (tuplesOnly (points.map (fun p => choiceOf g b (pick p)))) = choicesOf g b pick points := by
  induction points with
  | nil => rfl
  | cons p ps ih =>
    unfold tuplesOnly at ih ⊢
    unfold choicesOf at ih ⊢
    cases hp : pick p with
    | none => simp only [List.map_cons, hp, show choiceOf g b none = Value.none from rfl, withIds, ih, List.filterMap_cons, Option.map_none]
    | some f =>
      have e : choiceOf g b (some f) = Value.tuple [.func f, .timedelta g, .timedelta b] := rfl
      have e' : (p.offered heap).rId = p.rId := rfl
      simp only [List.map_cons, hp, e, e', withIds, ih, List.filterMap_cons, Option.map_some]

theorem checked_choices (g b : Int) (pick : VenPoint → Option Nat) (points : List VenPoint) :
    (choicesOf g b pick points).map checkChoice = choicesOf g b pick points := by
  have : ∀ v ∈ choicesOf g b pick points, checkChoice v = id v := by
    intro v hv
    simp only [choicesOf, List.mem_filterMap, Option.map_eq_some_iff] at hv
    obtain ⟨p, -, f, -, rfl⟩ := hv
    exact checkChoice_wellFormed _ (.inr ⟨_, _, _, _, rfl⟩)
  rw [List.map_congr_left this, List.map_id]

theorem tuples_choices (g b : Int) (pick : VenPoint → Option Nat) (points : List VenPoint) :
    tuplesOnly (choicesOf g b pick points) = choicesOf g b pick points := by
  refine (List.map_congr_left (g := id) (fun v hv => ?_)).trans (List.map_id _)
  simp only [choicesOf, List.mem_filterMap, Option.map_eq_some_iff] at hv
  obtain ⟨p, -, f, -, rfl⟩ := hv
  rfl

/-- The choices for a report: as picked; or none at all, and then nothing was picked. -/
theorem choicesFor_picks {h : ReportAsk → Res Value} {compact : Bool} {ven : String} {heap : List Measurement} {g b : Int} {r : VenReport}
    {pick : VenPoint → Option Nat} (hp : Picks h compact ven heap g b r pick) :
    ∃ cs, choicesFor h compact ven (r.offered heap) = .ok cs ∧
      (cs = some (choicesOf g b pick r.points) ∨ (cs = none ∧ choicesOf g b pick r.points = [])) := by
  rcases hp with ⟨rfl, hn, hp⟩ | ⟨rfl, hn, hp⟩ | ⟨rfl, hn, hp⟩ | ⟨hn1, hn2, hp⟩
  · have ha := askPoints_picks (h := h) (ven := ven) (status := false) (heap := heap) (g := g) (b := b) (pick := pick) r.points
      (fun p hm => by obtain ⟨x, m, u, sc, hx, -⟩ := hp p hm; simp [hx]) (fun p hm => by
      obtain ⟨x, m, u, sc, hx, hm, hu, hs, hh⟩ := hp p hm
      simp only [Bool.false_eq_true, if_false]
      exact ⟨.str m.description, .str u, .str sc, _, _, by simp [VenPoint.offered, hm, hu, hs], rfl, by simpa [VenPoint.offered, hx, textOrNone] using hh⟩)
    refine ⟨_, ?_, .inl rfl⟩
    simp only [choicesFor, VenReport.offered, hn, or_true, if_true, show decide ("METADATA_TELEMETRY_USAGE" = "METADATA_TELEMETRY_STATUS") = false by decide, ha,
      withIds_picks, Bool.false_eq_true, if_false]
  · have ha := askPoints_picks (h := h) (ven := ven) (status := true) (heap := heap) (g := g) (b := b) (pick := pick) r.points
      (fun p hm => by obtain ⟨x, hx, -⟩ := hp p hm; simp [hx]) (fun p hm => by
      obtain ⟨x, hx, hh⟩ := hp p hm
      simp only [if_true]
      exact ⟨_, _, rfl, by simpa [VenPoint.offered, hx, textOrNone] using hh⟩)
    refine ⟨_, ?_, .inl rfl⟩
    simp only [choicesFor, VenReport.offered, hn, true_or, if_true, decide_true, ha, withIds_picks, Bool.false_eq_true, if_false]
  · refine ⟨_, ?_, .inl rfl⟩
    have hn' : (r.offered heap).reportName = "METADATA_TELEMETRY_STATUS" ∨ (r.offered heap).reportName = "METADATA_TELEMETRY_USAGE" := hn.symm
    simp only [choicesFor, if_pos hn', Bool.false_eq_true, if_false, hp, tuples_choices]
  · refine ⟨none, ?_, .inr ⟨rfl, ?_⟩⟩
    · have hn' : ¬ ((r.offered heap).reportName = "METADATA_TELEMETRY_STATUS" ∨ (r.offered heap).reportName = "METADATA_TELEMETRY_USAGE") := by
        simp [VenReport.offered, hn1, hn2]
      simp only [choicesFor, if_neg hn']
    · simp only [choicesOf, List.filterMap_eq_nil_iff, Option.map_eq_none_iff]
      exact hp

/-- The choices for a report that was declined. -/
theorem choicesFor_declined {h : ReportAsk → Res Value} {compact : Bool} {ven : String} {heap : List Measurement} {g b : Int} {r : VenReport}
    (hp : Picks h compact ven heap g b r (fun _ => none)) : ∃ cs, choicesFor h compact ven (r.offered heap) = .ok cs ∧ (cs = some [] ∨ cs = none) := by
  obtain ⟨cs, h1, h2⟩ := choicesFor_picks hp
  have : choicesOf g b (fun _ => none) r.points = [] := by simp [choicesOf]
  refine ⟨cs, h1, ?_⟩
  rcases h2 with rfl | ⟨rfl, -⟩
  · exact .inl (by rw [this])
  · exact .inr rfl

/-- The choices of all reports, if each of them is answered. -/
theorem collectChoices_each {h : ReportAsk → Res Value} {compact : Bool} {ven : String} {α : Type} (rs : List α) (rep : α → OfferedReport)
    (ans : α → Option (List Value)) (hr : ∀ x ∈ rs, choicesFor h compact ven (rep x) = .ok (ans x)) (s : ReportServer) :
    ∃ s', collectChoices h compact ven s (rs.map rep) = (s', .ok (rs.map ans)) := by
  induction rs generalizing s with
  | nil => exact ⟨s, rfl⟩
  | cons x rs ih =>
    obtain ⟨s', h'⟩ := ih (fun y hy => hr y (by simp [hy]))
      { s with registered := Dict.set s.registered ven ((Dict.get? s.registered ven).getD [] ++ [(String.ofList ((rep x).reportName.toList.drop 9), rep x)]) }
    exact ⟨s', by simp only [List.map_cons, collectChoices, hr x (by simp), h']⟩

theorem makeRequests_declined {fresh : Nat → String} (s : ReportServer) (l rest : List (OfferedReport × Option (List Value)))
    (hl : ∀ x ∈ l, x.2 = some [] ∨ x.2 = none) : makeRequests fresh s (l ++ rest) = makeRequests fresh s rest := by
  induction l with
  | nil => rfl
  | cons x l ih =>
    obtain ⟨r, c⟩ := x
    have hx := hl (r, c) (by simp)
    have := ih (fun y hy => hl y (by simp [hy]))
    simp only at hx
    rcases hx with rfl | rfl
    · simp only [List.cons_append, makeRequests, true_or, if_true, this]
    · simp only [List.cons_append, makeRequests, this]

/-- A data point is found by its id. -/
theorem find_point {points : List VenPoint} (hd : points.Pairwise (fun p q => p.rId ≠ q.rId)) {p : VenPoint} (hp : p ∈ points) :
    points.find? (fun q => decide (q.rId = p.rId)) = some p := by
  induction points with
  | nil => simp at hp
  | cons q ps ih =>
    obtain ⟨h1, h2⟩ := List.pairwise_cons.mp hd
    rcases List.mem_cons.mp hp with rfl | hp
    · simp
    · rw [List.find?_cons_of_neg (by simpa using h1 p hp)]
      exact ih h2 hp

/-- The choices, as they were picked. -/
def pickedChoices (g b : Int) (pick : VenPoint → Option Nat) (points : List VenPoint) : List Choice :=
  points.filterMap (fun p => (pick p).map (fun f => ⟨p.rId, .func f, .timedelta g, .timedelta b⟩))

/-- The data points that were picked. -/
def picked (pick : VenPoint → Option Nat) (points : List VenPoint) : List VenPoint := points.filter (fun p => (pick p).isSome)

theorem picked_represents (g b : Int) (pick : VenPoint → Option Nat) (points : List VenPoint) :
    Pointwise Choice.Represents (pickedChoices g b pick points) (choicesOf g b pick points) := by
  induction points with
  | nil => exact .nil
  | cons p ps ih =>
    unfold pickedChoices choicesOf at ih ⊢
    cases hp : pick p with
    | none => simpa [hp] using ih
    | some f => simp only [List.filterMap_cons, hp, Option.map_some]; exact .cons (.inl rfl) ih

theorem picked_offered (heap : List Measurement) (g b : Int) (pick : VenPoint → Option Nat) (all points : List VenPoint)
    (hd : all.Pairwise (fun p q => p.rId ≠ q.rId)) (hs : ∀ p ∈ points, p ∈ all) :
    Pointwise (fun (c : Choice) rt => Offers (all.map (VenPoint.offered heap)) c.rId rt) (pickedChoices g b pick points)
      ((picked pick points).map (fun p => .str p.readingType)) := by
  induction points with
  | nil => exact .nil
  | cons p ps ih =>
    have ih' := ih (fun q hq => hs q (by simp [hq]))
    unfold pickedChoices picked at ih' ⊢
    cases hp : pick p with
    | none => simpa [hp] using ih'
    | some f =>
      simp only [List.filterMap_cons, hp, Option.map_some, List.filter_cons, Option.isSome_some, if_true, List.map_cons]
      refine .cons ⟨p.offered heap, ?_, rfl⟩ ih'
      have := find_point hd (hs p (by simp))
      rw [List.find?_map]
      show Option.map (VenPoint.offered heap) (all.find? (fun q => decide (q.rId = p.rId))) = some (p.offered heap)
      rw [this]; rfl

theorem picked_payloads (heap : List Measurement) (g b : Int) (pick : VenPoint → Option Nat) (points : List VenPoint) :
    List.zipWith (fun (c : Choice) rt => (⟨c.rId, rt⟩ : SpecifierOut)) (pickedChoices g b pick points) ((picked pick points).map (fun p => .str p.readingType)) =
      (picked pick points).map (fun p => ⟨p.rId, .str p.readingType⟩) := by
  induction points with
  | nil => rfl
  | cons p ps ih =>
    unfold pickedChoices picked at ih ⊢
    cases hp : pick p with
    | none => simpa [hp] using ih
    | some f => simp only [List.filterMap_cons, hp, Option.map_some, List.filter_cons, Option.isSome_some, if_true, List.map_cons, List.zipWith_cons_cons, ih]

theorem picked_last (g b : Int) (pick : VenPoint → Option Nat) (points : List VenPoint) (h : picked pick points ≠ []) :
    lastIntervals .none .none (pickedChoices g b pick points) = (.timedelta g, .timedelta b) := by
  have hne : pickedChoices g b pick points ≠ [] := by
    intro e
    apply h
    simp only [pickedChoices, List.filterMap_eq_nil_iff, Option.map_eq_none_iff] at e
    simp only [picked, List.filter_eq_nil_iff]
    intro p hp
    simp [e p hp]
  unfold lastIntervals
  cases hl : (pickedChoices g b pick points).getLast? with
  | none => rw [List.getLast?_eq_none_iff] at hl; exact absurd hl hne
  | some c =>
    have hc := List.mem_of_getLast? hl
    simp only [pickedChoices, List.mem_filterMap, Option.map_eq_some_iff] at hc
    obtain ⟨p, -, f, -, rfl⟩ := hc
    rfl

/-- The request for the data points that were picked. -/
def pickedRequest (id : String) (g b : Int) (r : VenReport) (pick : VenPoint → Option Nat) : RequestOut :=
  ⟨id, .str r.specifierId, .timedelta g, .timedelta b, (picked pick r.points).map (fun p => ⟨p.rId, .str p.readingType⟩)⟩

/-- The registration, if the handler picks data points of one report. -/
theorem registered_picked {h : ReportAsk → Res Value} {compact : Bool} {fresh : Nat → String} {s : ReportServer} {ven : String} {heap : List Measurement}
    {g b : Int} {pre post : List VenReport} {r : VenReport} {pick : VenPoint → Option Nat}
    (hothers : ∀ y ∈ pre ++ post, Picks h compact ven heap g b y (fun _ => none)) (hr : Picks h compact ven heap g b r pick)
    (hd : r.points.Pairwise (fun p q => p.rId ≠ q.rId)) (hsome : picked pick r.points ≠ []) :
    ∃ s', registerReport h compact fresh s ven (offersOf heap (pre ++ r :: post)) = (s', .ok [pickedRequest (fresh s.ids) g b r pick]) ∧
      (∀ p ∈ r.points, ∀ f, pick p = some f → getCallback s'.callbacks (.str (fresh s.ids), p.rId) = some (.func f)) ∧
      (∀ key, (∀ p ∈ picked pick r.points, key ≠ (.str (fresh s.ids), p.rId)) → getCallback s'.callbacks key = getCallback s.callbacks key) ∧
      Dict.get? s'.requested ven = some [pickedRequest (fresh s.ids) g b r pick] ∧ s'.created = s.created ∧ s'.ids = s.ids + 1 := by
  obtain ⟨c0, hc0, hc0'⟩ := choicesFor_picks hr
  have hch : choicesOf g b pick r.points ≠ [] := by
    intro e
    apply hsome
    simp only [choicesOf, List.filterMap_eq_nil_iff, Option.map_eq_none_iff] at e
    simp only [picked, List.filter_eq_nil_iff]
    intro p hp
    simp [e p hp]
  have hc0 : choicesFor h compact ven (r.offered heap) = .ok (some (choicesOf g b pick r.points)) := by
    rcases hc0' with rfl | ⟨-, e⟩
    · exact hc0
    · exact absurd e hch
  -- the answers
  have hex : ∀ y : VenReport, ∃ cs, (y ∈ pre ++ post → choicesFor h compact ven (y.offered heap) = .ok cs ∧ (cs = some [] ∨ cs = none)) := by
    intro y
    by_cases hy : y ∈ pre ++ post
    · obtain ⟨cs, h1, h2⟩ := choicesFor_declined (hothers y hy)
      exact ⟨cs, fun _ => ⟨h1, h2⟩⟩
    · exact ⟨none, fun h => absurd h hy⟩
  obtain ⟨ans, hans⟩ : ∃ ans : VenReport → Option (List Value), ∀ y ∈ pre ++ post, choicesFor h compact ven (y.offered heap) = .ok (ans y) ∧
      (ans y = some [] ∨ ans y = none) := ⟨fun y => (hex y).choose, fun y => (hex y).choose_spec⟩
  clear hex
  let items : List (OfferedReport × Option (List Value)) := pre.map (fun y => (y.offered heap, ans y)) ++
    (r.offered heap, some (choicesOf g b pick r.points)) :: post.map (fun y => (y.offered heap, ans y))
  have hitems : ∀ x ∈ items, choicesFor h compact ven x.1 = .ok x.2 := by
    intro x hx
    simp only [items, List.mem_append, List.mem_map, List.mem_cons] at hx
    rcases hx with ⟨y, hy, rfl⟩ | rfl | ⟨y, hy, rfl⟩
    · exact (hans y (by simp [hy])).1
    · exact hc0
    · exact (hans y (by simp [hy])).1
  have hmap : items.map Prod.fst = (pre ++ r :: post).map (VenReport.offered heap) := by
    simp [items, Function.comp_def]
  obtain ⟨s1, hs1⟩ := collectChoices_each items Prod.fst Prod.snd hitems s
  rw [hmap] at hs1
  obtain ⟨hcb, hids, hreq, hcr⟩ := collectChoices_registered h compact ven _ s s1 _ hs1
  -- the checked answers
  have hval : validateChoices (items.map Prod.snd) = items.map Prod.snd := by
    unfold validateChoices
    have : ∀ o ∈ items.map Prod.snd, Option.map (fun rs : List Value => rs.map checkChoice) o = id o := by
      intro o ho
      obtain ⟨x, hx, rfl⟩ := List.mem_map.mp ho
      simp only [items, List.mem_append, List.mem_map, List.mem_cons] at hx
      rcases hx with ⟨y, hy, rfl⟩ | rfl | ⟨y, hy, rfl⟩
      · rcases (hans y (by simp [hy])).2 with e | e <;> simp [e]
      · simp [checked_choices]
      · rcases (hans y (by simp [hy])).2 with e | e <;> simp [e]
    rw [List.map_congr_left this, List.map_id]
  have hzip : ((pre ++ r :: post).map (VenReport.offered heap)).zip (validateChoices (items.map Prod.snd)) = items := by
    rw [hval, ← hmap]
    exact (List.zip_of_prod rfl rfl).symm
  obtain ⟨cbs, he1, he2, he3⟩ := enterChoices_ok (fresh s1.ids) (r.offered heap).points (choicesOf g b pick r.points) (pickedChoices g b pick r.points)
    ((picked pick r.points).map (fun p : VenPoint => Value.str p.readingType)) s1.callbacks .none .none (picked_represents g b pick r.points)
    (picked_offered heap g b pick r.points r.points hd (fun _ h => h))
  rw [picked_payloads heap, picked_last g b pick r.points hsome] at he1
  have hmk : makeRequests fresh s1 items = ({ s1 with callbacks := cbs, ids := s1.ids + 1 }, .ok [pickedRequest (fresh s1.ids) g b r pick]) := by
    simp only [items]
    rw [makeRequests_declined]
    · have hpost := makeRequests_declined (fresh := fresh) { s1 with callbacks := cbs, ids := s1.ids + 1 } (post.map (fun y => (y.offered heap, ans y))) [] (by
        intro x hx
        obtain ⟨y, hy, rfl⟩ := List.mem_map.mp hx
        exact (hans y (by simp [hy])).2)
      rw [List.append_nil] at hpost
      have hnn : ¬ (choicesOf g b pick r.points = [] ∨ (choicesOf g b pick r.points).all (fun x => decide (x = Value.none)) = true) := by
        rintro (e | e)
        · exact hch e
        · obtain ⟨v, vs, hv⟩ := List.exists_cons_of_ne_nil hch
          have hv' : v ∈ choicesOf g b pick r.points := by simp [hv]
          have := (List.all_eq_true.mp e) v hv'
          simp only [choicesOf, List.mem_filterMap, Option.map_eq_some_iff] at hv'
          obtain ⟨p, -, f, -, rfl⟩ := hv'
          simp at this
      simp only [makeRequests, if_neg hnn, he1, hpost]
      rfl
    · intro x hx
      obtain ⟨y, hy, rfl⟩ := List.mem_map.mp hx
      exact (hans y (by simp [hy])).2
  have hne : pre ++ r :: post ≠ [] := by simp
  refine ⟨{ s1 with callbacks := cbs, ids := s1.ids + 1, requested := Dict.set s1.requested ven [pickedRequest (fresh s.ids) g b r pick] }, ?_, ?_, ?_, ?_, hcr, ?_⟩
  · simp only [offersOf, if_neg hne, registerReport, hs1, hzip, hmk, hids]
  · intro p hp f hf
    have := he3 (by
      unfold pickedChoices
      refine List.Pairwise.filterMap _ (fun p q hpq c hc c' hc' => ?_) hd
      simp only [Option.map_eq_some_iff] at hc hc'
      obtain ⟨_, -, rfl⟩ := hc
      obtain ⟨_, -, rfl⟩ := hc'
      exact hpq) ⟨p.rId, .func f, .timedelta g, .timedelta b⟩ (by
        simp only [pickedChoices, List.mem_filterMap, Option.map_eq_some_iff]
        exact ⟨p, hp, f, hf, rfl⟩)
    rw [hids] at this
    exact this
  · intro key hk
    rw [← hcb]
    refine he2 key (fun c hc => ?_)
    simp only [pickedChoices, List.mem_filterMap, Option.map_eq_some_iff] at hc
    obtain ⟨p, hp, f, hf, rfl⟩ := hc
    rw [hids]
    exact hk p (by simp [picked, hp, hf])
  · exact Dict.get?_set_self _ _ _
  · simp [hids]

theorem sendable_picked {id : String} {g b : Int} {r : VenReport} {pick : VenPoint → Option Nat} {heap : List Measurement} {a : Along}
    (hr : r.Offerable lib heap a) (hid : Ordinary lib id) (hg : Spans g) (hb : Spans b) (hsome : picked pick r.points ≠ []) :
    (pickedRequest id g b r pick).Sendable lib := by
  refine ⟨hid, ⟨_, rfl, hr.specifierId⟩, ⟨g, rfl, hg⟩, ⟨b, rfl, hb⟩, by simpa [pickedRequest] using hsome, fun p hp => ?_⟩
  simp only [pickedRequest, List.mem_map] at hp
  obtain ⟨q, hq, rfl⟩ := hp
  have hq' : q ∈ r.points := (List.mem_filter.mp hq).1
  exact ⟨(hr.points q hq').rId, _, rfl, (hr.points q hq').readingType⟩

theorem find_report {pre post : List VenReport} {r : VenReport} (hd : (pre ++ r :: post).Pairwise (fun p q => p.specifierId ≠ q.specifierId)) :
    (pre ++ r :: post).find? (fun q => decide (Value.str q.specifierId = Value.str r.specifierId)) = some r := by
  rw [List.find?_append]
  have : pre.find? (fun q => decide (Value.str q.specifierId = Value.str r.specifierId)) = none := by
    rw [List.find?_eq_none]
    intro q hq
    have := (List.pairwise_append.mp hd).2.2 q hq r (by simp)
    simpa using this
  rw [this]
  simp

/-- **C89** (partial: the handler of the VTN picks data points of one report, all with the same intervals, and the sampling interval is one that the points
    were offered with). From the list of reports of the VEN to its jobs, over two exchanges: the handler is asked about each data point with the resource,
    the measurement, the unit, the scale and the periods that the VEN gave; the VEN gets one new request, with the id that the VTN generated, for exactly the
    points that were picked, and one new job at the chosen interval; the VTN has the chosen callback under that id for each picked point and otherwise the
    callbacks it had; it has noted the request and its confirmation. -/
theorem c89_as_chosen_partial {k k' : Link} {c : Config} {h : ReportAsk → Res Value} {compact : Bool} {fresh : Nat → String} {user : ReportCall → Res Unit}
    {sampler : Sampler} {secure : Bool} {peer : Option String} {ven rid : String} {a : Along} {x : Offering} (ready : x.Ready' k k' c secure peer ven rid a)
    (hf : Ordinary k.lib (fresh x.vtn.1.ids)) (hj : JobsNumbered x.ven) {g b : Int} {pre post : List VenReport} {r : VenReport} {pick : VenPoint → Option Nat}
    (hrs : x.ven.reports = pre ++ r :: post) (hspec : x.ven.reports.Pairwise (fun p q => p.specifierId ≠ q.specifierId))
    (hothers : ∀ y ∈ pre ++ post, Picks h compact ven x.ven.heap g b y (fun _ => none)) (hr : Picks h compact ven x.ven.heap g b r pick)
    (hd : r.points.Pairwise (fun p q => p.rId ≠ q.rId)) (hsome : picked pick r.points ≠ [])
    (hrange : ∀ p ∈ picked pick r.points, p.rate.minPeriod ≤ g ∧ g ≤ p.rate.maxPeriod) (hg : Spans g) (hg0 : g ≠ 0) (hb : Spans b) (hb0 : 0 < b)
    (hcron : (cronConfig g false).valid = true) (hinv : ¬ Occurs "INVALID".toList r.specifierId.toList)
    (hinv' : ∀ p ∈ picked pick r.points, ∀ t, p.rId = .str t → ¬ Occurs "INVALID".toList t.toList) :
    let id := fresh x.vtn.1.ids
    ∃ vtn, offerReports k k' c (reportService h compact fresh user) sampler now secure peer (.str ven) rid a x =
        (⟨x.cache, (vtn, x.vtn.2),
          { x.ven with
            lists := x.ven.lists ++ [(picked pick r.points).map VenPoint.rId]
            jobs := x.ven.jobs ++ [⟨x.ven.jobIds, .str id, .cron (cronConfig g false)⟩]
            jobIds := x.ven.jobIds + 1
            requests := x.ven.requests ++ [⟨.str id, .str r.specifierId, some b, x.ven.lists.length, some g, some x.ven.jobIds⟩] }, x.calls⟩, .ok ()) ∧
      (∀ p ∈ r.points, ∀ f, pick p = some f → getCallback vtn.callbacks (.str id, p.rId) = some (.func f)) ∧
      (∀ key, (∀ p ∈ picked pick r.points, key ≠ (.str id, p.rId)) → getCallback vtn.callbacks key = getCallback x.vtn.1.callbacks key) ∧
      Dict.get? vtn.requested ven = some [pickedRequest id g b r pick] ∧
      Dict.get? vtn.created ven = some ((Dict.get? x.vtn.1.created ven).getD [] ++ [.str id]) ∧ vtn.ids = x.vtn.1.ids + 1 := by
  intro id
  obtain ⟨s', h1, h2, h3, h4, h5, h6⟩ := registered_picked (fresh := fresh) (s := x.vtn.1) hothers hr hd hsome
  rw [← hrs] at h1
  have hoff : r.Offerable k.lib x.ven.heap a := ready.reports r (by simp [hrs])
  have hs := sendable_picked (g := g) (b := b) (pick := pick) hoff hf hg hb hsome
  have hdone := offers_done (now := now) (user := user) (sampler := sampler) ready h1 (fun q hq => by
    rw [List.mem_singleton] at hq; subst hq; exact hs)
  have hcr := c58_started_partial sampler now x.ven hj (.str id) r.specifierId b g none ((picked pick r.points).map (fun p => (⟨p.rId, none⟩ : SpecPayload))) r hb0 hg0
    (by simpa using hsome) (by
      rintro (⟨t, ht, ho⟩ | ⟨p, t, hp, ht, ho⟩)
      · simp only [Value.str.injEq] at ht
        subst ht
        exact hinv ho
      · simp only [List.head?_map, Option.map_eq_some_iff] at hp
        obtain ⟨q, hq, rfl⟩ := hp
        exact hinv' q (List.mem_of_mem_head? (by simp [hq])) t ht ho) (by rw [hrs]; exact find_report (hrs ▸ hspec)) (by
      intro p hp
      obtain ⟨q, hq, rfl⟩ := List.mem_map.mp hp
      exact ⟨q, find_point hd (List.mem_filter.mp hq).1, (hrange q hq).1, (hrange q hq).2, by simp⟩) hcron
  have hask : [pickedRequest (fresh x.vtn.1.ids) g b r pick].map RequestOut.asked =
      [⟨.str id, .str r.specifierId, some b, some (some g), none, (picked pick r.points).map (fun p => ⟨p.rId, none⟩)⟩] := by
    simp [RequestOut.asked, pickedRequest, Value.span?, Function.comp_def, id]
  rw [hask, hcr] at hdone
  refine ⟨(createdReport s' ven (some [.str id])).1, ?_, ?_⟩
  · rw [hdone]
    simp only [List.cons_ne_nil, if_false, List.append_nil, List.map_map, Function.comp_def]
    rfl
  · simp only [createdReport, h4, h5, Option.getD_some]
    exact ⟨h2, h3, rfl, Dict.get?_set_self _ _ _, h6⟩

end Openleadr
