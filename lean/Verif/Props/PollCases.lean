import Verif.Props.PollReports
import Verif.Props.RegisterOffers
/-! Concrete cases of the property C95. -/
namespace Openleadr

/-- A VTN that answers every poll with this message, and has these handlers for the others. -/
def askingWire (S : Type) (t : String) (u : Dict) (handlers : List (String × (S → Dict → S × Except Exn Returned))) : Connection S where
  link := fun _ => sampleLink
  config := sampleServing
  service := fun s => if s = "OadrPoll" then ⟨s, [("oadrPoll", fun st _ => (st, .ok (.pair t (.dict u))))]⟩ else ⟨s, handlers⟩
  secure := false
  peer := none
  dressing := ⟨"ven name", fun _ => "m1x", [], sampleAlong⟩

theorem asking_through (S : Type) (t : String) (u : Dict) (handlers : List (String × (S → Dict → S × Except Exn Returned))) (n : Nat) :
    (askingWire S t u handlers).Through [] "ven1" n :=
  have con := sampleConnected "id2x" (ordinary_of (by decide +kernel))
  ⟨con.sound, con.venId, con.letsIn⟩

theorem asking_valid (S : Type) (t : String) (u : Dict) (handlers : List (String × (S → Dict → S × Except Exn Returned))) (n : Nat) (type rt : String) (p rp : Dict) :
    (askingWire S t u handlers).Valid n type p rt rp := ⟨fun _ _ => ⟨_, rfl⟩, fun _ _ => rfl⟩

theorem id2x_ordinary : Ordinary plainLib "id2x" := ordinary_of (by decide +kernel)

theorem asking_dismisses (n : Nat) (reg : String) (h : Ordinary plainLib reg) :
    Dismisses (askingWire Nat "oadrCancelPartyRegistration" [("registration_id", .str "reg1")] []) ([], 7) 7 n "ven1" reg "reg1" [("registration_id", .str "reg1")] where
  through := asking_through _ _ _ _ _
  through' := asking_through _ _ _ _ _
  registration := h
  other := show Ordinary plainLib "reg1" from ordinary_of (by decide +kernel)
  newId := id2x_ordinary
  newId' := id2x_ordinary
  poll := ⟨_, rfl, rfl⟩
  named := rfl
  unhandled := rfl
  what := by simp [Dict.get?]
  whom := .inl (by simp [Dict.get?])
  valid := asking_valid _ _ _ _ _ _ _ _ _
  valid' := fun _ _ _ _ => asking_valid _ _ _ _ _ _ _ _ _

/-- A VEN with the registration that is cancelled, and one with another. -/
example (w : World) (y : Client) (hv : y.venId = .str "ven1") (hr : y.registrationId = .str "reg1") :=
  c95_deregistered _ w 0 _ 7 y "ven1" "reg1" _ hv hr (asking_dismisses _ _ (ordinary_of (by decide +kernel)))

example (w : World) (y : Client) (hv : y.venId = .str "ven1") (hr : y.registrationId = .str "reg2") :=
  c95_not_ours _ w 0 _ 7 y "ven1" "reg2" "reg1" _ hv hr (by decide) (asking_dismisses _ _ (ordinary_of (by decide +kernel)))

/-! ### Cancelled reports -/

theorem asking_recalls (n : Nat) (follow : Bool) :
    Recalls (askingWire Nat "oadrCancelReport" [("report_request_id", .str "q"), ("report_to_follow", .bool follow)] []) ([], 7) 7 n "ven1" "q" follow
      [("report_request_id", .str "q"), ("report_to_follow", .bool follow)] where
  through := asking_through _ _ _ _ _
  through' := asking_through _ _ _ _ _
  request := show Ordinary plainLib "q" from ordinary_of (by decide +kernel)
  request' := show Ordinary plainLib "q" from ordinary_of (by decide +kernel)
  newId := id2x_ordinary
  newId' := id2x_ordinary
  poll := ⟨_, rfl, rfl⟩
  named := rfl
  unhandled := rfl
  what := by simp [Dict.get?]
  follows := by simp [Dict.get?]
  whom := .inl (by simp [Dict.get?])
  valid := asking_valid _ _ _ _ _ _ _ _ _
  valid' := asking_valid _ _ _ _ _ _ _ _ _

/-- A VEN with two requests, one of which is cancelled; the other one and its job are still there. -/
example (w : World) (hu : ∀ n, w.user n = ones) (hu' : ∀ n, w.user' n = ones) (hn : ∀ n, w.now n = 5) (hn' : ∀ n, w.now' n = 6) (y : Client)
    (hv : y.venId = .str "ven1") (hs : y.reporting = some twoRequests) :
    ∃ s', (∃ x, (askingWire Nat "oadrCancelReport" [("report_request_id", .str "q"), ("report_to_follow", .bool true)] []).run clientPoll w 2 (([], 7), y) = x ∧
      x.1.2.reporting = some s' ∧ x.1.2.log.map Prod.fst = y.log.map Prod.fst ++ [.poll (.str "ven1"), .canceledReport (.str "ven1") ⟨.str "id2x", .str "q", [.str "q"]⟩]) ∧
      s'.requests.map VenRequest.requestId = [.str "p"] ∧ s'.jobs.map Job.target = [.str "p"] := by
  have hc : cancelReport ones ones 5 6 twoRequests ⟨.str "q", some true, some (.str "id2x")⟩ =
      ((cancelReport ones ones 5 6 twoRequests ⟨.str "q", some true, some (.str "id2x")⟩).1,
       (cancelReport ones ones 5 6 twoRequests ⟨.str "q", some true, some (.str "id2x")⟩).2.1, .ok (some ⟨.str "id2x", .str "q", [.str "q"]⟩)) :=
    Prod.ext rfl (Prod.ext rfl (by decide +kernel))
  have hinv : VenInv twoRequests := venState_inv newId [.add { addVoltage with specifierId := some "s", rId := some "a" },
    .add { addVoltage with specifierId := some "s", rId := some "b" },
    .add { addVoltage with name := "HISTORY_USAGE", specifierId := some "t", rId := some "c" }, .create ones 0 [ask "q" "s" 30 10 ["a", "b"]],
    .create ones 0 [ask "p" "t" 30 10 ["c"]]]
  obtain ⟨⟨a, b, h⟩, -⟩ := c95_report_cancelled _ w 0 ([], 7) 7 y "ven1" "q" true _ twoRequests _ _ _ hv hs hinv (asking_recalls _ true)
    (by rw [hu, hu', hn, hn']; exact hc)
  exact ⟨_, ⟨_, rfl, by rw [h], by rw [h]; simp; rfl⟩, by decide +kernel, by decide +kernel⟩

/-! ### Requested reports -/

/-- A request for a data point that the VEN offers. -/
def askedOut : RequestOut := ⟨"r1x", .str "s", .timedelta 10000000, .timedelta 60000000, [⟨.str "a", .str "Direct Read"⟩]⟩

theorem askedOut_sendable : askedOut.Sendable plainLib :=
  ⟨ordinary_of (by decide +kernel), ⟨"s", rfl, ordinary_of (by decide +kernel)⟩, ⟨_, rfl, spans_of (by decide +kernel)⟩, ⟨_, rfl, spans_of (by decide +kernel)⟩,
    by simp [askedOut], fun p hp => by
      simp only [askedOut, List.mem_singleton] at hp
      subst hp
      exact ⟨⟨_, rfl, ordinary_of (by decide +kernel)⟩, _, rfl, ordinary_of (by decide +kernel)⟩⟩

/-- The VTN with the library's handler for confirmations. -/
abbrev orderingWire : Connection ReportVtn :=
  askingWire ReportVtn "oadrCreateReport" [("report_requests", .list [askedOut.object])] [("oadrCreatedReport", createdReportHandler)]

theorem asking_orders (n : Nat) (st : ReportVtn) : Orders orderingWire ([], st) st n "ven1" [askedOut] [("report_requests", .list [askedOut.object])] where
  through := asking_through _ _ _ _ _
  through' := asking_through _ _ _ _ _
  requests := by simp only [List.mem_singleton, forall_eq]; exact askedOut_sendable
  some := by simp
  ids := by simp only [List.mem_singleton, forall_eq]; exact askedOut_sendable.requestId
  newId := id2x_ordinary
  newId' := id2x_ordinary
  poll := ⟨_, rfl, rfl⟩
  what := ⟨.list [askedOut.object], by simp [Dict.get?], .list _ _ rfl (fun i x y hx hy => by
    match i, hx, hy with
    | 0, hx, hy =>
      simp only [List.map_cons, List.map_nil, List.getElem?_cons_zero, Option.some.injEq] at hx hy
      subst hx hy
      exact conforms_wireRequest askedOut_sendable
    | i + 1, hx, _ => simp at hx)⟩
  whom := .inl (by simp [Dict.get?])
  else' := by simp [Dict.get?]
  valid := asking_valid _ _ _ _ _ _ _ _ _
  valid' := fun _ => asking_valid _ _ _ _ _ _ _ _ _

theorem asked_created : createReport ones 0 twoReports [askedOut.asked] =
    ((createReport ones 0 twoReports [askedOut.asked]).1, (createReport ones 0 twoReports [askedOut.asked]).2.1, .ok ⟨200, [.str "r1x"]⟩) :=
  Prod.ext rfl (Prod.ext rfl (by decide +kernel))

/-- A VTN that had requested reports before: it has noted the new one, and the VEN has a job for it. -/
example (w : World) (hu : ∀ n, w.user n = ones) (hn : ∀ n, w.now n = 0) (y : Client) (hv : y.venId = .str "ven1") (hs : y.reporting = some twoReports)
    (vtn : ReportServer) (calls : List ReportCall) (hq : vtn.requested = [("ven1", [])]) (hc : vtn.created = []) :
    ∃ s', (∃ x, orderingWire.run clientPoll w 2 (([], (vtn, calls)), y) = x ∧ x.1.2.reporting = some s' ∧ x.1.1.2.1.created = [("ven1", [.str "r1x"])] ∧ x.2 = .ok ()) ∧
      s'.jobs.map Job.target = [.str "r1x"] := by
  obtain ⟨a, b, h⟩ := c95_reports_noted orderingWire w 0 ([], (vtn, calls)) (vtn, calls) y "ven1" [askedOut] [] _ twoReports _ _ _ hv hs (asking_orders _ _)
    (by rw [hu, hn]; exact asked_created) rfl (by simp [hq, Dict.get?])
  exact ⟨_, ⟨_, rfl, by rw [h], by rw [h]; simp [hc, Dict.set, Dict.get?, askedOut], by rw [h]⟩, by decide +kernel⟩

/-- A VTN that had not. -/
example (w : World) (hu : ∀ n, w.user n = ones) (hn : ∀ n, w.now n = 0) (y : Client) (hv : y.venId = .str "ven1") (hs : y.reporting = some twoReports)
    (vtn : ReportServer) (calls : List ReportCall) (hq : vtn.requested = []) :=
  c95_unexpected_violated orderingWire w 0 ([], (vtn, calls)) (vtn, calls) y "ven1" [askedOut] _ twoReports _ _ _ hv hs (asking_orders _ _)
    (by rw [hu, hn]; exact asked_created) rfl (by simp [hq, Dict.get?])

end Openleadr
