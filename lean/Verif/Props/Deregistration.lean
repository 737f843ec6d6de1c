import Verif.Props.Reregistration
/-! Property C93: a VEN that cancels its registration is deregistered on both sides. -/
namespace Openleadr

variable {P : Type}

/-- What the handler of the VTN is given is what the VEN sent. -/
theorem cancel_received {lib : Lib} {now : Int} {requestId ven reg : String} (hq : Ordinary lib requestId) (hv : Ordinary lib ven) (hr : Ordinary lib reg) :
    Received lib now "oadrCancelPartyRegistration" (cancelPayload requestId ven reg) (cancelPayload requestId ven reg) :=
  c67_cancel_party_registration hq hr hv _ (.same _)

/-- The VTN lets the VEN in: it is in the table, and the connection is without TLS or the VEN is authentic. -/
structure LetIn (k : Link) (c : Config) (secure : Bool) (peer : Option String) (x : Registrar P) (cache : NonceCache) (requestId ven reg : String) : Prop where
  known : InTable x.table ven
  authentic : ∀ txt tree, createMessage k.lib k.clientNow "oadrCancelPartyRegistration" (cancelPayload requestId ven reg) = .ok txt →
    c.validate (String.ofList txt) = .ok tree →
    (if secure ∧ Dict.has (cancelPayload requestId ven reg) "ven_id" then
      authenticate (c.looking x.table) k.surroundings k.count x.cache (requestOf secure peer txt) tree (cancelPayload requestId ven reg)
      else (x.cache, .ok ())) = (cache, .ok ())

/-- The positive answer as it is received. -/
def cancelReceived (requestId ven reg : String) : Dict :=
  [("response", .dict [("response_code", .int 200), ("response_description", .str "OK"), ("request_id", .str requestId)]), ("registration_id", .str reg),
   ("ven_id", .str ven)]

/-- The exchange, when the handler confirms. -/
theorem cancel_exchanged {k : Link} {c : Config} {u : RegistrationUser Table} {freq : Int} {secure : Bool} {peer : Option String}
    {name requestId ven reg reg' : String} {x : Registrar P} {cache : NonceCache} {table : Table} (h : Reachable k c freq name requestId)
    (hv : Ordinary k.lib ven) (hr : Ordinary k.lib reg) (hr' : Ordinary k.lib reg') (hin : LetIn k c secure peer x cache requestId ven reg)
    (hu : u.onCancel x.table (cancelPayload requestId ven reg) =
      (table, .ok (.pair "oadrCanceledPartyRegistration" (.dict [("registration_id", .str reg')])))) :
    endRegistration k c u freq secure peer requestId ven reg x =
      (⟨cache, table, x.polls⟩, .ok (some (some "oadrCanceledPartyRegistration", cancelReceived requestId ven reg'))) := by
  have hm1 : Dict.get? (cancelPayload requestId ven reg) "ven_id" = some (.str ven) := by simp [cancelPayload, Dict.get?]
  have hm2 : Dict.get? (cancelPayload requestId ven reg) "request_id" = some (.str requestId) := by simp [cancelPayload, Dict.get?]
  have hm3 : Dict.get? (cancelPayload requestId ven reg) "vtn_id" = none := by simp [cancelPayload, Dict.get?]
  have hs := cancel_received (now := k.clientNow) h.requestId hv hr
  have hpeer : withPeer secure peer "oadrCancelPartyRegistration" (cancelPayload requestId ven reg) = cancelPayload requestId ven reg := by simp [withPeer]
  have ha := hin.authentic
  generalize hm : cancelPayload requestId ven reg = m at hm1 hm2 hm3 hs hu hpeer ha
  have harr := c67_canceled_party_registration (now := k.serverNow) h.sound (r := ⟨200, "OK", requestId⟩) ⟨ordinary_OK h.sound, h.requestId⟩ hr' hv
  have hrec : Received k.lib k.serverNow "oadrCanceledPartyRegistration"
      (completed (c.looking x.table) m (finishPayload (c.looking x.table) m [("registration_id", .str reg')])) (cancelReceived requestId ven reg') := by
    have h1 := harr [("response", .dict [("request_id", .str requestId), ("response_code", .int 200), ("response_description", .str "OK")]),
        ("registration_id", .str reg'), ("ven_id", .str ven)] (by
      refine conforms_keys ["ven_id", "response", "registration_id"] (fun k hk => ?_) (fun k hk => ?_)
      · simp only [List.mem_cons, List.not_mem_nil, or_false, not_or] at hk
        simp [Dict.get?, Ne.symm hk.1, Ne.symm hk.2.1, Ne.symm hk.2.2]
      · simp only [List.mem_cons, List.not_mem_nil, or_false] at hk
        rcases hk with rfl | rfl | rfl
        · exact .inl ⟨.str ven, .str ven, by simp [Dict.get?], by simp [Dict.get?], .same _⟩
        · refine .inl ⟨_, _, by simp [Dict.get?]; rfl, by simp [Dict.get?]; rfl, ?_⟩
          refine conforms_keys ["response_code", "response_description", "request_id"] (fun k hk => ?_) (fun k hk => ?_)
          · simp only [List.mem_cons, List.not_mem_nil, or_false, not_or] at hk
            simp [ResponseP.dict, Dict.get?, Ne.symm hk.1, Ne.symm hk.2.1, Ne.symm hk.2.2]
          · simp only [List.mem_cons, List.not_mem_nil, or_false] at hk
            rcases hk with rfl | rfl | rfl
            · exact .inl ⟨.int 200, .int 200, by simp [ResponseP.dict, Dict.get?], by simp [Dict.get?], .same _⟩
            · exact .inl ⟨.str "OK", .str "OK", by simp [ResponseP.dict, Dict.get?], by simp [Dict.get?], .same _⟩
            · exact .inl ⟨.str requestId, .str requestId, by simp [ResponseP.dict, Dict.get?], by simp [Dict.get?], .same _⟩
        · exact .inl ⟨.str reg', .str reg', by simp [Dict.get?], by simp [Dict.get?], .same _⟩)
    refine received_agree (t := tCanceledPartyRegistration) (by rfl) (fun j hj => ?_) h1
    have hr : tCanceledPartyRegistration.reads.all (fun j => j == "response" || j == "registration_id" || j == "ven_id") = true := by decide +kernel
    have hne : (j = "response" ∨ j = "registration_id") ∨ j = "ven_id" := by
      have := List.all_eq_true.mp hr j hj
      simpa using this
    rw [completed_get]
    rcases hne with (rfl | rfl) | rfl
    · simp [Dict.get?, hm2]
    · simp [Dict.get?]
    · simp [Dict.get?, hm1, Value.truthy]
  have he : exchange k (c.looking x.table) (registrationService u (.timedelta freq)) x.cache x.table secure peer "oadrCancelPartyRegistration" m =
      ((cache, table), .ok (some (some "oadrCanceledPartyRegistration", cancelReceived requestId ven reg'))) := by
    refine exchange_answered hs (fun txt h1 h2 => ?_) hrec (fun txt ht => h.client _ _ txt ht)
    obtain ⟨tree, hvt⟩ := h.server _ _ txt h1
    have hmsg : handleMessage (c.looking x.table) (registrationService u (.timedelta freq)) x.table "oadrCancelPartyRegistration"
        (withPeer secure peer "oadrCancelPartyRegistration" m) =
        (table, .ok ("oadrCanceledPartyRegistration", finishPayload (c.looking x.table) m [("registration_id", .str reg')])) := by
      rw [hpeer]
      simp [handleMessage, registrationService, Dict.get?, hu, payloadDict]
    rw [handle_passed (c := c.looking x.table) hvt h2 (by decide) (by simp [hm3]) (checkKnown_registered (c := c.looking x.table) rfl hm1 hin.known) (ha txt tree h1 hvt) hmsg, hpeer]
  simp only [endRegistration, hm, he]

/-- **C93**: when the handler of the VTN confirms the cancellation by an oadrCanceledPartyRegistration, it was called with just what the VEN sent, and the VEN
    is not registered any more, does not poll any more and has no reports left. -/
theorem c93_deregistered {k : Link} {c : Config} {u : RegistrationUser Table} {freq : Int} {secure : Bool} {peer : Option String}
    {name requestId ven reg reg' : String} {x : Registrar P} {cache : NonceCache} {table : Table} (h : Reachable k c freq name requestId)
    (hv : Ordinary k.lib ven) (hr : Ordinary k.lib reg) (hr' : Ordinary k.lib reg') (hin : LetIn k c secure peer x cache requestId ven reg)
    (hu : u.onCancel x.table (cancelPayload requestId ven reg) =
      (table, .ok (.pair "oadrCanceledPartyRegistration" (.dict [("registration_id", .str reg')])))) :
    ∃ a, endRegistration k c u freq secure peer requestId ven reg x = (⟨cache, table, x.polls⟩, .ok a) ∧
      ∀ (w : World) (y : Client), y.venId = .str ven → y.registrationId = .str reg → w.net y.log.length = answerOf a →
        (cancelPartyRegistration w y).2 = .ok () ∧ (cancelPartyRegistration w y).1.registrationId = .none ∧
        (cancelPartyRegistration w y).1.polling = none ∧ (cancelPartyRegistration w y).1.reporting = none ∧
        (cancelPartyRegistration w y).1.log.map Prod.fst = y.log.map Prod.fst ++ [.cancelRegistration (.str ven) (.str reg)] := by
  refine ⟨_, cancel_exchanged h hv hr hr' hin hu, fun w y e1 e2 hw => ?_⟩
  obtain ⟨g1, g2, g3, g4, g5⟩ := c50_cancelled w y ⟨cancelReceived requestId ven reg', none, none, none⟩ (by rw [e2]; simp) hw
    (by simp [codeOf, cancelReceived, Dict.get?])
  rw [e1, e2] at g5
  exact ⟨g1, g2, g4, g3, g5⟩

/-- The exchange, when the handler returns nothing. -/
theorem cancel_nothing {k : Link} {c : Config} {u : RegistrationUser Table} {freq : Int} {secure : Bool} {peer : Option String}
    {name requestId ven reg : String} {x : Registrar P} {cache : NonceCache} {table : Table} (h : Reachable k c freq name requestId)
    (hv : Ordinary k.lib ven) (hr : Ordinary k.lib reg) (hin : LetIn k c secure peer x cache requestId ven reg)
    (hu : u.onCancel x.table (cancelPayload requestId ven reg) = (table, .ok .nothing)) :
    endRegistration k c u freq secure peer requestId ven reg x =
      (⟨cache, table, x.polls⟩, .ok (some (some "oadrResponse", plainResponse (some requestId) ven))) := by
  have hm1 : Dict.get? (cancelPayload requestId ven reg) "ven_id" = some (.str ven) := by simp [cancelPayload, Dict.get?]
  have he := nothing_exchanged (svc := registrationService u (.timedelta freq)) (c := c.looking x.table) (q := some requestId) h.sound
    (cancel_received (now := k.clientNow) h.requestId hv hr) (by decide) hm1 hv (by simp [cancelPayload, Dict.get?, text?])
    (fun q hq => by cases hq; exact h.requestId) (by simp [cancelPayload, Dict.get?]) (checkKnown_registered (c := c.looking x.table) rfl hm1 hin.known)
    hin.authentic (by simp [registrationService, Dict.get?]) hu h.server h.client
  simp only [endRegistration, he]

/-- An answer of another type leaves the VEN as it is, but for the log. -/
theorem other_answer {w : World} {y : Client} {t : String} {d : Dict} {ven reg : String} (e1 : y.venId = .str ven) (e2 : y.registrationId = .str reg)
    (ht : t ≠ "oadrCanceledPartyRegistration") (hw : w.net y.log.length = answerOf (some (some t, d))) :
    (cancelPartyRegistration w y).1 = { y with log := y.log ++ [(.cancelRegistration (.str ven) (.str reg), answerOf (some (some t, d)))] } := by
  rw [c50_not_cancelled w y (by rw [e2]; simp), e1, e2, hw]
  rintro ⟨p, hp, -⟩
  rw [hw] at hp
  simp only [answerOf, Option.map_some, Option.some.injEq, Prod.mk.injEq] at hp
  exact ht hp.1

/-- **C93, refuted** for handlers that follow the documentation and return `None` (docs/server.rst:370-379, registration_service.py:139-146): the VTN answers with
    a positive oadrResponse instead of an oadrCanceledPartyRegistration, and the VEN stays registered and goes on polling. -/
theorem c93_nothing_violated {k : Link} {c : Config} {u : RegistrationUser Table} {freq : Int} {secure : Bool} {peer : Option String}
    {name requestId ven reg : String} {x : Registrar P} {cache : NonceCache} {table : Table} (h : Reachable k c freq name requestId)
    (hv : Ordinary k.lib ven) (hr : Ordinary k.lib reg) (hin : LetIn k c secure peer x cache requestId ven reg)
    (hu : u.onCancel x.table (cancelPayload requestId ven reg) = (table, .ok .nothing)) :
    ∃ a, endRegistration k c u freq secure peer requestId ven reg x = (⟨cache, table, x.polls⟩, .ok a) ∧
      ∀ (w : World) (y : Client), y.venId = .str ven → y.registrationId = .str reg → w.net y.log.length = answerOf a →
        (cancelPartyRegistration w y).1 = { y with log := y.log ++ [(.cancelRegistration (.str ven) (.str reg), answerOf a)] } :=
  ⟨_, cancel_nothing h hv hr hin hu, fun _ _ e1 e2 hw => other_answer e1 e2 (by decide) hw⟩

/-- **C93, refuted** for the same handlers, if they take the VEN out of the table, on a connection without TLS: the next poll of the VEN, which goes on polling,
    puts it back into the table; its deregistration is undone. -/
theorem c93_undone_violated {k : Link} {c : Config} {u : RegistrationUser Table} {freq : Int} {psvc : Service P} {peer : Option String}
    {name requestId ven reg : String} {x : Registrar P} {table : Table} (h : Reachable k c freq name requestId)
    (hv : Ordinary k.lib ven) (hr : Ordinary k.lib reg) (hin : LetIn k c false peer x x.cache requestId ven reg)
    (hu : u.onCancel x.table (cancelPayload requestId ven reg) = (table, .ok .nothing)) (hout : ¬ InTable table ven) (hf : Faithful k.lib u)
    (w w' : World) (y : Client) (e1 : y.venId = .str ven) (e2 : y.registrationId = .str reg) :
    (endRegistration k c u freq false peer requestId ven reg x).1 = ⟨x.cache, table, x.polls⟩ ∧
    ∃ v, (pollOrRegister k c u freq psvc false peer name requestId w' ((endRegistration k c u freq false peer requestId ven reg x).1,
        (cancelPartyRegistration (w.answering y.log.length [(endRegistration k c u freq false peer requestId ven reg x).2]) y).1)).2.venId = .str v ∧
      InTable (pollOrRegister k c u freq psvc false peer name requestId w' ((endRegistration k c u freq false peer requestId ven reg x).1,
        (cancelPartyRegistration (w.answering y.log.length [(endRegistration k c u freq false peer requestId ven reg x).2]) y).1)).1.table v := by
  rw [cancel_nothing h hv hr hin hu]
  refine ⟨rfl, ?_⟩
  rw [other_answer (ven := ven) (reg := reg) (t := "oadrResponse") e1 e2 (by decide) (answering_net w _ _ 0 _ rfl)]
  obtain ⟨v, g1, g2⟩ := unknown_settles (u := u) (psvc := psvc) (peer := peer) (w := w') (x := (⟨x.cache, table, x.polls⟩,
    { y with log := y.log ++ [(.cancelRegistration (.str ven) (.str reg), answerOf (some (some "oadrResponse", plainResponse (some requestId) ven)))] }))
    h hf e1 e2 hv hr hout
  exact ⟨v, g1.1, g2⟩

/-- **C93, refuted** for a VEN that the VTN does not know: its cancellation is answered with the request to register again, and it stays registered. -/
theorem c93_unknown_violated {k : Link} {c : Config} {u : RegistrationUser Table} {freq : Int} {secure : Bool} {peer : Option String}
    {name requestId ven reg : String} {x : Registrar P} (h : Reachable k c freq name requestId)
    (hv : Ordinary k.lib ven) (hr : Ordinary k.lib reg) (hout : ¬ InTable x.table ven) :
    ∃ a, endRegistration k c u freq secure peer requestId ven reg x = (x, .ok a) ∧
      ∀ (w : World) (y : Client), y.venId = .str ven → y.registrationId = .str reg → w.net y.log.length = answerOf a →
        (cancelPartyRegistration w y).1 = { y with log := y.log ++ [(.cancelRegistration (.str ven) (.str reg), answerOf a)] } := by
  have he := reregistration_exchanged k (c.looking x.table) (registrationService u (.timedelta freq)) x.cache x.table secure peer "oadrCancelPartyRegistration"
    _ _ x.table (.str ven) (.str ven) rfl (cancel_received (now := k.clientNow) h.requestId hv hr) (by decide) (by simp [cancelPayload, Dict.get?])
    (fun txt ht => h.server _ _ txt ht) (fun p txt ht => h.client _ p txt ht) (by simp [cancelPayload, Dict.get?]) (fun s hs => by cases hs; exact hout)
    (wired_text hv (by decide +kernel))
  refine ⟨some (some "oadrRequestReregistration", [("ven_id", .str ven)]), by simp only [endRegistration, he], fun _ _ e1 e2 hw => other_answer e1 e2 (by decide) hw⟩

/-! ### Examples -/

/-- Handlers that take the VEN out of the table, with this result. -/
def leaving (result : Returned) : RegistrationUser Table where
  onCreate := welcoming.onCreate
  onCancel := fun table m => (table.filter (fun e => decide (some (.str e.1) ≠ Dict.get? m "ven_id")), .ok result)
  onQuery := none

theorem sample_letIn (polls : P) :
    LetIn sampleLink sampleVtn false none (⟨[], [("ven1", [("registration_id", .str "reg1")])], polls⟩ : Registrar P) [] "q1x" "ven1" "reg1" :=
  ⟨⟨_, _, rfl, rfl, by simp⟩, fun txt tree _ _ => c92_unsecured txt tree⟩

/-- The VEN is deregistered when the handler confirms. -/
example (polls : P) : ∃ a, endRegistration sampleLink sampleVtn (leaving (.pair "oadrCanceledPartyRegistration" (.dict [("registration_id", .str "reg1")]))) 5000000 false none
      "q1x" "ven1" "reg1" ⟨[], [("ven1", [("registration_id", .str "reg1")])], polls⟩ = (⟨[], [], polls⟩, .ok a) ∧
    ∀ (w : World) (y : Client), y.venId = .str "ven1" → y.registrationId = .str "reg1" → w.net y.log.length = answerOf a →
      (cancelPartyRegistration w y).2 = .ok () ∧ (cancelPartyRegistration w y).1.registrationId = .none ∧
      (cancelPartyRegistration w y).1.polling = none ∧ (cancelPartyRegistration w y).1.reporting = none ∧
      (cancelPartyRegistration w y).1.log.map Prod.fst = y.log.map Prod.fst ++ [.cancelRegistration (.str "ven1") (.str "reg1")] :=
  c93_deregistered (reg' := "reg1") sample_reachable (ordinary_of (by decide +kernel)) (ordinary_of (by decide +kernel)) (ordinary_of (by decide +kernel)) (sample_letIn polls)
    (by simp [leaving, cancelPayload, Dict.get?])

/-- It is in the table again after its next poll when the handler returns `None`. -/
example (psvc : Service P) (polls : P) (w w' : World) (y : Client) (e1 : y.venId = .str "ven1") (e2 : y.registrationId = .str "reg1") :=
  c93_undone_violated (u := leaving .nothing) (psvc := psvc) (table := []) sample_reachable (ordinary_of (by decide +kernel)) (ordinary_of (by decide +kernel)) (sample_letIn polls)
    (by simp [leaving, cancelPayload, Dict.get?]) (by rintro ⟨info, r, h1, -⟩; cases h1) (fun table m => welcoming_faithful table m) w w' y e1 e2

end Openleadr
