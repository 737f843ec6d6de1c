import Verif.Lemmas.Conversation
import Verif.Props.Reregistration
import Verif.Props.Deregistration
import Verif.Props.VenCancel
/-! Property C95: what the VTN asks for in the answer to a poll is done by the VEN, and confirmed. -/
namespace Openleadr

variable {S : Type}

/-- The VEN gets through at its `n`-th message. -/
structure Connection.Through (k : Connection S) (cache : NonceCache) (ven : String) (n : Nat) : Prop where
  sound : (k.link n).lib.Sound
  venId : Ordinary (k.link n).lib ven
  letsIn : LetsIn (k.link n) k.config k.secure k.peer cache ven

/-- The texts of the message and of its answer are accepted by the schema on the other side. -/
structure Connection.Valid (k : Connection S) (n : Nat) (type : String) (p : Dict) (rt : String) (rp : Dict) : Prop where
  there : ∀ txt, createMessage (k.link n).lib (k.link n).clientNow type p = .ok txt → ∃ tree, k.config.validate (String.ofList txt) = .ok tree
  back : ∀ txt, createMessage (k.link n).lib (k.link n).serverNow rt rp = .ok txt → (k.link n).accepts (String.ofList txt) = true

/-- What the handler of the VTN is given of a poll. -/
def pollMessage (ven : String) : Dict := [("ven_id", .str ven)]

/-- What the VTN sends when a handler returns the dict `u` for a message `m`. -/
def Config.answers (c : Config) (m u : Dict) : Dict := completed c m (finishPayload c m u)

/-- The poll handler of the VTN answers with a message of type `t`. -/
theorem polled (k : Connection S) (x : Serving S) (st : S) (ven t : String) (n : Nat) (u r : Dict) (h : S → Dict → S × Except Exn Returned)
    (ht : k.Through x.1 ven n) (hh : Dict.get? (k.service "OadrPoll").handlers "oadrPoll" = some h)
    (hr : h x.2 (pollMessage ven) = (st, .ok (.pair t (.dict u))))
    (hrec : Received (k.link n).lib (k.link n).serverNow t (k.config.answers (pollMessage ven) u) r)
    (hv : k.Valid n "oadrPoll" (pollMessage ven) t (k.config.answers (pollMessage ven) u)) :
    k.deliver n (.poll (.str ven)) x = ((x.1, st), .ok (some (some t, r))) :=
  reply_exchanged (poll_received (wired_text ht.venId (by decide +kernel))) (by simp [Dict.get?]) (by simp [Dict.get?])
    (by simp [Outgoing.message]) ht.letsIn hv.there hh hr
    hrec hv.back

/-- The answer to a poll says what the handler returned, except that the VTN puts in its own id, an id of its own for the message, and a response. -/
theorem answers_get (c : Config) (u : Dict) (ven : String) (hne : ven ≠ "") (h : Dict.get? u "ven_id" = none ∨ Dict.get? u "ven_id" = some (.str ven)) (j : String) :
    Dict.get? (c.answers (pollMessage ven) u) j =
      if j = "vtn_id" then some (.str c.vtnId) else if j = "ven_id" then some (.str ven) else if j = "request_id" then some (.str c.newId)
      else if j = "response" then some (.dict [("request_id", .none), ("response_code", .int 200), ("response_description", .str "OK")])
      else Dict.get? u j := by
  have hf : finishPayload c (pollMessage ven) u = Dict.set (Dict.set (if ((Dict.get? (Dict.set u "vtn_id" (.str c.vtnId)) "ven_id").getD .none).truthy then
      Dict.set u "vtn_id" (.str c.vtnId) else Dict.set (Dict.set u "vtn_id" (.str c.vtnId)) "ven_id" (.str ven)) "response"
      (.dict [("request_id", .none), ("response_code", .int 200), ("response_description", .str "OK")])) "request_id" (.str c.newId) := by
    simp [finishPayload, pollMessage, Dict.get?]
  have hven' : Dict.get? (finishPayload c (pollMessage ven) u) "ven_id" = some (.str ven) := by
    rw [hf]
    rcases h with h2 | h2 <;> simp [Dict.get?_set, h2, Value.truthy, hne]
  have hresp : Dict.has (finishPayload c (pollMessage ven) u) "response" = true := by
    rw [hf]; simp [Dict.has, Dict.get?_set]
  have hhas : Dict.has (Dict.set (finishPayload c (pollMessage ven) u) "vtn_id" (.str c.vtnId)) "ven_id" = true := by
    simp [Dict.has, Dict.get?_set, hven']
  have hall : Config.answers c (pollMessage ven) u = Dict.set (finishPayload c (pollMessage ven) u) "vtn_id" (.str c.vtnId) := by
    simp only [Config.answers, completed, hresp, if_true, hhas]
  rw [hall, hf]
  rcases h with h | h <;> simp only [Dict.get?_set, h, Value.truthy] <;> grind [Dict.get?_set]

/-! ### Cancelled registrations -/

/-- The cancellation as the VEN receives it: the id of the message is one of the VTN's own. -/
theorem cancel_answered {lib : Lib} {now : Int} {c : Config} {ven reg : String} {u : Dict} (hven : Ordinary lib ven) (hreg : Ordinary lib reg)
    (hid : Ordinary lib c.newId) (h1 : Dict.get? u "registration_id" = some (.str reg))
    (h2 : Dict.get? u "ven_id" = none ∨ Dict.get? u "ven_id" = some (.str ven)) :
    Received lib now "oadrCancelPartyRegistration" (c.answers (pollMessage ven) u) (cancelPayload c.newId ven reg) := by
  refine received_agree (t := tCancelPartyRegistration) (by rfl) (fun j hj => ?_) (cancel_received hid hven hreg)
  have hr : tCancelPartyRegistration.reads.all (fun j => j == "request_id" || j == "registration_id" || j == "ven_id") = true := by decide +kernel
  have := List.all_eq_true.mp hr j hj
  simp only [Bool.or_eq_true, beq_iff_eq] at this
  rw [answers_get c u ven hven.notEmpty h2]
  rcases this with (rfl | rfl) | rfl <;> simp [cancelPayload, Dict.get?, h1]

/-- What a cancellation makes of a registered VEN: if it is for its registration, it forgets its reports, its jobs and its registration; otherwise it stays as it is. -/
def Client.dismissed (y : Client) (reg reg' : String) : Client :=
  if reg' = reg then { y with registrationId := .none, reporting := none, polling := none } else y

/-- What the VEN sends: that it cancelled its registration, or that the registration is not its own. -/
def dismissal (q ven reg reg' : String) : Outgoing := .canceledRegistration (if reg' = reg then 200 else 452) (.str q) (.str ven) (.str reg)

/-- What the VEN does with the cancellation, whatever it gets for its confirmation. -/
theorem dismissed_step (w : World) (y : Client) (ven reg reg' q : String) (a : Option String × Payload) (hv : y.venId = .str ven) (hr : y.registrationId = .str reg)
    (ha : a.1 = some "oadrCancelPartyRegistration") (hf : a.2.fields = cancelPayload q ven reg') (h1 : w.net y.log.length = some a) :
    (clientPoll w y).1.log = y.log ++ [(.poll y.venId, some a), (dismissal q ven reg reg', w.net (y.log.length + 1))] ∧
    ∀ b, unpack (checkAnswer (w.net (y.log.length + 1))) = .ok b → (clientPoll w y).2 = .ok () ∧
      (clientPoll w y).1 = { y.dismissed reg reg' with log := (clientPoll w y).1.log } := by
  obtain ⟨t, p⟩ := a
  simp only at ha hf
  subst ha
  have hp : Polls w y "oadrCancelPartyRegistration" p := by
    refine ⟨h1, ?_⟩
    simp [readable, hf, cancelPayload, Dict.get?]
  have hact : ∀ d, actOnPoll w d "oadrCancelPartyRegistration" p = onCancelPartyRegistration w d p.fields := fun d => by simp [actOnPoll]
  rw [clientPoll_eq hp, hact, hf]
  have hg1 : Dict.get? (cancelPayload q ven reg') "registration_id" = some (.str reg') := by simp [cancelPayload, Dict.get?]
  have hg2 : Dict.get? (cancelPayload q ven reg') "request_id" = some (.str q) := by simp [cancelPayload, Dict.get?]
  have hreq : ∀ d m, request w d m = ((perform w d m).1, (unpack (perform w d m).2).map (fun _ => ())) := by
    intro d m
    unfold request
    split <;> rename_i h <;> rw [h] <;> rfl
  simp only [onCancelPartyRegistration, perform, hr, hg1, hg2, h1]
  rw [if_neg (by simp)]
  by_cases hreg : reg' = reg
  · subst hreg
    simp only [ne_eq, not_true_eq_false, if_false, hreq, perform, forgetReports, List.length_append, List.length_singleton]
    cases hu : unpack (checkAnswer (w.net (y.log.length + 1))) with
    | error e => simp [Except.map, dismissal, hv]
    | ok b => simp [Except.map, dismissal, hv, Client.dismissed]
  · rw [if_pos (by simp [Ne.symm hreg])]
    simp only [hreq, perform, List.length_append, List.length_singleton]
    cases hu : unpack (checkAnswer (w.net (y.log.length + 1))) with
    | error e => simp [Except.map, dismissal, hv, hreg]
    | ok b => simp [Except.map, dismissal, hv, Client.dismissed, hreg, hr.symm]

/-- The confirmation as the VTN receives it. -/
theorem canceled_received {lib : Lib} {now : Int} (sound : lib.Sound) {code : Nat} {q ven reg : String} (hq : Ordinary lib q) (hv : Ordinary lib ven)
    (hr : Ordinary lib reg) :
    Received lib now "oadrCanceledPartyRegistration" (canceledPayload code (.str q) (.str ven) (.str reg))
      [("response", responseOf code (.str q)), ("registration_id", .str reg), ("ven_id", .str ven)] := by
  have h := c67_canceled_party_registration (now := now) sound (r := ⟨code, if code = 200 then "OK" else "ERROR", q⟩) ⟨ordinary_described sound code, hq⟩ hr hv _ (.same _)
  refine received_agree (t := tCanceledPartyRegistration) (by rfl) (fun j hj => ?_) h
  have hr : tCanceledPartyRegistration.reads.all (fun j => j == "response" || j == "registration_id" || j == "ven_id") = true := by decide +kernel
  have := List.all_eq_true.mp hr j hj
  simp only [Bool.or_eq_true, beq_iff_eq] at this
  rcases this with (rfl | rfl) | rfl <;> simp [canceledPayload, responseOf, ResponseP.dict, Dict.get?]

/-- What is asked of a VTN that wants to cancel a registration: it says so in its answer to the poll, has no handler for the confirmation (as in
    registration_service.py), and its ids and those of the VEN are ordinary texts. -/
structure Dismisses (k : Connection S) (x : Serving S) (st : S) (n : Nat) (ven reg reg' : String) (u : Dict) : Prop where
  through : k.Through x.1 ven n
  through' : k.Through x.1 ven (n + 1)
  registration : Ordinary (k.link (n + 1)).lib reg
  other : Ordinary (k.link n).lib reg'
  newId : Ordinary (k.link n).lib k.config.newId
  newId' : Ordinary (k.link (n + 1)).lib k.config.newId
  poll : ∃ h, Dict.get? (k.service "OadrPoll").handlers "oadrPoll" = some h ∧
    h x.2 (pollMessage ven) = (st, .ok (.pair "oadrCancelPartyRegistration" (.dict u)))
  named : (k.service "EiRegisterParty").name = "EiRegisterParty"
  unhandled : Dict.get? (k.service "EiRegisterParty").handlers "oadrCanceledPartyRegistration" = none
  what : Dict.get? u "registration_id" = some (.str reg')
  whom : Dict.get? u "ven_id" = none ∨ Dict.get? u "ven_id" = some (.str ven)
  valid : k.Valid n "oadrPoll" (pollMessage ven) "oadrCancelPartyRegistration" (k.config.answers (pollMessage ven) u)
  valid' : ∀ code m, (code = 200 ∨ code = 452) → Dict.get? m "ven_id" = some (.str ven) →
    k.Valid (n + 1) "oadrCanceledPartyRegistration" (canceledPayload code (.str k.config.newId) (.str ven) (.str reg))
      "oadrResponse" (completed k.config m (errorResponse "oadrResponse" 459
        "A message of type oadrCanceledPartyRegistration should not be sent to this endpoint (EiRegisterParty)").2)

/-- The answers that the VEN gets to its poll and to its confirmation. -/
def dismissedBy (k : Connection S) (ven reg' : String) : Option String × Payload :=
  (some "oadrCancelPartyRegistration", Payload.parsed (cancelPayload k.config.newId ven reg'))

def unheard (type service ven : String) : Option String × Payload := (some "oadrResponse", Payload.parsed (notHandled type service ven))

theorem dismissed_run (k : Connection S) (w : World) (n : Nat) (x : Serving S) (st : S) (y : Client) (ven reg reg' : String) (u : Dict) (hv : y.venId = .str ven)
    (hr : y.registrationId = .str reg) (h : Dismisses k x st y.log.length ven reg reg' u) :
    k.run clientPoll w (n + 2) (x, y) = (((x.1, st), { y.dismissed reg reg' with log := y.log ++ [(.poll y.venId, some (dismissedBy k ven reg')),
      (dismissal k.config.newId ven reg reg', some (unheard "oadrCanceledPartyRegistration" "EiRegisterParty" ven))] }), .ok ()) := by
  obtain ⟨hd, hh, hpoll⟩ := h.poll
  have hrec := cancel_answered (now := (k.link y.log.length).serverNow) h.through.venId h.other h.newId h.what h.whom
  have h1 : k.deliver y.log.length (.poll y.venId) x = ((x.1, st), .ok (some (some "oadrCancelPartyRegistration", cancelPayload k.config.newId ven reg'))) := by
    rw [hv]
    exact polled k x st ven _ _ u _ hd h.through hh hpoll hrec h.valid
  have hcode : (if reg' = reg then 200 else 452) = 200 ∨ (if reg' = reg then 200 else 452) = 452 := by split <;> simp
  have h2 : k.deliver (y.log.length + 1) (dismissal k.config.newId ven reg reg') (x.1, st) =
      ((x.1, st), .ok (some (some "oadrResponse", notHandled "oadrCanceledPartyRegistration" "EiRegisterParty" ven))) := by
    have hd : Ordinary (k.link (y.log.length + 1)).lib
        "A message of type oadrCanceledPartyRegistration should not be sent to this endpoint (EiRegisterParty)" :=
      ordinary_word h.through'.sound (by decide +kernel) (onWire_of (by decide +kernel)) (by decide) (by decide)
    have hval := fun m hm => h.valid' (if reg' = reg then 200 else 452) m hcode hm
    have := unhandled_exchanged (k := k.link (y.log.length + 1)) (c := k.config) (svc := k.service "EiRegisterParty") (cache := x.1) (st := st)
      (secure := k.secure) (peer := k.peer) (ven := ven) h.through'.sound
      (canceled_received (now := (k.link (y.log.length + 1)).clientNow) (code := if reg' = reg then 200 else 452) h.through'.sound h.newId' h.through'.venId h.registration)
      (by simp [Dict.get?]) h.through'.venId (by simp [Dict.get?]) (by decide) h.through'.letsIn (hval [("ven_id", .str ven)] (by simp [Dict.get?])).there
      h.unhandled (by rw [h.named]; exact hd) (by rw [h.named]; exact (hval _ (by simp [Dict.get?])).back)
    rw [h.named] at this
    exact this
  have hlog : ∀ as : List Got, as[0]? = some (.ok (some (some "oadrCancelPartyRegistration", cancelPayload k.config.newId ven reg'))) →
      (w.hearing y.log.length as).net y.log.length = some (dismissedBy k ven reg') := fun as h => hearing_net w y.log.length as 0 _ h
  have hb : (w.hearing y.log.length [.ok (some (some "oadrCancelPartyRegistration", cancelPayload k.config.newId ven reg')),
      .ok (some (some "oadrResponse", notHandled "oadrCanceledPartyRegistration" "EiRegisterParty" ven))]).net (y.log.length + 1) =
      some (unheard "oadrCanceledPartyRegistration" "EiRegisterParty" ven) :=
    hearing_net w y.log.length _ 1 (some (some "oadrResponse", notHandled "oadrCanceledPartyRegistration" "EiRegisterParty" ven)) rfl
  have s1 := (dismissed_step _ y ven reg reg' k.config.newId _ hv hr rfl rfl (hlog [.ok (some (some "oadrCancelPartyRegistration", cancelPayload k.config.newId ven reg'))] rfl)).1
  obtain ⟨s2, s3⟩ := dismissed_step _ y ven reg reg' k.config.newId _ hv hr rfl rfl (hlog [.ok (some (some "oadrCancelPartyRegistration", cancelPayload k.config.newId ven reg')),
      .ok (some (some "oadrResponse", notHandled "oadrCanceledPartyRegistration" "EiRegisterParty" ven))] rfl)
  obtain ⟨s4, s5⟩ := s3 _ (by
    rw [hb]
    simp [unheard, Payload.parsed, checkAnswer, notHandled, Dict.get?, Dict.has, unpack]
    rfl)
  rw [run_two k w n x _ _ y _ _ (dismissal k.config.newId ven reg reg') _ h1 (by rw [s1]; simp; rfl) h2 (by rw [s2]; simp)]
  rw [s4, s5, s2, hb]

/-- **C95**: a VEN whose registration is cancelled in the answer to its poll is no longer registered, has no reports and no jobs left, and nothing else of it
    changes; it confirms with the code 200 and the id of the VTN's message, and sends nothing else. -/
theorem c95_deregistered (k : Connection S) (w : World) (n : Nat) (x : Serving S) (st : S) (y : Client) (ven reg : String) (u : Dict) (hv : y.venId = .str ven)
    (hr : y.registrationId = .str reg) (h : Dismisses k x st y.log.length ven reg reg u) :
    ∃ a b, k.run clientPoll w (n + 2) (x, y) = (((x.1, st), 
      { y with registrationId := .none, reporting := none, polling := none, log := y.log ++ [(.poll (.str ven), a), (.canceledRegistration 200 (.str k.config.newId) (.str ven) (.str reg), b)] }), .ok ()) := by
  refine ⟨some (dismissedBy k ven reg), some (unheard "oadrCanceledPartyRegistration" "EiRegisterParty" ven), ?_⟩
  rw [dismissed_run k w n x st y ven reg reg u hv hr h]
  simp [Client.dismissed, dismissal, hv]

/-- **C95**: if the registration is another one, the VEN stays as it is, and says so with the code 452. -/
theorem c95_not_ours (k : Connection S) (w : World) (n : Nat) (x : Serving S) (st : S) (y : Client) (ven reg reg' : String) (u : Dict) (hv : y.venId = .str ven)
    (hr : y.registrationId = .str reg) (hne : reg' ≠ reg) (h : Dismisses k x st y.log.length ven reg reg' u) :
    ∃ a b, k.run clientPoll w (n + 2) (x, y) = (((x.1, st), 
      { y with log := y.log ++ [(.poll (.str ven), a), (.canceledRegistration 452 (.str k.config.newId) (.str ven) (.str reg), b)] }), .ok ()) := by
  refine ⟨some (dismissedBy k ven reg'), some (unheard "oadrCanceledPartyRegistration" "EiRegisterParty" ven), ?_⟩
  rw [dismissed_run k w n x st y ven reg reg' u hv hr h]
  simp [Client.dismissed, dismissal, hne, hv]

/-- **C95, refuted** for the VTN: it has no handler for what the VEN says, so it is in the same state whether the VEN is now deregistered or has refused; and it answers
    both by the error 459. -/
theorem c95_unnoticed_violated (k : Connection S) (w w' : World) (n : Nat) (x : Serving S) (st : S) (y y' : Client) (ven reg reg' : String) (u : Dict)
    (hl : y'.log.length = y.log.length) (hv : y.venId = .str ven) (hv' : y'.venId = .str ven) (hr : y.registrationId = .str reg) (hr' : y'.registrationId = .str reg')
    (h : Dismisses k x st y.log.length ven reg reg u) (h' : Dismisses k x st y.log.length ven reg' reg u) :
    (k.run clientPoll w (n + 2) (x, y)).1.1 = (k.run clientPoll w' (n + 2) (x, y')).1.1 ∧
    (k.run clientPoll w (n + 2) (x, y)).1.2.registrationId = .none ∧ (reg ≠ reg' → (k.run clientPoll w' (n + 2) (x, y')).1.2.registrationId = .str reg') ∧
    (∃ a, (k.run clientPoll w (n + 2) (x, y)).1.2.log.getLast?.map Prod.snd = some a ∧
      (k.run clientPoll w' (n + 2) (x, y')).1.2.log.getLast?.map Prod.snd = some a ∧ (a.bind (fun z => codeOf z.2)) = some (.int 459)) := by
  rw [dismissed_run k w n x st y ven reg reg u hv hr h, dismissed_run k w' n x st y' ven reg' reg u hv' hr' (hl ▸ h')]
  refine ⟨rfl, by simp [Client.dismissed], fun hne => by simp [Client.dismissed, hne, hr'], _, by simp; rfl, by simp, ?_⟩
  simp [unheard, codeOf, Payload.parsed, notHandled, Dict.get?]

end Openleadr
