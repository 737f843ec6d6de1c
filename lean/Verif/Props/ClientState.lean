import Verif.Props.Registration
/-! Properties C50, C51: registration state; C74, C75, C76: report workers, poll interval, and registering again. -/
namespace Openleadr

theorem createOpt_sends (w : World) (fresh : Value) (c : Client) (a : OptArgs) : Sends c (createOpt w fresh c a).1 ["oadrCreateOpt"] := by
  unfold createOpt
  split
  · exact (Sends.rfl' c).weaken (by simp)
  · rename_i opt _
    refine Sends.one (m := .createOpt c.venId opt) (a := w.net c.log.length) ?_ ?_
    · simp only [perform]
      split
      · rfl
      · split <;> rfl
    · simp only [perform]
      split
      · rfl
      · split <;> rfl

theorem cancelOpt_sends (w : World) (c : Client) (o : Value) : Sends c (cancelOpt w c o).1 ["oadrCancelOpt"] := by
  unfold cancelOpt
  split
  · refine Sends.one (m := .cancelOpt c.venId o) (a := w.net c.log.length) ?_ ?_
    · simp only [perform]
      split
      · rfl
      · split <;> rfl
    · simp only [perform]
      split
      · rfl
      · split <;> rfl
  · exact (Sends.rfl' c).weaken (by simp)

/-! ### C50 -/

/-- **C50**: when the VTN answers a registration with code 200, the VEN holds the VEN id and registration id of the answer, and the poll interval it names
    (ten seconds if it names none). An id that is missing in the answer: the VEN id stays, the VEN is not registered. -/
theorem c50_registered (w : World) (c : Client) (r : Value) (t : String) (p : Payload) (h : w.net c.log.length = some (some t, p))
    (h200 : codeOf p = some (.int 200)) :
    (createPartyRegistration w c r).2 = .ok () ∧
    (createPartyRegistration w c r).1.venId = (fieldOf p "ven_id").getD c.venId ∧
    (createPartyRegistration w c r).1.registrationId = (fieldOf p "registration_id").getD .none ∧
    ((fieldOf p "registration_id").isSome = true →
      (createPartyRegistration w c r).1.pollFrequency = (Dict.get? p.fields "requested_oadr_poll_freq").getD (.timedelta 10000000)) ∧
    (createPartyRegistration w c r).1.reporting = c.reporting ∧ (createPartyRegistration w c r).1.events = c.events := by
  have hu : unpack (perform w c (.register c.venId r)).2 = .ok (some t, p) := by
    show unpack (checkAnswer (w.net c.log.length)) = _
    rcases unpack_check (w.net c.log.length) with ⟨x, hx, _, hu⟩ | ⟨hr, _⟩
    · rw [h] at hx; cases hx; rw [hu]
    · rw [h, readable_of_200 h200] at hr; cases hr
  have he : createPartyRegistration w c r = (registrationAnswer (perform w c (.register c.venId r)).1 p.fields, .ok ()) := by
    unfold createPartyRegistration
    rw [hu]
    simp only [codeOf_ok.mpr h200, ne_eq, not_true_eq_false, if_false]
  have ids := registrationAnswer_ids (perform w c (.register c.venId r)).1 p
  obtain ⟨ve, rg, fr, hf⟩ := registrationAnswer_frame (perform w c (.register c.venId r)).1 p.fields
  rw [he]
  refine ⟨rfl, ids.1, ids.2.1, ?_, by simp only []; rw [hf]; rfl, by simp only []; rw [hf]; rfl⟩
  intro hs
  have := ids.2.2
  rw [hs] at this
  exact this

/-- **C50**: any other answer, including none at all, leaves the VEN as it was. -/
theorem c50_refused (w : World) (c : Client) (r : Value)
    (h : ¬ ∃ t p, w.net c.log.length = some (some t, p) ∧ codeOf p = some (.int 200)) :
    (createPartyRegistration w c r).1 = { c with log := c.log ++ [(.register c.venId r, w.net c.log.length)] } := by
  unfold createPartyRegistration
  split
  · rfl
  · rfl
  · rename_i t p hp
    split
    · rfl
    · rename_i code hcode
      split
      · rfl
      · rename_i hne
        exact absurd ⟨t, p, (unpack_ok hp).1, by rw [codeOf_ok.mp hcode]; simpa using hne⟩ h

/-- **C50**: a VEN that is registered and gets a positive answer to its cancellation is not registered any more. -/
theorem c50_cancelled (w : World) (c : Client) (p : Payload) (hreg : c.registrationId ≠ .none)
    (h : w.net c.log.length = some (some "oadrCanceledPartyRegistration", p)) (h200 : codeOf p = some (.int 200)) :
    (cancelPartyRegistration w c).2 = .ok () ∧ (cancelPartyRegistration w c).1.registrationId = .none ∧
    (cancelPartyRegistration w c).1.reporting = none ∧ (cancelPartyRegistration w c).1.polling = none ∧
    (cancelPartyRegistration w c).1.log.map Prod.fst = c.log.map Prod.fst ++ [.cancelRegistration c.venId c.registrationId] := by
  have hu : unpack (checkAnswer (w.net c.log.length)) = .ok (some "oadrCanceledPartyRegistration", p) := by
    rcases unpack_check (w.net c.log.length) with ⟨x, hx, _, hu⟩ | ⟨hr, _⟩
    · rw [h] at hx; cases hx; rw [hu]
    · rw [h, readable_of_200 h200] at hr; cases hr
  unfold cancelPartyRegistration
  simp only [hreg, if_false, perform, hu, if_true, codeOf_ok.mpr h200]
  refine ⟨trivial, rfl, rfl, rfl, by simp [forgetReports]⟩

/-- **C50**: any other answer leaves it registered. -/
theorem c50_not_cancelled (w : World) (c : Client) (hreg : c.registrationId ≠ .none)
    (h : ¬ ∃ p, w.net c.log.length = some (some "oadrCanceledPartyRegistration", p) ∧ codeOf p = some (.int 200)) :
    (cancelPartyRegistration w c).1 = { c with log := c.log ++ [(.cancelRegistration c.venId c.registrationId, w.net c.log.length)] } := by
  unfold cancelPartyRegistration
  simp only [hreg, if_false, perform]
  split
  · rfl
  · rename_i t p hp
    split
    · rename_i ht
      split
      · rfl
      · rename_i code hcode
        split
        · rename_i h200
          exact absurd ⟨p, by rw [(unpack_ok hp).1, ht], by rw [codeOf_ok.mp hcode, h200]⟩ h
        · rfl
    · rfl

/-- Everything that can happen to a client. `inside`: what goes on without an exchange, with reports, events and the calls of the user's handlers. -/
inductive ClientOp
  | run
  | poll
  | register (registrationId : Value)
  | reregister
  | cancel
  | sync
  | registerReports
  | stop
  | createOpt (fresh : Value) (a : OptArgs)
  | cancelOpt (optId : Value)
  | inside (reporting : VenReports) (events : VenState) (calls : List VenCall) (samples : List SampleCall)

def clientStep (w : World) (c : Client) : ClientOp → Client
  | .run => (runClient w c).1
  | .poll => (clientPoll w c).1
  | .register r => (createPartyRegistration w c r).1
  | .reregister => (createPartyReregistration w c).1
  | .cancel => (cancelPartyRegistration w c).1
  | .sync => (syncEvents w c).1
  | .registerReports => (registerReports w c).1
  | .stop => stopClient c
  | .createOpt fresh a => (createOpt w fresh c a).1
  | .cancelOpt o => (cancelOpt w c o).1
  | .inside re ev ca sa => { c with reporting := c.reporting.map (fun _ => re), events := ev, calls := ca, samples := sa }

def clientRun (c : Client) (steps : List (World × ClientOp)) : Client := steps.foldl (fun c x => clientStep x.1 c x.2) c

/-- The two ids. -/
def Identity.ids (i : Identity) : Value × Value := (i.venId, i.registrationId)

theorem identityStep_ids {i j : Identity} (h : i.ids = j.ids) (x : Outgoing × Answer) : (identityStep i x).ids = (identityStep j x).ids := by
  obtain ⟨a, b, f⟩ := i
  obtain ⟨a', b', f'⟩ := j
  simp only [Identity.ids, Prod.mk.injEq] at h
  obtain ⟨rfl, rfl⟩ := h
  obtain ⟨m, ans⟩ := x
  cases m <;> cases ans <;> simp only [identityStep] <;> try rfl
  all_goals (try (rename_i y; obtain ⟨t, p⟩ := y; simp only []))
  all_goals (try (cases t <;> simp only []))
  all_goals (repeat' split) <;> rfl

theorem identity_fold_ids (l : List (Outgoing × Answer)) : ∀ {i j : Identity}, i.ids = j.ids → (l.foldl identityStep i).ids = (l.foldl identityStep j).ids := by
  induction l with
  | nil => intro i j h; exact h
  | cons x l ih => intro i j h; exact ih (identityStep_ids h x)

/-- Like `Sends`, for the ids alone. -/
structure SendsIds (c d : Client) : Prop where
  sent : ∃ new, d.log = c.log ++ new ∧ (identityOf d).ids = (new.foldl identityStep (identityOf c)).ids

theorem Sends.toIds {c d : Client} {k : List String} (h : Sends c d k) : SendsIds c d := by
  obtain ⟨new, h1, _, h3⟩ := h.sent
  exact ⟨new, h1, by rw [h3]⟩

theorem SendsIds.trans {c d e : Client} (h1 : SendsIds c d) (h2 : SendsIds d e) : SendsIds c e := by
  obtain ⟨n1, a1, e1⟩ := h1.sent
  obtain ⟨n2, a2, e2⟩ := h2.sent
  refine ⟨n1 ++ n2, by rw [a2, a1, List.append_assoc], ?_⟩
  rw [e2, List.foldl_append]
  exact identity_fold_ids n2 e1

theorem schedulePolling_ids (c : Client) : SendsIds c (schedulePolling c).1 := by
  refine ⟨[], ?_, ?_⟩ <;> (unfold schedulePolling; split <;> simp [identityOf, Identity.ids])

/-- The start, up to the scheduling of the poll job. -/
theorem runClient_sends (w : World) (c : Client) :
    ∃ d k, Sends c d k ∧ ((runClient w c).1 = d ∨ runClient w c = schedulePolling d) := by
  have h1 := queryVtn_sends w c
  unfold runClient
  split
  · rename_i d e hd; rw [hd] at h1
    exact ⟨d, _, h1, Or.inl rfl⟩
  · rename_i d hd; rw [hd] at h1
    have h2 := h1.trans (createParty_sends w d .none)
    split
    · rename_i d2 e hd2; rw [hd2] at h2
      exact ⟨d2, _, h2, Or.inl rfl⟩
    · rename_i d2 hd2; rw [hd2] at h2
      split
      · have h3 := h2.trans (registerReports_sends w d2)
        split
        · rename_i d3 e hd3; rw [hd3] at h3
          exact ⟨d3, _, h3, Or.inl rfl⟩
        · rename_i d3 hd3; rw [hd3] at h3
          have h4 := (h3.trans (startWorker_sends d3)).trans (syncEvents_sends w (startWorker d3))
          split
          · rename_i d4 e hd4; rw [hd4] at h4
            exact ⟨d4, _, h4, Or.inl rfl⟩
          · rename_i d4 hd4; rw [hd4] at h4
            obtain ⟨t, h5⟩ := clientPoll_sends w d4
            have h6 := h4.trans h5
            split
            · rename_i d5 e hd5; rw [hd5] at h6
              exact ⟨d5, _, h6, Or.inl rfl⟩
            · rename_i d5 hd5; rw [hd5] at h6
              exact ⟨d5, _, h6, Or.inr rfl⟩
      · exact ⟨_, _, h2.trans (Sends.quiet (d := stopClient d2) rfl rfl), Or.inl rfl⟩

theorem clientStep_ids (w : World) (c : Client) (op : ClientOp) : SendsIds c (clientStep w c op) := by
  cases op with
  | run =>
    obtain ⟨d, k, hs, h | h⟩ := runClient_sends w c
    · simp only [clientStep, h]; exact hs.toIds
    · simp only [clientStep, h]; exact hs.toIds.trans (schedulePolling_ids d)
  | poll => obtain ⟨t, h⟩ := clientPoll_sends w c; exact h.toIds
  | register r => exact (createParty_sends w c r).toIds
  | reregister => exact (reregister_sends w c).toIds
  | cancel => exact (cancelParty_sends w c).toIds
  | sync => exact (syncEvents_sends w c).toIds
  | registerReports => exact (registerReports_sends w c).toIds
  | stop => exact Sends.toIds (k := []) (Sends.quiet (c := c) (d := stopClient c) rfl rfl)
  | createOpt f a => exact (createOpt_sends w f c a).toIds
  | cancelOpt o => exact (cancelOpt_sends w c o).toIds
  | inside re ev ca sa =>
    exact ⟨[], by simp [clientStep], rfl⟩

/-- **C50**: after every history of operations, in which each may meet a different world, the two ids of the VEN are those that follow from the messages it
    exchanged with the VTN, one after the other: nothing else ever changes them. -/
theorem c50_history (v : Value) (steps : List (World × ClientOp)) :
    ((clientRun (newClient v) steps).venId, (clientRun (newClient v) steps).registrationId) =
      ((clientRun (newClient v) steps).log.foldl identityStep ⟨v, .none, .none⟩).ids := by
  have : ∀ c : Client, SendsIds c (clientRun c steps) := by
    induction steps with
    | nil => intro c; exact ⟨[], by simp [clientRun], rfl⟩
    | cons x l ih => intro c; exact (clientStep_ids x.1 c x.2).trans (ih _)
  obtain ⟨new, h1, h2⟩ := (this (newClient v)).sent
  have h1' : (clientRun (newClient v) steps).log = new := h1
  rw [h1']
  exact h2

/-- A refused registration. -/
def refusedAnswer : Payload :=
  ⟨[("response", .dict [("response_code", .int 452), ("response_description", .str "ERROR"), ("request_id", .str "q")])], none, none, none⟩

/-- **C50, refuted** for the start: the registration id in the answer to the query is taken over, so that a VEN whose registration is then refused takes
    itself for registered: it offers its reports and asks for events. Only then the start fails, on the poll interval it does not have. -/
theorem c50_query_violated :
    ∃ w, (runClient w (newClient (.str "v"))).1.registrationId = .str "old" ∧ (runClient w (newClient (.str "v"))).2 = .error .typeError ∧
      (runClient w (newClient (.str "v"))).1.log.map (fun x => x.1.kind) =
        ["oadrQueryRegistration", "oadrCreatePartyRegistration", "oadrRegisterReport", "oadrRequestEvent", "oadrPoll"] ∧
      w.net 1 = some (some "oadrCreatedPartyRegistration", refusedAnswer) := by
  refine ⟨worldOf [some (some "oadrCreatedPartyRegistration", registered "v" "old" 10000000), some (some "oadrCreatedPartyRegistration", refusedAnswer)], ?_⟩
  decide +kernel

/-! ### C51 -/

/-- **C51**: a cancellation that names another registration leaves everything as it is and is answered with the error for an invalid id. -/
theorem c51_mismatch (w : World) (c : Client) (m : Dict) (r q : Value) (hreg : c.registrationId ≠ .none)
    (hr : Dict.get? m "registration_id" = some r) (hq : Dict.get? m "request_id" = some q) (hne : r ≠ c.registrationId) :
    (onCancelPartyRegistration w c m).1 =
      { c with log := c.log ++ [(.canceledRegistration 452 q c.venId c.registrationId, w.net c.log.length)] } := by
  unfold onCancelPartyRegistration
  simp only [hreg, if_false, hr, hq, ne_eq, Ne.symm hne, not_false_eq_true, if_true, request_fst, perform]

/-- **C51**: one that names the VEN's registration is carried out and acknowledged, if the acknowledgement is answered with something. -/
theorem c51_match (w : World) (c : Client) (m : Dict) (q : Value) (hreg : c.registrationId ≠ .none)
    (hr : Dict.get? m "registration_id" = some c.registrationId) (hq : Dict.get? m "request_id" = some q)
    (hread : readable (w.net c.log.length) = true) :
    onCancelPartyRegistration w c m =
      ({ c with registrationId := .none, reporting := none, polling := none,
                log := c.log ++ [(.canceledRegistration 200 q c.venId c.registrationId, w.net c.log.length)] }, .ok ()) := by
  unfold onCancelPartyRegistration request
  simp only [hreg, if_false, hr, hq, ne_eq, not_true_eq_false]
  rcases unpack_check (w.net c.log.length) with ⟨x, _, _, hu⟩ | ⟨hf, _⟩
  · have : unpack (perform w (forgetReports c) (.canceledRegistration 200 q c.venId c.registrationId)).2 = .ok x := hu
    rw [this]
    rfl
  · rw [hread] at hf; cases hf

/-- **C51**: when a message from the VTN changes anything about registration, reports or polling, then it named the VEN's own registration. -/
theorem c51_only_matching (w : World) (c : Client) (m : Dict)
    (h : (onCancelPartyRegistration w c m).1.registrationId ≠ c.registrationId ∨ (onCancelPartyRegistration w c m).1.reporting ≠ c.reporting ∨
      (onCancelPartyRegistration w c m).1.polling ≠ c.polling) :
    c.registrationId ≠ .none ∧ Dict.get? m "registration_id" = some c.registrationId := by
  unfold onCancelPartyRegistration at h
  split at h
  · simp at h
  rename_i h1
  split at h
  · simp at h
  rename_i r h2
  split at h
  · simp at h
  split at h
  · rw [request_fst] at h; simp [perform] at h
  · rename_i h3
    simp only [ne_eq, Decidable.not_not] at h3
    exact ⟨h1, by rw [h2, h3]⟩

/-- **C51, refuted** when the acknowledgement gets an empty reply: taking the reply apart raises `TypeError` after the reports and jobs are gone but before
    the registration id is: the VEN stays half registered, and cannot even take a second cancellation to its end. -/
theorem c51_half_cancelled_violated :
    ∃ (c : Client) (m : Dict), c.registrationId ≠ .none ∧ Dict.get? m "registration_id" = some c.registrationId ∧
      (onCancelPartyRegistration (worldOf [none]) c m).2 = .error .typeError ∧
      (onCancelPartyRegistration (worldOf [none]) c m).1.registrationId = c.registrationId ∧
      (onCancelPartyRegistration (worldOf [none]) c m).1.reporting = none ∧ c.reporting.isSome = true := by
  refine ⟨{ newClient (.str "v") with registrationId := .str "r", polling := some (.timedelta 10000000) },
    [("registration_id", .str "r"), ("request_id", .str "q")], ?_⟩
  decide +kernel

/-- **C51, refuted** for a VEN that is not registered, and for a cancellation without an id: nothing is sent back. -/
theorem c51_silent_violated :
    (∀ w c m, c.registrationId = .none → onCancelPartyRegistration w c m = (c, .ok ())) ∧
    (∀ w c m, Dict.get? m "registration_id" = none → onCancelPartyRegistration w c m = (c, .ok ())) := by
  constructor
  · intro w c m h
    simp [onCancelPartyRegistration, h]
  · intro w c m h
    simp [onCancelPartyRegistration, h]

/-- A world in which the next poll of a client is answered with a cancellation. -/
def cancelNet (r : String) (k n : Nat) : Answer :=
  if n = k then some (some "oadrCancelPartyRegistration", ⟨[("registration_id", .str r), ("request_id", .str "q2")], none, none, none⟩)
  else some (some "oadrResponse", okResponse)
def cancelling (r : String) (c : Client) : World := { worldOf [] with net := cancelNet r c.log.length }

/-- Beside C50 and C51: a VEN that registers, is told by the VTN to cancel another registration, then its own. -/
example :
    let w := worldOf [some (some "oadrCreatedPartyRegistration", okResponse), some (some "oadrCreatedPartyRegistration", registered "v7" "r1" 30000000)]
    let c := clientRun (newClient .none) [(w, .run)]
    let d := clientRun c [(cancelling "r2" c, .poll)]
    let e := clientRun d [(cancelling "r1" d, .poll)]
    (c.venId, c.registrationId, c.polling) = (.str "v7", .str "r1", some (.timedelta 30000000)) ∧
    (d.registrationId, d.polling, d.log.map (fun x => x.1)) =
      (.str "r1", some (.timedelta 30000000), c.log.map (fun x => x.1) ++ [.poll (.str "v7"), .canceledRegistration 452 (.str "q2") (.str "v7") (.str "r1")]) ∧
    (e.registrationId, e.polling) = (.none, none) ∧
    e.log.map (fun x => x.1) = d.log.map (fun x => x.1) ++ [.poll (.str "v7"), .canceledRegistration 200 (.str "q2") (.str "v7") (.str "r1")] := by
  decide +kernel

end Openleadr
