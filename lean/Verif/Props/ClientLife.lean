import Verif.Props.ClientState
/-! Properties C74, C75, C76: report workers, poll interval, and registering again. -/
namespace Openleadr

/-! ### C74: one report worker -/

/-- How often the reports were offered. -/
def offersIn (l : List (Outgoing × Answer)) : Nat := (l.filter (fun x => x.1.kind == "oadrRegisterReport")).length

theorem offersIn_append (l m : List (Outgoing × Answer)) : offersIn (l ++ m) = offersIn l + offersIn m := by
  simp [offersIn]

theorem stopClient_workers (c : Client) : (stopClient c).workers.length = c.workers.length := by
  simp only [stopClient, List.length_append, List.length_dropLast, List.length_map, List.length_drop]
  omega

/-- No more workers were started than reports were offered. -/
def FewWorkers (c d : Client) : Prop := d.workers.length + offersIn c.log ≤ c.workers.length + offersIn d.log

theorem FewWorkers.trans {c d e : Client} (h1 : FewWorkers c d) (h2 : FewWorkers d e) : FewWorkers c e := by
  unfold FewWorkers at *; omega

theorem fewWorkers_of_sends {c d : Client} {k : List String} (h : Sends c d k) (hw : d.workers.length = c.workers.length) : FewWorkers c d := by
  obtain ⟨new, h1, _, _⟩ := h.sent
  unfold FewWorkers
  rw [h1, offersIn_append, hw]
  omega

theorem fewWorkers_same {c d : Client} {k : List String} (h : Sends c d k) (hw : d.workers = c.workers) : FewWorkers c d :=
  fewWorkers_of_sends h (by rw [hw])

/-- Offering the reports and starting the worker. -/
theorem offer_few (w : World) (c d : Client) (h : registerReports w c = (d, .ok ())) : FewWorkers c (startWorker d) := by
  have hs := registerReports_sends w c
  obtain ⟨re, sa, lg, hf⟩ := registerReports_frame w c
  rw [h] at hs hf
  have hd : d = _ := hf
  have hw : d.workers = c.workers := by rw [hd]
  have hlog : 1 + offersIn c.log ≤ offersIn d.log := by
    unfold registerReports at h
    split at h
    · cases h
    · rename_i s _
      have h1 : offersIn (perform w c (.registerReports c.venId s.reports)).1.log = offersIn c.log + 1 := by
        simp only [perform, offersIn_append]; rfl
      split at h
      · cases h
      · rename_i t p _
        obtain ⟨new, h2, _, _⟩ := (requests_sends w (perform w c (.registerReports c.venId s.reports)).1 p).sent
        rw [h] at h2
        have h2' : d.log = _ := h2
        rw [h2', offersIn_append, h1]
        omega
  have hst : (startWorker d).workers.length ≤ d.workers.length + 1 := by
    unfold startWorker
    split
    · split
      · omega
      · simp
    · omega
  have hlog2 : (startWorker d).log = d.log := by
    obtain ⟨wo, hwo⟩ := startWorker_frame d
    rw [hwo]
  unfold FewWorkers
  rw [hlog2]
  rw [hw] at hst
  omega

theorem reregister_few (w : World) (c : Client) : FewWorkers c (createPartyReregistration w c).1 := by
  have h := createParty_sends w c c.registrationId
  obtain ⟨ve, rg, fr, lg, hf⟩ := createParty_frame w c c.registrationId
  unfold createPartyReregistration
  split
  · rename_i d e hd; rw [hd] at h hf
    exact fewWorkers_same h (by have h' : d = _ := hf; rw [h'])
  · rename_i d hd; rw [hd] at h hf
    have h0 : FewWorkers c d := fewWorkers_same h (by have h' : d = _ := hf; rw [h'])
    split
    · have h2 := registerReports_sends w d
      obtain ⟨re, sa, lg2, hf2⟩ := registerReports_frame w d
      split
      · rename_i d2 e hd2; rw [hd2] at h2 hf2
        exact h0.trans (fewWorkers_same h2 (by have h' : d2 = _ := hf2; rw [h']))
      · rename_i d2 hd2
        obtain ⟨ev, ca, lg3, hf3⟩ := syncEvents_frame w (startWorker d2)
        exact (h0.trans (offer_few w d d2 hd2)).trans (fewWorkers_same (syncEvents_sends w _) (by rw [hf3]))
    · refine h0.trans ?_
      have : Sends d (stopClient d) [] := Sends.quiet rfl rfl
      exact fewWorkers_of_sends this (stopClient_workers d)

theorem actOnPoll_few (w : World) (c : Client) (t : String) (p : Payload) : FewWorkers c (actOnPoll w c t p).1 := by
  have hs := actOnPoll_sends w c t p
  by_cases ht : t = "oadrRequestReregistration"
  · subst ht
    unfold actOnPoll
    rw [if_neg (by decide), if_pos rfl]
    have h : Sends c (send w c (.response c.venId)).1 ["oadrResponse"] := by
      rw [send_fst]; exact perform_sends w c _ (by intro i a; rfl)
    have hw : (send w c (.response c.venId)).1.workers = c.workers := by rw [send_fst]; rfl
    split
    · rename_i d e hd; rw [hd] at h hw
      exact fewWorkers_same h hw
    · rename_i d hd; rw [hd] at h hw
      exact (fewWorkers_same h hw).trans (reregister_few w d)
  · refine fewWorkers_same hs ?_
    unfold actOnPoll
    rw [if_neg ht]
    split
    · rfl
    split
    · obtain ⟨ev, ca, lg, hf⟩ := clientEvents_frame w c p
      rw [hf]
    split
    · rfl
    split
    · obtain ⟨re, sa, lg, hf⟩ := clientRequests_frame w c p
      rw [hf]
    split
    · split
      · rfl
      · rw [request_fst]; rfl
    split
    · obtain ⟨rg, re, po, lg, hf⟩ := onCancel_frame w c p.fields
      rw [hf]
    split
    · split
      · rename_i m _
        obtain ⟨re, sa, lg, hf⟩ := clientCancelReport_frame w c m
        rw [hf]
      · rfl
    · rfl

theorem clientPoll_few (w : World) (c : Client) : FewWorkers c (clientPoll w c).1 := by
  have h : Sends c (perform w c (.poll c.venId)).1 ["oadrPoll"] := perform_sends w c _ (by intro i a; rfl)
  unfold clientPoll
  split
  · exact fewWorkers_same h rfl
  · exact fewWorkers_same h rfl
  · exact (fewWorkers_same h rfl).trans (actOnPoll_few w _ _ _)

theorem queryVtn_workers (w : World) (c : Client) : (queryVtn w c).1.workers = c.workers := by
  unfold queryVtn
  split
  · rfl
  · split <;> rfl

theorem runClient_few (w : World) (c : Client) : FewWorkers c (runClient w c).1 := by
  have h1 := fewWorkers_same (queryVtn_sends w c) (queryVtn_workers w c)
  unfold runClient
  split
  · rename_i d e hd; rw [hd] at h1; exact h1
  · rename_i d hd; rw [hd] at h1
    have h2 := createParty_sends w d .none
    obtain ⟨ve, rg, fr, lg, hf⟩ := createParty_frame w d .none
    split
    · rename_i d2 e hd2; rw [hd2] at h2 hf
      exact h1.trans (fewWorkers_same h2 (by have h' : d2 = _ := hf; rw [h']))
    · rename_i d2 hd2; rw [hd2] at h2 hf
      have h3 : FewWorkers c d2 := h1.trans (fewWorkers_same h2 (by have h' : d2 = _ := hf; rw [h']))
      split
      · have h4 := registerReports_sends w d2
        obtain ⟨re, sa, lg2, hf2⟩ := registerReports_frame w d2
        split
        · rename_i d3 e hd3; rw [hd3] at h4 hf2
          exact h3.trans (fewWorkers_same h4 (by have h' : d3 = _ := hf2; rw [h']))
        · rename_i d3 hd3
          obtain ⟨ev, ca, lg3, hf3⟩ := syncEvents_frame w (startWorker d3)
          have h5 : FewWorkers c (syncEvents w (startWorker d3)).1 :=
            (h3.trans (offer_few w d2 d3 hd3)).trans (fewWorkers_same (syncEvents_sends w _) (by rw [hf3]))
          split
          · rename_i d4 e hd4; rw [hd4] at h5; exact h5
          · rename_i d4 hd4; rw [hd4] at h5
            have h6 := h5.trans (clientPoll_few w d4)
            split
            · rename_i d5 e hd5; rw [hd5] at h6; exact h6
            · rename_i d5 hd5; rw [hd5] at h6
              refine FewWorkers.trans h6 ?_
              unfold schedulePolling FewWorkers
              split <;> exact Nat.le_refl _
      · have : Sends d2 (stopClient d2) [] := Sends.quiet rfl rfl
        exact h3.trans (fewWorkers_of_sends this (stopClient_workers d2))

theorem clientStep_few (w : World) (c : Client) (op : ClientOp) : FewWorkers c (clientStep w c op) := by
  cases op with
  | run => exact runClient_few w c
  | poll => exact clientPoll_few w c
  | register r =>
    obtain ⟨ve, rg, fr, lg, hf⟩ := createParty_frame w c r
    exact fewWorkers_same (createParty_sends w c r) (by simp only [clientStep]; rw [hf])
  | reregister => exact reregister_few w c
  | cancel =>
    refine fewWorkers_same (cancelParty_sends w c) ?_
    simp only [clientStep]
    unfold cancelPartyRegistration
    split
    · rfl
    · simp only [perform]
      repeat' split
      all_goals rfl
  | sync =>
    obtain ⟨ev, ca, lg, hf⟩ := syncEvents_frame w c
    exact fewWorkers_same (syncEvents_sends w c) (by simp only [clientStep]; rw [hf])
  | registerReports =>
    obtain ⟨re, sa, lg, hf⟩ := registerReports_frame w c
    exact fewWorkers_same (registerReports_sends w c) (by simp only [clientStep]; rw [hf])
  | stop =>
    have : Sends c (stopClient c) [] := Sends.quiet rfl rfl
    exact fewWorkers_of_sends this (stopClient_workers c)
  | createOpt f a =>
    refine fewWorkers_same (createOpt_sends w f c a) ?_
    simp only [clientStep]
    unfold createOpt
    split
    · rfl
    · simp only [perform]
      split
      · rfl
      · split <;> rfl
  | cancelOpt o =>
    refine fewWorkers_same (cancelOpt_sends w c o) ?_
    simp only [clientStep]
    unfold cancelOpt
    split
    · simp only [perform]
      split
      · rfl
      · split <;> rfl
    · rfl
  | inside re ev ca sa => exact Nat.le_refl _

/-- **C74** (partial: at most one per offer of the reports; that is one as long as the VEN does not register again). After every history the client has started at
    most as many report workers as it offered its reports to the VTN. -/
theorem c74_few_workers_partial (v : Value) (steps : List (World × ClientOp)) :
    (clientRun (newClient v) steps).workers.length ≤ offersIn (clientRun (newClient v) steps).log := by
  have : ∀ c : Client, FewWorkers c (clientRun c steps) := by
    induction steps with
    | nil => intro c; exact Nat.le_refl _
    | cons x l ih => intro c; exact (clientStep_few x.1 c x.2).trans (ih _)
  have h := this (newClient v)
  unfold FewWorkers at h
  simpa [newClient, offersIn] using h

/-- The answers to a poll that leads to a new registration. -/
def againNet (k n : Nat) : Answer :=
  if n = k then some (some "oadrRequestReregistration", noPayload)
  else if n = k + 2 then some (some "oadrCreatedPartyRegistration", registered "v" "r" 10000000)
  else some (some "oadrResponse", okResponse)
def againWorld (c : Client) : World := { worldOf [] with net := againNet c.log.length }

theorem again_workers (c : Client) (s : VenReports) (hs : c.reporting = some s) (hne : s.reports ≠ []) :
    (clientPoll (againWorld c) c).1.reporting = some s ∧ (clientPoll (againWorld c) c).1.workers = c.workers ++ [true] := by
  have e : clientPoll (againWorld c) c = ({ c with
      venId := .str "v", registrationId := .str "r", pollFrequency := .timedelta 10000000, workers := c.workers ++ [true],
      log := c.log ++ [(.poll c.venId, some (some "oadrRequestReregistration", noPayload)), (.response c.venId, some (some "oadrResponse", okResponse)),
        (.register c.venId c.registrationId, some (some "oadrCreatedPartyRegistration", registered "v" "r" 10000000)),
        (.registerReports (.str "v") s.reports, some (some "oadrResponse", okResponse)),
        (.requestEvent (.str "v"), some (some "oadrResponse", okResponse))] }, .ok ()) := by
    have l2 : checkAnswer (some (some "oadrResponse", okResponse)) = .ok (some (some "oadrResponse", okResponse)) := by decide +kernel
    have l3 : checkAnswer (some (some "oadrCreatedPartyRegistration", registered "v" "r" 10000000)) =
        .ok (some (some "oadrCreatedPartyRegistration", registered "v" "r" 10000000)) := by decide +kernel
    have l1 : checkAnswer (some (some "oadrRequestReregistration", noPayload)) = .ok (some (some "oadrRequestReregistration", noPayload)) := by decide +kernel
    have l4 : responseCodeOf (registered "v" "r" 10000000).fields = .ok (.int 200) := by decide +kernel
    have l5 : Dict.get? (registered "v" "r" 10000000).fields "ven_id" = some (.str "v") := by decide +kernel
    have l6 : Dict.get? (registered "v" "r" 10000000).fields "registration_id" = some (.str "r") := by decide +kernel
    have l7 : Dict.get? (registered "v" "r" 10000000).fields "requested_oadr_poll_freq" = some (.timedelta 10000000) := by decide +kernel
    have l8 : (Value.str "v").truthy = true := by decide +kernel
    have l9 : (Value.str "r").truthy = true := by decide +kernel
    have l10 : okResponse.requests = none := rfl
    have l11 : okResponse.events = none := rfl
    simp [clientPoll, perform, againWorld, againNet, l1, unpack, actOnPoll, send, l2, createPartyReregistration, createPartyRegistration, l3, l4,
      registrationAnswer, l5, l6, l7, l8, l9, registerReports, hs, clientRequests, l10, startWorker, hne, syncEvents, clientEvents, l11]
  rw [e]
  exact ⟨hs, rfl⟩

theorem clientRun_snoc (c : Client) (steps : List (World × ClientOp)) (x : World × ClientOp) :
    clientRun c (steps ++ [x]) = clientStep x.1 (clientRun c steps) x.2 := by
  simp [clientRun]

/-- **C74, refuted** for a VEN that registers again: each time, another report worker is started next to the ones that run. For every number of times, there is a
    history after which that many workers run at once; they all take reports from the same queue, so reports can overtake each other. -/
theorem c74_reregistration_violated (c : Client) (s : VenReports) (hs : c.reporting = some s) (hne : s.reports ≠ []) (k : Nat) :
    ∃ steps : List (World × ClientOp), steps.length = k ∧ (clientRun c steps).workers = c.workers ++ List.replicate k true := by
  have : ∃ steps : List (World × ClientOp), steps.length = k ∧ (clientRun c steps).workers = c.workers ++ List.replicate k true ∧
      (clientRun c steps).reporting = some s := by
    induction k with
    | zero => exact ⟨[], rfl, by simp [clientRun], hs⟩
    | succ k ih =>
      obtain ⟨steps, h1, h2, h3⟩ := ih
      have h4 := again_workers (clientRun c steps) s h3 hne
      refine ⟨steps ++ [(againWorld (clientRun c steps), .poll)], by simp [h1], ?_, ?_⟩
      · rw [clientRun_snoc]
        show (clientPoll _ _).1.workers = _
        rw [h4.2, h2, List.append_assoc, List.replicate_succ']
      · rw [clientRun_snoc]
        exact h4.1
  obtain ⟨steps, h1, h2, _⟩ := this
  exact ⟨steps, h1, h2⟩

/-- **C74, refuted** for stopping: only the last worker is stopped, the others go on. -/
theorem c74_stop_violated (c : Client) (a b : Bool) (l : List Bool) (h : c.workers = l ++ [a, b]) : (stopClient c).workers = l ++ [a, false] := by
  have h2 : l ++ [a, b] = (l ++ [a]) ++ [b] := by simp
  simp only [stopClient, h]
  have h3 : (l ++ [a, b]).length - 1 = (l ++ [a]).length := by simp
  rw [h3, h2, List.dropLast_concat, List.drop_left]
  simp

/-! ### C75: the poll interval -/

/-- **C75** (partial: for the start; a later registration does not change the interval). When the start of the VEN succeeds, either the VEN was not registered and
    is stopped, or it polls at the interval that the last successful registration named, but at least once a day. -/
theorem c75_start_partial (w : World) (c : Client) (hc : c.polling = none) (h : (runClient w c).2 = .ok ()) :
    ((runClient w c).1.stopped = true ∧ (runClient w c).1.polling = none) ∨
    ∃ us, ((runClient w c).1.log.drop c.log.length).foldl identityStep (identityOf c) =
        ⟨(runClient w c).1.venId, (runClient w c).1.registrationId, .timedelta us⟩ ∧
      (runClient w c).1.polling = some (.timedelta (min us (24 * 3600000000))) := by
  have h1 := queryVtn_sends w c
  have hq : (queryVtn w c).1.polling = none := by
    unfold queryVtn
    split
    · exact hc
    · split <;> exact hc
  unfold runClient at h ⊢
  split at h
  · cases h
  rename_i d hd
  rw [hd] at h1 hq
  have h2 := h1.trans (createParty_sends w d .none)
  obtain ⟨ve, rg, fr, lg, hf⟩ := createParty_frame w d .none
  split at h
  · cases h
  rename_i d2 hd2
  rw [hd2] at h2 hf
  have hd2' : d2 = _ := hf
  split at h
  · rename_i ht
    simp only [ht, if_true]
    have h3 := h2.trans (registerReports_sends w d2)
    split at h
    · cases h
    rename_i d3 hd3
    rw [hd3] at h3
    have h4 := (h3.trans (startWorker_sends d3)).trans (syncEvents_sends w (startWorker d3))
    split at h
    · cases h
    rename_i d4 hd4
    rw [hd4] at h4
    obtain ⟨t, h5⟩ := clientPoll_sends w d4
    have h6 := h4.trans h5
    split at h
    · cases h
    rename_i d5 hd5
    rw [hd5] at h6
    right
    obtain ⟨new, n1, _, n2⟩ := h6.sent
    unfold schedulePolling at h ⊢
    split at h
    · cases h
    rename_i f hf5
    simp only []
    unfold clampPolling at hf5
    split at hf5
    · rename_i us hus
      refine ⟨us, ?_, ?_⟩
      · have n1' : d5.log = _ := n1
        rw [n1', List.drop_left]
        rw [← n2]
        simp [identityOf, hus]
      · cases hf5
        split
        · rename_i hgt
          simp only [Option.some.injEq, Value.timedelta.injEq]
          omega
        · simp only [Option.some.injEq, Value.timedelta.injEq]
          omega
    · cases hf5
  · rename_i ht
    simp only [ht]
    exact Or.inl ⟨rfl, rfl⟩

/-- **C75, refuted** for a VEN that registers again: the poll job keeps the interval it was started with, whatever the new registration says. -/
theorem c75_reregistration_violated (w : World) (c : Client) (h : (createPartyReregistration w c).1.stopped = c.stopped) (hs : c.stopped = false) :
    (createPartyReregistration w c).1.polling = c.polling := by
  obtain ⟨ve, rg, fr, lg, hf⟩ := createParty_frame w c c.registrationId
  unfold createPartyReregistration at h ⊢
  split at h
  · rename_i d e hd; rw [hd] at hf
    have h' : d = _ := hf
    simp only []
    rw [h']
  · rename_i d hd; rw [hd] at hf
    have h' : d = _ := hf
    split at h
    · rename_i ht
      rw [if_pos ht]
      obtain ⟨re, sa, lg2, h2⟩ := registerReports_frame w d
      split at h
      · rename_i d2 e hd2; rw [hd2] at h2
        have h2' : d2 = _ := h2
        rw [h2', h']
      · rename_i d2 hd2; rw [hd2] at h2
        have h2' : d2 = _ := h2
        obtain ⟨wo, h3⟩ := startWorker_frame d2
        obtain ⟨ev, ca, lg3, h4⟩ := syncEvents_frame w (startWorker d2)
        rw [h4, h3, h2', h']
    · rw [hs] at h; cases h

/-- Beside it: the interval changes from 30 to 10 seconds, the job stays at 30. -/
example :
    let w := worldOf [some (some "oadrCreatedPartyRegistration", okResponse), some (some "oadrCreatedPartyRegistration", registered "v" "r1" 30000000)]
    let c := clientRun (newClient .none) [(w, .run)]
    let d := clientRun c [(againWorld c, .poll)]
    (c.pollFrequency, c.polling) = (.timedelta 30000000, some (.timedelta 30000000)) ∧
    (d.pollFrequency, d.polling) = (.timedelta 10000000, some (.timedelta 30000000)) := by
  decide +kernel

/-! ### C76: registering again -/

/-- **C76, refuted**: once a registration was cancelled, by either side, the reports are `None`; so whatever the VTN answers, the VEN cannot be started
    again: offering the reports raises `TypeError`, and no polling is set up. -/
theorem c76_again_violated (w : World) (c : Client) (hr : c.reporting = none) (hp : c.polling = none) :
    (runClient w c).1.polling = none ∧ ((runClient w c).1.stopped = c.stopped → (runClient w c).1.registrationId.truthy = true → (runClient w c).2 ≠ .ok ()) := by
  have hq : (queryVtn w c).1.polling = none ∧ (queryVtn w c).1.reporting = none ∧ (queryVtn w c).1.stopped = c.stopped := by
    unfold queryVtn
    split
    · exact ⟨hp, hr, rfl⟩
    · split <;> exact ⟨hp, hr, rfl⟩
  unfold runClient
  split
  · rename_i d e hd; rw [hd] at hq
    exact ⟨hq.1, by intro _ _ hx; cases hx⟩
  · rename_i d hd; rw [hd] at hq
    obtain ⟨ve, rg, fr, lg, hf⟩ := createParty_frame w d .none
    split
    · rename_i d2 e hd2; rw [hd2] at hf
      have h' : d2 = _ := hf
      exact ⟨by simp only []; rw [h']; exact hq.1, by intro _ _ hx; cases hx⟩
    · rename_i d2 hd2; rw [hd2] at hf
      have h' : d2 = _ := hf
      have hp2 : d2.polling = none := by rw [h']; exact hq.1
      have hr2 : d2.reporting = none := by rw [h']; exact hq.2.1
      split
      · have : registerReports w d2 = (d2, .error .typeError) := by
          unfold registerReports; rw [hr2]
        rw [this]
        exact ⟨hp2, by intro _ _ hx; cases hx⟩
      · rename_i ht
        exact ⟨rfl, by intro _ h2 _; exact ht h2⟩

/-- Beside it: the VTN accepts the cancellation and the second registration; the second start fails. -/
example :
    let w := worldOf [some (some "oadrCreatedPartyRegistration", okResponse), some (some "oadrCreatedPartyRegistration", registered "v" "r1" 30000000)]
    let c := clientRun (newClient .none) [(w, .run)]
    let d := clientRun c [({ worldOf [] with net := fun _ => some (some "oadrCanceledPartyRegistration", okResponse) }, .cancel)]
    let w2 : World := { worldOf [] with net := fun _ => some (some "oadrCreatedPartyRegistration", registered "v" "r2" 30000000) }
    d.registrationId = .none ∧ (runClient w2 d).1.registrationId = .str "r2" ∧ (runClient w2 d).2 = .error .typeError := by
  decide +kernel

/-- The VEN takes a request for one that can only be refused: its specifier id is a text with the word INVALID in it, and it asks for something. -/
def MarkedInvalid (rr : ReportRequest) : Prop := rr.payloads ≠ [] ∧ ∃ t, rr.specifierId = .str t ∧ isInfix "INVALID".toList t.toList = true

theorem gone_refused (rs : List ReportRequest) (b : Bool) (h : ∀ rr, rr ∈ rs → MarkedInvalid rr) :
    createReportGone rs b = .ok (b || !rs.isEmpty) := by
  induction rs generalizing b with
  | nil => simp [createReportGone]
  | cons rr rs ih =>
    obtain ⟨hp, t, ht, hi⟩ := h rr (List.mem_cons_self ..)
    unfold createReportGone
    cases hq : rr.payloads with
    | nil => exact absurd hq hp
    | cons p0 ps =>
      have hn : namesInvalid rr.specifierId = .ok true := by rw [ht]; exact congrArg Except.ok hi
      rw [hn]
      simp only [Bool.true_or, if_true, List.isEmpty_cons, Bool.not_false, Bool.or_true]
      rw [ih true (fun r hr => h r (List.mem_cons_of_mem _ hr))]
      simp

/-- After its cancellation, a VEN that gets report requests still refuses the ones it cannot take: with the code 452, and with the ids of all
    requests (a single one of them is enough for the code). -/
theorem c76_refused_after (w : World) (c : Client) (hr : c.reporting = none) (rs : List ReportRequest) (hne : rs ≠ []) (h : ∀ rr, rr ∈ rs → MarkedInvalid rr) :
    reportsCreated w c rs = (c, .ok ⟨452, rs.map ReportRequest.requestId⟩) := by
  unfold reportsCreated
  rw [hr]
  simp only [gone_refused rs false h]
  cases rs with
  | nil => exact absurd rfl hne
  | cons r rs => simp

/-- **C76, refuted** for report requests: a VEN that has cancelled its registration raises at the first request for a report that is not marked as
    invalid, and does not answer, whatever it offered before. -/
theorem c76_requests_violated (w : World) (c : Client) (hr : c.reporting = none) (p : Payload) (before after : List ReportRequest) (rr : ReportRequest) (t : String)
    (hb : ∀ x, x ∈ before → MarkedInvalid x) (p0 : SpecPayload) (ps : List SpecPayload) (hp : rr.payloads = p0 :: ps) (ht : rr.specifierId = .str t)
    (hi : isInfix "INVALID".toList t.toList = false) (hp0 : pointNamesInvalid p0.rId = false) :
    ∃ e, clientCreateReport w c p (before ++ rr :: after) = (c, .error e) := by
  have key : ∀ b, ∃ e, createReportGone (before ++ rr :: after) b = .error e := by
    induction before with
    | nil =>
      intro b
      unfold createReportGone
      simp only [List.nil_append, hp]
      have hn : namesInvalid rr.specifierId = .ok false := by rw [ht]; exact congrArg Except.ok hi
      rw [hn]
      simp only [hp0, Bool.or_self, Bool.false_eq_true, if_false]
      cases rr.granularity with
      | none => exact ⟨_, rfl⟩
      | some g => exact ⟨_, rfl⟩
    | cons x xs ih =>
      intro b
      obtain ⟨hxp, u, hu, hui⟩ := hb x (List.mem_cons_self ..)
      unfold createReportGone
      cases hq : x.payloads with
      | nil => exact absurd hq hxp
      | cons y ys =>
        have hn : namesInvalid x.specifierId = .ok true := by rw [hu]; exact congrArg Except.ok hui
        simp only [List.cons_append, hq]
        rw [hn]
        simp only [Bool.true_or, if_true]
        exact ih (fun x hx => hb x (List.mem_cons_of_mem _ hx)) true
  obtain ⟨e, he⟩ := key false
  refine ⟨e, ?_⟩
  unfold clientCreateReport reportsCreated
  rw [hr]
  simp only [he]

/-- Beside them: two requests, both refused; and one that makes the client raise. -/
example (w : World) :
    let c := { newClient (.str "v") with reporting := none }
    let bad (q : String) : ReportRequest := ⟨.str q, .str "INVALID_SPECIFIER", some 0, some (some 0), none, [⟨.str "r", none⟩]⟩
    let good : ReportRequest := ⟨.str "q3", .str "spec", some 0, some (some 0), none, [⟨.str "r", none⟩]⟩
    (reportsCreated w c [bad "q1", bad "q2"]).2 = .ok ⟨452, [.str "q1", .str "q2"]⟩ ∧ (reportsCreated w c [bad "q1", good]).2 = .error .typeError := by
  intro c bad good
  exact ⟨by rw [c76_refused_after w c rfl _ (by simp) (by
    intro rr h
    simp only [List.mem_cons, List.not_mem_nil, or_false] at h
    rcases h with rfl | rfl <;> exact ⟨by simp [bad], "INVALID_SPECIFIER", rfl, by decide +kernel⟩)]; rfl, by
    have h : createReportGone [bad "q1", good] false = .error .typeError := by decide +kernel
    unfold reportsCreated
    rw [show c.reporting = none from rfl]
    simp only [h]⟩

end Openleadr
