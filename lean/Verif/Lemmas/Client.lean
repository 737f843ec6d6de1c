import Verif.Spec.Client
/-! Lemmas about the client: what each procedure sends, and how it changes the identity. -/
namespace Openleadr

def identityOf (c : Client) : Identity := ⟨c.venId, c.registrationId, c.pollFrequency⟩

theorem unpack_check (a : Answer) :
    (∃ x, a = some x ∧ readable a = true ∧ unpack (checkAnswer a) = .ok x) ∨ (readable a = false ∧ ∃ e, unpack (checkAnswer a) = .error e) := by
  cases a with
  | none => exact Or.inr ⟨rfl, .typeError, rfl⟩
  | some x =>
    obtain ⟨t, p⟩ := x
    cases h : Dict.get? p.fields "response" with
    | none => exact Or.inl ⟨_, rfl, by simp [readable, h], by simp [checkAnswer, h, unpack]⟩
    | some v =>
      cases v with
      | dict r =>
        cases h2 : Dict.get? r "response_code" with
        | none => exact Or.inl ⟨_, rfl, by simp [readable, h, h2], by simp [checkAnswer, h, h2, unpack]⟩
        | some code =>
          by_cases h3 : code ≠ .int 200 ∧ Dict.has r "response_description" = false
          · refine Or.inr ⟨by simp [readable, h, h2, h3.1, h3.2], .keyError, by simp [checkAnswer, h, h2, h3.1, h3.2, unpack]⟩
          · refine Or.inl ⟨_, rfl, ?_, by simp only [checkAnswer, h, h2, h3, if_false, unpack]⟩
            by_cases h4 : code = .int 200
            · simp [readable, h, h2, h4]
            · have h5 : Dict.has r "response_description" = true := by
                cases h6 : Dict.has r "response_description"
                · exact absurd ⟨h4, h6⟩ h3
                · rfl
              simp [readable, h, h5]
      | _ => exact Or.inr ⟨by simp [readable, h], .typeError, by simp [checkAnswer, h, unpack]⟩

theorem unpack_ok {a : Answer} {x} (h : unpack (checkAnswer a) = .ok x) : a = some x ∧ readable a = true := by
  rcases unpack_check a with ⟨y, rfl, hr, hy⟩ | ⟨_, e, he⟩
  · rw [hy] at h; cases h; exact ⟨rfl, hr⟩
  · rw [he] at h; cases h

theorem unpack_error {a : Answer} {e} (h : unpack (checkAnswer a) = .error e) : readable a = false := by
  rcases unpack_check a with ⟨y, rfl, hr, hy⟩ | ⟨hr, _⟩
  · rw [hy] at h; cases h
  · exact hr

theorem codeOf_ok {p : Payload} {v} : responseCodeOf p.fields = .ok v ↔ codeOf p = some v := by
  unfold responseCodeOf codeOf
  cases Dict.get? p.fields "response" with
  | none => simp
  | some r =>
    cases r with
    | dict r => cases h : Dict.get? r "response_code" <;> simp [h]
    | _ => simp

theorem readable_of_200 {t : Option String} {p : Payload} (h : codeOf p = some (.int 200)) : readable (some (t, p)) = true := by
  unfold codeOf at h
  unfold readable
  cases h1 : Dict.get? p.fields "response" with
  | none => rw [h1] at h; cases h
  | some r => cases r <;> simp_all

/-- What a part of the client's work does, seen from outside: it sends some messages of the given kinds in that order, and the identity follows from them. -/
structure Sends (c d : Client) (kinds : List String) : Prop where
  sent : ∃ new, d.log = c.log ++ new ∧ (new.map (fun x => x.1.kind)).Sublist kinds ∧ identityOf d = new.foldl identityStep (identityOf c)

theorem Sends.rfl' (c : Client) : Sends c c [] := ⟨[], by simp, by simp, rfl⟩

theorem Sends.trans {c d e : Client} {k1 k2 : List String} (h1 : Sends c d k1) (h2 : Sends d e k2) : Sends c e (k1 ++ k2) := by
  obtain ⟨n1, a1, b1, e1⟩ := h1.sent
  obtain ⟨n2, a2, b2, e2⟩ := h2.sent
  exact ⟨n1 ++ n2, by rw [a2, a1, List.append_assoc], by rw [List.map_append]; exact b1.append b2, by rw [e2, e1, List.foldl_append]⟩

theorem Sends.weaken {c d : Client} {k1 k2 : List String} (h : Sends c d k1) (hs : k1.Sublist k2) : Sends c d k2 := by
  obtain ⟨n, a, b, e⟩ := h.sent
  exact ⟨n, a, b.trans hs, e⟩

/-- Nothing is sent and the identity stays. -/
theorem Sends.quiet {c d : Client} (h : d.log = c.log) (h2 : identityOf d = identityOf c) : Sends c d [] := ⟨[], by simp [h], by simp, by simpa using h2⟩

theorem Sends.one {c d : Client} {m : Outgoing} {a : Answer} (h : d.log = c.log ++ [(m, a)])
    (h2 : identityOf d = identityStep (identityOf c) (m, a)) : Sends c d [m.kind] :=
  ⟨[(m, a)], h, by simp, by simpa using h2⟩

theorem perform_sends (w : World) (c : Client) (m : Outgoing) (h : ∀ i a, identityStep i (m, a) = i) : Sends c (perform w c m).1 [m.kind] :=
  Sends.one (a := w.net c.log.length) rfl (by rw [h]; rfl)

theorem send_fst (w : World) (c : Client) (m : Outgoing) : (send w c m).1 = (perform w c m).1 := by
  unfold send
  split <;> rename_i h <;> rw [h]

theorem request_fst (w : World) (c : Client) (m : Outgoing) : (request w c m).1 = (perform w c m).1 := by
  unfold request
  split <;> rfl

theorem fieldOf_truthy (p : Payload) (k : String) (x : Value) :
    (fieldOf p k).getD x = if ((Dict.get? p.fields k).getD .none).truthy then (Dict.get? p.fields k).getD .none else x := by
  unfold fieldOf
  cases h : Dict.get? p.fields k with
  | none => simp [Value.truthy]
  | some v => cases h2 : v.truthy <;> simp [Option.filter, h2]

theorem fieldOf_some (p : Payload) (k : String) : (fieldOf p k).isSome = ((Dict.get? p.fields k).getD .none).truthy := by
  unfold fieldOf
  cases h : Dict.get? p.fields k with
  | none => simp [Value.truthy]
  | some v => cases h2 : v.truthy <;> simp [Option.filter, h2]

theorem registrationAnswer_ids (c : Client) (p : Payload) :
    (registrationAnswer c p.fields).venId = (fieldOf p "ven_id").getD c.venId ∧
    (registrationAnswer c p.fields).registrationId = (fieldOf p "registration_id").getD .none ∧
    (registrationAnswer c p.fields).pollFrequency = if (fieldOf p "registration_id").isSome then
      (Dict.get? p.fields "requested_oadr_poll_freq").getD (.timedelta 10000000) else c.pollFrequency := by
  rw [fieldOf_truthy, fieldOf_truthy, fieldOf_some]
  unfold registrationAnswer
  generalize (Dict.get? p.fields "ven_id").getD .none = v
  generalize (Dict.get? p.fields "registration_id").getD .none = r
  have hn : Value.none.truthy = false := rfl
  cases hv : v.truthy <;> cases hr : r.truthy <;> simp [hr, hn]

theorem createParty_sends (w : World) (c : Client) (r : Value) : Sends c (createPartyRegistration w c r).1 ["oadrCreatePartyRegistration"] := by
  refine Sends.one (m := .register c.venId r) (a := w.net c.log.length) ?_ ?_
  · unfold createPartyRegistration
    split
    · rfl
    · rfl
    · split
      · rfl
      · split
        · rfl
        · unfold registrationAnswer
          simp only []
          split <;> split <;> rfl
  · unfold createPartyRegistration
    split
    · rename_i e he
      have hr := unpack_error he
      cases ha : w.net c.log.length with
      | none => rfl
      | some x =>
        obtain ⟨t, p⟩ := x
        rw [ha] at hr
        cases t with
        | none => rfl
        | some t =>
          have : codeOf p ≠ some (.int 200) := fun hc => by rw [readable_of_200 hc] at hr; cases hr
          simp only [identityStep, this, if_false]
          rfl
    · rename_i p hp
      rw [(unpack_ok hp).1]; rfl
    · rename_i t p hp
      rw [(unpack_ok hp).1]
      split
      · rename_i e he
        have : codeOf p ≠ some (.int 200) := fun hc => by rw [codeOf_ok.mpr hc] at he; cases he
        simp only [identityStep, this, if_false]; rfl
      · rename_i code hcode
        rw [codeOf_ok] at hcode
        split
        · rename_i hne
          have : codeOf p ≠ some (.int 200) := fun hc => by rw [hcode] at hc; exact hne (by simpa using hc)
          simp only [identityStep, this, if_false]; rfl
        · rename_i heq
          have : codeOf p = some (.int 200) := by rw [hcode]; simpa using heq
          have ids := registrationAnswer_ids (perform w c (.register c.venId r)).1 p
          simp only [identityStep, this, if_true, identityOf, ids.1, ids.2.1, ids.2.2]
          rfl

theorem cancelParty_sends (w : World) (c : Client) : Sends c (cancelPartyRegistration w c).1 ["oadrCancelPartyRegistration"] := by
  unfold cancelPartyRegistration
  split
  · exact (Sends.rfl' c).weaken (by simp)
  · refine Sends.one (m := .cancelRegistration c.venId c.registrationId) (a := w.net c.log.length) ?_ ?_
    · simp only [perform]
      repeat' split
      all_goals rfl
    · simp only [perform]
      split
      · rename_i e he
        have hr := unpack_error he
        cases ha : w.net c.log.length with
        | none => rfl
        | some x =>
          obtain ⟨t, p⟩ := x
          rw [ha] at hr
          have : codeOf p ≠ some (.int 200) := fun hc => by rw [readable_of_200 hc] at hr; cases hr
          simp only [identityStep, this, and_false, if_false]; rfl
      · rename_i t p hp
        rw [(unpack_ok hp).1]
        split
        · rename_i ht
          split
          · rename_i e he
            have : codeOf p ≠ some (.int 200) := fun hc => by rw [codeOf_ok.mpr hc] at he; cases he
            simp only [identityStep, this, and_false, if_false]; rfl
          · rename_i code hcode
            rw [codeOf_ok] at hcode
            split
            · rename_i h200
              simp only [identityStep, ht, hcode, h200, and_self, if_true]; rfl
            · rename_i h200
              simp only [identityStep, hcode, Option.some.injEq, h200, and_false, if_false]; rfl
        · rename_i ht
          simp only [identityStep, ht, false_and, if_false]; rfl

theorem onCancel_sends (w : World) (c : Client) (m : Dict) : Sends c (onCancelPartyRegistration w c m).1 ["oadrCanceledPartyRegistration"] := by
  have quiet : Sends c c ["oadrCanceledPartyRegistration"] := (Sends.rfl' c).weaken (by simp)
  unfold onCancelPartyRegistration
  split
  · exact quiet
  · split
    · exact quiet
    · split
      · exact quiet
      · rename_i q _
        split
        · rw [request_fst]
          exact Sends.one (m := .canceledRegistration 452 q c.venId c.registrationId) (a := w.net c.log.length) rfl (by simp [identityStep]; rfl)
        · refine Sends.one (m := .canceledRegistration 200 q c.venId c.registrationId) (a := w.net c.log.length) ?_ ?_
          · unfold request
            split
            · rename_i h; split at h <;> cases h; rfl
            · rename_i h; split at h <;> cases h; rfl
          · unfold request
            split
            · rename_i h; split at h
              · rename_i e he
                cases h
                have hr : readable (w.net c.log.length) = false := unpack_error he
                simp only [identityStep, hr, Bool.false_eq_true, and_false, if_false]; rfl
              · cases h
            · rename_i h; split at h
              · cases h
              · rename_i x hx
                cases h
                have hr : readable (w.net c.log.length) = true := (unpack_ok hx).2
                simp only [identityStep, hr, and_self, if_true]; rfl

theorem onEvent_sends (w : World) (c : Client) (m : EventMessage) : Sends c (clientOnEvent w c m).1 ["oadrCreatedEvent"] := by
  unfold clientOnEvent
  split
  · refine Sends.weaken (k1 := []) (Sends.quiet ?_ ?_) (by simp) <;> rfl
  · rename_i reply _
    rw [send_fst]
    refine Sends.one (m := .createdEvent c.venId reply) (a := w.net c.log.length) ?_ ?_ <;> rfl

theorem events_sends (w : World) (c : Client) (p : Payload) : Sends c (clientEvents w c p).1 ["oadrCreatedEvent"] := by
  unfold clientEvents
  split
  · split
    · exact (Sends.rfl' c).weaken (by simp)
    · exact onEvent_sends w c _
  · exact (Sends.rfl' c).weaken (by simp)

theorem reportsCreated_log (w : World) (c : Client) (rs : List ReportRequest) :
    (reportsCreated w c rs).1.log = c.log ∧ identityOf (reportsCreated w c rs).1 = identityOf c := by
  unfold reportsCreated
  split
  · exact ⟨rfl, rfl⟩
  · split <;> exact ⟨rfl, rfl⟩

theorem createReport_sends (w : World) (c : Client) (p : Payload) (rs : List ReportRequest) :
    Sends c (clientCreateReport w c p rs).1 ["oadrCreatedReport"] := by
  have h := reportsCreated_log w c rs
  unfold clientCreateReport
  split
  · rename_i d e hd; rw [hd] at h
    exact (Sends.quiet h.1 h.2).weaken (by simp)
  · rename_i d m hd; rw [hd] at h
    split
    · exact (Sends.quiet h.1 h.2).weaken (by simp)
    · rw [send_fst]
      exact (Sends.quiet h.1 h.2).trans (perform_sends w _ _ (by intro i a; rfl))

theorem requests_sends (w : World) (c : Client) (p : Payload) : Sends c (clientRequests w c p).1 ["oadrCreatedReport"] := by
  unfold clientRequests
  split
  · exact createReport_sends w c p _
  · exact (Sends.rfl' c).weaken (by simp)

theorem cancelReport_sends (w : World) (c : Client) (m : CancelReport) : Sends c (clientCancelReport w c m).1 ["oadrCanceledReport"] := by
  unfold clientCancelReport
  split
  · exact (Sends.rfl' c).weaken (by simp)
  · split
    · refine Sends.weaken (k1 := []) (Sends.quiet ?_ ?_) (by simp) <;> rfl
    · refine Sends.weaken (k1 := []) (Sends.quiet ?_ ?_) (by simp) <;> rfl
    · rename_i reply _
      rw [send_fst]
      refine Sends.one (m := .canceledReport c.venId reply) (a := w.net c.log.length) ?_ ?_ <;> rfl

theorem syncEvents_sends (w : World) (c : Client) : Sends c (syncEvents w c).1 ["oadrRequestEvent", "oadrCreatedEvent"] := by
  have h : Sends c (perform w c (.requestEvent c.venId)).1 ["oadrRequestEvent"] := perform_sends w c _ (by intro i a; rfl)
  unfold syncEvents
  split
  · exact h.weaken (by simp)
  · exact h.trans (events_sends w _ _)

theorem registerReports_sends (w : World) (c : Client) : Sends c (registerReports w c).1 ["oadrRegisterReport", "oadrCreatedReport"] := by
  unfold registerReports
  split
  · exact (Sends.rfl' c).weaken (by simp)
  · rename_i s _
    have h : Sends c (perform w c (.registerReports c.venId s.reports)).1 ["oadrRegisterReport"] := perform_sends w c _ (by intro i a; rfl)
    split
    · exact h.weaken (by simp)
    · exact h.trans (requests_sends w _ _)

theorem startWorker_sends (c : Client) : Sends c (startWorker c) [] := by
  unfold startWorker
  split
  · split
    · exact Sends.rfl' c
    · exact Sends.quiet rfl rfl
  · exact Sends.rfl' c

theorem reregister_sends (w : World) (c : Client) : Sends c (createPartyReregistration w c).1
    ["oadrCreatePartyRegistration", "oadrRegisterReport", "oadrCreatedReport", "oadrRequestEvent", "oadrCreatedEvent"] := by
  have h := createParty_sends w c c.registrationId
  unfold createPartyReregistration
  split
  · rename_i d e hd; rw [hd] at h
    exact h.weaken (by simp)
  · rename_i d hd; rw [hd] at h
    split
    · have h2 := h.trans (registerReports_sends w d)
      split
      · rename_i e1 e2 he; rw [he] at h2
        exact h2.weaken (by simp)
      · rename_i e1 he; rw [he] at h2
        exact (h2.trans (startWorker_sends e1)).trans (syncEvents_sends w _)
    · exact (h.trans (Sends.quiet (d := stopClient d) rfl rfl)).weaken (by simp)

theorem actOnPoll_sends (w : World) (c : Client) (t : String) (p : Payload) : Sends c (actOnPoll w c t p).1 (maySend t) := by
  have quiet : ∀ k, Sends c c k := fun k => (Sends.rfl' c).weaken (by simp)
  unfold actOnPoll
  split
  · exact quiet _
  split
  · rename_i ht; subst ht
    have h : Sends c (send w c (.response c.venId)).1 ["oadrResponse"] := by
      rw [send_fst]; exact perform_sends w c _ (by intro i a; rfl)
    split
    · rename_i d e hd; rw [hd] at h
      exact h.weaken (by simp [maySend])
    · rename_i d hd; rw [hd] at h
      exact h.trans (reregister_sends w d)
  split
  · rename_i ht; subst ht; exact events_sends w c p
  split
  · exact quiet _
  split
  · rename_i ht; subst ht; exact requests_sends w c p
  split
  · rename_i ht; subst ht
    split
    · exact quiet _
    · rw [request_fst]; exact perform_sends w c _ (by intro i a; rfl)
  split
  · rename_i ht; subst ht; exact onCancel_sends w c _
  split
  · rename_i ht; subst ht
    split
    · exact cancelReport_sends w c _
    · exact quiet _
  · exact quiet _

theorem clientPoll_sends (w : World) (c : Client) : ∃ t, Sends c (clientPoll w c).1 ("oadrPoll" :: maySend t) := by
  have h : Sends c (perform w c (.poll c.venId)).1 ["oadrPoll"] := perform_sends w c _ (by intro i a; rfl)
  unfold clientPoll
  split
  · exact ⟨"oadrResponse", h.weaken (by simp [maySend])⟩
  · exact ⟨"oadrResponse", h.weaken (by simp [maySend])⟩
  · rename_i t p _
    exact ⟨t, h.trans (actOnPoll_sends w _ t p)⟩

theorem queryVtn_sends (w : World) (c : Client) : Sends c (queryVtn w c).1 ["oadrQueryRegistration"] := by
  refine Sends.one (m := .query) (a := w.net c.log.length) ?_ ?_
  · unfold queryVtn
    split
    · rfl
    · split <;> rfl
  · unfold queryVtn
    split
    · rename_i e he
      have hr : readable (w.net c.log.length) = false := unpack_error he
      cases ha : w.net c.log.length with
      | none => rfl
      | some x => rw [ha] at hr; simp only [identityStep, hr]; rfl
    · rename_i t p hp
      have hr := unpack_ok hp
      obtain ⟨h1, h2⟩ := hr
      rw [h1] at h2
      rw [h1]
      split
      · rename_i r h; simp only [identityStep, h2, if_true, h]; rfl
      · rename_i h; simp only [identityStep, h2, if_true, h]; rfl

end Openleadr
