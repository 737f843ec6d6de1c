import Verif.Props.ClientState
/-! Property C62: opts. -/
namespace Openleadr

/-! ### specification -/

/-- The VTN acknowledged: the answer could be read and names an opt. -/
def acknowledges (a : Answer) : Bool :=
  readable a && match a with | some (_, p) => (Dict.get? p.fields "opt_id").isSome | none => false

/-- What a client knows about opts, from the messages it exchanged: those it created, without those whose cancellation was acknowledged. -/
def optStep (l : List Dict) : Outgoing × Answer → List Dict
  | (.createOpt _ opt, _) => l ++ [opt]
  | (.cancelOpt _ o, a) => if acknowledges a then l.eraseP (hasOptId o) else l
  | _ => l

/-- What is said of one opt. -/
def RefersToOne (o : Dict) : Prop :=
  (∃ e v, Dict.get? o "event_id" = some e ∧ Dict.get? o "vavailability" = some v ∧ ((e ≠ .none ∧ v = .none) ∨ (e = .none ∧ v ≠ .none)))

/-! ### lemmas -/

theorem removeOpt_eraseP (o : Value) (l : List Dict) : removeOpt o l = l.eraseP (hasOptId o) := by
  induction l with
  | nil => rfl
  | cons x l ih =>
    simp only [removeOpt, List.eraseP_cons, ih]
    cases hasOptId o x <;> simp

/-- Work that has nothing to do with opts. -/
structure NoOpts (c d : Client) : Prop where
  sent : ∃ new, d.log = c.log ++ new ∧ (∀ x ∈ new, x.1.kind ≠ "oadrCreateOpt" ∧ x.1.kind ≠ "oadrCancelOpt") ∧ d.opts = c.opts

theorem NoOpts.refl (c : Client) : NoOpts c c := ⟨[], by simp, by simp, rfl⟩

theorem NoOpts.trans {c d e : Client} (h1 : NoOpts c d) (h2 : NoOpts d e) : NoOpts c e := by
  obtain ⟨n1, a1, b1, c1⟩ := h1.sent
  obtain ⟨n2, a2, b2, c2⟩ := h2.sent
  refine ⟨n1 ++ n2, by rw [a2, a1, List.append_assoc], ?_, by rw [c2, c1]⟩
  intro x hx
  rcases List.mem_append.mp hx with h | h
  · exact b1 x h
  · exact b2 x h

theorem noOpts_of_sends {c d : Client} {k : List String} (h : Sends c d k) (hk : "oadrCreateOpt" ∉ k ∧ "oadrCancelOpt" ∉ k) (ho : d.opts = c.opts) :
    NoOpts c d := by
  obtain ⟨new, h1, h2, _⟩ := h.sent
  refine ⟨new, h1, ?_, ho⟩
  intro x hx
  have hm : x.1.kind ∈ k := h2.subset (List.mem_map_of_mem (f := fun y : Outgoing × Answer => y.1.kind) hx)
  constructor
  · intro he; rw [he] at hm; exact hk.1 hm
  · intro he; rw [he] at hm; exact hk.2 hm

theorem foldl_noOpts (new : List (Outgoing × Answer)) (h : ∀ x ∈ new, x.1.kind ≠ "oadrCreateOpt" ∧ x.1.kind ≠ "oadrCancelOpt") (l : List Dict) :
    new.foldl optStep l = l := by
  induction new generalizing l with
  | nil => rfl
  | cons x new ih =>
    have hx := h x (by simp)
    have : optStep l x = l := by
      obtain ⟨m, a⟩ := x
      cases m <;> simp_all [Outgoing.kind, optStep]
    rw [List.foldl_cons, this]
    exact ih (fun y hy => h y (by simp [hy])) l

theorem maySend_noOpts (t : String) : "oadrCreateOpt" ∉ maySend t ∧ "oadrCancelOpt" ∉ maySend t := by
  unfold maySend
  split <;> decide

theorem actOnPoll_opts (w : World) (c : Client) (t : String) (p : Payload) : (actOnPoll w c t p).1.opts = c.opts := by
  unfold actOnPoll
  split
  · rfl
  split
  · have hw : (send w c (.response c.venId)).1.opts = c.opts := by rw [send_fst]; rfl
    split
    · rename_i d e hd; rw [hd] at hw; exact hw
    · rename_i d hd; rw [hd] at hw
      rw [reregister_opts]; exact hw
  split
  · obtain ⟨ev, ca, lg, hf⟩ := clientEvents_frame w c p
    rw [hf]
  split
  · rfl
  split
  · obtain ⟨re, sa, lg, hf⟩ := clientRequests_frame w c p
    rw [hf]
  split
  · split
    · rfl
    · rw [request_fst]; rfl
  split
  · obtain ⟨rg, re, po, lg, hf⟩ := onCancel_frame w c p.fields
    rw [hf]
  split
  · split
    · rename_i m _
      obtain ⟨re, sa, lg, hf⟩ := clientCancelReport_frame w c m
      rw [hf]
    · rfl
  · rfl

theorem clientPoll_noOpts (w : World) (c : Client) : NoOpts c (clientPoll w c).1 := by
  have h : Sends c (perform w c (.poll c.venId)).1 ["oadrPoll"] := perform_sends w c _ (by intro i a; rfl)
  have h' : NoOpts c (perform w c (.poll c.venId)).1 := noOpts_of_sends h (by decide) rfl
  unfold clientPoll
  split
  · exact h'
  · exact h'
  · exact h'.trans (noOpts_of_sends (actOnPoll_sends w _ _ _) (maySend_noOpts _) (actOnPoll_opts w _ _ _))

theorem runClient_noOpts (w : World) (c : Client) : NoOpts c (runClient w c).1 := by
  have h1 : NoOpts c (queryVtn w c).1 := by
    refine noOpts_of_sends (queryVtn_sends w c) (by decide) ?_
    unfold queryVtn
    split
    · rfl
    · split <;> rfl
  unfold runClient
  split
  · rename_i d e hd; rw [hd] at h1; exact h1
  · rename_i d hd; rw [hd] at h1
    have h2 : NoOpts d (createPartyRegistration w d .none).1 := by
      obtain ⟨ve, rg, fr, lg, hf⟩ := createParty_frame w d .none
      exact noOpts_of_sends (createParty_sends w d .none) (by decide) (by rw [hf])
    split
    · rename_i d2 e hd2; rw [hd2] at h2; exact h1.trans h2
    · rename_i d2 hd2; rw [hd2] at h2
      have h3 := h1.trans h2
      split
      · have h4 : NoOpts d2 (registerReports w d2).1 := by
          obtain ⟨re, sa, lg2, hf2⟩ := registerReports_frame w d2
          exact noOpts_of_sends (registerReports_sends w d2) (by decide) (by rw [hf2])
        split
        · rename_i d3 e hd3; rw [hd3] at h4; exact h3.trans h4
        · rename_i d3 hd3; rw [hd3] at h4
          have h5 : NoOpts d3 (startWorker d3) := by
            obtain ⟨wo, hf⟩ := startWorker_frame d3
            exact noOpts_of_sends (startWorker_sends d3) (by decide) (by rw [hf])
          have h6 : NoOpts (startWorker d3) (syncEvents w (startWorker d3)).1 := by
            obtain ⟨ev, ca, lg3, hf3⟩ := syncEvents_frame w (startWorker d3)
            exact noOpts_of_sends (syncEvents_sends w _) (by decide) (by rw [hf3])
          have h7 := ((h3.trans h4).trans h5).trans h6
          split
          · rename_i d4 e hd4; rw [hd4] at h7; exact h7
          · rename_i d4 hd4; rw [hd4] at h7
            have h8 := h7.trans (clientPoll_noOpts w d4)
            split
            · rename_i d5 e hd5; rw [hd5] at h8; exact h8
            · rename_i d5 hd5; rw [hd5] at h8
              refine NoOpts.trans h8 ?_
              unfold schedulePolling
              split <;> exact ⟨[], by simp, by simp, rfl⟩
      · exact h3.trans ⟨[], by simp [stopClient], by simp, rfl⟩

/-- How one step changes the opts: by what it exchanges. -/
theorem clientStep_opts (w : World) (c : Client) (op : ClientOp) :
    ∃ new, (clientStep w c op).log = c.log ++ new ∧ (clientStep w c op).opts = new.foldl optStep c.opts := by
  have quiet : ∀ d, NoOpts c d → ∃ new, d.log = c.log ++ new ∧ d.opts = new.foldl optStep c.opts := by
    intro d h
    obtain ⟨new, h1, h2, h3⟩ := h.sent
    exact ⟨new, h1, by rw [foldl_noOpts new h2, h3]⟩
  cases op with
  | run => exact quiet _ (runClient_noOpts w c)
  | poll => exact quiet _ (clientPoll_noOpts w c)
  | register r =>
    obtain ⟨ve, rg, fr, lg, hf⟩ := createParty_frame w c r
    exact quiet _ (noOpts_of_sends (createParty_sends w c r) (by decide) (by simp only [clientStep]; rw [hf]))
  | reregister => exact quiet _ (noOpts_of_sends (reregister_sends w c) (by decide) (reregister_opts w c))
  | cancel =>
    refine quiet _ (noOpts_of_sends (cancelParty_sends w c) (by decide) ?_)
    simp only [clientStep]
    unfold cancelPartyRegistration
    split
    · rfl
    · simp only [perform]
      repeat' split
      all_goals rfl
  | sync =>
    obtain ⟨ev, ca, lg, hf⟩ := syncEvents_frame w c
    exact quiet _ (noOpts_of_sends (syncEvents_sends w c) (by decide) (by simp only [clientStep]; rw [hf]))
  | registerReports =>
    obtain ⟨re, sa, lg, hf⟩ := registerReports_frame w c
    exact quiet _ (noOpts_of_sends (registerReports_sends w c) (by decide) (by simp only [clientStep]; rw [hf]))
  | stop => exact ⟨[], by simp [clientStep, stopClient], rfl⟩
  | createOpt f a =>
    simp only [clientStep]
    unfold createOpt
    split
    · exact ⟨[], by simp, rfl⟩
    · rename_i opt _
      refine ⟨[(.createOpt c.venId opt, w.net c.log.length)], ?_, ?_⟩
      · simp only [perform]
        split
        · rfl
        · split <;> rfl
      · simp only [perform]
        split
        · rfl
        · split <;> rfl
  | cancelOpt o =>
    simp only [clientStep]
    unfold cancelOpt
    split
    · refine ⟨[(.cancelOpt c.venId o, w.net c.log.length)], ?_, ?_⟩
      · simp only [perform]
        split
        · rfl
        · split <;> rfl
      · simp only [perform, List.foldl_cons, List.foldl_nil, optStep]
        split
        · rename_i e he
          have hr := unpack_error he
          simp [acknowledges, hr]
        · rename_i t p hp
          obtain ⟨h1, h2⟩ := unpack_ok hp
          rw [h1] at h2
          split
          · rename_i v hv
            simp [acknowledges, h1, h2, hv, removeOpt_eraseP]
          · rename_i hv
            simp [acknowledges, h1, h2, hv]
    · exact ⟨[], by simp, rfl⟩
  | inside re ev ca sa => exact ⟨[], by simp [clientStep], rfl⟩

theorem clientRun_opts (c : Client) (steps : List (World × ClientOp)) :
    ∃ new, (clientRun c steps).log = c.log ++ new ∧ (clientRun c steps).opts = new.foldl optStep c.opts := by
  induction steps generalizing c with
  | nil => exact ⟨[], by simp [clientRun], rfl⟩
  | cons x l ih =>
    obtain ⟨n1, a1, b1⟩ := clientStep_opts x.1 c x.2
    obtain ⟨n2, a2, b2⟩ := ih (clientStep x.1 c x.2)
    refine ⟨n1 ++ n2, ?_, ?_⟩
    · show (clientRun (clientStep x.1 c x.2) l).log = _
      rw [a2, a1, List.append_assoc]
    · show (clientRun (clientStep x.1 c x.2) l).opts = _
      rw [b2, b1, List.foldl_append]

/-! ### the properties -/

/-- **C62**: after every history of operations, the opts remembered are those that follow from the messages exchanged. -/
theorem c62_history (v : Value) (steps : List (World × ClientOp)) :
    (clientRun (newClient v) steps).opts = (clientRun (newClient v) steps).log.foldl optStep [] := by
  obtain ⟨new, h1, h2⟩ := clientRun_opts (newClient v) steps
  rw [h2, h1]
  rfl

theorem mem_eraseP_other {o : Value} {opt : Dict} {l : List Dict} (h : opt ∈ l) (hne : hasOptId o opt = false) : opt ∈ l.eraseP (hasOptId o) :=
  (List.mem_eraseP_of_neg (by simp [hne])).mpr h

/-- **C62**: an opt that was sent is remembered as long as no cancellation of its id is acknowledged, whatever else happens. -/
theorem c62_remembered (v : Value) (steps : List (World × ClientOp)) (l1 l2 : List (Outgoing × Answer)) (ven : Value) (opt : Dict) (a : Answer)
    (hlog : (clientRun (newClient v) steps).log = l1 ++ (.createOpt ven opt, a) :: l2)
    (hkeep : ∀ ven' o a', (Outgoing.cancelOpt ven' o, a') ∈ l2 → acknowledges a' = true → Dict.get? opt "opt_id" ≠ some o) :
    opt ∈ (clientRun (newClient v) steps).opts := by
  rw [c62_history, hlog, List.foldl_append, List.foldl_cons]
  have : opt ∈ optStep (l1.foldl optStep []) (.createOpt ven opt, a) := by simp [optStep]
  generalize optStep (l1.foldl optStep []) (.createOpt ven opt, a) = l at this
  clear hlog
  induction l2 generalizing l with
  | nil => exact this
  | cons x l2 ih =>
    refine ih (fun ven' o a' hm => hkeep ven' o a' (by simp [hm])) _ ?_
    obtain ⟨m, b⟩ := x
    cases m with
    | createOpt ven' opt' => simp [optStep, this]
    | cancelOpt ven' o =>
      simp only [optStep]
      split
      · rename_i hack
        refine mem_eraseP_other this ?_
        have := hkeep ven' o b (by simp) hack
        simp [hasOptId, this]
      · exact this
    | _ => exact this

/-- **C62**: an acknowledged cancellation forgets the opt (if no second one was created under the same id). -/
theorem c62_forgotten (w : World) (c : Client) (o : Value) (hin : c.opts.any (hasOptId o) = true) (huniq : (c.opts.filter (hasOptId o)).length ≤ 1)
    (hack : acknowledges (w.net c.log.length) = true) :
    (cancelOpt w c o).2 = .ok true ∧ (cancelOpt w c o).1.opts.any (hasOptId o) = false ∧
      (cancelOpt w c o).1.opts = c.opts.filter (fun x => !hasOptId o x) := by
  have herase : ∀ l : List Dict, (l.filter (hasOptId o)).length ≤ 1 → l.eraseP (hasOptId o) = l.filter (fun x => !hasOptId o x) := by
    intro l
    induction l with
    | nil => intro _; rfl
    | cons x l ih =>
      intro h
      cases hx : hasOptId o x with
      | true =>
        simp only [List.filter_cons, hx, if_true, List.length_cons] at h
        have h0 : l.filter (hasOptId o) = [] := List.eq_nil_of_length_eq_zero (by omega)
        simp only [List.eraseP_cons, hx, cond_true, List.filter_cons, Bool.not_true]
        simp only [Bool.false_eq_true, if_false]
        rw [List.filter_eq_nil_iff] at h0
        symm
        rw [List.filter_eq_self]
        intro y hy
        have := h0 y hy
        simpa using this
      | false =>
        simp only [List.filter_cons, hx, Bool.false_eq_true, if_false] at h
        simp only [List.eraseP_cons, hx, cond_false, List.filter_cons, Bool.not_false, if_true, ih h]
  have hopts : (cancelOpt w c o).2 = .ok true ∧ (cancelOpt w c o).1.opts = c.opts.eraseP (hasOptId o) := by
    unfold acknowledges at hack
    simp only [Bool.and_eq_true] at hack
    obtain ⟨hr, hid⟩ := hack
    rcases unpack_check (w.net c.log.length) with ⟨x, hx, _, hu⟩ | ⟨hf, _⟩
    · obtain ⟨t, p⟩ := x
      rw [hx] at hid
      simp only [] at hid
      obtain ⟨y, hy⟩ := Option.isSome_iff_exists.mp hid
      unfold cancelOpt
      simp only [hin, if_true, perform, hu, hy, removeOpt_eraseP]
      exact ⟨trivial, trivial⟩
    · rw [hr] at hf; cases hf
  refine ⟨hopts.1, ?_, by rw [hopts.2, herase _ huniq]⟩
  rw [hopts.2, herase _ huniq, List.any_eq_false]
  intro x hx
  simpa using (List.mem_filter.mp hx).2

/-- **C62**: a cancellation that is not acknowledged, or names no opt that was created, forgets nothing. -/
theorem c62_kept (w : World) (c : Client) (o : Value) (h : c.opts.any (hasOptId o) = false ∨ acknowledges (w.net c.log.length) = false) :
    (cancelOpt w c o).1.opts = c.opts := by
  unfold cancelOpt
  split
  · rename_i hin
    rcases h with h | h
    · rw [h] at hin; cases hin
    · simp only [perform]
      split
      · rfl
      · rename_i t p hp
        obtain ⟨h1, h2⟩ := unpack_ok hp
        rw [h1] at h2
        split
        · rename_i v hv
          simp [acknowledges, h1, h2, hv] at h
        · rfl
  · rfl

theorem makeOpt_refers (fresh : Value) (a : OptArgs) (o : Dict) (h : makeOpt fresh a = .ok o) : RefersToOne o := by
  unfold makeOpt at h
  split at h
  · cases h
  split at h
  · cases h
  split at h
  · cases h
  split at h
  · cases h
  rename_i h1
  split at h
  · cases h
  rename_i h2
  split at h
  · cases h
  cases h
  refine ⟨a.eventId, a.vavailability, by simp [Dict.get?], by simp [Dict.get?], ?_⟩
  by_cases he : a.eventId = .none
  · right
    exact ⟨he, fun hv => h1 ⟨he, hv⟩⟩
  · left
    refine ⟨he, ?_⟩
    by_cases hv : a.vavailability = .none
    · exact hv
    · exact absurd ⟨he, hv⟩ h2

/-- **C62**: every opt that is remembered after any history refers to exactly one of an event and an availability schedule. -/
theorem c62_exactly_one (v : Value) (steps : List (World × ClientOp)) : ∀ o ∈ (clientRun (newClient v) steps).opts, RefersToOne o := by
  have step : ∀ w c op, (∀ o ∈ c.opts, RefersToOne o) → ∀ o ∈ (clientStep w c op).opts, RefersToOne o := by
    intro w c op hc
    by_cases hop : ∃ f a, op = .createOpt f a
    · obtain ⟨f, a, rfl⟩ := hop
      simp only [clientStep]
      unfold createOpt
      split
      · exact hc
      · rename_i opt hopt
        have : ∀ o ∈ c.opts ++ [opt], RefersToOne o := by
          intro o ho
          rcases List.mem_append.mp ho with h | h
          · exact hc o h
          · rw [List.mem_singleton.mp h]; exact makeOpt_refers f a opt hopt
        simp only [perform]
        split
        · exact this
        · split <;> exact this
    · have sub : ∀ o ∈ (clientStep w c op).opts, o ∈ c.opts := by
        cases op with
        | createOpt f a => exact absurd ⟨f, a, rfl⟩ hop
        | cancelOpt q =>
          intro o ho
          simp only [clientStep] at ho
          unfold cancelOpt at ho
          split at ho
          · simp only [perform] at ho
            split at ho
            · exact ho
            · split at ho
              · simp only [removeOpt_eraseP] at ho
                exact List.mem_of_mem_eraseP ho
              · exact ho
          · exact ho
        | run => obtain ⟨_, _, _, h⟩ := (runClient_noOpts w c).sent; simp only [clientStep, h]; exact fun _ h => h
        | poll => obtain ⟨_, _, _, h⟩ := (clientPoll_noOpts w c).sent; simp only [clientStep, h]; exact fun _ h => h
        | register r =>
          obtain ⟨ve, rg, fr, lg, hf⟩ := createParty_frame w c r
          simp only [clientStep]; rw [hf]; exact fun _ h => h
        | reregister => simp only [clientStep, reregister_opts]; exact fun _ h => h
        | cancel =>
          have : (cancelPartyRegistration w c).1.opts = c.opts := by
            unfold cancelPartyRegistration
            split
            · rfl
            · simp only [perform]
              repeat' split
              all_goals rfl
          simp only [clientStep, this]; exact fun _ h => h
        | sync =>
          obtain ⟨ev, ca, lg, hf⟩ := syncEvents_frame w c
          simp only [clientStep]; rw [hf]; exact fun _ h => h
        | registerReports =>
          obtain ⟨re, sa, lg, hf⟩ := registerReports_frame w c
          simp only [clientStep]; rw [hf]; exact fun _ h => h
        | stop => exact fun _ h => h
        | inside re ev ca sa => exact fun _ h => h
      exact fun o ho => hc o (sub o ho)
  have : ∀ c, (∀ o ∈ c.opts, RefersToOne o) → ∀ o ∈ (clientRun c steps).opts, RefersToOne o := by
    induction steps with
    | nil => intro c hc; exact hc
    | cons x l ih => intro c hc; exact ih _ (step x.1 c x.2 hc)
  exact this (newClient v) (by simp [newClient])

/-- **C62**: arguments that do not make an opt raise an exception; nothing is sent and nothing is remembered. -/
theorem c62_invalid (w : World) (fresh : Value) (c : Client) (a : OptArgs)
    (h : a.optType ∉ optTypes ∨ a.optReason ∉ optReasons ∨ (a.eventId = .none ∧ a.vavailability = .none) ∨ (a.eventId ≠ .none ∧ a.vavailability ≠ .none)) :
    ∃ e, createOpt w fresh c a = (c, .error e) := by
  have : ∃ e, makeOpt fresh a = .error e := by
    unfold makeOpt
    split
    · exact ⟨_, rfl⟩
    rename_i h1
    split
    · exact ⟨_, rfl⟩
    rename_i h2
    split
    · exact ⟨_, rfl⟩
    split
    · exact ⟨_, rfl⟩
    rename_i h3
    split
    · exact ⟨_, rfl⟩
    rename_i h4
    rcases h with h | h | h | h
    · exact absurd (by simpa using h) h1
    · exact absurd (by simpa using h) h2
    · exact absurd h h3
    · exact absurd h h4
  obtain ⟨e, he⟩ := this
  exact ⟨e, by simp only [createOpt, he]⟩

/-- **C62, refuted** for refusals: the opt is stored before it is sent, and stays, whatever the VTN answers (also when the answer raises an exception). -/
theorem c62_refused_violated (w : World) (fresh : Value) (c : Client) (a : OptArgs) (opt : Dict) (h : makeOpt fresh a = .ok opt)
    (href : acknowledges (w.net c.log.length) = false) :
    (createOpt w fresh c a).1.opts = c.opts ++ [opt] ∧ ((createOpt w fresh c a).2 = .ok (.bool false) ∨ ∃ e, (createOpt w fresh c a).2 = .error e) := by
  unfold createOpt
  simp only [h, perform]
  split
  · exact ⟨rfl, .inr ⟨_, rfl⟩⟩
  · rename_i t p hp
    obtain ⟨h1, h2⟩ := unpack_ok hp
    rw [h1] at h2
    split
    · rename_i v hv
      simp [acknowledges, h1, h2, hv] at href
    · exact ⟨rfl, .inl rfl⟩

/-- **C62, refuted** for opt ids that are used twice: the cancellation of the second opt forgets the first. -/
theorem c62_same_id_violated :
    ∃ (c : Client) (o1 o2 : Dict) (w : World), o1 ≠ o2 ∧ Dict.get? o1 "opt_id" = some (.str "o") ∧ Dict.get? o2 "opt_id" = some (.str "o") ∧ c.opts = [o1, o2] ∧
      (cancelOpt w c (.str "o")).2 = .ok true ∧ (cancelOpt w c (.str "o")).1.opts = [o2] := by
  refine ⟨{ newClient .none with opts := [[("opt_id", .str "o"), ("event_id", .str "e1")], [("opt_id", .str "o"), ("event_id", .str "e2")]] },
    [("opt_id", .str "o"), ("event_id", .str "e1")], [("opt_id", .str "o"), ("event_id", .str "e2")],
    worldOf [some (some "oadrCanceledOpt", ⟨[("opt_id", .str "o")], none, none, none⟩)], ?_⟩
  decide +kernel

/-- Beside it: two opts are sent, the first is cancelled. -/
example :
    let args (e : String) (o : String) : OptArgs := ⟨"optIn", "economic", .str e, .none, .none, .str o, true, .ok (.dict [])⟩
    let ack (o : String) : World := { worldOf [] with net := fun _ => some (some "oadrCreatedOpt", ⟨[("opt_id", .str o)], none, none, none⟩) }
    let c := clientRun (newClient (.str "v")) [(ack "o1", .createOpt .none (args "e1" "o1")), (ack "o2", .createOpt .none (args "e2" "o2")), (ack "o1", .cancelOpt (.str "o1"))]
    c.opts.map (fun o => Dict.get? o "opt_id") = [some (.str "o2")] ∧ c.log.length = 3 := by
  decide +kernel

end Openleadr
