import Verif.Props.ErrorReplies
/-! Property C92: a VEN that the VTN has forgotten is registered again. -/
namespace Openleadr

variable {P : Type}

/-- The texts of a registration are ordinary, and the schema accepts the messages of both sides. -/
structure Reachable (k : Link) (c : Config) (freq : Int) (name requestId : String) : Prop where
  sound : k.lib.Sound
  vtnId : Ordinary k.lib c.vtnId
  freq : Spans freq
  name : Ordinary k.lib name
  requestId : Ordinary k.lib requestId
  profileName : Ordinary k.lib "2.0b"
  transportName : Ordinary k.lib "simpleHttp"
  server : ∀ type p txt, createMessage k.lib k.clientNow type p = .ok txt → ∃ tree, c.validate (String.ofList txt) = .ok tree
  client : ∀ type p txt, createMessage k.lib k.serverNow type p = .ok txt → k.accepts (String.ofList txt) = true

theorem again_good {k : Link} {c : Config} {freq : Int} {name requestId ven : String} {reg : Option String} (h : Reachable k c freq name requestId)
    (hven : Ordinary k.lib ven) (hreg : ∀ r, reg = some r → Ordinary k.lib r) : (againArgs name ven requestId reg).Good k.lib :=
  ⟨h.requestId, hreg, fun x hx => by cases hx; exact hven, h.profileName, h.transportName, fun x hx => (by cases hx), h.name⟩

/-- The empty response of the VEN is answered with an empty body. -/
theorem response_exchanged {S : Type} {k : Link} {c : Config} (svc : Service S) (cache : NonceCache) (st : S) (secure : Bool) (peer : Option String) {ven : String}
    (sound : k.lib.Sound) (hven : Ordinary k.lib ven)
    (hval : ∀ type p txt, createMessage k.lib k.clientNow type p = .ok txt → ∃ tree, c.validate (String.ofList txt) = .ok tree) :
    exchange k c svc cache st secure peer "oadrResponse" (responsePayload ven) = ((cache, st), .ok none) := by
  have harr := c67_response_arrives (now := k.clientNow) sound (r := ⟨200, "OK", none⟩) ⟨ordinary_OK sound, by simp⟩ hven
  obtain ⟨txt, h1, h2⟩ := harr (responsePayload ven) (by
    refine conforms_keys ["ven_id", "response"] (fun k hk => ?_) (fun k hk => ?_)
    · simp only [List.mem_cons, List.not_mem_nil, or_false, not_or] at hk
      simp [responsePayload, Dict.get?, Ne.symm hk.1, Ne.symm hk.2]
    · simp only [List.mem_cons, List.not_mem_nil, or_false] at hk
      rcases hk with rfl | rfl
      · exact .inl ⟨.str ven, .str ven, by simp [Dict.get?], by simp [responsePayload, Dict.get?], .same _⟩
      · refine .inl ⟨_, _, by simp [Dict.get?]; rfl, by simp [responsePayload, Dict.get?]; rfl, ?_⟩
        refine conforms_keys ["response_code", "response_description", "request_id"] (fun k hk => ?_) (fun k hk => ?_)
        · simp only [List.mem_cons, List.not_mem_nil, or_false, not_or] at hk
          simp [LooseResponseP.dict, entry?, text?, Dict.get?, Ne.symm hk.1, Ne.symm hk.2.1, Ne.symm hk.2.2]
        · simp only [List.mem_cons, List.not_mem_nil, or_false] at hk
          rcases hk with rfl | rfl | rfl
          · exact .inl ⟨.int 200, .int 200, by simp [LooseResponseP.dict, Dict.get?], by simp [Dict.get?], .same _⟩
          · exact .inl ⟨.str "OK", .str "OK", by simp [LooseResponseP.dict, Dict.get?], by simp [Dict.get?], .same _⟩
          · exact .inr (.inl ⟨by simp [LooseResponseP.dict, entry?, text?, Dict.get?], by simp [Dict.get?], by decide +kernel⟩))
  obtain ⟨tree, hv⟩ := hval _ _ _ h1
  have hx : isXml (some "application/xml") = true := by decide +kernel
  have hq : process (wired c k.lib k.serverNow) svc k.surroundings k.count cache st (requestOf secure peer txt) =
      ((cache, st), ⟨some "oadrResponse", .error .sendEmpty⟩) := by
    unfold process
    rw [if_neg (by rw [requestOf, hx]; simp), show (requestOf secure peer txt).content = String.ofList txt from rfl,
      show (wired c k.lib k.serverNow).validate (String.ofList txt) = .ok tree from hv,
      show (wired c k.lib k.serverNow).parse (String.ofList txt) = _ from parseText_received h2]
    simp only []
    rw [if_pos trivial]
  simp only [requestOf] at hq
  simp only [exchange, h1, handle, hq, reply, clientReads, ne_eq, not_true_eq_false, if_false, if_true]

/-- A response to a message with this id, as it is received. -/
def plainResponse (requestId : Option String) (ven : String) : Dict :=
  [("response", .dict [("response_code", .int 200), ("response_description", .str "OK"), ("request_id", (text? requestId).getD .none)]), ("ven_id", .str ven)]

/-- A message whose handler returns nothing is answered with a positive response. -/
theorem nothing_exchanged {S : Type} {k : Link} {c : Config} {svc : Service S} {cache cache' : NonceCache} {st st' : S} {secure : Bool} {peer : Option String}
    {type ven : String} {p m : Dict} {q : Option String} {h : S → Dict → S × Except Exn Returned} (sound : k.lib.Sound)
    (hs : Received k.lib k.clientNow type p m) (ht : type ≠ "oadrResponse" ∧ type ≠ "oadrCreatePartyRegistration") (hm : Dict.get? m "ven_id" = some (.str ven)) (hven : Ordinary k.lib ven)
    (hq : Dict.get? m "request_id" = text? q) (hq' : ∀ x, q = some x → Ordinary k.lib x) (hn : Dict.get? m "vtn_id" = none)
    (hk : checkKnown c type m = .ok ())
    (ha : ∀ txt tree, createMessage k.lib k.clientNow type p = .ok txt → c.validate (String.ofList txt) = .ok tree →
      (if secure ∧ Dict.has m "ven_id" then authenticate c k.surroundings k.count cache (requestOf secure peer txt) tree m else (cache, .ok ())) = (cache', .ok ()))
    (hh : Dict.get? svc.handlers type = some h) (hr : h st m = (st', .ok .nothing))
    (hval : ∀ type p txt, createMessage k.lib k.clientNow type p = .ok txt → ∃ tree, c.validate (String.ofList txt) = .ok tree)
    (hacc : ∀ type p txt, createMessage k.lib k.serverNow type p = .ok txt → k.accepts (String.ofList txt) = true) :
    exchange k c svc cache st secure peer type p = ((cache', st'), .ok (some (some "oadrResponse", plainResponse q ven))) := by
  have hw : withPeer secure peer type m = m := by simp [withPeer, ht.2]
  have harr := c67_response_arrives (now := k.serverNow) sound (r := ⟨200, "OK", q⟩) ⟨ordinary_OK sound, hq'⟩ hven
  have hrec : Received k.lib k.serverNow "oadrResponse" (completed c m (finishPayload c m [])) (plainResponse q ven) := by
    have h1 := harr [("response", .dict [("request_id", (text? q).getD .none), ("response_code", .int 200), ("response_description", .str "OK")]), ("ven_id", .str ven)] (by
      refine conforms_keys ["ven_id", "response"] (fun k hk => ?_) (fun k hk => ?_)
      · simp only [List.mem_cons, List.not_mem_nil, or_false, not_or] at hk
        simp [Dict.get?, Ne.symm hk.1, Ne.symm hk.2]
      · simp only [List.mem_cons, List.not_mem_nil, or_false] at hk
        rcases hk with rfl | rfl
        · exact .inl ⟨.str ven, .str ven, by simp [Dict.get?], by simp [Dict.get?], .same _⟩
        · refine .inl ⟨_, _, by simp [Dict.get?]; rfl, by simp [Dict.get?]; rfl, ?_⟩
          refine conforms_keys ["response_code", "response_description", "request_id"] (fun k hk => ?_) (fun k hk => ?_)
          · simp only [List.mem_cons, List.not_mem_nil, or_false, not_or] at hk
            simp [LooseResponseP.dict, Dict.get?_entry?, Dict.get?, Ne.symm hk.1, Ne.symm hk.2.1, Ne.symm hk.2.2]
          · simp only [List.mem_cons, List.not_mem_nil, or_false] at hk
            rcases hk with rfl | rfl | rfl
            · exact .inl ⟨.int 200, .int 200, by simp [LooseResponseP.dict, Dict.get?], by simp [Dict.get?], .same _⟩
            · exact .inl ⟨.str "OK", .str "OK", by simp [LooseResponseP.dict, Dict.get?], by simp [Dict.get?], .same _⟩
            · cases q with
              | none => exact .inr (.inl ⟨by simp [LooseResponseP.dict, entry?, text?, Dict.get?], by simp [Dict.get?, text?], by decide +kernel⟩)
              | some q => exact .inl ⟨.str q, .str q, by simp [LooseResponseP.dict, entry?, text?, Dict.get?], by simp [Dict.get?, text?], .same _⟩)
    refine received_agree (t := tResponse) (by rfl) (fun j hj => ?_) h1
    have hr : tResponse.reads.all (fun j => j == "response" || j == "ven_id") = true := by decide +kernel
    have hne : j = "response" ∨ j = "ven_id" := by
      have := List.all_eq_true.mp hr j hj
      simpa using this
    rw [completed_get]
    rcases hne with rfl | rfl
    · simp [Dict.get?, hq]
    · simp [Dict.get?, hm, Value.truthy]
  refine exchange_answered hs (fun txt h1 h2 => ?_) hrec (fun txt h => hacc _ _ txt h)
  obtain ⟨tree, hv⟩ := hval _ _ txt h1
  have hmsg : handleMessage c svc st type (withPeer secure peer type m) = (st', .ok ("oadrResponse", finishPayload c m [])) := by
    rw [hw]
    simp only [handleMessage, hh, hr]
  rw [handle_passed hv h2 ht.1 (by simp [hn]) hk (ha txt tree h1 hv) hmsg, hw]

/-! ### The client's side -/

/-- What the client does with the answers to its first three messages. -/
theorem poll_registers (w : World) (ven : Client) (d : Dict) (hd : Dict.get? d "response" = none)
    (h1 : w.net ven.log.length = answerOf (some (some "oadrRequestReregistration", d))) (h2 : w.net (ven.log.length + 1) = none) :
    clientPoll w ven = createPartyReregistration w { ven with log := ven.log ++ [(.poll ven.venId, w.net ven.log.length), (.response ven.venId, none)] } := by
  have hu : unpack (perform w ven (.poll ven.venId)).2 = .ok (some "oadrRequestReregistration", ⟨d, none, none, none⟩) := by
    simp [perform, h1, answerOf, checkAnswer, hd, unpack]
  have hs : ∀ v : Client, w.net v.log.length = none → send w v (.response v.venId) = ({ v with log := v.log ++ [(.response v.venId, none)] }, .ok ()) := by
    intro v hv
    simp [send, perform, hv, checkAnswer]
  unfold clientPoll
  rw [hu]
  simp only [actOnPoll]
  rw [if_neg (by decide), if_pos trivial]
  have := hs (perform w ven (.poll ven.venId)).1 (by simp [perform, h2])
  simp only [perform] at this ⊢
  rw [this]
  simp

theorem Sends.prefix {c d : Client} {kinds : List String} (h : Sends c d kinds) : c.log <+: d.log := by
  obtain ⟨n, h1, -⟩ := h.sent
  exact ⟨n, h1.symm⟩

/-- The messages whose answers can change the ids. -/
def aboutIds : List String := ["oadrCreatePartyRegistration", "oadrQueryRegistration", "oadrCancelPartyRegistration", "oadrCanceledPartyRegistration"]

/-- Other messages do not change the ids. -/
theorem sends_keep {c d : Client} {kinds : List String} (hs : Sends c d kinds) (hk : kinds.all (fun x => !aboutIds.contains x) = true) :
    identityOf d = identityOf c := by
  obtain ⟨n, -, h2, h3⟩ := hs.sent
  rw [h3]
  have hall : ∀ x ∈ n, aboutIds.contains x.1.kind = false :=
    fun x hx => by simpa using List.all_eq_true.mp hk _ (h2.subset (List.mem_map.mpr ⟨x, hx, rfl⟩))
  clear h2 h3 hk
  generalize identityOf c = i
  induction n with
  | nil => rfl
  | cons x n ih =>
    simp only [List.foldl_cons]
    have hx : identityStep i x = i := by
      obtain ⟨m, a⟩ := x
      have := hall (m, a) (by simp)
      cases m <;> first | rfl | (simp [Outgoing.kind, aboutIds] at this)
    rw [hx]
    exact ih (fun x hx => hall x (by simp [hx]))

/-- What follows a registration does not change the ids. -/
theorem reregistration_ids (w : World) (c : Client) (h : (createPartyRegistration w c c.registrationId).2 = .ok ()) :
    identityOf (createPartyReregistration w c).1 = identityOf (createPartyRegistration w c c.registrationId).1 ∧
    (createPartyRegistration w c c.registrationId).1.log <+: (createPartyReregistration w c).1.log := by
  unfold createPartyReregistration
  generalize createPartyRegistration w c c.registrationId = z at h ⊢
  obtain ⟨d, r⟩ := z
  cases h
  simp only []
  split
  · have hr := registerReports_sends w d
    generalize registerReports w d = y at hr ⊢
    obtain ⟨e, r⟩ := y
    cases r with
    | error e' => exact ⟨sends_keep hr (by decide), hr.prefix⟩
    | ok _ =>
      have h2 := (startWorker_sends e).trans (syncEvents_sends w (startWorker e))
      exact ⟨(sends_keep h2 (by decide)).trans (sends_keep hr (by decide)), hr.prefix.trans h2.prefix⟩
  · exact ⟨rfl, List.prefix_refl _⟩

/-! ### Both sides -/

/-- The three exchanges, when the registration is accepted. -/
theorem again_exchanged {k : Link} {c : Config} {u : RegistrationUser Table} {freq : Int} {psvc : Service P} {secure : Bool} {peer : Option String}
    {name ven requestId : String} {reg : Option String} {x : Registrar P} {cache : NonceCache} {table : Table} {result : Value} {v r : Option Value} {a b : Value}
    (h : Reachable k c freq name requestId)
    (hven : Ordinary k.lib ven) (hreg : ∀ r, reg = some r → Ordinary k.lib r) (hx : ¬ InTable x.table ven)
    (hsec : ∀ txt tree, createMessage k.lib k.clientNow "oadrCreatePartyRegistration" (againArgs name ven requestId reg).payload = .ok txt →
      c.validate (String.ofList txt) = .ok tree →
      (if secure ∧ Dict.has (againArgs name ven requestId reg).sent.dict "ven_id" then
        authenticate (c.looking x.table) k.surroundings k.count x.cache (requestOf secure peer txt) tree (againArgs name ven requestId reg).sent.dict
        else (x.cache, .ok ())) = (cache, .ok ()))
    (hu : u.onCreate x.table ((againArgs name ven requestId reg).seen secure peer) = (table, .ok result))
    (hp : registrationPayload (.timedelta freq) ((againArgs name ven requestId reg).seen secure peer) result =
      .ok (registrationFields "2.0b" "simpleHttp" v r freq))
    (hv : IdReceived k.lib "ven_id" (venOf v (some ven)) a) (hv' : ∀ v', v = some v' → v'.truthy = true) (hr : IdReceived k.lib "registration_id" r b) :
    registerAgain k c u freq psvc secure peer name ven requestId reg x = (⟨cache, table, x.polls⟩,
      [.ok (some (some "oadrRequestReregistration", [("ven_id", .str ven)])), .ok none,
       .ok (some (some "oadrCreatedPartyRegistration", replyReceived c requestId "2.0b" "simpleHttp" a b freq))]) := by
  have e1 := c85_unknown k (c.looking x.table) psvc x.cache x.polls secure peer x.table ven rfl hven (fun txt ht => h.server _ _ txt ht)
    (fun p txt ht => h.client _ p txt ht) hx
  have e2 := response_exchanged (c := c.looking x.table) (registrationService u (.timedelta freq)) x.cache x.table secure peer h.sound hven h.server
  have e3 := authentic_exchanged k (c.looking x.table) u freq x.cache cache x.table table secure peer h.sound (again_good h hven hreg) h.vtnId h.freq
    ⟨fun txt ht => h.server _ _ txt ht, fun p txt ht => h.client _ p txt ht⟩ hsec hu hp hv hv' hr
  simp only [registerAgain, e1, e2, e3]
  rfl

/-- The ids of the VEN after the three exchanges. -/
theorem again_ids {c : Config} {requestId : String} {ven : String} {reg : Option String} {a b : Value} {freq : Int} {w : World} {x : Client}
    (hven : x.venId = .str ven) (hreg : x.registrationId = textOrNone reg)
    (h1 : w.net x.log.length = answerOf (some (some "oadrRequestReregistration", [("ven_id", .str ven)]))) (h2 : w.net (x.log.length + 1) = answerOf none)
    (h3 : w.net (x.log.length + 2) =
      answerOf (some (some "oadrCreatedPartyRegistration", replyReceived c requestId "2.0b" "simpleHttp" a b freq))) :
    (clientPoll w x).1.venId = (if a.truthy then a else .str ven) ∧ (clientPoll w x).1.registrationId = (if b.truthy then b else .none) ∧
    (b.truthy = true → (clientPoll w x).1.pollFrequency = .timedelta freq) ∧ (b.truthy = false → (clientPoll w x).1.stopped = true) ∧
    x.log ++ [(.poll (.str ven), w.net x.log.length), (.response (.str ven), w.net (x.log.length + 1)),
      (.register (.str ven) (textOrNone reg), w.net (x.log.length + 2))] <+: (clientPoll w x).1.log := by
  have hp := poll_registers w x _ (by simp [Dict.get?]) h1 h2
  generalize hy : ({ x with log := x.log ++ [(.poll x.venId, w.net x.log.length), (.response x.venId, none)] } : Client) = y at hp
  have hl : y.log.length = x.log.length + 2 := by rw [← hy]; simp
  have hyv : y.venId = .str ven := by rw [← hy]; exact hven
  have hyr : y.registrationId = textOrNone reg := by rw [← hy]; exact hreg
  rw [← hl] at h3
  obtain ⟨g1, g2, g3, g4⟩ := registered_by c _ _ _ _ _ _ w y y.registrationId h3
  obtain ⟨f1, f2⟩ := reregistration_ids w y g1
  have i1 := congrArg Identity.venId f1
  have i2 := congrArg Identity.registrationId f1
  have i3 := congrArg Identity.frequency f1
  simp only [identityOf] at i1 i2 i3
  rw [hp, i1, i2, i3, g2, g3, hyv]
  refine ⟨rfl, rfl, g4, fun hb => ?_, ?_⟩
  · unfold createPartyReregistration
    generalize createPartyRegistration w y y.registrationId = z at g1 g3
    obtain ⟨d, r⟩ := z
    cases g1
    simp only [hb, Bool.false_eq_true, if_false] at g3
    simp only [g3, Value.truthy, Bool.false_eq_true, if_false, stopClient]
  · refine List.IsPrefix.trans ?_ f2
    obtain ⟨n, n1, n2, -⟩ := (createParty_sends w y y.registrationId).sent
    have : (createPartyRegistration w y y.registrationId).1.log = y.log ++ [(.register y.venId y.registrationId, w.net y.log.length)] := by
      unfold createPartyRegistration
      split
      · rfl
      · rfl
      · split
        · rfl
        · split
          · rfl
          · simp only [registrationAnswer]; repeat' split
            all_goals rfl
    rw [this, hyv, hyr, hl, ← hy, h2]
    simp [hven, answerOf]

/-- **C92**: a poll of a VEN that the VTN does not know leads to its registration, on a connection without TLS or for a VEN that the VTN finds authentic: the
    handler of the VTN is called with the ids that the VEN had, and the VEN ends up with just those that the handler returns. -/
theorem c92_registered_again {k : Link} {c : Config} {u : RegistrationUser Table} {freq : Int} (psvc : Service P) {secure : Bool} {peer : Option String}
    {name ven requestId v r : String} {reg : Option String} {x : Registrar P} {cache : NonceCache} {table : Table}
    (h : Reachable k c freq name requestId) (hven : Ordinary k.lib ven) (hreg : ∀ r, reg = some r → Ordinary k.lib r) (hx : ¬ InTable x.table ven)
    (hsec : ∀ txt tree, createMessage k.lib k.clientNow "oadrCreatePartyRegistration" (againArgs name ven requestId reg).payload = .ok txt →
      c.validate (String.ofList txt) = .ok tree →
      (if secure ∧ Dict.has (againArgs name ven requestId reg).sent.dict "ven_id" then
        authenticate (c.looking x.table) k.surroundings k.count x.cache (requestOf secure peer txt) tree (againArgs name ven requestId reg).sent.dict
        else (x.cache, .ok ())) = (cache, .ok ()))
    (hv : Ordinary k.lib v) (hr : Ordinary k.lib r)
    (hu : u.onCreate x.table ((againArgs name ven requestId reg).seen secure peer) = (table, .ok (.tuple [.str v, .str r]))) :
    ∃ a b d, registerAgain k c u freq psvc secure peer name ven requestId reg x = (⟨cache, table, x.polls⟩, [.ok a, .ok b, .ok d]) ∧
      ∀ (w : World) (y : Client), y.venId = .str ven → y.registrationId = textOrNone reg → w.net y.log.length = answerOf a →
        w.net (y.log.length + 1) = answerOf b → w.net (y.log.length + 2) = answerOf d →
        (clientPoll w y).1.venId = .str v ∧ (clientPoll w y).1.registrationId = .str r ∧ (clientPoll w y).1.pollFrequency = .timedelta freq ∧
        y.log ++ [(.poll (.str ven), answerOf a), (.response (.str ven), answerOf b), (.register (.str ven) (textOrNone reg), answerOf d)] <+:
          (clientPoll w y).1.log := by
  have hp : registrationPayload (.timedelta freq) ((againArgs name ven requestId reg).seen secure peer) (.tuple [.str v, .str r]) =
      .ok (registrationFields "2.0b" "simpleHttp" (some (.str v)) (some (.str r)) freq) := by
    rw [show "2.0b" = (againArgs name ven requestId reg).profileName from rfl, show "simpleHttp" = (againArgs name ven requestId reg).transportName from rfl]
    generalize againArgs name ven requestId reg = args
    simp [registrationPayload, pairOf, profiles_seen, registrationFields, entry?]
  refine ⟨_, _, _, again_exchanged h hven hreg hx hsec hu hp (.some _ _ (wired_text hv (by decide +kernel)))
    (fun v' e => by cases e; exact ordinary_truthy hv.toOnWire) (.some _ _ (wired_text hr (by decide +kernel))), fun w y hyv hyr h1 h2 h3 => ?_⟩
  obtain ⟨g1, g2, g3, -, g5⟩ := again_ids hyv hyr h1 h2 h3
  rw [h1, h2, h3] at g5
  rw [if_pos (ordinary_truthy hv.toOnWire)] at g1
  rw [if_pos (ordinary_truthy hr.toOnWire)] at g2
  exact ⟨g1, g2, g3 (ordinary_truthy hr.toOnWire), g5⟩

/-- **C92**: when the handler refuses by `False` or `None`, the VEN is not registered any more and stops. -/
theorem c92_refused {k : Link} {c : Config} {u : RegistrationUser Table} {freq : Int} (psvc : Service P) {secure : Bool} {peer : Option String}
    {name ven requestId : String} {reg : Option String} {x : Registrar P} {cache : NonceCache} {table : Table} {result : Value}
    (h : Reachable k c freq name requestId) (hven : Ordinary k.lib ven) (hreg : ∀ r, reg = some r → Ordinary k.lib r) (hx : ¬ InTable x.table ven)
    (hsec : ∀ txt tree, createMessage k.lib k.clientNow "oadrCreatePartyRegistration" (againArgs name ven requestId reg).payload = .ok txt →
      c.validate (String.ofList txt) = .ok tree →
      (if secure ∧ Dict.has (againArgs name ven requestId reg).sent.dict "ven_id" then
        authenticate (c.looking x.table) k.surroundings k.count x.cache (requestOf secure peer txt) tree (againArgs name ven requestId reg).sent.dict
        else (x.cache, .ok ())) = (cache, .ok ()))
    (hres : result = .bool false ∨ result = .none)
    (hu : u.onCreate x.table ((againArgs name ven requestId reg).seen secure peer) = (table, .ok result)) :
    ∃ a b d, registerAgain k c u freq psvc secure peer name ven requestId reg x = (⟨cache, table, x.polls⟩, [.ok a, .ok b, .ok d]) ∧
      ∀ (w : World) (y : Client), y.venId = .str ven → y.registrationId = textOrNone reg → w.net y.log.length = answerOf a →
        w.net (y.log.length + 1) = answerOf b → w.net (y.log.length + 2) = answerOf d →
        (clientPoll w y).1.venId = .str ven ∧ (clientPoll w y).1.registrationId = .none ∧ (clientPoll w y).1.stopped = true := by
  have hp : registrationPayload (.timedelta freq) ((againArgs name ven requestId reg).seen secure peer) result =
      .ok (registrationFields "2.0b" "simpleHttp" none none freq) := by
    rw [registrationPayload, if_pos hres]
    rw [show "2.0b" = (againArgs name ven requestId reg).profileName from rfl, show "simpleHttp" = (againArgs name ven requestId reg).transportName from rfl]
    generalize againArgs name ven requestId reg = args
    simp [profiles_seen, registrationFields, entry?]
  refine ⟨_, _, _, again_exchanged h hven hreg hx hsec hu hp (.some _ _ (wired_text hven (by decide +kernel)))
    (fun v' e => by cases e) .missing, fun w y hyv hyr h1 h2 h3 => ?_⟩
  obtain ⟨g1, g2, -, g4, -⟩ := again_ids hyv hyr h1 h2 h3
  refine ⟨?_, ?_, g4 rfl⟩
  · rw [g1]; split <;> rfl
  · rw [g2]; rfl

/-- **C92**: on a connection without TLS every VEN is let in. -/
theorem c92_unsecured {k : Link} {c : Config} {peer : Option String} {cache : NonceCache} {m : Dict} (txt : Text) (tree : Tree) :
    (if (false : Bool) = true ∧ Dict.has m "ven_id" = true then authenticate c k.surroundings k.count cache (requestOf false peer txt) tree m
      else (cache, .ok ())) = (cache, .ok ()) := by simp

/-- **C92**: on a TLS connection, a VEN is let in that the VTN still has in its table with its fingerprint, though without a registration (if the VTN does not
    check signatures). -/
theorem c92_secured {k : Link} {c : Config} {fp ven : String} {cache : NonceCache} {table : Table} {info : Dict} {m : Dict} (txt : Text) (tree : Tree)
    (hl : c.fingerprintLookup = none) (hsig : c.verifySignatures = false) (hm : Dict.get? m "ven_id" = some (.str ven))
    (ht : Dict.get? table ven = some info) (hi : Dict.get? info "fingerprint" = some (.str fp)) :
    (if (true : Bool) = true ∧ Dict.has m "ven_id" = true then
      authenticate (c.looking table) k.surroundings k.count cache (requestOf true (some fp) txt) tree m else (cache, .ok ())) = (cache, .ok ()) := by
  have hne : info ≠ [] := by rintro rfl; cases hi
  rw [if_pos ⟨rfl, by simp [Dict.has, hm]⟩]
  simp [authenticate, Config.looking, authenticateMessage, requestOf, hm, expectedFingerprint, hl, tableLookup, ht, hne, hi, hsig]

theorem answering_net (w : World) (n : Nat) (l : List Got) (i : Nat) (a : Option (Option String × Dict)) (h : l[i]? = some (.ok a)) :
    (w.answering n l).net (n + i) = answerOf a := by
  simp [World.answering, h]

theorem asks_again (d : Dict) : asksAgain (.ok (some (some "oadrRequestReregistration", d))) = true := by simp [asksAgain]

/-- The ids of a VEN stay when the answer to its poll is not about them. -/
theorem poll_keeps (w : World) (y : Client)
    (h : ∀ t p, w.net y.log.length = some (some t, p) → t ≠ "oadrRequestReregistration" ∧ t ≠ "oadrCancelPartyRegistration") :
    identityOf (clientPoll w y).1 = identityOf y := by
  have h0 : Sends y (perform w y (.poll y.venId)).1 ["oadrPoll"] := perform_sends w y _ (by intro i a; rfl)
  unfold clientPoll
  split
  · exact sends_keep h0 (by decide)
  · exact sends_keep h0 (by decide)
  · rename_i t p hu
    obtain ⟨n1, n2⟩ := h t p (unpack_ok hu).1
    refine (sends_keep (actOnPoll_sends w _ t p) ?_).trans (sends_keep h0 (by decide))
    unfold maySend
    split
    all_goals first | decide | (exact absurd rfl n1) | (exact absurd rfl n2)

/-- A handler that registers every VEN with ordinary ids and puts it into the table. -/
def Faithful (lib : Lib) (u : RegistrationUser Table) : Prop :=
  ∀ table m, ∃ v r table' info, u.onCreate table m = (table', .ok (.tuple [.str v, .str r])) ∧ Ordinary lib v ∧ Ordinary lib r ∧
    Dict.get? table' v = some info ∧ Dict.get? info "registration_id" = some (.str r)

/-- The VTN does not use the polls of VENs in its table to end or renew registrations. -/
def Content (k : Link) (c : Config) (psvc : Service P) (secure : Bool) (peer : Option String) : Prop :=
  ∀ cache table st ven, Ordinary k.lib ven → InTable table ven → ∀ t d,
    (exchange k (c.looking table) psvc cache st secure peer "oadrPoll" [("ven_id", .str ven)]).2 = .ok (some (some t, d)) →
    t ≠ "oadrRequestReregistration" ∧ t ≠ "oadrCancelPartyRegistration"

/-- The VEN has ordinary ids. -/
def HasIds (lib : Lib) (y : Client) : Prop := ∃ v r, y.venId = .str v ∧ y.registrationId = .str r ∧ Ordinary lib v ∧ Ordinary lib r

/-- One poll of a VEN that is not known, on a connection without TLS. -/
theorem unknown_settles {k : Link} {c : Config} {u : RegistrationUser Table} {freq : Int} {psvc : Service P} {peer : Option String} {name requestId ven reg : String}
    {w : World} {x : Registrar P × Client} (h : Reachable k c freq name requestId) (hu : Faithful k.lib u) (e1 : x.2.venId = .str ven)
    (e2 : x.2.registrationId = .str reg) (o1 : Ordinary k.lib ven) (o2 : Ordinary k.lib reg) (hin : ¬ InTable x.1.table ven) :
    ∃ v, ((pollOrRegister k c u freq psvc false peer name requestId w x).2.venId = .str v ∧
      HasIds k.lib (pollOrRegister k c u freq psvc false peer name requestId w x).2) ∧
      InTable (pollOrRegister k c u freq psvc false peer name requestId w x).1.table v := by
  obtain ⟨x, y⟩ := x
  simp only at e1 e2 hin
  obtain ⟨v, r, table, info, hcre, ov, or, ht, hi⟩ := hu x.table ((againArgs name ven requestId (some reg)).seen false peer)
  obtain ⟨a, b, d, ha, hcl⟩ := c92_registered_again psvc (peer := peer) (x := x) h o1 (fun r hr => by cases hr; exact o2) hin
    (fun txt tree _ _ => c92_unsecured txt tree) ov or hcre
  have hask : asksAgain (exchange k (c.looking x.table) psvc x.cache x.polls false peer "oadrPoll" [("ven_id", .str ven)]).2 = true := by
    rw [c85_unknown k (c.looking x.table) psvc x.cache x.polls false peer x.table ven rfl o1 (fun txt ht => h.server _ _ txt ht)
      (fun p txt ht => h.client _ p txt ht) hin]
    rfl
  simp only [pollOrRegister, e1, e2, textOf, Option.getD_some, hask, if_true, ha]
  obtain ⟨g1, g2, -, -⟩ := hcl (w.answering y.log.length [.ok a, .ok b, .ok d]) y e1 e2 (answering_net w _ _ 0 a rfl) (answering_net w _ _ 1 b rfl)
    (answering_net w _ _ 2 d rfl)
  exact ⟨v, ⟨g1, ⟨v, r, g1, g2, ov, or⟩⟩, info, .str r, ht, hi, by simp⟩

/-- One poll, on a connection without TLS. -/
theorem poll_settles {k : Link} {c : Config} {u : RegistrationUser Table} {freq : Int} {psvc : Service P} {peer : Option String} {name requestId : String}
    {w : World} {x : Registrar P × Client} (h : Reachable k c freq name requestId) (hu : Faithful k.lib u) (hc : Content k c psvc false peer)
    (hx : HasIds k.lib x.2) :
    HasIds k.lib (pollOrRegister k c u freq psvc false peer name requestId w x).2 ∧
    ∃ v, (pollOrRegister k c u freq psvc false peer name requestId w x).2.venId = .str v ∧
      InTable (pollOrRegister k c u freq psvc false peer name requestId w x).1.table v := by
  obtain ⟨ven, reg, e1, e2, o1, o2⟩ := hx
  obtain ⟨x, y⟩ := x
  simp only at e1 e2
  by_cases hin : InTable x.table ven
  · have hask : asksAgain (exchange k (c.looking x.table) psvc x.cache x.polls false peer "oadrPoll" [("ven_id", .str ven)]).2 = false := by
      have := hc x.cache x.table x.polls ven o1 hin
      generalize (exchange k (c.looking x.table) psvc x.cache x.polls false peer "oadrPoll" [("ven_id", .str ven)]).2 = a at this
      unfold asksAgain
      split
      · rename_i t d
        simpa using (this t d rfl).1
      · rfl
    have hid : ∀ l : List Got, (∀ t d, l[0]? = some (.ok (some (some t, d))) → t ≠ "oadrRequestReregistration" ∧ t ≠ "oadrCancelPartyRegistration") →
        l.length = 1 → identityOf (clientPoll (w.answering y.log.length l) y).1 = identityOf y := by
      intro l hl h1
      refine poll_keeps _ _ (fun t p hp => ?_)
      obtain ⟨a, rfl⟩ : ∃ a, l = [a] := by
        match l, h1 with
        | [a], _ => exact ⟨a, rfl⟩
      simp only [World.answering, Nat.le_refl, if_true, Nat.sub_self, List.getElem?_cons_zero] at hp
      cases a with
      | error e => simp at hp
      | ok a =>
        simp only [answerOf, Option.map_eq_some_iff] at hp
        obtain ⟨b, rfl, hb⟩ := hp
        obtain ⟨b1, b2⟩ := b
        simp only [Prod.mk.injEq] at hb
        rw [hb.1] at hl
        exact hl t b2 rfl
    simp only [pollOrRegister, e1, textOf, Option.getD_some, hask, Bool.false_eq_true, if_false]
    have := hid [(exchange k (c.looking x.table) psvc x.cache x.polls false peer "oadrPoll" [("ven_id", .str ven)]).2]
      (fun t d ht => hc x.cache x.table x.polls ven o1 hin t d (by simpa using ht)) rfl
    have i1 := congrArg Identity.venId this
    have i2 := congrArg Identity.registrationId this
    simp only [identityOf] at i1 i2
    exact ⟨⟨ven, reg, i1.trans e1, i2.trans e2, o1, o2⟩, ven, i1.trans e1, hin⟩
  · obtain ⟨v, g1, g2⟩ := unknown_settles (u := u) (psvc := psvc) (peer := peer) (w := w) (x := (x, y)) h hu e1 e2 o1 o2 hin
    exact ⟨g1.2, v, g1.1, g2⟩

/-- The VTN and the VEN after these steps. -/
def registrarRun (c : Config) (u : RegistrationUser Table) (freq : Int) (psvc : Service P) (secure : Bool) (peer : Option String) (name : String)
    (x : Registrar P × Client) (steps : List RegistrarStep) : Registrar P × Client := steps.foldl (registrarStep c u freq psvc secure peer name) x

/-- **C92**: whatever becomes of the VTN's table, however often, the next poll of the VEN leaves it registered and known to the VTN by the id it then has; on
    a connection without TLS, with a handler that registers everyone. -/
theorem c92_history {lib : Lib} {c : Config} {u : RegistrationUser Table} {freq : Int} {psvc : Service P} {peer : Option String} {name : String}
    {x : Registrar P × Client} (hu : Faithful lib u) (hx : HasIds lib x.2) (steps : List RegistrarStep)
    (hs : ∀ k w q, RegistrarStep.polls k w q ∈ steps → k.lib = lib ∧ Reachable k c freq name q ∧ Content k c psvc false peer) :
    HasIds lib (registrarRun c u freq psvc false peer name x steps).2 ∧
    ∀ before k w q, steps = before ++ [.polls k w q] → ∃ v, (registrarRun c u freq psvc false peer name x steps).2.venId = .str v ∧
      InTable (registrarRun c u freq psvc false peer name x steps).1.table v := by
  have ids : ∀ steps : List RegistrarStep, (∀ k w q, RegistrarStep.polls k w q ∈ steps → k.lib = lib ∧ Reachable k c freq name q ∧ Content k c psvc false peer) →
      ∀ x : Registrar P × Client, HasIds lib x.2 → HasIds lib (registrarRun c u freq psvc false peer name x steps).2 := by
    intro steps
    induction steps with
    | nil => intro _ x hx; exact hx
    | cons s steps ih =>
      intro hs x hx
      refine ih (fun k w q hm => hs k w q (by simp [hm])) _ ?_
      cases s with
      | changes table => exact hx
      | polls k w q =>
        obtain ⟨rfl, h2, h3⟩ := hs k w q (by simp)
        exact (poll_settles h2 hu h3 hx).1
  refine ⟨ids steps hs x hx, fun before k w q he => ?_⟩
  subst he
  obtain ⟨rfl, h2, h3⟩ := hs k w q (by simp)
  have hb := ids before (fun k w q hm => hs k w q (by simp [hm])) x hx
  have hr : registrarRun c u freq psvc false peer name x (before ++ [.polls k w q]) =
      pollOrRegister k c u freq psvc false peer name q w (registrarRun c u freq psvc false peer name x before) := by
    simp [registrarRun, registrarStep]
  rw [hr]
  exact (poll_settles h2 hu h3 hb).2

/-! ### On a TLS connection -/

/-- The registration of a VEN that is not in the table is refused before the handler is called. -/
theorem secure_refused {k : Link} {c : Config} {u : RegistrationUser Table} {freq : Int} {cache : NonceCache} {table : Table} {peer : Option String}
    {name ven requestId : String} {reg : Option String} (h : Reachable k c freq name requestId) (hven : Ordinary k.lib ven)
    (hreg : ∀ r, reg = some r → Ordinary k.lib r) (hmsg : Ordinary k.lib "NOT REGISTERED OR AUTHORIZED") (hl : c.fingerprintLookup = none)
    (hx : Dict.get? table ven = none) :
    exchange k (c.looking table) (registrationService u (.timedelta freq)) cache table true peer "oadrCreatePartyRegistration"
      (againArgs name ven requestId reg).payload =
      ((cache, table), .ok (some (some "oadrResponse", errorReceived 463 "NOT REGISTERED OR AUTHORIZED"))) := by
  have hs := c84_request_received (now := k.clientNow) h.sound (again_good h hven hreg)
  refine c86_exchange k (c.looking table) _ cache cache table table true peer "oadrCreatePartyRegistration" _ _ 463 _ h.sound hs (by decide) hmsg
    (fun txt h1 => ?_) (fun p txt ht => h.client _ p txt ht)
  obtain ⟨txt, g1, g2⟩ := hs
  rw [g1] at h1
  cases h1
  obtain ⟨tree, hv⟩ := h.server _ _ _ g1
  have hx' : isXml (some "application/xml") = true := by decide +kernel
  generalize hm : (againArgs name ven requestId reg).sent.dict = m at g2
  have hmv : Dict.get? m "ven_id" = some (.str ven) := by
    rw [← hm]; simp [againArgs, RegistrationP.dict, RegisterArgs.sent, text?, Dict.get?_append, Dict.get?_entry?, Dict.get?]
  have hmn : Dict.get? m "vtn_id" = none := by
    rw [← hm]; simp [RegistrationP.dict, Dict.get?_append, Dict.get?_entry?, Dict.get?]
  have hauth : authenticate (wired (c.looking table) k.lib k.serverNow) k.surroundings k.count cache (requestOf true peer txt) tree m = (cache, .error notAuthorized) := by
    cases peer <;> simp [authenticate, wired, Config.looking, authenticateMessage, requestOf, hmv, expectedFingerprint, hl, tableLookup, hx]
  unfold process
  rw [if_neg (by rw [requestOf, hx']; simp), show (requestOf true peer txt).content = String.ofList txt from rfl,
    show (wired (c.looking table) k.lib k.serverNow).validate (String.ofList txt) = .ok tree from hv,
    show (wired (c.looking table) k.lib k.serverNow).parse (String.ofList txt) = _ from parseText_received g2]
  simp only []
  rw [if_neg (by decide), if_neg (by rw [hmn]; simp), show checkKnown (wired (c.looking table) k.lib k.serverNow) "oadrCreatePartyRegistration" m = .ok () from by
    simp [checkKnown]]
  simp only []
  rw [if_pos (by simp [requestOf, Dict.has, hmv]), hauth]
  rfl

/-- **C92, refuted** on TLS connections: the registration of a VEN that the VTN has asked to register again carries the id of the VEN, so that the VTN looks its
    fingerprint up before anything else; the VEN is not in the table, and is refused before the handler of the VTN is asked. Nothing changes, however often
    the VEN polls: it keeps its ids, and the VTN does not know it. -/
theorem c92_secure_violated {lib : Lib} {c : Config} {u : RegistrationUser Table} {freq : Int} {psvc : Service P} {peer : Option String} {name ven reg : String}
    {x : Registrar P × Client} (hv : x.2.venId = .str ven) (hr : x.2.registrationId = .str reg) (ov : Ordinary lib ven) (or : Ordinary lib reg)
    (hmsg : Ordinary lib "NOT REGISTERED OR AUTHORIZED") (hl : c.fingerprintLookup = none) (hx : Dict.get? x.1.table ven = none)
    (polls : List (Link × World × String)) (hs : ∀ s ∈ polls, s.1.lib = lib ∧ Reachable s.1 c freq name s.2.2) :
    (registrarRun c u freq psvc true peer name x (polls.map (fun s => .polls s.1 s.2.1 s.2.2))).1 = x.1 ∧
    (registrarRun c u freq psvc true peer name x (polls.map (fun s => .polls s.1 s.2.1 s.2.2))).2.venId = .str ven ∧
    (registrarRun c u freq psvc true peer name x (polls.map (fun s => .polls s.1 s.2.1 s.2.2))).2.registrationId = .str reg := by
  induction polls generalizing x with
  | nil => exact ⟨rfl, hv, hr⟩
  | cons s polls ih =>
    obtain ⟨k, w, q⟩ := s
    obtain ⟨rfl, h⟩ := hs (k, w, q) (by simp)
    have hno : ¬ InTable x.1.table ven := by
      rintro ⟨info, r, h1, -⟩
      rw [hx] at h1
      cases h1
    have a1 := c85_unknown k (c.looking x.1.table) psvc x.1.cache x.1.polls true peer x.1.table ven rfl ov (fun txt ht => h.server _ _ txt ht)
      (fun p txt ht => h.client _ p txt ht) hno
    have a2 := response_exchanged (c := c.looking x.1.table) (registrationService u (.timedelta freq)) x.1.cache x.1.table true peer h.sound ov h.server
    have a3 := secure_refused (u := u) (cache := x.1.cache) (table := x.1.table) (peer := peer) (reg := some reg) h ov (fun r hr => by cases hr; exact or) hmsg hl hx
    have hstep : registrarStep c u freq psvc true peer name x (.polls k w q) = (x.1, (clientPoll (w.answering x.2.log.length
        [.ok (some (some "oadrRequestReregistration", [("ven_id", .str ven)])), .ok none,
         .ok (some (some "oadrResponse", errorReceived 463 "NOT REGISTERED OR AUTHORIZED"))]) x.2).1) := by
      simp only [registrarStep, pollOrRegister, hv, hr, textOf, Option.getD_some, registerAgain, a1, a2, a3, asks_again, if_true]
    have hids : ∀ w : World, w.net x.2.log.length = answerOf (some (some "oadrRequestReregistration", [("ven_id", .str ven)])) →
        w.net (x.2.log.length + 1) = answerOf none →
        w.net (x.2.log.length + 2) = answerOf (some (some "oadrResponse", errorReceived 463 "NOT REGISTERED OR AUTHORIZED")) →
        identityOf (clientPoll w x.2).1 = identityOf x.2 := by
      intro w n1 n2 n3
      rw [poll_registers w x.2 _ (by simp [Dict.get?]) n1 n2]
      generalize hy : ({ x.2 with log := x.2.log ++ [(.poll x.2.venId, w.net x.2.log.length), (.response x.2.venId, none)] } : Client) = y
      have hlen : y.log.length = x.2.log.length + 2 := by rw [← hy]; simp
      rw [← hlen] at n3
      obtain ⟨g1, g2⟩ := c86_not_registered 463 "NOT REGISTERED OR AUTHORIZED" (by decide) w y y.registrationId n3
      rw [(reregistration_ids w y g1).1, g2, ← hy]
      rfl
    have hi := hids _ (answering_net w _ _ 0 _ rfl) (answering_net w _ _ 1 _ rfl) (answering_net w x.2.log.length [_, _, _] 2 _ rfl)
    have i1 := congrArg Identity.venId hi
    have i2 := congrArg Identity.registrationId hi
    simp only [identityOf] at i1 i2
    have := ih (x := registrarStep c u freq psvc true peer name x (.polls k w q)) (by rw [hstep]; exact i1.trans hv) (by rw [hstep]; exact i2.trans hr)
      (by rw [hstep]; exact hx) (fun s hs' => hs s (by simp [hs']))
    simp only [List.map_cons, registrarRun, List.foldl_cons] at this ⊢
    rw [hstep] at this ⊢
    exact this

/-! ### Examples -/

/-- Handlers that register everybody as `ven7` with the registration `reg7`. -/
def welcoming : RegistrationUser Table where
  onCreate := fun table _ => (("ven7", [("registration_id", .str "reg7")]) :: table, .ok (.tuple [.str "ven7", .str "reg7"]))
  onCancel := fun table _ => (table, .ok .nothing)
  onQuery := none

theorem welcoming_faithful : Faithful plainLib welcoming := fun table m =>
  ⟨"ven7", "reg7", _, [("registration_id", .str "reg7")], rfl, ordinary_of (by decide +kernel), ordinary_of (by decide +kernel), by simp [Dict.get?], by simp [Dict.get?]⟩

theorem sample_reachable : Reachable sampleLink sampleVtn 5000000 "ven name" "q1x" where
  sound := plainLib_sound
  vtnId := ordinary_of (by decide +kernel)
  freq := spans_of (by decide +kernel)
  name := ordinary_of (by decide +kernel)
  requestId := ordinary_of (by decide +kernel)
  profileName := ordinary_of (by decide +kernel)
  transportName := ordinary_of (by decide +kernel)
  server := fun _ _ _ _ => ⟨_, rfl⟩
  client := fun _ _ _ _ => rfl

/-- A poll service that never has anything for a VEN. -/
theorem nothing_content (f : P → Dict → P) : Content sampleLink sampleVtn ⟨"OadrPoll", [("oadrPoll", fun st m => (f st m, .ok .nothing))]⟩ false none := by
  intro cache table st ven ov hin t d he
  rw [nothing_exchanged (q := none) plainLib_sound (poll_received (wired_text ov (by decide +kernel))) (by decide) (by simp [Dict.get?]) ov
    (by simp [Dict.get?, text?]) (by simp) (by simp [Dict.get?]) (checkKnown_registered (c := sampleVtn.looking table) rfl (by simp [Dict.get?]) hin)
    (fun txt tree _ _ => c92_unsecured txt tree) (by simp [Dict.get?]; rfl) rfl (fun _ _ _ _ => ⟨_, rfl⟩) (fun _ _ _ _ => rfl)] at he
  cases he
  decide

/-- The VTN forgets the VEN and the VEN polls, twice; in the end the VEN is in the table by its id. -/
example (w w' : World) (y : Client) (h1 : y.venId = .str "ven1") (h2 : y.registrationId = .str "reg1") :
    ∃ v, (registrarRun sampleVtn welcoming 5000000 (⟨"OadrPoll", [("oadrPoll", fun n _ => (n + 1, .ok .nothing))]⟩ : Service Nat) false none "ven name"
        (⟨[], [("ven1", [("registration_id", .str "reg1")])], 0⟩, y)
        [.changes [], .polls sampleLink w "q1x", .changes [("ven8", [])], .polls sampleLink w' "q1x"]).2.venId = .str v ∧
      InTable (registrarRun sampleVtn welcoming 5000000 (⟨"OadrPoll", [("oadrPoll", fun n _ => (n + 1, .ok .nothing))]⟩ : Service Nat) false none "ven name"
        (⟨[], [("ven1", [("registration_id", .str "reg1")])], 0⟩, y)
        [.changes [], .polls sampleLink w "q1x", .changes [("ven8", [])], .polls sampleLink w' "q1x"]).1.table v :=
  (c92_history (lib := plainLib) welcoming_faithful ⟨"ven1", "reg1", h1, h2, ordinary_of (by decide +kernel), ordinary_of (by decide +kernel)⟩ _
    (fun k w q hm => by
      simp only [List.mem_cons, List.not_mem_nil, or_false, RegistrarStep.polls.injEq, reduceCtorEq, false_or] at hm
      rcases hm with ⟨rfl, rfl, rfl⟩ | ⟨rfl, rfl, rfl⟩ <;> exact ⟨rfl, sample_reachable, nothing_content _⟩)).2
    [.changes [], .polls sampleLink w "q1x", .changes [("ven8", [])]] sampleLink w' "q1x" rfl

/-- A VEN `ven1` that the VTN has forgotten gets a new id. -/
example (psvc : Service P) (polls : P) : ∃ a b d, registerAgain sampleLink sampleVtn welcoming 5000000 psvc false none "ven name" "ven1" "q1x" (some "reg1") ⟨[], [], polls⟩ =
      (⟨[], [("ven7", [("registration_id", .str "reg7")])], polls⟩, [.ok a, .ok b, .ok d]) ∧
    ∀ (w : World) (y : Client), y.venId = .str "ven1" → y.registrationId = textOrNone (some "reg1") → w.net y.log.length = answerOf a →
        w.net (y.log.length + 1) = answerOf b → w.net (y.log.length + 2) = answerOf d →
        (clientPoll w y).1.venId = .str "ven7" ∧ (clientPoll w y).1.registrationId = .str "reg7" ∧ (clientPoll w y).1.pollFrequency = .timedelta 5000000 ∧
        y.log ++ [(.poll (.str "ven1"), answerOf a), (.response (.str "ven1"), answerOf b), (.register (.str "ven1") (textOrNone (some "reg1")), answerOf d)] <+:
          (clientPoll w y).1.log :=
  c92_registered_again psvc sample_reachable (ordinary_of (by decide +kernel)) (fun r hr => by cases hr; exact ordinary_of (by decide +kernel))
    (by rintro ⟨info, r, h1, -⟩; cases h1) (fun txt tree _ _ => c92_unsecured txt tree) (ordinary_of (by decide +kernel)) (ordinary_of (by decide +kernel)) rfl

/-- The same VEN on a TLS connection: it asks three times, in vain. -/
example (psvc : Service P) (polls : P) (w w' w'' : World) (y : Client) (h1 : y.venId = .str "ven1") (h2 : y.registrationId = .str "reg1") :
    (registrarRun sampleVtn welcoming 5000000 psvc true (some "AA:BB") "ven name" (⟨[], [], polls⟩, y)
      ([(sampleLink, w, "q1x"), (sampleLink, w', "q1x"), (sampleLink, w'', "q1x")].map (fun s => .polls s.1 s.2.1 s.2.2))).1 = ⟨[], [], polls⟩ :=
  (c92_secure_violated (lib := plainLib) h1 h2 (ordinary_of (by decide +kernel)) (ordinary_of (by decide +kernel)) (ordinary_of (by decide +kernel)) rfl rfl _
    (fun s hs => by
      simp only [List.mem_cons, List.not_mem_nil, or_false] at hs
      rcases hs with rfl | rfl | rfl <;> exact ⟨rfl, sample_reachable⟩)).1

end Openleadr
