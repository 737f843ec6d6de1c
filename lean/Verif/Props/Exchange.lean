import Verif.Lemmas.Exchange
import Verif.Lemmas.Identifiers
import Verif.Props.MessageChanges
import Verif.Props.RegistrationServer
/-! Property C84: a registration works from end to end. -/
namespace Openleadr

/-! ### The request -/

/-- What the VTN is to get of a registration: every argument under its name; ids that are `None` are left out, and the address is the text `None` if
    there is none. -/
def RegisterArgs.sent (a : RegisterArgs) : RegistrationP where
  requestId := a.requestId
  registrationId := a.registrationId
  venId := a.venId
  profileName := a.profileName
  transportName := a.transportName
  transportAddress := a.transportAddress.getD "None"
  reportOnly := a.reportOnly
  xmlSignature := a.xmlSignature
  venName := a.venName
  httpPullModel := a.httpPullModel

/-- The payload as it is meant: without the ids that are `None`. -/
def RegisterArgs.meant (a : RegisterArgs) : Dict :=
  [("request_id", .str a.requestId)] ++ entry? "registration_id" (text? a.registrationId) ++ entry? "ven_id" (text? a.venId) ++
  [("profile_name", .str a.profileName), ("transport_name", .str a.transportName), ("transport_address", textOrNone a.transportAddress),
    ("report_only", .bool a.reportOnly), ("xml_signature", .bool a.xmlSignature), ("ven_name", .str a.venName),
    ("http_pull_model", .bool a.httpPullModel)]

/-- All texts are ordinary ones. -/
structure RegisterArgs.Good (lib : Lib) (a : RegisterArgs) : Prop where
  requestId : Ordinary lib a.requestId
  registrationId : ∀ x, a.registrationId = some x → Ordinary lib x
  venId : ∀ x, a.venId = some x → Ordinary lib x
  profileName : Ordinary lib a.profileName
  transportName : Ordinary lib a.transportName
  transportAddress : ∀ x, a.transportAddress = some x → Ordinary lib x
  venName : Ordinary lib a.venName

theorem payload_conforms (a : RegisterArgs) : Conforms (.dict a.payload) (.dict a.meant) := by
  refine conforms_keys ["request_id", "ven_name", "ven_id", "http_pull_model", "xml_signature", "report_only", "profile_name", "transport_name",
      "transport_address", "registration_id"] (fun k hk => ?_) (fun k hk => ?_)
  · simp only [List.mem_cons, List.not_mem_nil, or_false, not_or] at hk
    obtain ⟨h1, h2, h3, h4, h5, h6, h7, h8, h9, h10⟩ := hk
    simp [RegisterArgs.meant, RegisterArgs.payload, Dict.get?_append, Dict.get?_entry?, Dict.get?, Ne.symm h1, Ne.symm h2, Ne.symm h3, Ne.symm h4,
      Ne.symm h5, Ne.symm h6, Ne.symm h7, Ne.symm h8, Ne.symm h9, Ne.symm h10]
  · have same : ∀ k v, Dict.get? a.meant k = some v → Dict.get? a.payload k = some v →
        ∃ x y, Dict.get? a.meant k = some y ∧ Dict.get? a.payload k = some x ∧ Conforms x y := fun k v h1 h2 => ⟨v, v, h1, h2, .same _⟩
    simp only [List.mem_cons, List.not_mem_nil, or_false] at hk
    rcases hk with rfl | rfl | rfl | rfl | rfl | rfl | rfl | rfl | rfl | rfl
    · exact .inl (same _ (.str a.requestId) (by lkd [RegisterArgs.meant]) (by lkd [RegisterArgs.payload]))
    · exact .inl (same _ (.str a.venName) (by lkd [RegisterArgs.meant]) (by lkd [RegisterArgs.payload]))
    · cases hv : a.venId with
      | none => exact .inr (.inl ⟨by lkd [RegisterArgs.meant, hv, text?], by lkd [RegisterArgs.payload, hv, textOrNone], by decide +kernel⟩)
      | some x => exact .inl (same _ (.str x) (by lkd [RegisterArgs.meant, hv, text?]) (by lkd [RegisterArgs.payload, hv, textOrNone]))
    · exact .inl (same _ (.bool a.httpPullModel) (by lkd [RegisterArgs.meant]) (by lkd [RegisterArgs.payload]))
    · exact .inl (same _ (.bool a.xmlSignature) (by lkd [RegisterArgs.meant]) (by lkd [RegisterArgs.payload]))
    · exact .inl (same _ (.bool a.reportOnly) (by lkd [RegisterArgs.meant]) (by lkd [RegisterArgs.payload]))
    · exact .inl (same _ (.str a.profileName) (by lkd [RegisterArgs.meant]) (by lkd [RegisterArgs.payload]))
    · exact .inl (same _ (.str a.transportName) (by lkd [RegisterArgs.meant]) (by lkd [RegisterArgs.payload]))
    · exact .inl (same _ (textOrNone a.transportAddress) (by lkd [RegisterArgs.meant]) (by lkd [RegisterArgs.payload]))
    · cases hv : a.registrationId with
      | none => exact .inr (.inl ⟨by lkd [RegisterArgs.meant, hv, text?], by lkd [RegisterArgs.payload, hv, textOrNone], by decide +kernel⟩)
      | some x => exact .inl (same _ (.str x) (by lkd [RegisterArgs.meant, hv, text?]) (by lkd [RegisterArgs.payload, hv, textOrNone]))

variable {lib : Lib} {now : Int}

/-- **C84**: the VTN receives exactly what the VEN registers with. -/
theorem c84_request_received (sound : lib.Sound) {a : RegisterArgs} (h : a.Good lib) :
    Received lib now "oadrCreatePartyRegistration" a.payload a.sent.dict := by
  have haddr : ∀ n, Carries lib n a.meant (leaf "oadr:oadrTransportAddress" ["transport_address"]) "oadrTransportAddress" ["transport_address"]
      [("transport_address", .str (a.transportAddress.getD "None"))] := by
    intro n
    cases ht : a.transportAddress with
    | none => exact carries_none sound "oadrTransportAddress" "transport_address" (by lkd [RegisterArgs.meant, ht, textOrNone])
    | some x => exact carries_text "oadrTransportAddress" "transport_address" (by lkd [RegisterArgs.meant, ht, textOrNone]) (h.transportAddress x ht)
  have : Arrives lib now "oadrCreatePartyRegistration" a.meant a.sent.dict := by
    refine arrives_of (by rfl) (fun _ =>
      .cons (carries_text "requestID" "request_id" ?_ h.requestId)
      (.cons (carries_text? "registrationID" "registration_id" ?_ h.registrationId)
      (.cons (carries_text? "venID" "ven_id" ?_ h.venId)
      (.cons (carries_text "oadrProfileName" "profile_name" ?_ h.profileName)
      (.cons (carries_text "oadrTransportName" "transport_name" ?_ h.transportName)
      (.cons (haddr _)
      (.cons (carries_bool "oadrReportOnly" "report_only" a.reportOnly ?_)
      (.cons (carries_bool "oadrXmlSignature" "xml_signature" a.xmlSignature ?_)
      (.cons (carries_text "oadrVenName" "ven_name" ?_ h.venName)
      (.cons (carries_bool "oadrHttpPullModel" "http_pull_model" a.httpPullModel ?_) .nil))))))))))
      (by simp [RegistrationP.dict, RegisterArgs.sent]) (by simp [RegistrationP.dict, RegisterArgs.sent])
    all_goals lkd [RegisterArgs.meant]
  exact this _ (payload_conforms a)

/-! ### The reply -/

/-- The reply of the service, with the ids as they are given by the handler. -/
def registrationReply (c : Config) (request : Value) (profile transport : String) (v r : Option Value) (freq : Int) : Dict :=
  [("response", .dict [("response_code", .int 200), ("response_description", .str "OK"), ("request_id", request)])] ++
  entry? "registration_id" r ++ entry? "ven_id" v ++
  [("vtn_id", .str c.vtnId), ("profiles", .list [.dict [("profile_name", .str profile), ("transports", .list [.dict [("transport_name", .str transport)]])]]),
   ("requested_oadr_poll_freq", .timedelta freq)]

/-- What the VEN receives of it, with the ids as they are received. -/
def replyReceived (c : Config) (request : String) (profile transport : String) (v r : Value) (freq : Int) : Dict :=
  [("response", .dict [("response_code", .int 200), ("response_description", .str "OK"), ("request_id", .str request)]), ("registration_id", r), ("ven_id", v),
   ("vtn_id", .str c.vtnId), ("profiles", .list [.dict [("profile_name", .str profile), ("transports", .list [.dict [("transport_name", .str transport)]])]]),
   ("requested_oadr_poll_freq", .timedelta freq)]

/-- An id in the reply, and what it is received as. -/
inductive IdReceived (lib : Lib) (key : String) : Option Value → Value → Prop
  | missing : IdReceived lib key none .none
  | some (v x : Value) : Wired lib key .plain v x → IdReceived lib key (some v) x

theorem ordinary_OK (sound : lib.Sound) : Ordinary lib "OK" := by
  refine ⟨onWire_of (by decide +kernel), ?_, by decide, by decide⟩
  rintro ⟨sign, body, h, hs, -, hb⟩
  have hO : lib.isDigit 'O' = false := sound.letters 'O' (by decide +kernel)
  rcases hs with rfl | rfl
  · have hm : 'O' ∈ body := by
      rw [List.nil_append] at h
      rw [← h]
      decide +kernel
    rcases hb 'O' hm with h | h
    · rw [hO] at h; cases h
    · exact absurd h (by decide)
  · have := congrArg List.head? h
    exact absurd this (by simp)

theorem reply_arrives (sound : lib.Sound) (c : Config) {request profile transport : String} {v r : Option Value} {x y : Value} {freq : Int}
    (hq : Ordinary lib request) (hp : Ordinary lib profile) (ht : Ordinary lib transport) (hc : Ordinary lib c.vtnId) (hf : Spans freq)
    (hv : IdReceived lib "ven_id" v x) (hr : IdReceived lib "registration_id" r y) :
    Arrives lib now "oadrCreatedPartyRegistration" (registrationReply c (.str request) profile transport v r freq)
      (replyReceived c request profile transport x y freq) := by
  have opt : ∀ (n : Nat) {s : Option Value} {x : Value} {name key key' : String} {env : Dict} (hl : lookup env [key'] = .ok s)
      (hs : IdReceived lib key' s x) (hf : leafFacts name [] key key' = true) (he : emptyFacts name [] key key' = true),
      Carries lib n env (.cond (.given [key']) [leaf name [key']] [.empty (.fixed name) []]) key [key'] [(key', x)] := by
    intro n s x name key key' env hl hs hf he
    cases hs with
    | missing => exact carries_no (surely_given hl (by simp)) (carries_empty key key' he)
    | some v x hw => exact carries_yes (surely_given hl (by simp [hw.given])) (carries_leaf key key' hl hw hf)
  refine arrives_of (by rfl) (fun n => .cons (carries_response sound (r := ⟨200, "OK", request⟩) ⟨ordinary_OK sound, hq⟩ (by lkd [registrationReply, ResponseP.dict]))
    (.cons (opt _ (key := "registrationID") (by lkd [registrationReply]) hr (by decide +kernel) (by decide +kernel))
    (.cons (opt _ (key := "venID") (by lkd [registrationReply]) hv (by decide +kernel) (by decide +kernel))
    (.cons (carries_text "vtnID" "vtn_id" (by lkd [registrationReply]) hc)
    (.cons (carries_profiles (ps := [⟨profile, [transport]⟩]) (by simp) (by
        intro p hp'
        simp only [List.mem_singleton] at hp'
        subst hp'
        exact ⟨hp, by simp, by simpa using ht⟩) (by lkd [registrationReply, ProfileP.dict]))
    (.cons (carries_yes (surely_given (v := some (.timedelta freq)) (by lkd [registrationReply]) (by simp))
      (carries_spanIn "oadrRequestedOadrPollFreq" "requested_oadr_poll_freq" (by lkd [registrationReply]) hf)) .nil))))))
    (by simp [replyReceived, ResponseP.dict, ProfileP.dict]) (by simp [replyReceived])

/-- The entries of a finished reply. -/
theorem completed_get (c : Config) (m P : Dict) (k : String) :
    Dict.get? (completed c m (finishPayload c m P)) k =
      if k = "vtn_id" then some (.str c.vtnId)
      else if k = "ven_id" then
        some (if ((Dict.get? P "ven_id").getD .none).truthy then (Dict.get? P "ven_id").getD .none
          else match Dict.get? m "ven_id" with | some v => v | none => (Dict.get? P "ven_id").getD .none)
      else if k = "response" then some (.dict [("request_id", (Dict.get? m "request_id").getD .none), ("response_code", .int 200),
        ("response_description", .str "OK")])
      else if k = "request_id" then some (.str c.newId)
      else Dict.get? P k := by
  have hresp : Dict.get? (finishPayload c m P) "response" = some (.dict [("request_id", (Dict.get? m "request_id").getD .none), ("response_code", .int 200),
        ("response_description", .str "OK")]) := by
    unfold finishPayload
    simp only []
    rw [Dict.get?_set_other _ _ _ _ (by decide), Dict.get?_set_self]
  have hreq : Dict.get? (finishPayload c m P) "request_id" = some (.str c.newId) := by
    unfold finishPayload
    simp only []
    rw [Dict.get?_set_self]
  have hhas : Dict.has (finishPayload c m P) "response" = true := by simp [Dict.has, hresp]
  have hven := finish_ven c m P
  have hset : Dict.get? (Dict.set (finishPayload c m P) "vtn_id" (.str c.vtnId)) "ven_id" = Dict.get? (finishPayload c m P) "ven_id" :=
    Dict.get?_set_other _ _ _ _ (by decide)
  unfold completed
  simp only [hhas, if_true]
  by_cases hv : k = "ven_id"
  · subst hv
    rw [show (if "ven_id" = "vtn_id" then some (Value.str c.vtnId) else _) = _ from if_neg (by decide), if_pos rfl]
    cases hg : Dict.get? (finishPayload c m P) "ven_id" with
    | some v =>
      rw [if_pos (by simp only [Dict.has, hset, hg, Option.isSome_some]), hset, hg]
      rw [hg] at hven
      split at hven
      · rename_i ht; rw [if_pos ht, ← hven]; rfl
      · rename_i ht
        rw [if_neg ht]
        cases hm : Dict.get? m "ven_id" with
        | some x => rw [hm] at hven; simpa using hven
        | none => rw [hm] at hven; simp only [] at hven ⊢; rw [← hven]; rfl
    | none =>
      rw [if_neg (by simp [Dict.has, hset, hg]), Dict.get?_set_self]
      rw [hg] at hven
      split at hven
      · rename_i ht; rw [← hven] at ht; simp [Value.truthy] at ht
      · rename_i ht
        rw [if_neg ht]
        cases hm : Dict.get? m "ven_id" with
        | some x => rw [hm] at hven; cases hven
        | none => rw [hm] at hven; simp only [] at hven; rw [← hven]
  · have hdrop : Dict.get? (if Dict.has (Dict.set (finishPayload c m P) "vtn_id" (.str c.vtnId)) "ven_id" then
        Dict.set (finishPayload c m P) "vtn_id" (.str c.vtnId)
      else Dict.set (Dict.set (finishPayload c m P) "vtn_id" (.str c.vtnId)) "ven_id" ((Dict.get? m "ven_id").getD .none)) k =
        Dict.get? (Dict.set (finishPayload c m P) "vtn_id" (.str c.vtnId)) k := by
      split
      · rfl
      · rw [Dict.get?_set_other _ _ _ _ hv]
    rw [hdrop]
    by_cases h1 : k = "vtn_id"
    · subst h1; rw [if_pos rfl, Dict.get?_set_self]
    · rw [if_neg h1, if_neg hv, Dict.get?_set_other _ _ _ _ h1]
      by_cases h2 : k = "response"
      · subst h2; rw [if_pos rfl, hresp]
      · rw [if_neg h2]
        by_cases h3 : k = "request_id"
        · subst h3; rw [if_pos rfl, hreq]
        · rw [if_neg h3, finish_get _ _ _ _ (by simp [h1, hv, h2, h3])]

/-- What the service makes of the ids (registration_service.py:97-116). -/
def registrationFields (profile transport : String) (v r : Option Value) (freq : Int) : Dict :=
  entry? "ven_id" v ++ entry? "registration_id" r ++
  [("profiles", .list [.dict [("profile_name", .str profile), ("transports", .list [.dict [("transport_name", .str transport)]])]]),
   ("requested_oadr_poll_freq", .timedelta freq)]

/-- The VEN id in the reply: that of the handler, or else that of the request. -/
def venOf (v : Option Value) (asked : Option String) : Option Value := match v with | some v => some v | none => text? asked

theorem withPeer_get (secure : Bool) (peer : Option String) (type : String) (m : Dict) (k : String) (hk : k ≠ "fingerprint") :
    Dict.get? (withPeer secure peer type m) k = Dict.get? m k := by
  unfold withPeer
  split
  · rw [Dict.get?_set_other _ _ _ _ hk]
  · rfl

theorem created_reads : tCreatedPartyRegistration.reads = ["response", "response", "response", "registration_id", "registration_id", "ven_id", "ven_id", "vtn_id",
    "profiles", "profile", "profile", "transport", "requested_oadr_poll_freq", "requested_oadr_poll_freq"] := by decide +kernel

/-- The reply of the service in its order, without what the template does not read. -/
def finishedReply (c : Config) (a : RegisterArgs) (v r : Option Value) (freq : Int) : Dict :=
  [("response", .dict [("request_id", .str a.requestId), ("response_code", .int 200), ("response_description", .str "OK")])] ++
    entry? "registration_id" r ++ [("ven_id", v.getD .none), ("vtn_id", .str c.vtnId),
    ("profiles", .list [.dict [("profile_name", .str a.profileName), ("transports", .list [.dict [("transport_name", .str a.transportName)]])]]),
    ("requested_oadr_poll_freq", .timedelta freq)]

theorem finishedReply_agrees (c : Config) {a : RegisterArgs} (m : Dict) {v r : Option Value} {freq : Int}
    (hm : ∀ k, k ≠ "fingerprint" → Dict.get? m k = Dict.get? a.sent.dict k) (hv' : ∀ v', v = some v' → v'.truthy = true) :
    AgreeOn tCreatedPartyRegistration.reads (completed c m (finishPayload c m (registrationFields a.profileName a.transportName v r freq)))
      (finishedReply c a (venOf v a.venId) r freq) := by
  have hmq : Dict.get? m "request_id" = some (.str a.requestId) := by
    rw [hm _ (by decide)]; simp [RegistrationP.dict, RegisterArgs.sent, Dict.get?]
  have hmv : Dict.get? m "ven_id" = text? a.venId := by
    rw [hm _ (by decide)]; simp [RegistrationP.dict, RegisterArgs.sent, Dict.get?_append, Dict.get?_entry?, Dict.get?]
  have hpv : Dict.get? (registrationFields a.profileName a.transportName v r freq) "ven_id" = v := by
    simp [registrationFields, Dict.get?_append, Dict.get?_entry?, Dict.get?]
  have e3 : Dict.get? (finishedReply c a (venOf v a.venId) r freq) "ven_id" = some ((venOf v a.venId).getD .none) := by
    simp [finishedReply, Dict.get?_append, Dict.get?_entry?, Dict.get?]
  have e4 : (if (v.getD .none).truthy = true then v.getD .none else match text? a.venId with | some v => v | none => v.getD .none) =
      (venOf v a.venId).getD .none := by
    cases v with
    | some v' => simp [hv' v' rfl, venOf]
    | none => cases a.venId <;> simp [venOf, text?, Value.truthy]
  rw [created_reads]
  intro k hk
  have hk' : k = "response" ∨ k = "registration_id" ∨ k = "ven_id" ∨ k = "vtn_id" ∨ k = "profiles" ∨ k = "profile" ∨ k = "transport" ∨
      k = "requested_oadr_poll_freq" := by
    simp only [List.mem_cons, List.not_mem_nil, or_false] at hk
    grind
  rw [completed_get]
  rcases hk' with rfl | rfl | rfl | rfl | rfl | rfl | rfl | rfl
  · simp [hmq, finishedReply, Dict.get?]
  · simp [finishedReply, registrationFields, Dict.get?_append, Dict.get?_entry?, Dict.get?]
  · rw [hpv, hmv, e3, ← e4]
    rfl
  all_goals simp [finishedReply, registrationFields, Dict.get?_append, Dict.get?_entry?, Dict.get?]

theorem finishedReply_conforms (c : Config) (a : RegisterArgs) (v r : Option Value) (freq : Int) :
    Conforms (.dict (finishedReply c a v r freq)) (.dict (registrationReply c (.str a.requestId) a.profileName a.transportName v r freq)) := by
  refine conforms_keys ["response", "registration_id", "ven_id", "vtn_id", "profiles", "requested_oadr_poll_freq"] (fun k hk => ?_) (fun k hk => ?_)
  · simp only [List.mem_cons, List.not_mem_nil, or_false, not_or] at hk
    obtain ⟨h1, h2, h3, h4, h5, h6⟩ := hk
    simp [finishedReply, registrationReply, Dict.get?_append, Dict.get?_entry?, Dict.get?, Ne.symm h1, Ne.symm h2, Ne.symm h3, Ne.symm h4, Ne.symm h5, Ne.symm h6]
  · have same : ∀ k v', Dict.get? (registrationReply c (.str a.requestId) a.profileName a.transportName v r freq) k = some v' →
        Dict.get? (finishedReply c a v r freq) k = some v' →
        ∃ x y, Dict.get? (registrationReply c (.str a.requestId) a.profileName a.transportName v r freq) k = some y ∧
          Dict.get? (finishedReply c a v r freq) k = some x ∧ Conforms x y := fun k v' h1 h2 => ⟨v', v', h1, h2, .same _⟩
    simp only [List.mem_cons, List.not_mem_nil, or_false] at hk
    rcases hk with rfl | rfl | rfl | rfl | rfl | rfl
    · refine .inl ⟨.dict [("request_id", .str a.requestId), ("response_code", .int 200), ("response_description", .str "OK")],
        .dict [("response_code", .int 200), ("response_description", .str "OK"), ("request_id", .str a.requestId)], by simp [registrationReply, Dict.get?],
        by simp [finishedReply, Dict.get?], ?_⟩
      refine conforms_keys ["request_id", "response_code", "response_description"] (fun k hk => ?_) (fun k hk => ?_)
      · simp only [List.mem_cons, List.not_mem_nil, or_false, not_or] at hk
        simp [Dict.get?, Ne.symm hk.1, Ne.symm hk.2.1, Ne.symm hk.2.2]
      · simp only [List.mem_cons, List.not_mem_nil, or_false] at hk
        rcases hk with rfl | rfl | rfl
        · exact .inl ⟨.str a.requestId, .str a.requestId, by simp [Dict.get?], by simp [Dict.get?], .same _⟩
        · exact .inl ⟨.int 200, .int 200, by simp [Dict.get?], by simp [Dict.get?], .same _⟩
        · exact .inl ⟨.str "OK", .str "OK", by simp [Dict.get?], by simp [Dict.get?], .same _⟩
    · have e1 : Dict.get? (registrationReply c (.str a.requestId) a.profileName a.transportName v r freq) "registration_id" = r := by
        simp [registrationReply, Dict.get?_append, Dict.get?_entry?, Dict.get?]
      have e2 : Dict.get? (finishedReply c a v r freq) "registration_id" = r := by simp [finishedReply, Dict.get?_append, Dict.get?_entry?, Dict.get?]
      cases r with
      | none => exact .inr (.inr ⟨e1, e2⟩)
      | some r => exact .inl (same _ r e1 e2)
    · have e1 : Dict.get? (registrationReply c (.str a.requestId) a.profileName a.transportName v r freq) "ven_id" = v := by
        simp [registrationReply, Dict.get?_append, Dict.get?_entry?, Dict.get?]
      have e2 : Dict.get? (finishedReply c a v r freq) "ven_id" = some (v.getD .none) := by simp [finishedReply, Dict.get?_append, Dict.get?_entry?, Dict.get?]
      cases v with
      | none => exact .inr (.inl ⟨e1, e2, by decide +kernel⟩)
      | some v => exact .inl (same _ v e1 e2)
    · exact .inl (same _ (.str c.vtnId) (by simp [registrationReply, Dict.get?_append, Dict.get?_entry?, Dict.get?])
        (by simp [finishedReply, Dict.get?_append, Dict.get?_entry?, Dict.get?]))
    · exact .inl (same _ (.list [.dict [("profile_name", .str a.profileName), ("transports", .list [.dict [("transport_name", .str a.transportName)]])]])
        (by simp [registrationReply, Dict.get?_append, Dict.get?_entry?, Dict.get?]) (by simp [finishedReply, Dict.get?_append, Dict.get?_entry?, Dict.get?]))
    · exact .inl (same _ (.timedelta freq) (by simp [registrationReply, Dict.get?_append, Dict.get?_entry?, Dict.get?])
        (by simp [finishedReply, Dict.get?_append, Dict.get?_entry?, Dict.get?]))

/-- The reply of the service as it is received. -/
theorem reply_received (sound : lib.Sound) (c : Config) {a : RegisterArgs} (h : a.Good lib) (m : Dict) {v r : Option Value} {x y : Value} {freq : Int}
    (hm : ∀ k, k ≠ "fingerprint" → Dict.get? m k = Dict.get? a.sent.dict k)
    (hc : Ordinary lib c.vtnId) (hf : Spans freq) (hv : IdReceived lib "ven_id" (venOf v a.venId) x) (hv' : ∀ v', v = some v' → v'.truthy = true)
    (hr : IdReceived lib "registration_id" r y) :
    Received lib now "oadrCreatedPartyRegistration" (completed c m (finishPayload c m (registrationFields a.profileName a.transportName v r freq)))
      (replyReceived c a.requestId a.profileName a.transportName x y freq) :=
  received_agree (t := tCreatedPartyRegistration) (by rfl) (finishedReply_agrees c m hm hv')
    (reply_arrives (now := now) sound c h.requestId h.profileName h.transportName hc hf hv hr _ (finishedReply_conforms c a _ r freq))

/-! ### The whole exchange -/

/-- The schema accepts the messages of a registration on both sides. -/
structure Accepted (k : Link) (c : Config) (a : RegisterArgs) : Prop where
  server : ∀ txt, createMessage k.lib k.clientNow "oadrCreatePartyRegistration" a.payload = .ok txt → ∃ tree, c.validate (String.ofList txt) = .ok tree
  client : ∀ p txt, createMessage k.lib k.serverNow "oadrCreatedPartyRegistration" p = .ok txt → k.accepts (String.ofList txt) = true

/-- What the handler of the user is given: what was sent, and on a secure connection the fingerprint of the VEN. -/
def RegisterArgs.seen (a : RegisterArgs) (secure : Bool) (peer : Option String) : Dict :=
  a.sent.dict ++ (if secure then [("fingerprint", match peer with | some p => .str p | none => .none)] else [])

theorem set_missing {α : Type} (d : List (String × α)) (k : String) (v : α) (h : Dict.get? d k = none) : Dict.set d k v = d ++ [(k, v)] := by
  induction d with
  | nil => rfl
  | cons e d ih =>
    obtain ⟨k', v'⟩ := e
    simp only [Dict.get?] at h
    split at h
    · cases h
    · rename_i hk
      simp only [Dict.set, hk, if_false, List.cons_append]
      rw [ih h]

theorem withPeer_seen (a : RegisterArgs) (secure : Bool) (peer : Option String) :
    withPeer secure peer "oadrCreatePartyRegistration" a.sent.dict = a.seen secure peer := by
  cases secure with
  | false => simp [withPeer, RegisterArgs.seen]
  | true =>
    simp only [withPeer, RegisterArgs.seen, and_self, if_true]
    rw [set_missing _ _ _ (by simp [RegistrationP.dict, Dict.get?_append, Dict.get?_entry?, Dict.get?])]
    cases peer <;> rfl

/-- The exchange, for any ids, when the VEN is authentic or need not be. -/
theorem authentic_exchanged {S : Type} (k : Link) (c : Config) (u : RegistrationUser S) (freq : Int) (cache cache' : NonceCache) (st st' : S) (secure : Bool)
    (peer : Option String) {a : RegisterArgs} {result : Value} {v r : Option Value} {x y : Value} (sound : k.lib.Sound) (h : a.Good k.lib)
    (hc : Ordinary k.lib c.vtnId) (hf : Spans freq) (hacc : Accepted k c a) 
    (hsec : ∀ txt tree, createMessage k.lib k.clientNow "oadrCreatePartyRegistration" a.payload = .ok txt → c.validate (String.ofList txt) = .ok tree →
      (if secure ∧ Dict.has a.sent.dict "ven_id" then authenticate c k.surroundings k.count cache (requestOf secure peer txt) tree a.sent.dict
        else (cache, .ok ())) = (cache', .ok ()))
    (hu : u.onCreate st (a.seen secure peer) = (st', .ok result))
    (hp : registrationPayload (.timedelta freq) (a.seen secure peer) result = .ok (registrationFields a.profileName a.transportName v r freq))
    (hv : IdReceived k.lib "ven_id" (venOf v a.venId) x) (hv' : ∀ v', v = some v' → v'.truthy = true) (hr : IdReceived k.lib "registration_id" r y) :
    exchange k c (registrationService u (.timedelta freq)) cache st secure peer "oadrCreatePartyRegistration" a.payload =
      ((cache', st'), .ok (some (some "oadrCreatedPartyRegistration", replyReceived c a.requestId a.profileName a.transportName x y freq))) := by
  have hg := withPeer_seen a secure peer
  refine exchange_answered (c84_request_received sound h) (fun txt h1 h2 => ?_)
    (reply_received sound c h (a.seen secure peer) (fun k' hk' => ?_) hc hf hv hv' hr) (fun txt ht => hacc.client _ txt ht)
  · obtain ⟨tree, hvt⟩ := hacc.server txt h1
    have hh := answerTo_eq c u (.timedelta freq) st st' _ _ _ hu hp
    rw [← hg] at hh
    rw [← hg]
    refine handle_passed hvt h2 (by decide) (fun v hv => ?_) (by simp [checkKnown]) ?_ hh
    · simp [RegistrationP.dict, Dict.get?_append, Dict.get?_entry?, Dict.get?] at hv
    · exact hsec txt tree h1 hvt
  · rw [← hg, withPeer_get _ _ _ _ _ hk']

/-- The exchange, for any ids. -/
theorem registration_exchanged {S : Type} (k : Link) (c : Config) (u : RegistrationUser S) (freq : Int) (cache : NonceCache) (st st' : S) (secure : Bool)
    (peer : Option String) {a : RegisterArgs} {result : Value} {v r : Option Value} {x y : Value} (sound : k.lib.Sound) (h : a.Good k.lib)
    (hc : Ordinary k.lib c.vtnId) (hf : Spans freq) (hacc : Accepted k c a) (hsec : secure = false ∨ a.venId = none)
    (hu : u.onCreate st (a.seen secure peer) = (st', .ok result))
    (hp : registrationPayload (.timedelta freq) (a.seen secure peer) result = .ok (registrationFields a.profileName a.transportName v r freq))
    (hv : IdReceived k.lib "ven_id" (venOf v a.venId) x) (hv' : ∀ v', v = some v' → v'.truthy = true) (hr : IdReceived k.lib "registration_id" r y) :
    exchange k c (registrationService u (.timedelta freq)) cache st secure peer "oadrCreatePartyRegistration" a.payload =
      ((cache, st'), .ok (some (some "oadrCreatedPartyRegistration", replyReceived c a.requestId a.profileName a.transportName x y freq))) := by
  refine authentic_exchanged k c u freq cache cache st st' secure peer sound h hc hf hacc (fun txt tree _ _ => ?_) hu hp hv hv' hr
  rw [if_neg]
  rintro ⟨h1, h2⟩
  rcases hsec with hs | hs
  · rw [hs] at h1; cases h1
  · simp [Dict.has, RegistrationP.dict, RegisterArgs.sent, hs, text?, Dict.get?_append, Dict.get?_entry?, Dict.get?] at h2

theorem ordinary_truthy {s : String} (h : OnWire s) : (Value.str s).truthy = true := by
  simp only [Value.truthy, decide_eq_true_eq]
  exact h.notEmpty

theorem replyReceived_fields (c : Config) (q p t : String) (x y : Value) (freq : Int) :
    codeOf ⟨replyReceived c q p t x y freq, none, none, none⟩ = some (.int 200) ∧ Dict.get? (replyReceived c q p t x y freq) "ven_id" = some x ∧
    Dict.get? (replyReceived c q p t x y freq) "registration_id" = some y ∧
    Dict.get? (replyReceived c q p t x y freq) "requested_oadr_poll_freq" = some (.timedelta freq) := by
  refine ⟨?_, ?_, ?_, ?_⟩
  · simp [codeOf, replyReceived, Dict.get?]
  all_goals simp [replyReceived, Dict.get?]

/-- What the VEN makes of the reply. -/
theorem registered_by (c : Config) (q p t : String) (x y : Value) (freq : Int) (w : World) (ven : Client) (old : Value)
    (hw : w.net ven.log.length = answerOf (some (some "oadrCreatedPartyRegistration", replyReceived c q p t x y freq))) :
    (createPartyRegistration w ven old).2 = .ok () ∧
    (createPartyRegistration w ven old).1.venId = (if x.truthy then x else ven.venId) ∧
    (createPartyRegistration w ven old).1.registrationId = (if y.truthy then y else .none) ∧
    (y.truthy = true → (createPartyRegistration w ven old).1.pollFrequency = .timedelta freq) := by
  obtain ⟨f1, f2, f3, f4⟩ := replyReceived_fields c q p t x y freq
  obtain ⟨k1, k2, k3, k4, _⟩ := c50_registered w ven old _ _ hw f1
  refine ⟨k1, ?_, ?_, fun hy => ?_⟩
  · rw [k2]; by_cases hx : x.truthy = true <;> simp [fieldOf, f2, Option.filter, hx]
  · rw [k3]; by_cases hy : y.truthy = true <;> simp [fieldOf, f3, Option.filter, hy]
  · rw [k4 (by simp [fieldOf, f3, Option.filter, hy]), f4]; rfl

theorem profiles_seen (a : RegisterArgs) (secure : Bool) (peer : Option String) :
    profilesOf (a.seen secure peer) =
      .ok (.list [.dict [("profile_name", .str a.profileName), ("transports", .list [.dict [("transport_name", .str a.transportName)]])]]) := by
  have h1 : Dict.get? (a.seen secure peer) "transport_name" = some (.str a.transportName) := by
    simp [RegisterArgs.seen, RegistrationP.dict, RegisterArgs.sent, Dict.get?_append, Dict.get?_entry?, Dict.get?]
  have h2 : Dict.get? (a.seen secure peer) "profile_name" = some (.str a.profileName) := by
    simp [RegisterArgs.seen, RegistrationP.dict, RegisterArgs.sent, Dict.get?_append, Dict.get?_entry?, Dict.get?]
  simp only [profilesOf, h1, h2]

variable {S : Type}

/-- **C84**: when the handler of the VTN accepts a registration, it was called with what the VEN sent, and the VEN ends up with just the ids that the handler
    returned and with the poll interval of the VTN. -/
theorem c84_registered (k : Link) (c : Config) (u : RegistrationUser S) (freq : Int) (cache : NonceCache) (st st' : S) (secure : Bool)
    (peer : Option String) {a : RegisterArgs} {v r : String} (sound : k.lib.Sound) (h : a.Good k.lib) (hc : Ordinary k.lib c.vtnId) (hf : Spans freq)
    (hacc : Accepted k c a) (hsec : secure = false ∨ a.venId = none) (hv : Ordinary k.lib v) (hr : Ordinary k.lib r)
    (hu : u.onCreate st (a.seen secure peer) = (st', .ok (.tuple [.str v, .str r]))) :
    ∃ answer, exchange k c (registrationService u (.timedelta freq)) cache st secure peer "oadrCreatePartyRegistration" a.payload = ((cache, st'), .ok answer) ∧
      ∀ (w : World) (ven : Client) (old : Value), w.net ven.log.length = answerOf answer →
        (createPartyRegistration w ven old).2 = .ok () ∧ (createPartyRegistration w ven old).1.venId = .str v ∧
        (createPartyRegistration w ven old).1.registrationId = .str r ∧ (createPartyRegistration w ven old).1.pollFrequency = .timedelta freq := by
  have hp : registrationPayload (.timedelta freq) (a.seen secure peer) (.tuple [.str v, .str r]) =
      .ok (registrationFields a.profileName a.transportName (some (.str v)) (some (.str r)) freq) := by
    simp [registrationPayload, pairOf, profiles_seen, registrationFields, entry?]
  refine ⟨_, registration_exchanged k c u freq cache st st' secure peer sound h hc hf hacc hsec hu hp (.some _ _ (wired_text hv (by decide +kernel)))
    (fun v' e => by cases e; exact ordinary_truthy hv.toOnWire) (.some _ _ (wired_text hr (by decide +kernel))), fun w ven old hw => ?_⟩
  obtain ⟨k1, k2, k3, k4⟩ := registered_by c _ _ _ _ _ _ w ven old hw
  refine ⟨k1, ?_, ?_, k4 (ordinary_truthy hr.toOnWire)⟩
  · rw [k2, if_pos (ordinary_truthy hv.toOnWire)]
  · rw [k3, if_pos (ordinary_truthy hr.toOnWire)]

/-- **C84**: when the handler refuses by `False` or `None`, the VEN is not registered, and keeps its id. -/
theorem c84_refused (k : Link) (c : Config) (u : RegistrationUser S) (freq : Int) (cache : NonceCache) (st st' : S) (secure : Bool)
    (peer : Option String) {a : RegisterArgs} {result : Value} (sound : k.lib.Sound) (h : a.Good k.lib) (hc : Ordinary k.lib c.vtnId) (hf : Spans freq)
    (hacc : Accepted k c a) (hsec : secure = false ∨ a.venId = none) (hres : result = .bool false ∨ result = .none)
    (hu : u.onCreate st (a.seen secure peer) = (st', .ok result)) :
    ∃ answer, exchange k c (registrationService u (.timedelta freq)) cache st secure peer "oadrCreatePartyRegistration" a.payload = ((cache, st'), .ok answer) ∧
      ∀ (w : World) (ven : Client) (old : Value), ven.venId = textOrNone a.venId → w.net ven.log.length = answerOf answer →
        (createPartyRegistration w ven old).2 = .ok () ∧ (createPartyRegistration w ven old).1.venId = ven.venId ∧
        (createPartyRegistration w ven old).1.registrationId = .none := by
  have hp : registrationPayload (.timedelta freq) (a.seen secure peer) result =
      .ok (registrationFields a.profileName a.transportName none none freq) := by
    rw [registrationPayload, if_pos hres]
    simp [profiles_seen, registrationFields, entry?]
  have hid : IdReceived k.lib "ven_id" (venOf none a.venId) (textOrNone a.venId) := by
    cases hv : a.venId with
    | none => exact .missing
    | some x => exact .some _ _ (wired_text (h.venId x hv) (by decide +kernel))
  refine ⟨_, registration_exchanged k c u freq cache st st' secure peer sound h hc hf hacc hsec hu hp hid (fun v' e => by cases e) .missing,
    fun w ven old hven hw => ?_⟩
  obtain ⟨k1, k2, k3, -⟩ := registered_by c _ _ _ _ _ _ w ven old hw
  refine ⟨k1, ?_, by rw [k3]; simp [Value.truthy]⟩
  rw [k2]
  split
  · exact hven.symm
  · rfl

/-- The keys of the arguments that are handed on as they are. -/
def plainArguments : List String :=
  ["request_id", "ven_name", "ven_id", "http_pull_model", "xml_signature", "report_only", "profile_name", "transport_name", "registration_id"]

theorem sent_plain (a : RegisterArgs) (k : String) (hk : k ∈ plainArguments) (v : Value) :
    (Dict.get? a.payload k = some v → v ≠ .none → Dict.get? a.sent.dict k = some v) ∧ (Dict.get? a.sent.dict k = some v → Dict.get? a.payload k = some v) := by
  have same : ∀ k w, Dict.get? a.payload k = some w → Dict.get? a.sent.dict k = some w →
      (Dict.get? a.payload k = some v → v ≠ .none → Dict.get? a.sent.dict k = some v) ∧ (Dict.get? a.sent.dict k = some v → Dict.get? a.payload k = some v) := by
    intro k w h1 h2
    rw [h1, h2]
    exact ⟨fun h _ => h, fun h => h⟩
  have missing : ∀ k, Dict.get? a.payload k = some .none → Dict.get? a.sent.dict k = none →
      (Dict.get? a.payload k = some v → v ≠ .none → Dict.get? a.sent.dict k = some v) ∧ (Dict.get? a.sent.dict k = some v → Dict.get? a.payload k = some v) := by
    intro k h1 h2
    rw [h1, h2]
    exact ⟨fun h hn => absurd (Option.some.inj h).symm hn, fun h => by cases h⟩
  simp only [plainArguments, List.mem_cons, List.not_mem_nil, or_false] at hk
  rcases hk with rfl | rfl | rfl | rfl | rfl | rfl | rfl | rfl | rfl
  · exact same _ (.str a.requestId) (by lkd [RegisterArgs.payload]) (by lkd [RegistrationP.dict, RegisterArgs.sent])
  · exact same _ (.str a.venName) (by lkd [RegisterArgs.payload]) (by lkd [RegistrationP.dict, RegisterArgs.sent])
  · cases hv : a.venId with
    | none => exact missing _ (by lkd [RegisterArgs.payload, hv, textOrNone]) (by lkd [RegistrationP.dict, RegisterArgs.sent, hv, text?])
    | some x => exact same _ (.str x) (by lkd [RegisterArgs.payload, hv, textOrNone]) (by lkd [RegistrationP.dict, RegisterArgs.sent, hv, text?])
  · exact same _ (.bool a.httpPullModel) (by lkd [RegisterArgs.payload]) (by lkd [RegistrationP.dict, RegisterArgs.sent])
  · exact same _ (.bool a.xmlSignature) (by lkd [RegisterArgs.payload]) (by lkd [RegistrationP.dict, RegisterArgs.sent])
  · exact same _ (.bool a.reportOnly) (by lkd [RegisterArgs.payload]) (by lkd [RegistrationP.dict, RegisterArgs.sent])
  · exact same _ (.str a.profileName) (by lkd [RegisterArgs.payload]) (by lkd [RegistrationP.dict, RegisterArgs.sent])
  · exact same _ (.str a.transportName) (by lkd [RegisterArgs.payload]) (by lkd [RegistrationP.dict, RegisterArgs.sent])
  · cases hv : a.registrationId with
    | none => exact missing _ (by lkd [RegisterArgs.payload, hv, textOrNone]) (by lkd [RegistrationP.dict, RegisterArgs.sent, hv, text?])
    | some x => exact same _ (.str x) (by lkd [RegisterArgs.payload, hv, textOrNone]) (by lkd [RegistrationP.dict, RegisterArgs.sent, hv, text?])

theorem sent_other (a : RegisterArgs) (k : String) (hk : k ∉ plainArguments) (h : k ≠ "transport_address") :
    Dict.get? a.payload k = none ∧ Dict.get? a.sent.dict k = none := by
  simp only [plainArguments, List.mem_cons, List.not_mem_nil, or_false, not_or] at hk
  obtain ⟨n1, n2, n3, n4, n5, n6, n7, n8, n9⟩ := hk
  simp [RegisterArgs.payload, RegistrationP.dict, RegisterArgs.sent, Dict.get?_append, Dict.get?_entry?, Dict.get?, Ne.symm n1, Ne.symm n2, Ne.symm n3,
    Ne.symm n4, Ne.symm n5, Ne.symm n6, Ne.symm n7, Ne.symm n8, Ne.symm n9, Ne.symm h]

/-- **C84**: the handler sees every argument that is not `None` under its name, and nothing else but the address and the fingerprint. -/
theorem c84_seen_exactly (a : RegisterArgs) (secure : Bool) (peer : Option String) :
    (∀ k v, Dict.get? a.payload k = some v → v ≠ .none → Dict.get? (a.seen secure peer) k = some v) ∧
    (∀ k v, k ≠ "transport_address" → k ≠ "fingerprint" → Dict.get? (a.seen secure peer) k = some v → Dict.get? a.payload k = some v) ∧
    (secure = true → Dict.get? (a.seen secure peer) "fingerprint" = some (textOrNone peer)) ∧
    (secure = false → Dict.get? (a.seen secure peer) "fingerprint" = none) := by
  have hseen : ∀ k, k ≠ "fingerprint" → Dict.get? (a.seen secure peer) k = Dict.get? a.sent.dict k := by
    intro k hk
    rw [← withPeer_seen, withPeer_get _ _ _ _ _ hk]
  refine ⟨fun k v h1 h2 => ?_, fun k v h1 h2 h3 => ?_, fun h => ?_, fun h => ?_⟩
  · by_cases hk : k ∈ plainArguments
    · rw [hseen k (by rintro rfl; revert hk; decide)]
      exact (sent_plain a k hk v).1 h1 h2
    · by_cases ht : k = "transport_address"
      · subst ht
        rw [hseen _ (by decide)]
        cases ha : a.transportAddress with
        | none =>
          have : Dict.get? a.payload "transport_address" = some .none := by lkd [RegisterArgs.payload, ha, textOrNone]
          rw [this] at h1
          exact absurd (Option.some.inj h1).symm h2
        | some x =>
          have : Dict.get? a.payload "transport_address" = some (.str x) := by lkd [RegisterArgs.payload, ha, textOrNone]
          rw [this] at h1
          rw [← h1]
          lkd [RegistrationP.dict, RegisterArgs.sent, ha]
      · rw [(sent_other a k hk ht).1] at h1
        cases h1
  · rw [hseen k h2] at h3
    by_cases hk : k ∈ plainArguments
    · exact (sent_plain a k hk v).2 h3
    · rw [(sent_other a k hk h1).2] at h3
      cases h3
  · subst h
    cases peer <;> simp [RegisterArgs.seen, RegistrationP.dict, RegisterArgs.sent, Dict.get?_append, Dict.get?_entry?, Dict.get?, textOrNone]
  · subst h
    simp [RegisterArgs.seen, RegistrationP.dict, RegisterArgs.sent, Dict.get?_append, Dict.get?_entry?, Dict.get?]

/-- **C84, refuted** for the address: without one (the default), the handler of the VTN is given the text `None` as the address of the VEN. -/
theorem c84_address_violated (sound : lib.Sound) {a : RegisterArgs} (h : a.Good lib) (ha : a.transportAddress = none) :
    Dict.get? a.payload "transport_address" = some .none ∧
    ∃ m, Received lib now "oadrCreatePartyRegistration" a.payload m ∧ Dict.get? m "transport_address" = some (.str "None") := by
  refine ⟨by simp [RegisterArgs.payload, Dict.get?, ha, textOrNone], _, c84_request_received sound h, ?_⟩
  simp [RegistrationP.dict, RegisterArgs.sent, Dict.get?_append, Dict.get?_entry?, Dict.get?, ha]

theorem intText_taken (sound : lib.Sound) (i : Int) : TakenFor lib (String.ofList (intText i)) (.int i) := by
  refine .integer i ((looksInt_iff sound _).1 ?_) (sound.ints i)
  have := plainText_int sound i
  cases e : looksInt lib (String.ofList (intText i)).toList with
  | true => rfl
  | false =>
    rw [plainText, if_neg (by rw [e]; simp)] at this
    split at this
    · split at this <;> simp at this
    · simp at this

/-- The exchange when the handler accepts with ids that are texts of integers. -/
theorem numbers_exchanged (k : Link) (c : Config) (u : RegistrationUser S) (freq : Int) (cache : NonceCache) (st st' : S) (secure : Bool)
    (peer : Option String) {a : RegisterArgs} {i j : Int} (sound : k.lib.Sound) (h : a.Good k.lib) (hc : Ordinary k.lib c.vtnId) (hf : Spans freq)
    (hacc : Accepted k c a) (hsec : secure = false ∨ a.venId = none)
    (hu : u.onCreate st (a.seen secure peer) = (st', .ok (.tuple [.str (String.ofList (intText i)), .str (String.ofList (intText j))]))) :
    ∃ answer, exchange k c (registrationService u (.timedelta freq)) cache st secure peer "oadrCreatePartyRegistration" a.payload = ((cache, st'), .ok answer) ∧
      ∀ (w : World) (ven : Client) (old : Value), w.net ven.log.length = answerOf answer →
        (createPartyRegistration w ven old).1.venId = (if i = 0 then ven.venId else .int i) ∧
        (createPartyRegistration w ven old).1.registrationId = (if j = 0 then .none else .int j) := by
  have hs : ∀ i, OnWire (String.ofList (intText i)) := fun i => safe_onWire _ (intText_ne i) (intText_safe i)
  have hp : registrationPayload (.timedelta freq) (a.seen secure peer) (.tuple [.str (String.ofList (intText i)), .str (String.ofList (intText j))]) =
      .ok (registrationFields a.profileName a.transportName (some (.str (String.ofList (intText i)))) (some (.str (String.ofList (intText j)))) freq) := by
    simp [registrationPayload, pairOf, profiles_seen, registrationFields, entry?]
  refine ⟨_, registration_exchanged k c u freq cache st st' secure peer sound h hc hf hacc hsec hu hp
    (.some _ _ (wired_taken sound (hs i) (intText_taken sound i) (by decide +kernel)))
    (fun v' e => by cases e; exact ordinary_truthy (hs i)) (.some _ _ (wired_taken sound (hs j) (intText_taken sound j) (by decide +kernel))), fun w ven old hw => ?_⟩
  obtain ⟨-, k2, k3, -⟩ := registered_by c _ _ _ _ _ _ w ven old hw
  refine ⟨?_, ?_⟩
  · rw [k2]; by_cases hi : i = 0 <;> simp [Value.truthy, hi]
  · rw [k3]; by_cases hj : j = 0 <;> simp [Value.truthy, hj]

/-- **C84, refuted** for ids that are texts of integers, whichever they are: the VEN ends up with numbers instead of the texts that the handler returned. -/
theorem c84_numbers_violated (k : Link) (c : Config) (u : RegistrationUser S) (freq : Int) (cache : NonceCache) (st st' : S) (secure : Bool)
    (peer : Option String) {a : RegisterArgs} {i j : Int} (sound : k.lib.Sound) (h : a.Good k.lib) (hc : Ordinary k.lib c.vtnId) (hf : Spans freq)
    (hacc : Accepted k c a) (hsec : secure = false ∨ a.venId = none) (hi : i ≠ 0) (hj : j ≠ 0)
    (hu : u.onCreate st (a.seen secure peer) = (st', .ok (.tuple [.str (String.ofList (intText i)), .str (String.ofList (intText j))]))) :
    ∃ answer, exchange k c (registrationService u (.timedelta freq)) cache st secure peer "oadrCreatePartyRegistration" a.payload = ((cache, st'), .ok answer) ∧
      ∀ (w : World) (ven : Client) (old : Value), w.net ven.log.length = answerOf answer →
        (createPartyRegistration w ven old).1.venId = .int i ∧ (createPartyRegistration w ven old).1.registrationId = .int j := by
  obtain ⟨answer, h1, h2⟩ := numbers_exchanged k c u freq cache st st' secure peer sound h hc hf hacc hsec hu
  refine ⟨answer, h1, fun w ven old hw => ?_⟩
  have := h2 w ven old hw
  rwa [if_neg hi, if_neg hj] at this

/-- **C84, refuted** for the registration id `0`: the VTN has registered the VEN, but the VEN takes itself for not registered. -/
theorem c84_zero_violated (k : Link) (c : Config) (u : RegistrationUser S) (freq : Int) (cache : NonceCache) (st st' : S) (secure : Bool)
    (peer : Option String) {a : RegisterArgs} {i : Int} (sound : k.lib.Sound) (h : a.Good k.lib) (hc : Ordinary k.lib c.vtnId) (hf : Spans freq)
    (hacc : Accepted k c a) (hsec : secure = false ∨ a.venId = none)
    (hu : u.onCreate st (a.seen secure peer) = (st', .ok (.tuple [.str (String.ofList (intText i)), .str "0"]))) :
    ∃ answer, exchange k c (registrationService u (.timedelta freq)) cache st secure peer "oadrCreatePartyRegistration" a.payload = ((cache, st'), .ok answer) ∧
      ∀ (w : World) (ven : Client) (old : Value), w.net ven.log.length = answerOf answer → (createPartyRegistration w ven old).1.registrationId = .none := by
  have h0 : "0" = String.ofList (intText 0) := by decide +kernel
  rw [h0] at hu
  obtain ⟨answer, h1, h2⟩ := numbers_exchanged k c u freq cache st st' secure peer sound h hc hf hacc hsec hu
  exact ⟨answer, h1, fun w ven old hw => by simpa using (h2 w ven old hw).2⟩

/-- Both sides of an exchange where the schema accepts every text. -/
def sampleLink : Link where
  lib := plainLib
  clientNow := 0
  serverNow := 0
  accepts := fun _ => true
  surroundings := ⟨fun _ => 0, id⟩
  count := 0

def sampleVtn : Config where
  vtnId := "vtn1"
  verifySignatures := true
  fingerprintLookup := none
  venLookup := none
  validate := fun _ => .ok ⟨.ok "cert", none, ⟨none, none⟩⟩
  parse := fun _ => .error (.other .keyError)
  render := fun _ _ => .ok ""
  newId := "id1"

def sampleRegistration : RegisterArgs where
  venName := "ven name"
  venId := none
  requestId := "q1x"
  reportOnly := true
  transportAddress := some "http://ven.example"

theorem sampleRegistration_good : sampleRegistration.Good plainLib :=
  ⟨ordinary_of (by decide +kernel), by simp [sampleRegistration], by simp [sampleRegistration], ordinary_of (by decide +kernel),
   ordinary_of (by decide +kernel), fun _ h => by cases h; exact ordinary_of (by decide +kernel), ordinary_of (by decide +kernel)⟩

theorem sampleRegistration_accepted : Accepted sampleLink sampleVtn sampleRegistration := ⟨fun _ _ => ⟨_, rfl⟩, fun _ _ _ => rfl⟩

/-- A registration on a secure connection: the user stores the fingerprint and the name of the VEN, and hands out the ids `ven1` and `reg1`. -/
example : ∃ answer, exchange sampleLink sampleVtn
      (registrationService (S := List (Option Value × Option Value))
        ⟨fun st m => ((Dict.get? m "fingerprint", Dict.get? m "ven_name") :: st, .ok (.tuple [.str "ven1", .str "reg1"])), fun s _ => (s, .ok .nothing), none⟩
        (.timedelta 5000000)) [] [] true (some "AA:BB") "oadrCreatePartyRegistration" sampleRegistration.payload =
      (([], [(some (.str "AA:BB"), some (.str "ven name"))]), .ok answer) ∧
    ∀ (w : World) (ven : Client) (old : Value), w.net ven.log.length = answerOf answer →
      (createPartyRegistration w ven old).2 = .ok () ∧ (createPartyRegistration w ven old).1.venId = .str "ven1" ∧
      (createPartyRegistration w ven old).1.registrationId = .str "reg1" ∧ (createPartyRegistration w ven old).1.pollFrequency = .timedelta 5000000 :=
  c84_registered sampleLink sampleVtn _ 5000000 [] [] _ true (some "AA:BB") plainLib_sound sampleRegistration_good (ordinary_of (by decide +kernel))
    (spans_of (by decide +kernel)) sampleRegistration_accepted (.inr rfl) (ordinary_of (by decide +kernel)) (ordinary_of (by decide +kernel)) (by rfl)

end Openleadr
