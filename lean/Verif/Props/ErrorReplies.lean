import Verif.Props.Recognition
/-! Property C86: errors of the VTN reach the VEN. -/
namespace Openleadr

variable {S : Type} {lib : Lib} {now : Int}

/-- An element whose text is empty is read as `None`. -/
theorem carries_emptyText {n : Nat} {env : Dict} {name : String} (key key' : String) {path : List String} {attrs : List (String × String)}
    (hl : lookup env path = .ok (some (.str ""))) (hf : emptyFacts name attrs key key' = true := by decide +kernel) :
    Carries lib n env (leaf name path .plain attrs) key [key'] [(key', .none)] := by
  simp only [emptyFacts, Bool.and_eq_true, decide_eq_true_eq, Bool.not_eq_true'] at hf
  obtain ⟨⟨⟨⟨⟨f1, f2⟩, f3⟩, f4⟩, f5⟩, f6⟩ := hf
  refine carries_one .none ?_ (by simp) (appends_none lib _ key key' f2 f3 f4 f6) (by simp [Dict.keys])
  have hp : (pyText lib (some (.str ""))).toList = [] := rfl
  have hc : clean [] = true := by decide +kernel
  simp [leaf, sure, sureAll, hl, leafAt, isLeaf, applyFilter, hp, hc, sureKey, f1, elementValue, f5, charsOf, childDict, closeValue, strip]

/-- An undefined VEN id is written like an empty one. -/
theorem response_undefined (p : Dict) (hp : Dict.get? p "ven_id" = none) :
    createMessage lib now "oadrResponse" p = createMessage lib now "oadrResponse" (p ++ [("ven_id", .str "")]) := by
  have hl : lookup p ["ven_id"] = .ok none := by simp [lookup, walk, hp]
  have hl' : lookup (p ++ [("ven_id", .str "")]) ["ven_id"] = .ok (some (.str "")) := by simp [lookup, walk, Dict.get?_append, hp, Dict.get?]
  have hv : render lib p (leaf "ei:venID" ["ven_id"]) = render lib (p ++ [("ven_id", .str "")]) (leaf "ei:venID" ["ven_id"]) := by
    simp only [leaf, render, renderAll, tagText, hl, hl', applyFilter]
    rfl
  have hr : ∀ t : Tmpl, t.reads.all (· != "ven_id") = true → render lib p t = render lib (p ++ [("ven_id", .str "")]) t := by
    intro t ht
    refine render_agree lib t _ _ (fun k hk => ?_)
    have : k ≠ "ven_id" := by
      have := List.all_eq_true.mp ht k hk
      simpa using this
    simp [Dict.get?_append, Dict.get?, Ne.symm this]
  have htmpl : render lib p tResponse = render lib (p ++ [("ven_id", .str "")]) tResponse := by
    have h1 := hr (el "ei:eiResponse" [leaf "ei:responseCode" ["response", "response_code"], leaf "ei:responseDescription" ["response", "response_description"],
      .cond (.given ["response", "request_id"]) [requestId ["response", "request_id"]] [.empty (.fixed "requestID") [("xmlns", nsPyld)]]]) (by decide +kernel)
    have hall : ∀ t t' : Tmpl, render lib p t = render lib (p ++ [("ven_id", .str "")]) t → render lib p t' = render lib (p ++ [("ven_id", .str "")]) t' →
        ∀ name attrs, render lib p (el name [t, t'] attrs) = render lib (p ++ [("ven_id", .str "")]) (el name [t, t'] attrs) := by
      intro t t' h h' name attrs
      simp only [el, render, renderAll, h, h', tagText]
    have hone : ∀ t : Tmpl, render lib p t = render lib (p ++ [("ven_id", .str "")]) t →
        ∀ name attrs, render lib p (el name [t] attrs) = render lib (p ++ [("ven_id", .str "")]) (el name [t] attrs) := by
      intro t h name attrs
      simp only [el, render, renderAll, h, tagText]
    exact hone _ (hall _ _ h1 hv _ _) _ _
  have ht : Dict.get? templates "oadrResponse" = some tResponse := by rfl
  simp only [createMessage, preflightMessage, show ("oadrResponse" = "oadrDistributeEvent") = False from by decide,
    show ("oadrResponse" = "oadrRegisterReport") = False from by decide, if_false, renderMessage, ht, htmpl]

/-- **C86**: the code and the description of an error are received as they are. -/
theorem c86_received (sound : lib.Sound) {type : String} (ht : type ≠ "oadrRequestEvent") (code : Nat) {description : String} (hd : Ordinary lib description) :
    (errorResponse type code description).1 = "oadrResponse" ∧
    Received lib now "oadrResponse" (errorResponse type code description).2
      [("response", .dict [("response_code", .int code), ("response_description", .str description), ("request_id", .none)]), ("ven_id", .none)] := by
  refine ⟨by simp [errorResponse, ht], ?_⟩
  have harr : Arrives lib now "oadrResponse"
      [("response", .dict (LooseResponseP.dict ⟨code, description, none⟩)), ("ven_id", .str "")]
      [("response", .dict (LooseResponseP.received ⟨code, description, none⟩)), ("ven_id", .none)] :=
    arrives_of (by rfl) (fun _ => .cons (carries_looseResponse sound (r := ⟨code, description, none⟩) ⟨hd, by simp⟩ (by lk)) (.cons (carries_emptyText "venID" "ven_id" (by lk)) .nil))
      (by simp) (by simp)
  obtain ⟨txt, h1, h2⟩ := harr _ (.same _)
  refine ⟨txt, ?_, h2⟩
  rw [← h1, response_undefined _ (by simp [errorResponse, Dict.get?])]
  rfl

/-- The answer to an error, as the VEN receives it. -/
def errorReceived (code : Nat) (description : String) : Dict :=
  [("response", .dict [("response_code", .int code), ("response_description", .str description), ("request_id", .none)]), ("ven_id", .none)]

/-- **C86**: whenever the VTN raises an OpenADR error for a message, in its checks or in the handler of the user, the VEN receives an oadrResponse with just
    this code and description; for every message but oadrRequestEvent. -/
theorem c86_exchange (k : Link) (c : Config) (svc : Service S) (cache cache' : NonceCache) (st st' : S) (secure : Bool) (peer : Option String) (type : String)
    (p m : Dict) (code : Nat) (description : String) (sound : k.lib.Sound) (hs : Received k.lib k.clientNow type p m) (ht : type ≠ "oadrRequestEvent")
    (hd : Ordinary k.lib description)
    (hp : ∀ txt, createMessage k.lib k.clientNow type p = .ok txt →
      process (wired c k.lib k.serverNow) svc k.surroundings k.count cache st (requestOf secure peer txt) =
        ((cache', st'), ⟨some type, .error (.protocol code description)⟩))
    (hacc : ∀ p txt, createMessage k.lib k.serverNow "oadrResponse" p = .ok txt → k.accepts (String.ofList txt) = true) :
    exchange k c svc cache st secure peer type p = ((cache', st'), .ok (some (some "oadrResponse", errorReceived code description))) := by
  obtain ⟨h1, h2⟩ := c86_received (now := k.serverNow) sound ht code hd
  refine exchange_answered hs (fun txt h3 _ => ?_) h2 (fun txt ht => hacc _ txt ht)
  simp only [handle, hp txt h3, reply]
  rw [← h1]

/-- **C86**: an error that the handler of the user raises. -/
theorem c86_raised (k : Link) (c : Config) (svc : Service S) (cache : NonceCache) (st st' : S) (peer : Option String) (type : String)
    (p m : Dict) (code : Nat) (description : String) (h : S → Dict → S × Except Exn Returned) (sound : k.lib.Sound)
    (hs : Received k.lib k.clientNow type p m) (ht : type ≠ "oadrRequestEvent" ∧ type ≠ "oadrResponse") (hd : Ordinary k.lib description)
    (hval : ∀ txt, createMessage k.lib k.clientNow type p = .ok txt → ∃ tree, c.validate (String.ofList txt) = .ok tree)
    (hn : ∀ v, Dict.get? m "vtn_id" = some v → v = .none ∨ v = .str c.vtnId) (hk : checkKnown c type m = .ok ())
    (hh : Dict.get? svc.handlers type = some h) (hr : h st m = (st', .error (.protocol code description)))
    (hacc : ∀ p txt, createMessage k.lib k.serverNow "oadrResponse" p = .ok txt → k.accepts (String.ofList txt) = true) :
    exchange k c svc cache st false peer type p = ((cache, st'), .ok (some (some "oadrResponse", errorReceived code description))) := by
  have hs' := hs
  obtain ⟨txt0, g1, g2⟩ := hs
  refine c86_exchange k c svc cache cache st st' false peer type p m code description sound hs' ht.1 hd (fun txt h1 => ?_) hacc
  rw [g1] at h1
  cases h1
  obtain ⟨tree, hv⟩ := hval txt0 g1
  have := process_unsecured (wired c k.lib k.serverNow) svc k.surroundings k.count cache st peer (String.ofList txt0) (parseText_received g2) hk
  have hv' : (wired c k.lib k.serverNow).validate (String.ofList txt0) = .ok tree := hv
  have hn' : ¬ ∃ v, Dict.get? m "vtn_id" = some v ∧ v ≠ .none ∧ v ≠ .str (wired c k.lib k.serverNow).vtnId := by
    rintro ⟨v, h1, h2, h3⟩
    rcases hn v h1 with h | h
    · exact h2 h
    · exact h3 h
  have hm : handleMessage (wired c k.lib k.serverNow) svc st type m = (st', .error (.protocol code description)) := by
    unfold handleMessage
    rw [hh]
    simp only [hr]
  rw [requestOf, this, hv']
  simp only []
  rw [if_neg ht.2, if_neg hn', hm]

/-- **C86**: a VEN whose registration is answered with an error stays as it is. -/
theorem c86_not_registered (code : Nat) (description : String) (hc : code ≠ 200) (w : World) (ven : Client) (old : Value)
    (hw : w.net ven.log.length = answerOf (some (some "oadrResponse", errorReceived code description))) :
    (createPartyRegistration w ven old).2 = .ok () ∧
    (createPartyRegistration w ven old).1 = { ven with log := ven.log ++ [(.register ven.venId old, w.net ven.log.length)] } := by
  have hcode : codeOf ⟨errorReceived code description, none, none, none⟩ = some (.int code) := by simp [codeOf, errorReceived, Dict.get?]
  refine ⟨?_, c50_refused w ven old ?_⟩
  · have hu : unpack (perform w ven (.register ven.venId old)).2 = .ok (some "oadrResponse", ⟨errorReceived code description, none, none, none⟩) := by
      simp [perform, hw, answerOf, checkAnswer, errorReceived, Dict.get?, unpack, Dict.has]
    unfold createPartyRegistration
    rw [hu]
    simp only [codeOf_ok.mpr hcode]
    split <;> rfl
  · rintro ⟨t, p, h1, h2⟩
    rw [hw] at h1
    simp only [answerOf, Option.map_some, Option.some.injEq, Prod.mk.injEq] at h1
    rw [← h1.2, hcode] at h2
    simp only [Option.some.injEq, Value.int.injEq] at h2
    omega

/-- **C86, refuted** for oadrRequestEvent: the error is put into an oadrDistributeEvent without events, which cannot be created; the exception leaves the handler
    of the VTN, and all that the VEN gets is a failed request. -/
theorem c86_events_violated (k : Link) (c : Config) (svc : Service S) (cache cache' : NonceCache) (st st' : S) (secure : Bool) (peer : Option String)
    (p m : Dict) (code : Nat) (description : String) (hs : Received k.lib k.clientNow "oadrRequestEvent" p m)
    (hp : ∀ txt, createMessage k.lib k.clientNow "oadrRequestEvent" p = .ok txt →
      process (wired c k.lib k.serverNow) svc k.surroundings k.count cache st (requestOf secure peer txt) =
        ((cache', st'), ⟨some "oadrRequestEvent", .error (.protocol code description)⟩)) :
    exchange k c svc cache st secure peer "oadrRequestEvent" p = ((cache', st'), .ok (some (none, []))) := by
  obtain ⟨txt, h1, h2⟩ := hs
  have hq := hp txt h1
  simp only [requestOf] at hq
  have hcr : createMessage k.lib k.serverNow "oadrDistributeEvent" [("response", .dict [("response_code", .int code), ("response_description", .str description)])] =
      .error .keyError := by
    rw [createMessage, preflightMessage, if_pos rfl, preflightDistributeEvent, phases]
    rfl
  have hsend : sendMessage (wired c k.lib k.serverNow) "oadrDistributeEvent"
      [("response", .dict [("response_code", .int code), ("response_description", .str description)])] = .error (.other .keyError) := by
    simp only [sendMessage, wired, renderText, hcr]
  simp only [exchange, h1, handle, hq, reply, errorResponse, if_true, hsend, clientReads]

/-- A handler that refuses a poll with an error of its own. -/
example : exchange sampleLink sampleVtn
      (⟨"OadrPoll", [("oadrPoll", fun n _ => (n + 1, .error (.protocol 469 "Not today.")))]⟩ : Service Nat) [] 7 false none "oadrPoll" [("ven_id", .str "ven1")] =
    (([], 8), .ok (some (some "oadrResponse", errorReceived 469 "Not today."))) :=
  c86_raised sampleLink sampleVtn _ [] 7 8 none "oadrPoll" _ _ 469 "Not today." (fun n _ => (n + 1, .error (.protocol 469 "Not today."))) plainLib_sound
    (poll_received (wired_text (ordinary_of (by decide +kernel)) (by decide +kernel))) (by decide) (ordinary_of (by decide +kernel)) (fun _ _ => ⟨_, rfl⟩)
    (by simp [Dict.get?]) (by simp [checkKnown, sampleVtn, Dict.get?]) rfl rfl (fun _ _ _ => rfl)

end Openleadr
