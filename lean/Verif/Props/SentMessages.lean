import Verif.Props.PollAnswers
import Verif.Props.ErrorReplies
import Verif.Props.SyncEvents
/-!
C95, the messages of the client one by one: what the VTN reads in each of them is what the client holds, each id in its own place
(openleadr/client.py:394-667, 1072-1077, 1293-1297).
-/
namespace Openleadr

variable {lib : Lib} {now : Int}

/-- The message is one of this type, and whoever parses it finds these entries, and `None` here for entries that are not there. -/
def Tells (lib : Lib) (now : Int) (message : String × Dict) (type : String) (facts : List (String × Option Value)) : Prop :=
  message.1 = type ∧ ∃ r, Received lib now type message.2 r ∧ ∀ e ∈ facts, Dict.get? r e.1 = e.2

/-- A text with a letter in it is no number. -/
theorem ordinary_lettered (sound : lib.Sound) {s : String} (hl : s.toList.any Char.isAlpha = true) (hw : OnWire s) (h1 : s ≠ "true") (h2 : s ≠ "false") :
    Ordinary lib s := by
  refine ⟨hw, ?_, h1, h2⟩
  rintro ⟨sign, body, h, hs, -, hb⟩
  obtain ⟨c, hc, ha⟩ := List.any_eq_true.mp hl
  have hd := sound.letters c ha
  rw [h, List.mem_append] at hc
  rcases hc with hc | hc
  · rcases hs with rfl | rfl
    · cases hc
    · simp only [List.mem_singleton] at hc
      subst hc
      exact absurd ha (by decide)
  · rcases hb c hc with h' | h'
    · rw [hd] at h'; cases h'
    · subst h'
      exact absurd ha (by decide)

/-- **C95**: a registration names the VEN, and its ids if it has any: what the handler of the VTN is given are the ids that the client holds. -/
theorem c95_register_told (sound : lib.Sound) (d : Dressing) (n : Nat) {ven reg : Option String} (hn : Ordinary lib d.venName) (hq : Ordinary lib (d.ids n))
    (hv : ∀ x, ven = some x → Ordinary lib x) (hr : ∀ x, reg = some x → Ordinary lib x) :
    Tells lib now ((Outgoing.register (textOrNone ven) (textOrNone reg)).message d n) "oadrCreatePartyRegistration"
      [("request_id", some (.str (d.ids n))), ("ven_name", some (.str d.venName)), ("ven_id", ven.map .str), ("registration_id", reg.map .str),
       ("http_pull_model", some (.bool true)), ("report_only", some (.bool false)), ("xml_signature", some (.bool false)),
       ("profile_name", some (.str "2.0b")), ("transport_name", some (.str "simpleHttp"))] := by
  have hp : Ordinary lib "2.0b" := ordinary_lettered sound (by decide +kernel) (onWire_of (by decide +kernel)) (by decide) (by decide)
  have ht : Ordinary lib "simpleHttp" := ordinary_lettered sound (by decide +kernel) (onWire_of (by decide +kernel)) (by decide) (by decide)
  have h := c84_request_received (now := now) sound
    (a := { venName := d.venName, venId := ven, requestId := d.ids n, registrationId := reg }) ⟨hq, hr, hv, hp, ht, by simp, hn⟩
  have hm : (Outgoing.register (textOrNone ven) (textOrNone reg)).message d n = ("oadrCreatePartyRegistration",
      RegisterArgs.payload { venName := d.venName, venId := ven, requestId := d.ids n, registrationId := reg }) := by
    simp only [Outgoing.message, RegisterArgs.payload, show textOrNone none = Value.none from rfl]
  rw [hm]
  refine ⟨rfl, _, h, ?_⟩
  simp only [List.forall_mem_cons, List.not_mem_nil, false_implies, implies_true, and_true]
  refine ⟨?_, ?_, ?_, ?_, ?_, ?_, ?_, ?_, ?_⟩ <;>
    simp [RegistrationP.dict, RegisterArgs.sent, Dict.get?_append, Dict.get?_entry?, Dict.get?, text?]

/-- **C95**: a query has an id. -/
theorem c95_query_told (d : Dressing) (n : Nat) (hq : Ordinary lib (d.ids n)) :
    Tells lib now (Outgoing.query.message d n) "oadrQueryRegistration" [("request_id", some (.str (d.ids n)))] :=
  ⟨rfl, _, c67_query_registration hq _ (.same _), by simp [Dict.get?]⟩

/-- **C95**: a poll names the VEN. -/
theorem c95_poll_told (d : Dressing) (n : Nat) {ven : String} (hv : Ordinary lib ven) :
    Tells lib now ((Outgoing.poll (.str ven)).message d n) "oadrPoll" [("ven_id", some (.str ven))] :=
  ⟨rfl, _, c67_poll hv _ (.same _), by simp [Dict.get?]⟩

/-- **C95**: a cancellation names the VEN and its registration. -/
theorem c95_cancel_told (d : Dressing) (n : Nat) {ven reg : String} (hq : Ordinary lib (d.ids n)) (hv : Ordinary lib ven) (hr : Ordinary lib reg) :
    Tells lib now ((Outgoing.cancelRegistration (.str ven) (.str reg)).message d n) "oadrCancelPartyRegistration"
      [("request_id", some (.str (d.ids n))), ("registration_id", some (.str reg)), ("ven_id", some (.str ven))] :=
  ⟨rfl, _, cancel_received hq hv hr, by simp [cancelPayload, Dict.get?]⟩

/-- **C95**: the confirmation of a cancelled registration has the id of the message of the VTN, the outcome and the registration. -/
theorem c95_canceled_told (sound : lib.Sound) (d : Dressing) (n : Nat) {code : Nat} {q ven reg : String} (hq : Ordinary lib q) (hv : Ordinary lib ven)
    (hr : Ordinary lib reg) :
    Tells lib now ((Outgoing.canceledRegistration code (.str q) (.str ven) (.str reg)).message d n) "oadrCanceledPartyRegistration"
      [("response", some (.dict [("response_code", .int code), ("response_description", .str (if code = 200 then "OK" else "ERROR")), ("request_id", .str q)])),
       ("registration_id", some (.str reg)), ("ven_id", some (.str ven))] :=
  ⟨rfl, _, canceled_received sound hq hv hr, by simp [responseOf, Dict.get?]⟩

/-- **C95**: an answer to an offer of reports asks for none of them, has the id of the offer and names the VEN. -/
theorem c95_registered_told (sound : lib.Sound) (d : Dressing) (n : Nat) {q ven : String} (hq : Ordinary lib q) (hv : Ordinary lib ven) :
    Tells lib now ((Outgoing.registeredReport (.str ven) (.str q)).message d n) "oadrRegisteredReport"
      [("response", some (.dict [("response_code", .int 200), ("response_description", .str "OK"), ("request_id", .str q)])),
       ("report_requests", none), ("ven_id", some (.str ven))] := by
  have h := c67_registered_report_arrives (now := now) sound (r := ⟨200, "OK", q⟩) (ven := some ven) (rs := []) ⟨ordinary_OK sound, hq⟩ (by simp [hv]) (by simp)
  refine ⟨rfl, _, h _ ?_, by simp [Dict.get?, ResponseP.dict, entry?, dicts?, text?]⟩
  refine conforms_keys ["ven_id", "response", "report_requests"] (fun k hk => ?_) (fun k hk => ?_)
  · simp only [List.mem_cons, List.not_mem_nil, or_false, not_or] at hk
    simp [Outgoing.message, Dict.get?, entry?, text?, Ne.symm hk.1, Ne.symm hk.2.1, Ne.symm hk.2.2]
  · simp only [List.mem_cons, List.not_mem_nil, or_false] at hk
    rcases hk with rfl | rfl | rfl
    · exact .inl ⟨.str ven, .str ven, by simp [Dict.get?, entry?, text?], by simp [Outgoing.message, Dict.get?], .same _⟩
    · exact .inl ⟨_, _, by simp [Dict.get?]; rfl, by simp [Outgoing.message, Dict.get?]; rfl, .same _⟩
    · exact .inl ⟨_, _, by simp [Dict.get?]; rfl, by simp [Outgoing.message, Dict.get?], .same _⟩

theorem responsePayload_conforms (ven : String) :
    Conforms (.dict (responsePayload ven)) (.dict [("response", .dict (LooseResponseP.dict ⟨200, "OK", none⟩)), ("ven_id", .str ven)]) := by
  refine conforms_keys ["ven_id", "response"] (fun k hk => ?_) (fun k hk => ?_)
  · simp only [List.mem_cons, List.not_mem_nil, or_false, not_or] at hk
    simp [responsePayload, Dict.get?, Ne.symm hk.1, Ne.symm hk.2]
  · simp only [List.mem_cons, List.not_mem_nil, or_false] at hk
    rcases hk with rfl | rfl
    · exact .inl ⟨.str ven, .str ven, by simp [Dict.get?], by simp [responsePayload, Dict.get?], .same _⟩
    · refine .inl ⟨_, _, by simp [Dict.get?]; rfl, by simp [responsePayload, Dict.get?]; rfl, ?_⟩
      refine conforms_keys ["response_code", "response_description", "request_id"] (fun k hk => ?_) (fun k hk => ?_)
      · simp only [List.mem_cons, List.not_mem_nil, or_false, not_or] at hk
        simp [LooseResponseP.dict, entry?, text?, Dict.get?, Ne.symm hk.1, Ne.symm hk.2.1, Ne.symm hk.2.2]
      · simp only [List.mem_cons, List.not_mem_nil, or_false] at hk
        rcases hk with rfl | rfl | rfl
        · exact .inl ⟨.int 200, .int 200, by simp [LooseResponseP.dict, Dict.get?], by simp [Dict.get?], .same _⟩
        · exact .inl ⟨.str "OK", .str "OK", by simp [LooseResponseP.dict, Dict.get?], by simp [Dict.get?], .same _⟩
        · exact .inr (.inl ⟨by simp [LooseResponseP.dict, entry?, text?, Dict.get?], by simp [Dict.get?], by decide +kernel⟩)

/-- **C95**: the empty answer to a request to register again names the VEN. -/
theorem c95_response_told (sound : lib.Sound) (d : Dressing) (n : Nat) {ven : String} (hv : Ordinary lib ven) :
    Tells lib now ((Outgoing.response (.str ven)).message d n) "oadrResponse"
      [("response", some (.dict [("response_code", .int 200), ("response_description", .str "OK"), ("request_id", .none)])), ("ven_id", some (.str ven))] := by
  have h := c67_response_arrives (now := now) sound (r := ⟨200, "OK", none⟩) ⟨ordinary_OK sound, by simp⟩ hv
  exact ⟨rfl, _, h _ (responsePayload_conforms ven), by simp [Dict.get?, LooseResponseP.received, text?]⟩

/-- **C95**: the client asks for all its events. -/
theorem c95_request_told (sound : lib.Sound) (d : Dressing) (n : Nat) {ven : String} (hq : Ordinary lib (d.ids n)) (hv : Ordinary lib ven) :
    Tells lib now ((Outgoing.requestEvent (.str ven)).message d n) "oadrRequestEvent"
      [("request_id", some (.str (d.ids n))), ("ven_id", some (.str ven)), ("reply_limit", none)] :=
  ⟨rfl, _, request_received sound hq hv, by simp [requestMessage, Dict.get?]⟩

/-- An undefined id is written like an empty one. -/
theorem cancelOpt_undefined (p : Dict) (hp : Dict.get? p "request_id" = none) :
    createMessage lib now "oadrCancelOpt" p = createMessage lib now "oadrCancelOpt" (p ++ [("request_id", .str "")]) := by
  have hl : lookup p ["request_id"] = .ok none := by simp [lookup, walk, hp]
  have hl' : lookup (p ++ [("request_id", .str "")]) ["request_id"] = .ok (some (.str "")) := by simp [lookup, walk, Dict.get?_append, hp, Dict.get?]
  have hv : render lib p (requestId ["request_id"]) = render lib (p ++ [("request_id", .str "")]) (requestId ["request_id"]) := by
    simp only [requestId, leaf, render, renderAll, tagText, hl, hl', applyFilter]
    rfl
  have hr : ∀ t : Tmpl, t.reads.all (· != "request_id") = true → render lib p t = render lib (p ++ [("request_id", .str "")]) t := by
    intro t ht
    refine render_agree lib t _ _ (fun k hk => ?_)
    have : k ≠ "request_id" := by
      have := List.all_eq_true.mp ht k hk
      simpa using this
    simp [Dict.get?_append, Dict.get?, Ne.symm this]
  have htmpl : render lib p tCancelOpt = render lib (p ++ [("request_id", .str "")]) tCancelOpt := by
    have h1 := hr (leaf "ei:optID" ["opt_id"]) (by decide +kernel)
    have h2 := hr (leaf "ei:venID" ["ven_id"]) (by decide +kernel)
    have hall : ∀ t t' t'' : Tmpl, render lib p t = render lib (p ++ [("request_id", .str "")]) t → render lib p t' = render lib (p ++ [("request_id", .str "")]) t' →
        render lib p t'' = render lib (p ++ [("request_id", .str "")]) t'' →
        ∀ name attrs, render lib p (el name [t, t', t''] attrs) = render lib (p ++ [("request_id", .str "")]) (el name [t, t', t''] attrs) := by
      intro t t' t'' h h' h'' name attrs
      simp only [el, render, renderAll, h, h', h'', tagText]
    have hone : ∀ t : Tmpl, render lib p t = render lib (p ++ [("request_id", .str "")]) t →
        ∀ name attrs, render lib p (el name [t] attrs) = render lib (p ++ [("request_id", .str "")]) (el name [t] attrs) := by
      intro t h name attrs
      simp only [el, render, renderAll, h, tagText]
    exact hone _ (hall _ _ _ hv h1 h2 _ _) _ _
  have ht : Dict.get? templates "oadrCancelOpt" = some tCancelOpt := by rfl
  simp only [createMessage, preflightMessage, show ("oadrCancelOpt" = "oadrDistributeEvent") = False from by decide,
    show ("oadrCancelOpt" = "oadrRegisterReport") = False from by decide, if_false, renderMessage, ht, htmpl]

/-- **C95**: the cancellation of an opt names the opt and the VEN. It is the only request of the client without an id, so that whatever id an answer may repeat
    is none. -/
theorem c95_cancel_opt_told (d : Dressing) (n : Nat) {ven opt : String} (hv : Ordinary lib ven) (ho : Ordinary lib opt) :
    Tells lib now ((Outgoing.cancelOpt (.str ven) (.str opt)).message d n) "oadrCancelOpt"
      [("request_id", some .none), ("opt_id", some (.str opt)), ("ven_id", some (.str ven))] := by
  have harr : Arrives lib now "oadrCancelOpt" [("opt_id", .str opt), ("ven_id", .str ven), ("request_id", .str "")]
      [("request_id", .none), ("opt_id", .str opt), ("ven_id", .str ven)] :=
    arrives_of (by rfl) (fun _ => .cons (carries_emptyText "requestID" "request_id" (by lk)) (.cons (carries_text "optID" "opt_id" (by lk) ho)
      (.cons (carries_text "venID" "ven_id" (by lk) hv) .nil))) (by simp) (by simp)
  obtain ⟨txt, h1, h2⟩ := harr _ (.same _)
  refine ⟨rfl, _, ⟨txt, ?_, h2⟩, by simp [Dict.get?]⟩
  rw [← h1, cancelOpt_undefined _ (by simp [Outgoing.message, Dict.get?])]
  rfl

end Openleadr
