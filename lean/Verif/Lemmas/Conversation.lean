import Verif.Model.Conversation
import Verif.Props.EventExchange
import Verif.Props.Registration
/-!
What comes of a poll of the whole client, from what is exchanged.
-/
namespace Openleadr

variable {S : Type}

/-- The types of the messages are those that the properties of the client speak of. -/
theorem message_kind (d : Dressing) (n : Nat) (m : Outgoing) : (m.message d n).1 = m.kind := by cases m <;> rfl

/-- The handler answers a message of a VEN that is let in. -/
theorem reply_exchanged {k : Link} {c : Config} {svc : Service S} {cache : NonceCache} {st st' : S} {secure : Bool} {peer : Option String} {ven type t : String}
    {p m u r : Dict} {h : S → Dict → S × Except Exn Returned} (hs : Received k.lib k.clientNow type p m) (hm : Dict.get? m "ven_id" = some (.str ven))
    (hn : Dict.get? m "vtn_id" = none) (ht : type ≠ "oadrResponse" ∧ type ≠ "oadrCreatePartyRegistration") (hin : LetsIn k c secure peer cache ven)
    (hval : ∀ txt, createMessage k.lib k.clientNow type p = .ok txt → ∃ tree, c.validate (String.ofList txt) = .ok tree)
    (hh : Dict.get? svc.handlers type = some h) (hr : h st m = (st', .ok (.pair t (.dict u))))
    (hrec : Received k.lib k.serverNow t (completed c m (finishPayload c m u)) r)
    (hacc : ∀ txt, createMessage k.lib k.serverNow t (completed c m (finishPayload c m u)) = .ok txt → k.accepts (String.ofList txt) = true) :
    exchange k c svc cache st secure peer type p = ((cache, st'), .ok (some (some t, r))) := by
  refine exchange_answered hs (fun txt h1 h2 => ?_) hrec hacc
  obtain ⟨tree, hv⟩ := hval txt h1
  have hw : withPeer secure peer type m = m := by simp [withPeer, ht.2]
  have hmsg : handleMessage c svc st type (withPeer secure peer type m) = (st', .ok (t, finishPayload c m u)) := by
    rw [hw]
    simp only [handleMessage, hh, hr, payloadDict]
  rw [handle_passed hv h2 ht.1 (by simp [hn]) (hin.known _ _ hm) (hin.authentic txt tree _ hv hm) hmsg, hw]

/-- The answer to a message that the service has no handler for, as it is received (vtn_service.py:192-196). -/
def notHandled (type service ven : String) : Dict :=
  [("response", .dict [("response_code", .int 459),
      ("response_description", .str s!"A message of type {type} should not be sent to this endpoint ({service})"), ("request_id", .none)]), ("ven_id", .str ven)]

theorem unhandled_exchanged {k : Link} {c : Config} {svc : Service S} {cache : NonceCache} {st : S} {secure : Bool} {peer : Option String} {ven type : String}
    {p m : Dict} (sound : k.lib.Sound) (hs : Received k.lib k.clientNow type p m) (hm : Dict.get? m "ven_id" = some (.str ven)) (hven : Ordinary k.lib ven)
    (hn : Dict.get? m "vtn_id" = none) (ht : type ≠ "oadrResponse" ∧ type ≠ "oadrCreatePartyRegistration") (hin : LetsIn k c secure peer cache ven)
    (hval : ∀ txt, createMessage k.lib k.clientNow type p = .ok txt → ∃ tree, c.validate (String.ofList txt) = .ok tree)
    (hh : Dict.get? svc.handlers type = none)
    (hd : Ordinary k.lib s!"A message of type {type} should not be sent to this endpoint ({svc.name})")
    (hacc : ∀ txt, createMessage k.lib k.serverNow "oadrResponse" (completed c m (errorResponse "oadrResponse" 459
      s!"A message of type {type} should not be sent to this endpoint ({svc.name})").2) = .ok txt → k.accepts (String.ofList txt) = true) :
    exchange k c svc cache st secure peer type p = ((cache, st), .ok (some (some "oadrResponse", notHandled type svc.name ven))) := by
  generalize hdesc : s!"A message of type {type} should not be sent to this endpoint ({svc.name})" = desc at hd hacc
  have hrec : Received k.lib k.serverNow "oadrResponse" (completed c m (errorResponse "oadrResponse" 459 desc).2) (notHandled type svc.name ven) := by
    have harr := c67_response_arrives (now := k.serverNow) sound (r := ⟨459, desc, none⟩) ⟨hd, by simp⟩ hven
    have e : notHandled type svc.name ven = [("response", .dict (LooseResponseP.received ⟨459, desc, none⟩)), ("ven_id", .str ven)] := by
      simp [notHandled, LooseResponseP.received, hdesc, text?]
    rw [e]
    refine received_agree (t := tResponse) (by rfl) (fun j hj => ?_) (harr _ (.same _))
    have hr : tResponse.reads.all (fun j => j == "response" || j == "ven_id") = true := by decide +kernel
    have := List.all_eq_true.mp hr j hj
    simp only [Bool.or_eq_true, beq_iff_eq] at this
    rcases this with rfl | rfl <;>
      simp [completed, errorResponse, Dict.has, Dict.set, Dict.get?, hm, LooseResponseP.dict, text?, entry?]
  refine exchange_answered hs (fun txt h1 h2 => ?_) hrec hacc
  obtain ⟨tree, hv⟩ := hval txt h1
  have hw : withPeer secure peer type m = m := by simp [withPeer, ht.2]
  have hmsg : handleMessage c svc st type (withPeer secure peer type m) = (st, .ok ("oadrResponse", (errorResponse "oadrResponse" 459 desc).2)) := by
    rw [hw]
    simp only [handleMessage, hh, hdesc]
    simp [errorResponse]
  rw [handle_passed hv h2 ht.1 (by simp [hn]) (hin.known _ _ hm) (hin.authentic txt tree _ hv hm) hmsg, hw]

/-! ### The driver -/

/-- A poll begins with the poll. -/
theorem clientPoll_first (w : World) (c : Client) : (clientPoll w c).1.log[c.log.length]? = some (.poll c.venId, w.net c.log.length) := by
  have h : ∀ (d : Client) ks, Sends (perform w c (.poll c.venId)).1 d ks → d.log[c.log.length]? = some (.poll c.venId, w.net c.log.length) := by
    intro d ks hs
    obtain ⟨new, h1, -⟩ := hs.sent
    rw [h1]
    simp [perform]
  unfold clientPoll
  split
  · exact h _ _ (Sends.rfl' _)
  · exact h _ _ (Sends.rfl' _)
  · exact h _ _ (actOnPoll_sends w _ _ _)

/-- What the client hears. -/
theorem hearing_net (w : World) (n : Nat) (answers : List Got) (i : Nat) (a : Option (Option String × Dict)) (h : answers[i]? = some (.ok a)) :
    (w.hearing n answers).net (n + i) = a.map (fun y => (y.1, Payload.parsed y.2)) := by
  simp [World.hearing, h]

/-- An action that begins with the message `m`, whose answer makes the client send nothing more. -/
theorem act_one (k : Connection S) (act : World → Client → Client × Res Unit) (w : World) (n : Nat) (x x1 : Serving S) (y : Client) (m : Outgoing) (a : Got)
    (h0 : ∀ w, (act w y).1.log[y.log.length]? = some (m, w.net y.log.length)) (h1 : k.deliver y.log.length m x = (x1, a))
    (hn : (act (w.hearing y.log.length [a]) y).1.log.length ≤ y.log.length + 1) :
    k.run act w (n + 1) (x, y) = ((x1, (act (w.hearing y.log.length [a]) y).1), (act (w.hearing y.log.length [a]) y).2) := by
  have hc : k.converse act w y (n + 1) x [] = (x1, [a]) := by
    rw [Connection.converse, List.length_nil, Nat.add_zero, h0]
    simp only [h1, List.nil_append]
    cases n with
    | zero => rfl
    | succ n =>
      rw [Connection.converse, List.length_singleton, List.getElem?_eq_none hn]
  simp only [Connection.run, hc]

/-- An action that begins with the message `m0`, whose answer makes the client send one more message. -/
theorem act_two (k : Connection S) (act : World → Client → Client × Res Unit) (w : World) (n : Nat) (x x1 x2 : Serving S) (y : Client) (m0 : Outgoing) (a b : Got)
    (m : Outgoing) (l : Answer) (h0 : ∀ w, (act w y).1.log[y.log.length]? = some (m0, w.net y.log.length))
    (h1 : k.deliver y.log.length m0 x = (x1, a))
    (hm : (act (w.hearing y.log.length [a]) y).1.log[y.log.length + 1]? = some (m, l))
    (h2 : k.deliver (y.log.length + 1) m x1 = (x2, b))
    (hn : (act (w.hearing y.log.length [a, b]) y).1.log.length ≤ y.log.length + 2) :
    k.run act w (n + 2) (x, y) = ((x2, (act (w.hearing y.log.length [a, b]) y).1), (act (w.hearing y.log.length [a, b]) y).2) := by
  have hc : k.converse act w y (n + 2) x [] = (x2, [a, b]) := by
    rw [Connection.converse, List.length_nil, Nat.add_zero, h0]
    simp only [h1, List.nil_append]
    rw [Connection.converse, List.length_singleton, hm]
    simp only [h2, List.singleton_append]
    cases n with
    | zero => rfl
    | succ n =>
      rw [Connection.converse]
      rw [show [a, b].length = 2 from rfl, List.getElem?_eq_none hn]
  simp only [Connection.run, hc]

/-- A poll whose answer makes the client send nothing more. -/
theorem run_one (k : Connection S) (w : World) (n : Nat) (x x1 : Serving S) (y : Client) (a : Got)
    (h1 : k.deliver y.log.length (.poll y.venId) x = (x1, a))
    (hn : (clientPoll (w.hearing y.log.length [a]) y).1.log.length ≤ y.log.length + 1) :
    k.run clientPoll w (n + 1) (x, y) =
      ((x1, (clientPoll (w.hearing y.log.length [a]) y).1), (clientPoll (w.hearing y.log.length [a]) y).2) :=
  act_one k clientPoll w n x x1 y _ a (fun w => clientPoll_first w y) h1 hn

/-- A poll whose answer makes the client send one more message. -/
theorem run_two (k : Connection S) (w : World) (n : Nat) (x x1 x2 : Serving S) (y : Client) (a b : Got) (m : Outgoing) (l : Answer)
    (h1 : k.deliver y.log.length (.poll y.venId) x = (x1, a))
    (hm : (clientPoll (w.hearing y.log.length [a]) y).1.log[y.log.length + 1]? = some (m, l))
    (h2 : k.deliver (y.log.length + 1) m x1 = (x2, b))
    (hn : (clientPoll (w.hearing y.log.length [a, b]) y).1.log.length ≤ y.log.length + 2) :
    k.run clientPoll w (n + 2) (x, y) =
      ((x2, (clientPoll (w.hearing y.log.length [a, b]) y).1), (clientPoll (w.hearing y.log.length [a, b]) y).2) :=
  act_two k clientPoll w n x x1 x2 y _ a b m l (fun w => clientPoll_first w y) h1 hm h2 hn

/-- `confirmedId` (Model/RegisterExchange) is what the client finds as the id of a message. -/
theorem confirmedId_found (d : Dict) (q : Value) : confirmedId d = some q ↔ requestIdOf d = .ok q := by
  unfold confirmedId requestIdOf
  cases h : Dict.get? d "request_id" with
  | some v => simp
  | none =>
    cases hr : Dict.get? d "response" with
    | none => simp
    | some r =>
      cases r with
      | dict r => cases h' : Dict.get? r "request_id" <;> simp [entryIn, h']
      | _ => simp [entryIn]

end Openleadr
