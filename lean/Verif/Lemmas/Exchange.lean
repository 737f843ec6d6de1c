import Verif.Model.Exchange
import Verif.Lemmas.Reads
import Verif.Props.Messages
/-!
What comes of an exchange, from what is received at either end.
-/
namespace Openleadr

/-- Payloads of which the template reads the same are received as the same. -/
theorem received_agree {lib : Lib} {now : Int} {type : String} {t : Tmpl} (ht : Dict.get? templates type = some t) {p q r : Dict}
    (ha : AgreeOn t.reads p q) (h : Received lib now type q r)
    (hp : (decide (type ≠ "oadrDistributeEvent") && decide (type ≠ "oadrRegisterReport")) = true := by decide +kernel) : Received lib now type p r := by
  simp only [Bool.and_eq_true, decide_eq_true_eq] at hp
  obtain ⟨txt, h1, h2⟩ := h
  refine ⟨txt, ?_, h2⟩
  rw [← h1]
  simp only [createMessage, preflightMessage, hp.1, hp.2, if_false, renderMessage, ht]
  rw [render_agree lib t p q ha]

/-- Dicts with these entries, up to order and entries that are `None`. -/
theorem conforms_dict {p q : Dict} (h : ∀ k, match Dict.get? q k with
      | some y => ∃ x, Dict.get? p k = some x ∧ Conforms x y
      | none => Dict.get? p k = none ∨ (Dict.get? p k = some .none ∧ bareKey k = false)) : Conforms (.dict p) (.dict q) := by
  refine .members _ _ (.inl ⟨_, rfl⟩) (fun k y hy => ?_) (fun k x y hy hx => ?_) (fun k hk => ?_)
  · have := h k
    rw [hy] at this
    obtain ⟨x, hx, -⟩ := this
    exact ⟨x, hx⟩
  · have := h k
    rw [hy] at this
    obtain ⟨x', hx', hc⟩ := this
    simp only [attrOf] at hx
    rw [hx'] at hx
    cases hx
    exact hc
  · have := h k
    rw [hk] at this
    exact this

/-- The same for dicts with few keys. -/
theorem conforms_keys {p q : Dict} (keys : List String) (out : ∀ k, k ∉ keys → Dict.get? q k = none ∧ Dict.get? p k = none)
    (inside : ∀ k ∈ keys, (∃ x y, Dict.get? q k = some y ∧ Dict.get? p k = some x ∧ Conforms x y) ∨
      (Dict.get? q k = none ∧ Dict.get? p k = some .none ∧ bareKey k = false) ∨ (Dict.get? q k = none ∧ Dict.get? p k = none)) :
    Conforms (.dict p) (.dict q) := by
  refine conforms_dict (fun k => ?_)
  by_cases hk : k ∈ keys
  · rcases inside k hk with ⟨x, y, h1, h2, h3⟩ | ⟨h1, h2, h3⟩ | ⟨h1, h2⟩
    · rw [h1]; exact ⟨x, h2, h3⟩
    · rw [h1]; exact .inr ⟨h2, h3⟩
    · rw [h1]; exact .inl h2
  · rw [(out k hk).1]; exact .inl (out k hk).2

/-- The text of a message is not empty. -/
theorem parse_nonempty {lib : Lib} {txt : Text} {x : String × Value} (h : parseMessage lib txt = .ok x) : String.ofList txt ≠ "" := by
  intro e
  have : txt = [] := by
    have := congrArg String.toList e
    simpa using this
  subst this
  have : parseMessage lib [] = .error .xmlError := by rfl
  rw [this] at h
  cases h

theorem parseText_received {lib : Lib} {txt : Text} {t : String} {d : Dict} (h : parseMessage lib txt = .ok (t, .dict d)) :
    parseText lib (String.ofList txt) = .ok (t, d) := by
  simp only [parseText, String.toList_ofList, h]

/-- The request that carries a text. -/
def requestOf (secure : Bool) (peer : Option String) (txt : Text) : Request := ⟨some "application/xml", secure, peer, String.ofList txt⟩

/-- What the client gets when the message `m` arrives at the server, and `r` at the client. -/
theorem exchange_answered {k : Link} {c : Config} {svc : Service S} {cache cache' : NonceCache} {st st' : S} {secure : Bool} {peer : Option String}
    {type rt : String} {p m rp r : Dict} (hs : Received k.lib k.clientNow type p m)
    (hp : ∀ txt, createMessage k.lib k.clientNow type p = .ok txt → parseMessage k.lib txt = .ok (type, .dict m) →
      (handle (wired c k.lib k.serverNow) svc k.surroundings k.count cache st (requestOf secure peer txt)) =
        ((cache', st'), sendMessage (wired c k.lib k.serverNow) rt rp))
    (hr : Received k.lib k.serverNow rt rp r)
    (ha : ∀ txt, createMessage k.lib k.serverNow rt rp = .ok txt → k.accepts (String.ofList txt) = true) :
    exchange k c svc cache st secure peer type p = ((cache', st'), .ok (some (some rt, r))) := by
  obtain ⟨txt, h1, h2⟩ := hs
  obtain ⟨txt', h3, h4⟩ := hr
  have hh := hp txt h1 h2
  simp only [requestOf] at hh
  have hr : sendMessage (wired c k.lib k.serverNow) rt rp = .ok ⟨200, String.ofList txt', some (rt, rp)⟩ := by
    simp only [sendMessage, wired, renderText, h3]
  simp only [exchange, h1, hh, hr, clientReads, ne_eq, not_true_eq_false, if_false, parse_nonempty h4, ha txt' h3,
    parseText_received h4, Bool.true_eq_false]

/-- The last steps of the server (vtn_service.py:109-115). -/
def completed (c : Config) (message rp : Dict) : Dict :=
  let rp := if Dict.has rp "response" then rp else Dict.set rp "response" (.dict [("response_code", .int 200),
    ("response_description", .str "OK"), ("request_id", (Dict.get? message "request_id").getD .none)])
  let rp := Dict.set rp "vtn_id" (.str c.vtnId)
  if Dict.has rp "ven_id" then rp else Dict.set rp "ven_id" ((Dict.get? message "ven_id").getD .none)

/-- What the handler is given of a message. -/
def withPeer (secure : Bool) (peer : Option String) (type : String) (m : Dict) : Dict :=
  if secure ∧ type = "oadrCreatePartyRegistration" then Dict.set m "fingerprint" (match peer with | some p => .str p | none => .none) else m

/-- The server handles a message that passes its checks. -/
theorem handle_passed {lib : Lib} {now : Int} {c : Config} {svc : Service S} {s : Surroundings} {i : Nat} {cache cache' : NonceCache} {st st' : S}
    {secure : Bool} {peer : Option String} {type rt : String} {m rp : Dict} {txt : Text} {tree : Tree}
    (hv : c.validate (String.ofList txt) = .ok tree) (hp : parseMessage lib txt = .ok (type, .dict m)) (ht : type ≠ "oadrResponse")
    (hn : ∀ v, Dict.get? m "vtn_id" = some v → v = .none ∨ v = .str c.vtnId) (hk : checkKnown c type m = .ok ())
    (ha : (if secure ∧ Dict.has m "ven_id" then authenticate c s i cache (requestOf secure peer txt) tree m else (cache, .ok ())) = (cache', .ok ()))
    (hh : handleMessage c svc st type (withPeer secure peer type m) = (st', .ok (rt, rp))) :
    handle (wired c lib now) svc s i cache st (requestOf secure peer txt) =
      ((cache', st'), sendMessage (wired c lib now) rt (completed c (withPeer secure peer type m) rp)) := by
  have hx : isXml (some "application/xml") = true := by decide +kernel
  have hn' : ¬ ∃ v, Dict.get? m "vtn_id" = some v ∧ v ≠ .none ∧ v ≠ .str c.vtnId := by
    rintro ⟨v, h1, h2, h3⟩
    rcases hn v h1 with h | h
    · exact h2 h
    · exact h3 h
  have hh' : handleMessage (wired c lib now) svc st type (withPeer secure peer type m) = (st', .ok (rt, rp)) := hh
  have hk' : checkKnown (wired c lib now) type m = .ok () := hk
  have ha' : (if secure ∧ Dict.has m "ven_id" then authenticate (wired c lib now) s i cache (requestOf secure peer txt) tree m else (cache, .ok ())) =
    (cache', .ok ()) := ha
  have hn'' : ¬ ∃ v, Dict.get? m "vtn_id" = some v ∧ v ≠ .none ∧ v ≠ .str (wired c lib now).vtnId := hn'
  have hv' : (wired c lib now).validate (String.ofList txt) = .ok tree := hv
  have hp' : (wired c lib now).parse (String.ofList txt) = .ok (type, m) := parseText_received hp
  have hq : process (wired c lib now) svc s i cache st (requestOf secure peer txt) =
      ((cache', st'), ⟨some type, .ok (rt, completed c (withPeer secure peer type m) rp)⟩) := by
    unfold process
    rw [if_neg (by rw [requestOf, hx]; simp), show (requestOf secure peer txt).content = String.ofList txt from rfl, hv', hp']
    simp only []
    rw [if_neg ht, if_neg hn'', hk']
    simp only []
    rw [show (if (requestOf secure peer txt).secure = true ∧ Dict.has m "ven_id" = true then
      authenticate (wired c lib now) s i cache (requestOf secure peer txt) tree m else (cache, .ok ())) = (cache', .ok ()) from ha']
    simp only []
    erw [hh']
    rfl
  simp only [handle, hq, reply]

end Openleadr
