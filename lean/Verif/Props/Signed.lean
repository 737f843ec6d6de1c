import Verif.Lemmas.Signed
import Verif.Lemmas.Exchange
import Verif.Props.Handler
import Verif.Props.Replay
import Verif.Props.Recognition
/-!
C94 Signed messages carry the same conversation.
-/
namespace Openleadr

/-! ### Specification -/

/-- The signed object of a message (openleadr/messaging.py:69-71). -/
def SignedObject (lib : Lib) (now : Int) (type : String) (p : Dict) (t : Text) : Prop :=
  ∃ p', preflightMessage now type p = .ok (.dict p') ∧ renderMessage lib type p' = .ok t

/-- The side signs this object, and whoever checks the message accepts it: the signature is an XML document of its own, the schema allows it,
    and the check finds the certificate, a valid signature and the replay protection. -/
def Genuine (s : Signing) (check : String → Except Exn Tree) (stamp : Stamp) (t : Text) : Prop :=
  ∃ sig v, s.sign t stamp = .ok sig ∧ parseXml sig = .ok ("Signature", v) ∧ sig.getLast? = some '>' ∧
    check (String.ofList (signedEnvelope sig t)) = .ok ⟨.ok s.fingerprint, none, stamp⟩

/-! ### helpers -/

theorem createMessage_iff {lib : Lib} {now : Int} {type : String} {p : Dict} {txt : Text} :
    createMessage lib now type p = .ok txt ↔ ∃ t, SignedObject lib now type p t ∧ txt = envelope t := by
  unfold createMessage SignedObject
  constructor
  · intro h
    split at h
    · rename_i p' hp
      cases hr : renderMessage lib type p' with
      | error e => rw [hr] at h; cases h
      | ok t =>
        rw [hr] at h
        simp only [Except.map, Except.ok.injEq] at h
        exact ⟨t, ⟨p', by rw [hp], hr⟩, h.symm⟩
    · cases h
    · cases h
  · rintro ⟨t, ⟨p', hp, hr⟩, rfl⟩
    rw [hp]
    simp only [hr, Except.map]

theorem createSigned_of {lib : Lib} {now : Int} {s : Signing} {stamp : Stamp} {type : String} {p : Dict} {t sig : Text}
    (ho : SignedObject lib now type p t) (hs : s.sign t stamp = .ok sig) :
    createSigned lib now (some s) stamp type p = .ok (signedEnvelope sig t) := by
  obtain ⟨p', hp, hr⟩ := ho
  simp only [createSigned, hp, hr, hs]

/-- Without signing, `createSigned` is `createMessage`. -/
theorem createSigned_none (lib : Lib) (now : Int) (stamp : Stamp) (type : String) (p : Dict) :
    createSigned lib now none stamp type p = createMessage lib now type p := by
  unfold createSigned createMessage
  cases preflightMessage now type p with
  | error e => rfl
  | ok v =>
    cases v with
    | dict p' => simp only; cases renderMessage lib type p' <;> rfl
    | _ => rfl

/-- The server without and with the verification of signatures. -/
def lax (c : Config) : Config := { c with verifySignatures := false }

/-- The server with the verification of signatures. -/
def strict (c : Config) : Config := { c with verifySignatures := true }

/-- A genuine and fresh signature of the peer changes nothing in the authentication, but that the pair is remembered. -/
theorem authenticate_genuine (c : Config) (s : Surroundings) (i : Nat) (cache : NonceCache) (a b : Request) (ta : Tree) (fp : String) (stamp : Stamp)
    (m : Dict) (ha : a.secure = true) (hb : b.secure = true) (hpa : a.peer = some fp) (hpb : b.peer = some fp)
    (hf : (verifyReplay s i cache stamp).2 = .ok ()) :
    (authenticate (lax c) s i cache a ta m).1 = cache ∧
    (authenticate (strict c) s i cache b ⟨.ok fp, none, stamp⟩ m).2 = (authenticate (lax c) s i cache a ta m).2 ∧
    ((authenticate (strict c) s i cache b ⟨.ok fp, none, stamp⟩ m).1 = cache ∨
      (authenticate (strict c) s i cache b ⟨.ok fp, none, stamp⟩ m).1 = (verifyReplay s i cache stamp).1) := by
  have hx : ∃ cache', verifyReplay s i cache stamp = (cache', .ok ()) := ⟨(verifyReplay s i cache stamp).1, by rw [← hf]⟩
  obtain ⟨cache', hx⟩ := hx
  rw [hx]
  have hexp : ∀ v, expectedFingerprint (lax c) v = expectedFingerprint (strict c) v := fun v => rfl
  unfold authenticate
  by_cases hl : c.fingerprintLookup.isSome ∨ c.venLookup.isSome
  · have h1 : (lax c).fingerprintLookup.isSome ∨ (lax c).venLookup.isSome := hl
    have h2 : (strict c).fingerprintLookup.isSome ∨ (strict c).venLookup.isSome := hl
    rw [if_pos h1, if_pos h2]
    unfold authenticateMessage
    rw [ha, hb, hpa, hpb]
    cases hv : Dict.get? m "ven_id" with
    | none => exact ⟨rfl, rfl, .inl rfl⟩
    | some ven =>
      simp only [hexp]
      cases he : expectedFingerprint (strict c) ven with
      | error e => exact ⟨rfl, rfl, .inl rfl⟩
      | ok expected =>
        simp only
        by_cases e1 : expected = .none
        · simp [e1]
        · rw [if_neg e1, if_neg e1]
          by_cases e2 : Value.str fp ≠ expected
          · simp [e2]
          · simp [e2, lax, strict, validateXmlSignature, hx]
  · have h1 : ¬ ((lax c).fingerprintLookup.isSome ∨ (lax c).venLookup.isSome) := hl
    have h2 : ¬ ((strict c).fingerprintLookup.isSome ∨ (strict c).venLookup.isSome) := hl
    rw [if_neg h1, if_neg h2]
    exact ⟨rfl, rfl, .inl rfl⟩

/-- Two requests with the same message, of which one is signed: the handler does the same, and the outcome is the same. -/
theorem process_genuine {lib : Lib} {now : Int} {vtn : Option Signing} {vtnStamp : Stamp} (c : Config) (svc : Service S) (s : Surroundings) (i : Nat)
    (cache : NonceCache) (st : S) (fp : String) (stamp : Stamp) (plain signed : Text) (x : String × Dict) (tree : Tree)
    (hv : c.validate (String.ofList plain) = .ok tree) (hv' : c.validate (String.ofList signed) = .ok ⟨.ok fp, none, stamp⟩)
    (hp : parseText lib (String.ofList plain) = .ok x) (hp' : parseText lib (String.ofList signed) = .ok x)
    (hf : (verifyReplay s i cache stamp).2 = .ok ()) :
    (process (wiredSigned (strict c) lib now vtn vtnStamp) svc s i cache st (requestOf true (some fp) signed)).1.2 =
      (process (wired (lax c) lib now) svc s i cache st (requestOf true (some fp) plain)).1.2 ∧
    (process (wiredSigned (strict c) lib now vtn vtnStamp) svc s i cache st (requestOf true (some fp) signed)).2 =
      (process (wired (lax c) lib now) svc s i cache st (requestOf true (some fp) plain)).2 ∧
    ((process (wiredSigned (strict c) lib now vtn vtnStamp) svc s i cache st (requestOf true (some fp) signed)).1.1 = cache ∨
      (process (wiredSigned (strict c) lib now vtn vtnStamp) svc s i cache st (requestOf true (some fp) signed)).1.1 =
        (verifyReplay s i cache stamp).1) := by
  obtain ⟨type, m⟩ := x
  have hx : isXml (some "application/xml") = true := by decide +kernel
  have e1 : (wiredSigned (strict c) lib now vtn vtnStamp).validate (requestOf true (some fp) signed).content = .ok ⟨.ok fp, none, stamp⟩ := hv'
  have e2 : (wired (lax c) lib now).validate (requestOf true (some fp) plain).content = .ok tree := hv
  have e3 : (wiredSigned (strict c) lib now vtn vtnStamp).parse (requestOf true (some fp) signed).content = .ok (type, m) := hp'
  have e4 : (wired (lax c) lib now).parse (requestOf true (some fp) plain).content = .ok (type, m) := hp
  have hauth := authenticate_genuine c s i cache (requestOf true (some fp) plain) (requestOf true (some fp) signed) tree fp stamp m rfl rfl rfl rfl hf
  have ea : authenticate (wiredSigned (strict c) lib now vtn vtnStamp) s i cache (requestOf true (some fp) signed) ⟨.ok fp, none, stamp⟩ m =
    authenticate (strict c) s i cache (requestOf true (some fp) signed) ⟨.ok fp, none, stamp⟩ m := rfl
  have eb : authenticate (wired (lax c) lib now) s i cache (requestOf true (some fp) plain) tree m =
    authenticate (lax c) s i cache (requestOf true (some fp) plain) tree m := rfl
  unfold process
  rw [if_neg (by rw [requestOf, hx]; simp), if_neg (by rw [requestOf, hx]; simp), e1, e2]
  simp only []
  rw [e3, e4]
  simp only []
  by_cases h1 : type = "oadrResponse"
  · rw [if_pos h1, if_pos h1]
    exact ⟨rfl, rfl, .inl rfl⟩
  rw [if_neg h1, if_neg h1]
  have evtn : (wiredSigned (strict c) lib now vtn vtnStamp).vtnId = c.vtnId := rfl
  have evtn' : (wired (lax c) lib now).vtnId = c.vtnId := rfl
  rw [evtn, evtn']
  by_cases h2 : ∃ v, Dict.get? m "vtn_id" = some v ∧ v ≠ .none ∧ v ≠ .str c.vtnId
  · rw [if_pos h2, if_pos h2]
    exact ⟨rfl, rfl, .inl rfl⟩
  rw [if_neg h2, if_neg h2]
  have ek : checkKnown (wiredSigned (strict c) lib now vtn vtnStamp) type m = checkKnown (wired (lax c) lib now) type m := rfl
  rw [ek]
  cases checkKnown (wired (lax c) lib now) type m with
  | error e => exact ⟨rfl, rfl, .inl rfl⟩
  | ok u =>
    simp only []
    have es : (requestOf true (some fp) signed).secure = true := rfl
    have es' : (requestOf true (some fp) plain).secure = true := rfl
    have ehm : ∀ msg, handleMessage (wiredSigned (strict c) lib now vtn vtnStamp) svc st type msg = handleMessage (wired (lax c) lib now) svc st type msg :=
      fun _ => rfl
    rw [es, es', ea, eb]
    by_cases h3 : Dict.has m "ven_id" = true
    · simp only [h3, and_self, if_true]
      obtain ⟨g1, g2, g3⟩ := hauth
      generalize authenticate (strict c) s i cache (requestOf true (some fp) signed) ⟨.ok fp, none, stamp⟩ m = x at *
      generalize authenticate (lax c) s i cache (requestOf true (some fp) plain) tree m = y at *
      obtain ⟨xc, xr⟩ := x
      obtain ⟨yc, yr⟩ := y
      simp only at g1 g2 g3
      subst g1 g2
      cases xr with
      | error e => exact ⟨rfl, rfl, g3⟩
      | ok u =>
        simp only [ehm]
        have ep : (requestOf true (some fp) signed).peer = (requestOf true (some fp) plain).peer := rfl
        rw [ep]
        generalize handleMessage (wired (lax c) lib now) svc st type _ = z
        obtain ⟨zs, zr⟩ := z
        cases zr with
        | error e => exact ⟨rfl, rfl, g3⟩
        | ok rr => exact ⟨rfl, rfl, g3⟩
    · simp only [h3, and_false, if_false, Bool.false_eq_true, ehm]
      have ep : (requestOf true (some fp) signed).peer = (requestOf true (some fp) plain).peer := rfl
      rw [ep]
      generalize handleMessage (wired (lax c) lib now) svc st type _ = z
      obtain ⟨zs, zr⟩ := z
      cases zr with
      | error e => exact ⟨rfl, rfl, .inl rfl⟩
      | ok rr => exact ⟨rfl, rfl, .inl rfl⟩

/-- A reply that is a message is one under every way to write messages. -/
theorem reply_message {c : Config} {o : Outcome} {status : Nat} {text : String} {rt : String} {rp : Dict}
    (h : reply c o = .ok ⟨status, text, some (rt, rp)⟩) (c' : Config) : reply c' o = sendMessage c' rt rp := by
  have send : ∀ t p, sendMessage c t p = .ok ⟨status, text, some (rt, rp)⟩ → (t, p) = (rt, rp) := by
    intro t p hs
    unfold sendMessage at hs
    split at hs
    · cases hs
    · simp only [Except.ok.injEq, HttpReply.mk.injEq, Option.some.injEq] at hs
      exact hs.2.2
  unfold reply at h ⊢
  split at h
  · cases send _ _ h; rfl
  · cases send _ _ h; rfl
  · simp at h
  · split at h
    · cases h
    · cases send _ _ h; rfl
  · simp at h
  · simp at h
  · simp at h
  · simp at h
  · simp at h

/-- The link without signatures. -/
def SignedLink.plain (k : SignedLink) (accepts : String → Bool) : Link :=
  ⟨k.lib, k.clientNow, k.serverNow, accepts, k.surroundings, k.count⟩

/-- The client accepts a genuine and fresh message of the server. -/
theorem clientChecks_genuine {v : Checks} {cache : NonceCache} {text : String} {fp : String} {stamp : Stamp}
    (ht : v.tree text = .ok ⟨.ok fp, none, stamp⟩) (hf : v.fingerprint = some fp) (hne : fp ≠ "")
    (hr : (verifyReplay v.surroundings v.count cache stamp).2 = .ok ()) :
    clientChecks v cache text = ((verifyReplay v.surroundings v.count cache stamp).1, .ok ()) := by
  have hx : verifyReplay v.surroundings v.count cache stamp = ((verifyReplay v.surroundings v.count cache stamp).1, .ok ()) := by rw [← hr]
  generalize (verifyReplay v.surroundings v.count cache stamp).1 = cache' at *
  simp only [clientChecks, ht, hf, hne, if_false, validateAgainst, ne_eq, not_true_eq_false, validateXmlSignature, hx]

/-- **C94**: what the VTN does with a message that is not signed, and what the VEN gets for an answer, is the same when both sides sign their
    messages and check those of the other: the VTN verifies the signature (and the VEN is known by the fingerprint of the certificate with which it
    connects and signs), the VEN checks the answer against `vtn_fingerprint`, and both messages are fresh. For every message that arrives, every
    service, state and answer. -/
theorem c94_same_answer (k : SignedLink) (accepts : String → Bool) (c : Config) (svc : Service S) (mine theirs cache' : NonceCache) (st st' : S)
    (me vtn : Signing) (type rt : String) (p m rp r : Dict) (hme : k.client = some me) (hvtn : k.server = some vtn)
    (hfp : k.checks.fingerprint = some vtn.fingerprint) (hne : vtn.fingerprint ≠ "")
    (hs : Received k.lib k.clientNow type p m) (hr : Received k.lib k.serverNow rt rp r)
    (hv : ∀ txt, createMessage k.lib k.clientNow type p = .ok txt → ∃ tree, c.validate (String.ofList txt) = .ok tree)
    (ha : ∀ txt, createMessage k.lib k.serverNow rt rp = .ok txt → accepts (String.ofList txt) = true)
    (hh : ∀ txt, createMessage k.lib k.clientNow type p = .ok txt →
      handle (wired (lax c) k.lib k.serverNow) svc k.surroundings k.count theirs st (requestOf true (some me.fingerprint) txt) =
        ((cache', st'), sendMessage (wired (lax c) k.lib k.serverNow) rt rp))
    (hgm : ∀ t, SignedObject k.lib k.clientNow type p t → Genuine me c.validate k.clientStamp t)
    (hgv : ∀ t, SignedObject k.lib k.serverNow rt rp t → Genuine vtn k.checks.tree k.serverStamp t)
    (hf : (verifyReplay k.surroundings k.count theirs k.clientStamp).2 = .ok ())
    (hf' : (verifyReplay k.checks.surroundings k.checks.count mine k.serverStamp).2 = .ok ()) :
    exchange (k.plain accepts) (lax c) svc theirs st true (some me.fingerprint) type p = ((cache', st'), .ok (some (some rt, r))) ∧
    ∃ theirs', signedExchange k (strict c) svc mine theirs st (some me.fingerprint) type p =
        (((verifyReplay k.checks.surroundings k.checks.count mine k.serverStamp).1, theirs', st'), .ok (some (some rt, r))) ∧
      (theirs' = theirs ∨ theirs' = (verifyReplay k.surroundings k.count theirs k.clientStamp).1) := by
  refine ⟨exchange_answered (k := k.plain accepts) hs (fun txt h1 _ => hh txt h1) hr ha, ?_⟩
  obtain ⟨txt, h1, h2⟩ := hs
  obtain ⟨txt', h3, h4⟩ := hr
  obtain ⟨t, ho, rfl⟩ := createMessage_iff.1 h1
  obtain ⟨t', ho', rfl⟩ := createMessage_iff.1 h3
  obtain ⟨tree, htree⟩ := hv _ h1
  obtain ⟨sig, v, g1, g2, g3, g4⟩ := hgm t ho
  obtain ⟨sig', v', g1', g2', g3', g4'⟩ := hgv t' ho'
  have hp := signed_parse g2 g3 h2
  have hp' := signed_parse g2' g3' h4
  have hproc := process_genuine (lib := k.lib) (now := k.serverNow) (vtn := k.server) (vtnStamp := k.serverStamp) c svc k.surroundings k.count theirs st
    me.fingerprint k.clientStamp (envelope t) (signedEnvelope sig t) (type, m) tree htree g4 (parseText_received h2) (parseText_received hp) hf
  obtain ⟨q1, q2, q3⟩ := hproc
  have hh := hh _ h1
  simp only [handle, Prod.mk.injEq] at hh
  obtain ⟨hh1, hh2⟩ := hh
  have hsend : sendMessage (wired (lax c) k.lib k.serverNow) rt rp = .ok ⟨200, String.ofList (envelope t'), some (rt, rp)⟩ := by
    simp only [sendMessage, wired, renderText, h3]
  rw [hsend] at hh2
  have hreply := reply_message hh2 (wiredSigned (strict c) k.lib k.serverNow k.server k.serverStamp)
  have hsend' : sendMessage (wiredSigned (strict c) k.lib k.serverNow k.server k.serverStamp) rt rp =
      .ok ⟨200, String.ofList (signedEnvelope sig' t'), some (rt, rp)⟩ := by
    simp only [sendMessage, wiredSigned, renderSigned, hvtn, createSigned_of ho' g1']
  rw [← q2, hsend'] at hreply
  refine ⟨(process (wiredSigned (strict c) k.lib k.serverNow k.server k.serverStamp) svc k.surroundings k.count theirs st
    (requestOf true (some me.fingerprint) (signedEnvelope sig t))).1.1, ?_, q3⟩
  rw [hh1] at q1
  simp only at q1
  have hreq : (⟨some "application/xml", true, some me.fingerprint, String.ofList (signedEnvelope sig t)⟩ : Request) =
    requestOf true (some me.fingerprint) (signedEnvelope sig t) := rfl
  simp only [signedExchange, hme, createSigned_of ho g1, handle, hreq, hreply, q1]
  have hck := clientChecks_genuine (v := k.checks) (cache := mine) g4' hfp hne hf'
  simp only [clientReadsSigned, ne_eq, not_true_eq_false, if_false, parse_nonempty hp', hck, parseText_received hp']

/-! ### Conversations -/

/-- A request of the VEN in a conversation: what surrounds it, the message, and the times and nonces that both sides put in their replay
    protection (openleadr/messaging.py:175-187). -/
structure SignedStep where
  link : SignedLink
  accepts : String → Bool
  type : String
  payload : Dict
  asked : DateTime × String
  answered : DateTime × String

/-- The conversation without signatures: the state of the VTN afterwards, and what the VEN gets. -/
def plainTalk (c : Config) (svc : Service S) (peer : Option String) : NonceCache → S → List SignedStep → S × List (Res (Option (Option String × Dict)))
  | _, st, [] => (st, [])
  | theirs, st, x :: xs =>
    let y := exchange (x.link.plain x.accepts) (lax c) svc theirs st true peer x.type x.payload
    let z := plainTalk c svc peer y.1.1 y.1.2 xs
    (z.1, y.2 :: z.2)

/-- The conversation with signatures. -/
def signedTalk (c : Config) (svc : Service S) (peer : Option String) :
    NonceCache → NonceCache → S → List SignedStep → S × List (Res (Option (Option String × Dict)))
  | _, _, st, [] => (st, [])
  | mine, theirs, st, x :: xs =>
    let y := signedExchange x.link (strict c) svc mine theirs st peer x.type x.payload
    let z := signedTalk c svc peer y.1.1 y.1.2.1 y.1.2.2 xs
    (z.1, y.2 :: z.2)

/-- The stamp is of this time and nonce, and is checked at most five seconds later. -/
def Timely (s : Surroundings) (i : Nat) (stamp : Stamp) (x : DateTime × String) : Prop :=
  Iterates s ∧ stamp = createReplay x.1 x.2 ∧ 1000 ≤ x.1.year ∧
    Spec.validDateTime x.1.year x.1.month x.1.day x.1.hour x.1.minute x.1.second x.1.micro ∧ s.clock i - x.1.micros ≤ 5 * 1000000

/-- Every request of the conversation is answered when nothing is signed, both sides can sign what they say, and every message is timely. -/
def Answered (c : Config) (svc : Service S) (me vtn : Signing) : S → List SignedStep → Prop
  | _, [] => True
  | st, x :: xs => ∃ m rt rp r st',
    x.link.client = some me ∧ x.link.server = some vtn ∧ x.link.checks.fingerprint = some vtn.fingerprint ∧
    Received x.link.lib x.link.clientNow x.type x.payload m ∧ Received x.link.lib x.link.serverNow rt rp r ∧
    (∀ txt, createMessage x.link.lib x.link.clientNow x.type x.payload = .ok txt → ∃ tree, c.validate (String.ofList txt) = .ok tree) ∧
    (∀ txt, createMessage x.link.lib x.link.serverNow rt rp = .ok txt → x.accepts (String.ofList txt) = true) ∧
    (∀ cache txt, createMessage x.link.lib x.link.clientNow x.type x.payload = .ok txt →
      handle (wired (lax c) x.link.lib x.link.serverNow) svc x.link.surroundings x.link.count cache st (requestOf true (some me.fingerprint) txt) =
        ((cache, st'), sendMessage (wired (lax c) x.link.lib x.link.serverNow) rt rp)) ∧
    (∀ t, SignedObject x.link.lib x.link.clientNow x.type x.payload t → Genuine me c.validate x.link.clientStamp t) ∧
    (∀ t, SignedObject x.link.lib x.link.serverNow rt rp t → Genuine vtn x.link.checks.tree x.link.serverStamp t) ∧
    Timely x.link.surroundings x.link.count x.link.clientStamp x.asked ∧
    Timely x.link.checks.surroundings x.link.checks.count x.link.serverStamp x.answered ∧
    Answered c svc me vtn st' xs

theorem timely_pair {s : Surroundings} {i : Nat} {stamp : Stamp} {x : DateTime × String} (h : Timely s i stamp x) : stamp.pair = some x := by
  obtain ⟨_, rfl, h2, h3, _⟩ := h
  simp only [Stamp.pair, createReplay, c04_timestamp_round_trip x.1 h2 h3]

theorem timely_fresh {s : Surroundings} {i : Nat} {stamp : Stamp} {x : DateTime × String} (h : Timely s i stamp x) (cache : NonceCache)
    (hn : x ∉ cache) : (verifyReplay s i cache stamp).2 = .ok () := by
  obtain ⟨_, rfl, h2, h3, h4⟩ := h
  exact c37_fresh_accepted s i cache _ _ x.2 x.1 rfl rfl (c04_timestamp_round_trip x.1 h2 h3) hn h4

theorem timely_memory {s : Surroundings} {i : Nat} {stamp : Stamp} {x : DateTime × String} (h : Timely s i stamp x) (cache : NonceCache)
    (hn : x ∉ cache) (y : DateTime × String) (hy : y ∈ (verifyReplay s i cache stamp).1) : y = x ∨ y ∈ cache := by
  obtain ⟨z, h1, h2, _, h3⟩ := verifyReplay_ok s i cache stamp (timely_fresh h cache hn)
  rw [timely_pair h] at h1
  cases h1
  rw [h3, updateNonceCache, if_neg h2] at hy
  have := (h.1 _).mem_iff.mp ((evict_sublist _ _ _).subset hy)
  simp only [List.mem_append, List.mem_singleton] at this
  exact this.symm

/-- **C94**: a whole conversation, of any length and of any messages, goes on in the same way with signatures as without: the same states of the
    VTN and the same answers, when every message is checked within five seconds and no side uses a time and nonce twice. -/
theorem c94_conversation (c : Config) (svc : Service S) (me vtn : Signing) (hne : vtn.fingerprint ≠ "") (xs : List SignedStep) (st : S)
    (plain mine theirs : NonceCache) (h : Answered c svc me vtn st xs)
    (hasked : (xs.map SignedStep.asked).Nodup) (hanswered : (xs.map SignedStep.answered).Nodup)
    (htheirs : ∀ x ∈ xs, x.asked ∉ theirs) (hmine : ∀ x ∈ xs, x.answered ∉ mine) :
    signedTalk c svc (some me.fingerprint) mine theirs st xs = plainTalk c svc (some me.fingerprint) plain st xs ∧
    ∀ a ∈ (signedTalk c svc (some me.fingerprint) mine theirs st xs).2, ∃ t d, a = .ok (some (some t, d)) := by
  induction xs generalizing st mine theirs with
  | nil => exact ⟨rfl, by simp [signedTalk]⟩
  | cons x xs ih =>
    obtain ⟨m, rt, rp, r, st', h1, h2, h3, h4, h5, h6, h7, h8, h9, h10, h11, h12, h13⟩ := h
    simp only [List.map_cons, List.nodup_cons] at hasked hanswered
    have f1 := htheirs x List.mem_cons_self
    have f2 := hmine x List.mem_cons_self
    obtain ⟨_, theirs', q2, q3⟩ := c94_same_answer x.link x.accepts c svc mine theirs theirs st st' me vtn x.type rt x.payload m rp r h1 h2 h3 hne h4 h5
      h6 h7 (h8 theirs) h9 h10 (timely_fresh h11 theirs f1) (timely_fresh h12 mine f2)
    have q1 : exchange (x.link.plain x.accepts) (lax c) svc plain st true (some me.fingerprint) x.type x.payload =
        ((plain, st'), .ok (some (some rt, r))) :=
      exchange_answered (k := x.link.plain x.accepts) h4 (fun txt e _ => h8 plain txt e) h5 h7
    have hx := ih st' (verifyReplay x.link.checks.surroundings x.link.checks.count mine x.link.serverStamp).1 theirs' h13 hasked.2 hanswered.2 ?_ ?_
    · simp only [signedTalk, plainTalk, q1, q2]
      refine ⟨by rw [hx.1], ?_⟩
      intro a ha
      simp only [List.mem_cons] at ha
      rcases ha with rfl | ha
      · exact ⟨_, _, rfl⟩
      · exact hx.2 a ha
    · intro y hy hin
      have hold := htheirs y (List.mem_cons_of_mem _ hy)
      rcases q3 with rfl | rfl
      · exact hold hin
      · rcases timely_memory h11 theirs f1 _ hin with e | e
        · exact hasked.1 (e ▸ List.mem_map_of_mem hy)
        · exact hold e
    · intro y hy hin
      rcases timely_memory h12 mine f2 _ hin with e | e
      · exact hanswered.1 (e ▸ List.mem_map_of_mem hy)
      · exact hmine y (List.mem_cons_of_mem _ hy) e

/-! ### What the VEN accepts -/

/-- **C94**: a VEN that knows the fingerprint of its VTN takes nothing for a message but what was signed with that certificate, has a valid
    signature and is fresh; anything else it does not see. -/
theorem c94_only_genuine (lib : Lib) (v : Checks) (cache : NonceCache) (answer : Except Exn HttpReply) (fp : String) (hf : v.fingerprint = some fp)
    (hne : fp ≠ "") (t : String) (d : Dict) (h : (clientReadsSigned lib v cache answer).2 = some (some t, d)) :
    ∃ text message tree, answer = .ok ⟨200, text, message⟩ ∧ v.tree text = .ok tree ∧ tree.signer = .ok fp ∧ tree.verify = none ∧
      (verifyReplay v.surroundings v.count cache tree.stamp).2 = .ok () ∧ parseText lib text = .ok (t, d) ∧
      (clientReadsSigned lib v cache answer).1 = (verifyReplay v.surroundings v.count cache tree.stamp).1 := by
  cases answer with
  | error e => simp [clientReadsSigned] at h
  | ok r =>
    obtain ⟨status, text, message⟩ := r
    simp only [clientReadsSigned] at h ⊢
    by_cases h1 : status ≠ 200
    · simp [h1] at h
    rw [if_neg h1] at h ⊢
    by_cases h2 : text = ""
    · simp [h2] at h
    rw [if_neg h2] at h ⊢
    simp only [clientChecks, hf, hne, if_false] at h ⊢
    cases ht : v.tree text with
    | error e => simp [ht] at h
    | ok tree =>
      simp only [ht, validateAgainst] at h ⊢
      cases hg : tree.signer with
      | error e => simp [hg] at h
      | ok signer =>
        simp only [hg] at h ⊢
        by_cases h3 : signer ≠ fp
        · simp [h3] at h
        have h3' : signer = fp := Decidable.of_not_not h3
        subst h3'
        simp only [ne_eq, not_true_eq_false, if_false, validateXmlSignature, hg] at h ⊢
        cases hv : tree.verify with
        | some e => simp [hv] at h
        | none =>
          simp only [hv] at h ⊢
          cases hr : verifyReplay v.surroundings v.count cache tree.stamp with
          | mk a b =>
            cases b with
            | error e => simp [hr] at h
            | ok u =>
              simp only [hr] at h ⊢
              cases hp : parseText lib text with
              | error e => simp [hp] at h
              | ok td =>
                simp only [hp, Option.some.injEq, Prod.mk.injEq] at h ⊢
                obtain ⟨e1, e2⟩ := h
                have h1' : status = 200 := Decidable.of_not_not h1
                subst h1'
                exact ⟨text, message, tree, rfl, ht, hg, hv, by rw [hr], by rw [hp]; simp [← e1, ← e2], by rw [hr]⟩

/-! ### Replays at the server -/

/-- The server handles requests one after the other: the number of readings of the clock, the memory of nonces, and the state afterwards. -/
def serve (c : Config) (svc : Service S) (s : Surroundings) : Nat → NonceCache → S → List Request → Nat × NonceCache × S
  | i, cache, st, [] => (i, cache, st)
  | i, cache, st, r :: rs =>
    serve c svc s (i + readings cache) (handle c svc s i cache st r).1.1 (handle c svc s i cache st r).1.2 rs

theorem serve_append (c : Config) (svc : Service S) (s : Surroundings) (i : Nat) (cache : NonceCache) (st : S) (xs ys : List Request) :
    serve c svc s i cache st (xs ++ ys) =
      serve c svc s (serve c svc s i cache st xs).1 (serve c svc s i cache st xs).2.1 (serve c svc s i cache st xs).2.2 ys := by
  induction xs generalizing i cache st with
  | nil => rfl
  | cons r xs ih => simp only [List.cons_append, serve, ih]

theorem validateXmlSignature_cache (s : Surroundings) (i : Nat) (cache : NonceCache) (tree : Tree) :
    (validateXmlSignature s i cache tree).1 = cache ∨ (validateXmlSignature s i cache tree).1 = (verifyReplay s i cache tree.stamp).1 := by
  unfold validateXmlSignature
  cases tree.signer with
  | error e => exact .inl rfl
  | ok f =>
    cases tree.verify with
    | some e => exact .inl rfl
    | none =>
      simp only
      generalize verifyReplay s i cache tree.stamp = x
      obtain ⟨x1, x2⟩ := x
      cases x2 <;> exact .inr rfl

theorem authenticateMessage_cache (c : Config) (s : Surroundings) (i : Nat) (cache : NonceCache) (r : Request) (tree : Tree) (m : Dict) :
    (authenticateMessage c s i cache r tree m).1 = cache ∨ (authenticateMessage c s i cache r tree m).1 = (verifyReplay s i cache tree.stamp).1 := by
  unfold authenticateMessage
  cases r.secure with
  | false => exact .inl rfl
  | true =>
    cases Dict.get? m "ven_id" with
    | none => exact .inl rfl
    | some ven =>
      cases r.peer with
      | none => exact .inl rfl
      | some peer =>
        simp only
        cases expectedFingerprint c ven with
        | error e => exact .inl rfl
        | ok expected =>
          simp only
          by_cases h1 : expected = .none
          · rw [if_pos h1]; exact .inl rfl
          rw [if_neg h1]
          by_cases h2 : Value.str peer ≠ expected
          · rw [if_pos h2]; exact .inl rfl
          rw [if_neg h2]
          by_cases h3 : c.verifySignatures = true
          · rw [if_pos h3]
            cases tree.signer with
            | error e => exact .inl rfl
            | ok signer =>
              simp only
              by_cases h4 : Value.str signer ≠ expected
              · rw [if_pos h4]; exact .inl rfl
              rw [if_neg h4]
              have h := validateXmlSignature_cache s i cache tree
              generalize validateXmlSignature s i cache tree = x at *
              obtain ⟨x1, x2⟩ := x
              cases x2 <;> exact h
          · rw [if_neg h3]; exact .inl rfl

theorem authStep_cache (c : Config) (s : Surroundings) (i : Nat) (cache : NonceCache) (r : Request) (tree : Tree) (m : Dict) :
    (authStep c s i cache r tree m).1 = cache ∨ (authStep c s i cache r tree m).1 = (verifyReplay s i cache tree.stamp).1 := by
  unfold authStep authenticate
  split
  · split
    · exact authenticateMessage_cache c s i cache r tree m
    · exact .inl rfl
  · exact .inl rfl

/-- A request leaves the memory as it is, or does to it what a check of its stamp does. -/
theorem handle_cache (c : Config) (svc : Service S) (s : Surroundings) (i : Nat) (cache : NonceCache) (st : S) (r : Request) :
    (handle c svc s i cache st r).1.1 = cache ∨ ∃ stamp, (handle c svc s i cache st r).1.1 = (verifyReplay s i cache stamp).1 := by
  by_cases hread : ∃ tree type message, Readable c r tree type message
  · obtain ⟨tree, type, m, hread⟩ := hread
    simp only [handle, process_readable c svc s i cache st r tree type m hread]
    cases checkKnown c type m with
    | error e => exact .inl rfl
    | ok u =>
      simp only
      have h := authStep_cache c s i cache r tree m
      generalize authStep c s i cache r tree m = x at *
      obtain ⟨x1, x2⟩ := x
      cases x2 with
      | error e => simp only at h ⊢; exact h.imp id (fun h => ⟨_, h⟩)
      | ok u =>
        simp only [dispatched] at h ⊢
        generalize handleMessage c svc st type (handed r type m) = z
        obtain ⟨zs, zr⟩ := z
        cases zr <;> exact h.imp id (fun h => ⟨_, h⟩)
  · obtain ⟨o, ho⟩ := process_unreadable c s i cache r hread
    exact .inl (by rw [handle, ho])

theorem spent_handle (c : Config) (svc : Service S) (s : Surroundings) (hf : Forward s) (ho : Iterates s) (i : Nat) (cache : NonceCache) (st : S)
    (r : Request) (x : DateTime × String) (h : Spent s i cache x) : Spent s (i + readings cache) (handle c svc s i cache st r).1.1 x := by
  rcases handle_cache c svc s i cache st r with hc | ⟨stamp, hc⟩
  · rw [hc]
    rcases h with h | h
    · exact .inl h
    · have := hf i (i + readings cache) (by simp [readings])
      exact .inr (by omega)
  · rw [hc]
    exact spent_step s hf ho i cache stamp x (.inl h)

theorem spent_serve (c : Config) (svc : Service S) (s : Surroundings) (hf : Forward s) (ho : Iterates s) (i : Nat) (cache : NonceCache) (st : S)
    (rs : List Request) (x : DateTime × String) (h : Spent s i cache x) :
    Spent s (serve c svc s i cache st rs).1 (serve c svc s i cache st rs).2.1 x := by
  induction rs generalizing i cache st with
  | nil => exact h
  | cons r rs ih =>
    simp only [serve]
    exact ih _ _ _ (spent_handle c svc s hf ho i cache st r x h)

/-- On a secure connection a message of a VEN is refused and not remembered, or is fresh and remembered. -/
theorem authStep_strict (c : Config) (hs : c.verifySignatures = true) (hl : c.fingerprintLookup.isSome ∨ c.venLookup.isSome)
    (s : Surroundings) (i : Nat) (cache : NonceCache) (r : Request) (hr : r.secure = true) (tree : Tree) (m : Dict) (ven : Value)
    (hven : Dict.get? m "ven_id" = some ven) :
    (∃ e, authStep c s i cache r tree m = (cache, .error e)) ∨
    ((verifyReplay s i cache tree.stamp).2 = .ok () ∧ authStep c s i cache r tree m = ((verifyReplay s i cache tree.stamp).1, .ok ())) := by
  by_cases hauth : Authentic c s i cache r tree ven
  · obtain ⟨fp, a1, a2, a3, a4, a5⟩ := hauth
    have hhas : Dict.has m "ven_id" = true := by simp [Dict.has, hven]
    simp only [authStep, hr, hhas, and_self, if_true, authenticate, hl, authenticateMessage, hven, a2]
    have hexp : (∃ e, expectedFingerprint c ven = .error e) ∨ expectedFingerprint c ven = .ok (.str fp) := by
      unfold expectedFingerprint
      rcases a1 with ⟨lookup, h1, h2⟩ | ⟨h1, lookup, info, h2, h3, h4⟩
      · simp only [h1, h2]
        split
        · exact .inr rfl
        · exact .inl ⟨_, rfl⟩
      · have : info ≠ [] := by rintro rfl; simp [Dict.get?] at h4
        right
        simp [h1, h2, h3, this, h4]
    rcases hexp with ⟨e, he⟩ | he
    · left; rw [he]; exact ⟨e, rfl⟩
    · right
      refine ⟨a5, ?_⟩
      rw [he]
      simp only [reduceCtorEq, if_false, ne_eq, not_true_eq_false, hs, if_true, a3, validateXmlSignature, a4]
      generalize verifyReplay s i cache tree.stamp = x at *
      obtain ⟨x1, x2⟩ := x
      simp only at a5
      subst a5
      rfl
  · exact .inl (authenticate_only c hs hl s i cache r hr tree m ven hven hauth)

/-- The request leaves the server as it is, or is fresh and remembered. -/
theorem handle_strict (c : Config) (hs : c.verifySignatures = true) (hl : c.fingerprintLookup.isSome ∨ c.venLookup.isSome) (svc : Service S)
    (s : Surroundings) (i : Nat) (cache : NonceCache) (st : S) (r : Request) (hr : r.secure = true) (tree : Tree) (type : String) (m : Dict)
    (hv : c.validate r.content = .ok tree) (hp : c.parse r.content = .ok (type, m)) (ven : Value) (hven : Dict.get? m "ven_id" = some ven) :
    (handle c svc s i cache st r).1 = (cache, st) ∨
    ((verifyReplay s i cache tree.stamp).2 = .ok () ∧ (handle c svc s i cache st r).1.1 = (verifyReplay s i cache tree.stamp).1) := by
  by_cases hread : ∃ tree type message, Readable c r tree type message
  · obtain ⟨tree', type', m', hread⟩ := hread
    have h1 := hread.valid
    have h2 := hread.parsed
    rw [hv] at h1; rw [hp] at h2
    cases h1; cases h2
    simp only [handle, process_readable c svc s i cache st r tree type m hread]
    cases hk : checkKnown c type m with
    | error e => exact .inl rfl
    | ok u =>
      simp only
      rcases authStep_strict c hs hl s i cache r hr tree m ven hven with ⟨e, he⟩ | ⟨h1, h2⟩
      · left; rw [he]
      · right
        refine ⟨h1, ?_⟩
        rw [h2]
        simp only [dispatched]
        generalize handleMessage c svc st type (handed r type m) = z
        obtain ⟨zs, zr⟩ := z
        cases zr <;> rfl
  · obtain ⟨o, ho⟩ := process_unreadable c s i cache r hread
    exact .inl (by rw [handle, ho])

/-- **C94.** A captured message is no use a second time: whatever requests come before, between and after, of two requests on secure
    connections with the same text, from whichever peers, at least one changes neither the state of the service nor the memory of nonces. -/
theorem c94_takes_effect_once (c : Config) (hs : c.verifySignatures = true) (hl : c.fingerprintLookup.isSome ∨ c.venLookup.isSome)
    (svc : Service S) (s : Surroundings) (hf : Forward s) (ho : Iterates s) (i : Nat) (cache : NonceCache) (st : S) (xs ys : List Request)
    (r r' : Request) (hr : r.secure = true) (hr' : r'.secure = true) (hsame : r'.content = r.content) (tree : Tree) (type : String) (m : Dict)
    (hv : c.validate r.content = .ok tree) (hp : c.parse r.content = .ok (type, m)) (ven : Value) (hven : Dict.get? m "ven_id" = some ven)
    (a b : Nat × NonceCache × S) (ha : a = serve c svc s i cache st xs) (hb : b = serve c svc s i cache st (xs ++ r :: ys)) :
    (handle c svc s a.1 a.2.1 a.2.2 r).1 = (a.2.1, a.2.2) ∨ (handle c svc s b.1 b.2.1 b.2.2 r').1 = (b.2.1, b.2.2) := by
  rcases handle_strict c hs hl svc s a.1 a.2.1 a.2.2 r hr tree type m hv hp ven hven with h | ⟨h1, h2⟩
  · exact .inl h
  · right
    rw [serve_append] at hb
    simp only [serve] at hb
    rw [← ha] at hb
    obtain ⟨x, hx, _⟩ := verifyReplay_ok s a.1 a.2.1 tree.stamp h1
    have hspent : Spent s (a.1 + readings a.2.1) (handle c svc s a.1 a.2.1 a.2.2 r).1.1 x := by
      rw [h2]
      exact spent_step s hf ho a.1 a.2.1 tree.stamp x (.inr ⟨h1, hx⟩)
    have hend := spent_serve c svc s hf ho _ _ (handle c svc s a.1 a.2.1 a.2.2 r).1.2 ys _ hspent
    rw [← hb] at hend
    rw [← hsame] at hv hp
    rcases handle_strict c hs hl svc s b.1 b.2.1 b.2.2 r' hr' tree type m hv hp ven hven with h | ⟨h3, h4⟩
    · exact h
    · exact absurd h3 (spent_refused s _ _ _ x hend hx)

/-- **C94, refuted** for messages over a plain connection, and for messages without a VEN id (a registration): they are handled the same whatever was
    handled before and however late, and nothing of them is remembered, although the VTN is to verify signatures. -/
theorem c94_unprotected_violated (c : Config) (svc : Service S) (s s' : Surroundings) (i i' : Nat) (cache cache' : NonceCache) (st : S) (r : Request)
    (tree : Tree) (type : String) (m : Dict) (hread : Readable c r tree type m) (hr : r.secure = false ∨ Dict.get? m "ven_id" = none) :
    (handle c svc s i cache st r).1.1 = cache ∧ (handle c svc s i cache st r).1.2 = (handle c svc s' i' cache' st r).1.2 ∧
    (handle c svc s i cache st r).2 = (handle c svc s' i' cache' st r).2 := by
  have hstep : ∀ s i cache, authStep c s i cache r tree m = (cache, .ok ()) := by
    intro s i cache
    unfold authStep
    rw [if_neg]
    rintro ⟨h1, h2⟩
    rcases hr with h | h
    · rw [h] at h1; cases h1
    · simp [Dict.has, h] at h2
  simp only [handle, process_readable c svc s i cache st r tree type m hread, process_readable c svc s' i' cache' st r tree type m hread, hstep]
  cases checkKnown c type m with
  | error e => exact ⟨rfl, rfl, rfl⟩
  | ok u =>
    simp only [dispatched]
    generalize handleMessage c svc st type (handed r type m) = z
    obtain ⟨zs, zr⟩ := z
    cases zr <;> exact ⟨rfl, rfl, rfl⟩

/-- For instance: the poll of another peer, with the signature of last year, is handled twice. -/
example :
    let s : Surroundings := ⟨fun _ => (⟨2025, 1, 1, 0, 0, 0, 0⟩ : DateTime).micros, id⟩
    let r : Request := ⟨some "application/xml", false, none, "oadrPoll"⟩
    lookupConfig.verifySignatures = true ∧ (serve lookupConfig (countingService ["oadrPoll"]) s 0 [] 0 [r, r]).2 = ([], 2) ∧
    (serve lookupConfig (countingService ["oadrPoll"]) s 0 [] 0 [{ r with secure := true, peer := some "AA" }]).2 = ([], 0) := by decide +kernel

/-- And in time, over a secure connection, it is handled once. -/
example :
    let r : Request := ⟨some "application/xml", true, some "AA", "oadrPoll"⟩
    (serve lookupConfig (countingService ["oadrPoll"]) newYear 0 [] 0 [r, r, r]).2 = ([(⟨2024, 1, 1, 0, 0, 0, 0⟩, "n")], 1) := by decide +kernel

/-! ### The client -/

/-- The client reads replies one after the other: the number of readings of the clock, and the memory of nonces afterwards. -/
def readAll (lib : Lib) (v : Checks) : Nat → NonceCache → List (Except Exn HttpReply) → Nat × NonceCache
  | i, cache, [] => (i, cache)
  | i, cache, r :: rs => readAll lib v (i + readings cache) (clientReadsSigned lib { v with count := i } cache r).1 rs

theorem readAll_append (lib : Lib) (v : Checks) (i : Nat) (cache : NonceCache) (xs ys : List (Except Exn HttpReply)) :
    readAll lib v i cache (xs ++ ys) = readAll lib v (readAll lib v i cache xs).1 (readAll lib v i cache xs).2 ys := by
  induction xs generalizing i cache with
  | nil => rfl
  | cons r xs ih => simp only [List.cons_append, readAll, ih]

theorem clientChecks_cache (v : Checks) (cache : NonceCache) (text : String) :
    (clientChecks v cache text).1 = cache ∨ ∃ stamp, (clientChecks v cache text).1 = (verifyReplay v.surroundings v.count cache stamp).1 := by
  unfold clientChecks validateAgainst
  cases v.tree text with
  | error e => exact .inl rfl
  | ok tree =>
    simp only
    cases v.fingerprint with
    | none => exact .inl rfl
    | some fp =>
      simp only
      by_cases h : fp = ""
      · rw [if_pos h]; exact .inl rfl
      rw [if_neg h]
      cases tree.signer with
      | error e => exact .inl rfl
      | ok signer =>
        simp only
        by_cases h : signer ≠ fp
        · rw [if_pos h]; exact .inl rfl
        rw [if_neg h]
        exact (validateXmlSignature_cache v.surroundings v.count cache tree).imp id (fun h => ⟨_, h⟩)

theorem clientReadsSigned_cache (lib : Lib) (v : Checks) (cache : NonceCache) (r : Except Exn HttpReply) :
    (clientReadsSigned lib v cache r).1 = cache ∨
      ∃ stamp, (clientReadsSigned lib v cache r).1 = (verifyReplay v.surroundings v.count cache stamp).1 := by
  unfold clientReadsSigned
  cases r with
  | error e => exact .inl rfl
  | ok r =>
    simp only
    by_cases h1 : r.status ≠ 200
    · rw [if_pos h1]; exact .inl rfl
    rw [if_neg h1]
    by_cases h2 : r.text = ""
    · rw [if_pos h2]; exact .inl rfl
    rw [if_neg h2]
    have h := clientChecks_cache v cache r.text
    generalize clientChecks v cache r.text = x at *
    obtain ⟨x1, x2⟩ := x
    cases x2 with
    | error e => exact h
    | ok u => simp only; cases parseText lib r.text <;> exact h

theorem spent_unread (s : Surroundings) (hf : Forward s) (i n : Nat) (cache : NonceCache) (x : DateTime × String) (h : Spent s i cache x) :
    Spent s (i + n) cache x := by
  rcases h with h | h
  · exact .inl h
  · have := hf i (i + n) (by omega)
    exact .inr (by omega)

theorem spent_read (lib : Lib) (v : Checks) (hf : Forward v.surroundings) (ho : Iterates v.surroundings) (i : Nat) (cache : NonceCache)
    (rs : List (Except Exn HttpReply)) (x : DateTime × String) (h : Spent v.surroundings i cache x) :
    Spent v.surroundings (readAll lib v i cache rs).1 (readAll lib v i cache rs).2 x := by
  induction rs generalizing i cache with
  | nil => exact h
  | cons r rs ih =>
    simp only [readAll]
    refine ih _ _ ?_
    rcases clientReadsSigned_cache lib { v with count := i } cache r with hc | ⟨stamp, hc⟩
    · rw [hc]; exact spent_unread _ hf _ _ _ _ h
    · rw [hc]; exact spent_step v.surroundings hf ho i cache stamp x (.inl h)

/-- **C94**: and a VEN that knows the fingerprint of its VTN takes the same text for an answer at most once, whatever it receives before and between. -/
theorem c94_read_once (lib : Lib) (v : Checks) (hf : Forward v.surroundings) (ho : Iterates v.surroundings) (fp : String)
    (hv : v.fingerprint = some fp) (hne : fp ≠ "") (i : Nat) (cache : NonceCache) (xs ys : List (Except Exn HttpReply))
    (text : String) (n n' : Option (String × Dict)) (a b : Nat × NonceCache) (ha : a = readAll lib v i cache xs)
    (hb : b = readAll lib v i cache (xs ++ .ok ⟨200, text, n⟩ :: ys)) (t : String) (d : Dict)
    (h : (clientReadsSigned lib { v with count := a.1 } a.2 (.ok ⟨200, text, n⟩)).2 = some (some t, d)) (t' : String) (d' : Dict) :
    (clientReadsSigned lib { v with count := b.1 } b.2 (.ok ⟨200, text, n'⟩)).2 ≠ some (some t', d') := by
  intro h'
  obtain ⟨x1, m1, tree, e1, h1, _, _, h4, _, h6⟩ := c94_only_genuine lib { v with count := a.1 } a.2 _ fp hv hne t d h
  obtain ⟨x2, m2, tree', e2, g1, _, _, g4, _⟩ := c94_only_genuine lib { v with count := b.1 } b.2 _ fp hv hne t' d' h'
  cases e1; cases e2
  have htree : v.tree text = .ok tree := h1
  have htree' : v.tree text = .ok tree' := g1
  rw [htree] at htree'
  cases htree'
  obtain ⟨x, hx, _⟩ := verifyReplay_ok _ _ _ _ h4
  rw [readAll_append, ← ha] at hb
  simp only [readAll] at hb
  have hs : Spent v.surroundings (a.1 + readings a.2) (clientReadsSigned lib { v with count := a.1 } a.2 (.ok ⟨200, text, n⟩)).1 x := by
    rw [h6]
    exact spent_step v.surroundings hf ho a.1 a.2 tree.stamp x (.inr ⟨h4, hx⟩)
  have hend := spent_read lib v hf ho _ _ ys x hs
  rw [← hb] at hend
  exact spent_refused _ _ _ _ x hend hx g4

/-! ### An example: two polls -/

/-- A signature that holds a nonce and nothing else, from a certificate with this fingerprint. -/
def sampleSigning (fp : String) : Signing :=
  ⟨fp, fun _ stamp => .ok ("<Signature>".toList ++ ((stamp.nonce.getD "").toList ++ "</Signature>".toList))⟩

def sampleTime : DateTime := ⟨2024, 1, 1, 0, 0, 0, 0⟩

/-- Who looks for the nonce at its place. -/
def sampleCheck (fp : String) (text : String) : Except Exn Tree :=
  .ok ⟨.ok fp, none, createReplay sampleTime (if (text.toList.drop (envelopeHead.length + 11)).head? = some '1' then "1" else "2")⟩

theorem sample_genuine (fp nonce : String) (t : Text) (h : nonce = "1" ∨ nonce = "2") :
    Genuine (sampleSigning fp) (sampleCheck fp) (createReplay sampleTime nonce) t := by
  have head : ∀ x, (String.ofList (signedEnvelope ("<Signature>".toList ++ x) t)).toList.drop (envelopeHead.length + 11) =
      x ++ (t ++ ('\n' :: ('<' :: '/' :: "oadr:oadrPayload".toList ++ ['>']))) := by
    intro x
    rw [String.toList_ofList, signedEnvelope, ← List.drop_drop, List.drop_left', List.append_assoc, List.drop_left']
    · decide +kernel
    · rfl
  have h1 : parseXml ("<Signature>".toList ++ ("1".toList ++ "</Signature>".toList)) = .ok ("Signature", .str "1") := by decide +kernel
  have h2 : parseXml ("<Signature>".toList ++ ("2".toList ++ "</Signature>".toList)) = .ok ("Signature", .str "2") := by decide +kernel
  rcases h with rfl | rfl
  · refine ⟨_, _, rfl, h1, by decide +kernel, ?_⟩
    simp only [sampleCheck, createReplay, Option.getD_some, head]
    rfl
  · refine ⟨_, _, rfl, h2, by decide +kernel, ?_⟩
    simp only [sampleCheck, createReplay, Option.getD_some, head]
    rfl

def sampleSignedStep (nonce : String) : SignedStep where
  link := ⟨plainLib, 0, 0, some (sampleSigning "AA"), some (sampleSigning "BB"), createReplay sampleTime nonce, createReplay sampleTime nonce,
    ⟨some "BB", sampleCheck "BB", newYear, 0⟩, newYear, 0⟩
  accepts := fun _ => true
  type := "oadrPoll"
  payload := [("ven_id", .str "ven1")]
  asked := (sampleTime, nonce)
  answered := (sampleTime, nonce)

def sampleSignedVtn : Config :=
  { sampleVtn with
    venLookup := some (fun _ => .ok (some [("registration_id", .str "reg"), ("fingerprint", .str "AA")]))
    validate := sampleCheck "AA" }

def sampleSignedService : Service Nat :=
  ⟨"OadrPoll", [("oadrPoll", fun n _ => (n + 1, .ok (.pair "oadrRequestReregistration" (.dict [("ven_id", .str "ven1")]))))]⟩

theorem sample_answered (n : Nat) (nonce : String) (h : nonce = "1" ∨ nonce = "2") (xs : List SignedStep)
    (hx : Answered sampleSignedVtn sampleSignedService (sampleSigning "AA") (sampleSigning "BB") (n + 1) xs) :
    Answered sampleSignedVtn sampleSignedService (sampleSigning "AA") (sampleSigning "BB") n (sampleSignedStep nonce :: xs) := by
  have hv : Ordinary plainLib "ven1" := ordinary_of (by decide +kernel)
  have timely : Timely newYear 0 (createReplay sampleTime nonce) (sampleTime, nonce) :=
    ⟨fun l => List.Perm.refl _, rfl, (by decide : 1000 ≤ sampleTime.year),
      (by unfold Spec.validDateTime; decide +kernel : Spec.validDateTime sampleTime.year sampleTime.month sampleTime.day sampleTime.hour sampleTime.minute sampleTime.second sampleTime.micro),
      (by decide +kernel : newYear.clock 0 - sampleTime.micros ≤ 5 * 1000000)⟩
  let m : Dict := withPeer true (some "AA") "oadrPoll" [("ven_id", .str "ven1")]
  refine ⟨[("ven_id", .str "ven1")], "oadrRequestReregistration",
    completed (lax sampleSignedVtn) m (finishPayload (lax sampleSignedVtn) m [("ven_id", .str "ven1")]), [("ven_id", .str "ven1")], n + 1, rfl, rfl, rfl, c67_poll hv _ (.same _), ?_, fun _ _ => ⟨_, rfl⟩, fun _ _ => rfl, ?_,
    fun t _ => sample_genuine "AA" nonce t h, fun t _ => sample_genuine "BB" nonce t h, timely, timely, hx⟩
  rotate_left
  · intro cache txt ht
    obtain ⟨txt', e1, e2⟩ := c67_poll (lib := plainLib) (now := 0) hv _ (.same _)
    have : createMessage plainLib 0 "oadrPoll" [("ven_id", .str "ven1")] = .ok txt := ht
    rw [this] at e1
    cases e1
    exact handle_passed (c := lax sampleSignedVtn) (svc := sampleSignedService) rfl e2 (by decide) (by simp [Dict.get?]) (by decide +kernel)
      (by rfl) rfl
  · exact received_agree rfl (q := [("ven_id", .str "ven1")]) (by unfold AgreeOn; decide +kernel) (c67_request_reregistration hv _ (.same _))

/-- Two polls of the VEN with the certificate `AA` are answered by the VTN with the certificate `BB`. -/
example : signedTalk sampleSignedVtn sampleSignedService (some "AA") [] [] 0 [sampleSignedStep "1", sampleSignedStep "2"] =
      plainTalk sampleSignedVtn sampleSignedService (some "AA") [] 0 [sampleSignedStep "1", sampleSignedStep "2"] ∧
    ∀ a ∈ (signedTalk sampleSignedVtn sampleSignedService (some "AA") [] [] 0 [sampleSignedStep "1", sampleSignedStep "2"]).2,
      ∃ t d, a = .ok (some (some t, d)) :=
  c94_conversation sampleSignedVtn sampleSignedService (sampleSigning "AA") (sampleSigning "BB") (by decide) _ 0 [] [] []
    (sample_answered 0 "1" (.inl rfl) _ (sample_answered 1 "2" (.inr rfl) [] trivial)) (by decide +kernel) (by decide +kernel) (by simp) (by simp)

end Openleadr
