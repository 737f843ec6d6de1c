import Verif.Model.Exchange
/-!
Signed messages (openleadr/messaging.py:65-113): the library signs what it sends, and checks the signature of what it receives, on both sides.

Cryptography is abstract: a side signs by an arbitrary function from the signed object and the replay protection to the text of the element
`Signature`, and what a check finds in a text (`Tree`) is arbitrary as well. The statements say what they assume of the two.
-/
namespace Openleadr

/-- The certificate and the key of a side: the fingerprint of the certificate (openleadr/utils.py:394-404), and `SIGNER.sign` with
    `etree.fromstring` before it and `etree.tostring` after it (openleadr/messaging.py:74-81), which may raise. -/
structure Signing where
  fingerprint : String
  sign : Text → Stamp → Res Text

/-- openleadr/templates/oadrPayload.xml with a signature: the line end after `endif` is left out (`trim_blocks`, messaging.py:223). -/
def signedEnvelope (signature signed : Text) : Text :=
  envelopeHead ++ (signature ++ (signed ++ ('\n' :: ('<' :: '/' :: "oadr:oadrPayload".toList ++ ['>']))))

/-- openleadr/messaging.py:65-88 `create_message`; `signing` is `none` without certificate or key, and with `disable_signature`. The replay
    protection is what `_create_replay_protect` gives (175-187). -/
def createSigned (lib : Lib) (now : Int) (signing : Option Signing) (stamp : Stamp) (type : String) (payload : Dict) : Res Text :=
  match preflightMessage now type payload with
  | .ok (.dict p) =>
    match renderMessage lib type p with
    | .error e => .error e
    | .ok t =>
      match signing with
      | none => .ok (envelope t)
      | some s => match s.sign t stamp with
        | .error e => .error e
        | .ok signature => .ok (signedEnvelope signature t)
  | .ok _ => .error .typeError
  | .error e => .error e

/-- How the client looks at what it receives: `vtn_fingerprint`, what the schema and the signature check find in a text, and the clock. -/
structure Checks where
  fingerprint : Option String
  tree : String → Except Exn Tree
  surroundings : Surroundings
  count : Nat

/-- openleadr/messaging.py:101-113 `validate_xml_signature` with a fingerprint. -/
def validateAgainst (v : Checks) (cache : NonceCache) (expected : String) (tree : Tree) : NonceCache × Except Exn Unit :=
  match tree.signer with
  | .error e => (cache, .error e)                                              -- 105
  | .ok signer =>
    if signer ≠ expected then (cache, .error (.fingerprint "incorrect"))       -- 108-111
    else validateXmlSignature v.surroundings v.count cache tree                -- 112-113

/-- openleadr/client.py:1112-1127: the checks of the client, after which the text is parsed. An empty `vtn_fingerprint` is none. -/
def clientChecks (v : Checks) (cache : NonceCache) (text : String) : NonceCache × Except Exn Unit :=
  match v.tree text with
  | .error e => (cache, .error e)
  | .ok tree =>
    match v.fingerprint with
    | none => (cache, .ok ())
    | some fp => if fp = "" then (cache, .ok ()) else validateAgainst v cache fp tree

/-- What the client gets of a reply (openleadr/client.py:1093-1134), like `clientReads`, with the check of the signature. -/
def clientReadsSigned (lib : Lib) (v : Checks) (cache : NonceCache) (reply : Except Exn HttpReply) :
    NonceCache × Option (Option String × Dict) :=
  match reply with
  | .error _ => (cache, some (none, []))
  | .ok r =>
    if r.status ≠ 200 then (cache, some (none, []))
    else if r.text = "" then (cache, none)
    else match clientChecks v cache r.text with
      | (cache', .error _) => (cache', some (none, []))
      | (cache', .ok ()) => match parseText lib r.text with
        | .ok (t, d) => (cache', some (some t, d))
        | .error _ => (cache', some (none, []))

/-- openleadr/messaging.py:65-88 on the server. -/
def renderSigned (lib : Lib) (now : Int) (signing : Option Signing) (stamp : Stamp) (type : String) (p : Dict) : Except Exn String :=
  match createSigned lib now signing stamp type p with
  | .ok t => .ok (String.ofList t)
  | .error e => .error (.other e)

/-- A server with the library's own parser and renderer, which signs its messages (openleadr/server.py:139-140). -/
def wiredSigned (c : Config) (lib : Lib) (now : Int) (signing : Option Signing) (stamp : Stamp) : Config :=
  { c with parse := parseText lib, render := renderSigned lib now signing stamp }

/-- What surrounds a signed exchange: as in `Link`, with the certificates of both sides and the replay protection of the two messages. -/
structure SignedLink where
  lib : Lib
  clientNow : Int
  serverNow : Int
  client : Option Signing
  server : Option Signing
  clientStamp : Stamp
  serverStamp : Stamp
  checks : Checks
  surroundings : Surroundings
  count : Nat

/-- A request of a client that signs its messages and checks those of the server, over a secure connection. The memories of nonces of both
    sides afterwards (the module has one for each process), the state of the server, and what the client gets. -/
def signedExchange (k : SignedLink) (c : Config) (svc : Service S) (mine theirs : NonceCache) (st : S) (peer : Option String)
    (type : String) (p : Dict) : (NonceCache × NonceCache × S) × Res (Option (Option String × Dict)) :=
  match createSigned k.lib k.clientNow k.client k.clientStamp type p with
  | .error e => ((mine, theirs, st), .error e)
  | .ok txt =>
    let x := handle (wiredSigned c k.lib k.serverNow k.server k.serverStamp) svc k.surroundings k.count theirs st
      ⟨some "application/xml", true, peer, String.ofList txt⟩
    let y := clientReadsSigned k.lib k.checks mine x.2
    ((y.1, x.1.1, x.1.2), .ok y.2)

end Openleadr
