import Verif.Model.Handler
/-!
The configuration of servers in one process (openleadr/server.py:48-160, openleadr/service/vtn_service.py:34-43). Part of it is kept in the class
`VTNService`, that is, once for all servers; part of it in the server itself.
-/
namespace Openleadr

/-- The user's functions that look up VENs, as in `Config`. -/
abbrev FingerprintLookup := Value → Except Exn Value
abbrev VenLookup := Value → Except Exn (Option Dict)

/-- The arguments of `OpenADRServer` (server.py:48-53) that matter here. Files are given by their contents; the empty text stands for an empty argument. -/
structure ServerArgs where
  vtnId : String
  cert : Option String := none
  key : Option String := none
  fingerprintLookup : Option FingerprintLookup := none
  venLookup : Option VenLookup := none
  verifySignatures : Bool := true
  httpCert : Option String := none
  httpKey : Option String := none
  httpCaFile : Option String := none

/-- `if value:` for a text that may be missing. -/
def given (t : Option String) : Bool := match t with | some x => decide (x ≠ "") | none => false

/-- The attributes of the class `VTNService`. `signing`: what `_create_message` signs with (server.py:143-144), certificate and key. The lookups are `none`
    while the class has no such attribute. -/
structure ClassAttrs where
  verifySignatures : Bool
  signing : Option String × Option String
  fingerprintLookup : Option FingerprintLookup
  venLookup : Option VenLookup

/-- vtn_service.py:36: before any server is made. -/
def freshClass : ClassAttrs := ⟨true, (none, none), none, none⟩

/-- server.py:86, 143-159: what making a server changes in the class. -/
def makeServer (g : ClassAttrs) (a : ServerArgs) : ClassAttrs :=
  { verifySignatures := a.verifySignatures                                                       -- 86
    signing := (a.cert, a.key)                                                                   -- 143-144
    fingerprintLookup := match a.fingerprintLookup with | some f => some f | none => g.fingerprintLookup   -- 145-150
    venLookup := match a.venLookup with | some f => some f | none => g.venLookup }               -- 151-157

/-- Several servers are made one after another. -/
def makeServers (g : ClassAttrs) (l : List ServerArgs) : ClassAttrs := l.foldl makeServer g

/-- messaging.py:72: whether a message is signed. -/
def signs (signing : Option String × Option String) : Bool := given signing.1 && given signing.2

/-- server.py:110-118: whether the server speaks TLS; if so, it demands certificates of the clients (114). -/
def speaksTls (a : ServerArgs) : Bool := given a.httpCert && given a.httpKey && given a.httpCaFile

/-- What does not depend on the configuration: the parsers, the rendering with a given signing, and the ids that are made up. -/
structure Library where
  validate : String → Except Exn Tree
  parse : String → Except Exn (String × Dict)
  render : Option String × Option String → String → Dict → Except Exn String
  newId : String

/-- The configuration that the handler of a server works with (vtn_service.py:68-107, 118, 132, 160): its own `vtn_id`, everything else from the class. -/
def configOf (lib : Library) (g : ClassAttrs) (a : ServerArgs) : Config :=
  ⟨a.vtnId, g.verifySignatures, g.fingerprintLookup, g.venLookup, lib.validate, lib.parse, lib.render g.signing, lib.newId⟩

/-- A request as the server receives it: the connection is secured exactly if the server speaks TLS (`request.secure`). -/
def receivedBy (a : ServerArgs) (r : Request) : Request := { r with secure := speaksTls a }

end Openleadr
