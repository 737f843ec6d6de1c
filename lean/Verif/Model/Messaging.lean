import Verif.Model.Templates
import Verif.Model.Normalize
import Verif.Model.Preflight
import Verif.Model.Xml
/-!
openleadr/messaging.py:45-88: from payload to text and back.
-/
namespace Openleadr

/-- The first lines of openleadr/templates/oadrPayload.xml. -/
def envelopeHead : Text :=
  "<?xml version=\"1.0\" encoding=\"utf-8\"?>\n<oadr:oadrPayload xmlns:oadr=\"http://openadr.org/oadr-2.0b/2012/07\">\n".toList

/-- openleadr/templates/oadrPayload.xml, without a signature (with one, its text stands before the signed object). -/
def envelope (signed : Text) : Text :=
  envelopeHead ++ (signed ++ ('\n' :: ('<' :: '/' :: "oadr:oadrPayload".toList ++ ['>'])))

/-- openleadr/messaging.py:70-71: the flattened text of the template. -/
def renderMessage (lib : Lib) (type : String) (payload : Dict) : Res Text :=
  match Dict.get? templates type with
  | some t => (render lib payload t).map flattenXml
  | none => .error .templateError

/-- openleadr/messaging.py:65-88 `create_message`, for messages that are not signed. -/
def createMessage (lib : Lib) (now : Int) (type : String) (payload : Dict) : Res Text :=
  match preflightMessage now type payload with
  | .ok (.dict p) => (renderMessage lib type p).map envelope
  | .ok _ => .error .typeError
  | .error e => .error e

/-- `dict.popitem()` on the signed object: its last entry. -/
def lastEntry (v : Value) : Res (String × Value) :=
  match v with
  | .dict d => match d.getLast? with
    | some e => .ok e
    | none => .error .keyError
  | _ => .error .attributeError

/-- openleadr/messaging.py:60-62, after the XML has been read. -/
def messageOf (lib : Lib) (fuel : Nat) (doc : String × Value) : Res (String × Value) :=
  match entryAt (.dict [doc]) "oadrPayload" with
  | .error e => .error e
  | .ok payload => match entryAt payload "oadrSignedObject" with
    | .error e => .error e
    | .ok signed => match lastEntry signed with
      | .error e => .error e
      | .ok (type, .dict d) => (normalize lib fuel d).map (fun d' => (type, .dict d'))
      | .ok _ => .error .attributeError

/-- openleadr/messaging.py:45-62 `parse_message`; elements are not nested deeper than the text is long. -/
def parseMessage (lib : Lib) (data : Text) : Res (String × Value) :=
  match parseXml data with
  | .ok doc => messageOf lib data.length doc
  | .error e => .error e

end Openleadr
