import Verif.Model.Text
/-!
Reading XML as `xmltodict.parse(data, process_namespaces=True, namespaces=NAMESPACES)` does (openleadr/messaging.py:59): expat, which splits
the text into tags and character data and resolves the prefixes of names, and the handler of xmltodict, which builds nested dicts.

Both are libraries; this is the behaviour the library's messages rely on, character by character. Comments, CDATA sections, document type
declarations and numeric character references are not covered (they raise here). The entry
`@xmlns` that xmltodict adds to elements with attributes is left out (`normalize_dict` skips all keys that start with `@`).
-/
namespace Openleadr

/-- openleadr/messaging.py:227-238 `NAMESPACES`: the namespaces whose names are used without prefix. -/
def knownNamespaces : List String :=
  ["http://docs.oasis-open.org/ns/energyinterop/201110", "http://openadr.org/oadr-2.0b/2012/07", "urn:ietf:params:xml:ns:icalendar-2.0",
   "http://docs.oasis-open.org/ns/energyinterop/201110/payloads", "http://docs.oasis-open.org/ns/emix/2011/06",
   "urn:ietf:params:xml:ns:icalendar-2.0:stream", "http://docs.oasis-open.org/ns/emix/2011/06/power",
   "http://docs.oasis-open.org/ns/emix/2011/06/siscale", "http://www.w3.org/2000/09/xmldsig#",
   "http://openadr.org/oadr-2.0b/2012/07/xmldsig-properties"]

/-- Prefixes in scope with their namespaces, innermost first; the prefix `""` is the default namespace. -/
abbrev Scope := List (String × String)

/-- An element that is open: its name as written, the scope outside of it, the dict built so far (`None` while there is nothing), and its
    character data. -/
structure Frame where
  name : String
  key : String
  outer : Scope
  item : Option Dict
  data : Text
  deriving DecidableEq, Repr

/-- Where the reader is: in character data, after `&`, or inside `<…>` (with the quote of the attribute value it is in). -/
inductive Mode
  | text
  | entity (acc : Text)
  | tag (acc : Text) (quote : Option Char)
  deriving DecidableEq, Repr

/-- The state of the reader: open elements, innermost first, and the finished document element. -/
structure Reader where
  mode : Mode
  stack : List Frame
  scope : Scope
  done : Option (String × Value)
  deriving DecidableEq, Repr

/-- The reader at the start of a document. -/
def Reader.start : Reader := { mode := .text, stack := [], scope := [("xml", "http://www.w3.org/XML/1998/namespace")], done := none }

/-- White space of XML. -/
def isXmlSpace (c : Char) : Bool := c = ' ' || c = '\t' || c = '\n' || c = '\r'

/-- The characters that XML allows in a document. -/
def isXmlChar (c : Char) : Bool :=
  c = '\t' || c = '\n' || c = '\r' || (0x20 ≤ c.toNat && c.toNat ≠ 0xfffe && c.toNat ≠ 0xffff)

/-- `prefix:local` as its two parts. -/
def splitName (name : String) : String × String :=
  match name.toList.dropWhile (· ≠ ':') with
  | ':' :: l => (String.ofList (name.toList.takeWhile (· ≠ ':')), String.ofList l)
  | _ => ("", name)

/-- `_DictSAXHandler._build_name`: the name under which xmltodict files an element; an unbound prefix is an error. -/
def buildName (scope : Scope) (name : String) : Option String :=
  match Dict.get? scope (splitName name).1 with
  | some uri => if knownNamespaces.contains uri || uri = "" then some (splitName name).2 else some (uri ++ ":" ++ (splitName name).2)
  | none => if (splitName name).1 = "" then some (splitName name).2 else none

/-- Characters of names. -/
def isNameChar (c : Char) : Bool := c.isAlphanum || c = ':' || c = '_' || c = '-' || c = '.' || 0x80 ≤ c.toNat

/-- A name that an element may have: not empty, and not starting with a digit, `-`, `.` or `:`; at most one colon, which is not the last character. -/
def isName (t : Text) : Bool :=
  match t with
  | [] => false
  | c :: _ => t.all isNameChar && !(c.isDigit || c = '-' || c = '.' || c = ':') && (t.filter (· = ':')).length ≤ 1 && t.getLast? ≠ some ':'

/-- The attributes in a tag: `name="value"` or `name='value'`, separated by white space. -/
def tagAttributes (fuel : Nat) (t : Text) : Option (List (String × String)) :=
  match fuel with
  | 0 => none
  | fuel + 1 =>
    match t.dropWhile isXmlSpace with
    | [] => some []
    | t' =>
      match t'.dropWhile isNameChar with
      | '=' :: q :: rest =>
        if (q = '"' || q = '\'') && rest.any (· = q) && isName (t'.takeWhile isNameChar) then
          match tagAttributes fuel ((rest.dropWhile (· ≠ q)).drop 1) with
          | some l => some ((String.ofList (t'.takeWhile isNameChar), String.ofList (rest.takeWhile (· ≠ q))) :: l)
          | none => none
        else none
      | _ => none

/-- The name and the attributes in a tag. -/
def tagParts (t : Text) : Option (String × List (String × String)) :=
  if isName (t.takeWhile isNameChar) then
    match tagAttributes (t.length + 1) (t.dropWhile isNameChar) with
    | some l => some (String.ofList (t.takeWhile isNameChar), l)
    | none => none
  else none

/-- The prefix that an attribute `xmlns` or `xmlns:p` declares. -/
def declaredPrefix (name : String) : Option String :=
  if name = "xmlns" then some ""
  else if (splitName name).1 = "xmlns" then some (splitName name).2
  else none

/-- The scope inside an element with these attributes. -/
def scopeWith (scope : Scope) (attrs : List (String × String)) : Scope :=
  attrs.foldl (fun s a => match declaredPrefix a.1 with
    | some p => (p, a.2) :: s
    | none => s) scope

/-- The entries for the attributes that declare no namespace, with the key `@name`; `none` for an unbound prefix. -/
def attributeEntries (scope : Scope) (attrs : List (String × String)) : Option Dict :=
  match attrs with
  | [] => some []
  | a :: l =>
    match declaredPrefix a.1 with
    | some _ => attributeEntries scope l
    | none =>
      let key := if (splitName a.1).1 = "" then some a.1 else buildName scope a.1
      match key, attributeEntries scope l with
      | some k, some d => some (("@" ++ k, .str a.2) :: d)
      | _, _ => none

/-- `_DictSAXHandler.push_data`: the second entry with the same key turns the value into a list. -/
def pushData (item : Option Dict) (key : String) (data : Value) : Option Dict :=
  match item with
  | none => some [(key, data)]
  | some d =>
    match Dict.get? d key with
    | some (.list l) => some (Dict.set d key (.list (l ++ [data])))
    | some v => some (Dict.set d key (.list [v, data]))
    | none => some (Dict.set d key data)

/-- `_DictSAXHandler.endElement`: the value of an element from its dict and its character data. -/
def closeValue (item : Option Dict) (data : Text) : Value :=
  let data := strip data
  match item with
  | none => if data = [] then .none else .str (String.ofList data)
  | some d =>
    if data = [] then .dict d
    else match pushData (some d) "#text" (.str (String.ofList data)) with
      | some d' => .dict d'
      | none => .none

/-- An opening tag. -/
def openElement (r : Reader) (name : String) (attrs : List (String × String)) : Res Reader :=
  let scope := scopeWith r.scope attrs
  match buildName scope name, attributeEntries scope attrs with
  | some key, some entries =>
    if r.stack = [] ∧ r.done.isSome then .error .xmlError
    else .ok { mode := .text, scope := scope, done := r.done,
               stack := { name := name, key := key, outer := r.scope, item := if entries = [] then none else some entries, data := [] } :: r.stack }
  | _, _ => .error .xmlError

/-- A closing tag. -/
def closeElement (r : Reader) (name : String) : Res Reader :=
  match r.stack with
  | [] => .error .xmlError
  | f :: rest =>
    if f.name ≠ name then .error .xmlError
    else match rest with
      | [] => .ok { mode := .text, scope := f.outer, stack := [], done := some (f.key, closeValue f.item f.data) }
      | g :: rest => .ok { mode := .text, scope := f.outer, done := r.done,
                           stack := { g with item := pushData g.item f.key (closeValue f.item f.data) } :: rest }

/-- The end of a tag: `acc` is what stands between `<` and `>`. -/
def endTag (r : Reader) (acc : Text) : Res Reader :=
  match acc with
  | '?' :: _ => .ok { r with mode := .text }
  | '!' :: _ => .error .xmlError
  | '/' :: name =>
    let name := (name.reverse.dropWhile isXmlSpace).reverse
    closeElement r (String.ofList name)
  | _ =>
    if acc.getLast? = some '/' then
      match tagParts acc.dropLast with
      | some (name, attrs) =>
        match openElement r name attrs with
        | .ok r' => closeElement r' name
        | .error e => .error e
      | none => .error .xmlError
    else match tagParts acc with
      | some (name, attrs) => openElement r name attrs
      | none => .error .xmlError

/-- A character of the character data. -/
def pushChar (r : Reader) (c : Char) : Res Reader :=
  match r.stack with
  | [] => if isXmlSpace c then .ok { r with mode := .text } else .error .xmlError
  | f :: rest => .ok { r with mode := .text, stack := { f with data := f.data ++ [c] } :: rest }

/-- The entities that XML defines. -/
def entityOf (name : Text) : Option Char :=
  if name = "lt".toList then some '<' else if name = "gt".toList then some '>' else if name = "amp".toList then some '&'
  else if name = "quot".toList then some '"' else if name = "apos".toList then some '\'' else none

/-- The reader takes one character. -/
def readChar (r : Reader) (c : Char) : Res Reader :=
  if isXmlChar c = false then .error .xmlError
  else match r.mode with
    | .text =>
      if c = '<' then .ok { r with mode := .tag [] none }
      else if c = '&' then .ok { r with mode := .entity [] }
      else pushChar r c
    | .entity acc =>
      if c = ';' then
        match entityOf acc with
        | some x => pushChar r x
        | none => .error .xmlError
      else if c.isAlpha then .ok { r with mode := .entity (acc ++ [c]) }
      else .error .xmlError
    | .tag acc (some q) =>
      if c = '<' then .error .xmlError
      else if c = q then .ok { r with mode := .tag (acc ++ [c]) none }
      else .ok { r with mode := .tag (acc ++ [c]) (some q) }
    | .tag acc none =>
      if c = '>' then endTag r acc
      else if c = '<' then .error .xmlError
      else if c = '"' || c = '\'' then .ok { r with mode := .tag (acc ++ [c]) (some c) }
      else .ok { r with mode := .tag (acc ++ [c]) none }

/-- The reader takes a text. -/
def readText (r : Reader) (t : Text) : Res Reader :=
  match t with
  | [] => .ok r
  | c :: t => match readChar r c with
    | .ok r' => readText r' t
    | .error e => .error e

/-- Line ends are read as `\n`. -/
def normalizeEnds (t : Text) : Text :=
  match t with
  | '\r' :: '\n' :: r => '\n' :: normalizeEnds r
  | '\r' :: r => '\n' :: normalizeEnds r
  | c :: r => c :: normalizeEnds r
  | [] => []

/-- `]]>` stands in the text. -/
def sectionEnd (t : Text) : Bool :=
  match t with
  | [] => false
  | c :: r => (decide (c = ']') && decide (r.take 2 = [']', '>'])) || sectionEnd r

/-- `xmltodict.parse`: the name and the value of the document element. XML forbids `]]>` in character data; without CDATA sections and comments, it
    cannot stand anywhere else but in a processing instruction, so the whole text is searched for it. -/
def parseXml (data : Text) : Res (String × Value) :=
  if sectionEnd data then .error .xmlError
  else match readText Reader.start (normalizeEnds data) with
  | .ok r => match r.mode, r.stack, r.done with
    | .text, [], some d => .ok d
    | _, _, _ => .error .xmlError
  | .error e => .error e

end Openleadr
