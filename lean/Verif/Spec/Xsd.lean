import Verif.Spec.Schema
import Verif.Spec.Enumerations
import Verif.Spec.DateTime
/-!
XML documents as trees, and what it means that a document is valid against the OpenADR 2.0b schema (openleadr/schema). Nothing of the model is
used here.

Of XML Schema: sequences of particles with occurrence bounds (a particle is an element, a choice of elements, or the members of a substitution
group), simple types by their lexical and value spaces, declared attributes. The schema is not recursive, so types are terms.
-/
namespace Openleadr.Xsd

/-! ### Documents -/

/-- A node of a document: `<name attrs>kids</name>`, `<name attrs/>`, or character data. -/
inductive Tree
  | elem (name : String) (attrs : List (String × String)) (kids : List Tree)
  | empty (name : String) (attrs : List (String × String))
  | chars (t : List Char)

/-- The attributes of a tag as text. -/
def attrsText (attrs : List (String × String)) : List Char :=
  attrs.flatMap (fun a => ' ' :: a.1.toList ++ '=' :: '"' :: a.2.toList ++ ['"'])

mutual
/-- The text of a node. -/
def Tree.text : Tree → List Char
  | .elem name attrs kids => '<' :: name.toList ++ attrsText attrs ++ '>' :: textAll kids ++ '<' :: '/' :: name.toList ++ ['>']
  | .empty name attrs => '<' :: name.toList ++ attrsText attrs ++ ['/', '>']
  | .chars t => t
/-- The text of nodes that follow each other. -/
def textAll : List Tree → List Char
  | [] => []
  | t :: ts => t.text ++ textAll ts
end

/-- Character data that stands for itself: characters XML allows, no markup and no `]]>`. -/
def Literal (t : List Char) : Prop :=
  (∀ c ∈ t, (c.toNat = 9 ∨ c.toNat = 10 ∨ (32 ≤ c.toNat ∧ c.toNat ≠ 0xfffe ∧ c.toNat ≠ 0xffff)) ∧ c ≠ '<' ∧ c ≠ '&') ∧
  ∀ a b, t ≠ a ++ [']', ']', '>'] ++ b

/-- A name of an element or attribute (ASCII only; XML allows more): `local` or `prefix:local`. -/
def isXmlName (name : String) : Bool :=
  let local' := fun (t : List Char) => (t.head?.any (fun c => c.isAlpha || c = '_')) && t.all (fun c => c.isAlphanum || c = '-' || c = '_' || c = '.')
  match name.toList.span (· ≠ ':') with
  | (t, []) => local' t
  | (p, _ :: t) => local' p && local' t

/-- A tag is well-formed: names, values that can stand between quotation marks, no attribute twice. -/
def isTag (name : String) (attrs : List (String × String)) : Bool :=
  isXmlName name && attrs.all (fun a => isXmlName a.1 && a.2.toList.all (fun c => 32 ≤ c.toNat && c.toNat ≤ 126 && c ≠ '"' && c ≠ '<' && c ≠ '&')) &&
    decide (attrs.map (·.1)).Nodup

/-- A well-formed node: tags are well-formed and character data stands for itself. With it, the text determines the node (up to `<a></a>` and
    `<a/>` and the way character data is cut; `c104_one_document`). -/
inductive Tree.Plain : Tree → Prop
  | elem (name : String) (attrs : List (String × String)) (kids : List Tree) (ht : isTag name attrs = true) (h : ∀ k ∈ kids, k.Plain) :
      Plain (.elem name attrs kids)
  | empty (name : String) (attrs : List (String × String)) (ht : isTag name attrs = true) : Plain (.empty name attrs)
  | chars (t : List Char) (h : Literal t) : Plain (.chars t)

/-- The name, attributes and contents of an element. -/
def Tree.element : Tree → Option (String × List (String × String) × List Tree)
  | .elem name attrs kids => some (name, attrs, kids)
  | .empty name attrs => some (name, attrs, [])
  | .chars _ => none

/-- The elements among nodes. -/
def elements (l : List Tree) : List Tree := l.filter (fun t => t.element.isSome)

/-- The character data among nodes. -/
def data (l : List Tree) : List Char := l.flatMap (fun
  | .chars t => t
  | _ => [])

/-! ### Namespaces -/

/-- A name with its namespace. -/
abbrev QName := String × String

/-- `prefix:local` as its two parts; the prefix is empty if there is none. -/
def nameParts (name : String) : String × String :=
  match name.toList.span (· ≠ ':') with
  | (_, []) => ("", name)
  | (p, _ :: l) => (String.ofList p, String.ofList l)

/-- The prefix that an attribute `xmlns:prefix` or `xmlns` declares. -/
def declared (attr : String) : Option String :=
  match nameParts attr with
  | ("xmlns", p) => some p
  | ("", "xmlns") => some ""
  | _ => none

/-- The namespaces of the prefixes, innermost first. -/
abbrev Names := List (String × String)

/-- The prefixes inside an element with these attributes. -/
def inside (names : Names) (attrs : List (String × String)) : Names :=
  attrs.filterMap (fun a => (declared a.1).map (fun p => (p, a.2))) ++ names

/-- The namespace of a prefix; without a prefix and a default namespace there is none. -/
def namespaceOf (names : Names) (p : String) : Option String :=
  match names.find? (fun e => e.1 == p) with
  | some e => some e.2
  | none => if p = "" then some "" else none

/-- The name of an element. -/
def elementName (names : Names) (t : Tree) : Option QName :=
  match t.element with
  | some (name, attrs, _) => (namespaceOf (inside names attrs) (nameParts name).1).map (fun ns => (ns, (nameParts name).2))
  | none => none

/-- The name of an attribute; without a prefix it is in no namespace. -/
def attributeName (names : Names) (name : String) : Option QName :=
  if (nameParts name).1 = "" then some ("", (nameParts name).2) else (namespaceOf names (nameParts name).1).map (fun ns => (ns, (nameParts name).2))

/-! ### Types -/

/-- A type: simple (which texts are allowed), a sequence of particles `(min, max, alternatives)` with the attributes that are allowed, or any. -/
inductive XType
  | simple (ok : List Char → Prop)
  | sequence (attrs : List (QName × (List Char → Prop))) (parts : List (Nat × Option Nat × List (QName × XType)))
  | any

/-- A particle: how often at least and at most, and which elements. -/
abbrev Part := Nat × Option Nat × List (QName × XType)

/-- Every attribute is a namespace declaration or allowed. -/
def Attributes (names : Names) (allowed : List (QName × (List Char → Prop))) (attrs : List (String × String)) : Prop :=
  ∀ a ∈ attrs, (declared a.1).isSome = true ∨ ∃ e ∈ allowed, attributeName names a.1 = some e.1 ∧ e.2 a.2.toList

mutual
/-- An element fits a type, where these prefixes are known outside of it. -/
inductive Fits : Names → XType → Tree → Prop
  | simple {names ok t name attrs kids} (he : t.element = some (name, attrs, kids)) (ha : Attributes (inside names attrs) [] attrs)
      (hk : elements kids = []) (ht : ok (data kids)) : Fits names (.simple ok) t
  | sequence {names allowed parts t name attrs kids} (he : t.element = some (name, attrs, kids)) (ha : Attributes (inside names attrs) allowed attrs)
      (hd : ∀ c ∈ data kids, xmlSpace c = true) (hk : Sequence (inside names attrs) parts (elements kids)) : Fits names (.sequence allowed parts) t
  | any {names t} : Fits names .any t
/-- Elements form a sequence of particles. -/
inductive Sequence : Names → List Part → List Tree → Prop
  | nil {names} : Sequence names [] []
  | part {names alts parts ts rest} (min : Nat) (max : Option Nat) (ht : Choices names alts ts) (hmin : min ≤ ts.length)
      (hmax : ∀ m, max = some m → ts.length ≤ m) (hr : Sequence names parts rest) : Sequence names ((min, max, alts) :: parts) (ts ++ rest)
/-- Every element is one of the alternatives. -/
inductive Choices : Names → List (QName × XType) → List Tree → Prop
  | nil {names alts} : Choices names alts []
  | cons {names alts q ty t ts} (ha : (q, ty) ∈ alts) (hn : elementName names t = some q) (hf : Fits names ty t) (hr : Choices names alts ts) :
      Choices names alts (t :: ts)
end

/-- A required element. -/
def one (q : QName) (ty : XType) : Part := (1, some 1, [(q, ty)])
/-- An element with `minOccurs="0"`. -/
def opt (q : QName) (ty : XType) : Part := (0, some 1, [(q, ty)])
/-- An element with `maxOccurs="unbounded"`. -/
def some' (q : QName) (ty : XType) : Part := (1, none, [(q, ty)])
/-- An element with `minOccurs="0" maxOccurs="unbounded"`. -/
def many (q : QName) (ty : XType) : Part := (0, none, [(q, ty)])
/-- A sequence without attributes. -/
def seq (parts : List Part) : XType := .sequence [] parts

/-! ### Simple types -/

/-- `whiteSpace="collapse"`, all but blanks at the start. -/
def squeeze : List Char → List Char
  | [] => []
  | c :: t => if xmlSpace c then
      (match squeeze t with
        | [] => []
        | d :: r => if d = ' ' then d :: r else ' ' :: d :: r)
    else c :: squeeze t

/-- `whiteSpace="collapse"` -/
def collapse (t : List Char) : List Char := (squeeze t).dropWhile (· = ' ')

/-- `xs:string` -/
def string : XType := .simple (fun _ => True)
/-- `xs:token` with an enumeration. -/
def IsToken (l : List String) (t : List Char) : Prop := String.ofList (collapse t) ∈ l
/-- oadr_ei_20b.xsd:54-61 `EiExtensionTokenType` -/
def IsExtension (t : List Char) : Prop := ∃ c rest, collapse t = 'x' :: '-' :: c :: rest ∧ xmlSpace c = false
def token (l : List String) : XType := .simple (IsToken l)
def extended (l : List String) : XType := .simple (fun t => IsToken l t ∨ IsExtension t)
/-- `xs:string` with an enumeration or a fixed value. -/
def exactly (l : List String) : XType := .simple (fun t => String.ofList t ∈ l)
/-- `xs:boolean` -/
def boolean : XType := token ["true", "false", "1", "0"]

/-- One or more decimal digits. -/
def Digits (t : List Char) : Prop := t ≠ [] ∧ ∀ c ∈ t, c.isDigit = true
/-- An optional sign. -/
def Sign (t : List Char) : Prop := t = [] ∨ t = ['+'] ∨ t = ['-']

/-- `xs:decimal` -/
def IsDecimal (t : List Char) : Prop :=
  ∃ sign whole frac, Sign sign ∧ (collapse t = sign ++ whole ∧ Digits whole ∨
    collapse t = sign ++ whole ++ '.' :: frac ∧ (∀ c ∈ whole ++ frac, c.isDigit = true) ∧ whole ++ frac ≠ [])
def decimal : XType := .simple IsDecimal
/-- `xs:float` -/
def IsFloat (t : List Char) : Prop :=
  collapse t = "INF".toList ∨ collapse t = "-INF".toList ∨ collapse t = "NaN".toList ∨
  ∃ m e, IsDecimal m ∧ collapse m = m ∧ (collapse t = m ∨ (∃ s x, e = s ++ x ∧ Sign s ∧ Digits x) ∧ (collapse t = m ++ 'e' :: e ∨ collapse t = m ++ 'E' :: e))
def float : XType := .simple IsFloat
/-- An unsigned integer of at most this size. -/
def IsUnsigned (limit : Nat) (t : List Char) : Prop :=
  ∃ sign ds, collapse t = sign ++ ds ∧ Digits ds ∧ Spec.number ds ≤ limit ∧ (sign = [] ∨ sign = ['+'] ∨ sign = ['-'] ∧ Spec.number ds = 0)
/-- `xs:unsignedInt` -/
def unsignedInt : XType := .simple (IsUnsigned 4294967295)

/-- A group `(\d+X)?` of the pattern of durations. -/
def Count (x : Char) (t : List Char) : Prop := t = [] ∨ ∃ ds, Digits ds ∧ t = ds ++ [x]
/-- oadr_xcal_20b.xsd:27-31 `DurationValueType`: the pattern `(\+|\-)?P((\d+Y)?(\d+M)?(\d+D)?T?(\d+H)?(\d+M)?(\d+S)?)|(\d+W)` -/
def IsDuration (t : List Char) : Prop :=
  (∃ sign y mo d mark h mi s, Sign sign ∧ Count 'Y' y ∧ Count 'M' mo ∧ Count 'D' d ∧ (mark = [] ∨ mark = ['T']) ∧ Count 'H' h ∧ Count 'M' mi ∧ Count 'S' s ∧
    t = sign ++ 'P' :: (y ++ mo ++ d ++ mark ++ h ++ mi ++ s)) ∨
  ∃ w, Digits w ∧ t = w ++ ['W']
def durationValue : XType := .simple IsDuration

/-- oadr_xcal_20b.xsd:9-13 `DateTimeType`: a moment of `xs:dateTime` by the pattern
    `(\-|\+)?\d{4}\-\d{2}\-\d{2}T\d{2}:\d{2}:\d{2}(\.\d*)?Z?` (the moment 24:00:00 of a day and negative years are left out). -/
def IsMoment (t : List Char) : Prop :=
  ∃ year month day hour minute second frac zone, Spec.digits year 4 ∧ Spec.digits month 2 ∧ Spec.digits day 2 ∧ Spec.digits hour 2 ∧ Spec.digits minute 2 ∧
    Spec.digits second 2 ∧ (frac = [] ∨ ∃ f, Digits f ∧ frac = '.' :: f) ∧ (zone = [] ∨ zone = ['Z']) ∧
    Spec.validDateTime (Spec.number year) (Spec.number month) (Spec.number day) (Spec.number hour) (Spec.number minute) (Spec.number second) 0 ∧
    collapse t = year ++ '-' :: month ++ '-' :: day ++ 'T' :: hour ++ ':' :: minute ++ ':' :: second ++ frac ++ zone
def dateTime : XType := .simple IsMoment

/-- oadr_ei_20b.xsd:161-175 `ResponseCodeType`: the pattern `[0-9][0-9][0-9]`. -/
def responseCode : XType := .simple (fun t => Spec.digits t 3)

end Openleadr.Xsd
