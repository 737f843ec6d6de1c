import Verif.Model.Messaging
import Verif.Spec.Duration
/-!
What it means that a message survives the wire, stated without reference to templates, XML or normalization.
-/
namespace Openleadr

/-- The characters that XML 1.0 allows in a document. -/
def XmlAllowed (c : Char) : Prop :=
  c.toNat = 9 ∨ c.toNat = 10 ∨ c.toNat = 13 ∨ (32 ≤ c.toNat ∧ c.toNat ≤ 0xd7ff) ∨ (0xe000 ≤ c.toNat ∧ c.toNat ≤ 0xfffd) ∨ (0x10000 ≤ c.toNat ∧ c.toNat ≤ 0x10ffff)

/-- A text that XML without escaping can carry on one line: not empty, no white space at its ends, no markup, no line ends (and
    it does not start with `]` or `>`, which only keeps texts that stand side by side from forming `]]>`). -/
structure OnWire (s : String) : Prop where
  notEmpty : s ≠ ""
  first : ∀ c, s.toList.head? = some c → isPySpace c = false
  last : ∀ c, s.toList.getLast? = some c → isPySpace c = false
  chars : ∀ c ∈ s.toList, XmlAllowed c ∧ c ≠ '\n' ∧ c ≠ '\r' ∧ c ≠ '<' ∧ c ≠ '&'
  start : ∀ c, s.toList.head? = some c → c ≠ ']' ∧ c ≠ '>'
  brackets : ∀ a b, s.toList ≠ a ++ [']', ']', '>'] ++ b

/-- A text of digits and dots, perhaps with a minus sign. -/
def NumberLike (lib : Lib) (s : String) : Prop :=
  ∃ sign body, s.toList = sign ++ body ∧ (sign = [] ∨ sign = ['-']) ∧ body ≠ [] ∧ ∀ c ∈ body, lib.isDigit c = true ∨ c = '.'

/-- An ordinary text: neither a number nor a boolean. -/
structure Ordinary (lib : Lib) (s : String) : Prop extends OnWire s where
  notNumber : ¬ NumberLike lib s
  notTrue : s ≠ "true"
  notFalse : s ≠ "false"

/-- A duration of whole seconds that is not negative. -/
def Spans (us : Int) : Prop := ∃ secs : Int, us = 1000000 * secs ∧ 0 ≤ secs ∧ us ≤ Spec.maxTimedelta

/-- Python reads back the integers it writes, and among ASCII letters, digits and the minus sign, `\d` means the digits. -/
structure Lib.Sound (lib : Lib) : Prop where
  digits : ∀ c : Char, c.isDigit = true → lib.isDigit c = true
  letters : ∀ c : Char, c.isAlpha = true → lib.isDigit c = false
  minus : lib.isDigit '-' = false
  ints : ∀ i : Int, lib.readInt (String.ofList (intText i)) = some i

/-- The text of a float: Python reads from it what it wrote, and it is not the text of an integer. -/
structure FloatText (lib : Lib) (r : String) : Prop extends OnWire r where
  reads : lib.readFloat r = some r
  notTrue : r ≠ "true"
  notFalse : r ≠ "false"
  notInt : ∀ sign body, r.toList = sign ++ body → sign = [] ∨ sign = ['-'] → ∃ c ∈ body, lib.isDigit c = false

/-- A number that is received as this float. -/
inductive AsFloat (lib : Lib) : Value → String → Prop
  | float (r : String) : FloatText lib r → AsFloat lib (.float r) r
  | int (i : Int) (r : String) : lib.readFloat (String.ofList (intText i)) = some r → AsFloat lib (.int i) r

/-- An entry that may be left out. -/
def entry? (k : String) (v : Option Value) : Dict :=
  match v with
  | some v => [(k, v)]
  | none => []

/-- The entries that are written without a look at whether they are there, and which need not be: if they are `None`, that is written. -/
def bareKey (k : String) : Bool := k = "report_id"

/-- What is sent may differ from what is meant in unimportant ways: the order of the entries, entries that are `None` (but not those of
    `bareKey`), and objects with members instead of dicts with entries. `Conforms sent meant`. -/
inductive Conforms : Value → Value → Prop
  | same (v : Value) : Conforms v v
  | list (l l' : List Value) (len : l.length = l'.length)
      (each : ∀ (i : Nat) x y, l[i]? = some x → l'[i]? = some y → Conforms x y) : Conforms (.list l) (.list l')
  | members (v : Value) (d : Dict) (kind : (∃ d, v = .dict d) ∨ ∃ c d, v = .obj c d)
      (there : ∀ k y, Dict.get? d k = some y → ∃ x, attrOf v k = some x)
      (each : ∀ k x y, Dict.get? d k = some y → attrOf v k = some x → Conforms x y)
      (other : ∀ k, Dict.get? d k = none → attrOf v k = none ∨ (attrOf v k = some .none ∧ bareKey k = false)) : Conforms v (.dict d)

/-- A message of this type can be created from this payload, and what is read from its text is `received`. -/
def Received (lib : Lib) (now : Int) (type : String) (p received : Dict) : Prop :=
  ∃ txt, createMessage lib now type p = .ok txt ∧ parseMessage lib txt = .ok (type, .dict received)

/-- Every payload that conforms to `q` can be sent, and arrives as `r`. -/
def Arrives (lib : Lib) (now : Int) (type : String) (q r : Dict) : Prop :=
  ∀ p, Conforms (.dict p) (.dict q) → Received lib now type p r

/-- Every payload that conforms to `q` can be sent, and arrives as `q`. -/
def Survives (lib : Lib) (now : Int) (type : String) (q : Dict) : Prop := Arrives lib now type q q

end Openleadr
