import Verif.Spec.Wire
/-!
What a text is taken for when it is read from an element.
-/
namespace Openleadr

/-- A text of digits, perhaps with a minus sign. -/
def IntegerLike (lib : Lib) (s : String) : Prop :=
  ∃ sign body, s.toList = sign ++ body ∧ (sign = [] ∨ sign = ['-']) ∧ body ≠ [] ∧ ∀ c ∈ body, lib.isDigit c = true

/-- What a text is taken for. -/
inductive TakenFor (lib : Lib) (s : String) : Value → Prop
  | yes : s = "true" → TakenFor lib s (.bool true)
  | no : s = "false" → TakenFor lib s (.bool false)
  | integer (i : Int) : IntegerLike lib s → lib.readInt s = some i → TakenFor lib s (.int i)
  | number (r : String) : NumberLike lib s → ¬ IntegerLike lib s → lib.readFloat s = some r → TakenFor lib s (.float r)
  | text : s ≠ "true" → s ≠ "false" → ¬ NumberLike lib s → TakenFor lib s (.str s)

/-- A text that is taken for a number but cannot be read as one, such as `1.2.3`. -/
def Unreadable (lib : Lib) (s : String) : Prop :=
  (IntegerLike lib s ∧ lib.readInt s = none) ∨ (NumberLike lib s ∧ ¬ IntegerLike lib s ∧ lib.readFloat s = none)

/-- A message of this type is created from this payload, but reading it fails. -/
def Refused (lib : Lib) (now : Int) (type : String) (p : Dict) (e : Err) : Prop :=
  ∃ txt, createMessage lib now type p = .ok txt ∧ parseMessage lib txt = .error e

end Openleadr
