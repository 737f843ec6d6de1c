import Verif.Spec.Wire
import Verif.Spec.DateTime
/-!
How the names and texts of a message are read, stated without reference to `normalize_dict`.
-/
namespace Openleadr.Reading
open Openleadr

/-- Within the word no upper case letter comes after a lower case one. -/
def OneWord (w : List Char) : Prop := w ≠ [] ∧ ∀ pre a b post, w = pre ++ a :: b :: post → ¬ (a.isLower = true ∧ b.isUpper = true)

/-- Between the two words a lower case letter is followed by an upper case one. -/
def Boundary (v w : List Char) : Prop := ∃ v' a b w', v = v' ++ [a] ∧ w = b :: w' ∧ a.isLower = true ∧ b.isUpper = true

/-- There is a boundary between each word and the next. -/
def Bounded : List (List Char) → Prop
  | v :: w :: ws => Boundary v w ∧ Bounded (w :: ws)
  | _ => True

/-- The words of a name in camel case. -/
def Words (ws : List (List Char)) : Prop := (∀ w ∈ ws, OneWord w) ∧ Bounded ws

/-- A word in lower case, with underscores for hyphens. -/
def small (w : List Char) : List Char := w.map (fun c => if c = '-' then '_' else c.toLower)

/-- The words with underscores in between. -/
def snake : List (List Char) → List Char
  | [] => []
  | [w] => small w
  | w :: v :: ws => small w ++ '_' :: snake (v :: ws)

/-- Names of durations. -/
def DurationKey (k : String) : Prop := k = "duration" ∨ k = "startafter" ∨ k = "max_period" ∨ k = "min_period"

/-- Names of times. -/
def DateKey (k : String) : Prop := (∃ pre post, k.toList = pre ++ "date_time".toList ++ post) ∨ k = "dtstart"

/-- Digits, perhaps with a minus sign. -/
def IntegerLike (lib : Lib) (s : String) : Prop :=
  ∃ sign body, s.toList = sign ++ body ∧ (sign = [] ∨ sign = ['-']) ∧ body ≠ [] ∧ ∀ c ∈ body, lib.isDigit c = true

/-- Somewhere in this element there is an element of this name, which has only this text in it (or is empty, then `None`). -/
inductive LeafAt : Dict → String → Value → Prop
  | here (d : Dict) (k : String) (v : Value) : (k, v) ∈ d → (∀ x, v ≠ .dict x) → (∀ x, v ≠ .list x) → (∀ r, k.toList ≠ '@' :: r) → LeafAt d k v
  | inside (d d' : Dict) (k k' : String) (v : Value) : (k', .dict d') ∈ d → (∀ r, k'.toList ≠ '@' :: r) → LeafAt d' k v → LeafAt d k v
  | among (d d' : Dict) (l : List Value) (k k' : String) (v : Value) : (k', .list l) ∈ d → (∀ r, k'.toList ≠ '@' :: r) → .dict d' ∈ l →
      LeafAt d' k v → LeafAt d k v

/-- Values which the library does not read. -/
inductive Unreadable (lib : Lib) (k : String) : Value → Prop
  | noDuration : DurationKey k → Unreadable lib k .none
  | otherDuration (s : String) : DurationKey k → (∀ (sg : Spec.Sign) (r : List Char), s.toList ≠ sg.text ++ 'P' :: r) →
      (∀ ds r : List Char, ds ≠ [] → (∀ c ∈ ds, c.isDigit) → s.toList ≠ ds ++ 'W' :: r) → Unreadable lib k (.str s)
  | noDate (s : String) (t : Spec.TimestampText) : ¬ DurationKey k → DateKey k → s.toList = t.text → t.WellFormed →
      ¬ Spec.validDateTime (Spec.number t.year) (Spec.number t.month) (Spec.number t.day) (Spec.number t.hour) (Spec.number t.minute)
        (Spec.number t.second) (Spec.microsOfFraction t.fraction) → Unreadable lib k (.str s)
  | noNumber (s : String) : ¬ DurationKey k → ¬ DateKey k → NumberLike lib s → ¬ IntegerLike lib s → lib.readFloat s = none → Unreadable lib k (.str s)

end Openleadr.Reading
