import Verif.Spec.OptPayloads
/-!
When a receiver sees what was sent, told generously: in any order, whether what is missing is `None` or empty, and whether whole numbers are floats.
-/
namespace Openleadr

/-- There is nothing: `None`, or an empty list or dict. -/
def Nothing (v : Value) : Prop := v = .none ∨ v = .list [] ∨ v = .dict []

/-- An entry of a dict, `None` if it is missing. -/
def entryOf (d : Dict) (k : String) : Value := (Dict.get? d k).getD .none

/-- `Alike lib got sent`: a receiver that makes no difference between nothing and nothing, between integers and floats, and between orders of entries
    sees what was sent. -/
inductive Alike (lib : Lib) : Value → Value → Prop
  | same (v : Value) : Alike lib v v
  | nothing (v w : Value) : Nothing v → Nothing w → Alike lib v w
  | number (v : Value) (r : String) : AsFloat lib v r → Alike lib (.float r) v
  | list (l l' : List Value) (len : l.length = l'.length)
      (each : ∀ (i : Nat) x y, l[i]? = some x → l'[i]? = some y → Alike lib x y) : Alike lib (.list l) (.list l')
  | dict (d d' : Dict) (each : ∀ k, Alike lib (entryOf d k) (entryOf d' k)) : Alike lib (.dict d) (.dict d')

/-- The message can be sent, and the receiver sees what was sent. -/
def Kept (lib : Lib) (now : Int) (type : String) (p : Dict) : Prop :=
  ∃ got, Received lib now type p got ∧ Alike lib (.dict got) (.dict p)

end Openleadr
