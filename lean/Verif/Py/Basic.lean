/-!
Python basics shared by all model files: texts, exceptions as values, results.
-/
namespace Openleadr

/-- A Python `str`, as its list of code points. -/
abbrev Text := List Char

/-- The Python exceptions that the modelled code can raise, as values.
    `oadr code` stands for the OpenADR protocol errors of `openleadr/errors.py:19-93`
    (`ProtocolError` subclasses, each with its response code), `http status` for `HTTPError`, `xmlError` for the errors of the XML
    parsers and `templateError` for those of Jinja (`UndefinedError`, `TemplateNotFound`). -/
inductive Err
  | valueError
  | typeError
  | keyError
  | attributeError
  | indexError
  | overflowError
  | unicodeError
  | assertionError
  | xmlError
  | templateError
  | oadr (code : Nat)
  | http (status : Nat)
  | user (tag : Nat)
  deriving DecidableEq, Repr

/-- A Python computation that returns a value or raises. -/
abbrev Res (α : Type) := Except Err α

instance [DecidableEq ε] [DecidableEq α] : DecidableEq (Except ε α)
  | .ok a, .ok b => if h : a = b then isTrue (by rw [h]) else isFalse (fun e => h (Except.ok.inj e))
  | .error a, .error b => if h : a = b then isTrue (by rw [h]) else isFalse (fun e => h (Except.error.inj e))
  | .ok _, .error _ => isFalse (by simp)
  | .error _, .ok _ => isFalse (by simp)

/-- Two lists of the same length whose elements are related place by place (as a statement, used by the theorems only). -/
inductive Pointwise {α β : Type} (R : α → β → Prop) : List α → List β → Prop
  | nil : Pointwise R [] []
  | cons {a : α} {b : β} {l : List α} {m : List β} : R a b → Pointwise R l m → Pointwise R (a :: l) (b :: m)

end Openleadr
