import Verif.Spec.Identifiers
/-!
What a poll with a text stands for.
-/
namespace Openleadr

/-- The document that a poll with this `ven_id` stands for: one element of its kind, with just this text in it. -/
def pollDocument (s : String) : String × Value :=
  ("oadrPayload", .dict [("oadrSignedObject", .dict [("@Id", .str "oadrSignedObject"),
    ("oadrPoll", .dict [("@schemaVersion", .str "2.0b"), ("venID", .str s)])])])

/-- A text on one line. -/
def OneLine (s : String) : Prop := '\n' ∉ s.toList ∧ '\r' ∉ s.toList

/-- A text with a character that starts markup. -/
def HasMarkup (s : String) : Prop := '<' ∈ s.toList ∨ '&' ∈ s.toList

end Openleadr
