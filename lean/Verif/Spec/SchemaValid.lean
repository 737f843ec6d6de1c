import Verif.Spec.XsdMessages
import Verif.Spec.Wire
/-!
What it means that the library only says what the schema allows.
-/
namespace Openleadr

/-- From every payload that conforms to `q` a message of this type can be created, and its text is a document that is valid against the schema. -/
def SchemaValid (lib : Lib) (now : Int) (type : String) (q : Dict) : Prop :=
  ∀ p, Conforms (.dict p) (.dict q) → ∃ txt root, createMessage lib now type p = .ok txt ∧ Xsd.Document txt root ∧ Xsd.ValidAs type root

/-- From every payload that conforms to `q` a message of this type can be created, and its text is a document that is not valid. -/
def SchemaInvalid (lib : Lib) (now : Int) (type : String) (q : Dict) : Prop :=
  ∀ p, Conforms (.dict p) (.dict q) → ∃ txt, createMessage lib now type p = .ok txt ∧ Xsd.Invalid txt

end Openleadr
