/-! Specifications for texts: fingerprint form. -/
namespace Openleadr.Spec

/-- The sixteen upper-case hexadecimal digits. -/
def HEX : List Char := ['0', '1', '2', '3', '4', '5', '6', '7', '8', '9', 'A', 'B', 'C', 'D', 'E', 'F']

/-- A byte as two upper-case hexadecimal digits. -/
def hexByte (b : UInt8) : List Char := [HEX.getD (b.toNat / 16) '0', HEX.getD (b.toNat % 16) '0']

/-- `XX:XX:…:XX` -/
def colonSeparated : List UInt8 → List Char
  | [] => []
  | [b] => hexByte b
  | b :: c :: r => hexByte b ++ ':' :: colonSeparated (c :: r)

/-- The text has the form of an OpenADR fingerprint: 29 characters, every third one a colon, the others upper-case
    hexadecimal digits. -/
def fingerprintForm (t : List Char) : Prop :=
  t.length = 29 ∧ ∀ (i : Nat) (h : i < t.length), if i % 3 = 2 then t[i] = ':' else t[i] ∈ HEX

end Openleadr.Spec
