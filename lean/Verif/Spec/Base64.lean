import Verif.Py.Basic
/-!
Base64 (RFC 4648) and certificates in PEM form (RFC 7468).
-/
namespace Openleadr.Spec

/-- The alphabet of Base64. -/
def base64Alphabet : Text := "ABCDEFGHIJKLMNOPQRSTUVWXYZabcdefghijklmnopqrstuvwxyz0123456789+/".toList

def base64Char (n : Nat) : Char := base64Alphabet.getD n 'A'

/-- Three bytes are four characters; one or two at the end are filled up. -/
def base64 : List UInt8 → Text
  | [] => []
  | [a] => [base64Char (a.toNat / 4), base64Char (a.toNat % 4 * 16), '=', '=']
  | [a, b] => [base64Char (a.toNat / 4), base64Char (a.toNat % 4 * 16 + b.toNat / 16), base64Char (b.toNat % 16 * 4), '=']
  | a :: b :: c :: r =>
    base64Char (a.toNat / 4) :: base64Char (a.toNat % 4 * 16 + b.toNat / 16) :: base64Char (b.toNat % 16 * 4 + c.toNat / 64) ::
      base64Char (c.toNat % 64) :: base64 r

/-- White space between the characters. -/
def isBlank (c : Char) : Bool := c == ' ' || c == '\t' || c == '\n' || c == '\r'

/-- The text carries the bytes in Base64, in lines of whatever length. -/
def Carries64 (body : Text) (der : List UInt8) : Prop := body.filter (fun c => !isBlank c) = base64 der

/-- A certificate in PEM form. -/
def PemOf (pem : Text) (der : List UInt8) : Prop :=
  ∃ body tail, pem = "-----BEGIN CERTIFICATE-----".toList ++ body ++ "-----END CERTIFICATE-----".toList ++ tail ∧ Carries64 body der ∧ tail.all isBlank = true

end Openleadr.Spec
