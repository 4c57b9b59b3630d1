import Verif.Model.CString

/-!
# Values in the replies of a modem
-/

namespace Verif.Spec

/-- The documented conversion of the value in a `+CSQ:` reply to dBm. -/
def rssiSpec (n : Nat) : Int :=
  if n ≤ 31 then -113 + 2 * (n : Int)
  else if 100 ≤ n ∧ n ≤ 199 then -116 + ((n : Int) - 100)
  else 0

/-- A doubled digit with the digits of the result added up. -/
def dbl (v : Nat) : Nat := if 2 * v > 9 then 2 * v - 9 else 2 * v

/-- The Luhn sum of a list of digits, given from the last to the first one. -/
def luhn : List Nat → Nat
  | [] => 0
  | [a] => a
  | a :: b :: r => a + dbl b + luhn r

/-- Value of a digit character. -/
def digit (c : Byte) : Nat := c.toNat - 48

/-- The text starts with a plausible ICCID: 18 to 22 digits (and no further digit), beginning with 89,
with a Luhn sum that is a multiple of 10. -/
def ValidIccid (s : List Byte) : Prop :=
  ∃ ds rest, s = ds ++ rest ∧ (∀ c ∈ ds, isDigit c = true) ∧ isDigit (rest.headD 0) = false ∧
    18 ≤ ds.length ∧ ds.length ≤ 22 ∧ b!"89" <+: ds ∧ luhn (ds.reverse.map digit) % 10 = 0

/-- The text of a reply line that is taken as the identification: the line itself, or what follows
`+ICCID: `. -/
def idText (line : List Byte) : List Byte :=
  if b!"+ICCID: " <+: line then line.drop 8 else line

/-- What is stored of it: everything before the carriage return, at most 23 bytes. -/
def idStored (line : List Byte) : List Byte := ((idText line).take 23).takeWhile (· ≠ 13)

end Verif.Spec
