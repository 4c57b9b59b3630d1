/-!
# Bytes and literals

`Byte` models `uint8_t` and `char` (the signedness of `char` matters in one place only and is a
parameter there). `b!"text"` is the list of the UTF-8 bytes of a literal.
-/

namespace Verif

/-- `uint8_t` / `char`. -/
abbrev Byte := UInt8

/-- Byte string literal. `b!"OK"` is `[79, 75]`. -/
syntax:max "b!" str : term

macro_rules
  | `(b! $s:str) => do
    let elems := s.getString.toUTF8.toList.map (fun b => Lean.Syntax.mkNumLit (toString b.toNat))
    `(([$(elems.toArray),*] : List UInt8))

/-- The byte `'\n'`. -/
abbrev nl : Byte := 10
/-- The byte `'\r'`. -/
abbrev cr : Byte := 13
/-- The byte `'>'`. -/
abbrev gt : Byte := 62

end Verif
