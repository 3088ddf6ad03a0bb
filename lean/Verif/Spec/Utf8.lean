import Verif.Model.Utf8

/-! UTF-8, as in RFC 3629, independent of the decoder. -/

namespace Asn1go.Spec

/-- The bytes of a character. -/
def utf8Bytes (c : Char) : List UInt8 :=
  let n := c.toNat
  if n < 0x80 then [UInt8.ofNat n]
  else if n < 0x800 then [UInt8.ofNat (0xC0 + n / 64), UInt8.ofNat (0x80 + n % 64)]
  else if n < 0x10000 then [UInt8.ofNat (0xE0 + n / 4096), UInt8.ofNat (0x80 + n / 64 % 64), UInt8.ofNat (0x80 + n % 64)]
  else [UInt8.ofNat (0xF0 + n / 262144), UInt8.ofNat (0x80 + n / 4096 % 64), UInt8.ofNat (0x80 + n / 64 % 64), UInt8.ofNat (0x80 + n % 64)]

/-- Bytes read as text: characters as they are encoded, and U+FFFD for each byte at which no encoded character starts. -/
inductive ReadAs : List UInt8 → Str → Prop
  | nil : ReadAs [] []
  | char (c : Char) (bs : List UInt8) (s : Str) : ReadAs bs s → ReadAs (utf8Bytes c ++ bs) (c :: s)
  | invalid (b : UInt8) (bs : List UInt8) (s : Str) : (∀ c, ¬ utf8Bytes c <+: b :: bs) → ReadAs bs s →
      ReadAs (b :: bs) (Char.ofNat 0xFFFD :: s)

end Asn1go.Spec
