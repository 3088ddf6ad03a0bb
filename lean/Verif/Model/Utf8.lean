import Verif.Model.Parser

/-! Model of the UTF-8 decoding done by `bufio.Reader.ReadRune` (Go standard library `unicode/utf8`, `DecodeRune`), through which
lexer.go reads its input.  How the bytes are cut into buffers is not modelled. -/

namespace Asn1go

/-- utf8.RuneError, for lexer.go:254, 278 and 293. -/
def runeError : Char := Char.ofNat 0xFFFD

/-- A continuation byte between `lo` and `hi`.  For lexer.go:254, 278 and 293. -/
def inRange (lo hi b : Nat) : Bool := lo ≤ b && b ≤ hi

/-- The tables `first` and `acceptRanges`: number of bytes and the range of the second byte, by the first byte, for bytes that
start a sequence.  For lexer.go:254, 278 and 293. -/
def sequenceStart (b : Nat) : Option (Nat × Nat × Nat) :=
  if b ≤ 0x7F then some (1, 0, 0)
  else if b ≤ 0xC1 then none
  else if b ≤ 0xDF then some (2, 0x80, 0xBF)
  else if b ≤ 0xE0 then some (3, 0xA0, 0xBF)
  else if b ≤ 0xEC then some (3, 0x80, 0xBF)
  else if b ≤ 0xED then some (3, 0x80, 0x9F)
  else if b ≤ 0xEF then some (3, 0x80, 0xBF)
  else if b ≤ 0xF0 then some (4, 0x90, 0xBF)
  else if b ≤ 0xF3 then some (4, 0x80, 0xBF)
  else if b ≤ 0xF4 then some (4, 0x80, 0x8F)
  else none

/-- `utf8.DecodeRune` on bytes that are not empty: the rune and its width, which is 1 for an invalid sequence.
Called at lexer.go:278, and by `ReadRune` at lexer.go:254 and 293. -/
def decodeRune (b : Nat) (rest : List Nat) : Char × Nat :=
  match sequenceStart b with
  | none => (runeError, 1)
  | some (n, lo, hi) =>
    if n = 1 then (Char.ofNat b, 1)
    else
      match rest with
      | b1 :: rest1 =>
        if !inRange lo hi b1 then (runeError, 1)
        else if n = 2 then (Char.ofNat ((b % 32) * 64 + b1 % 64), 2)
        else
          match rest1 with
          | b2 :: rest2 =>
            if !inRange 0x80 0xBF b2 then (runeError, 1)
            else if n = 3 then (Char.ofNat ((b % 16) * 4096 + (b1 % 64) * 64 + b2 % 64), 3)
            else
              match rest2 with
              | b3 :: _ =>
                if !inRange 0x80 0xBF b3 then (runeError, 1)
                else (Char.ofNat ((b % 8) * 262144 + (b1 % 64) * 4096 + (b2 % 64) * 64 + b3 % 64), 4)
              | [] => (runeError, 1)
          | [] => (runeError, 1)
      | [] => (runeError, 1)

/-- The runes read from bytes; `skip` bytes still belong to the last one.  For lexer.go:254. -/
def decodeFrom : Nat → List UInt8 → Str
  | _, [] => []
  | skip + 1, _ :: bs => decodeFrom skip bs
  | 0, b :: bs =>
    let (c, n) := decodeRune b.toNat (bs.map UInt8.toNat)
    c :: decodeFrom (n - 1) bs

/-- All runes read from bytes.  For lexer.go:254. -/
def decodeUtf8 (bs : List UInt8) : Str := decodeFrom 0 bs

/-- parser.go:21-29 `ParseStream`, on a reader that delivers `bs` and then ends as `fin` says. -/
def parseBytes (u : Unicode) (bs : List UInt8) (fin : ReadEnd) : ParseResult := parseStream u (decodeUtf8 bs) fin

end Asn1go
