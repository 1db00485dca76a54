import Verif.Model.Bytes
/-!
# Independent readers of the texts produced by utils.py
-/

namespace Siotls.Spec

/-- Value of a lowercase hexadecimal digit. -/
def hexValue (c : Char) : Option Nat :=
  if '0' ≤ c ∧ c ≤ '9' then some (c.toNat - '0'.toNat)
  else if 'a' ≤ c ∧ c ≤ 'f' then some (c.toNat - 'a'.toNat + 10)
  else none

/-- Read pairs of hexadecimal digits. -/
def readHex : List Char → Option Bytes
  | [] => some []
  | [_] => none
  | a :: b :: rest =>
    match hexValue a, hexValue b, readHex rest with
    | some x, some y, some bs => some (UInt8.ofNat (16 * x + y) :: bs)
    | _, _, _ => none

/-- Read a number in the given base (10 or 16). -/
def readNat (base : Nat) (s : List Char) : Option Nat :=
  s.foldl (fun acc c => match acc, hexValue c with
    | some a, some v => if v < base then some (a * base + v) else none
    | _, _ => none) (some 0)

/-- Split at newlines. -/
def lines : List Char → List (List Char)
  | [] => [[]]
  | c :: cs =>
    if c = '\n' then [] :: lines cs
    else match lines cs with
      | [] => [[c]]
      | l :: ls => (c :: l) :: ls

/-- The offset column of a dump line: what precedes the first colon. -/
def offsetText (l : List Char) : List Char := l.takeWhile (· ≠ ':')

/-- The bytes shown in the hexadecimal columns of a dump line: the 50 characters that follow
the colon and a space. -/
def lineBytes (l : List Char) : Option Bytes :=
  readHex ((((l.dropWhile (· ≠ ':')).drop 2).take 50).filter (· ≠ ' '))

/-- The bytes of a whole dump. -/
def undump (s : List Char) : Option Bytes :=
  (lines s).foldr (fun l acc => match lineBytes l, acc with
    | some b, some bs => some (b ++ bs)
    | _, _ => none) (some [])

/-- Number of bytes of a code point in UTF-8. -/
def utf8Len (c : Char) : Nat :=
  if c.toNat < 0x80 then 1 else if c.toNat < 0x800 then 2 else if c.toNat < 0x10000 then 3 else 4

end Siotls.Spec
