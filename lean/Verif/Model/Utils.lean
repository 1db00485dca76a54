import Verif.Model.Exn
/-!
# /repo/src/siotls/utils.py, /repo/src/siotls/trust_store.py (path lookup)
-/

namespace Siotls

/-! ## hexdump, utils.py:20-60 -/

/-- A lowercase hexadecimal digit. -/
def hexDigit (n : Nat) : Char := if n < 10 then Char.ofNat (48 + n) else Char.ofNat (87 + n)

/-- `f'{n:x}'` -/
def hexNat (n : Nat) : List Char :=
  if n < 16 then [hexDigit n] else hexNat (n / 16) ++ [hexDigit (n % 16)]
termination_by n
decreasing_by omega

/-- `f'{n:0{d}x}'` -/
def hexPad (d n : Nat) : List Char :=
  let s := hexNat n
  List.replicate (d - s.length) '0' ++ s

/-- `binascii.hexlify(line, ' ')` -/
def hexlify : Bytes → List Char
  | [] => []
  | [b] => [hexDigit (b.toNat / 16), hexDigit (b.toNat % 16)]
  | b :: b' :: bs => hexDigit (b.toNat / 16) :: hexDigit (b.toNat % 16) :: ' ' :: hexlify (b' :: bs)

/-- `int.bit_length` -/
def bitLength (n : Nat) : Nat := if n = 0 then 0 else n.log2 + 1

/-- `math.ceil(a / 4)` -/
def ceilDiv4 (a : Nat) : Nat := (a + 3) / 4

/-- width of the offsets, utils.py:34. -/
def offsetWidth (len : Nat) : Nat := ceilDiv4 (ceilDiv4 (bitLength len)) * 4

/-- `hex_` of one line, utils.py:37-42. -/
def hexPart (line : Bytes) : List Char :=
  let h := hexlify (line.take 8) ++ [' ', ' '] ++ hexlify (line.drop 8) ++ [' ', ' ']
  h ++ List.replicate (50 - h.length) ' '

/-- One character of the text part, utils.py:45-49. -/
def textChar (b : UInt8) : Char :=
  let n := b.toNat
  if n = 9 ∨ n = 10 ∨ n = 11 ∨ n = 13 then ' '
  else if n ≤ 9 then Char.ofNat (n + 48)
  else if 10 ≤ n ∧ n ≤ 15 then Char.ofNat (n + 87)
  else if 32 ≤ n ∧ n ≤ 126 then Char.ofNat n
  else '.'

/-- One line without its newline, utils.py:37-56. -/
def dumpLine (d i : Nat) (line : Bytes) : List Char :=
  hexPad d i ++ [':', ' '] ++ hexPart line ++ (line.take 8).map textChar ++
    (if 8 < line.length then [' '] else []) ++ (line.drop 8).map textChar

/-- The `while` loop, utils.py:36-58: lines of 16 bytes, each followed by a newline. -/
def dumpLoop (d i : Nat) (data : Bytes) : List Char :=
  if data = [] then []
  else dumpLine d i (data.take 16) ++ '\n' :: dumpLoop d (i + 16) (data.drop 16)
termination_by data.length
decreasing_by
  rename_i h
  have : data.length ≠ 0 := fun h' => h (List.length_eq_zero_iff.mp h')
  simp only [List.length_drop]; omega

/-- `hexdump`, utils.py:20-60. -/
def hexdump (data : Bytes) : List Char :=
  let xd := dumpLoop (offsetWidth data.length) 0 data
  if data = [] then xd else xd.dropLast

/-! ## HTTP templates, utils.py:62-97

`version` is `siotls.__version__`; the status phrase and date are produced by the standard
library and are inputs. -/

/-- `str(n)` -/
def decNat (n : Nat) : List Char :=
  if n < 10 then [hexDigit n] else decNat (n / 10) ++ [hexDigit (n % 10)]
termination_by n
decreasing_by omega

/-! Pieces of the templates, utils.py:62-70, 81-89. -/
def httpVersion : PyStr := " HTTP/1.1\r\nHost: ".toList
def httpAgent : PyStr := "\r\nUser-Agent: siotls/".toList
def httpStatus : PyStr := "HTTP/1.1 ".toList
def httpDate : PyStr := "\r\nDate: ".toList
def httpServer : PyStr := "\r\nServer: siotls/".toList
def httpType : PyStr :=
  "\r\nConnection: close\r\nContent-Type: text/plain; charset=utf-8".toList
def httpLength : PyStr := "\r\nContent-Length: ".toList
def httpEnd : PyStr := "\r\n\r\n".toList

/-- `make_http11_request`, utils.py:62-79. -/
def makeHttp11Request (version host method path body : PyStr) : PyStr :=
  method ++ [' '] ++ path ++ httpVersion ++ host ++ httpAgent ++ version ++ httpType ++
  httpLength ++ decNat body.length ++ httpEnd ++ body

/-- `make_http11_response`, utils.py:81-97. -/
def makeHttp11Response (version : PyStr) (code : Nat) (phrase date body : PyStr) : PyStr :=
  httpStatus ++ decNat code ++ [' '] ++ phrase ++ httpDate ++ date ++ httpServer ++ version ++
  httpType ++ httpLength ++ decNat body.length ++ httpEnd ++ body

/-! ## peekable, utils.py:107-130

A Python iterator is a state with a step function; an exhausted iterator stays exhausted (the
iterator protocol). It never yields the module's private sentinel object. -/

/-- `peekable`, utils.py:108-110: the underlying iterator and the peeked value (`none` is the
sentinel). -/
structure Peekable (σ α : Type) where
  it : σ
  peeked : Option α

/-- `__next__`, utils.py:115-120; `none` is StopIteration. -/
def Peekable.next {σ α} (step : σ → Option (α × σ)) (p : Peekable σ α) :
    Option α × Peekable σ α :=
  match p.peeked with
  | some v => (some v, { p with peeked := none })
  | none => match step p.it with
    | some (v, it) => (some v, { p with it })
    | none => (none, p)

/-- `peek`, utils.py:122-130: `.error ()` is StopIteration (no default given). -/
def Peekable.peek {σ α} (step : σ → Option (α × σ)) (p : Peekable σ α) (default : Option α) :
    Except Unit α × Peekable σ α :=
  match p.peeked with
  | some v => (.ok v, p)
  | none => match step p.it with
    | some (v, it) => (.ok v, ⟨it, some v⟩)
    | none => match default with
      | none => (.error (), p)
      | some d => (.ok d, p)

/-! ## CA bundle path, trust_store.py:6-40 -/

/-- `LINUX_CA_CERTIFICATES_PATHS`, trust_store.py:6-13. -/
def caPaths : List (PyStr × PyStr) := [
  ("alpine".toList, "/etc/ssl/certs/ca-certificates.crt".toList),
  ("arch".toList, "/etc/ca-certificates/extracted/tls-ca-bundle.pem".toList),
  ("debian".toList, "/etc/ssl/certs/ca-certificates.crt".toList),
  ("fedora".toList, "/etc/pki/ca-trust/extracted/pem/tls-ca-bundle.pem".toList),
  ("suse".toList, "/var/lib/ca-certificates/ca-bundle.pem".toList),
  ("ubuntu".toList, "/etc/ssl/certs/ca-certificates.crt".toList)]

/-- `str.isspace` for one character (the separators of `str.split()`). -/
def pySpace (c : Char) : Bool :=
  let n := c.toNat
  (9 ≤ n && n ≤ 13) || (28 ≤ n && n ≤ 32) || n == 0x85 || n == 0xa0 || n == 0x1680 ||
  (0x2000 ≤ n && n ≤ 0x200a) || n == 0x2028 || n == 0x2029 || n == 0x202f || n == 0x205f ||
  n == 0x3000

/-- `str.split()` with an accumulator: `cur` is the current word, reversed. -/
def splitWords : List Char → List Char → List PyStr
  | [], cur => if cur = [] then [] else [cur.reverse]
  | c :: cs, cur =>
    if pySpace c then
      if cur = [] then splitWords cs [] else cur.reverse :: splitWords cs []
    else splitWords cs (c :: cur)

/-- `get_ca_certificates_path`, trust_store.py:33-40. `id` is `release['ID']` (KeyError when
missing), `idLike` is `release.get('ID_LIKE')`. -/
def caPath (id idLike : Option PyStr) : Except Exn PyStr :=
  match id with
  | none => .error .keyError
  | some id =>
    match (id :: splitWords (idLike.getD []) []).findSome? (fun r => caPaths.lookup r) with
    | some path => .ok path
    | none => .error .valueError

end Siotls
