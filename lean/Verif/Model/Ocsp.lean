import Verif.Model.Exn
/-!
# OCSP: /repo/src/siotls/crypto/ocsp.py and /repo/src/siotls/ocsp_over_http.py

DER parsing and signature verification are external. A parsed response exposes the attributes
that `validate_ocsp` reads.
-/

namespace Siotls.Ocsp

/-- Attributes of a parsed OCSP request. -/
structure Req where
  nameHash : Bytes
  keyHash : Bytes
  serial : Int
  deriving DecidableEq, Repr

/-- Attributes of a parsed OCSP response read by `validate_ocsp`. Times are naive UTC datetimes,
as integers. `nextUpdate` is optional in OCSP. -/
structure Res where
  successful : Bool
  good : Bool
  nameHash : Bytes
  keyHash : Bytes
  serial : Int
  thisUpdate : Int
  nextUpdate : Option Int
  sigOid : Bytes
  sigHash : Nat
  signature : Bytes
  tbs : Bytes
  deriving DecidableEq, Repr

/-- Attributes of the issuer certificate. -/
structure Issuer where
  sigOid : Bytes
  sigHash : Nat
  pub : Bytes
  deriving DecidableEq, Repr

/-- External code: parsers, registry of signature OIDs (signatures.py:29-35), equality of the
`cryptography` hash objects, and signature verification (`none`: InvalidSignature raised). -/
structure Lib where
  loadReq : Bytes → Except Exn Req
  loadRes : Bytes → Except Exn Res
  fromOid : Bytes → Option Nat
  hashEq : Nat → Nat → Bool
  verify : (scheme : Nat) → (pub sig msg : Bytes) → Except Exn Unit

/-- `validate_ocsp`, ocsp.py:40-91. `now₁`, `now₂`: the two calls to `datetime.utcnow()`.
`exc.args[0]` (line 89) is IndexError for an `InvalidSignature` without arguments (which is how
`cryptography` raises it); either way an exception leaves the function. -/
def validate (L : Lib) (issuer : Issuer) (reqDer resDer : Bytes) (now₁ now₂ : Int) :
    Except Exn Int := do
  let req ← L.loadReq reqDer
  let res ← L.loadRes resDer
  if !res.successful then .error .valueError
  else if !res.good then .error .valueError
  else if res.nameHash ≠ req.nameHash then .error .valueError
  else if res.keyHash ≠ req.keyHash then .error .valueError
  else if res.serial ≠ req.serial then .error .valueError
  else if res.thisUpdate > now₁ then .error .valueError
  else match res.nextUpdate with
  | none => .error .typeError
  | some next =>
    if next < now₂ then .error .valueError
    else if res.sigOid ≠ issuer.sigOid then .error .valueError
    else if !L.hashEq res.sigHash issuer.sigHash then .error .valueError
    else match L.fromOid res.sigOid with
    | none => .error .valueError
    | some scheme =>
      match L.verify scheme issuer.pub res.signature res.tbs with
      | .error .invalidSignature => .error .indexError
      | .error e => .error e
      | .ok _ => .ok next

/-! ## The cache, ocsp_over_http.py -/

/-- `CACHE_ENTRIES`, ocsp_over_http.py:11. -/
def cacheEntries : Nat := 64
/-- `OCSP_MAX_RESPONSE_SIZE`, ocsp_over_http.py:12. -/
def maxResponse : Int := 20480

/-- `_cache` (request ↦ (response, until)) and `_cache_limits`, ocsp_over_http.py:16-17. The heap
is only accessed with heappush/heappop, hence a list from which the minimum is taken. -/
structure Cache where
  entries : List (Bytes × (Bytes × Int))
  limits : List (Int × Bytes)
  deriving DecidableEq, Repr

def Cache.empty : Cache := ⟨[], []⟩

/-- `_cache.get(req)` -/
def Cache.get (c : Cache) (req : Bytes) : Option (Bytes × Int) := c.entries.lookup req

/-- `uncache`, ocsp_over_http.py:77-78: `_cache.pop(req, None)`. -/
def Cache.uncache (c : Cache) (req : Bytes) : Cache :=
  { c with entries := c.entries.filter fun e => e.1 ≠ req }

/-- Lexicographic order on bytes, as Python compares `bytes`. -/
def bytesLt : Bytes → Bytes → Bool
  | [], [] => false
  | [], _ :: _ => true
  | _ :: _, [] => false
  | a :: as, b :: bs => a < b || (a == b && bytesLt as bs)

/-- Order on `(until, request)` tuples. -/
def limitLt (a b : Int × Bytes) : Bool := a.1 < b.1 || (a.1 == b.1 && bytesLt a.2 b.2)

/-- The minimum of a non-empty heap. -/
def heapMin : (Int × Bytes) → List (Int × Bytes) → Int × Bytes
  | m, [] => m
  | m, x :: xs => heapMin (if limitLt x m then x else m) xs

/-- `while len(_cache_limits) >= CACHE_ENTRIES: uncache(heappop(_cache_limits)[1])`,
ocsp_over_http.py:71-72. -/
def Cache.evict (c : Cache) : Nat → Cache
  | 0 => c
  | n + 1 =>
    if cacheEntries ≤ c.limits.length then
      match c.limits with
      | [] => c
      | x :: xs =>
        let m := heapMin x xs
        Cache.evict (({ c with limits := c.limits.erase m }).uncache m.2) n
    else c

/-- `cache`, ocsp_over_http.py:68-74. -/
def Cache.cache (c : Cache) (until_ : Int) (req res : Bytes) : Cache :=
  if (c.get req).isSome then c
  else
    let c := c.evict c.limits.length
    { entries := c.entries ++ [(req, (res, until_))], limits := (until_, req) :: c.limits }

/-- What the HTTP stack answers: the two headers (`none` when absent) and the body. -/
structure Http where
  contentType : Option PyStr
  contentLength : Option (Except Exn Int)
  body : Bytes

/-- Result of `request`: where the response comes from. -/
inductive Answer where
  | hit (res : Bytes)
  | fetched (res : Bytes)
  deriving DecidableEq, Repr

/-- `http_res.read(n)`: everything when `n` is negative. -/
def readBody (body : Bytes) (n : Int) : Bytes := if n < 0 then body else body.take n.toNat

/-- The part of `request` after the cache, ocsp_over_http.py:30-65. `scheme`, `netloc`:
`urlsplit(url)`; `http`: the answer of `urlopen`. -/
def fetch (scheme netloc : PyStr) (req : Bytes) (http : Except Exn Http) : Except Exn Bytes :=
  if scheme ≠ "http".toList then .error .valueError
  else if netloc = [] then .error .valueError
  else if req = [] then .error .valueError
  else do
    let r ← http
    if r.contentType.getD "application/ocsp-response".toList ≠ "application/ocsp-response".toList
    then .error .runtimeError
    else
      let n ← r.contentLength.getD (.ok maxResponse)
      if n > maxResponse then .error .runtimeError else .ok (readBody r.body n)

/-- `request`, ocsp_over_http.py:19-65. -/
def Cache.request (c : Cache) (now : Int) (scheme netloc : PyStr) (req : Bytes)
    (http : Except Exn Http) : Except Exn Answer × Cache :=
  let go (c : Cache) : Except Exn Answer × Cache :=
    match fetch scheme netloc req http with
    | .ok b => (.ok (.fetched b), c)
    | .error e => (.error e, c)
  match c.get req with
  | some (res, until_) =>
    if res = [] then go c
    else if now < until_ then (.ok (.hit res), c)
    else go (c.uncache req)
  | none => go c

/-- The bytes of an answer. -/
def Answer.bytes : Answer → Bytes
  | .hit res => res
  | .fetched res => res

/-- What the two callers do with the service: `request`, `validate_ocsp`, then `cache` or, after a
ValueError, `uncache`; client/wait_certificate.py:114-121 and server/wait_client_hello.py:176-186.
Any other exception leaves at once. The ValueError itself becomes an alert at the client and is
swallowed by the server; here it is the result. On success: the answer and `valid_until`. -/
def Cache.lookup (L : Lib) (issuer : Issuer) (c : Cache) (now now₁ now₂ : Int)
    (scheme netloc : PyStr) (req : Bytes) (http : Except Exn Http) :
    Except Exn (Answer × Int) × Cache :=
  match c.request now scheme netloc req http with
  | (.error e, c) => (.error e, c)
  | (.ok answer, c) =>
    match validate L issuer req answer.bytes now₁ now₂ with
    | .ok next => (.ok (answer, next), c.cache next req answer.bytes)
    | .error .valueError => (.error .valueError, c.uncache req)
    | .error e => (.error e, c)

end Siotls.Ocsp
