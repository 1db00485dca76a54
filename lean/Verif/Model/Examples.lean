import Verif.Model.Utils
import Verif.Model.Wrapper
/-!
# The example programs: /repo/src/siotls/examples/simple_client.py and simple_server.py

What the two programs do inside their `with conn.wrap(…)` blocks, once `do_handhskake` returned.
Logging, printing and the accept loop (simple_server.py:27-50) are left out. `str.encode()` and
`bytes.decode()` are UTF-8, for strings without lone surrogates (`PyStr`).
-/

namespace Siotls

/-- `s.encode()` -/
def pyEncode (s : PyStr) : Bytes := s.flatMap String.utf8EncodeChar

/-- `b.decode()`; `none` is UnicodeDecodeError, which is a ValueError -/
def pyDecode (b : Bytes) : Option PyStr := b.toByteArray.utf8Decode?.map Array.toList

/-- A program that uses a wrapped socket. `unbound`: it ends with an UnboundLocalError. -/
inductive Prog where
  | write (data : Bytes) (next : Prog)
  | read (next : Bytes → Prog)
  | close (next : Prog)
  | stop
  | unbound

/-- the body of `connect` for any request, simple_client.py:18-30: write it, read once, `__exit__` -/
def client (req : Bytes) : Prog := .write req (.read fun _ => .close .stop)

/-- `make_http11_request(host, 'GET', '/', '').encode()`, simple_client.py:22-25 -/
def simpleRequest (version host : PyStr) : Bytes :=
  pyEncode (makeHttp11Request version host "GET".toList "/".toList [])

/-- `s.partition('\r\n')[0]` -/
def beforeCrlf : PyStr → PyStr
  | [] => []
  | '\r' :: '\n' :: _ => []
  | c :: s => c :: beforeCrlf s

/-- simple_server.py:57-67: the status code, the body, and `request_line` if it was bound. -/
def respond (req : Bytes) : Nat × PyStr × Option PyStr :=
  match pyDecode req with
  | none => (400, [], none)
  | some text =>
    let line := beforeCrlf text
    match splitWords line [] with
    | [method, path, _version] =>
      if method ≠ "GET".toList then (405, [], some line)
      else if path ≠ "/".toList then (404, [], some line)
      else (200, "Hello from siotls\n".toList, some line)
    | _ => (400, [], some line)

/-- `make_http11_response(code, body, now=now).encode()`, simple_server.py:69-71. `phrase` is
`HTTPStatus(code).phrase`. -/
def page (version date : PyStr) (phrase : Nat → PyStr) (req : Bytes) : Bytes :=
  pyEncode (makeHttp11Response version (respond req).1 (phrase (respond req).1) date (respond req).2.1)

/-- the body of `handle_one`, simple_server.py:53-78: the log line needs `request_line`. The exception
passes through `__exit__`, which closes. -/
def server (version date : PyStr) (phrase : Nat → PyStr) : Prog :=
  .read fun req => .write (page version date phrase req) <|
    .close (if (respond req).2.2.isSome then .stop else .unbound)

/-- `['http/1.1', 'http/1.0']`, examples/simple_client.py:14 and examples/simple_server.py:21 -/
def exampleAlpn : List Bytes :=
  [[0x68, 0x74, 0x74, 0x70, 0x2f, 0x31, 0x2e, 0x31], [0x68, 0x74, 0x74, 0x70, 0x2f, 0x31, 0x2e, 0x30]]

/-- the configuration of the client, examples/simple_client.py:11-14; `store` is given with `check_certificate` -/
def exampleClient (store : Option Bytes) : Config :=
  { side := .client, trustStore := store, alpn := exampleAlpn }

/-- the configuration of the server, examples/simple_server.py:17-22 -/
def exampleServer (key : Bytes) (chain : List Bytes) : Config :=
  { side := .server, privateKey := some key, certificateChain := some chain, alpn := exampleAlpn }

end Siotls
