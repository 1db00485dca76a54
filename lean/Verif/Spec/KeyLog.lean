import Verif.Spec.KeySchedule
import Verif.Spec.Text
import Verif.Model.Conn
/-!
# The key log format (NSS, draft-ietf-tls-keylogfile), as a reader understands it

A line is a label, a space, the random of the ClientHello in hexadecimal, a space, and a secret in
hexadecimal.
-/

namespace Siotls.Spec

/-- What a reader of the file makes of a line. -/
def readKeyLine (line : List Char) : Option (String × Bytes × Bytes) :=
  match line.dropWhile (· ≠ ' ') with
  | [] => none
  | _ :: rest =>
    match rest.dropWhile (· ≠ ' ') with
    | [] => none
    | _ :: secret =>
      match readHex (rest.takeWhile (· ≠ ' ')), readHex secret with
      | some random, some secret => some (String.ofList (line.takeWhile (· ≠ ' ')), random, secret)
      | _, _ => none

/-- The secret of RFC 8446 section 7.1 that a label stands for; `th` is the hash of the messages
up to ServerHello for the first two, up to the server's Finished for the others. -/
def labelledSecret (H : Hash) (shared th : Bytes) : String → Option Bytes
  | "CLIENT_HANDSHAKE_TRAFFIC_SECRET" => some (H.cHs shared th)
  | "SERVER_HANDSHAKE_TRAFFIC_SECRET" => some (H.sHs shared th)
  | "CLIENT_TRAFFIC_SECRET_0" => some (H.cAp shared th)
  | "SERVER_TRAFFIC_SECRET_0" => some (H.sAp shared th)
  | "EXPORTER_SECRET" => some (H.exporter shared th)
  | _ => none

/-- The labels of the secrets that protect what a side sends. -/
def trafficLabels : Side → List String
  | .client => ["CLIENT_HANDSHAKE_TRAFFIC_SECRET", "CLIENT_TRAFFIC_SECRET_0"]
  | .server => ["SERVER_HANDSHAKE_TRAFFIC_SECRET", "SERVER_TRAFFIC_SECRET_0"]

/-- `random` is that of a ClientHello that `side` sent (a client) or got (a server). -/
def HelloRandom (side : Side) (tr : List Ev) (random : Bytes) : Prop :=
  random.length = 32 ∧ ∃ sid suites exts, match side with
    | .client => Ev.sent (.handshake (.clientHello random sid suites exts)) ∈ tr
    | .server => Ev.recv (.handshake (.clientHello random sid suites exts)) ∈ tr

/-- The line is understood, names a ClientHello of this connection and gives a secret of the key
schedule, with the hash of one of the configured cipher suites. -/
def GoodLine (E : Env) (suites : List Nat) (side : Side) (tr : List Ev) (line : List Char) : Prop :=
  ∃ label random secret suite info shared th, readKeyLine line = some (label, random, secret) ∧
    HelloRandom side tr random ∧ suite ∈ suites ∧ suiteInfo suite = some info ∧
    labelledSecret (E.spec info.digest) shared th label = some secret

/-- A reader of the log lines in `tr` has the key and the IV (RFC 8446 section 7.3) of a record that
`sender` protected with these key and nonce. -/
def Revealed (E : Env) (side sender : Side) (tr : List Ev) (suite : Nat) (key nonce : Bytes) : Prop :=
  ∃ line label random secret info kl n, Ev.logged line ∈ tr ∧
    readKeyLine line = some (label, random, secret) ∧ HelloRandom side tr random ∧
    label ∈ trafficLabels sender ∧ suiteInfo suite = some info ∧ suiteKeyLength suite = some kl ∧
    key = (E.spec info.digest).writeKey secret kl ∧
    nonce = List.zipWith (· ^^^ ·) ((E.spec info.digest).writeIv secret 12) (beEnc 12 n)

end Siotls.Spec
