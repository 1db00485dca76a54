import Verif.Model.Conn
import Verif.Spec.KeySchedule
/-!
# The handshake messages exchanged, and the transcript of RFC 8446 section 4.4.1
-/

namespace Siotls

/-- a handshake message on the wire: who sent it, its type, its bytes (header included) -/
abbrev Msg := Side × Nat × Bytes

/-- sender and type -/
def Msg.kind (m : Msg) : Side × Nat := (m.1, m.2.1)

/-- The handshake messages taken into account by an endpoint, oldest first. -/
def exchanged : List Ev → List Msg
  | [] => []
  | .hashed s t d :: l => exchanged l ++ [(s, t, d)]
  | _ :: l => exchanged l

/-- Those since the newest HelloRetryRequest received. -/
def sinceRetry : List Ev → List Msg
  | [] => []
  | .recv (.handshake (.helloRetryRequest ..)) :: _ => []
  | .hashed s t d :: l => sinceRetry l ++ [(s, t, d)]
  | _ :: l => sinceRetry l

/-- how many HelloRetryRequests were sent -/
def retriesSent : List Ev → Nat
  | [] => 0
  | .sent (.handshake (.helloRetryRequest ..)) :: l => retriesSent l + 1
  | _ :: l => retriesSent l

/-- how many HelloRetryRequests were accepted -/
def retriesGot : List Ev → Nat
  | [] => 0
  | .recv (.handshake (.helloRetryRequest ..)) :: l => retriesGot l + 1
  | _ :: l => retriesGot l

namespace Spec

/-- SHA-256 of "HelloRetryRequest", RFC 8446 section 4.1.3 -/
def retryRandom : Bytes :=
  [0xCF, 0x21, 0xAD, 0x74, 0xE5, 0x9A, 0x61, 0x11, 0xBE, 0x1D, 0x8C, 0x02, 0x1E, 0x65, 0xB8, 0x91,
   0xC2, 0xA2, 0x11, 0x16, 0x7A, 0xBB, 0x8C, 0x5E, 0x07, 0x9E, 0x09, 0xE2, 0xC8, 0xA8, 0x33, 0x9C]

/-- A ServerHello message (1 byte type, 3 bytes length, 2 bytes version, 32 bytes random) that is
a HelloRetryRequest. -/
def isRetry (m : Bytes) : Bool := (m.drop 6).take 32 = retryRandom

/-- all the bytes of some messages -/
def concat (ms : List Msg) : Bytes := (ms.map (·.2.2)).flatten

/-- RFC 8446 section 4.4.1: the bytes hashed for the messages `ms`. When the second message is a
HelloRetryRequest the first ClientHello is replaced by a synthetic message of type message_hash
(254) that contains its hash. -/
def transcript (H : Hash) (ms : List Msg) : Bytes :=
  match ms with
  | (c, 1, hello) :: (s, 2, retry) :: rest =>
    if isRetry retry then
      [254, 0, 0, UInt8.ofNat H.len] ++ H.hash hello ++ retry ++ concat rest
    else concat ((c, 1, hello) :: (s, 2, retry) :: rest)
  | ms => concat ms

/-- an optional message -/
def opt (b : Bool) (m : Side × Nat) : List (Side × Nat) := if b then [m] else []

/-- RFC 8446 section 2: the messages of a full handshake, by sender and type. 1 ClientHello,
2 ServerHello and HelloRetryRequest, 5 EndOfEarlyData, 8 EncryptedExtensions, 11 Certificate,
13 CertificateRequest, 15 CertificateVerify, 20 Finished. -/
def handshake (retries : Nat) (request early cert verify : Bool) : List (Side × Nat) :=
  (List.replicate retries [(.client, 1), (.server, 2)]).flatten ++
  ([(.client, 1), (.server, 2), (.server, 8)] ++ opt request (.server, 13) ++
   [(.server, 11), (.server, 15), (.server, 20)] ++ opt early (.client, 5) ++
   opt cert (.client, 11) ++ opt verify (.client, 15) ++ [(.client, 20)])

/-- the beginning of a handshake with at most `n` HelloRetryRequests -/
def InOrder (n : Nat) (ms : List (Side × Nat)) : Prop :=
  ∃ r early cert verify request, r ≤ n ∧ ms <+: handshake r request early cert verify

end Spec
end Siotls
