import Verif.Model.ToyRun
import Verif.Spec.Negotiation
/-!
# Toy handshakes about negotiation

Used only in `example`s and counterexamples.
-/

namespace Siotls.Toy
open Siotls Spec

/-! ## a client for fragments of 512 bytes -/

def smallClient : Config := { clientConfig with maxFragmentLength := 512 }

def smallClient0 : Conn := fresh smallClient (some ['a']) [.sha256, .sha384] (List.replicate 32 5)

/-- what `server0` answers to `hello` -/
def bigFlight : Bytes :=
  [22, 3, 3, 0, 59, 2, 0, 0, 55, 3, 3] ++ List.replicate 32 6 ++ [0, 19, 1, 0, 0, 15, 0, 43, 0,
    2, 3, 4, 0, 51, 0, 5, 0, 29, 0, 1, 1, 20, 3, 3, 0, 1, 1, 23, 3, 3, 16, 0, 8, 0, 0, 7, 0, 5,
    0, 15, 0, 1, 1, 22] ++ zeros 4082 ++ [203, 226, 23, 3, 3, 16, 0, 11, 0, 0, 12, 0, 0, 0, 8,
    0, 0, 3, 1, 2, 3, 0, 0, 22] ++ zeros 4077 ++ [190, 28, 23, 3, 3, 16, 0, 15, 0, 0, 13, 8, 7,
    0, 9, 8, 7, 1, 2, 3, 0, 0, 34, 71, 22] ++ zeros 4076 ++ [176, 86, 23, 3, 3, 16, 0, 20, 0, 0,
    32, 73, 27] ++ zeros 30 ++ [22] ++ zeros 4057 ++ [162, 144]

/-! ## ALPN -/

def alpnClient : Config := { clientConfig with alpn := [[120], [104, 50]] }
def alpnServer : Config := { serverConfig with alpn := [[104, 50], [120]] }

def alpnClient0 : Conn := fresh alpnClient (some ['a']) [.sha256, .sha384] (List.replicate 32 5)
def alpnServer0 : Conn := fresh alpnServer none [.sha256] (List.replicate 32 6)

/-- what `alpnClient0` sends first -/
def alpnHello : Bytes :=
  [22, 3, 3, 0, 124, 1, 0, 0, 120, 3, 3] ++ List.replicate 32 5 ++ [0, 0, 6, 19, 3, 19, 2, 19, 1, 1,
    0, 0, 73, 0, 43, 0, 3, 2, 3, 4, 0, 13, 0, 6, 0, 4, 8, 7, 4, 3, 0, 10, 0, 6, 0, 4, 0, 29, 0, 23,
    0, 15, 0, 1, 1, 0, 0, 0, 6, 0, 4, 0, 0, 1, 97, 0, 16, 0, 7, 0, 5, 1, 120, 2, 104, 50, 0, 5, 0,
    5, 1, 0, 0, 0, 0, 0, 51, 0, 7, 0, 5, 0, 29, 0, 1, 1]

/-- what `alpnServer0` answers, without the padding -/
def alpnFlight : Bytes :=
  [22, 3, 3, 0, 59, 2, 0, 0, 55, 3, 3] ++ List.replicate 32 6 ++ [0, 19, 1, 0, 0, 15, 0, 43, 0,
    2, 3, 4, 0, 51, 0, 5, 0, 29, 0, 1, 1, 20, 3, 3, 0, 1, 1, 23, 3, 3, 0, 37, 8, 0, 0, 16, 0,
    14, 0, 16, 0, 5, 0, 3, 2, 104, 50, 0, 15, 0, 1, 1, 22, 0, 0, 0, 0, 0, 0, 0, 0, 0, 0, 0, 0,
    0, 0, 5, 200, 23, 3, 3, 0, 33, 11, 0, 0, 12, 0, 0, 0, 8, 0, 0, 3, 1, 2, 3, 0, 0, 22, 0, 0,
    0, 0, 0, 0, 0, 0, 0, 0, 0, 0, 0, 0, 247, 239, 23, 3, 3, 0, 34, 15, 0, 0, 13, 8, 7, 0, 9, 8,
    7, 1, 2, 3, 0, 0, 141, 241, 22, 0, 0, 0, 0, 0, 0, 0, 0, 0, 0, 0, 0, 0, 0, 234, 42, 23, 3, 3,
    0, 53, 20, 0, 0, 32, 71, 87] ++ zeros 30 ++ [22, 0, 0, 0, 0, 0, 0, 0, 0, 0, 0, 0, 0, 0, 0,
    220, 119]

/-! ## messages that are refused, and some that are not although they should -/

/-- `hello` with TLS_AES_256_GCM_SHA384 alone -/
def hello1302 : Bytes :=
  [22, 3, 3, 0, 109, 1, 0, 0, 105, 3, 3] ++ List.replicate 32 5 ++ [0, 0, 2, 19, 2, 1, 0, 0, 62, 0,
    43, 0, 3, 2, 3, 4, 0, 13, 0, 6, 0, 4, 8, 7, 4, 3, 0, 10, 0, 6, 0, 4, 0, 29, 0, 23, 0, 15, 0, 1,
    1, 0, 0, 0, 6, 0, 4, 0, 0, 1, 97, 0, 5, 0, 5, 1, 0, 0, 0, 0, 0, 51, 0, 7, 0, 5, 0, 29, 0, 1, 1]

/-- `hello` that offers TLS 1.2 -/
def hello12 : Bytes :=
  [22, 3, 3, 0, 113, 1, 0, 0, 109, 3, 3] ++ List.replicate 32 5 ++ [0, 0, 6, 19, 3, 19, 2, 19, 1, 1,
    0, 0, 62, 0, 43, 0, 3, 2, 3, 3, 0, 13, 0, 6, 0, 4, 8, 7, 4, 3, 0, 10, 0, 6, 0, 4, 0, 29, 0, 23,
    0, 15, 0, 1, 1, 0, 0, 0, 6, 0, 4, 0, 0, 1, 97, 0, 5, 0, 5, 1, 0, 0, 0, 0, 0, 51, 0, 7, 0, 5, 0,
    29, 0, 1, 1]

/-- the second hello with another random -/
def otherHello2 : Bytes :=
  [22, 3, 3, 0, 107, 1, 0, 0, 103, 3, 3] ++ List.replicate 32 4 ++
  [0, 0, 2, 19, 1, 1, 0, 0, 60, 0, 43, 0, 3, 2, 3, 4, 0, 13, 0, 6, 0, 4, 8, 7, 4, 3, 0, 10, 0, 4,
    0, 2, 0, 23, 0, 15, 0, 1, 1, 0, 0, 0, 6, 0, 4, 0, 0, 1, 97, 0, 5, 0, 5, 1, 0, 0, 0, 0, 0, 51, 0,
    7, 0, 5, 0, 23, 0, 1, 2]

/-- a ServerHello with the session id 1, 2, 3 -/
def answerSid : Bytes :=
  [22, 3, 3, 0, 62, 2, 0, 0, 58, 3, 3] ++ List.replicate 32 6 ++ [3, 1, 2, 3, 19, 1, 0, 0, 15, 0, 43,
    0, 2, 3, 4, 0, 51, 0, 5, 0, 29, 0, 1, 1]

/-- the ServerHello that follows a HelloRetryRequest for the group 0x17 -/
def answer2 : Bytes :=
  [22, 3, 3, 0, 59, 2, 0, 0, 55, 3, 3] ++ List.replicate 32 6 ++ [0, 19, 1, 0, 0, 15, 0, 43,
    0, 2, 3, 4, 0, 51, 0, 5, 0, 23, 0, 1, 1]

/-- a ServerHello that selects no version -/
def answerUnversioned : Bytes :=
  [22, 3, 3, 0, 53, 2, 0, 0, 49, 3, 3] ++ List.replicate 32 6 ++ [0, 19, 1, 0, 0, 9, 0, 51, 0, 5, 0,
    29, 0, 1, 1]

/-- a ServerHello with a suite that was not offered -/
def answerCcm : Bytes :=
  [22, 3, 3, 0, 59, 2, 0, 0, 55, 3, 3] ++ List.replicate 32 6 ++ [0, 19, 4, 0, 0, 15, 0, 43,
    0, 2, 3, 4, 0, 51, 0, 5, 0, 29, 0, 1, 1]

/-- a HelloRetryRequest that selects no version -/
def retryUnversioned : Bytes :=
  [22, 3, 3, 0, 50, 2, 0, 0, 46, 3, 3, 207, 33, 173, 116, 229, 154, 97, 17, 190, 29, 140, 2, 30,
    101, 184, 145, 194, 162, 17, 22, 122, 187, 140, 94, 7, 158, 9, 226, 200, 168, 51, 156, 0, 19, 1,
    0, 0, 6, 0, 51, 0, 2, 0, 23]

/-- the negotiated maximum fragment length -/
def mflOf (c : Conn) : Option Nat := c.nconfig.bind (·.maxFragmentLength)

/-- the negotiated protocol -/
def alpnOf (c : Conn) : Option (Option Bytes) := c.nconfig.bind (·.alpn)

/-- what `receive_data` of `d` adds to the trace of `c` -/
def news (c : Conn) (d : Bytes) : List Ev :=
  (receiveData env d c).2.tr.take ((receiveData env d c).2.tr.length - c.tr.length)

/-- `receive_data` of `d` hears something with `p` first, and leaves keys that are not worn out -/
def hears (p : Content → Bool) (c : Conn) (d : Bytes) : Bool :=
  (firstHeard (news c d)).any p && (receiveData env d c).2.tr == news c d ++ c.tr &&
    (match shouldRekey (receiveData env d c).2 with | .ok false => true | _ => false)

end Siotls.Toy
