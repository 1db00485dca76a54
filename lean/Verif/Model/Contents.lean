import Verif.Model.Handshakes
/-!
# Contents: /repo/src/siotls/contents/
-/

namespace Siotls
open Serial

/-- Content objects. `unparsed` is the Python `None` returned by the handshake classes that
have no parser. -/
inductive Content where
  | alert (level desc : Nat)
  | handshake (h : Handshake)
  | unparsed
  | applicationData (data : Bytes)
  | changeCipherSpec
  | heartbeat (type : Nat) (payload padding : Bytes)
  deriving DecidableEq, Repr

/-- `content.content_type` -/
def Content.ctype : Content → Nat
  | .alert .. => 21
  | .handshake _ => 22
  | .unparsed => 22
  | .applicationData _ => 23
  | .changeCipherSpec => 20
  | .heartbeat .. => 24

/-- `content.can_fragment` -/
def Content.canFragment : Content → Bool
  | .handshake _ => true
  | .applicationData _ => true
  | _ => false

/-- `Alert.parse`, contents/alerts.py:69-86. Unknown descriptions give an instance of a class
made on the fly, so the pair (level, description) is the whole value. -/
def parseAlert : P Content := do
  let level ← readInt 1
  if level = Iana.warning ∨ level = Iana.fatal then do
    let desc ← readInt 1
    return .alert level desc
  else P.throw (.alert Iana.illegalParameter)

/-- `ApplicationData.parse`, contents/application_data.py. -/
def parseApplicationData : P Content := do
  let b ← readAll
  return .applicationData b

/-- `ChangeCipherSpec.parse`, contents/change_cipher_spec.py:22-28. -/
def parseChangeCipherSpec : P Content := do
  let b ← readExactly 1
  if b ≠ [1] then P.throw (.alert Iana.unexpectedMessage) else return .changeCipherSpec

/-- `Heartbeat.parse` and `__init__`, contents/heartbeat.py:27-47. -/
def parseHeartbeat : P Content := do
  let t ← readEnum 1 Iana.heartbeatModes
  let payload ← readVar 2
  let padding ← readAll
  if payload.length > 2 ^ 14 - 3 then P.throw .valueError
  else if padding.length > 2 ^ 14 - 3 - payload.length then P.throw .valueError
  else return .heartbeat t payload padding

/-- `Content.get_parser(content_type).parse(stream, config=…, nconfig=…)`,
contents/__init__.py:14-19 and connection.py:108-112. -/
def parseContent (E : Env) (certType : Option (Option Nat)) (ctype : Nat) : P Content :=
  match ctype with
  | 20 => parseChangeCipherSpec
  | 21 => parseAlert
  | 22 => do
    let h ← parseHandshake E certType
    match h with
    | some h => return .handshake h
    | none => return .unparsed
  | 23 => parseApplicationData
  | 24 => parseHeartbeat
  | 0 => P.throw .keyError
  | _ => P.throw (.alert Iana.decodeError)

/-- connection.py:106-116: a fresh stream, parse, `assert_eof`, TLSBufferError turned into
DecodeError. -/
def decodeContent (E : Env) (certType : Option (Option Nat)) (ctype : Nat) (data : Bytes) :
    Except Exn Content :=
  let r := (do
    let c ← parseContent E certType ctype
    assertEof
    return c : P Content) (Stream.new data)
  match r with
  | .ok (c, _) => .ok c
  | .error e => if e.isBuffer then .error (.alert Iana.decodeError) else .error e

/-- `content.serialize()`: alerts.py:88-89, application_data.py, change_cipher_spec.py:30-31,
heartbeat.py:49-55 (`b''.join` with four arguments: TypeError). -/
def serContent (E : Env) : Content → Except Exn Bytes
  | .alert level desc => toBytes 2 (level * 256 + desc)
  | .handshake h => serHandshake E h
  | .unparsed => .error .attributeError
  | .applicationData d => .ok d
  | .changeCipherSpec => .ok [1]
  | .heartbeat .. => .error .typeError

end Siotls
