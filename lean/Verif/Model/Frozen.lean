import Verif.Model.Exn
/-!
# Attribute access on `TLSNegotiatedConfiguration`: /repo/src/siotls/configuration.py:181-194

The instance dictionary is an association list from attribute names to values of any type.
-/

namespace Siotls.Frozen

/-- Values an attribute can take: booleans matter (for `_frozen`), the rest is opaque. -/
inductive Val where
  | bool (b : Bool)
  | other (n : Nat)
  deriving DecidableEq, Repr

/-- Truth value, with `other` objects truthy. -/
def Val.truthy : Val → Bool
  | .bool b => b
  | .other _ => true

abbrev Attrs := List (PyStr × Val)

def frozenName : PyStr := "_frozen".toList

/-- An operation on the object. -/
inductive Op where
  | set (attr : PyStr) (v : Val)
  | del (attr : PyStr)
  | freeze

/-- `self._frozen`: AttributeError when it was deleted. -/
def isFrozen (a : Attrs) : Except Exn Bool :=
  match a.lookup frozenName with
  | some v => .ok v.truthy
  | none => .error .attributeError

/-- `object.__setattr__` -/
def assign (a : Attrs) (k : PyStr) (v : Val) : Attrs := (k, v) :: a.filter fun e => e.1 ≠ k

/-- `__setattr__`, configuration.py:184-188. -/
def setattr (a : Attrs) (k : PyStr) (v : Val) : Except Exn Attrs := do
  if ← isFrozen a then .error .typeError else .ok (assign a k v)

/-- `__delattr__`, configuration.py:190-194. -/
def delattr (a : Attrs) (k : PyStr) : Except Exn Attrs := do
  if ← isFrozen a then .error .typeError
  else if (a.lookup k).isNone then .error .attributeError
  else .ok (a.filter fun e => e.1 ≠ k)

/-- One operation; `freeze` is `self._frozen = True`, configuration.py:181-182. -/
def Op.run (a : Attrs) : Op → Except Exn Attrs
  | .set k v => setattr a k v
  | .del k => delattr a k
  | .freeze => setattr a frozenName (.bool true)

/-- The object after an operation, and the error if one was raised. -/
def Op.exec (a : Attrs) (o : Op) : Option Exn × Attrs :=
  match o.run a with
  | .ok a' => (none, a')
  | .error e => (some e, a)

/-- After a history. -/
def execAll (a : Attrs) (os : List Op) : Attrs := os.foldl (fun a o => (o.exec a).2) a

/-- `__init__`, configuration.py:166-179 (attribute values other than `_frozen` are opaque). -/
def fresh : Attrs := [(frozenName, .bool false), ("cipher_suite".toList, .other 0),
  ("key_exchange".toList, .other 0), ("signature_algorithm".toList, .other 0),
  ("alpn".toList, .other 0), ("can_send_heartbeat".toList, .other 0),
  ("can_echo_heartbeat".toList, .other 0), ("max_fragment_length".toList, .other 0),
  ("client_certificate_type".toList, .other 0), ("server_certificate_type".toList, .other 0),
  ("peer_want_ocsp_stapling".toList, .other 0), ("peer_certificate".toList, .other 0),
  ("peer_public_key".toList, .other 0)]

end Siotls.Frozen
