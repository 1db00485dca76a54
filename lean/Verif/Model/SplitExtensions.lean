import Verif.Model.Handshakes
/-!
# `split_extensions`: /repo/src/siotls/contents/handshakes/extensions/__init__.py

No parser calls it. A `RawExtension` is a pair; its type is a number, since a member of
`ExtensionType` is one (`try_cast` changes its class only).
-/

namespace Siotls
open Serial

/-- the body of the loop, extensions/__init__.py:17-20 -/
def rawExtension : P (Nat × Bytes) := do
  let type ← readInt 2
  let data ← readVar 2
  return (type, data)

/-- `split_extensions(stream)`, extensions/__init__.py:11-22 -/
def splitExtensions : P (List (Nat × Bytes)) := do
  let len ← readInt 2
  let l ← limit len (fun s => untilPos rawExtension (s.pos + len) (s.rest.length + 1) s)
  assertEof
  return l

end Siotls
