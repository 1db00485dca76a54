import Verif.Model.Bytes
/-!
# Exceptions as values

One constructor per exception class raised by the modelled code. Messages are dropped.
-/

namespace Siotls

/-- Exception classes that can leave a modelled function.
* `alert d`: an instance of a registered `TLSFatalAlert` subclass, level FATAL, description `d`
  (/repo/src/siotls/contents/alerts.py:92-360);
* `tlsError`: `siotls.TLSError` itself (/repo/src/siotls/__init__.py);
* `bufMissing`, `bufTooMuch`, `bufOther`: `MissingDataError`, `TooMuchDataError`,
  `TLSBufferError` (/repo/src/siotls/serial.py:11-20);
* the rest: builtin exceptions, and `InvalidSignature`/`ExtensionNotFound`/... of the
  `cryptography` package (`external`);
* `fuel`: model only; proved unreachable (C63 in `Props/Stream.lean`). -/
inductive Exn where
  | alert (desc : Nat)
  | tlsError
  | bufMissing
  | bufTooMuch
  | bufOther
  | valueError
  | typeError
  | attributeError
  | keyError
  | indexError
  | notImplemented
  | overflow
  | assertion
  | stopIteration
  | runtimeError
  | invalidSignature
  | verificationError
  | external
  | fuel
  deriving DecidableEq, Repr

namespace Exn

/-- `except TLSBufferError` (connection.py:115). -/
def isBuffer : Exn → Bool
  | bufMissing | bufTooMuch | bufOther => true
  | _ => false

/-- `except ValueError` (UnicodeError is a ValueError; the model folds it in `valueError`). -/
def isValue : Exn → Bool
  | valueError => true
  | _ => false

end Exn

/-- Python's `raise` inside `try … except ValueError`, rethrown as another exception. -/
def mapValueError {α} (e' : Exn) : Except Exn α → Except Exn α
  | .error .valueError => .error e'
  | r => r

end Siotls
