import Verif.Model.Wrapper
import Verif.Spec.Stream
/-!
# Words for the properties of the socket wrapper
-/

namespace Siotls.Spec
open Siotls

/-- POSIX: `send` takes at most what it is given -/
def Posix (S : Sock) : Prop := ∀ i b n, S.send i b = .ok n → n ≤ b.length

/-- every `send` takes everything: true of blocking sockets most of the time, promised by nobody -/
def Greedy (S : Sock) : Prop := ∀ i b, S.send i b = .ok b.length

/-- `read` is the method that returns something -/
def reading : Call → Bool
  | .read _ => true
  | _ => false

/-- everything the calls of `read` returned, in order -/
def readBack (E : Env) (S : Sock) : List Call → Wrapped → Bytes
  | [], _ => []
  | x :: xs, w => (if reading x then returned (x.run E S w).1 else []) ++
      readBack E S xs (x.run E S w).2

end Siotls.Spec
