import Verif.Spec.Lifecycle
/-!
# Being refused
-/

namespace Siotls.Spec

/-- The call that took `c` to `c'` raised; it sent one alert, `desc`, as the last thing, and the
connection is failed. -/
def FailsWith (E : Env) (desc : Nat) (c : Conn) (res : Except Exn Unit) (c' : Conn) : Prop :=
  (∃ e, res = .error e) ∧ c'.state = .failed ∧
    ∃ out pre, c'.tr = out ++ (pre ++ c.tr) ∧ AlertOut E desc out ∧ sentAlerts pre = []

/-- a client that waits for the certificate of the server -/
def AwaitsCertificate (c : Conn) : Prop :=
  c.state = .clientWaitCertCr ∨ ∃ m, c.state = .clientWaitCert m

end Siotls.Spec
