import Verif.Proofs.KeyLog
import Verif.Props.Schedule
import Verif.Model.ToyFacts
/-!
# The key log: C76
-/

namespace Siotls

open Spec

variable {E : Env}

/-- C76. Without `log_keys`, whatever happens, no line is ever given to the key logger. -/
theorem C76_silent {config hostname ocsp algs random} {c : Conn}
    (h : Conn.new config hostname ocsp algs random = .ok c) (hoff : config.logKeys = false)
    (ops : List Op) (line : PyStr) : Ev.logged line ∉ (runOps E ops c).tr :=
  (SilentInv.run h hoff ops).2 line

/-- C76. In any history, a line given to the key logger was asked for with `log_keys`; a reader of
the format understands it; it names the random of a ClientHello of this connection; and its secret
is the one that the label stands for in the key schedule of RFC 8446. -/
theorem C76_lines (hE : E.Sized) {config hostname ocsp algs random} {c : Conn}
    (h : Conn.new config hostname ocsp algs random = .ok c) (hr : random.length = 32) (ops : List Op)
    (line : PyStr) (past : List Ev) (hl : (Ev.logged line :: past) <:+ (runOps E ops c).tr) :
    config.logKeys = true ∧ GoodLine E config.cipherSuites config.side past line :=
  (LogInv.run hE h hr ops).trace _ _ hl

/-- C76. With `log_keys`, the key and the nonce of every record that is encrypted come, by RFC 8446,
from a secret that was logged before, under a label for what this side sends. -/
theorem C76_sent (hE : E.Sized) {config hostname ocsp algs random} {c : Conn}
    (h : Conn.new config hostname ocsp algs random = .ok c) (hr : random.length = 32)
    (hon : config.logKeys = true) (ops : List Op) {suite : Nat} {key nonce aad inner : Bytes}
    {past : List Ev} (hl : (Ev.sealed suite key nonce aad inner :: past) <:+ (runOps E ops c).tr) :
    Revealed E config.side config.side past suite key nonce :=
  (LogInv.run hE h hr ops).trace _ _ hl hon

/-- C76. Likewise for every record that is decrypted, under a label for what the peer sends. -/
theorem C76_received (hE : E.Sized) {config hostname ocsp algs random} {c : Conn}
    (h : Conn.new config hostname ocsp algs random = .ok c) (hr : random.length = 32)
    (hon : config.logKeys = true) (ops : List Op) {suite : Nat} {key nonce aad inner : Bytes}
    {past : List Ev} (hl : (Ev.opened suite key nonce aad inner :: past) <:+ (runOps E ops c).tr) :
    Revealed E config.side config.side.other past suite key nonce :=
  (LogInv.run hE h hr ops).trace _ _ hl hon

/-- C76. With `log_keys`, a connected endpoint has logged a line for each of the five secrets. -/
theorem C76_complete (hE : E.Sized) {config hostname ocsp algs random} {c : Conn}
    (h : Conn.new config hostname ocsp algs random = .ok c) (hr : random.length = 32)
    (hon : config.logKeys = true) (ops : List Op) (hst : (runOps E ops c).state = .connected) :
    ∀ label ∈ ["CLIENT_HANDSHAKE_TRAFFIC_SECRET", "SERVER_HANDSHAKE_TRAFFIC_SECRET",
        "CLIENT_TRAFFIC_SECRET_0", "SERVER_TRAFFIC_SECRET_0", "EXPORTER_SECRET"],
      ∃ line random secret, Ev.logged line ∈ (runOps E ops c).tr ∧
        readKeyLine line = some (label, random, secret) := by
  have hl := LogInv.run hE h hr ops
  have hk := (KeyInv.run hE h ops).1
  obtain ⟨k, hc, hu⟩ := (SuiteInv.run (E := E) h ops).done hst
  have hu : k.info.usageLimit.isSome = true := Option.isSome_iff_ne_none.mpr hu
  have hf := hk.done k hc hst
  obtain ⟨h1, h2⟩ := hl.said hon k hc hu
  intro label hm
  have : label ∈ hsLabels ∨ label ∈ apLabels := by
    simpa [hsLabels, apLabels, or_assoc] using hm
  rcases this with hm | hm
  · exact h1 (by rw [hf]; simp) label hm
  · exact h2 hf label hm

namespace Toy

/-- the toy client and server, asked to log their keys -/
def logging0 : Conn :=
  fresh { clientConfig with logKeys := true } (some ['a']) [.sha256, .sha384] (List.replicate 32 5)
def loggingS0 : Conn :=
  fresh { serverConfig with logKeys := true } none [.sha256] (List.replicate 32 6)

theorem logging0_new : Conn.new { clientConfig with logKeys := true } (some ['a']) false
    [.sha256, .sha384] (List.replicate 32 5) = .ok logging0 := by rfl
theorem loggingS0_new : Conn.new { serverConfig with logKeys := true } none false [.sha256]
    (List.replicate 32 6) = .ok loggingS0 := by rfl

set_option maxRecDepth 1000000

def loggedLines (tr : List Ev) : Nat := tr.countP fun e => match e with | .logged _ => true | _ => false
def sealedCount (tr : List Ev) : Nat := tr.countP fun e => match e with | .sealed .. => true | _ => false
def openedCount (tr : List Ev) : Nat := tr.countP fun e => match e with | .opened .. => true | _ => false

theorem logging_facts : (runOps env clientOps logging0).state = .connected ∧
    loggedLines (runOps env clientOps logging0).tr = 5 ∧
    sealedCount (runOps env clientOps logging0).tr = 1 ∧
    openedCount (runOps env clientOps logging0).tr = 4 ∧
    (runOps env serverOps loggingS0).state = .connected ∧
    loggedLines (runOps env serverOps loggingS0).tr = 5 ∧
    loggedLines (runOps env clientOps client0).tr = 0 := by decide +kernel

end Toy

/-- the hypotheses of C76 are met: a client and a server that log their keys, get connected, encrypt
and decrypt records and log five lines; and a client that does not log and gets connected too. -/
example : Toy.env.Sized ∧
    Conn.new { Toy.clientConfig with logKeys := true } (some ['a']) false [.sha256, .sha384]
      (List.replicate 32 5) = .ok Toy.logging0 ∧
    Conn.new { Toy.serverConfig with logKeys := true } none false [.sha256] (List.replicate 32 6) =
      .ok Toy.loggingS0 ∧
    (runOps Toy.env Toy.clientOps Toy.logging0).state = .connected ∧
    Toy.loggedLines (runOps Toy.env Toy.clientOps Toy.logging0).tr = 5 ∧
    Toy.sealedCount (runOps Toy.env Toy.clientOps Toy.logging0).tr = 1 ∧
    Toy.openedCount (runOps Toy.env Toy.clientOps Toy.logging0).tr = 4 ∧
    (runOps Toy.env Toy.serverOps Toy.loggingS0).state = .connected ∧
    Toy.clientConfig.logKeys = false :=
  ⟨Toy.sized, Toy.logging0_new, Toy.loggingS0_new, Toy.logging_facts.1, Toy.logging_facts.2.1,
    Toy.logging_facts.2.2.1, Toy.logging_facts.2.2.2.1, Toy.logging_facts.2.2.2.2.1, rfl⟩

end Siotls
