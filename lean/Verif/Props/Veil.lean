import Verif.Proofs.Veil
import Verif.Spec.Veil
import Verif.Spec.History
import Verif.Model.ToyFacts
/-!
# Settings without influence: C78, C79
-/

namespace Siotls

open Spec

variable {E : Env}

theorem veil_twins {c d : Conn} (h : c.veil = d.veil) : Twins c d := by
  unfold Conn.veil at h
  simp only [Conn.mk.injEq] at h
  obtain ⟨-, h1, -, h2, h3, h4, h5, h6, h7, h8, h9, h10, h11, h12, h13, h14⟩ := h
  refine ⟨h12, h2, h3, h4, h5, h8, h9, ⟨h6, h7⟩, ⟨h10, h11⟩, h13, h1, ?_⟩
  have hf : unlogged = fun e => match e with | .logged _ => false | _ => true := by
    funext e; cases e <;> rfl
  rw [hf]
  exact h14

theorem results_veil : ∀ (ops : List Op) {c d : Conn}, c.veil = d.veil →
    results E ops c = results E ops d
  | [], _, _, _ => rfl
  | o :: os, c, d, h => by
    obtain ⟨h1, h2⟩ := (deaf_run (E := E) o).congr h
    rw [results, results, h1, results_veil os h2]

theorem new_veil {g g' : Config} {hostname : Option PyStr} {ocsp : Bool} {algs : List HashAlg}
    {random : Bytes} {c : Conn} (hg : g.veil = g'.veil)
    (h : Conn.new g hostname ocsp algs random = .ok c) :
    ∃ d, Conn.new g' hostname ocsp algs random = .ok d ∧ c.veil = d.veil := by
  have h1 : g.cipherSuites = g'.cipherSuites := by
    have : g.veil.cipherSuites = g'.veil.cipherSuites := by rw [hg]
    exact this
  have h2 : g.side = g'.side := by
    have : g.veil.side = g'.veil.side := by rw [hg]
    exact this
  unfold Conn.new at h ⊢
  rw [← h1, ← h2]
  cases hd : suiteDigests g.cipherSuites with
  | error e => rw [hd] at h; cases h
  | ok ds =>
    cases ht : Transcript.new algs with
    | error e => rw [hd, ht] at h; cases h
    | ok t =>
      rw [hd, ht] at h
      cases hs : g.side with
      | client =>
        rw [hs] at h
        cases h
        refine ⟨_, rfl, ?_⟩
        simp [Conn.veil, hg]
      | server =>
        rw [hs] at h
        by_cases hh : hostname.any (!·.isEmpty) = true
        · simp [hh, bind, Except.bind] at h
        · simp only [hh, bind, Except.bind, if_false] at h ⊢
          cases h
          refine ⟨_, rfl, ?_⟩
          simp [Conn.veil, hg]

/-- C78. Whatever a program does, whatever the peer sends: with `log_keys` and without, the same calls
return the same values or raise the same exceptions, and the two connections are alike, in particular in
the bytes they send. Only the log differs. -/
theorem C78_log_keys {config : Config} {hostname : Option PyStr} {ocsp : Bool} {algs : List HashAlg}
    {random : Bytes} {c : Conn} (h : Conn.new config hostname ocsp algs random = .ok c) (b : Bool) :
    ∃ d, Conn.new { config with logKeys := b } hostname ocsp algs random = .ok d ∧
      ∀ ops, results E ops c = results E ops d ∧ Twins (runOps E ops c) (runOps E ops d) := by
  obtain ⟨d, h1, h2⟩ := new_veil (g := config) (g' := { config with logKeys := b }) rfl h
  exact ⟨d, h1, fun ops => ⟨results_veil ops h2, veil_twins (runOps_veil ops h2)⟩⟩

/-- C79, what the code does instead: the `server_hostnames` of a server have no influence. Whatever
names it has, whatever name clients ask for, whatever happens: the same results, the same bytes. -/
theorem C79_ignored {config : Config} {ocsp : Bool} {algs : List HashAlg}
    {random : Bytes} {c : Conn} (hs : config.side = .server)
    (h : Conn.new config none ocsp algs random = .ok c) (names : List PyStr) :
    ∃ d, Conn.new { config with serverHostnames := names } none ocsp algs random = .ok d ∧
      ∀ ops, results E ops c = results E ops d ∧ Twins (runOps E ops c) (runOps E ops d) := by
  obtain ⟨d, h1, h2⟩ := new_veil (g' := { config with serverHostnames := names })
    (by simp [Config.veil, hs]) h
  exact ⟨d, h1, fun ops => ⟨results_veil ops h2, veil_twins (runOps_veil ops h2)⟩⟩

/-- C79, full statement: a server that was given host names gets connected only to clients that ask for
one of them (or ask for none). False of the code: `C79_false`. -/
def C79_statement : Prop :=
  ∀ (E : Env) (config : Config) (ocsp : Bool) (algs : List HashAlg) (random : Bytes) (c : Conn),
    config.side = .server → config.serverHostnames ≠ [] → config.check = .ok () →
    Conn.new config none ocsp algs random = .ok c →
    ∀ (ops : List Op) (name : PyStr) (r sid : Bytes) (suites : List Nat) (exts : List Ext),
      (runOps E ops c).state = .connected →
      .recv (.handshake (.clientHello r sid suites exts)) ∈ (runOps E ops c).tr →
      .serverNameReq (some name) ∈ exts → name ∈ config.serverHostnames

namespace Toy

/-- a server for a host called "b" -/
def namedConfig : Config := { serverConfig with serverHostnames := [['b']] }

/-- the name a hello asks for -/
def asksFor (name : PyStr) : Ev → Bool
  | .recv (.handshake (.clientHello _ _ _ exts)) => exts.any (· == .serverNameReq (some name))
  | _ => false

theorem asked_a : serverDone.tr.any (asksFor ['a']) = true := by decide +kernel

end Toy

/-- C79: the toy server for "b" gets connected to a client that asks for "a". -/
theorem C79_false : ¬ C79_statement := by
  intro h
  obtain ⟨d, h1, h2⟩ := C79_ignored (E := Toy.env) rfl Toy.server0_new [['b']]
  obtain ⟨-, ha⟩ := h2 Toy.serverOps
  obtain ⟨e, he, hname⟩ := List.any_eq_true.mp Toy.asked_a
  unfold Toy.asksFor at hname
  split at hname
  · rename_i r sid suites exts
    obtain ⟨x, hx, hname⟩ := List.any_eq_true.mp hname
    have hx' := eq_of_beq hname
    subst hx'
    have he' : .recv (.handshake (.clientHello r sid suites exts)) ∈ (runOps Toy.env Toy.serverOps d).tr := by
      have : .recv (.handshake (.clientHello r sid suites exts)) ∈
          (runOps Toy.env Toy.serverOps d).tr.filter unlogged := by
        rw [← ha.did]
        exact List.mem_filter.mpr ⟨he, rfl⟩
      exact (List.mem_filter.mp this).1
    have := h Toy.env Toy.namedConfig false [.sha256] (List.replicate 32 6) d rfl (by decide) (by decide) h1
      Toy.serverOps ['a'] r sid suites exts (ha.state.symm.trans Toy.server_facts.1.1) he' hx
    exact absurd this (by decide)
  · cases hname

/-- The hypotheses of `C78_log_keys` and `C79_ignored` are met; the runs in question are not trivial, the
toys get connected. -/
example : Conn.new Toy.clientConfig (some ['a']) false [.sha256, .sha384] (List.replicate 32 5) =
      .ok Toy.client0 ∧ (runOps Toy.env Toy.clientOps Toy.client0).state = .connected ∧
    Conn.new Toy.serverConfig none false [.sha256] (List.replicate 32 6) = .ok Toy.server0 ∧
    Toy.serverConfig.side = .server ∧ (runOps Toy.env Toy.serverOps Toy.server0).state = .connected :=
  ⟨Toy.client0_new, Toy.client_facts.1.1, Toy.server0_new, rfl, Toy.server_facts.1.1⟩

end Siotls
