import Verif.Proofs.Hoard
import Verif.Proofs.Epoch
import Verif.Props.Stream
/-!
# C102: what a peer makes an endpoint keep is bounded

The full claim: when `receive_data` returned, less than one record is left in the input buffer. It is false of
the code (`C102_false`): of many empty handshake records only one is taken by each call.
-/

namespace Siotls
open Spec

variable {E : Env}

/-- C102, full statement. -/
def C102_statement : Prop :=
  ∀ (E : Env) (config : Config) (hostname : Option PyStr) (ocsp : Bool) (algs : List HashAlg) (random : Bytes)
    (c₀ c : Conn) (ops : List Op) (d : Bytes), Conn.new config hostname ocsp algs random = .ok c₀ →
    config.maxFragmentLength ∈ [512, 1024, 2048, 4096, 16384] →
    receiveData E d (runOps E ops c₀) = (.ok (), c) → c.inputData.length < 16645

/-- C102. After any history, when `receive_data` returns normally less than one record is left in the input
buffer, at most 16644 bytes; provided that every handshake message starts with a record that holds its whole
header. -/
theorem C102_partial {config : Config} {hostname ocsp algs random} {c₀ c : Conn}
    (hc : Conn.new config hostname ocsp algs random = .ok c₀)
    (hm : config.maxFragmentLength ∈ [512, 1024, 2048, 4096, 16384]) (ops : List Op) {d : Bytes}
    (h : receiveData E d (runOps E ops c₀) = (.ok (), c))
    (hs : NoShort E { runOps E ops c₀ with inputData := (runOps E ops c₀).inputData ++ d }) :
    LessThanRecord c.inputData ∧ c.inputData.length < 16645 := by
  obtain ⟨-, -, h3, -⟩ := receiveData_ok h
  obtain ⟨h4, h5⟩ := loop_rest _ _ _ (Nat.le_refl _) hs h3
  have hmc : c = runOps E (ops ++ [.receive d]) c₀ := by
    rw [runOps_append]
    show _ = ((Op.receive d).run E (runOps E ops c₀)).2
    rw [Op.run, wrap_snd, h]
  have hi : MflInv E c := hmc ▸ (MflInv.fresh hc hm).run _
  have := (fragmentSizes_bounds hi.mfl).2
  refine ⟨h4, ?_⟩
  have h6 : c.recordLimit ≤ c.mfl + 256 := Nat.add_le_add_left (by split <;> simp) _
  omega

/-- C102. In a program whose `receive_data` all returned, at most a handshake message (2²⁴ + 3 bytes) is kept
of the handshake, whatever the peer sends and in whatever records. -/
theorem C102_handshake {config : Config} {hostname ocsp algs random} {c₀ : Conn}
    (hc : Conn.new config hostname ocsp algs random = .ok c₀) (ops : List Op) (h : Received E ops c₀) :
    (runOps E ops c₀).inputHandshake.length < 16777220 := by
  have h0 : HsBound c₀ := by
    show _ < _
    rw [(Conn.new_fresh hc).2.2.2.2.2.1]
    decide
  exact received_bound ops h0 h

/-- C102. Any server, before it knows anything of the client, keeps as many complete records as the client
likes: of `n + 1` empty handshake records one is taken, and the call returns. -/
theorem C102_unbounded {config : Config} {hostname ocsp algs random} {c₀ : Conn}
    (hc : Conn.new config hostname ocsp algs random = .ok c₀) (hside : config.side = .server) (n : Nat) :
    ∃ c, receiveData E (List.replicate (n + 1) emptyRecord).flatten (runOps E [.initiate] c₀) = (.ok (), c) ∧
      c.inputData = (List.replicate n emptyRecord).flatten ∧ c.state.canReceive = true ∧ c.outputData = [] := by
  obtain ⟨-, -, f3, -, f5, f6, f7, -, -, -, -, -, f13⟩ := Conn.new_fresh hc
  have hst : c₀.state = .serverStart := by
    rcases f13 with ⟨h1, -⟩ | ⟨-, h1, -⟩
    · rw [hside] at h1; cases h1
    · exact h1
  have hrun : runOps E [.initiate] c₀ = (Siotls.initiate E c₀).2 := by
    show (Op.initiate.run E c₀).2 = _
    rw [Op.run, wrap_snd]
  have hx : ∃ s, (Siotls.initiate E c₀).2 = { c₀ with state := s } ∧ s.canReceive = true := by
    unfold Siotls.initiate
    rw [hst]
    exact ⟨_, rfl, rfl⟩
  obtain ⟨s, h1, h2⟩ := hx
  rw [hrun, h1]
  exact ⟨_, empties_wait (c := { c₀ with state := s }) f5 f6 f3 h2 n, rfl, h2, f7⟩

/-- C102 is false of the code. -/
theorem C102_false : ¬ C102_statement := by
  intro h
  obtain ⟨c, h1, h2, -⟩ := C102_unbounded (E := Toy.env) Toy.server0_new rfl 16645
  have := h Toy.env _ _ _ _ _ _ c [.initiate] _ Toy.server0_new (by decide) h1
  rw [h2, empties_length] at this
  omega

/-- The hypotheses of `C102_partial` are met by a piece of the flight of the toy server, and those of
`C102_handshake` by the whole of it. -/
example : ∃ c, Conn.new Toy.clientConfig (some ['a']) false [.sha256, .sha384] (List.replicate 32 5) =
      .ok Toy.client0 ∧
    receiveData Toy.env (Toy.flight.take 30) (runOps Toy.env [.initiate, .drain] Toy.client0) = (.ok (), c) ∧
    NoShort Toy.env { Toy.waiting with inputData := Toy.waiting.inputData ++ Toy.flight.take 30 } := by
  obtain ⟨_, _, _, h3, h4⟩ := Toy.cut_facts
  rcases hf : receiveData Toy.env (Toy.flight.take 30) Toy.waiting with ⟨r, c'⟩
  rw [hf] at h4
  cases r with
  | error e => cases h4
  | ok u => exact ⟨c', Toy.client0_new, hf, Toy.noShort_of h3⟩

example : Received Toy.env [.initiate, .drain, .receive (Toy.flight.take 30)] Toy.client0 := by
  obtain ⟨_, _, _, _, h4⟩ := Toy.cut_facts
  refine ⟨fun ⟨_, h⟩ => (by cases h), fun ⟨_, h⟩ => (by cases h), fun _ => ?_, trivial⟩
  show ∃ out, ((Op.receive (Toy.flight.take 30)).run Toy.env Toy.waiting).1 = .ok out
  rw [Op.run, M.bind_def]
  rcases hf : receiveData Toy.env (Toy.flight.take 30) Toy.waiting with ⟨r, c'⟩
  rw [hf] at h4
  cases r with
  | error e => cases h4
  | ok u => exact ⟨[], rfl⟩

end Siotls
