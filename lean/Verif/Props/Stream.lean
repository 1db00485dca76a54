import Verif.Proofs.Split
import Verif.Props.Schedule
import Verif.Model.ToyFacts
/-!
# The byte streams: C07, C08, C32 and C63
-/

namespace Siotls
open Spec

variable {E : Env}

/-! ## C07: delivery does not depend on TCP segmentation

The full claim: for every connection and every a and b, `receive_data(a); receive_data(b)` and
`receive_data(a + b)` lead to the same connection and the same exception. It is false of the code
(`C07_false`): a handshake record that leaves less than four bytes of a message makes the loop stop,
whatever follows in the buffer. Proved without that case; what follows an exception is left in the
input buffer, as the statement says, and an exception after the loop (the keys are worn out) is left
out. -/

/-- However the bytes are cut in chunks, when the calls return normally one call with all of the bytes
returns normally and leads to exactly the same connection: the same state, the same pending output,
the same readable data and the same keys. -/
theorem C07_chunks_partial {c c' : Conn} {chunks : List Bytes} (hn : chunks ≠ [])
    (h : feed E chunks c = (.ok (), c'))
    (hs : NoShort E { c with inputData := c.inputData ++ chunks.flatten }) :
    receiveData E chunks.flatten c = (.ok (), c') :=
  feed_ok chunks hn h hs

/-- A chunk received normally can be joined to the next one, even when the latter raises. -/
theorem C07_split_partial {c c₁ : Conn} {a b : Bytes} (hb : b ≠ [])
    (ha : receiveData E a c = (.ok (), c₁))
    (hs : NoShort E { c with inputData := c.inputData ++ a }) :
    receiveData E (a ++ b) c = receiveData E b c₁ := receive_split hb ha hs

/-- When receiving raises, it would have raised the same exception whatever followed in the same
chunk: the rest of the chunk is left untouched in the input buffer. -/
theorem C07_raised_partial {config : Config} {hostname ocsp algs random} {c₀ : Conn}
    (hc : Conn.new config hostname ocsp algs random = .ok c₀)
    (hm : config.maxFragmentLength ∈ [512, 1024, 2048, 4096, 16384]) (ops : List Op)
    {c₁ : Conn} {a b : Bytes} {e : Exn} (ha : a ≠ [])
    (hr : (runOps E ops c₀).state.canReceive = true)
    (h : receiveData E a (runOps E ops c₀) = (.error e, c₁)) (hk : shouldRekey c₁ = .ok false) :
    receiveData E (a ++ b) (runOps E ops c₀) =
      (.error e, { c₁ with inputData := c₁.inputData ++ b }) :=
  receive_split_raised ((MflInv.fresh hc hm).run ops) ha hr h hk

namespace Toy

set_option maxRecDepth 1000000

/-- the next record leaves a piece of a handshake header -/
def shortB (c : Conn) : Bool :=
  match (readNextRecord env c).1 with
  | .ok (some (ct, frag)) => ct == 22 && decide (c.inputHandshake.length + frag.length < 4)
  | _ => false

/-- no turn of the loop does -/
def noShortB : Nat → Conn → Bool
  | 0, _ => false
  | n + 1, c => !shortB c &&
    match receiveStep env c with
    | (.ok true, c) => noShortB n c
    | _ => true

theorem noShort_of {n : Nat} {c : Conn} (h : noShortB n c = true) : NoShort env c := by
  intro c₀ ht
  induction ht generalizing n with
  | refl c =>
    rintro ⟨frag, c', hr, hl⟩
    cases n with
    | zero => cases h
    | succ n =>
      simp only [noShortB, Bool.and_eq_true, Bool.not_eq_true'] at h
      have := h.1
      unfold shortB at this
      rw [hr] at this
      simp only [Iana.ctHandshake, BEq.rfl, Bool.true_and, decide_eq_false_iff_not] at this
      exact this hl
  | turn hs _ ih =>
    cases n with
    | zero => cases h
    | succ n =>
      simp only [noShortB, Bool.and_eq_true] at h
      have h2 := h.2
      rw [hs] at h2
      exact ih h2

/-- the flight of the toy server, cut in the middle of a record -/
def flightCut : List Bytes := [flight.take 30, (flight.drop 30).take 50, flight.drop 80]

def waiting : Conn := runOps env [.initiate, .drain] client0

def isOk {α} : Except Exn α → Bool
  | .ok _ => true
  | .error _ => false

theorem cut_facts : isOk (feed env flightCut waiting).1 = true ∧
    (feed env flightCut waiting).2.state = .connected ∧
    noShortB 20 { waiting with inputData := waiting.inputData ++ flightCut.flatten } = true ∧
    noShortB 20 { waiting with inputData := waiting.inputData ++ flight.take 30 } = true ∧
    isOk (receiveData env (flight.take 30) waiting).1 = true := by decide +kernel

/-- an alert that does not exist, then some more bytes -/
def junk : Bytes := [21, 3, 3, 0, 2, 2, 99]

theorem junk_facts : waiting.state.canReceive = true ∧
    isOk (receiveData env junk waiting).1 = false ∧
    (match shouldRekey (receiveData env junk waiting).2 with
      | .ok b => b == false
      | .error _ => false) = true := by decide +kernel

end Toy

/-- The hypotheses of `C07_chunks_partial` are met by the toy client and the flight of the server in
three pieces, by which it becomes connected. -/
example : ∃ c', Toy.flightCut ≠ [] ∧ feed Toy.env Toy.flightCut Toy.waiting = (.ok (), c') ∧
    c'.state = .connected ∧ NoShort Toy.env
      { Toy.waiting with inputData := Toy.waiting.inputData ++ Toy.flightCut.flatten } := by
  obtain ⟨h1, h2, h3, _⟩ := Toy.cut_facts
  rcases hf : feed Toy.env Toy.flightCut Toy.waiting with ⟨r, c'⟩
  rw [hf] at h1 h2
  cases r with
  | error e => cases h1
  | ok u => exact ⟨c', by simp [Toy.flightCut], rfl, h2, Toy.noShort_of h3⟩

/-- The hypotheses of `C07_split_partial` are met by a piece of the flight. -/
example : ∃ c₁, Toy.flight.drop 30 ≠ [] ∧
    receiveData Toy.env (Toy.flight.take 30) Toy.waiting = (.ok (), c₁) ∧
    NoShort Toy.env { Toy.waiting with inputData := Toy.waiting.inputData ++ Toy.flight.take 30 } := by
  obtain ⟨_, _, _, h3, h4⟩ := Toy.cut_facts
  rcases hf : receiveData Toy.env (Toy.flight.take 30) Toy.waiting with ⟨r, c'⟩
  rw [hf] at h4
  cases r with
  | error e => cases h4
  | ok u => exact ⟨c', by decide +kernel, rfl, Toy.noShort_of h3⟩

/-- The hypotheses of `C07_raised_partial` are met by the toy client and an unknown alert. -/
example : ∃ c₁ e, Conn.new Toy.clientConfig (some ['a']) false [.sha256, .sha384]
      (List.replicate 32 5) = .ok Toy.client0 ∧
    Toy.clientConfig.maxFragmentLength ∈ [512, 1024, 2048, 4096, 16384] ∧ Toy.junk ≠ [] ∧
    (runOps Toy.env [.initiate, .drain] Toy.client0).state.canReceive = true ∧
    receiveData Toy.env Toy.junk (runOps Toy.env [.initiate, .drain] Toy.client0) = (.error e, c₁) ∧
    shouldRekey c₁ = .ok false := by
  obtain ⟨h1, h2, h3⟩ := Toy.junk_facts
  rcases hf : receiveData Toy.env Toy.junk Toy.waiting with ⟨r, c'⟩
  rw [hf] at h2 h3
  cases r with
  | ok u => cases h2
  | error e =>
    refine ⟨c', e, Toy.client0_new, by decide +kernel, by simp [Toy.junk], h1, hf, ?_⟩
    cases hk : shouldRekey c' with
    | error e => rw [hk] at h3; cases h3
    | ok b => rw [hk] at h3; cases b <;> first | rfl | cases h3

namespace Toy

set_option maxRecDepth 1000000

/-- two records: the first two bytes of a (wrong) ClientHello, then the others -/
def half1 : Bytes := [22, 3, 3, 0, 2, 1, 0]
def half2 : Bytes := [22, 3, 3, 0, 4, 0, 2, 3, 3]

def ready : Conn := runOps env [.initiate] server0

/-- one call: nothing happens; two calls: the alert decode_error is sent and the connection fails -/
theorem halves_facts : isOk (receiveData env (half1 ++ half2) ready).1 = true ∧
    (receiveData env (half1 ++ half2) ready).2.outputData = [] ∧
    isOk (receiveData env half1 ready).1 = true ∧
    isOk (receiveData env half2 (receiveData env half1 ready).2).1 = false ∧
    (receiveData env half2 (receiveData env half1 ready).2).2.state = .failed ∧
    (receiveData env half2 (receiveData env half1 ready).2).2.outputData =
      [21, 3, 3, 0, 2, 2, 50] := by decide +kernel

end Toy

/-- The full claim is false: the same bytes in one call or in two calls do not have the same outcome,
here when the header of a handshake message is cut over two records. -/
theorem C07_false : ∃ (E : Env) (c c₁ c₂ : Conn) (a b : Bytes) (e : Exn), E.Sized ∧
    (∃ config hostname ocsp algs random c₀ ops,
      Conn.new config hostname ocsp algs random = .ok c₀ ∧ c = runOps E ops c₀) ∧
    receiveData E a c = (.ok (), c₁) ∧ receiveData E b c₁ = (.error e, c₂) ∧
    c₂.outputData ≠ [] ∧ (receiveData E (a ++ b) c).1 = .ok () ∧
    (receiveData E (a ++ b) c).2.outputData = [] := by
  obtain ⟨h1, h2, h3, h4, h5, h6⟩ := Toy.halves_facts
  rcases ha : receiveData Toy.env Toy.half1 Toy.ready with ⟨r, c₁⟩
  rw [ha] at h3 h4 h5 h6
  cases r with
  | error e => cases h3
  | ok u =>
  dsimp only at h4 h5 h6
  rcases hb : receiveData Toy.env Toy.half2 c₁ with ⟨r, c₂⟩
  rw [hb] at h4 h5 h6
  cases r with
  | ok u => cases h4
  | error e =>
  refine ⟨Toy.env, Toy.ready, c₁, c₂, Toy.half1, Toy.half2, e, Toy.sized,
    ⟨_, _, _, _, _, _, [.initiate], Toy.server0_new, rfl⟩, ha, hb, ?_, ?_, h2⟩
  · rw [h6]; simp
  · rcases hc : receiveData Toy.env (Toy.half1 ++ Toy.half2) Toy.ready with ⟨r, c₃⟩
    rw [hc] at h1
    cases r with
    | error e => cases h1
    | ok u => rfl

/-! ## C08: dummy ChangeCipherSpec records are invisible -/

/-- At a record boundary, in whatever state, any number of dummy change_cipher_spec records before
some data change nothing at all. -/
theorem C08_before (vs : List (UInt8 × UInt8)) {d : Bytes} {c : Conn} (hc : c.inputData = [])
    (hd : d ≠ []) : receiveData E ((vs.map dummyCcs).flatten ++ d) c = receiveData E d c := by
  cases hr : c.state.canReceive with
  | false =>
    unfold receiveData
    rw [if_neg (by simp [hd]), if_pos hr, if_neg (by simp [hd]), if_pos hr]
  | true =>
    rw [receiveData_eq (by simp [hd]) hr, receiveData_eq hd hr]
    have : loop E (c.fed ((vs.map dummyCcs).flatten ++ d)) = loop E (c.fed d) :=
      loop_skip (by rw [hc]; exact skipCcs_dummies vs d)
    rw [this]

/-- Alone, they are accepted and change nothing at all. -/
theorem C08_alone (v : UInt8 × UInt8) (vs : List (UInt8 × UInt8)) {c : Conn} (hc : c.inputData = [])
    (hr : c.state.canReceive = true) (hk : shouldRekey c = .ok false) :
    receiveData E (((v :: vs).map dummyCcs).flatten) c = (.ok (), c) := by
  rw [receiveData_eq (by simp [dummyCcs]) hr]
  have h1 : loop E (c.fed ((v :: vs).map dummyCcs).flatten) = loop E c := by
    have : skipCcs (c.inputData ++ ((v :: vs).map dummyCcs).flatten) = skipCcs c.inputData := by
      rw [hc]
      have := skipCcs_dummies (v :: vs) []
      rw [List.append_nil] at this
      exact this
    exact loop_skip (c := c) this
  have h2 : receiveStep E c = (.ok false, c) := by
    have hn : readNextRecord E c = (.ok none, c) := by
      rw [readNextRecord_short (by rw [hc]; exact Nat.zero_lt_succ _)]
      rw [hc]
      cases c
      cases hc
      rfl
    rw [receiveStep_eq, readNextContent, hn]
  rw [h1, loop_eq, h2]
  dsimp only [finishReceive]
  rw [hk]

/-- In the middle of a stream, after data received up to a record boundary. -/
theorem C08_between (vs : List (UInt8 × UInt8)) {a b : Bytes} {c c₁ : Conn} (hb : b ≠ [])
    (ha : receiveData E a c = (.ok (), c₁)) (hc : c₁.inputData = [])
    (hs : NoShort E { c with inputData := c.inputData ++ a }) :
    receiveData E (a ++ (vs.map dummyCcs).flatten ++ b) c = receiveData E (a ++ b) c := by
  rw [List.append_assoc, receive_split (by simp [hb]) ha hs, receive_split hb ha hs,
    C08_before vs hc hb]

namespace Toy

set_option maxRecDepth 1000000

/-- the ServerHello alone -/
theorem serverHello_facts : isOk (receiveData env (flight.take 64) waiting).1 = true ∧
    (receiveData env (flight.take 64) waiting).2.inputData = [] ∧
    (receiveData env (flight.take 64) waiting).2.state = .clientWaitEE ∧
    noShortB 20 { waiting with inputData := waiting.inputData ++ flight.take 64 } = true ∧
    waiting.inputData = [] ∧ (match shouldRekey waiting with
      | .ok b => b == false
      | .error _ => false) = true := by decide +kernel

end Toy

/-- The hypotheses of `C08_between` are met after the ServerHello; those of the two others by the
client before. -/
example : (∃ c₁, Toy.flight.drop 64 ≠ [] ∧
      receiveData Toy.env (Toy.flight.take 64) Toy.waiting = (.ok (), c₁) ∧ c₁.inputData = [] ∧
      NoShort Toy.env
        { Toy.waiting with inputData := Toy.waiting.inputData ++ Toy.flight.take 64 }) ∧
    Toy.waiting.inputData = [] ∧ Toy.waiting.state.canReceive = true ∧
    shouldRekey Toy.waiting = .ok false := by
  obtain ⟨h1, h2, h3, h4, h5, h6⟩ := Toy.serverHello_facts
  refine ⟨?_, h5, Toy.junk_facts.1, ?_⟩
  · rcases hf : receiveData Toy.env (Toy.flight.take 64) Toy.waiting with ⟨r, c'⟩
    rw [hf] at h1 h2
    cases r with
    | error e => cases h1
    | ok u => exact ⟨c', by decide +kernel, rfl, h2, Toy.noShort_of h4⟩
  · cases hk : shouldRekey Toy.waiting with
    | error e => rw [hk] at h6; cases h6
    | ok b => rw [hk] at h6; cases b <;> first | rfl | cases h6

/-! ## C32: the buffers are emptied exactly once -/

/-- Whatever the program does with a new connection, what `data_to_send` returned so far followed by
what is pending is exactly the records produced, in order. -/
theorem C32_output {config : Config} {hostname ocsp algs random} {c : Conn}
    (hc : Conn.new config hostname ocsp algs random = .ok c) (ops : List Op) :
    collected E .drain ops c ++ (runOps E ops c).outputData = wire (runOps E ops c).tr := by
  have hf := Conn.new_fresh hc
  obtain ⟨new, h1, h2, _⟩ := collected_flow (E := E) ops c
  rw [h1, h2, show c.tr = [] from hf.2.2.2.2.2.2.2.2.1, List.append_nil, show c.outputData = [] from hf.2.2.2.2.2.2.1,
    List.nil_append]

/-- Same for `data_to_read` and the application data received. -/
theorem C32_input {config : Config} {hostname ocsp algs random} {c : Conn}
    (hc : Conn.new config hostname ocsp algs random = .ok c) (ops : List Op) :
    collected E .read ops c ++ (runOps E ops c).applicationData =
      deliveredData (runOps E ops c).tr := by
  have hf := Conn.new_fresh hc
  obtain ⟨new, h1, _, h2⟩ := collected_flow (E := E) ops c
  rw [h1, h2, show c.tr = [] from hf.2.2.2.2.2.2.2.2.1, List.append_nil, show c.applicationData = [] from hf.2.2.2.2.2.2.2.1,
    List.nil_append]

/-- Emptying the buffers, anywhere and as often as one likes, changes nothing else: every other call
returns or raises the same, and the connections only differ by what is in the two buffers. -/
theorem C32_transparent (ops : List Op) (c : Conn) :
    outcomes E ops c = outcomes E (ops.filter (!buffering ·)) c ∧
    runOps E ops c = { runOps E (ops.filter (!buffering ·)) c with
      outputData := (runOps E ops c).outputData,
      applicationData := (runOps E ops c).applicationData } := by
  obtain ⟨h1, h2⟩ := (Alike.refl c).outcomes (E := E) ops
  refine ⟨h1, ?_⟩
  have := h2.same
  rw [this]

/-- So the bytes produced in all are the same, drained early or not. -/
theorem C32_total {config : Config} {hostname ocsp algs random} {c : Conn}
    (hc : Conn.new config hostname ocsp algs random = .ok c) (ops : List Op) :
    collected E .drain ops c ++ (runOps E ops c).outputData =
      (runOps E (ops.filter (!buffering ·)) c).outputData ∧
    collected E .read ops c ++ (runOps E ops c).applicationData =
      (runOps E (ops.filter (!buffering ·)) c).applicationData := by
  have hno : ∀ (o : Op), buffering o = true → ∀ (ops : List Op) (c : Conn),
      ops.all (!buffering ·) = true → collected E o ops c = [] := by
    intro o ho ops
    induction ops with
    | nil => intro c _; rfl
    | cons p ps ih =>
      intro c h
      simp only [List.all_cons, Bool.and_eq_true, Bool.not_eq_true'] at h
      have hne : p ≠ o := by rintro rfl; rw [ho] at h; cases h.1
      rw [collected, if_neg hne, List.nil_append, ih _ h.2]
  have hall : (ops.filter (!buffering ·)).all (!buffering ·) = true := by
    simp [List.all_eq_true]
  have htr : (runOps E ops c).tr = (runOps E (ops.filter (!buffering ·)) c).tr := by
    rw [(C32_transparent (E := E) ops c).2]
  constructor
  · rw [C32_output hc, htr, ← C32_output hc, hno .drain rfl _ _ hall, List.nil_append]
  · rw [C32_input hc, htr, ← C32_input hc, hno .read rfl _ _ hall, List.nil_append]

namespace Toy

set_option maxRecDepth 1000000

/-- a program that drains twice -/
def drainOps : List Op := [.initiate, .drain, .receive flight, .drain, .send [7, 8], .read]

theorem drain_facts : (collected env .drain drainOps client0).length > 100 ∧
    (runOps env drainOps client0).outputData.length > 5 := by decide +kernel

end Toy

/-- The theorems C32 say something of a program of the toy client with output drained, and pending. -/
example : Conn.new Toy.clientConfig (some ['a']) false [.sha256, .sha384] (List.replicate 32 5) =
      .ok Toy.client0 ∧ (collected Toy.env .drain Toy.drainOps Toy.client0).length > 100 ∧
    (runOps Toy.env Toy.drainOps Toy.client0).outputData.length > 5 :=
  ⟨Toy.client0_new, Toy.drain_facts.1, Toy.drain_facts.2⟩

/-! ## C63: receive_data terminates -/

/-- Whatever the connection and its input buffer, the `while True` loop of receive_data is left, after
a number of turns bounded by a fifth of the length of the buffer. -/
theorem C63_loop (c : Conn) : ∃ n r c', 5 * n ≤ c.inputData.length ∧ While E n c r c' := by
  obtain ⟨k, h1, h2⟩ := while_loop (E := E) c.inputData.length c (Nat.le_refl _)
  exact ⟨k, _, _, h1, h2⟩

/-- And receive_data is exactly that loop: the fuel of the model is never exhausted. -/
theorem C63_receive {d : Bytes} {c : Conn} (hd : d ≠ []) (hr : c.state.canReceive = true) :
    ∃ n r c₁, 5 * n ≤ (c.inputData ++ d).length ∧
      While E n { c with inputData := c.inputData ++ d } r c₁ ∧
      receiveData E d c = match r with
        | .error e => (.error e, c₁)
        | .ok _ => match shouldRekey c₁ with
          | .error e => (.error e, c₁)
          | .ok true => Siotls.rekey c₁
          | .ok false => (.ok (), c₁) := by
  obtain ⟨k, h1, h2⟩ := while_loop (E := E) _ (c.fed d) (Nat.le_refl _)
  refine ⟨k, _, _, h1, h2, ?_⟩
  rw [receiveData_eq hd hr]
  rcases loop E (c.fed d) with ⟨r, c'⟩
  cases r <;> rfl

/-- the relation is a function: the outcome of the loop is the one of the model -/
theorem C63_unique {n m : Nat} {c c₁ c₂ : Conn} {r₁ r₂ : Except Exn Unit} (h₁ : While E n c r₁ c₁)
    (h₂ : While E m c r₂ c₂) : r₁ = r₂ ∧ c₁ = c₂ := by
  have := (while_det h₁).symm.trans (while_det h₂)
  exact ⟨congrArg Prod.fst this, congrArg Prod.snd this⟩

/-- The hypotheses of `C63_receive` are met by the toy client and the flight of the server. -/
example : Toy.flight ≠ [] ∧ Toy.waiting.state.canReceive = true :=
  ⟨by decide +kernel, Toy.junk_facts.1⟩

end Siotls
