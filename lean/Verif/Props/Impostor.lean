import Verif.Proofs.Impostor
import Verif.Props.Auth
import Verif.Props.Wrapper
import Verif.Props.Sockets
/-!
# C108: what a wrapped socket returns came from the peer
-/

namespace Siotls
open Spec Serial

variable {E : Env} {S : Sock}

/-- C108, full claim: what a wrapped client reads or writes as application data, before it or the socket
is closed, it does so after the server proved who it is and its Finished was verified. False: see
`C108_false`. -/
def C108_statement (E : Env) : Prop :=
  ∀ (config : Config) (hostname : Option PyStr) (ocsp : Bool) (algs : List HashAlg) (random : Bytes) (c : Conn),
    Conn.new config hostname ocsp algs random = .ok c → config.side = .client →
    ∀ (S : Sock), Endless S → ∀ calls : List Call, calls.all stays = true →
      (readBack E S calls (.new c) ≠ [] ∨
        ∃ d, Ev.sent (.applicationData d) ∈ (runCalls E S calls (.new c)).conn.tr) →
      ∃ a, ServerFinished E (CoversSince E) a (runCalls E S calls (.new c)).conn.tr

/-- C108: someone who knows no key sends a close_notify and then clear records. For every configuration,
on either side, whatever it trusts, `do_handhskake` returns, the connection says it is connected, `read`
returns their words as the peer's, and `write` sends the program's data in the clear. -/
theorem C108_fooled {config : Config} {hostname : Option PyStr} {ocsp : Bool} {algs : List HashAlg}
    {random : Bytes} {c c₁ : Conn} {words : List Bytes}
    (hm₁ : 4 ≤ config.maxFragmentLength) (hm₂ : config.maxFragmentLength ≤ 16384)
    (hc : Conn.new config hostname ocsp algs random = .ok c)
    (hside : config.side = .client ∨ config.side = .server ∧ hostname = none)
    (hi : Op.initiate.run E c = (.ok [], c₁)) (hS : Carries S 0 (lies words))
    (hw : ∀ d ∈ words, d ≠ [] ∧ d.length ≤ config.maxFragmentLength) :
    ∃ w, (∀ j, 0 < j → doHandshake E S j (.new c) = (.ok (), w)) ∧
      ∀ calls, Converses config.maxFragmentLength calls words →
        answers E S calls w = takenIn calls words ∧
        (runCalls E S calls w).accepted = c₁.outputData ++ leaked calls ∧
        (runCalls E S calls w).conn.state.isConnected = true ∧
        (runCalls E S calls w).conn.cipher = none := by
  obtain ⟨w, h1, h2, h3, h4⟩ := duped_handshake hm₁ hm₂ hc hside hi hS
  refine ⟨w, h1, fun calls hcalls => ?_⟩
  obtain ⟨a1, a2, a3⟩ := duped_converses (E := E) (S := S) hm₂ calls words w h2
    (by rw [h3]; exact Spec.Carries.tail hS) hw hcalls
  exact ⟨a1, by rw [a2, h4], by rw [a3.state]; rfl, a3.cipher⟩

theorem delivered_of_data : ∀ {tr : List Ev}, deliveredData tr ≠ [] → ∃ d, Ev.delivered d ∈ tr := by
  intro tr
  induction tr with
  | nil => intro h; exact absurd rfl h
  | cons e t ih =>
    intro h
    cases e with
    | delivered d => exact ⟨d, by simp⟩
    | _ =>
      obtain ⟨d, hd⟩ := ih h
      exact ⟨d, by simp [hd]⟩

/-- C108, what holds: when no close_notify was received. Missing: the close_notify in the clear, which
the client takes before any key is agreed. -/
theorem C108_partial (hE : E.Sized) {config : Config} {hostname ocsp algs random} {c : Conn}
    (hc : Conn.new config hostname ocsp algs random = .ok c) (hside : config.side = .client)
    (hS : Endless S) (calls : List Call) (hx : calls.all stays = true)
    (hn : ∀ level, Ev.recv (.alert level 0) ∉ (runCalls E S calls (.new c)).conn.tr)
    (hd : readBack E S calls (.new c) ≠ [] ∨
      ∃ d, Ev.sent (.applicationData d) ∈ (runCalls E S calls (.new c)).conn.tr) :
    ∃ a, ServerFinished E (CoversSince E) a (runCalls E S calls (.new c)).conn.tr := by
  obtain ⟨ops, h1, h2⟩ := unclosed_calls (E := E) hS calls (.new c) hx ⟨[], rfl, rfl⟩
  have key : ∃ d past, (Ev.delivered d :: past) <:+ (runOps E ops c).tr ∨
      (Ev.sent (.applicationData d) :: past) <:+ (runOps E ops c).tr := by
    rcases hd with hr | ⟨d, hd⟩
    · have h3 := C65_read (E := E) (S := S) hc calls
      have h4 : deliveredData (runCalls E S calls (.new c)).conn.tr ≠ [] := by
        rw [← h3]
        intro h
        exact hr (List.append_eq_nil_iff.mp h).1
      obtain ⟨d, hd⟩ := delivered_of_data h4
      rw [h2] at hd
      obtain ⟨s, t, e⟩ := List.append_of_mem hd
      exact ⟨d, t, .inl ⟨s, e.symm⟩⟩
    · rw [h2] at hd
      obtain ⟨s, t, e⟩ := List.append_of_mem hd
      exact ⟨d, t, .inr ⟨s, e.symm⟩⟩
  obtain ⟨d, past, hp⟩ := key
  rw [h2] at hn ⊢
  obtain ⟨a, ha⟩ := C19_client_partial hE hc hside ops ⟨h1, hn⟩ past d hp
  refine ⟨a, ha.mono ?_⟩
  rcases hp with hp | hp <;> exact (List.suffix_cons _ _).trans hp

/-- C108 for servers, what holds: for programs that stop when a call raises, when no close_notify was
received. What is read was said by a client whose Finished was verified; what is written is written after
the server's own Finished. -/
theorem C108_server_partial (hE : E.Sized) {config : Config} {hostname ocsp algs random} {c : Conn}
    (hc : Conn.new config hostname ocsp algs random = .ok c) (hside : config.side = .server)
    (hr : random.length = 32) (hne : random ≠ Spec.retryRandom)
    (hS : Endless S) (calls : List Call) (hx : calls.all stays = true) (hstop : Stops E S calls (.new c))
    (hn : ∀ level, Ev.recv (.alert level 0) ∉ (runCalls E S calls (.new c)).conn.tr) :
    (readBack E S calls (.new c) ≠ [] →
      ∃ a, ClientFinished E (CoversRfc E) a (runCalls E S calls (.new c)).conn.tr) ∧
    (∀ d, Ev.sent (.applicationData d) ∈ (runCalls E S calls (.new c)).conn.tr →
      ∃ mac, Ev.sent (.handshake (.finished mac)) ∈ (runCalls E S calls (.new c)).conn.tr) := by
  obtain ⟨ops, h1, hcare, h2⟩ := goes_calls (E := E) hS calls (.new c) hx hstop ⟨[], rfl, trivial, rfl⟩
  have h2 : (runCalls E S calls (.new c)).conn = runOps E ops c := h2
  have key := C19_server_partial hE hc hside hr hne ops hcare ⟨h1, by rw [← h2]; exact hn⟩
  refine ⟨fun hd => ?_, fun d hd => ?_⟩
  · have h3 := C65_read (E := E) (S := S) hc calls
    have h4 : deliveredData (runCalls E S calls (.new c)).conn.tr ≠ [] := by
      rw [← h3]
      intro h
      exact hd (List.append_eq_nil_iff.mp h).1
    obtain ⟨d, hd⟩ := delivered_of_data h4
    rw [h2] at hd ⊢
    obtain ⟨s, t, e⟩ := List.append_of_mem hd
    have hp : (Ev.delivered d :: t) <:+ (runOps E ops c).tr := ⟨s, e.symm⟩
    obtain ⟨a, ha⟩ := (key t d).1 hp
    exact ⟨a, ha.mono ((List.suffix_cons _ _).trans hp)⟩
  · rw [h2] at hd ⊢
    obtain ⟨s, t, e⟩ := List.append_of_mem hd
    have hp : (Ev.sent (.applicationData d) :: t) <:+ (runOps E ops c).tr := ⟨s, e.symm⟩
    obtain ⟨mac, hm⟩ := (key t d).2 hp
    exact ⟨mac, hp.subset (.tail _ hm)⟩

namespace Toy

/-- someone who knows no key; afterwards they repeat themselves -/
def impostor : Sock where
  recv := fun i _ => .ok ((lies [[72, 105]]).getD i (recordBytes 23 [72, 105]))
  send := fun _ b => .ok b.length

theorem impostor_endless : Endless impostor := by
  intro i n h
  have h : (lies [[72, 105]]).getD i (recordBytes 23 [72, 105]) = [] := by
    simpa [impostor] using h
  rcases i with _ | _ | i <;> simp [lies, closeNotice, recordBytes] at h

theorem impostor_carries : Carries impostor 0 (lies [[72, 105]]) :=
  ⟨fun _ _ => rfl, fun i x h m => by simp [impostor, h]⟩

theorem fooled_facts :
    readBack env impostor [.handshake 1, .read 1] (.new client0) = [72, 105] ∧
    (runCalls env impostor [.handshake 1, .read 1] (.new client0)).conn.tr.all (fun e =>
      match e with
      | .recv (.handshake _) => false
      | _ => true) = true := by
  decide +kernel

/-- the toy server, then silence that never ends the file -/
def honest : Sock where
  recv := fun i _ => if i = 0 then .ok flight else .ok [23]
  send := fun _ b => .ok b.length

theorem honest_endless : Endless honest := by
  intro i n h
  simp only [honest] at h
  split at h
  · have h : flight = [] := by simpa using h
    revert h
    decide +kernel
  · cases h

theorem honest_facts :
    Ev.sent (.applicationData [7, 8]) ∈
      (runCalls env honest [.handshake 1, .write [7, 8]] (.new client0)).conn.tr ∧
    (runCalls env honest [.handshake 1, .write [7, 8]] (.new client0)).conn.tr.all (fun e =>
      match e with
      | .recv (.alert _ _) => false
      | _ => true) = true := by
  decide +kernel

/-- the toy client: hello, Finished, a word, then pieces that never make a record -/
def visitor : Sock where
  recv := fun i _ => .ok ([hello, finishU, (runOps env [.drain, .send [5]] clientDone).outputData].getD i [23])
  send := fun _ b => .ok b.length

theorem visitor_endless : Endless visitor := by
  intro i n h
  have h : [hello, finishU, (runOps env [.drain, .send [5]] clientDone).outputData].getD i [23] = [] := by
    simpa [visitor] using h
  rcases i with _ | _ | _ | i
  · revert h; decide +kernel
  · revert h; decide +kernel
  · revert h; decide +kernel
  · cases h

set_option maxRecDepth 1000000 in
theorem visitor_facts :
    readBack env visitor [.handshake 2, .read 1] (.new server0) = [5] ∧
    (raised ((Call.handshake 2).run env visitor (.new server0)).1 = false ∧
      raised ((Call.read 1).run env visitor ((Call.handshake 2).run env visitor (.new server0)).2).1 = false) ∧
    (runCalls env visitor [.handshake 2, .read 1] (.new server0)).conn.tr.all (fun e =>
      match e with
      | .recv (.alert _ _) => false
      | _ => true) = true := by
  decide +kernel

end Toy

/-- C108 is false: the toy client reads "Hi" from someone who proved nothing. -/
theorem C108_false : ¬ C108_statement Toy.env := by
  intro h
  obtain ⟨h1, h2⟩ := Toy.fooled_facts
  obtain ⟨a, t, t₁, alg, sig, vd, hh, sh, th, hs, -, -, -, hm, -⟩ := h _ _ _ _ _ _ Toy.client0_new rfl
    Toy.impostor Toy.impostor_endless [.handshake 1, .read 1] rfl (.inl (by rw [h1]; simp))
  have := List.all_eq_true.mp h2 _ (hs.subset hm)
  cases this

/-- a client that trusts some, and a program that reads and writes -/
example : ∃ w, (∀ j, 0 < j → doHandshake Toy.env Toy.impostor j (.new Toy.client0) = (.ok (), w)) ∧
    answers Toy.env Toy.impostor [.write [80, 87], .read 1] w = [.ok [], .ok [72, 105]] := by
  have hi : ∃ c₁, Op.initiate.run Toy.env Toy.client0 = (.ok [], c₁) := by
    have := Toy.client_starts
    rcases h : Op.initiate.run Toy.env Toy.client0 with ⟨r, c₁⟩
    rw [h] at this
    rcases r with e | (_ | ⟨b, l⟩)
    · cases this
    · exact ⟨c₁, rfl⟩
    · cases this
  obtain ⟨c₁, hi⟩ := hi
  obtain ⟨w, h1, h2⟩ := C108_fooled (words := [[72, 105]]) (by decide) (by decide) Toy.client0_new (.inl rfl)
    hi Toy.impostor_carries (by decide)
  refine ⟨w, h1, (h2 [.write [80, 87], .read 1] ?_).1⟩
  simp [Converses]
  decide

/-- a wrapped client that writes after an honest handshake -/
example : ∃ a, ServerFinished Toy.env (CoversSince Toy.env) a
    (runCalls Toy.env Toy.honest [.handshake 1, .write [7, 8]] (.new Toy.client0)).conn.tr := by
  refine C108_partial Toy.sized Toy.client0_new rfl Toy.honest_endless _ rfl (fun level h => ?_)
    (.inr ⟨_, Toy.honest_facts.1⟩)
  have := List.all_eq_true.mp Toy.honest_facts.2 _ h
  cases this

/-- a wrapped server that reads after an honest handshake -/
example : ∃ a, ClientFinished Toy.env (CoversRfc Toy.env) a
    (runCalls Toy.env Toy.visitor [.handshake 2, .read 1] (.new Toy.server0)).conn.tr := by
  obtain ⟨h1, ⟨h2, h3⟩, h4⟩ := Toy.visitor_facts
  refine (C108_server_partial Toy.sized Toy.server0_new rfl (by decide) (by decide) Toy.visitor_endless
    [.handshake 2, .read 1] rfl ⟨fun h => ?_, fun _ => rfl, trivial⟩ (fun level h => ?_)).1 (by rw [h1]; simp)
  · rw [h2] at h; cases h
  · have := List.all_eq_true.mp h4 _ h
    cases this

end Siotls
