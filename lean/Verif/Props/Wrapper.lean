import Verif.Proofs.Wrapper
import Verif.Spec.Wrapper
import Verif.Props.Lifecycle
/-!
# Properties C55, C65, C66, C67: the socket wrapper
-/

namespace Siotls
open Spec

variable {E : Env} {S : Sock}

/-! ## C55 -/

/-- C55, full statement: whatever the socket answers (as POSIX allows), after any calls, raising or
not, the socket accepted exactly the records that the connection produced.

False of the code: `C55_false`. -/
def C55_statement (E : Env) : Prop :=
  ∀ (S : Sock) (config : Config) hostname ocsp algs random (c : Conn), Posix S →
    Conn.new config hostname ocsp algs random = .ok c → ∀ xs : List Call,
      (runCalls E S xs (.new c)).accepted = wire (runCalls E S xs (.new c)).conn.tr

/-- C55 for the sockets whose `send` always takes everything: after any sequence of calls, however
each of them ended, the socket accepted exactly the records produced, in order, and nothing is
pending. Missing: sockets that take less or raise, for which it is false. -/
theorem C55_partial (hS : Greedy S) {config : Config} {hostname ocsp algs random} {c : Conn}
    (hc : Conn.new config hostname ocsp algs random = .ok c) (xs : List Call) :
    (runCalls E S xs (.new c)).accepted = wire (runCalls E S xs (.new c)).conn.tr ∧
    (runCalls E S xs (.new c)).conn.outputData = [] := by
  have hf := Conn.new_fresh hc
  have ho : c.outputData = [] := hf.2.2.2.2.2.2.1
  have ht : c.tr = [] := hf.2.2.2.2.2.2.2.2.1
  have h1 : Balance (· = ·) (runCalls E S xs (.new c)) := by
    refine (pieces_balance ⟨?_, ?_, ?_⟩).runCalls xs ?_
    · rintro a _ x rfl; rfl
    · intro i o a b n hn h
      rw [hS] at hn
      cases hn
      rw [List.take_length]
      exact h
    · intro i o a b e hn
      rw [hS] at hn
      cases hn
    · show [] ++ c.outputData = wire c.tr
      rw [ho, ht]
      rfl
  have h2 : Flushed E c (runCalls E S xs (.new c)) :=
    (pieces_flushed hc).runCalls xs ⟨⟨[], rfl⟩, ho⟩
  refine ⟨?_, h2.2⟩
  rw [← h1, h2.2, List.append_nil]

/-- C55, order: on any socket, what it accepted is made of the records produced, in order, some bytes
possibly missing; and nothing is ever kept for later. -/
theorem C55_order {config : Config} {hostname ocsp algs random} {c : Conn}
    (hc : Conn.new config hostname ocsp algs random = .ok c) (xs : List Call) :
    (runCalls E S xs (.new c)).accepted.Sublist (wire (runCalls E S xs (.new c)).conn.tr) ∧
    (runCalls E S xs (.new c)).conn.outputData = [] := by
  have hf := Conn.new_fresh hc
  have ho : c.outputData = [] := hf.2.2.2.2.2.2.1
  have h1 : Balance List.Sublist (runCalls E S xs (.new c)) := by
    refine (pieces_balance ⟨?_, ?_, ?_⟩).runCalls xs ?_
    · intro a b x h; exact h.append (List.Sublist.refl x)
    · intro i o a b n _ h
      exact ((List.Sublist.refl a).append (List.take_sublist n o)).trans h
    · intro i o a b e _ h
      exact (List.sublist_append_left a o).trans h
    · show List.Sublist ([] ++ c.outputData) (wire c.tr)
      rw [ho]
      exact List.nil_sublist _
  have h2 : Flushed E c (runCalls E S xs (.new c)) :=
    (pieces_flushed hc).runCalls xs ⟨⟨[], rfl⟩, ho⟩
  refine ⟨?_, h2.2⟩
  have := h1
  rw [Balance, h2.2, List.append_nil] at this
  exact this

/-- C55, loss: bytes that a `send` did not take are never sent again, whatever the program does. -/
theorem C55_lost {config : Config} {hostname ocsp algs random} {c : Conn}
    (hc : Conn.new config hostname ocsp algs random = .ok c) (xs more : List Call)
    (h : (runCalls E S xs (.new c)).accepted ≠ wire (runCalls E S xs (.new c)).conn.tr) :
    (runCalls E S (xs ++ more) (.new c)).accepted.length <
      (wire (runCalls E S (xs ++ more) (.new c)).conn.tr).length := by
  have happ : ∀ (xs more : List Call) (w : Wrapped),
      runCalls E S (xs ++ more) w = runCalls E S more (runCalls E S xs w) := by
    intro xs
    induction xs with
    | nil => intro _ _; rfl
    | cons x xs ih => intro more w; exact ih more _
  obtain ⟨h1, h2⟩ := C55_order (E := E) (S := S) hc xs
  have hlt : (runCalls E S xs (.new c)).accepted.length <
      (wire (runCalls E S xs (.new c)).conn.tr).length :=
    Nat.lt_of_le_of_ne h1.length_le fun he => h (h1.eq_of_length he)
  have h3 : Balance (fun a b => a.length < b.length) (runCalls E S (xs ++ more) (.new c)) := by
    rw [happ]
    refine (pieces_balance ⟨?_, ?_, ?_⟩).runCalls more ?_
    · intro a b x h
      simp only [List.length_append]
      omega
    · intro i o a b n _ h
      simp only [List.length_append, List.length_take] at h ⊢
      omega
    · intro i o a b e _ h
      simp only [List.length_append] at h
      omega
    · rw [Balance, h2, List.append_nil]
      exact hlt
  rw [Balance, List.length_append] at h3
  omega

namespace Toy

set_option maxRecDepth 1000000

/-- a socket that takes ten bytes at a time and never answers -/
def shortSock : Sock where
  recv := fun _ _ => .error .external
  send := fun _ b => .ok (min 10 b.length)

/-- a socket that takes everything, with the server's flight then a close -/
def goodSock : Sock where
  recv := fun i _ => if i = 0 then .ok flight else .ok []
  send := fun _ b => .ok b.length

/-- a session through the wrapper -/
def session : List Call := [.handshake 5, .write [7, 8], .read 5, .close]

theorem short_facts : (runCalls env shortSock [.handshake 1] (.new client0)).accepted.length = 10 ∧
    (wire (runCalls env shortSock [.handshake 1] (.new client0)).conn.tr).length ≠ 10 := by
  decide +kernel

theorem good_facts : (runCalls env goodSock [.handshake 5] (.new client0)).conn.state = .connected ∧
    (runCalls env goodSock session (.new client0)).accepted.length > 1000 := by
  decide +kernel

end Toy

/-- C55 is false: `send` may take less than it is given, the count it returns is ignored. -/
theorem C55_false : ¬ C55_statement Toy.env := by
  intro h
  have := h Toy.shortSock _ _ _ _ _ _ (fun i b n hn => by cases hn; exact Nat.min_le_right _ _)
    Toy.client0_new [.handshake 1]
  have h2 := congrArg List.length this
  rw [Toy.short_facts.1] at h2
  exact Toy.short_facts.2 h2.symm

example : Greedy Toy.goodSock ∧
    (runCalls Toy.env Toy.goodSock Toy.session (.new Toy.client0)).accepted.length > 1000 :=
  ⟨fun _ _ => rfl, Toy.good_facts.2⟩

example : (runCalls Toy.env Toy.shortSock [.handshake 1] (.new Toy.client0)).accepted ≠
    wire (runCalls Toy.env Toy.shortSock [.handshake 1] (.new Toy.client0)).conn.tr := fun h =>
  Toy.short_facts.2 (h ▸ Toy.short_facts.1)

/-! ## C65 -/

/-- C65: on any socket, after any calls, raising or not, what `read` returned followed by what the
connection still holds is exactly the application data received, in order. -/
theorem C65_read {config : Config} {hostname ocsp algs random} {c : Conn}
    (hc : Conn.new config hostname ocsp algs random = .ok c) (xs : List Call) :
    readBack E S xs (.new c) ++ (runCalls E S xs (.new c)).conn.applicationData =
      deliveredData (runCalls E S xs (.new c)).conn.tr := by
  have key : ∀ (xs : List Call) (R : Bytes) (w : Wrapped), Pending R w →
      Pending (R ++ readBack E S xs w) (runCalls E S xs w) := by
    intro xs
    induction xs with
    | nil => intro R w h; rw [readBack, List.append_nil]; exact h
    | cons x xs ih =>
      intro R w h
      rw [readBack, ← List.append_assoc]
      exact ih _ _ (call_pending x w h)
  have hf := Conn.new_fresh hc
  refine key xs [] (.new c) ?_
  show [] ++ c.applicationData = deliveredData c.tr
  rw [hf.2.2.2.2.2.2.2.1, hf.2.2.2.2.2.2.2.2.1]
  rfl

/-! ## C66 -/

/-- C66, full statement: `do_handhskake` only returns (rather than raises) with a connection ready
for application data. False: `C66_false`. -/
def C66_statement (E : Env) : Prop :=
  ∀ (S : Sock) (config : Config) hostname ocsp algs random (c : Conn) (n : Nat) (w' : Wrapped),
    Conn.new config hostname ocsp algs random = .ok c →
    doHandshake E S n (.new c) = (.ok (), w') → w'.conn.state.isConnected = true

/-- C66, what holds: it only returns once the handshake is over, one way or another. Missing: that
it succeeded. -/
theorem C66_partial (n : Nat) (w w' : Wrapped) (h : doHandshake E S n w = (.ok (), w')) :
    w'.conn.state.isPostHandshake = true := by
  unfold doHandshake at h
  rw [W.bind_def] at h
  rcases h1 : W.call E .initiate w with ⟨r, w1⟩
  rw [h1] at h
  cases r with
  | error e => cases h
  | ok a =>
    dsimp only at h
    rw [W.bind_def] at h
    rcases h2 : sendHello E S w1 with ⟨r, w2⟩
    rw [h2] at h
    cases r with
    | error e => cases h
    | ok a => exact handshakeLoop_post n _ _ h

/-- C66, why: when the peer hangs up during the handshake the loop returns normally, the
connection being failed; the caller is not told. -/
theorem C66_eof (n : Nat) (w : Wrapped) (hw : w.conn.state.isPostHandshake = false)
    (he : ∀ m, S.recv w.nrecv m = .ok []) :
    ∃ w', handshakeLoop E S (n + 1) w = (.ok (), w') ∧ w'.conn.state = .failed := by
  have hs : (Op.run E .closeRecv w.conn).2 = { w.conn with state := .failed } := by
    rw [Op.run, wrap_snd]
    unfold closeReceivingEnd
    cases h : w.conn.state <;> rw [h] at hw <;> first | rfl | cases hw
  refine ⟨{ w with nrecv := w.nrecv + 1, conn := { w.conn with state := .failed } }, ?_, rfl⟩
  unfold handshakeLoop
  rw [if_neg (by rw [hw]; exact Bool.false_ne_true), W.bind_def]
  unfold W.recv
  rw [he]
  dsimp only
  rw [if_pos List.isEmpty_nil, W.bind_def]
  unfold W.call
  rw [closeRecv_ok]
  dsimp only
  rw [hs]
  cases n with
  | zero => unfold handshakeLoop; rfl
  | succ n => unfold handshakeLoop; rfl

namespace Toy

set_option maxRecDepth 1000000

/-- the peer hangs up at once -/
def deadSock : Sock where
  recv := fun _ _ => .ok []
  send := fun _ b => .ok b.length

theorem dead_facts : ∃ w', doHandshake env deadSock 3 (.new client0) = (.ok (), w') ∧
    w'.conn.state = .failed := by
  have h : (doHandshake env deadSock 3 (.new client0)).1 = .ok () ∧
    (doHandshake env deadSock 3 (.new client0)).2.conn.state = .failed := by decide +kernel
  generalize doHandshake env deadSock 3 (.new client0) = x at h
  obtain ⟨r, w'⟩ := x
  obtain ⟨rfl, h⟩ := h
  exact ⟨w', rfl, h⟩

end Toy

/-- C66 is false. -/
theorem C66_false : ¬ C66_statement Toy.env := by
  intro h
  obtain ⟨w', h1, h2⟩ := Toy.dead_facts
  have := h Toy.deadSock _ _ _ _ _ _ 3 w' Toy.client0_new h1
  rw [h2] at this
  cases this

example : (doHandshake Toy.env Toy.goodSock 5 (.new Toy.client0)).1 = .ok () := by
  set_option maxRecDepth 1000000 in decide +kernel

/-! ## C67 -/

/-- C67: once a `recv` said end of file, the method that called it calls `recv` no more. -/
theorem C67_eof {i : Nat} (he : ∀ m, S.recv i m = .ok []) (x : Call) (w : Wrapped)
    (hw : w.nrecv ≤ i) : (x.run E S w).2.nrecv ≤ i + 1 := by
  have plain : ∀ {α} {m : W α}, (m w).2.nrecv ≤ i + 1 →
      ((do let _ ← m; pure [] : W Bytes) w).2.nrecv ≤ i + 1 := by
    intro α m h
    rw [W.bind_def]
    rcases hm : m w with ⟨r, w'⟩
    rw [hm] at h
    cases r <;> exact h
  have send : ∀ (b : Bytes) (w : Wrapped), (W.send S b w).2.nrecv = w.nrecv := by
    intro b w; unfold W.send; split <;> rfl
  cases x with
  | handshake n =>
    refine plain ?_
    unfold doHandshake
    rw [W.bind_def]
    rcases h1 : W.call E .initiate w with ⟨r, w1⟩
    have e1 : w1.nrecv = w.nrecv := (congrArg (fun x => x.2.nrecv) h1).symm
    cases r with
    | error e => show w1.nrecv ≤ _; omega
    | ok a =>
      dsimp only
      rw [W.bind_def]
      have e2 : (sendHello E S w1).2.nrecv = w1.nrecv := by
        unfold sendHello
        split
        · rw [W.bind_def]; exact send _ _
        · rfl
      rcases h2 : sendHello E S w1 with ⟨r, w2⟩
      rw [h2] at e2
      dsimp only at e2
      cases r with
      | error e => show w2.nrecv ≤ _; omega
      | ok a => exact handshakeLoop_eof he n w2 (by omega)
  | read n => exact readLoop_eof he n _ _ hw
  | write d =>
    refine plain ?_
    unfold wrapWrite
    rw [W.bind_def]
    rcases h1 : W.call E (.send d) w with ⟨r, w1⟩
    have e1 : w1.nrecv = w.nrecv := (congrArg (fun x => x.2.nrecv) h1).symm
    cases r with
    | error e => show w1.nrecv ≤ _; omega
    | ok a =>
      dsimp only
      rw [W.bind_def]
      show (W.send S _ _).2.nrecv ≤ _
      rw [send]
      show w1.nrecv ≤ _
      omega
  | close =>
    refine plain ?_
    unfold wrapClose
    rw [W.bind_def]
    rcases h1 : W.call E .closeSend w with ⟨r, w1⟩
    have e1 : w1.nrecv = w.nrecv := (congrArg (fun x => x.2.nrecv) h1).symm
    cases r with
    | error e => show w1.nrecv ≤ _; omega
    | ok a =>
      show (flush E S w1).2.nrecv ≤ _
      rw [flush_nrecv]
      omega

example : ∀ m, Toy.goodSock.recv 1 m = .ok [] := fun _ => rfl

end Siotls
