import Verif.Proofs.Completion
import Verif.Proofs.Wrapper
import Verif.Spec.Sockets
/-!
# The loops of the wrapper over pieces that arrive
-/

namespace Siotls
open Spec

variable {E : Env} {S : Sock}

theorem _root_.Siotls.Spec.Carries.head {n : Nat} {x : Bytes} {xs : List Bytes} (h : Carries S n (x :: xs))
    (m : Nat) : S.recv n m = .ok x := h.pieces 0 x rfl m

theorem _root_.Siotls.Spec.Carries.tail {n : Nat} {x : Bytes} {xs : List Bytes} (h : Carries S n (x :: xs)) :
    Carries S (n + 1) xs :=
  ⟨h.greedy, fun i y hy m => by
    have := h.pieces (i + 1) y (by simpa using hy) m
    rwa [show n + (i + 1) = n + 1 + i by omega] at this⟩

theorem _root_.Siotls.Spec.Carries.drop {xs : List Bytes} {ys : List Bytes} : ∀ {n : Nat},
    Carries S n (xs ++ ys) → Carries S (n + xs.length) ys := by
  induction xs with
  | nil => exact fun h => h
  | cons x xs ih =>
    intro n h
    have := ih (n := n + 1) h.tail
    rwa [show n + 1 + xs.length = n + (x :: xs).length by simp; omega] at this

/-- the wrapper holds the connection `c`, of which it passed on the output `o` -/
structure Mirrors (w : Wrapped) (o : Bytes) (c : Conn) : Prop where
  conn : c = w.conn.frame [] o [] []
  flushed : w.conn.outputData = []

theorem Mirrors.state {w : Wrapped} {o : Bytes} {c : Conn} (h : Mirrors w o c) : w.conn.state = c.state := by
  rw [h.conn]; rfl

theorem Mirrors.output {w : Wrapped} {o : Bytes} {c : Conn} (h : Mirrors w o c) : c.outputData = o := by
  rw [h.conn]
  show o ++ w.conn.outputData = o
  rw [h.flushed, List.append_nil]

theorem Mirrors.drained {w : Wrapped} {o : Bytes} {c : Conn} (h : Mirrors w o c) :
    w.conn = (Op.drain.run E c).2 := by
  obtain ⟨h1, h2⟩ := h
  show w.conn = { c with outputData := [] }
  rw [h1]
  obtain ⟨⟨⟩, _⟩ := w
  cases h2
  simp [Conn.frame]

theorem mirrors_drain (w : Wrapped) (c : Conn) (h : w.conn = (Op.drain.run E c).2) :
    Mirrors w c.outputData c := by
  refine ⟨?_, by rw [h]; rfl⟩
  rw [h]
  cases c
  simp [Conn.frame, Op.run, dataToSend, M.bind_def, M.get, M.modify]


theorem flush_greedy (hS : Greedy S) (w : Wrapped) : ∃ w', flush E S w = (.ok (), w') ∧
    w'.conn = { w.conn with outputData := [] } ∧ w'.accepted = w.accepted ++ w.conn.outputData ∧
    w'.nrecv = w.nrecv := by
  rw [flush_eq]
  split
  · rename_i h
    exact ⟨_, rfl, rfl, by rw [List.isEmpty_iff.mp h, List.append_nil], rfl⟩
  · rw [W.bind_def]
    show ∃ w', W.send S w.conn.outputData { w with conn := { w.conn with outputData := [] } } = _ ∧ _
    unfold W.send
    rw [hS]
    exact ⟨_, rfl, rfl, by rw [List.take_length], rfl⟩

theorem takeIn_greedy (hS : Greedy S) {w : Wrapped} {o x : Bytes} {c c' : Conn} (h : Mirrors w o c)
    (hr : receiveData E x c = (.ok (), c')) : ∃ w' p, takeIn E S x w = (.ok [], w') ∧ Mirrors w' (o ++ p) c' ∧
      w'.accepted = w.accepted ++ p ∧ w'.nrecv = w.nrecv := by
  obtain ⟨hc, ho⟩ := h
  rw [hc, framed0_receiveData] at hr
  rcases hw : receiveData E x w.conn with ⟨r, d⟩
  rw [hw] at hr
  cases hr
  have hcall : W.call E (.receive x) w = (.ok [], { w with conn := d }) := by
    unfold W.call
    have : (Op.receive x).run E w.conn = (.ok [], d) := by
      show (receiveData E x >>= fun _ => pure []) w.conn = _
      rw [M.bind_def, hw]; rfl
    rw [this]
  obtain ⟨w', h1, h2, h3, h4⟩ := flush_greedy (E := E) hS { w with conn := d }
  refine ⟨w', d.outputData, ?_, ⟨?_, by rw [h2]⟩, h3, h4⟩
  · unfold takeIn W.finally_
    rw [hcall]
    dsimp only
    rw [h1]
  · rw [h2]
    simp [Conn.frame]

/-- the pieces that arrive before the end of the handshake are received one after the other -/
theorem handshakeLoop_feed : ∀ (xs : List Bytes) {w : Wrapped} {o : Bytes} {c c' : Conn},
    Mirrors w o c → (∀ x ∈ xs, x ≠ []) → Carries S w.nrecv xs → feed E xs c = (.ok (), c') →
    (∀ ys zs d, xs = ys ++ zs → zs ≠ [] → feed E ys c = (.ok (), d) → d.state.isPostHandshake = false) →
    ∃ w' p, (∀ k, handshakeLoop E S (xs.length + k) w = handshakeLoop E S k w') ∧ Mirrors w' (o ++ p) c' ∧
      w'.accepted = w.accepted ++ p ∧ w'.nrecv = w.nrecv + xs.length := by
  intro xs
  induction xs with
  | nil =>
    intro w o c c' hm _ _ hf _
    cases hf
    exact ⟨w, [], by simp, by simpa using hm, by simp, rfl⟩
  | cons x xs ih =>
    intro w o c c' hm hx hS hf hp
    have h0 : w.conn.state.isPostHandshake = false := by
      rw [hm.state]
      exact hp [] (x :: xs) c rfl (by simp) rfl
    rw [feed] at hf
    rcases hr : receiveData E x c with ⟨r, d⟩
    rw [hr] at hf
    cases r with
    | error e => cases hf
    | ok u =>
    dsimp only at hf
    have hm' : Mirrors { w with nrecv := w.nrecv + 1 } o c := ⟨hm.conn, hm.flushed⟩
    obtain ⟨w₁, p, h1, h2, h3, h4⟩ := takeIn_greedy hS.greedy hm' hr
    dsimp only at h3 h4
    obtain ⟨w₂, q, h5, h6, h7, h8⟩ := ih h2 (fun y hy => hx y (by simp [hy])) (by rw [h4]; exact hS.tail) hf
      (by
        intro ys zs e he hz hy
        refine hp (x :: ys) zs e (by rw [he]; rfl) hz ?_
        rw [feed, hr]
        exact hy)
    refine ⟨w₂, p ++ q, ?_, by rw [← List.append_assoc]; exact h6, ?_, ?_⟩
    · intro k
      rw [show (x :: xs).length + k = (xs.length + k) + 1 by simp; omega, handshakeLoop]
      dsimp only
      rw [h0, if_neg (by simp), W.bind_def]
      unfold W.recv
      rw [hS.head]
      dsimp only
      have he : x.isEmpty = false := by cases x; exact absurd rfl (hx _ (by simp)); rfl
      rw [he]
      simp only [Bool.false_eq_true, if_false]
      rw [W.bind_def, h1]
      exact h5 k
    · rw [h7, h3, List.append_assoc]
    · rw [h8, h4, List.length_cons]; omega

theorem handshakeLoop_stop (k : Nat) {w : Wrapped} (h : w.conn.state.isPostHandshake = true) :
    handshakeLoop E S k w = (.ok (), w) := by
  cases k <;> rw [handshakeLoop] <;> simp [h]

theorem handshakeLoop_block {w : Wrapped} (h : w.conn.state.isPostHandshake = false) :
    handshakeLoop E S 0 w = (.error .fuel, w) := by
  rw [handshakeLoop]; simp [h]

theorem doHandshake_client (hS : Greedy S) {c c' : Conn} (h : Op.initiate.run E c = (.ok [], c'))
    (hside : c'.config.side = .client) (k : Nat) :
    doHandshake E S k (.new c) = handshakeLoop E S k ⟨(Op.drain.run E c').2, 0, 1, c'.outputData⟩ := by
  unfold doHandshake
  rw [W.bind_def]
  unfold W.call Wrapped.new
  dsimp only
  rw [h]
  dsimp only
  rw [W.bind_def]
  unfold sendHello
  dsimp only
  rw [hside]
  dsimp only
  have : (W.call E .drain >>= W.send S) ⟨c', 0, 0, []⟩ =
      (.ok (), ⟨(Op.drain.run E c').2, 0, 1, c'.outputData⟩) := by
    rw [W.bind_def]
    show W.send S c'.outputData ⟨(Op.drain.run E c').2, 0, 0, []⟩ = _
    unfold W.send
    rw [hS]
    simp
  rw [this]

theorem doHandshake_server {c c' : Conn} (h : Op.initiate.run E c = (.ok [], c'))
    (hside : c'.config.side = .server) (k : Nat) :
    doHandshake E S k (.new c) = handshakeLoop E S k ⟨c', 0, 0, []⟩ := by
  unfold doHandshake
  rw [W.bind_def]
  unfold W.call Wrapped.new
  dsimp only
  rw [h]
  dsimp only
  rw [W.bind_def]
  unfold sendHello
  dsimp only
  rw [hside]

/-- fewer turns than pieces: the loop waits -/
theorem handshakeLoop_waits {xs : List Bytes} {w : Wrapped} {o : Bytes} {c c' : Conn} (hm : Mirrors w o c)
    (hx : ∀ x ∈ xs, x ≠ []) (hS : Carries S w.nrecv xs) (hf : feed E xs c = (.ok (), c'))
    (hp : ∀ ys zs d, xs = ys ++ zs → zs ≠ [] → feed E ys c = (.ok (), d) → d.state.isPostHandshake = false)
    {j : Nat} (hj : j < xs.length) : (handshakeLoop E S j w).1 = .error .fuel := by
  have hx' : xs = xs.take j ++ xs.drop j := (List.take_append_drop j xs).symm
  have hz : xs.drop j ≠ [] := by
    intro h
    have := congrArg List.length h
    simp at this
    omega
  rcases hy : feed E (xs.take j) c with ⟨r, d⟩
  cases r with
  | error e =>
    rw [hx', feed_append, hy] at hf
    cases hf
  | ok u =>
  have hl : (xs.take j).length = j := by simp; omega
  obtain ⟨w', p, h1, h2, -⟩ := handshakeLoop_feed (S := S) (xs.take j) hm
    (fun x h => hx x (List.mem_of_mem_take h))
    ⟨hS.greedy, fun i x h m => hS.pieces i x (by
      rw [hx', List.getElem?_append_left (by
        have := (List.getElem?_eq_some_iff.mp h).1
        exact this)]
      exact h) m⟩ hy
    (fun ys zs e he hn hd => hp ys (zs ++ xs.drop j) e (by rw [← List.append_assoc, ← he]; exact hx')
      (by simp [hn]) hd)
  simp only [hl] at h1
  rw [show j = j + 0 from rfl, h1 0, handshakeLoop_block (by rw [h2.state]; exact hp _ _ _ hx' hz hy)]

/-- what `Waits` says of a cut -/
theorem waits_cut {d : Bytes} {c : Conn} (h : Waits E d c) {xs : List Bytes} (hx : Cuts xs d) :
    ∀ ys zs e, xs = ys ++ zs → zs ≠ [] → feed E ys c = (.ok (), e) → e.state.isPostHandshake = false := by
  intro ys zs e he hz hy
  obtain ⟨z, zs', rfl⟩ := List.exists_cons_of_ne_nil hz
  have hmem : ∀ x ∈ ys ++ z :: zs', x ≠ [] := he ▸ hx.2.2
  obtain ⟨c', h1, h2⟩ := h ys (z :: zs').flatten (fun x hx => hmem x (by simp [hx]))
    (by
      have := hmem z (by simp)
      simp [this])
    (by rw [← List.flatten_append, ← he]; exact hx.1)
  rw [h1] at hy
  cases hy
  exact h2

end Siotls
