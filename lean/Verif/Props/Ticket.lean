import Verif.Proofs.Ticket
import Verif.Props.Lifecycle
/-!
# C106: messages that follow the handshake

RFC 8446 §4.6.1 lets a server send NewSessionTicket messages to any client at any time after the
handshake (a client that has no use for them ignores them), and §4.6.3 lets either peer send
KeyUpdate. The full claim (`C106_statement`) says that a connected endpoint survives them. It is
false of the code, and not only for some messages: whatever handshake message comes once the
handshake is over, `receive_data` raises; for these two the connection fails with decode_error.
-/

namespace Siotls
open Spec Spec.Rfc

variable {E : Env}

/-- C106, the full claim: a connected endpoint that gets a message which RFC 8446 §4.6 allows its
peer to send goes on. False: `C106_false`. -/
def C106_statement (E : Env) : Prop :=
  ∀ {config : Config} {hostname ocsp algs random} {c₀ : Conn},
    Conn.new config hostname ocsp algs random = .ok c₀ → ∀ (ops : List Op),
    (runOps E ops c₀).state = .connected → (runOps E ops c₀).inputData = [] →
    (runOps E ops c₀).inputHandshake = [] → ∀ d m, Delivers E (runOps E ops c₀) d m →
    Posthandshake config.side m →
    (receiveData E d (runOps E ops c₀)).1 = .ok () ∧
      (receiveData E d (runOps E ops c₀)).2.state = .connected

/-- C106: whatever handshake message is read once the handshake is over, in whatever record or
records it comes and whatever else comes in the same call, `receive_data` raises. -/
theorem C106_raises {d : Bytes} {c : Conn} {new : List Ev}
    (ho : c.state = .connected ∨ ∃ r w, c.state = .closed r w)
    (hn : (receiveData E d c).2.tr = new ++ c.tr) {m : Bytes} (hm : Ev.got 22 m ∈ new) :
    ∃ e, (receiveData E d c).1 = .error e := by
  rcases hr : receiveData E d c with ⟨r, c'⟩
  cases r with
  | error e => exact ⟨e, rfl⟩
  | ok u =>
    obtain ⟨_, _, hl, _⟩ := receiveData_ok hr
    obtain ⟨k, _, hw⟩ := while_loop (E := E) _ (c.fed d) (Nat.le_refl _)
    rw [hl] at hw
    obtain ⟨n, h1, h2⟩ := while_over_ok hw rfl ho
    rw [hr] at hn
    have : n = new := List.append_cancel_right (h1.symm.trans hn)
    exact absurd hm (this ▸ h2 m)

/-- C106: a NewSessionTicket or a KeyUpdate read once the handshake is over, in whatever records it
comes, makes `receive_data` raise DecodeError: decode_error is the one alert put in the output, and
the connection has failed. Everywhere in the life of a connection whose sending end is open, as long
as its write key is not worn out. -/
theorem C106_refused (hS : E.Seals) (hO : E.Outside) {config : Config} {hostname ocsp algs random}
    {c₀ : Conn} (hc : Conn.new config hostname ocsp algs random = .ok c₀)
    (hm : config.maxFragmentLength ∈ [512, 1024, 2048, 4096, 16384])
    (hl : ∀ s ∈ config.cipherSuites, Limited s) (ops : List Op) {d : Bytes} (hd : d ≠ [])
    (ho : (runOps E ops c₀).state = .connected ∨ (runOps E ops c₀).state = .closed true true)
    (hk : shouldRekey (receiveData E d (runOps E ops c₀)).2 = .ok false) {new : List Ev}
    (hn : (receiveData E d (runOps E ops c₀)).2.tr = new ++ (runOps E ops c₀).tr)
    {side : Side} {m : Bytes} (hg : Ev.got 22 m ∈ new) (hp : Posthandshake side m) :
    (receiveData E d (runOps E ops c₀)).1 = .error (.alert 50) ∧
    (receiveData E d (runOps E ops c₀)).2.state = .failed ∧
    ∃ out rest, new = out ++ rest ∧ AlertOut E 50 out ∧ sentAlerts rest = [] := by
  have hr : (runOps E ops c₀).state.canReceive = true := by rcases ho with h | h <;> rw [h] <;> rfl
  have hs : (runOps E ops c₀).state.canSend = true := by rcases ho with h | h <;> rw [h] <;> rfl
  have hov : Over (runOps E ops c₀).state := ho.imp id fun h => ⟨_, _, h⟩
  obtain ⟨e, he⟩ := C106_raises hov hn hg
  have he' : receiveData E d (runOps E ops c₀) = (.error e, (receiveData E d (runOps E ops c₀)).2) :=
    Prod.ext he rfl
  have h50 : e = .alert 50 := by
    have hloop := receiveData_raised hd hr he' hk
    obtain ⟨k, _, hw⟩ := while_loop (E := E) _ ((runOps E ops c₀).fed d) (Nat.le_refl _)
    rw [hloop] at hw
    have ha := (AliveInv.fresh hc hl).run (E := E) ops
    have hmf := (MflInv.fresh (E := E) hc hm).run ops
    obtain ⟨n, h1, h2⟩ := while_over_error hS hO hw rfl (c := (runOps E ops c₀).fed d)
      ⟨ha.config, ha.nc, ha.cipher⟩ (hmf.api (G := fun _ => True) (.appended d hr)) hs hov hk
    have hnn : n = new := List.append_cancel_right (h1.symm.trans hn)
    obtain ⟨c₁, c₂, _, hu⟩ := h2 m (hnn ▸ hg)
    obtain ⟨t, body, ht, hb, hlen, rfl⟩ := posthandshake_bodyless hp
    have hdec := decode_bodyless (E := E) c₁.certType ht hb hlen
    unfold useContent at hu
    rw [M.bind_def] at hu
    simp only [M.get] at hu
    rw [M.bind_def, hdec] at hu
    cases hu
    rfl
  subst h50
  obtain ⟨h1, out, rest, h2, h3, h4, _⟩ := C27_partial hS hO hc hm hl ops hd hr hs he' hk
  refine ⟨he, h1, out, rest, ?_, h3, h4⟩
  refine List.append_cancel_right (hn.symm.trans (h2.trans ?_))
  rw [List.append_assoc]

/-- C106: a message in a record of its own is read. -/
theorem C106_heard {c : Conn} {d m : Bytes} {side : Side} (hs : c.state = .connected)
    (hi : c.inputData = []) (hh : c.inputHandshake = []) (h : Delivers E c d m)
    (hp : Posthandshake side m) :
    ∃ new, (receiveData E d c).2.tr = new ++ c.tr ∧ Ev.got 22 m ∈ new :=
  receive_delivered hs hi hh h hp

/-- C106: the full claim fails for every connection, library, history and message: no endpoint
survives. -/
theorem C106_never {c : Conn} {d m : Bytes} {side : Side} (hs : c.state = .connected)
    (hi : c.inputData = []) (hh : c.inputHandshake = []) (h : Delivers E c d m)
    (hp : Posthandshake side m) : ∃ e, (receiveData E d c).1 = .error e := by
  obtain ⟨new, h1, h2⟩ := C106_heard hs hi hh h hp
  exact C106_raises (.inl hs) h1 h2

namespace Toy

set_option maxRecDepth 1000000

/-- a lifetime of a minute, age_add 1, nonce 7, ticket 8 9, no extension -/
def ticket : Bytes := [4, 0, 0, 16, 0, 0, 0, 60, 0, 0, 0, 1, 1, 7, 0, 2, 8, 9, 0, 0]

def keyUpdate : Bytes := [24, 0, 0, 1, 1]

def delivers (c : Conn) (d m : Bytes) : Bool :=
  match c.cipher with
  | none => false
  | some k =>
    match k.rd.key, nextNonce k.info k.rd with
    | some key, .ok (nonce, _) =>
      d == [23, 3, 3] ++ be16 (d.drop 5).length ++ d.drop 5 &&
      decide ((d.drop 5).length < 65536) && decide ((d.drop 5).length ≤ c.mfl + 256) &&
      env.aeadOpen k.info.id key nonce ([23, 3, 3] ++ be16 (d.drop 5).length) (d.drop 5) ==
        some (m ++ [22])
    | _, _ => false

theorem delivers_ok {c : Conn} {d m : Bytes} (h : delivers c d m = true) : Delivers env c d m := by
  unfold delivers at h
  split at h
  · cases h
  · next k hk =>
    split at h
    · next key nonce rd h1 h2 =>
      simp only [Bool.and_eq_true, beq_iff_eq, decide_eq_true_eq] at h
      obtain ⟨⟨⟨h3, h4⟩, h5⟩, h6⟩ := h
      exact ⟨k, key, nonce, rd, d.drop 5, hk, h1, h2, h3, h4, h5, h6⟩
    · cases h

theorem ticket_facts : peaceful.state = .connected ∧ peaceful.inputData = [] ∧
    peaceful.inputHandshake = [] ∧
    delivers peaceful (inject peaceful 22 ticket) ticket = true ∧
    delivers peaceful (inject peaceful 22 keyUpdate) keyUpdate = true ∧
    shouldRekey (receiveData env (inject peaceful 22 ticket) peaceful).2 = .ok false := by
  decide +kernel

theorem ticket_sendable : Posthandshake .client ticket := by
  refine .inl ⟨rfl, 60, 1, [7], [8, 9], [], ticket.drop 4, by decide, ?_, ?_⟩
  · exact ⟨[0, 0, 0, 60], _, ⟨rfl, rfl⟩, ⟨[0, 0, 0, 1], _, ⟨rfl, rfl⟩, ⟨[1, 7], _, ⟨[1], ⟨rfl, rfl⟩, rfl⟩,
      ⟨[0, 2, 8, 9], [0, 0], ⟨[0, 2], ⟨rfl, rfl⟩, rfl⟩, ⟨[0, 0], ⟨rfl, rfl⟩, rfl⟩, rfl⟩, rfl⟩, rfl⟩, rfl⟩
  · exact ⟨[4], _, ⟨rfl, rfl⟩, ⟨[0, 0, 16], ⟨rfl, rfl⟩, rfl⟩, rfl⟩

theorem keyUpdate_sendable (side : Side) : Posthandshake side keyUpdate :=
  .inr ⟨1, [1], by decide, ⟨rfl, rfl⟩, ⟨[24], _, ⟨rfl, rfl⟩, ⟨[0, 0, 1], ⟨rfl, rfl⟩, rfl⟩, rfl⟩⟩

theorem peaceful_run : peaceful = runOps env (clientOps ++ [.drain]) client0 := by
  rw [runOps_append]; unfold peaceful clientDone; rfl

end Toy

/-- The hypotheses of `C106_heard` and `C106_never` are met by the connected toy client, for both
messages. -/
example : Toy.peaceful.state = .connected ∧ Toy.peaceful.inputData = [] ∧
    Toy.peaceful.inputHandshake = [] ∧
    Delivers Toy.env Toy.peaceful (Toy.inject Toy.peaceful 22 Toy.ticket) Toy.ticket ∧
    Delivers Toy.env Toy.peaceful (Toy.inject Toy.peaceful 22 Toy.keyUpdate) Toy.keyUpdate ∧
    Posthandshake .client Toy.ticket ∧ Posthandshake .server Toy.keyUpdate := by
  obtain ⟨h1, h2, h3, h4, h5, _⟩ := Toy.ticket_facts
  exact ⟨h1, h2, h3, Toy.delivers_ok h4, Toy.delivers_ok h5, Toy.ticket_sendable,
    Toy.keyUpdate_sendable _⟩

/-- Those of `C106_raises` and `C106_refused` too. -/
example : ∃ new, (Toy.peaceful.state = .connected ∨ Toy.peaceful.state = .closed true true) ∧
    (receiveData Toy.env (Toy.inject Toy.peaceful 22 Toy.ticket) Toy.peaceful).2.tr =
      new ++ Toy.peaceful.tr ∧ Ev.got 22 Toy.ticket ∈ new ∧
    shouldRekey (receiveData Toy.env (Toy.inject Toy.peaceful 22 Toy.ticket) Toy.peaceful).2 =
      .ok false ∧ Toy.env.Seals ∧ Toy.env.Outside := by
  obtain ⟨h1, h2, h3, h4, _, h6⟩ := Toy.ticket_facts
  obtain ⟨new, h7, h8⟩ := C106_heard h1 h2 h3 (Toy.delivers_ok h4) Toy.ticket_sendable
  exact ⟨new, .inl h1, h7, h8, h6, Toy.seals, Toy.outside⟩

/-- C106: the full claim is false. -/
theorem C106_false : ¬ C106_statement Toy.env := by
  intro h
  obtain ⟨h1, h2, h3, h4, _⟩ := Toy.ticket_facts
  have h4 := Toy.delivers_ok h4
  obtain ⟨e, he⟩ := C106_never h1 h2 h3 h4 Toy.ticket_sendable
  rw [Toy.peaceful_run] at h1 h2 h3 h4 he
  have := (h Toy.client0_new _ h1 h2 h3 _ _ h4 Toy.ticket_sendable).1
  rw [he] at this
  cases this

end Siotls
