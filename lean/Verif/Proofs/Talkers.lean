import Verif.Proofs.Sockets
import Verif.Proofs.Truncation
import Verif.Spec.Talkers
/-!
# The calls of the wrapper as moves of the connection
-/

namespace Siotls
open Spec

variable {E E' : Env}

/-- the moves a call makes -/
def Spec.Act.deeds : Act → List Deed
  | .write d => [.talk (.send d), .talk .drain]
  | .read n => [.talk (.deliver n), .talk .drain, .talk .read]
  | .close => [.close, .talk .drain]

/-- the moves of one end -/
def plays (E : Env) : List Deed → Party → Party → List (Except Exn Bytes) × Party × Party
  | [], a, b => ([], a, b)
  | d :: ds, a, b =>
    ((d.play E a b).1 :: (plays E ds (d.play E a b).2.1 (d.play E a b).2.2).1,
      (plays E ds (d.play E a b).2.1 (d.play E a b).2.2).2)

theorem encounter_left : ∀ (ds : List Deed) (a b : Party),
    encounter E E' (ds.map fun d => (true, d)) a b = plays E ds a b
  | [], _, _ => rfl
  | d :: ds, a, b => by
    rw [List.map_cons, encounter, plays, encounter_left ds]

theorem encounter_right : ∀ (ds : List Deed) (a b : Party),
    encounter E E' (ds.map fun d => (false, d)) a b =
      ((plays E' ds b a).1, (plays E' ds b a).2.2, (plays E' ds b a).2.1)
  | [], _, _ => rfl
  | d :: ds, a, b => by
    rw [List.map_cons, encounter, plays]
    dsimp only
    rw [encounter_right ds]

/-- the end of a conversation that a wrapped socket is -/
def Spec.Seat.party (s : Seat) : Party := ⟨s.wrap.conn, s.wire, s.wrote, s.got⟩

/-- between two calls the wrapper keeps nothing -/
structure Idle (s : Seat) : Prop where
  app : s.wrap.conn.applicationData = []
  out : s.wrap.conn.outputData = []

theorem greedy_pipe (x : Bytes) : Greedy (pipe x) := fun _ _ => rfl

theorem after_wire (s : Seat) (w : Wrapped) (p : Bytes) (h : w.accepted = s.wrap.accepted ++ p) :
    (s.after w).wire = s.wire ++ p := by
  unfold Seat.after
  rw [h, List.drop_left]

/-- what `write` does when `send_data` returns -/
theorem write_pipe (S : Sock) (hS : Greedy S) {w : Wrapped} {d : Bytes} {c : Conn}
    (h : (Op.send d).run E w.conn = (.ok [], c)) :
    (Call.write d).run E S w = (.ok [], ⟨{ c with outputData := [] }, w.nrecv, w.nsend + 1,
      w.accepted ++ c.outputData⟩) := by
  show (wrapWrite E S d >>= fun _ => pure []) w = _
  rw [W.bind_def]
  have h1 : W.call E (.send d) w = (.ok [], { w with conn := c }) := by
    unfold W.call
    rw [h]
  have h2 : (W.call E .drain >>= W.send S) { w with conn := c } =
      (.ok (), ⟨{ c with outputData := [] }, w.nrecv, w.nsend + 1, w.accepted ++ c.outputData⟩) := by
    rw [W.bind_def]
    show W.send S c.outputData ⟨{ c with outputData := [] }, w.nrecv, w.nsend, w.accepted⟩ = _
    unfold W.send
    rw [hS]
    simp
  unfold wrapWrite
  rw [W.bind_def, h1]
  dsimp only
  rw [h2]
  rfl

theorem close_pipe (S : Sock) (hS : Greedy S) {w : Wrapped} {c : Conn} {b : Bytes}
    (h : Op.closeSend.run E w.conn = (.ok b, c)) : ∃ w', Call.close.run E S w = (.ok [], w') ∧
      w'.conn = { c with outputData := [] } ∧ w'.accepted = w.accepted ++ c.outputData ∧
      w'.nrecv = w.nrecv := by
  show ∃ w', (wrapClose E S >>= fun _ => pure []) w = _ ∧ _
  rw [W.bind_def]
  unfold wrapClose
  rw [W.bind_def]
  unfold W.call
  rw [h]
  dsimp only
  obtain ⟨w', h1, h2, h3, h4⟩ := flush_greedy (E := E) hS { w with conn := c }
  rw [h1]
  exact ⟨w', rfl, h2, h3, h4⟩

/-- what `read` does with some bytes from the network -/
theorem read_pipe {x : Bytes} (hx : x ≠ []) {w : Wrapped} {c : Conn}
    (ha : w.conn.applicationData = []) (hs : w.conn.state.isConnected = true)
    (hs' : c.state.isConnected = true)
    (h : (Op.receive x).run E w.conn = (.ok [], c)) : ∃ w', (Call.read 1).run E (pipe x) w =
      (if c.applicationData = [] then .error .fuel else .ok c.applicationData, w') ∧
      w'.conn = { c with outputData := [], applicationData := [] } ∧
      w'.accepted = w.accepted ++ c.outputData ∧ w'.nrecv = w.nrecv + 1 := by
  show ∃ w', wrapRead E (pipe x) 1 w = _ ∧ _
  unfold wrapRead
  rw [W.bind_def]
  have hread : W.call E .read w = (.ok [], w) := by
    unfold W.call
    show (Except.ok w.conn.applicationData, ({ w with conn := { w.conn with applicationData := [] } } : Wrapped)) = _
    rw [ha]
    obtain ⟨⟨⟩, _⟩ := w
    cases ha
    rfl
  rw [hread]
  dsimp only
  rw [readLoop]
  dsimp only
  rw [hs, if_neg (by simp), W.bind_def]
  have he : x.isEmpty = false := by cases x; exact absurd rfl hx; rfl
  have hrecv : W.recv (pipe x) w = (.ok x, { w with nrecv := w.nrecv + 1 }) := rfl
  rw [hrecv]
  dsimp only
  rw [he, if_neg (by simp), W.bind_def]
  have hcall : W.call E (.receive x) { w with nrecv := w.nrecv + 1 } =
      (.ok [], { w with nrecv := w.nrecv + 1, conn := c }) := by
    unfold W.call
    dsimp only
    rw [h]
  obtain ⟨w₁, h1, h2, h3, h4⟩ := flush_greedy (E := E) (greedy_pipe x) { w with nrecv := w.nrecv + 1, conn := c }
  have htake : takeIn E (pipe x) x { w with nrecv := w.nrecv + 1 } = (.ok [], w₁) := by
    unfold takeIn W.finally_
    rw [hcall]
    dsimp only
    rw [h1]
  rw [htake]
  dsimp only
  rw [W.bind_def]
  unfold W.call
  show ∃ w', readLoop E (pipe x) 0 ([] ++ w₁.conn.applicationData)
    { w₁ with conn := { w₁.conn with applicationData := [] } } = _ ∧ _
  rw [readLoop, h2]
  refine ⟨{ w₁ with conn := { c with outputData := [], applicationData := [] } }, ?_, rfl, h3, h4⟩
  dsimp only
  rw [hs', List.nil_append]
  cases c.applicationData <;> rfl


theorem ok_of_unraised {r : Except Exn Bytes} (h : raised r = false) : ∃ b, r = .ok b := by
  cases r with
  | ok b => exact ⟨b, rfl⟩
  | error e => cases h

theorem op_nil {o : Op} (ho : buffering o = false) {c : Conn} (h : raised (o.run E c).1 = false) :
    o.run E c = (.ok [], (o.run E c).2) := by
  have key : ∀ m : M Unit, raised ((do m; pure [] : M Bytes) c).1 = false →
      (do m; pure [] : M Bytes) c = (.ok [], ((do m; pure [] : M Bytes) c).2) := by
    intro m h
    rw [M.bind_def] at h ⊢
    generalize m c = x at *
    obtain ⟨r, c'⟩ := x
    cases r with
    | error e => cases h
    | ok u => rfl
  cases o with
  | read => cases ho
  | drain => cases ho
  | _ => exact key _ h

theorem holds_app (x : Content) : Holds (fun c => c.applicationData = []) (sendContent E x) :=
  holds_send ⟨fun _ _ _ h => h, fun _ _ _ _ _ h => h, fun _ _ h => h⟩ (fun _ _ _ h => h) x

theorem holds_wrap {I : Conn → Prop} {m : M Unit} (h : Holds I m) : Holds I (do m; pure [] : M Bytes) :=
  Holds.bind h fun _ => Holds.pure _

theorem send_app {d : Bytes} {c : Conn} (h : c.applicationData = []) :
    ((Op.send d).run E c).2.applicationData = [] :=
  holds_wrap (I := fun c => c.applicationData = []) (holds_app (E := E) (.applicationData d)) c h

theorem close_app {c : Conn} (h : c.applicationData = []) : (Op.closeSend.run E c).2.applicationData = [] := by
  refine holds_wrap (I := fun c => c.applicationData = []) (m := closeSendingEnd E) ?_ c h
  intro c h
  rw [closeSendingEnd_eq]
  split
  · have := holds_app (E := E) (.alert Iana.warning Iana.closeNotify) { c with state := c.state.closing } h
    generalize sendContent E (.alert Iana.warning Iana.closeNotify) { c with state := c.state.closing } = x at *
    obtain ⟨r, c'⟩ := x
    cases r with
    | error e => exact this
    | ok u => exact this
  · exact h

/-- One call. -/
theorem act_plays (x : Act) (s s' : Seat) (hi : Idle s) (hi' : Idle s')
    (hs : s.wrap.conn.state.isConnected = true)
    (hr : ∀ r ∈ (plays E x.deeds s.party s'.party).1, raised r = false)
    (hs' : (plays E x.deeds s.party s'.party).2.1.conn.state.isConnected = true) :
    Fine (x, (x.play E s s').1) ∧
      (x.play E s s').2.1.party = (plays E x.deeds s.party s'.party).2.1 ∧
      (x.play E s s').2.2.party = (plays E x.deeds s.party s'.party).2.2 ∧
      Idle (x.play E s s').2.1 ∧ Idle (x.play E s s').2.2 := by
  cases x with
  | write d =>
    have hc := op_nil (E := E) (o := .send d) rfl (c := s.wrap.conn) (hr _ List.mem_cons_self)
    have ha := send_app (E := E) (d := d) hi.app
    have hw := write_pipe (pipe []) (greedy_pipe []) hc
    generalize hg : ((Op.send d).run E s.wrap.conn).2 = c at *
    have hwire := after_wire s ⟨{ c with outputData := [] }, s.wrap.nrecv, s.wrap.nsend + 1,
      s.wrap.accepted ++ c.outputData⟩ _ rfl
    have e1 : plays E (Act.write d).deeds s.party s'.party = ([((Op.send d).run E s.wrap.conn).1,
        .ok c.outputData], ⟨{ c with outputData := [] }, s.wire ++ c.outputData, s.wrote ++ d, s.got⟩, s'.party) := by
      rw [← hg]; rfl
    have e2 : (Act.write d).play E s s' = (.ok [], { s.after ⟨{ c with outputData := [] }, s.wrap.nrecv,
        s.wrap.nsend + 1, s.wrap.accepted ++ c.outputData⟩ with wrote := s.wrote ++ d }, s') := by
      show (((Call.write d).run E (pipe []) s.wrap).1, _, _) = _
      rw [hw]
    rw [e1, e2]
    refine ⟨rfl, ?_, rfl, ⟨ha, rfl⟩, hi'⟩
    unfold Seat.party
    dsimp only
    rw [hwire]
    rfl
  | close =>
    have hc := op_nil (E := E) (o := .closeSend) rfl (c := s.wrap.conn) (hr _ List.mem_cons_self)
    have ha := close_app (E := E) hi.app
    obtain ⟨w, hw, h2, h3, h4⟩ := close_pipe (pipe []) (greedy_pipe []) hc
    generalize hg : (Op.closeSend.run E s.wrap.conn).2 = c at *
    have hwire := after_wire s w _ h3
    have e1 : plays E Act.close.deeds s.party s'.party = ([(Op.closeSend.run E s.wrap.conn).1,
        .ok c.outputData], ⟨{ c with outputData := [] }, s.wire ++ c.outputData, s.wrote, s.got⟩, s'.party) := by
      rw [← hg]; rfl
    have e2 : Act.close.play E s s' = (.ok [], s.after w, s') := by
      show ((Call.close.run E (pipe []) s.wrap).1, _, _) = _
      rw [hw]
    rw [e1, e2]
    refine ⟨rfl, ?_, rfl, ⟨?_, ?_⟩, hi'⟩
    · unfold Seat.party
      rw [hwire]
      show (⟨w.conn, _, _, _⟩ : Party) = _
      rw [h2]
      rfl
    · show w.conn.applicationData = []
      rw [h2]; exact ha
    · show w.conn.outputData = []
      rw [h2]
  | read n =>
    by_cases hx : s'.wire.take n = []
    · have e2 : (Act.read n).play E s s' = (.error .fuel, s, s') := by
        unfold Act.play
        dsimp only
        rw [if_pos hx]
      have e0 : (Deed.talk (.deliver n)).play E s.party s'.party = (.ok [], s.party, s'.party) := by
        show (Move.deliver n).play E s.party s'.party = _
        unfold Move.play
        exact if_pos hx
      have e1 : (plays E (Act.read n).deeds s.party s'.party).2 =
          (⟨{ s.wrap.conn with outputData := [], applicationData := [] }, s.wire ++ s.wrap.conn.outputData, s.wrote,
            s.got ++ s.wrap.conn.applicationData⟩, s'.party) := by
        unfold Act.deeds
        rw [plays, e0]
        rfl
      have e3 : ({ s.wrap.conn with outputData := [], applicationData := [] } : Conn) = s.wrap.conn := by
        obtain ⟨h1, h2⟩ := hi
        generalize s.wrap.conn = c at h1 h2 ⊢
        cases c
        cases h1
        cases h2
        rfl
      rw [e2, e1, e3, hi.app, hi.out, List.append_nil, List.append_nil]
      exact ⟨.inl rfl, rfl, rfl, hi, hi'⟩
    · have e0 : (Deed.talk (.deliver n)).play E s.party s'.party =
          (((Op.receive (s'.wire.take n)).run E s.wrap.conn).1,
            { s.party with conn := ((Op.receive (s'.wire.take n)).run E s.wrap.conn).2 },
            { s'.party with wire := s'.wire.drop n }) := by
        show (Move.deliver n).play E s.party s'.party = _
        unfold Move.play
        exact if_neg hx
      unfold Act.deeds at hr hs' ⊢
      rw [plays, e0] at hr hs' ⊢
      have hc := op_nil (E := E) (o := .receive (s'.wire.take n)) rfl (c := s.wrap.conn) (hr _ List.mem_cons_self)
      generalize hg : ((Op.receive (s'.wire.take n)).run E s.wrap.conn).2 = c at *
      have hs' : c.state.isConnected = true := hs'
      obtain ⟨w, hw, h2, h3, h4⟩ := read_pipe (E := E) hx hi.app hs hs' hc
      have hwire := after_wire s w _ h3
      have e2 : (Act.read n).play E s s' = (if c.applicationData = [] then .error .fuel else .ok c.applicationData,
          { s.after w with got := s.got ++ c.applicationData }, { s' with wire := s'.wire.drop n }) := by
        unfold Act.play
        dsimp only
        have hne : ¬ w.nrecv = s.wrap.nrecv := by omega
        rw [if_neg hx, hw]
        dsimp only
        rw [if_neg hne]
        by_cases hn : c.applicationData = []
        · rw [if_pos hn, hn]; rfl
        · rw [if_neg hn]; rfl
      rw [e2]
      refine ⟨?_, ?_, rfl, ⟨?_, ?_⟩, ⟨hi'.app, hi'.out⟩⟩
      · by_cases hn : c.applicationData = []
        · exact .inl (if_pos hn)
        · exact .inr ⟨_, hn, if_neg hn⟩
      · unfold Seat.party
        dsimp only
        rw [hwire]
        show (⟨w.conn, _, _, _⟩ : Party) = _
        rw [h2]
        rfl
      · show w.conn.applicationData = []
        rw [h2]
      · show w.conn.outputData = []
        rw [h2]


/-- the moves behind a list of calls -/
def deedsOf (xs : List (Bool × Act)) : List (Bool × Deed) :=
  xs.flatMap fun x => x.2.deeds.map fun d => (x.1, d)

theorem exchange_append : ∀ (xs ys : List (Bool × Act)) (a b : Seat), exchange E E' (xs ++ ys) a b =
    ((exchange E E' xs a b).1 ++ (exchange E E' ys (exchange E E' xs a b).2.1 (exchange E E' xs a b).2.2).1,
      (exchange E E' ys (exchange E E' xs a b).2.1 (exchange E E' xs a b).2.2).2)
  | [], _, _, _ => rfl
  | (true, x) :: xs, ys, a, b => by
    rw [List.cons_append, exchange, exchange]
    dsimp only
    rw [exchange_append xs ys]
    rfl
  | (false, x) :: xs, ys, a, b => by
    rw [List.cons_append, exchange, exchange]
    dsimp only
    rw [exchange_append xs ys]
    rfl

/-- two wrapped sockets do what the two ends of the conversation do -/
theorem exchange_deeds {a b : Seat} (ha : Idle a) (hb : Idle b) (xs : List (Bool × Act))
    (hr : ∀ r ∈ (encounter E E' (deedsOf xs) a.party b.party).1, raised r = false)
    (hs : ∀ ys zs, xs = ys ++ zs →
      (encounter E E' (deedsOf ys) a.party b.party).2.1.conn.state.isConnected = true ∧
      (encounter E E' (deedsOf ys) a.party b.party).2.2.conn.state.isConnected = true) :
    (∀ r ∈ (exchange E E' xs a b).1, Fine r) ∧
      (exchange E E' xs a b).2.1.party = (encounter E E' (deedsOf xs) a.party b.party).2.1 ∧
      (exchange E E' xs a b).2.2.party = (encounter E E' (deedsOf xs) a.party b.party).2.2 ∧
      Idle (exchange E E' xs a b).2.1 ∧ Idle (exchange E E' xs a b).2.2 := by
  induction xs using List.reverseRecOn with
  | nil => exact ⟨by simp [exchange], rfl, rfl, ha, hb⟩
  | append_singleton xs x ih =>
    have hd : deedsOf (xs ++ [x]) = deedsOf xs ++ x.2.deeds.map fun d => (x.1, d) := by
      simp [deedsOf]
    have hlast := hs (xs ++ [x]) [] (by simp)
    have hmid := hs xs [x] rfl
    rw [hd, encounter_append] at hr hlast ⊢
    obtain ⟨h1, h2, h3, h4, h5⟩ := ih (fun r hm => hr r (List.mem_append_left _ hm))
      (fun ys zs h => hs ys (zs ++ [x]) (by rw [h, List.append_assoc]))
    rw [exchange_append]
    generalize exchange E E' xs a b = t at *
    generalize encounter E E' (deedsOf xs) a.party b.party = e at *
    obtain ⟨rs, s, s'⟩ := t
    obtain ⟨es, p, p'⟩ := e
    dsimp only at *
    subst h2 h3
    obtain ⟨side, x⟩ := x
    cases side with
    | true =>
      dsimp only at hr hlast ⊢
      rw [encounter_left] at hr hlast ⊢
      obtain ⟨g1, g2, g3, g4, g5⟩ := act_plays x s s' h4 h5 hmid.1
        (fun r hm => hr r (List.mem_append_right _ hm)) hlast.1
      refine ⟨fun r hm => ?_, g2, g3, g4, g5⟩
      rcases List.mem_append.mp hm with hm | hm
      · exact h1 r hm
      · cases List.mem_singleton.mp hm
        exact g1
    | false =>
      dsimp only at hr hlast ⊢
      rw [encounter_right] at hr hlast ⊢
      obtain ⟨g1, g2, g3, g4, g5⟩ := act_plays x s' s h5 h4 hmid.2
        (fun r hm => hr r (List.mem_append_right _ hm)) hlast.2
      refine ⟨fun r hm => ?_, g3, g2, g5, g4⟩
      rcases List.mem_append.mp hm with hm | hm
      · exact h1 r hm
      · cases List.mem_singleton.mp hm
        exact g1

theorem mem_deedsOf {xs : List (Bool × Act)} {s : Bool} {d : Deed} (h : (s, d) ∈ deedsOf xs) :
    ∃ x, (s, x) ∈ xs ∧ d ∈ x.deeds := by
  simp only [deedsOf, List.mem_flatMap, List.mem_map, Prod.mk.injEq, Prod.exists] at h
  obtain ⟨s', x, h1, d', h2, rfl, rfl⟩ := h
  exact ⟨x, h1, h2⟩

theorem says_deedsOf (side : Bool) : ∀ xs : List (Bool × Act), saysBy side (deedsOf xs) =
    (xs.filter fun x => x.1 == side && x.2 matches .write _).length := by
  intro xs
  induction xs with
  | nil => rfl
  | cons x xs ih =>
    have e : deedsOf (x :: xs) = (x.2.deeds.map fun d => (x.1, d)) ++ deedsOf xs := by simp [deedsOf]
    unfold saysBy at ih ⊢
    rw [e, List.filter_append, List.length_append, ih, List.filter_cons]
    obtain ⟨s, x⟩ := x
    cases x <;> cases s <;> cases side <;> simp [Act.deeds] <;> omega

theorem polite_talk {side : Bool} {s : Bool} {m : Move} {ms : List (Bool × Deed)} :
    Polite side ((s, .talk m) :: ms) = Polite side ms := by rw [Polite]

theorem polite_deedsOf (side : Bool) : ∀ xs : List (Bool × Act), Mannered side xs → Polite side (deedsOf xs) := by
  intro xs
  induction xs with
  | nil => exact fun _ => trivial
  | cons x xs ih =>
    obtain ⟨s, x⟩ := x
    cases x with
    | write d =>
      intro h
      show Polite side ((s, .talk (.send d)) :: (s, .talk .drain) :: deedsOf xs)
      rw [polite_talk, polite_talk]
      exact ih h
    | read n =>
      intro h
      show Polite side ((s, .talk (.deliver n)) :: (s, .talk .drain) :: (s, .talk .read) :: deedsOf xs)
      rw [polite_talk, polite_talk, polite_talk]
      exact ih h
    | close =>
      rintro ⟨h1, h2⟩
      show Polite side ((s, .close) :: (s, .talk .drain) :: deedsOf xs)
      refine ⟨fun hs d hd hd1 => ?_, ?_⟩
      · rcases List.mem_cons.mp hd with rfl | hd
        · simp
        · obtain ⟨s', d⟩ := d
          obtain ⟨x, hx, hdx⟩ := mem_deedsOf hd
          obtain ⟨n, hn⟩ := h1 hs _ hx hd1
          dsimp only at hn
          subst hn
          simp only [Act.deeds, List.mem_cons, List.not_mem_nil, or_false] at hdx
          rcases hdx with rfl | rfl | rfl <;> simp
      · rw [polite_talk]
        exact ih h2

theorem _root_.Siotls.Spec.Sober.civil {xs : List (Bool × Act)} (h : Sober xs) : Civil (deedsOf xs) := by
  refine ⟨fun side d hm => ?_, fun side => ?_, fun side => polite_deedsOf side xs (h.manners side)⟩
  · obtain ⟨x, hx, hd⟩ := mem_deedsOf hm
    cases x with
    | write d' =>
      simp only [Act.deeds, List.mem_cons, List.not_mem_nil, or_false, Deed.talk.injEq, Move.send.injEq,
        reduceCtorEq] at hd
      subst hd
      exact h.sizes side d hx
    | _ => simp [Act.deeds] at hd
  · have : saysBy side (deedsOf xs) < 10000000 := by
      rw [says_deedsOf]
      exact h.count side
    exact this

theorem mannered_left (side : Bool) : ∀ ys zs : List (Bool × Act), Mannered side (ys ++ zs) → Mannered side ys := by
  intro ys zs
  induction ys with
  | nil => exact fun _ => trivial
  | cons y ys ih =>
    obtain ⟨s, y⟩ := y
    cases y with
    | close => exact fun h => ⟨fun hs x hx => h.1 hs x (List.mem_append_left _ hx), ih h.2⟩
    | _ => exact fun h => ih h

theorem _root_.Siotls.Spec.Sober.left {ys zs : List (Bool × Act)} (h : Sober (ys ++ zs)) : Sober ys := by
  refine ⟨fun s d hm => h.sizes s d (List.mem_append_left _ hm), fun s => ?_,
    fun s => mannered_left s ys zs (h.manners s)⟩
  have := h.count s
  rw [List.filter_append, List.length_append] at this
  exact Nat.lt_of_le_of_lt (Nat.le_add_right _ _) this

/-- wrapped sockets correspond when their connections part well -/
theorem corresponds {a b : Wrapped} (h : Farewell E a.conn E' b.conn) (ha : a.conn.applicationData = [])
    (hb : b.conn.applicationData = []) (hao : a.conn.outputData = []) (hbo : b.conn.outputData = []) :
    Correspond E a E' b := by
  intro xs hx
  obtain ⟨r1, -, -, d1, d2, -, -⟩ := h _ hx.civil
  obtain ⟨g1, g2, g3, g4, g5⟩ := exchange_deeds (E := E) (E' := E') (a := ⟨a, [], [], []⟩) (b := ⟨b, [], [], []⟩)
    ⟨ha, hao⟩ ⟨hb, hbo⟩ xs r1 (fun ys zs hy => by
      obtain ⟨-, s1, s2, -⟩ := h _ (hy ▸ hx).left.civil
      exact ⟨s1, s2⟩)
  change Delivers (encounter E E' (deedsOf xs) (Seat.party ⟨a, [], [], []⟩) (Seat.party ⟨b, [], [], []⟩)).2.1
    (encounter E E' (deedsOf xs) (Seat.party ⟨a, [], [], []⟩) (Seat.party ⟨b, [], [], []⟩)).2.2 at d1
  change Delivers (encounter E E' (deedsOf xs) (Seat.party ⟨a, [], [], []⟩) (Seat.party ⟨b, [], [], []⟩)).2.2
    (encounter E E' (deedsOf xs) (Seat.party ⟨a, [], [], []⟩) (Seat.party ⟨b, [], [], []⟩)).2.1 at d2
  rw [← g2, ← g3] at d1 d2
  have one : ∀ {s s' : Seat}, Idle s → Idle s' → Delivers s.party s'.party →
      s'.got <+: s.wrote ∧ (s.wire = [] → s'.got = s.wrote) := by
    intro s s' hi hi' hd
    have h1 := hd.beginning
    have h2 := hd.everything
    have e : s'.party.got ++ s'.party.conn.applicationData = s'.got := by
      show s'.got ++ s'.wrap.conn.applicationData = _
      rw [hi'.app, List.append_nil]
    rw [e] at h1 h2
    exact ⟨h1, fun hw => h2 hi.out hw⟩
  exact ⟨g1, one g4 g5 d1, one g5 g4 d2⟩

end Siotls
