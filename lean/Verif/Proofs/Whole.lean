import Verif.Proofs.Talkers
import Verif.Proofs.Farewell
import Verif.Spec.Whole
/-!
# Messages arrive whole
-/

namespace Siotls
open Spec

variable {E E' : Env}

theorem messagesBy_eq (side : Bool) : ∀ ms : List (Bool × Deed), messagesBy side ms = sentBy side ms
  | [] => rfl
  | (s, d) :: ms => by
    have e : messagesBy side ((s, d) :: ms) = (if s = side then d.message else []) ++ messagesBy side ms := rfl
    rw [e, messagesBy_eq side ms]
    rcases d with ⟨_ | _ | _ | _⟩ | _ <;> by_cases h : s = side <;> simp [sentBy, Spec.Deed.message, h]

theorem sentBy_deedsOf (side : Bool) : ∀ xs : List (Bool × Act), sentBy side (deedsOf xs) = writtenBy side xs
  | [] => rfl
  | (s, x) :: xs => by
    have e : deedsOf ((s, x) :: xs) = (x.deeds.map fun d => (s, d)) ++ deedsOf xs := by simp [deedsOf]
    rw [e]
    cases x <;> simp [Act.deeds, sentBy, writtenBy, sentBy_deedsOf side xs]

theorem Leg.begins {info : SuiteInfo} {x y : Party} {ds : List Bytes} {xc yh : Bool}
    (h : Leg E info x y ds xc yh) : Begins (y.got ++ y.conn.applicationData) ds := by
  obtain ⟨k, ks, ks', is, rs, -, -, -, -, -, -, -, -, -, -, -, heard, h1, h2⟩ := h.flow
  exact ⟨heard.length, by rw [h1, List.take_left, h2]⟩

theorem writtenBy_append (side : Bool) : ∀ xs ys : List (Bool × Act),
    writtenBy side (xs ++ ys) = writtenBy side xs ++ writtenBy side ys
  | [], _ => rfl
  | (s, x) :: xs, ys => by
    cases x <;> by_cases h : s = side <;> simp [writtenBy, h, writtenBy_append side xs ys]

/-- the difference of two beginnings -/
theorem among_of {l : List Bytes} {i j : Nat} {x : Bytes}
    (h : (l.take j).flatten = (l.take i).flatten ++ x) : Among x i l := by
  rcases Nat.le_total i j with hij | hij
  · refine ⟨j - i, ?_⟩
    obtain ⟨k, rfl⟩ := Nat.exists_eq_add_of_le hij
    rw [List.take_add, List.flatten_append] at h
    rw [Nat.add_sub_cancel_left]
    exact (List.append_cancel_left h).symm
  · refine ⟨0, ?_⟩
    obtain ⟨k, rfl⟩ := Nat.exists_eq_add_of_le hij
    rw [List.take_add, List.flatten_append, List.append_assoc] at h
    have := congrArg List.length h
    simp only [List.length_append] at this
    exact List.eq_nil_of_length_eq_zero (by omega)

theorem sober_read {xs : List (Bool × Act)} (h : Sober xs) (side : Bool) (n : Nat) :
    Sober (xs ++ [(side, .read n)]) := by
  refine ⟨fun s d hm => ?_, fun s => ?_, fun s => ?_⟩
  · rcases List.mem_append.mp hm with hm | hm
    · exact h.sizes s d hm
    · simp at hm
  · have := h.count s
    rw [List.filter_append, List.length_append]
    simpa using this
  · have := h.manners s
    clear h
    induction xs with
    | nil => trivial
    | cons x xs ih =>
      obtain ⟨s', x⟩ := x
      cases x with
      | close =>
        obtain ⟨h1, h2⟩ := this
        refine ⟨fun hs y hy hys => ?_, ih h2⟩
        rcases List.mem_append.mp hy with hy | hy
        · exact h1 hs y hy hys
        · simp only [List.mem_singleton] at hy
          exact ⟨n, by rw [hy]⟩
      | write => exact ih this
      | read => exact ih this

/-- between calls, what the program of a wrapped socket got -/
theorem exchange_got {a b : Wrapped} (h : Farewell E a.conn E' b.conn) (u : Unbroken E a.conn E' b.conn)
    (ha : a.conn.applicationData = []) (hb : b.conn.applicationData = []) (hao : a.conn.outputData = [])
    (hbo : b.conn.outputData = []) {xs : List (Bool × Act)} (hx : Sober xs) :
    Begins (exchange E E' xs ⟨a, [], [], []⟩ ⟨b, [], [], []⟩).2.2.got (writtenBy true xs) ∧
    Begins (exchange E E' xs ⟨a, [], [], []⟩ ⟨b, [], [], []⟩).2.1.got (writtenBy false xs) := by
  obtain ⟨r1, -⟩ := h _ hx.civil
  obtain ⟨-, g2, g3, g4, g5⟩ := exchange_deeds (E := E) (E' := E') (a := ⟨a, [], [], []⟩) (b := ⟨b, [], [], []⟩)
    ⟨ha, hao⟩ ⟨hb, hbo⟩ xs r1 (fun ys zs hy => by
      obtain ⟨-, s1, s2, -⟩ := h _ (hy ▸ hx).left.civil
      exact ⟨s1, s2⟩)
  obtain ⟨u1, u2⟩ := u _ hx.civil
  change Begins ((encounter E E' (deedsOf xs) (Seat.party ⟨a, [], [], []⟩) (Seat.party ⟨b, [], [], []⟩)).2.2.got ++
    (encounter E E' (deedsOf xs) (Seat.party ⟨a, [], [], []⟩) (Seat.party ⟨b, [], [], []⟩)).2.2.conn.applicationData) _ at u1
  change Begins ((encounter E E' (deedsOf xs) (Seat.party ⟨a, [], [], []⟩) (Seat.party ⟨b, [], [], []⟩)).2.1.got ++
    (encounter E E' (deedsOf xs) (Seat.party ⟨a, [], [], []⟩) (Seat.party ⟨b, [], [], []⟩)).2.1.conn.applicationData) _ at u2
  rw [← g3, sentBy_deedsOf] at u1
  rw [← g2, sentBy_deedsOf] at u2
  have one : ∀ {s : Seat}, Idle s → s.party.got ++ s.party.conn.applicationData = s.got := by
    intro s hi
    show s.got ++ s.wrap.conn.applicationData = _
    rw [hi.app, List.append_nil]
  rw [one g5] at u1
  rw [one g4] at u2
  exact ⟨u1, u2⟩

theorem read_got (s s' : Seat) (n : Nat) {x : Bytes} (h : ((Act.read n).play E s s').1 = .ok x) :
    ((Act.read n).play E s s').2.1.got = s.got ++ x := by
  unfold Act.play at h ⊢
  dsimp only at h ⊢
  split at h
  · cases h
  · rename_i hc
    rw [if_neg hc]
    dsimp only at h ⊢
    rw [h]
    rfl

theorem undivided {a b : Wrapped} (h : Farewell E a.conn E' b.conn) (u : Unbroken E a.conn E' b.conn)
    (ha : a.conn.applicationData = []) (hb : b.conn.applicationData = []) (hao : a.conn.outputData = [])
    (hbo : b.conn.outputData = []) : Undivided E a E' b := by
  intro xs side n hx
  obtain ⟨g1, g2⟩ := exchange_got h u ha hb hao hbo hx
  obtain ⟨k1, k2⟩ := exchange_got h u ha hb hao hbo (sober_read hx side n)
  rw [exchange_append, writtenBy_append] at k1 k2
  dsimp only
  cases side with
  | true =>
    simp only [if_true, Bool.not_true]
    obtain ⟨i, hi⟩ := g2
    refine ⟨i, hi, fun x hr => ?_⟩
    obtain ⟨j, hj⟩ := k2
    have e : writtenBy false [(true, .read n)] = [] := rfl
    rw [e, List.append_nil] at hj
    have : _ = (exchange E E' xs ⟨a, [], [], []⟩ ⟨b, [], [], []⟩).2.1.got ++ x := read_got _ _ n hr
    change ((Act.read n).play E _ _).2.1.got = _ at hj
    rw [this, hi] at hj
    exact among_of hj.symm
  | false =>
    simp only [Bool.not_false]
    obtain ⟨i, hi⟩ := g1
    refine ⟨i, hi, fun x hr => ?_⟩
    obtain ⟨j, hj⟩ := k1
    have e : writtenBy true [(false, .read n)] = [] := rfl
    rw [e, List.append_nil] at hj
    have : _ = (exchange E E' xs ⟨a, [], [], []⟩ ⟨b, [], [], []⟩).2.2.got ++ x := read_got (E := E') _
      (exchange E E' xs ⟨a, [], [], []⟩ ⟨b, [], [], []⟩).2.1 n hr
    change ((Act.read n).play E' _ _).2.1.got = _ at hj
    rw [this, hi] at hj
    exact among_of hj.symm

end Siotls
