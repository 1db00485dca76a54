import Verif.Proofs.Whole
import Verif.Spec.Examples
/-!
# The example programs
-/

namespace Siotls
open Spec

variable {E E' : Env}

theorem decode_encode (s : PyStr) : pyDecode (pyEncode s) = some s := by
  show Option.map _ (ByteArray.utf8Decode? s.utf8Encode) = _
  rw [List.utf8Decode?_utf8Encode]
  rfl

theorem encode_append (s t : PyStr) : pyEncode (s ++ t) = pyEncode s ++ pyEncode t := List.flatMap_append

theorem no_write {s : Bool} : ∀ {xs : List (Bool × Act)}, writtenBy s xs = [] →
    (xs.filter fun x => x.1 == s && x.2 matches .write _).length = 0
  | [], _ => rfl
  | (s', x) :: xs, h => by
    have ih := no_write (s := s) (xs := xs)
    cases x <;> by_cases e' : s' = s <;> simp_all [writtenBy]

/-- one more act -/
theorem sober_snoc {xs : List (Bool × Act)} (h : Sober xs) (side : Bool) (x : Act)
    (hs : ∀ d, x = .write d → d.length ≤ 16366 ∧ writtenBy side xs = [])
    (hc : (∃ n, x = .read n) ∨ (side, Act.close) ∉ xs) : Sober (xs ++ [(side, x)]) := by
  refine ⟨fun s d hm => ?_, fun s => ?_, fun s => ?_⟩
  · rcases List.mem_append.mp hm with hm | hm
    · exact h.sizes s d hm
    · simp only [List.mem_singleton, Prod.mk.injEq] at hm
      exact (hs d hm.2.symm).1
  · have h0 := h.count s
    rw [List.filter_append, List.length_append]
    cases x with
    | write d =>
      by_cases e : side = s
      · have h1 := no_write (xs := xs) (s := s) (e ▸ (hs d rfl).2)
        refine Nat.lt_of_le_of_lt (Nat.add_le_add (Nat.le_of_eq h1) (List.length_filter_le _ _)) (by simp)
      · simpa [e] using h0
    | read => simpa using h0
    | close => simpa using h0
  · have := h.manners s
    clear h hs
    induction xs with
    | nil => cases x <;> simp [Mannered]
    | cons y xs ih =>
      obtain ⟨s', y⟩ := y
      have hc' : (∃ n, x = .read n) ∨ (side, Act.close) ∉ xs := by
        rcases hc with hc | hc
        · exact .inl hc
        · exact .inr fun hm => hc (List.mem_cons_of_mem _ hm)
      cases y with
      | close =>
        obtain ⟨h1, h2⟩ := this
        refine ⟨fun hs y hy hys => ?_, ih hc' h2⟩
        rcases List.mem_append.mp hy with hy | hy
        · exact h1 hs y hy hys
        · simp only [List.mem_singleton] at hy
          rcases hc with ⟨n, hc⟩ | hc
          · exact ⟨n, by rw [hy, hc]⟩
          · exact absurd (by rw [hs, ← hys, hy]; exact List.mem_cons_self) hc
      | write => exact ih hc' this
      | read => exact ih hc' this

theorem play_wrote (s s' : Seat) (x : Act) : (x.play E s s').2.1.wrote = s.wrote ++ (writtenBy true [(true, x)]).flatten ∧
    (x.play E s s').2.2.wrote = s'.wrote ∧ (x.play E s s').2.2.got = s'.got := by
  cases x with
  | write d => simp [Act.play, writtenBy]
  | read n =>
    unfold Act.play
    dsimp only
    split
    · simp [writtenBy]
    · dsimp only
      split <;> simp [writtenBy, Seat.after]
  | close => simp [Act.play, writtenBy, Seat.after]

theorem writtenBy_swap (x : Act) : writtenBy true [(true, x)] = writtenBy false [(false, x)] := by
  cases x <;> rfl

theorem writtenBy_other (x : Act) (side : Bool) : writtenBy side [(!side, x)] = [] := by
  cases x <;> cases side <;> rfl

theorem exchange_wrote {a b : Wrapped} (xs : List (Bool × Act)) :
    (exchange E E' xs ⟨a, [], [], []⟩ ⟨b, [], [], []⟩).2.1.wrote = (writtenBy true xs).flatten ∧
    (exchange E E' xs ⟨a, [], [], []⟩ ⟨b, [], [], []⟩).2.2.wrote = (writtenBy false xs).flatten := by
  induction xs using List.reverseRecOn with
  | nil => exact ⟨rfl, rfl⟩
  | append_singleton xs x ih =>
    rw [exchange_append, writtenBy_append, writtenBy_append]
    obtain ⟨side, x⟩ := x
    simp only [List.flatten_append, ← ih.1, ← ih.2]
    cases side with
    | true =>
      obtain ⟨h1, h2, -⟩ := play_wrote (E := E) (exchange E E' xs ⟨a, [], [], []⟩ ⟨b, [], [], []⟩).2.1
        (exchange E E' xs ⟨a, [], [], []⟩ ⟨b, [], [], []⟩).2.2 x
      rw [show writtenBy false [(true, x)] = [] from writtenBy_other x false]
      exact ⟨h1, h2.trans (by simp)⟩
    | false =>
      obtain ⟨h1, h2, -⟩ := play_wrote (E := E') (exchange E E' xs ⟨a, [], [], []⟩ ⟨b, [], [], []⟩).2.2
        (exchange E E' xs ⟨a, [], [], []⟩ ⟨b, [], [], []⟩).2.1 x
      rw [show writtenBy true [(false, x)] = [] from writtenBy_other x true]
      exact ⟨h2.trans (by simp), h1.trans (by rw [writtenBy_swap])⟩

section
variable {a b : Wrapped}

theorem fine_left (h : Correspond E a E' b) {xs : List (Bool × Act)} {x : Act} (hx : Sober (xs ++ [(true, x)])) :
    Fine (x, (x.play E (exchange E E' xs ⟨a, [], [], []⟩ ⟨b, [], [], []⟩).2.1
      (exchange E E' xs ⟨a, [], [], []⟩ ⟨b, [], [], []⟩).2.2).1) := by
  obtain ⟨h, -⟩ := h _ hx
  rw [exchange_append] at h
  exact h _ (List.mem_append_right _ List.mem_cons_self)

theorem fine_right (h : Correspond E a E' b) {xs : List (Bool × Act)} {x : Act} (hx : Sober (xs ++ [(false, x)])) :
    Fine (x, (x.play E' (exchange E E' xs ⟨a, [], [], []⟩ ⟨b, [], [], []⟩).2.2
      (exchange E E' xs ⟨a, [], [], []⟩ ⟨b, [], [], []⟩).2.1).1) := by
  obtain ⟨h, -⟩ := h _ hx
  rw [exchange_append] at h
  exact h _ (List.mem_append_right _ List.mem_cons_self)

/-- the only message is read -/
theorem only {m x : Bytes} {l : List Bytes} {i : Nat} (hl : l = [] ∨ l = [m]) (hm : m ≠ [])
    (hi : [] = (l.take i).flatten) (h : Among x i l) (hx : x ≠ []) : x = m ∧ l = [m] := by
  obtain ⟨j, h⟩ := h
  rcases hl with rfl | rfl
  · exact absurd (by simpa using h) hx
  · rcases i with _ | i
    · rcases j with _ | j
      · exact absurd (by simpa using h) hx
      · exact ⟨by simpa using h, rfl⟩
    · exact absurd (by simpa using hi) hm

end

theorem turn_write {d x : Bytes} {k : Prog} {s s' : Seat} {n : Nat} (h : ((Act.write d).play E s s').1 = .ok x) :
    Actor.turn E n ⟨.write d k, s⟩ s' = .ok (⟨k, ((Act.write d).play E s s').2.1⟩, ((Act.write d).play E s s').2.2) := by
  unfold Actor.turn
  dsimp only
  generalize (Act.write d).play E s s' = r at *
  obtain ⟨r, t, t'⟩ := r
  cases h
  rfl

theorem turn_close {x : Bytes} {k : Prog} {s s' : Seat} {n : Nat} (h : (Act.close.play E s s').1 = .ok x) :
    Actor.turn E n ⟨.close k, s⟩ s' = .ok (⟨k, (Act.close.play E s s').2.1⟩, (Act.close.play E s s').2.2) := by
  unfold Actor.turn
  dsimp only
  generalize Act.close.play E s s' = r at *
  obtain ⟨r, t, t'⟩ := r
  cases h
  rfl

theorem turn_read {x : Bytes} {k : Bytes → Prog} {s s' : Seat} {n : Nat}
    (h : ((Act.read n).play E s s').1 = .ok x) :
    Actor.turn E n ⟨.read k, s⟩ s' = .ok (⟨k x, ((Act.read n).play E s s').2.1⟩, ((Act.read n).play E s s').2.2) := by
  unfold Actor.turn
  dsimp only
  generalize (Act.read n).play E s s' = r at *
  obtain ⟨r, t, t'⟩ := r
  cases h
  rfl

theorem turn_wait {k : Bytes → Prog} {s s' : Seat} {n : Nat} (h : ((Act.read n).play E s s').1 = .error .fuel) :
    Actor.turn E n ⟨.read k, s⟩ s' = .ok (⟨.read k, ((Act.read n).play E s s').2.1⟩, ((Act.read n).play E s s').2.2) := by
  unfold Actor.turn
  dsimp only
  generalize (Act.read n).play E s s' = r at *
  obtain ⟨r, t, t'⟩ := r
  cases h
  rfl

/-- where a client is -/
def ClientAt (req resp : Bytes) (xs : List (Bool × Act)) (p : Actor) : Prop :=
  (p.prog = client req ∧ writtenBy true xs = [] ∧ (true, .close) ∉ xs ∧ p.seat.got = []) ∨
  (p.prog = .read (fun _ => .close .stop) ∧ writtenBy true xs = [req] ∧ (true, .close) ∉ xs ∧ p.seat.got = []) ∨
  (p.prog = .close .stop ∧ writtenBy true xs = [req] ∧ (true, .close) ∉ xs ∧ p.seat.got = resp) ∨
  (p.prog = .stop ∧ writtenBy true xs = [req] ∧ p.seat.got = resp)

/-- where a server is -/
def ServerAt (k : Bytes → Prog) (fin : Prog) (req resp : Bytes) (xs : List (Bool × Act)) (q : Actor) : Prop :=
  (q.prog = .read k ∧ writtenBy false xs = [] ∧ (false, .close) ∉ xs ∧ q.seat.got = []) ∨
  (q.prog = .write resp (.close fin) ∧ writtenBy false xs = [] ∧ (false, .close) ∉ xs ∧ q.seat.got = req) ∨
  (q.prog = .close fin ∧ writtenBy false xs = [resp] ∧ (false, .close) ∉ xs ∧ q.seat.got = req) ∨
  (q.prog = fin ∧ writtenBy false xs = [resp] ∧ q.seat.got = req)

theorem ClientAt.keep {req resp : Bytes} {xs : List (Bool × Act)} {p : Actor} (h : ClientAt req resp xs p)
    (x : Act) {s : Seat} (hs : s.got = p.seat.got) : ClientAt req resp (xs ++ [(false, x)]) ⟨p.prog, s⟩ := by
  have e : writtenBy true (xs ++ [(false, x)]) = writtenBy true xs := by
    rw [writtenBy_append, show writtenBy true [(false, x)] = [] from writtenBy_other x true, List.append_nil]
  unfold ClientAt at h ⊢
  rw [e]
  simpa [hs] using h

theorem ServerAt.keep {k : Bytes → Prog} {fin : Prog} {req resp : Bytes} {xs : List (Bool × Act)} {q : Actor}
    (h : ServerAt k fin req resp xs q) (x : Act) {s : Seat} (hs : s.got = q.seat.got) :
    ServerAt k fin req resp (xs ++ [(true, x)]) ⟨q.prog, s⟩ := by
  have e : writtenBy false (xs ++ [(true, x)]) = writtenBy false xs := by
    rw [writtenBy_append, show writtenBy false [(true, x)] = [] from writtenBy_other x false, List.append_nil]
  unfold ServerAt at h ⊢
  rw [e]
  simpa [hs] using h

/-- the two programs and what they did so far -/
structure Scene (E E' : Env) (a b : Wrapped) (k : Bytes → Prog) (fin : Prog) (req resp : Bytes)
    (xs : List (Bool × Act)) (p q : Actor) : Prop where
  sober : Sober xs
  seats : (exchange E E' xs ⟨a, [], [], []⟩ ⟨b, [], [], []⟩).2 = (p.seat, q.seat)
  client : ClientAt req resp xs p
  server : ServerAt k fin req resp xs q

theorem ServerAt.written {k : Bytes → Prog} {fin : Prog} {req resp : Bytes} {xs : List (Bool × Act)} {q : Actor}
    (h : ServerAt k fin req resp xs q) : writtenBy false xs = [] ∨ writtenBy false xs = [resp] := by
  rcases h with ⟨-, h, -⟩ | ⟨-, h, -⟩ | ⟨-, h, -⟩ | ⟨-, h, -⟩
  · exact .inl h
  · exact .inl h
  · exact .inr h
  · exact .inr h

theorem ClientAt.written {req resp : Bytes} {xs : List (Bool × Act)} {p : Actor}
    (h : ClientAt req resp xs p) : writtenBy true xs = [] ∨ writtenBy true xs = [req] := by
  rcases h with ⟨-, h, -⟩ | ⟨-, h, -⟩ | ⟨-, h, -⟩ | ⟨-, h, -⟩
  · exact .inl h
  · exact .inr h
  · exact .inr h
  · exact .inr h

theorem play_got {x : Act} (s s' : Seat) (h : ∀ n, x ≠ .read n) : (x.play E s s').2.1.got = s.got := by
  cases x with
  | write => rfl
  | read n => exact absurd rfl (h n)
  | close => rfl

theorem read_waits (s s' : Seat) (n : Nat) {e : Exn} (h : ((Act.read n).play E s s').1 = .error e) :
    ((Act.read n).play E s s').2.1.got = s.got := by
  unfold Act.play at h ⊢
  dsimp only at h ⊢
  split
  · rfl
  · rename_i hc
    rw [if_neg hc] at h
    dsimp only at h ⊢
    rw [h]
    simp [returned]

section
variable {a b : Wrapped} {k : Bytes → Prog} {fin : Prog} {req resp : Bytes} {xs : List (Bool × Act)} {p q : Actor}

theorem Scene.left (C : Correspond E a E' b) (U : Undivided E a E' b) (hq : req.length ≤ 16366)
    (hr0 : resp ≠ []) (h : Scene E E' a b k fin req resp xs p q) (n : Nat) :
    ∃ p' s xs', p.turn E n q.seat = .ok (p', s) ∧ Scene E E' a b k fin req resp xs' p' ⟨q.prog, s⟩ := by
  obtain ⟨h0, h1, h2, h3⟩ := h
  have e1 : (exchange E E' xs ⟨a, [], [], []⟩ ⟨b, [], [], []⟩).2.1 = p.seat := by rw [h1]
  have e2 : (exchange E E' xs ⟨a, [], [], []⟩ ⟨b, [], [], []⟩).2.2 = q.seat := by rw [h1]
  have next : ∀ x : Act, (exchange E E' (xs ++ [(true, x)]) ⟨a, [], [], []⟩ ⟨b, [], [], []⟩).2 =
      (x.play E p.seat q.seat).2 := by
    intro x
    rw [exchange_append, e1, e2]
    rfl
  have keep := fun x => h3.keep x (play_wrote (E := E) p.seat q.seat x).2.2
  obtain ⟨prog, seat⟩ := p
  rcases h2 with ⟨rfl, g1, g2, g3⟩ | ⟨rfl, g1, g2, g3⟩ | ⟨rfl, g1, g2, g3⟩ | ⟨rfl, g1, g2⟩
  · have hx := sober_snoc h0 true (.write req) (fun d e => by cases e; exact ⟨hq, g1⟩) (.inr g2)
    have f := fine_left C hx
    rw [e1, e2] at f
    refine ⟨⟨_, ((Act.write req).play E seat q.seat).2.1⟩, _, _, ?_, hx, next _, .inr (.inl ⟨rfl, ?_, ?_, ?_⟩), keep _⟩
    · exact turn_write f
    · rw [writtenBy_append, g1]; rfl
    · simpa using g2
    · exact (play_got _ _ (by simp)).trans g3
  · have hx := sober_read h0 true n
    have f := fine_left C hx
    rw [e1, e2] at f
    rcases f with f | ⟨x, x0, f⟩
    · refine ⟨⟨_, ((Act.read n).play E seat q.seat).2.1⟩, _, _, ?_, hx, next _, .inr (.inl ⟨rfl, ?_, ?_, ?_⟩), keep _⟩
      · exact turn_wait f
      · rw [writtenBy_append, g1]; rfl
      · simpa using g2
      · exact (read_waits _ _ n f).trans g3
    · obtain ⟨i, u1, u2⟩ := U xs true n h0
      simp only [if_true, Bool.not_true, e1, e2] at u1 u2
      rw [show seat.got = [] from g3] at u1
      obtain ⟨v1, v2⟩ := only h3.written hr0 u1 (u2 x f) x0
      refine ⟨⟨_, ((Act.read n).play E seat q.seat).2.1⟩, _, _, ?_, hx, next _, .inr (.inr (.inl ⟨rfl, ?_, ?_, ?_⟩)), keep _⟩
      · exact turn_read f
      · rw [writtenBy_append, g1]; rfl
      · simpa using g2
      · refine (read_got _ _ n f).trans ?_
        rw [show seat.got = [] from g3, v1, List.nil_append]
  · have hx := sober_snoc h0 true .close (fun d e => by cases e) (.inr g2)
    have f := fine_left C hx
    rw [e1, e2] at f
    refine ⟨⟨_, (Act.close.play E seat q.seat).2.1⟩, _, _, ?_, hx, next _, .inr (.inr (.inr ⟨rfl, ?_, ?_⟩)), keep _⟩
    · exact turn_close f
    · rw [writtenBy_append, g1]; rfl
    · exact (play_got _ _ (by simp)).trans g3
  · exact ⟨_, _, xs, rfl, h0, h1, .inr (.inr (.inr ⟨rfl, g1, g2⟩)), h3⟩

theorem Scene.right (C : Correspond E a E' b) (U : Undivided E a E' b) (hr : resp.length ≤ 16366)
    (hq0 : req ≠ []) (hk : k req = .write resp (.close fin)) (hf : Prog.Over fin)
    (h : Scene E E' a b k fin req resp xs p q) (n : Nat) :
    ∃ q' s xs', q.turn E' n p.seat = .ok (q', s) ∧ Scene E E' a b k fin req resp xs' ⟨p.prog, s⟩ q' := by
  obtain ⟨h0, h1, h2, h3⟩ := h
  have e1 : (exchange E E' xs ⟨a, [], [], []⟩ ⟨b, [], [], []⟩).2.1 = p.seat := by rw [h1]
  have e2 : (exchange E E' xs ⟨a, [], [], []⟩ ⟨b, [], [], []⟩).2.2 = q.seat := by rw [h1]
  have next : ∀ x : Act, (exchange E E' (xs ++ [(false, x)]) ⟨a, [], [], []⟩ ⟨b, [], [], []⟩).2 =
      ((x.play E' q.seat p.seat).2.2, (x.play E' q.seat p.seat).2.1) := by
    intro x
    rw [exchange_append, e1, e2]
    rfl
  have keep := fun x => h2.keep x (play_wrote (E := E') q.seat p.seat x).2.2
  obtain ⟨prog, seat⟩ := q
  rcases h3 with ⟨rfl, g1, g2, g3⟩ | ⟨rfl, g1, g2, g3⟩ | ⟨rfl, g1, g2, g3⟩ | ⟨rfl, g1, g2⟩
  · have hx := sober_read h0 false n
    have f := fine_right C hx
    rw [e1, e2] at f
    rcases f with f | ⟨x, x0, f⟩
    · refine ⟨⟨_, ((Act.read n).play E' seat p.seat).2.1⟩, _, _, ?_, hx, next _, keep _, .inl ⟨rfl, ?_, ?_, ?_⟩⟩
      · exact turn_wait f
      · rw [writtenBy_append, g1]; rfl
      · simpa using g2
      · exact (read_waits _ _ n f).trans g3
    · obtain ⟨i, u1, u2⟩ := U xs false n h0
      simp only [Bool.false_eq_true, if_false, Bool.not_false, e1, e2] at u1 u2
      rw [show seat.got = [] from g3] at u1
      obtain ⟨v1, v2⟩ := only h2.written hq0 u1 (u2 x f) x0
      refine ⟨⟨k x, ((Act.read n).play E' seat p.seat).2.1⟩, _, _, ?_, hx, next _, keep _, .inr (.inl ⟨?_, ?_, ?_, ?_⟩)⟩
      · exact turn_read f
      · rw [v1]; exact hk
      · rw [writtenBy_append, g1]; rfl
      · simpa using g2
      · refine (read_got _ _ n f).trans ?_
        rw [show seat.got = [] from g3, v1, List.nil_append]
  · have hx := sober_snoc h0 false (.write resp) (fun d e => by cases e; exact ⟨hr, g1⟩) (.inr g2)
    have f := fine_right C hx
    rw [e1, e2] at f
    refine ⟨⟨_, ((Act.write resp).play E' seat p.seat).2.1⟩, _, _, ?_, hx, next _, keep _, .inr (.inr (.inl ⟨rfl, ?_, ?_, ?_⟩))⟩
    · exact turn_write f
    · rw [writtenBy_append, g1]; rfl
    · simpa using g2
    · exact (play_got _ _ (by simp)).trans g3
  · have hx := sober_snoc h0 false .close (fun d e => by cases e) (.inr g2)
    have f := fine_right C hx
    rw [e1, e2] at f
    refine ⟨⟨_, (Act.close.play E' seat p.seat).2.1⟩, _, _, ?_, hx, next _, keep _, .inr (.inr (.inr ⟨rfl, ?_, ?_⟩))⟩
    · exact turn_close f
    · rw [writtenBy_append, g1]; rfl
    · exact (play_got _ _ (by simp)).trans g3
  · refine ⟨⟨prog, seat⟩, p.seat, xs, ?_, h0, h1, h2, .inr (.inr (.inr ⟨rfl, g1, g2⟩))⟩
    rcases hf with rfl | rfl <;> rfl

theorem Scene.run (C : Correspond E a E' b) (U : Undivided E a E' b) (hq : req.length ≤ 16366)
    (hr : resp.length ≤ 16366) (hq0 : req ≠ []) (hr0 : resp ≠ []) (hk : k req = .write resp (.close fin))
    (hf : Prog.Over fin) (ts : List (Bool × Nat)) :
    ∀ {xs p q}, Scene E E' a b k fin req resp xs p q →
      ∃ p' q' xs', perform E E' ts p q = .ok (p', q') ∧ Scene E E' a b k fin req resp xs' p' q' := by
  induction ts with
  | nil => exact fun h => ⟨_, _, _, rfl, h⟩
  | cons t ts ih =>
    intro xs p q h
    obtain ⟨side, n⟩ := t
    cases side with
    | true =>
      obtain ⟨p', s, xs', h1, h2⟩ := h.left C U hq hr0 n
      obtain ⟨p'', q'', xs'', h3, h4⟩ := ih h2
      exact ⟨p'', q'', xs'', by rw [perform, h1]; exact h3, h4⟩
    | false =>
      obtain ⟨q', s, xs', h1, h2⟩ := h.right C U hr hq0 hk hf n
      obtain ⟨p'', q'', xs'', h3, h4⟩ := ih h2
      exact ⟨p'', q'', xs'', by rw [perform, h1]; exact h3, h4⟩

/-- nobody waits for ever -/
theorem Scene.ends (C : Correspond E a E' b) (hq0 : req ≠ []) (hr0 : resp ≠ [])
    (h : Scene E E' a b k fin req resp xs p q) (hp : Prog.Waits p.prog) (hq : Prog.Waits q.prog)
    (w1 : p.seat.wire = []) (w2 : q.seat.wire = []) : p.prog = .stop ∧ q.prog = fin := by
  obtain ⟨h0, h1, h2, h3⟩ := h
  obtain ⟨-, ⟨c1, c2⟩, ⟨c3, c4⟩⟩ := C xs h0
  obtain ⟨d1, d2⟩ := exchange_wrote (E := E) (E' := E') (a := a) (b := b) xs
  simp only [h1] at c1 c2 c3 c4 d1 d2
  rw [d1] at c1 c2
  rw [d2] at c3 c4
  have c2 := c2 w1
  have c4 := c4 w2
  have notW : ∀ {d k}, ¬ Prog.Waits (.write d k) := by
    rintro d k (⟨_, h⟩ | h | h) <;> cases h
  have notC : ∀ {k}, ¬ Prog.Waits (.close k) := by
    rintro k (⟨_, h⟩ | h | h) <;> cases h
  rcases h2 with ⟨g, -⟩ | ⟨-, g1, -, g2⟩ | ⟨g, -⟩ | ⟨g, g1, g2⟩
  · rw [g] at hp; exact absurd hp notW
  · rcases h3 with ⟨-, -, -, k2⟩ | ⟨k0, -⟩ | ⟨k0, -⟩ | ⟨-, k1, -⟩
    · rw [g1, k2] at c2; exact absurd (by simpa using c2) hq0
    · rw [k0] at hq; exact absurd hq notW
    · rw [k0] at hq; exact absurd hq notC
    · rw [k1, g2] at c4; exact absurd (by simpa using c4) hr0
  · rw [g] at hp; exact absurd hp notC
  · refine ⟨g, ?_⟩
    rcases h3 with ⟨-, -, -, k2⟩ | ⟨k0, -⟩ | ⟨k0, -⟩ | ⟨k0, -⟩
    · rw [g1, k2] at c2; exact absurd (by simpa using c2) hq0
    · rw [k0] at hq; exact absurd hq notW
    · rw [k0] at hq; exact absurd hq notC
    · exact k0

end

end Siotls
