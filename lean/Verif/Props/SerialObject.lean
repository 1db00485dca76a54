import Verif.Proofs.SerialObject
/-!
# C107: the `SerialIO` object, its cursor, its limits and what `lookahead` restores

Statements mention the object (`Model/SerialObject.lean`), the functional readers and writers of
`Model/Serial.lean`, and the vocabulary of `Spec/StreamObject.lean`.
-/

namespace Siotls
open Spec

/-- C107, construction: a new object shows all its bytes, with no limit. -/
theorem C107_new (b : Bytes) : InBounds (Obj.new b) ∧ viewOf (Obj.new b) = Stream.new b :=
  ⟨inBounds_new b, by simp [viewOf, Obj.new, Stream.new]⟩

/-- C107, reads: any program of reads and limits gives, on the object, the value or the exception
that it gives on the functional stream. It never changes the buffer. When it ends it leaves the
functional stream's view, and the limits it found. When it raises, the cursor is still in the buffer,
not before where it was, and the limits it found are still there, below those it left behind. -/
theorem C107_reads {α : Type} (prog : ReadProg α) (s : SerialIO) (hs : InBounds s) :
    (prog.act s).2.buf = s.buf ∧
    match prog.run (viewOf s) with
    | .ok (a, v) => ∃ s', prog.act s = (.ok a, s') ∧ viewOf s' = v ∧ InBounds s' ∧ s'.lims = s.lims ∧
        s.pos ≤ s'.pos
    | .error e => (prog.act s).1 = .error e ∧ s.pos ≤ (prog.act s).2.pos ∧
        (prog.act s).2.pos ≤ s.buf.length ∧ s.lims <:+ (prog.act s).2.lims :=
  refines_prog prog s hs

/-- A length-prefixed string read inside a limit: the shape of every extension. -/
def demoNested : ReadProg (Nat × Bytes) :=
  .readInt 1 fun t => .limit 3 (.readVar 1 .ret) fun b => .ret (t, b)

example : InBounds ⟨[9, 5, 2, 7, 8, 6], 1, [6]⟩ ∧
    demoNested.act ⟨[9, 5, 2, 7, 8, 6], 1, [6]⟩ = (.ok (5, [7, 8]), ⟨[9, 5, 2, 7, 8, 6], 5, [6]⟩) :=
  ⟨by decide, rfl⟩

/-- C107: the loop of `read_exactly` and that of `read_listvar` end by themselves: the number of turns
that the model allows them is never what stops them. -/
theorem C107_terminates (n m : Nat) (s : SerialIO) (hs : InBounds s) :
    (Obj.readExactly n s).1 ≠ .error .fuel ∧ (Obj.readListVar n m s).1 ≠ .error .fuel :=
  ⟨(refines_readExactly n).ends hs (readExactly_ends n _).1,
    (refines_readListVar n m).ends hs (readListVar_ends n m _)⟩

example : (Obj.readListVar 1 1 ⟨[9, 5, 1, 7, 2, 8, 9], 1, []⟩).1 = .ok [[7], [8, 9]] := by
  decide +kernel

/-- C107, looking ahead: after `with stream.lookahead()` around any reads, limits, end tests and other
lookaheads, raising or not, the buffer and the cursor are as before, and the limits that were there
are still there; the outcome is that of the body. -/
theorem C107_lookahead {α : Type} (body : IoProg α) (s : SerialIO) (hs : InBounds s) :
    (Obj.lookahead body.act s).1 = (body.act s).1 ∧
    (Obj.lookahead body.act s).2.buf = s.buf ∧ (Obj.lookahead body.act s).2.pos = s.pos ∧
    s.lims <:+ (Obj.lookahead body.act s).2.lims := by
  obtain ⟨h1, _, h3, _⟩ := peeks_prog body s hs
  exact ⟨rfl, h1, rfl, h3⟩

/-- C107, looking ahead without an exception leaves no trace: the stream is exactly as before, so the
same reads give the same again. -/
theorem C107_lookahead_ok {α : Type} (body : IoProg α) (s s' : SerialIO) (a : α) (hs : InBounds s)
    (h : Obj.lookahead body.act s = (.ok a, s')) :
    s' = s ∧ (body.act s').1 = .ok a := by
  obtain ⟨h1, _, _, h4⟩ := peeks_prog body s hs
  have h2 : (body.act s).1 = .ok a := congrArg Prod.fst h
  have hb : body.act s = (.ok a, (body.act s).2) := Prod.ext h2 rfl
  obtain ⟨_, hl⟩ := h4 a _ hb
  have h3 : s' = { (body.act s).2 with pos := s.pos } := (congrArg Prod.snd h).symm
  have e : s' = s := by
    rw [h3]
    cases s
    dsimp only at h1 hl ⊢
    rw [h1, hl]
  exact ⟨e, by rw [e]; exact h2⟩

/-- Look at the whole of a nested structure. -/
def demoLook : IoProg (Nat × Bytes) :=
  .reads demoNested fun x => .isEof fun _ => .ret x

example : InBounds ⟨[9, 5, 2, 7, 8, 6], 1, []⟩ ∧
    Obj.lookahead demoLook.act ⟨[9, 5, 2, 7, 8, 6], 1, []⟩ =
      (.ok (5, [7, 8]), ⟨[9, 5, 2, 7, 8, 6], 1, []⟩) := ⟨by decide, rfl⟩

/-- C107, the full claim on `lookahead`: it leaves the stream as it found it, whatever happens. -/
def C107_statement : Prop :=
  ∀ (body : IoProg Bytes) (s : SerialIO), InBounds s → (Obj.lookahead body.act s).2 = s

/-- A limit of one byte, of which two are asked. -/
def demoStale : IoProg Bytes := .limit 1 (.reads (.readExactly 2 .ret) .ret) .ret

/-- C107, full claim: false. `limit` has no `finally`: an exception inside it leaves its limit on the
stack, and `lookahead` only puts the cursor back. The reader that looked ahead, and caught the
exception, can then no longer read the two bytes that are there. -/
theorem C107_false : ¬ C107_statement := by
  intro h
  have := h demoStale ⟨[7, 8], 0, []⟩ (by decide)
  exact absurd this (by decide)

example : (Obj.readExactly 2 ⟨[7, 8], 0, []⟩).1 = .ok [7, 8] ∧
    (Obj.readExactly 2 (Obj.lookahead demoStale.act ⟨[7, 8], 0, []⟩).2).1 = .error .bufTooMuch :=
  ⟨rfl, rfl⟩

/-- C107, end tests: `is_eof` and `assert_eof` tell whether the cursor is at the end of the buffer,
whatever the limits, and leave the object as it was. -/
theorem C107_eof (s : SerialIO) (hs : InBounds s) :
    Obj.isEof s = (.ok (decide (s.pos = s.buf.length)), s) ∧
    Obj.assertEof s = ((if s.pos = s.buf.length then .ok () else .error .bufTooMuch), s) := by
  refine ⟨?_, ?_⟩
  · rw [isEof_eq]
    congr 2
  · rw [assertEof_eq hs.1]
    split <;> rfl

example : InBounds ⟨[1, 2], 1, [1]⟩ ∧ Obj.isEof ⟨[1, 2], 1, [1]⟩ = (.ok false, ⟨[1, 2], 1, [1]⟩) :=
  ⟨by decide, rfl⟩

/-- C107, writes: each writing method puts the bytes of its functional counterpart at the cursor and
moves the cursor after them, or raises the same exception and leaves what is before the cursor. -/
theorem C107_writes :
    (∀ n i, Puts (Obj.writeInt n i) (Serial.writeInt n i)) ∧
    (∀ n b, Puts (Obj.writeVar n b) (Serial.writeVar n b)) ∧
    (∀ nlist nitem items, Puts (Obj.writeListInt nlist nitem items)
      (Serial.writeListInt nlist nitem items)) ∧
    (∀ nlist nitem items, Puts (Obj.writeListVar nlist nitem items)
      (Serial.writeListVar nlist nitem items)) :=
  ⟨puts_writeInt, puts_writeVar, puts_writeListInt, puts_writeListVar⟩

example : Obj.writeListVar 2 1 [[7], [8, 9]] ⟨[1], 1, []⟩ =
    (.ok (), ⟨[1, 0, 5, 1, 7, 2, 8, 9], 8, []⟩) := rfl

/-- C107, appending: at the end of the buffer, what was written stays and the bytes follow it. -/
theorem C107_append {m : O Unit} {out : Bytes} (h : Puts m (.ok out)) (b : Bytes) (lims : List Nat) :
    m ⟨b, b.length, lims⟩ = (.ok (), ⟨b ++ out, b.length + out.length, lims⟩) := by
  have := h ⟨b, b.length, lims⟩ (Nat.le_refl _)
  dsimp only at this
  rw [this]
  simp [placed]

example : Puts (Obj.writeInt 2 5) (.ok [0, 5]) := C107_writes.1 2 5

end Siotls
