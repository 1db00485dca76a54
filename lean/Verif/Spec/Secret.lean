import Verif.Spec.Veil
/-!
# What the wire says about the contents
-/

namespace Siotls

/-- The ciphertext is a function of the length of the plaintext, but not of its bytes: all that those
without the key may learn from an AEAD. -/
def Env.Blind (E : Env) : Prop := ∀ s k n a p p', p.length = p'.length →
  E.aeadSeal s k n a p = E.aeadSeal s k n a p'

/-- The length of the ciphertext is a function of the length of the plaintext. -/
def Env.Even (E : Env) : Prop := ∀ s k n a p p', p.length = p'.length →
  (E.aeadSeal s k n a p).length = (E.aeadSeal s k n a p').length

/-- the same libraries with the plaintext replaced by as many zeros -/
def Env.blindfold (E : Env) : Env :=
  { E with aeadSeal := fun s k n a p => E.aeadSeal s k n a (List.replicate p.length 0) }

namespace Spec

/-- length of a protected record of `n` bytes of data, its type and the tag: the next multiple of the
block (4096 bytes, or the fragment length if it is less) -/
def padded (mfl tag n : Nat) : Nat := ((n + 1 + tag) / min mfl 4096 + 1) * min mfl 4096

/-- lengths of the protected records that carry `n` bytes: full fragments, and what is left -/
def recordSizes (mfl tag n : Nat) : List Nat :=
  if n ≤ mfl - (1 + tag) then [padded mfl tag n]
  else List.replicate (n / (mfl - (1 + tag))) (padded mfl tag (mfl - (1 + tag))) ++
    if n % (mfl - (1 + tag)) = 0 then [] else [padded mfl tag (n % (mfl - (1 + tag)))]

/-- Two programs that make the same calls, except that they may send different data where both take
records of the same lengths. The lengths are those of the negotiated fragment length and cipher suite,
at that point of the execution of the first program. -/
def Disguised (E : Env) : List Op → List Op → Conn → Prop
  | [], [], _ => True
  | o :: os, o' :: os', c =>
    (o = o' ∨ ∃ d d', o = .send d ∧ o' = .send d' ∧ ∀ k, c.cipher = some k →
      recordSizes c.mfl k.info.tagLength d.length = recordSizes c.mfl k.info.tagLength d'.length) ∧
    Disguised E os os' (o.run E c).2
  | _, _, _ => False

/-- Two programs that make the same calls, except that they may send different data of the same
length. -/
def SameLengths : List Op → List Op → Prop
  | [], [] => True
  | o :: os, o' :: os' =>
    (o = o' ∨ ∃ d d', o = .send d ∧ o' = .send d' ∧ d.length = d'.length) ∧ SameLengths os os'
  | _, _ => False

/-- the same result, up to the bytes of `data_to_send()` -/
def SameSize : Op → Except Exn Bytes → Except Exn Bytes → Prop
  | .drain, r, r' => ∃ b b', r = .ok b ∧ r' = .ok b' ∧ b.length = b'.length
  | _, r, r' => r = r'

/-- results of two programs call by call -/
def SameSizes : List Op → List (Except Exn Bytes) → List (Except Exn Bytes) → Prop
  | [], [], [] => True
  | o :: os, r :: rs, r' :: rs' => SameSize o r r' ∧ SameSizes os rs rs'
  | _, _, _ => False

/-- The call made after these results: `who` either makes a call of its choice, or has the application
send its next data. -/
def turnOf (who : List (Except Exn Bytes) → Option Op) (data : Nat → Bytes)
    (seen : List (Except Exn Bytes)) : Op :=
  match who seen with
  | some o => o
  | none => .send (data seen.length)

/-- the calls of a game of `n` turns: after each call, `who` sees its result (and the bytes sent, if it
was `data_to_send`) -/
def game (E : Env) (who : List (Except Exn Bytes) → Option Op) (data : Nat → Bytes) :
    Nat → List (Except Exn Bytes) → Conn → List Op
  | 0, _, _ => []
  | n + 1, seen, c =>
    turnOf who data seen ::
      game E who data n (seen ++ [((turnOf who data seen).run E c).1]) ((turnOf who data seen).run E c).2

end Spec
end Siotls
