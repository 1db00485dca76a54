import Verif.Proofs.Serial
import Verif.Spec.ReadProgram
/-!
# Non-interference of what follows a limit
-/

namespace Siotls
open Serial Spec

/-- Under an innermost limit `l`, with `b` the bytes before it, the outcome of `p` does not
depend on the bytes `r` after the limit, and `p` leaves the cursor at or before the limit. -/
def Bounded {α} (p : P α) : Prop :=
  ∀ (b : Bytes) (pos l : Nat) (ls : List Nat), pos + b.length ≤ l →
    (∃ e, ∀ r, (pos + b.length < l → r = []) → p ⟨b ++ r, pos, l :: ls⟩ = .error e) ∨
    (∃ a b₁ b₂, b = b₁ ++ b₂ ∧ ∀ r, (pos + b.length < l → r = []) →
      p ⟨b ++ r, pos, l :: ls⟩ = .ok (a, ⟨b₂ ++ r, pos + b₁.length, l :: ls⟩))

theorem Bounded.pure {α} (a : α) : Bounded (pure a : P α) := by
  intro b pos l ls _
  exact .inr ⟨a, [], b, rfl, fun r _ => rfl⟩

theorem Bounded.throw {α} (e : Exn) : Bounded (P.throw e : P α) := by
  intro b pos l ls _
  exact .inl ⟨e, fun r _ => rfl⟩

theorem Bounded.bind {α β} {p : P α} {f : α → P β} (hp : Bounded p) (hf : ∀ a, Bounded (f a)) :
    Bounded (p >>= f) := by
  intro b pos l ls hl
  rcases hp b pos l ls hl with ⟨e, he⟩ | ⟨a, b₁, b₂, rfl, ha⟩
  · exact .inl ⟨e, fun r hr => by rw [P.bind_def, he r hr]⟩
  · have hl' : pos + b₁.length + b₂.length ≤ l := by simp at hl; omega
    have hiff : ∀ r : Bytes, (pos + (b₁ ++ b₂).length < l → r = []) →
        (pos + b₁.length + b₂.length < l → r = []) := by
      intro r h h2; exact h (by simp; omega)
    rcases hf a b₂ (pos + b₁.length) l ls hl' with ⟨e, he⟩ | ⟨v, c₁, c₂, rfl, hv⟩
    · exact .inl ⟨e, fun r hr => by
        rw [P.bind_def, ha r hr]
        exact he r (hiff r hr)⟩
    · refine .inr ⟨v, b₁ ++ c₁, c₂, by simp, fun r hr => ?_⟩
      rw [P.bind_def, ha r hr]
      simp only
      rw [hv r (hiff r hr)]
      simp [Nat.add_assoc]

theorem bounded_rawRead (n : Nat) : ∀ (b : Bytes) (pos l : Nat) (ls : List Nat),
    pos + b.length ≤ l → pos + n ≤ l → ∀ r, (pos + b.length < l → r = []) →
    rawRead n ⟨b ++ r, pos, l :: ls⟩ =
      .ok (b.take n, ⟨b.drop n ++ r, pos + (b.take n).length, l :: ls⟩) := by
  intro b pos l ls hl hn r hr
  unfold rawRead
  by_cases h : pos + b.length < l
  · simp [hr h]
  · have : n ≤ b.length := by omega
    rw [List.take_append_of_le_length this, List.drop_append_of_le_length this]

theorem bounded_read (n : Nat) : Bounded (Serial.read n) := by
  intro b pos l ls hl
  by_cases h : pos + n > l
  · exact .inl ⟨.bufTooMuch, fun r _ => by unfold Serial.read; simp only [if_pos h]⟩
  · refine .inr ⟨b.take n, b.take n, b.drop n, by simp, fun r hr => ?_⟩
    unfold Serial.read
    simp only [if_neg h]
    exact bounded_rawRead n b pos l ls hl (by omega) r hr

theorem bounded_readAll : Bounded readAll := by
  intro b pos l ls hl
  refine .inr ⟨b.take (l - pos), b.take (l - pos), b.drop (l - pos), by simp, fun r hr => ?_⟩
  unfold readAll
  exact bounded_rawRead (l - pos) b pos l ls hl (by omega) r hr

theorem bounded_readExactly (n : Nat) : Bounded (readExactly n) := by
  intro b pos l ls hl
  by_cases h0 : n = 0
  · exact .inr ⟨[], [], b, rfl, fun r _ => by unfold readExactly; simp [h0]⟩
  · rcases bounded_read n b pos l ls hl with ⟨e, he⟩ | ⟨a, b₁, b₂, rfl, ha⟩
    · exact .inl ⟨e, fun r hr => by unfold readExactly; simp [h0, he r hr]⟩
    · by_cases hlen : a.length = n
      · exact .inr ⟨a, b₁, b₂, rfl, fun r hr => by
          unfold readExactly; simp only [h0, if_false, ha r hr, hlen, if_true]⟩
      · exact .inl ⟨.bufMissing, fun r hr => by
          unfold readExactly; simp only [h0, if_false, ha r hr, hlen]⟩

theorem bounded_readInt (n : Nat) : Bounded (readInt n) := by
  unfold readInt
  split
  · exact Bounded.throw _
  · exact (bounded_readExactly n).bind fun _ => Bounded.pure _

theorem bounded_readVar (n : Nat) : Bounded (readVar n) :=
  (bounded_readInt n).bind fun _ => bounded_readExactly _

theorem bounded_readListInt (n m : Nat) : Bounded (readListInt n m) := by
  refine (bounded_readInt n).bind fun len => ?_
  split
  · exact Bounded.throw _
  · exact (bounded_readExactly _).bind fun _ => Bounded.pure _

theorem bounded_lift {α} (r : Except Exn α) : Bounded (P.lift r) := by
  intro b pos l ls _
  cases r with
  | error e => exact .inl ⟨e, fun _ _ => rfl⟩
  | ok a => exact .inr ⟨a, [], b, rfl, fun _ _ => rfl⟩

theorem bounded_readListVar (n m : Nat) : Bounded (readListVar n m) :=
  (bounded_readVar n).bind fun _ => bounded_lift _

theorem bounded_limit {α} (n : Nat) {p : P α} (hp : Bounded p) : Bounded (limit n p) := by
  intro b pos l ls hl
  by_cases h : pos + n > l
  · exact .inl ⟨.valueError, fun r _ => by unfold limit; simp [h]⟩
  · have hnot : ¬ (l < pos + n) := by omega
    have hlen : pos + (b.take n).length ≤ pos + n := by simp
    rcases hp (b.take n) pos (pos + n) (l :: ls) hlen with ⟨e, he⟩ | ⟨a, b₁, b₂, hb, ha⟩
    · refine .inl ⟨e, fun r hr => ?_⟩
      have := he (b.drop n ++ r) (by
        intro h'
        have : b.length < n := by simp at h'; omega
        rw [hr (by omega), List.drop_eq_nil_of_le (by omega)]; rfl)
      rw [← List.append_assoc, List.take_append_drop] at this
      unfold limit; simp [hnot, this]
    · have run : ∀ r, (pos + b.length < l → r = []) →
          p ⟨b ++ r, pos, (pos + n) :: l :: ls⟩ =
            .ok (a, ⟨b₂ ++ (b.drop n ++ r), pos + b₁.length, (pos + n) :: l :: ls⟩) := by
        intro r hr
        have := ha (b.drop n ++ r) (by
          intro h'
          have : b.length < n := by simp at h'; omega
          rw [hr (by omega), List.drop_eq_nil_of_le (by omega)]; rfl)
        rwa [← List.append_assoc, List.take_append_drop] at this
      by_cases hend : b₁.length = n
      · have hb₂ : b₂ = [] := by
          have := congrArg List.length hb
          simp at this
          exact List.length_eq_zero_iff.mp (by omega)
        subst hb₂
        refine .inr ⟨a, b.take n, b.drop n, by simp, fun r hr => ?_⟩
        have e1 : b₁ = b.take n := by simpa using hb.symm
        unfold limit
        simp only [gt_iff_lt, hnot, decide_false, Bool.false_eq_true, if_false, run r hr, hend]
        simp only [← e1, hend]
        simp
      · refine .inl ⟨.bufTooMuch, fun r hr => ?_⟩
        unfold limit
        simp only [gt_iff_lt, hnot, decide_false, Bool.false_eq_true, if_false, run r hr]
        rw [if_pos (by omega)]

theorem bounded_prog {α} (prog : ReadProg α) : Bounded prog.run := by
  induction prog with
  | ret a => exact Bounded.pure a
  | raise e => exact Bounded.throw e
  | readAll k ih => exact bounded_readAll.bind ih
  | read n k ih => exact (bounded_read n).bind ih
  | readExactly n k ih => exact (bounded_readExactly n).bind ih
  | readInt n k ih => exact (bounded_readInt n).bind ih
  | readVar n k ih => exact (bounded_readVar n).bind ih
  | readListInt n m k ih => exact (bounded_readListInt n m).bind ih
  | readListVar n m k ih => exact (bounded_readListVar n m).bind ih
  | tell k ih => intro b pos l ls hl; exact ih pos b pos l ls hl
  | limit n body k ihb ihk => exact (bounded_limit n ihb).bind ihk

theorem limit_ok_eq {α} (n : Nat) (p : P α) (rest : Bytes) (pos : Nat) (lims : List Nat)
    (h : ∀ l ∈ lims.head?, pos + n ≤ l) :
    limit n p ⟨rest, pos, lims⟩ = match p ⟨rest, pos, (pos + n) :: lims⟩ with
      | .error e => .error e
      | .ok (a, s') =>
        if pos + n ≠ s'.pos then .error .bufTooMuch
        else .ok (a, { s' with lims := s'.lims.tail }) := by
  unfold limit
  cases lims with
  | nil => rfl
  | cons l ls =>
    have := h l (by simp)
    have hn : ¬ (decide (pos + n > l) = true) := by simp; omega
    exact if_neg hn

theorem limit_loose_eq {α} (n : Nat) (p : P α) (rest : Bytes) (pos : Nat) (lims : List Nat)
    (h : ¬ ∀ l ∈ lims.head?, pos + n ≤ l) : limit n p ⟨rest, pos, lims⟩ = .error .valueError := by
  unfold limit
  cases lims with
  | nil => simp at h
  | cons l ls =>
    simp at h
    simp [h]

/-- the outermost limit, on a stream that may have no limit yet -/
theorem limit_bounded {α} (n : Nat) {p : P α} (hp : Bounded p) (s : Stream) :
    (∃ e, ∀ r, (s.rest.length < n → r = []) →
      limit n p { s with rest := s.rest.take n ++ r } = .error e) ∨
    (n ≤ s.rest.length ∧ ∃ v, ∀ r,
      limit n p { s with rest := s.rest.take n ++ r } =
        .ok (v, { s with rest := r, pos := s.pos + n })) := by
  obtain ⟨rest, pos, lims⟩ := s
  simp only
  by_cases hl : ∀ l ∈ lims.head?, pos + n ≤ l
  swap
  · exact .inl ⟨.valueError, fun r _ => limit_loose_eq n p _ pos lims hl⟩
  rcases hp (rest.take n) pos (pos + n) lims (by simp) with ⟨e, he⟩ | ⟨a, b₁, b₂, hb, ha⟩
  · left
    refine ⟨e, fun r hr => ?_⟩
    rw [limit_ok_eq n p _ pos lims hl, he r (fun h => hr (by simp at h; omega))]
  · have hlen := congrArg List.length hb
    simp at hlen
    by_cases hend : b₁.length = n
    · right
      have hb₂ : b₂ = [] := List.length_eq_zero_iff.mp (by omega)
      subst hb₂
      refine ⟨by omega, a, fun r => ?_⟩
      rw [limit_ok_eq n p _ pos lims hl, ha r (fun h => by simp at h; omega)]
      simp [hend]
    · left
      refine ⟨.bufTooMuch, fun r hr => ?_⟩
      rw [limit_ok_eq n p _ pos lims hl, ha r (fun h => hr (by simp at h; omega))]
      simp only
      rw [if_pos (by omega)]

end Siotls
