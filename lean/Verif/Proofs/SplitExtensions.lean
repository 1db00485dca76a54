import Verif.Model.SplitExtensions
import Verif.Proofs.Encoding
import Verif.Proofs.Canon
/-! Helper lemmas: `split_extensions`. -/

namespace Siotls
open Serial Spec.Rfc

/-- What follows a successful loop: the items are laid out one after the other up to where the
stream is. -/
theorem untilPos_canonical {α} {p : P α} {f : α → Except Exn Bytes} (hp : Canonical p f)
    (lim : Nat) : ∀ (k : Nat) (s s' : Stream) (l : List α), untilPos p lim k s = .ok (l, s') →
      ∃ out, concatMapM f l = .ok out ∧ s.rest = out ++ s'.rest ∧
        s'.pos = s.pos + out.length ∧ s'.lims = s.lims := by
  intro k
  induction k with
  | zero =>
    intro s s' l h
    unfold untilPos at h
    split at h
    · cases h
    · cases h; exact ⟨[], rfl, rfl, rfl, rfl⟩
  | succ k ih =>
    intro s s' l h
    unfold untilPos at h
    split at h
    · dsimp only at h
      split at h
      · cases h
      · next a s₁ ha =>
        split at h
        · cases h
        · next as s₂ has =>
          cases h
          obtain ⟨o, h1, h2, h3, h4⟩ := hp _ _ _ ha
          obtain ⟨o', h1', h2', h3', h4'⟩ := ih _ _ _ has
          refine ⟨o ++ o', concatMapM_cons_ok.mpr ⟨o, o', h1, h1', rfl⟩, ?_, ?_, h4'.trans h4⟩
          · rw [h2, h2', List.append_assoc]
          · rw [h3', h3, List.length_append]; omega
    · cases h; exact ⟨[], rfl, rfl, rfl, rfl⟩

/-- the bytes of one raw extension -/
def writeRaw (x : Nat × Bytes) : Except Exn Bytes := do
  let t ← toBytes 2 x.1
  let d ← writeVar 2 x.2
  return t ++ d

theorem canonical_raw : Canonical rawExtension writeRaw := by
  intro s v s' h
  unfold rawExtension at h
  rw [P.bind_def] at h
  split at h
  · next t s₁ ht =>
    rw [P.bind_def] at h
    split at h
    · next d s₂ hd =>
      cases h
      obtain ⟨o, h1, h2, h3, h4⟩ := canonical_readInt _ _ _ ht
      obtain ⟨o', h1', h2', h3', h4'⟩ := canonical_readVar _ _ _ hd
      refine ⟨o ++ o', ?_, by rw [h2, h2', List.append_assoc], ?_, h4'.trans h4⟩
      · unfold writeRaw
        simp only [writeInt] at h1
        simp only [h1, h1', Except.bind_def]
        rfl
      · rw [h3', h3, List.length_append]; omega
    · cases h
  · cases h

theorem raw_ok {x : Nat × Bytes} {b : Bytes} :
    writeRaw x = .ok b ↔ Pair (Num 2 x.1) (Vec 2 x.2) b :=
  pair_ok (fun _ => num_ok) (fun _ => vec_ok)

theorem raw_parses {x : Nat × Bytes} {b : Bytes} (h : Pair (Num 2 x.1) (Vec 2 x.2) b) :
    Parses rawExtension b x := by
  refine Parses.pair h (fun _ h => .num (by decide) h) fun y hy => ?_
  exact Parses.bind_pure (f := fun d => pure (x.1, d)) (.vec (by decide) hy) rfl

theorem raw_ne {x : Nat × Bytes} {b : Bytes} (h : Pair (Num 2 x.1) (Vec 2 x.2) b) : b ≠ [] := by
  obtain ⟨u, v, ⟨hu, -⟩, -, rfl⟩ := h
  intro h0
  rw [List.append_eq_nil_iff] at h0
  rw [h0.1] at hu
  cases hu

/-- The two errors of a stream that ends too early or goes on too long. -/
def Spec.Misfit (e : Exn) : Prop := e = .bufMissing ∨ e = .bufTooMuch

theorem readExactly_misfit {n : Nat} {s : Stream} {e : Exn} (h : readExactly n s = .error e) :
    Spec.Misfit e := by
  unfold readExactly at h
  split at h
  · cases h
  · split at h
    · next hr =>
      cases h
      unfold Serial.read at hr
      split at hr
      · cases hr
      · split at hr
        · cases hr; exact .inr rfl
        · cases hr
    · split at h
      · cases h
      · cases h; exact .inl rfl

theorem readInt_misfit {n : Nat} (hn : n ≠ 0) {s : Stream} {e : Exn}
    (h : readInt n s = .error e) : Spec.Misfit e := by
  unfold readInt at h
  rw [if_neg hn, P.bind_def] at h
  split at h
  · cases h
  · next hr => cases h; exact readExactly_misfit hr

theorem raw_misfit {s : Stream} {e : Exn} (h : rawExtension s = .error e) : Spec.Misfit e := by
  unfold rawExtension at h
  rw [P.bind_def] at h
  split at h
  · rw [P.bind_def] at h
    split at h
    · cases h
    · next hr =>
      cases h
      unfold readVar at hr
      rw [P.bind_def] at hr
      split at hr
      · exact readExactly_misfit hr
      · next hr' => cases hr; exact readInt_misfit (by decide) hr'
  · next hr => cases h; exact readInt_misfit (by decide) hr

/-- Every round of the loop takes bytes, so it ends by itself. -/
theorem split_misfit (lim : Nat) : ∀ (k : Nat) (s : Stream) (e : Exn), s.rest.length < k →
    untilPos rawExtension lim k s = .error e → Spec.Misfit e := by
  intro k
  induction k with
  | zero => intro s e hk; omega
  | succ k ih =>
    intro s e hk h
    unfold untilPos at h
    split at h
    · dsimp only at h
      split at h
      · next hr => cases h; exact raw_misfit hr
      · next a s₁ ha =>
        split at h
        · next hr =>
          cases h
          obtain ⟨o, h1, h2, -⟩ := canonical_raw _ _ _ ha
          have := List.length_pos_iff.mpr (raw_ne (raw_ok.mp h1))
          refine ih _ _ ?_ hr
          rw [h2, List.length_append] at hk
          omega
        · cases h
    · cases h

end Siotls
