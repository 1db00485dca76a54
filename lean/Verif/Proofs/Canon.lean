import Verif.Proofs.Serial
/-!
# What the readers accept is what the writers produce
-/

namespace Siotls
open Serial

/-- The reader `p` consumes exactly the bytes that `f` writes for the value it returns. -/
def Canonical {α} (p : P α) (f : α → Except Exn Bytes) : Prop :=
  ∀ s v s', p s = .ok (v, s') → ∃ out, f v = .ok out ∧ s.rest = out ++ s'.rest ∧
    s'.pos = s.pos + out.length ∧ s'.lims = s.lims

theorem rawRead_ok {n : Nat} {s s' : Stream} {d : Bytes} (h : rawRead n s = .ok (d, s')) :
    s.rest = d ++ s'.rest ∧ s'.pos = s.pos + d.length ∧ s'.lims = s.lims := by
  simp only [rawRead, Except.ok.injEq, Prod.mk.injEq] at h
  obtain ⟨rfl, rfl⟩ := h
  simp

theorem read_ok {n : Nat} {s s' : Stream} {d : Bytes} (h : Serial.read n s = .ok (d, s')) :
    s.rest = d ++ s'.rest ∧ s'.pos = s.pos + d.length ∧ s'.lims = s.lims := by
  unfold Serial.read at h
  split at h
  · exact rawRead_ok h
  · split at h
    · cases h
    · exact rawRead_ok h

theorem readExactly_ok {n : Nat} {s s' : Stream} {d : Bytes} (h : readExactly n s = .ok (d, s')) :
    d.length = n ∧ s.rest = d ++ s'.rest ∧ s'.pos = s.pos + d.length ∧ s'.lims = s.lims := by
  unfold readExactly at h
  split at h
  · next hn => cases h; simp [hn]
  · split at h
    · cases h
    · next hr =>
      split at h
      · next hl => cases h; exact ⟨hl, read_ok hr⟩
      · cases h

theorem canonical_readInt {n : Nat} : Canonical (readInt n) (writeInt n) := by
  intro s v s' h
  unfold readInt at h
  split at h
  · cases h
  · rw [P.bind_def] at h
    split at h
    · next d s₁ hr =>
      cases h
      obtain ⟨hl, h1, h2, h3⟩ := readExactly_ok hr
      exact ⟨d, toBytes_ok.mpr ⟨hl ▸ beDec_lt d, by rw [← hl]; exact beEnc_beDec d⟩, h1, h2, h3⟩
    · cases h

theorem canonical_readVar {n : Nat} : Canonical (readVar n) (writeVar n) := by
  intro s v s' h
  unfold readVar at h
  rw [P.bind_def] at h
  split at h
  · next i s₁ hi =>
    obtain ⟨o, h1, h2, h3, h4⟩ := canonical_readInt _ _ _ hi
    obtain ⟨hl, h5, h6, h7⟩ := readExactly_ok h
    obtain ⟨hlt, ho⟩ := toBytes_ok.mp h1
    refine ⟨o ++ v, writeVar_ok.mpr ⟨hl ▸ hlt, by rw [hl, ho]⟩, by rw [h2, h5]; simp, ?_, by rw [h7, h4]⟩
    rw [h6, h3]; simp; omega
  · cases h

theorem chunkInts_canonical {n : Nat} (hn : n ≠ 0) : ∀ (k : Nat) (b : Bytes), b.length ≤ k →
    b.length % n = 0 → concatMapM (toBytes n) (chunkInts n k b) = .ok b ∧
      (chunkInts n k b).length * n = b.length := by
  intro k
  induction k with
  | zero =>
    intro b hb _
    have : b = [] := List.length_eq_zero_iff.mp (by omega)
    subst this; exact ⟨rfl, by simp [chunkInts]⟩
  | succ k ih =>
    intro b hb hm
    unfold chunkInts
    split
    · next he =>
      have : b = [] := by simpa using he
      subst this; exact ⟨rfl, by simp⟩
    · next he =>
      have hne : b.length ≠ 0 := by
        intro h0; exact he (by simp [List.length_eq_zero_iff.mp h0])
      have hle : n ≤ b.length := by
        by_contra hlt
        rw [Nat.mod_eq_of_lt (by omega)] at hm; omega
      have ht : (b.take n).length = n := by simp; omega
      have hd : (b.drop n).length = b.length - n := by simp
      obtain ⟨i1, i2⟩ := ih (b.drop n) (by omega) (by
        rw [hd, ← Nat.mod_eq_sub_mod hle]; exact hm)
      refine ⟨concatMapM_cons_ok.mpr ⟨b.take n, b.drop n, ?_, i1, by simp⟩, ?_⟩
      · refine toBytes_ok.mpr ⟨?_, ?_⟩
        · have := beDec_lt (b.take n); rwa [ht] at this
        · have := beEnc_beDec (b.take n); rwa [ht] at this
      · rw [List.length_cons, Nat.add_mul, i2, hd]; omega

theorem canonical_readListInt {nlist nitem : Nat} (hn : nitem ≠ 0) :
    Canonical (readListInt nlist nitem) (writeListInt nlist nitem) := by
  intro s v s' h
  unfold readListInt at h
  rw [P.bind_def] at h
  split at h
  · next len s₁ hi =>
    split at h
    · cases h
    · next hm =>
      rw [P.bind_def] at h
      split at h
      · next b s₂ hb =>
        cases h
        obtain ⟨o, h1, h2, h3, h4⟩ := canonical_readInt _ _ _ hi
        obtain ⟨hl, h5, h6, h7⟩ := readExactly_ok hb
        obtain ⟨c1, c2⟩ := chunkInts_canonical hn b.length b le_rfl (by rw [hl]; exact not_not.mp hm)
        obtain ⟨hlt, ho⟩ := toBytes_ok.mp h1
        refine ⟨o ++ b, writeListInt_ok.mpr ?_, by rw [h2, h5]; simp, ?_, by rw [h7, h4]⟩
        · have hc : (chunkInts nitem b.length b).length * nitem = len := by omega
          exact ⟨b, by rw [hc]; exact hlt, c1, by rw [hc, ho]⟩
        · rw [h6, h3]; simp; omega
      · cases h
  · cases h

theorem untilEof_canonical {α} {p : P α} {f : α → Except Exn Bytes} (hp : Canonical p f) :
    ∀ (k : Nat) (s : Stream) (l : List α), untilEof p k s = .ok l → concatMapM f l = .ok s.rest := by
  intro k
  induction k with
  | zero =>
    intro s l h
    unfold untilEof at h
    split at h
    · next he => cases h; simp at he; simp [he, concatMapM]
    · cases h
  | succ k ih =>
    intro s l h
    unfold untilEof at h
    split at h
    · next he => cases h; simp at he; simp [he, concatMapM]
    · cases ha : p s with
      | error e => rw [ha] at h; cases h
      | ok r =>
        obtain ⟨a, s₁⟩ := r
        rw [ha] at h
        dsimp only at h
        cases has : untilEof p k s₁ with
        | error e => rw [has] at h; cases h
        | ok as =>
          rw [has] at h
          cases h
          obtain ⟨o, h1, h2, _, _⟩ := hp _ _ _ ha
          exact concatMapM_cons_ok.mpr ⟨o, s₁.rest, h1, ih _ _ has, h2.symm⟩

theorem canonical_readListVar {nlist nitem : Nat} :
    Canonical (readListVar nlist nitem) (writeListVar nlist nitem) := by
  intro s v s' h
  unfold readListVar at h
  rw [P.bind_def] at h
  split at h
  · next b s₁ hb =>
    obtain ⟨o, h1, h2, h3, h4⟩ := canonical_readVar _ _ _ hb
    unfold P.lift at h
    split at h
    · next l hl =>
      cases h
      have := untilEof_canonical canonical_readVar _ _ _ hl
      refine ⟨o, ?_, h2, h3, h4⟩
      unfold writeListVar
      rw [Stream.new] at this
      rw [this]; exact h1
    · cases h
  · cases h

end Siotls
