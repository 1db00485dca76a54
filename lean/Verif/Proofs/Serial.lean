import Verif.Model.Serial
import Verif.Proofs.Bytes
/-!
# Lemmas about `SerialIO`
-/

namespace Siotls
open Serial

/-- The innermost limit leaves room for `n` bytes. -/
def Fits (s : Stream) (n : Nat) : Prop := ∀ l ∈ s.lims.head?, s.pos + n ≤ l

/-- `p` reads exactly `b` (whatever follows) and returns `v`. -/
def Parses {α} (p : P α) (b : Bytes) (v : α) : Prop :=
  ∀ rest pos lims, (∀ l ∈ lims.head?, pos + b.length ≤ l) →
    p ⟨b ++ rest, pos, lims⟩ = .ok (v, ⟨rest, pos + b.length, lims⟩)

/-- `p` reads `b` when the innermost limit is exactly at its end. -/
def ParsesAll {α} (p : P α) (b : Bytes) (v : α) : Prop :=
  ∀ rest pos lims, p ⟨b ++ rest, pos, (pos + b.length) :: lims⟩ =
    .ok (v, ⟨rest, pos + b.length, (pos + b.length) :: lims⟩)

theorem P.bind_def {α β} (p : P α) (f : α → P β) (s : Stream) :
    (p >>= f) s = match p s with
      | .ok (a, s') => f a s'
      | .error e => .error e := by
  show (StateT.bind p f) s = _
  unfold StateT.bind
  show Except.bind (p s) _ = _
  cases h : p s <;> rfl

theorem P.pure_def {α} (a : α) (s : Stream) : (pure a : P α) s = .ok (a, s) := rfl

theorem P.map_def {α β} (f : α → β) (p : P α) (s : Stream) :
    (f <$> p) s = match p s with
      | .ok (a, s') => .ok (f a, s')
      | .error e => .error e := by
  show (StateT.map f p) s = _
  unfold StateT.map
  show Except.bind (p s) _ = _
  cases h : p s <;> rfl

theorem Except.bind_def {α β} (x : Except Exn α) (f : α → Except Exn β) :
    (x >>= f) = match x with
      | .ok a => f a
      | .error e => .error e := by cases x <;> rfl

theorem Except.bind_eq_ok {α β} {x : Except Exn α} {f : α → Except Exn β} {b : β} :
    (x >>= f) = .ok b ↔ ∃ a, x = .ok a ∧ f a = .ok b := by
  cases x <;> simp [Except.bind_def]

theorem Except.pure_eq_ok {α} {a b : α} : ((pure a : Except Exn α) = .ok b) ↔ a = b := by
  show (Except.ok a = .ok b) ↔ _
  simp

theorem Parses.all {α} {p : P α} {b : Bytes} {v : α} (h : Parses p b v) : ParsesAll p b v :=
  fun rest pos lims => h rest pos _ (by simp)

theorem Parses.pure {α} (v : α) : Parses (pure v : P α) [] v := by
  intro rest pos lims _; simp [P.pure_def]

theorem Parses.bind {α β} {p : P α} {f : α → P β} {b₁ b₂ : Bytes} {v₁ : α} {v₂ : β}
    (h₁ : Parses p b₁ v₁) (h₂ : Parses (f v₁) b₂ v₂) : Parses (p >>= f) (b₁ ++ b₂) v₂ := by
  intro rest pos lims hl
  have e : p ⟨b₁ ++ (b₂ ++ rest), pos, lims⟩ = _ := h₁ (b₂ ++ rest) pos lims (by
    intro l h; have := hl l h; simp at this; omega)
  have e2 : f v₁ ⟨b₂ ++ rest, pos + b₁.length, lims⟩ = _ := h₂ rest (pos + b₁.length) lims (by
    intro l h; have := hl l h; simp at this; omega)
  rw [P.bind_def, List.append_assoc, e]
  simp only [e2, List.length_append, Nat.add_assoc]

theorem ParsesAll.bind {α β} {p : P α} {f : α → P β} {b₁ b₂ : Bytes} {v₁ : α} {v₂ : β}
    (h₁ : Parses p b₁ v₁) (h₂ : ParsesAll (f v₁) b₂ v₂) : ParsesAll (p >>= f) (b₁ ++ b₂) v₂ := by
  intro rest pos lims
  have e := h₁ (b₂ ++ rest) pos ((pos + (b₁ ++ b₂).length) :: lims) (by simp)
  have e2 := h₂ rest (pos + b₁.length) lims
  rw [P.bind_def, List.append_assoc, e]
  simp only [List.length_append, ← Nat.add_assoc] at *
  exact e2

theorem ParsesAll.map {α β} {p : P α} {b : Bytes} {v : α} (f : α → β) (h : ParsesAll p b v) :
    ParsesAll (f <$> p) b (f v) := by
  intro rest pos lims
  rw [P.map_def, h rest pos lims]

theorem Parses.map {α β} {p : P α} {b : Bytes} {v : α} (f : α → β) (h : Parses p b v) :
    Parses (f <$> p) b (f v) := by
  intro rest pos lims hl
  rw [P.map_def, h rest pos lims hl]

theorem Parses.lift {α} {r : Except Exn α} {v : α} (h : r = .ok v) : Parses (P.lift r) [] v := by
  intro rest pos lims _; simp [P.lift, h]

/-- a computation without reading, before the rest -/
theorem Parses.lift_bind {α β} {r : Except Exn α} {f : α → P β} {v₁ : α} {b : Bytes} {v₂ : β}
    (h : r = .ok v₁) (h₂ : Parses (f v₁) b v₂) : Parses (P.lift r >>= f) b v₂ :=
  Parses.bind (b₁ := []) (Parses.lift h) h₂

theorem Parses.bind_pure {α β} {p : P α} {f : α → P β} {b : Bytes} {v₁ : α} {v₂ : β}
    (h₁ : Parses p b v₁) (h₂ : f v₁ = Pure.pure v₂) : Parses (p >>= f) b v₂ := by
  have := Parses.bind (f := f) (v₂ := v₂) (b₂ := []) h₁ (by rw [h₂]; exact Parses.pure v₂)
  simpa using this

theorem parses_readExactly (b : Bytes) : Parses (readExactly b.length) b b := by
  intro rest pos lims hl
  unfold readExactly
  by_cases h0 : b.length = 0
  · simp [List.length_eq_zero_iff.mp h0]
  · rw [if_neg h0]
    have : Serial.read b.length ⟨b ++ rest, pos, lims⟩ =
        .ok (b, ⟨rest, pos + b.length, lims⟩) := by
      unfold Serial.read rawRead
      cases lims with
      | nil => simp
      | cons l ls =>
        have := hl l (by simp)
        simp only [gt_iff_lt]
        rw [if_neg (by omega)]
        simp
    rw [this]; simp

theorem parses_readExactly' {n : Nat} {b : Bytes} (h : b.length = n) :
    Parses (readExactly n) b b := h ▸ parses_readExactly b

theorem parses_readInt {n i : Nat} (hn : n ≠ 0) (hi : i < 256 ^ n) :
    Parses (readInt n) (beEnc n i) i := by
  unfold readInt
  rw [if_neg hn]
  exact Parses.bind_pure (parses_readExactly' (length_beEnc n i)) (by rw [beDec_beEnc hi])

theorem toBytes_ok {n i : Nat} {b : Bytes} : toBytes n i = .ok b ↔ i < 256 ^ n ∧ beEnc n i = b := by
  unfold toBytes; split <;> simp_all

theorem parses_toBytes {n i : Nat} {b : Bytes} (hn : n ≠ 0) (h : toBytes n i = .ok b) :
    Parses (readInt n) b i := by
  obtain ⟨hi, rfl⟩ := toBytes_ok.mp h
  exact parses_readInt hn hi

theorem writeVar_ok {n : Nat} {b out : Bytes} :
    writeVar n b = .ok out ↔ b.length < 256 ^ n ∧ beEnc n b.length ++ b = out := by
  unfold writeVar
  rw [Except.bind_eq_ok]
  constructor
  · rintro ⟨a, h1, h2⟩
    obtain ⟨h, rfl⟩ := toBytes_ok.mp h1
    exact ⟨h, Except.pure_eq_ok.mp h2⟩
  · rintro ⟨h1, h2⟩
    exact ⟨_, toBytes_ok.mpr ⟨h1, rfl⟩, Except.pure_eq_ok.mpr h2⟩

theorem parses_readVar {n : Nat} {b : Bytes} (hn : n ≠ 0) (hb : b.length < 256 ^ n) :
    Parses (readVar n) (beEnc n b.length ++ b) b :=
  Parses.bind (parses_readInt hn hb) (parses_readExactly b)

theorem parses_writeVar {n : Nat} {b out : Bytes} (hn : n ≠ 0) (h : writeVar n b = .ok out) :
    Parses (readVar n) out b := by
  obtain ⟨hb, rfl⟩ := writeVar_ok.mp h
  exact parses_readVar hn hb

/-! ### lists -/

theorem concatMapM_cons_ok {α} {f : α → Except Exn Bytes} {a : α} {as : List α} {out : Bytes} :
    concatMapM f (a :: as) = .ok out ↔
      ∃ x y, f a = .ok x ∧ concatMapM f as = .ok y ∧ x ++ y = out := by
  show (f a >>= fun x => concatMapM f as >>= fun y => Pure.pure (x ++ y)) = _ ↔ _
  simp only [Except.bind_eq_ok, Except.pure_eq_ok]
  grind

theorem concatMapM_toBytes_length {n : Nat} {l : List Nat} {out : Bytes}
    (h : concatMapM (toBytes n) l = .ok out) : out.length = l.length * n := by
  induction l generalizing out with
  | nil => simp [concatMapM] at h; subst h; simp
  | cons a as ih =>
    obtain ⟨x, y, hx, hy, rfl⟩ := concatMapM_cons_ok.mp h
    obtain ⟨_, rfl⟩ := toBytes_ok.mp hx
    simp [ih hy, Nat.succ_mul]; omega

theorem chunkInts_concat {n : Nat} (hn : n ≠ 0) {l : List Nat} {out : Bytes}
    (h : concatMapM (toBytes n) l = .ok out) (k : Nat) (hk : l.length ≤ k) :
    chunkInts n k out = l := by
  induction l generalizing out k with
  | nil => simp [concatMapM] at h; subst h; cases k <;> simp [chunkInts]
  | cons a as ih =>
    obtain ⟨x, y, hx, hy, rfl⟩ := concatMapM_cons_ok.mp h
    obtain ⟨ha, rfl⟩ := toBytes_ok.mp hx
    cases k with
    | zero => simp at hk
    | succ k =>
      have hne : (beEnc n a ++ y).isEmpty = false := by
        rw [List.isEmpty_eq_false_iff]; intro h
        have := congrArg List.length h
        simp at this; omega
      unfold chunkInts
      rw [hne]
      have hl := length_beEnc n a
      rw [List.take_left' hl, List.drop_left' hl, beDec_beEnc ha,
        ih hy k (by simp at hk; omega)]
      simp

theorem writeListInt_ok {nlist nitem : Nat} {l : List Nat} {out : Bytes} :
    writeListInt nlist nitem l = .ok out ↔
      ∃ b, l.length * nitem < 256 ^ nlist ∧ concatMapM (toBytes nitem) l = .ok b ∧
        beEnc nlist (l.length * nitem) ++ b = out := by
  unfold writeListInt
  simp only [Except.bind_eq_ok, Except.pure_eq_ok, toBytes_ok]
  grind

theorem parses_writeListInt {nlist nitem : Nat} {l : List Nat} {out : Bytes} (h1 : nlist ≠ 0)
    (h2 : nitem ≠ 0) (h : writeListInt nlist nitem l = .ok out) :
    Parses (readListInt nlist nitem) out l := by
  obtain ⟨b, hlt, hb, rfl⟩ := writeListInt_ok.mp h
  have hlen := concatMapM_toBytes_length hb
  unfold readListInt
  refine Parses.bind (parses_readInt h1 hlt) ?_
  rw [if_neg (by simp)]
  refine Parses.bind_pure (parses_readExactly' hlen) ?_
  rw [chunkInts_concat h2 hb _ (by rw [hlen]; exact Nat.le_mul_of_pos_right _ (by omega))]

/-- A parser that consumes `b` when it is alone in a stream without limit. -/
theorem Parses.run {α} {p : P α} {b : Bytes} {v : α} (h : Parses p b v) (rest : Bytes) (pos : Nat) :
    p ⟨b ++ rest, pos, []⟩ = .ok (v, ⟨rest, pos + b.length, []⟩) := h rest pos [] (by simp)

theorem untilEof_concat {α} {p : P α} {f : α → Except Exn Bytes} {l : List α} {out : Bytes}
    (hp : ∀ a ∈ l, ∀ x, f a = .ok x → x ≠ [] ∧ Parses p x a)
    (h : concatMapM f l = .ok out) (k pos : Nat) (hk : l.length ≤ k) :
    untilEof p k ⟨out, pos, []⟩ = .ok l := by
  induction l generalizing out k pos with
  | nil => simp [concatMapM] at h; subst h; unfold untilEof; simp
  | cons a as ih =>
    obtain ⟨x, y, hx, hy, rfl⟩ := concatMapM_cons_ok.mp h
    obtain ⟨hne, hpx⟩ := hp a (by simp) x hx
    cases k with
    | zero => simp at hk
    | succ k =>
      unfold untilEof
      have : (x ++ y).isEmpty = false := by
        cases x <;> simp_all
      simp only [this, Bool.false_eq_true, if_false]
      rw [hpx.run y pos, ]
      simp only []
      rw [ih (fun a ha => hp a (by simp [ha])) hy k _ (by simp at hk; omega)]

theorem concatMapM_length_le {α} {f : α → Except Exn Bytes} {l : List α} {out : Bytes}
    (hp : ∀ a ∈ l, ∀ x, f a = .ok x → x ≠ []) (h : concatMapM f l = .ok out) :
    l.length ≤ out.length := by
  induction l generalizing out with
  | nil => simp
  | cons a as ih =>
    obtain ⟨x, y, hx, hy, rfl⟩ := concatMapM_cons_ok.mp h
    have := ih (fun a ha => hp a (by simp [ha])) hy
    have := List.length_pos_iff.mpr (hp a (by simp) x hx)
    simp; omega

theorem parseMany_concat {α} {p : P α} {f : α → Except Exn Bytes} {l : List α} {out : Bytes}
    (hp : ∀ a ∈ l, ∀ x, f a = .ok x → x ≠ [] ∧ Parses p x a)
    (h : concatMapM f l = .ok out) : parseMany p out = .ok l :=
  untilEof_concat hp h _ _ (concatMapM_length_le (fun a ha x hx => (hp a ha x hx).1) h)

theorem beEnc_ne_nil {n i : Nat} (hn : n ≠ 0) : beEnc n i ≠ [] := by
  intro h; have := congrArg List.length h; simp at this; omega

theorem parses_writeListVar {nlist nitem : Nat} {l : List Bytes} {out : Bytes} (h1 : nlist ≠ 0)
    (h2 : nitem ≠ 0) (h : writeListVar nlist nitem l = .ok out) :
    Parses (readListVar nlist nitem) out l := by
  unfold writeListVar at h
  obtain ⟨b, hb, hw⟩ := Except.bind_eq_ok.mp h
  unfold readListVar
  have hm : parseMany (readVar nitem) b = .ok l := parseMany_concat (fun a _ x hx => by
    refine ⟨?_, parses_writeVar h2 hx⟩
    obtain ⟨_, rfl⟩ := writeVar_ok.mp hx
    simp [beEnc_ne_nil h2]) hb
  have := Parses.bind (f := fun b => P.lift (parseMany (readVar nitem) b)) (b₂ := [])
    (parses_writeVar h1 hw) (Parses.lift hm)
  simpa using this

theorem parses_limit {α} {p : P α} {b : Bytes} {v : α} {n : Nat} (hn : b.length = n)
    (h : ParsesAll p b v) : Parses (limit n p) b v := by
  subst hn
  intro rest pos lims hl
  have e := h rest pos lims
  unfold limit
  cases lims with
  | nil => simp [e]
  | cons l ls =>
    have := hl l (by simp)
    have h2 : ¬ (l < pos + b.length) := by omega
    simp [h2, e]

theorem parsesAll_readAll (b : Bytes) : ParsesAll readAll b b := by
  intro rest pos lims
  unfold readAll rawRead
  simp

end Siotls
