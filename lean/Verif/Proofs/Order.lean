import Verif.Proofs.Traces
import Verif.Spec.Exchange
/-!
# The order table and the messages exchanged

Behind C20, C21, C28, C29 and C30.
-/

namespace Siotls

variable {E : Env} {G : Conn → Prop}

/-- the messages that lead to place `i` of the table from place 1 -/
def words : Nat → List (List (Side × Nat))
  | 0 => []
  | 1 => [[]]
  | i + 2 => match order[i + 1]? with
    | none => []
    | some (s, t, k) => (words (i + 1)).map (· ++ [(s, t)]) ++ if k then words (i + 1) else []

/-- after `base` at place 1, the messages `l` led to place `i` -/
def At (base : List (Side × Nat)) (i : Nat) (l : List (Side × Nat)) : Prop :=
  ∃ w ∈ words i, l = base ++ w

theorem At.zero {b l} (h : At b 0 l) : False := by
  obtain ⟨w, hw, _⟩ := h; cases hw

theorem At.start (b) : At b 1 b := ⟨[], .head _, by simp⟩

theorem At.one {b l} (h : At b 1 l) : l = b := by
  obtain ⟨w, hw, rfl⟩ := h
  have : w = [] := by simpa [words] using hw
  simp [this]

theorem At.take {b i l s t k} (h : At b i l) (ho : order[i]? = some (s, t, k)) :
    At b (i + 1) (l ++ [(s, t)]) := by
  obtain ⟨w, hw, rfl⟩ := h
  match i with
  | 0 => cases hw
  | i + 1 =>
    refine ⟨w ++ [(s, t)], ?_, by simp⟩
    simp only [words, ho, List.mem_append, List.mem_map]
    exact .inl ⟨w, hw, rfl⟩

theorem At.skip {b i l s t} (h : At b i l) (ho : order[i]? = some (s, t, true)) :
    At b (i + 1) l := by
  obtain ⟨w, hw, rfl⟩ := h
  match i with
  | 0 => cases hw
  | i + 1 =>
    refine ⟨w, ?_, rfl⟩
    simp only [words, ho, List.mem_append, ↓reduceIte]
    exact .inr hw

theorem At.two {b l} (h : At b 2 l) : l = b ++ [(.client, 1)] := by
  obtain ⟨w, hw, rfl⟩ := h
  have : w = [(.client, 1)] := by simpa [words, order] using hw
  simp [this]

theorem At.three {b l} (h : At b 3 l) : l = b ++ [(.client, 1), (.server, 2)] := by
  obtain ⟨w, hw, rfl⟩ := h
  have : w = [(.client, 1), (.server, 2)] := by simpa [words, order] using hw
  simp [this]

/-- what the skip loop does -/
theorem skipLoop_spec (side : Side) (type : Nat) (xs : List (Side × Nat × Bool)) (i : Nat)
    (hx : xs = order.drop i) :
    i ≤ skipLoop side type xs i ∧
      ∀ m, i ≤ m → m < skipLoop side type xs i → ∃ s t, order[m]? = some (s, t, true) := by
  induction xs generalizing i with
  | nil => exact ⟨le_refl _, fun m h1 h2 => by simp only [skipLoop] at h2; omega⟩
  | cons x xs ih =>
    obtain ⟨s, t, k⟩ := x
    simp only [skipLoop]
    split
    · rename_i hk
      have hi : order[i]? = some (s, t, k) := by
        have := congrArg List.head? hx
        rw [List.head?_cons, List.head?_drop] at this
        exact this.symm
      have hxs : xs = order.drop (i + 1) := by
        have := congrArg List.tail hx
        rw [List.tail_cons, List.tail_drop] at this
        exact this
      obtain ⟨h1, h2⟩ := ih (i + 1) hxs
      refine ⟨by omega, fun m hm1 hm2 => ?_⟩
      rcases Nat.lt_or_ge i m with h | h
      · exact h2 m h hm2
      · have : m = i := by omega
        subst this
        exact ⟨s, t, by rw [hi, hk.1]⟩
    · exact ⟨le_refl _, fun m h1 h2 => by omega⟩

/-- places that cannot be skipped -/
theorem skip_place {i : Nat} {s t} (h : order[i]? = some (s, t, true)) :
    i = 4 ∨ i = 8 ∨ i = 9 ∨ i = 10 := by
  have : ∀ i < 12, ∀ x, order[i]? = some x → x.2.2 = true → i = 4 ∨ i = 8 ∨ i = 9 ∨ i = 10 := by
    decide
  rcases Nat.lt_or_ge i 12 with hi | hi
  · exact this i hi _ h rfl
  · rw [List.getElem?_eq_none (by simpa [order] using hi)] at h; cases h

/-- the results of `Transcript.update`: `j` is the place where the loop stopped -/
inductive UpdView (t : Transcript) (d : Bytes) (s : Side) (ty : Nat) :
    Except Exn Bool → Transcript → Prop
  | over : t.orderI = 12 → UpdView t d s ty (.ok false) t
  | taken {j k} : t.orderI ≤ j → (∀ m, t.orderI ≤ m → m < j → ∃ s t, order[m]? = some (s, t, true)) →
      order[j]? = some (s, ty, k) → t.orderI ≠ 12 →
      UpdView t d s ty (.ok true) ⟨t.hashes.map fun h => (h.1, h.2 ++ d), j + 1⟩
  | refused {j e} : t.orderI ≤ j → (∀ m, t.orderI ≤ m → m < j → ∃ s t, order[m]? = some (s, t, true)) →
      t.orderI ≠ 12 → UpdView t d s ty (.error e) { t with orderI := j }

theorem update_view {t t' : Transcript} {d : Bytes} {s : Side} {ty : Nat} {r}
    (h : t.update d s ty = (r, t')) : UpdView t d s ty r t' := by
  unfold Transcript.update at h
  split at h
  · rename_i h12; cases h; exact .over h12
  · rename_i h12
    have h12 : t.orderI ≠ 12 := h12
    dsimp only at h
    obtain ⟨h1, h2⟩ := skipLoop_spec s ty _ t.orderI rfl
    split at h
    · cases h; exact .refused h1 h2 h12
    · rename_i s' ty' k hget
      split at h
      · rename_i hm
        cases h
        rw [hm.1, hm.2] at hget
        exact .taken h1 h2 hget h12
      · cases h; exact .refused h1 h2 h12

/-- nothing is skipped before place 4 -/
theorem no_skip {i j : Nat} (h : i ≤ j) (hs : ∀ m, i ≤ m → m < j → ∃ s t, order[m]? = some (s, t, true))
    (hi : i < 4) : j = i := by
  rcases Nat.lt_or_ge i j with h' | h'
  · obtain ⟨s, t, hm⟩ := hs i (le_refl _) h'
    have := skip_place hm; omega
  · omega

theorem At.skips {b l} {i j : Nat} (h : At b i l) (hij : i ≤ j)
    (hs : ∀ m, i ≤ m → m < j → ∃ s t, order[m]? = some (s, t, true)) : At b j l := by
  induction j with
  | zero => have : i = 0 := by omega
            subst this; exact h
  | succ j ih =>
    rcases Nat.lt_or_ge j i with h' | h'
    · have : i = j + 1 := by omega
      subst this; exact h
    · obtain ⟨s, t, hm⟩ := hs j h' (by omega)
      exact (ih h' fun m h1 h2 => hs m h1 (by omega)).skip hm

/-- the end is never reached by skipping -/
theorem skips_end {i j : Nat} (hij : i ≤ j)
    (hs : ∀ m, i ≤ m → m < j → ∃ s t, order[m]? = some (s, t, true)) (hi : i ≠ 12) : j ≠ 12 := by
  rintro rfl
  obtain ⟨s, t, hm⟩ := hs 11 (by omega) (by omega)
  have := skip_place hm; omega

theorem place_lt {i : Nat} {x} (h : order[i]? = some x) : i < 12 := by
  rcases Nat.lt_or_ge i 12 with hi | hi
  · exact hi
  · rw [List.getElem?_eq_none (by simpa [order] using hi)] at h; cases h

/-- the sender and type at a place -/
theorem place_kind {j : Nat} {s t k} (h : order[j]? = some (s, t, k)) :
    ((s, t) = (.client, 1) → j = 1) ∧ (t = 2 → j = 0 ∨ j = 2) ∧ (t = 8 ↔ j = 3) ∧
    ((s, t) = (.server, 11) → j = 5) ∧ (s = .client → j = 1 ∨ 8 ≤ j) ∧
    ((s, t) = (.client, 20) ↔ j = 11) := by
  have : ∀ j < 12, ∀ x, order[j]? = some x →
    ((x.1, x.2.1) = (.client, 1) → j = 1) ∧ (x.2.1 = 2 → j = 0 ∨ j = 2) ∧ (x.2.1 = 8 ↔ j = 3) ∧
    ((x.1, x.2.1) = (.server, 11) → j = 5) ∧ (x.1 = .client → j = 1 ∨ 8 ≤ j) ∧
    ((x.1, x.2.1) = (.client, 20) ↔ j = 11) := by decide
  exact this j (place_lt h) _ h

/-- the message sequences of the table are beginnings of handshakes -/
theorem words_prefix {i : Nat} {w} (h : w ∈ words i) : ∃ request early cert verify,
    w <+: Spec.handshake 0 request early cert verify := by
  have : ∀ i < 13, ∀ w ∈ words i, ∃ request early cert verify,
      w <+: Spec.handshake 0 request early cert verify := by decide
  rcases Nat.lt_or_ge i 13 with hi | hi
  · exact this i hi w h
  · have : words i = [] := by
      match i, hi with
      | i + 2, hi =>
        simp only [words]
        rw [List.getElem?_eq_none (by simp [order]; omega)]
    rw [this] at h; cases h

/-- the Certificate of the server comes at most once, between places 5 and 6 -/
theorem words_cert {i : Nat} {w} (h : w ∈ words i) :
    w.count (.server, 11) = if i ≤ 5 then 0 else 1 := by
  have : ∀ i < 13, ∀ w ∈ words i, w.count (.server, 11) = if i ≤ 5 then 0 else 1 := by decide
  rcases Nat.lt_or_ge i 13 with hi | hi
  · exact this i hi w h
  · have : words i = [] := by
      match i, hi with
      | i + 2, hi =>
        simp only [words]
        rw [List.getElem?_eq_none (by simp [order]; omega)]
    rw [this] at h; cases h

theorem At.le {b i l} (h : At b i l) : 1 ≤ i ∧ i ≤ 12 := by
  obtain ⟨w, hw, _⟩ := h
  match i with
  | 0 => cases hw
  | 1 => omega
  | i + 2 =>
    simp only [words] at hw
    cases ho : order[i + 1]? with
    | none => rw [ho] at hw; cases hw
    | some x => have := place_lt ho; omega

/-! ## events -/

def kinds (tr : List Ev) : List (Side × Nat) := (exchanged tr).map Msg.kind

/-- events that carry no handshake message -/
def Mute : Ev → Prop
  | .hashed .. => False
  | _ => True

theorem exchanged_mute {l tr : List Ev} (h : ∀ e ∈ l, Mute e) : exchanged (l ++ tr) = exchanged tr := by
  induction l with
  | nil => rfl
  | cons e l ih =>
    have := h e (.head _)
    have ih := ih fun e he => h e (.tail _ he)
    cases e <;> first | exact ih | cases this

theorem mute_keyEvents (l : List PyStr) (k k' : CipherSt) : ∀ e ∈ keyEvents l k k', Mute e := by
  intro e he
  rcases mem_keyEvents he with ⟨_, _, rfl⟩ | ⟨_, _, rfl⟩ | ⟨_, _, rfl⟩ <;> trivial

theorem exchanged_keyEvents (l : List PyStr) (k k' : CipherSt) (tr : List Ev) :
    exchanged (keyEvents l k k' ++ tr) = exchanged tr := exchanged_mute (mute_keyEvents l k k')

theorem exchanged_emit (content : Content) (records : List (Nat × Bytes × Bytes)) (tr : List Ev) :
    exchanged (.sent content :: ((records.map fun r => Ev.record r.1 r.2.1).reverse ++ tr)) =
      exchanged tr := by
  refine exchanged_mute (l := .sent content :: (records.map fun r => Ev.record r.1 r.2.1).reverse) ?_
  intro e he
  simp only [List.mem_cons, List.mem_reverse, List.mem_map] at he
  rcases he with rfl | ⟨r, _, rfl⟩ <;> trivial

end Siotls
