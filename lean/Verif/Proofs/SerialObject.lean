import Verif.Spec.StreamObject
import Verif.Proofs.Serial
/-!
# Lemmas for C107: the `SerialIO` object
-/

namespace Siotls
open Spec

theorem O.pure_def {α} (a : α) (s : SerialIO) : (Pure.pure a : O α) s = (.ok a, s) := rfl

theorem O.bind_def {α β} (m : O α) (f : α → O β) (s : SerialIO) :
    (m >>= f) s = match m s with
      | (.ok a, s') => f a s'
      | (.error e, s') => (.error e, s') := rfl

/-- `m` on the object does what `p` does on what is visible of it. -/
def Refines {α} (m : O α) (p : P α) : Prop :=
  ∀ s, InBounds s →
    (m s).2.buf = s.buf ∧
    match p (viewOf s) with
    | .ok (a, v) => ∃ s', m s = (.ok a, s') ∧ viewOf s' = v ∧ InBounds s' ∧ s'.lims = s.lims ∧
        s.pos ≤ s'.pos
    | .error e => (m s).1 = .error e ∧ s.pos ≤ (m s).2.pos ∧
        (m s).2.pos ≤ s.buf.length ∧ s.lims <:+ (m s).2.lims

theorem refines_pure {α} (a : α) : Refines (Pure.pure a : O α) (Pure.pure a) := by
  intro s hs
  exact ⟨rfl, s, rfl, rfl, hs, rfl, Nat.le_refl _⟩

theorem refines_throw {α} (e : Exn) : Refines (O.throw e : O α) (P.throw e) := by
  intro s hs
  exact ⟨rfl, rfl, Nat.le_refl _, hs.1, List.suffix_refl _⟩

theorem refines_bind {α β} {m : O α} {p : P α} {f : α → O β} {g : α → P β} (h : Refines m p)
    (hk : ∀ a, Refines (f a) (g a)) : Refines (m >>= f) (p >>= g) := by
  intro s hs
  obtain ⟨hb, h⟩ := h s hs
  rw [O.bind_def, show (p >>= g) (viewOf s) = (match p (viewOf s) with
    | .ok (a, v) => g a v
    | .error e => .error e) from by
      show (StateT.bind p g) (viewOf s) = _
      unfold StateT.bind
      cases p (viewOf s) <;> rfl]
  cases hp : p (viewOf s) with
  | error e =>
    rw [hp] at h
    cases hm : m s with
    | mk r s' =>
      rw [hm] at h hb
      obtain ⟨h1, h2⟩ := h
      cases h1
      exact ⟨hb, rfl, h2⟩
  | ok x =>
    obtain ⟨a, v⟩ := x
    rw [hp] at h
    obtain ⟨s', hm, hv, hi, hl, hpos⟩ := h
    rw [hm] at hb ⊢
    obtain ⟨hb2, h2⟩ := hk a s' hi
    refine ⟨hb2.trans hb, ?_⟩
    dsimp only
    rw [← hv]
    cases hg : g a (viewOf s') with
    | error e =>
      rw [hg] at h2
      obtain ⟨h3, h4, h5, h6⟩ := h2
      dsimp only at hb
      exact ⟨h3, Nat.le_trans hpos h4, hb ▸ h5, hl ▸ h6⟩
    | ok y =>
      rw [hg] at h2
      obtain ⟨s'', h3, h4, h5, h6, h7⟩ := h2
      exact ⟨s'', h3, h4, h5, h6.trans hl, Nat.le_trans hpos h7⟩

/-- `super().read` of at most `n` bytes that no limit forbids. -/
theorem superRead_some {s : SerialIO} (hs : InBounds s) (n : Nat)
    (hl : ∀ l ∈ s.lims, s.pos + n ≤ l) :
    ∃ s', Obj.superRead (some n) s = (.ok ((s.buf.drop s.pos).take n), s') ∧
      Serial.rawRead n (viewOf s) = .ok ((s.buf.drop s.pos).take n, viewOf s') ∧
      InBounds s' ∧ s'.lims = s.lims ∧ s.pos ≤ s'.pos ∧ s'.buf = s.buf := by
  obtain ⟨h1, h2⟩ := hs
  have hlen : ((s.buf.drop s.pos).take n).length = min n (s.buf.length - s.pos) := by
    simp
  refine ⟨_, rfl, ?_, ⟨?_, ?_⟩, rfl, Nat.le_add_right _ _, rfl⟩
  · show Except.ok _ = Except.ok _
    congr 2
    unfold viewOf
    dsimp only
    rw [List.drop_drop]
    congr 1
    rw [hlen]
    rcases Nat.le_total n (s.buf.length - s.pos) with h | h
    · rw [Nat.min_eq_left h]
    · rw [Nat.min_eq_right h, List.drop_eq_nil_of_le (by omega), List.drop_eq_nil_of_le (by omega)]
  · show s.pos + ((s.buf.drop s.pos).take n).length ≤ s.buf.length
    rw [hlen]; omega
  · show ((s.pos + ((s.buf.drop s.pos).take n).length) :: s.lims).Pairwise (· ≤ ·)
    rw [List.pairwise_cons] at h2 ⊢
    refine ⟨fun l hm => ?_, h2.2⟩
    have := hl l hm
    rw [hlen]; omega

theorem limit_head {s : SerialIO} (hs : InBounds s) {l : Nat} {ls : List Nat}
    (h : s.lims = l :: ls) : s.pos ≤ l ∧ ∀ m ∈ s.lims, l ≤ m := by
  obtain ⟨_, h2⟩ := hs
  rw [h, List.pairwise_cons, List.pairwise_cons] at h2
  refine ⟨h2.1 l (by simp), fun m hm => ?_⟩
  rw [h] at hm
  rcases List.mem_cons.mp hm with rfl | hm
  · exact Nat.le_refl _
  · exact h2.2.1 m hm

theorem refines_readAll : Refines (Obj.read none) Serial.readAll := by
  intro s hs
  cases hl : s.lims with
  | nil =>
    obtain ⟨s', h1, h2, h3, h4, h5, h6⟩ := superRead_some hs (s.buf.drop s.pos).length
      (by rw [hl]; simp)
    have e1 : Obj.read none s = Obj.superRead (some (s.buf.drop s.pos).length) s := by
      unfold Obj.read Obj.superRead
      rw [hl]
      dsimp only
      rw [List.take_length]
    have e2 : Serial.readAll (viewOf s) = Serial.rawRead (s.buf.drop s.pos).length (viewOf s) := by
      unfold Serial.readAll viewOf
      rw [hl]
    rw [e1, e2, h1, h2]
    exact ⟨h6, s', rfl, rfl, h3, h4.trans hl, h5⟩
  | cons l ls =>
    obtain ⟨hle, hall⟩ := limit_head hs hl
    obtain ⟨s', h1, h2, h3, h4, h5, h6⟩ := superRead_some hs (l - s.pos)
      (fun m hm => by have := hall m hm; omega)
    have e1 : Obj.read none s = Obj.superRead (some (l - s.pos)) s := by
      unfold Obj.read
      rw [hl]
      dsimp only
      rw [if_neg (by omega)]
    have e2 : Serial.readAll (viewOf s) = Serial.rawRead (l - s.pos) (viewOf s) := by
      unfold Serial.readAll viewOf
      rw [hl]
    rw [e1, e2, h1, h2]
    exact ⟨h6, s', rfl, rfl, h3, h4.trans hl, h5⟩

theorem refines_read (n : Nat) : Refines (Obj.read (some n)) (Serial.read n) := by
  intro s hs
  cases hl : s.lims with
  | nil =>
    obtain ⟨s', h1, h2, h3, h4, h5, h6⟩ := superRead_some hs n (by rw [hl]; simp)
    have e1 : Obj.read (some n) s = Obj.superRead (some n) s := by
      unfold Obj.read
      rw [hl]
    have e2 : Serial.read n (viewOf s) = Serial.rawRead n (viewOf s) := by
      unfold Serial.read viewOf
      rw [hl]
    rw [e1, e2, h1, h2]
    exact ⟨h6, s', rfl, rfl, h3, h4.trans hl, h5⟩
  | cons l ls =>
    obtain ⟨hle, hall⟩ := limit_head hs hl
    by_cases hn : s.pos + n > l
    · have e1 : Obj.read (some n) s = (.error .bufTooMuch, s) := by
        unfold Obj.read
        rw [hl]
        dsimp only
        rw [if_pos (by omega)]
      have e2 : Serial.read n (viewOf s) = .error .bufTooMuch := by
        unfold Serial.read viewOf
        rw [hl]
        dsimp only
        rw [if_pos hn]
      rw [e1, e2]
      exact ⟨rfl, rfl, Nat.le_refl _, hs.1, hl ▸ List.suffix_refl _⟩
    · obtain ⟨s', h1, h2, h3, h4, h5, h6⟩ := superRead_some hs n
        (fun m hm => by have := hall m hm; omega)
      have e1 : Obj.read (some n) s = Obj.superRead (some n) s := by
        unfold Obj.read
        rw [hl]
        dsimp only
        rw [if_neg (by omega)]
      have e2 : Serial.read n (viewOf s) = Serial.rawRead n (viewOf s) := by
        unfold Serial.read viewOf
        rw [hl]
        dsimp only
        rw [if_neg hn]
      rw [e1, e2, h1, h2]
      exact ⟨h6, s', rfl, rfl, h3, h4.trans hl, h5⟩

/-- At the end of the buffer a read that no limit forbids gives nothing. -/
theorem read_at_end {s : SerialIO} (hend : s.pos = s.buf.length) (n : Nat)
    (hl : ∀ l ∈ s.lims, s.pos + n ≤ l) : Obj.read (some n) s = (.ok [], s) := by
  have h0 : Obj.superRead (some n) s = (.ok [], s) := by
    unfold Obj.superRead
    rw [hend, List.drop_length]
    simp [← hend]
  unfold Obj.read
  cases hls : s.lims with
  | nil => exact h0
  | cons l ls =>
    have := hl l (by rw [hls]; simp)
    dsimp only
    rw [if_neg (by omega)]
    exact h0

theorem read_ok_limits {s s' : SerialIO} (hs : InBounds s) {n : Nat} {d : Bytes}
    (h : Obj.read (some n) s = (.ok d, s')) :
    (∀ l ∈ s.lims, s.pos + n ≤ l) ∧ d = (s.buf.drop s.pos).take n ∧
      s' = { s with pos := s.pos + d.length } := by
  unfold Obj.read at h
  cases hl : s.lims with
  | nil =>
    rw [hl] at h
    unfold Obj.superRead at h
    dsimp only at h
    cases h
    exact ⟨by simp, rfl, by rw [hl]⟩
  | cons l ls =>
    obtain ⟨hle, hall⟩ := limit_head hs hl
    rw [hl] at h
    dsimp only at h
    split at h
    · cases h
    · unfold Obj.superRead at h
      dsimp only at h
      cases h
      refine ⟨fun m hm => ?_, rfl, by rw [hl]⟩
      have := hall m (hl ▸ hm)
      omega

theorem refines_readExactly (n : Nat) : Refines (Obj.readExactly n) (Serial.readExactly n) := by
  intro s hs
  unfold Obj.readExactly Serial.readExactly
  by_cases h0 : n = 0
  · subst h0
    rw [if_pos rfl]
    exact ⟨rfl, s, rfl, rfl, hs, rfl, Nat.le_refl _⟩
  rw [if_neg h0]
  have hr := refines_read n s hs
  have hloop : Obj.readLoop n (n + 1) [] s = match Obj.read (some n) s with
      | (.ok r, s') => (if r.isEmpty then O.throw .bufMissing else Obj.readLoop n n r) s'
      | (.error e, s') => (.error e, s') := by
    rw [Obj.readLoop, if_neg (by simpa using Ne.symm h0), O.bind_def]
    simp only [List.length_nil, Nat.sub_zero, List.nil_append]
    rcases Obj.read (some n) s with ⟨r, s'⟩
    cases r <;> rfl
  rw [hloop]
  obtain ⟨hb, hr⟩ := hr
  cases hp : Serial.read n (viewOf s) with
  | error e =>
    rw [hp] at hr
    cases hm : Obj.read (some n) s with
    | mk r s' =>
      rw [hm] at hr hb
      obtain ⟨h1, h2⟩ := hr
      cases h1
      exact ⟨hb, rfl, h2⟩
  | ok x =>
    obtain ⟨d, v⟩ := x
    rw [hp] at hr
    obtain ⟨s', hm, hv, hi, hl, hpos⟩ := hr
    obtain ⟨hlim, hd, hs'⟩ := read_ok_limits hs hm
    rw [hm] at hb ⊢
    dsimp only at hb ⊢
    obtain ⟨k, rfl⟩ : ∃ k, n = k + 1 := ⟨n - 1, by omega⟩
    have hdl : d.length = min (k + 1) (s.buf.length - s.pos) := by rw [hd]; simp
    have hsuf : s.lims <:+ s'.lims := by rw [hl]; exact List.suffix_refl _
    have hfin : s'.pos ≤ s.buf.length := hb ▸ hi.1
    by_cases hfull : d.length = k + 1
    · rw [if_pos hfull, if_neg (by rw [List.isEmpty_iff]; intro hc; rw [hc] at hfull; simp at hfull),
        Obj.readLoop, if_pos hfull]
      exact ⟨hb, s', rfl, hv, hi, hl, hpos⟩
    · rw [if_neg hfull]
      by_cases he : d.isEmpty
      · rw [if_pos he]
        exact ⟨hb, rfl, hpos, hfin, hsuf⟩
      · rw [if_neg he, Obj.readLoop, if_neg hfull, O.bind_def,
          read_at_end (s := s') (by rw [hs']; have := hs.1; dsimp only; omega) _ ?_]
        · exact ⟨hb, rfl, hpos, hfin, hsuf⟩
        · intro l hm
          have h1 := hlim l (hl ▸ hm)
          rw [hs']
          dsimp only
          omega

theorem refines_readInt (n : Nat) : Refines (Obj.readInt n) (Serial.readInt n) := by
  unfold Obj.readInt Serial.readInt
  split
  · exact refines_throw _
  · exact refines_bind (refines_readExactly n) fun b => refines_pure _

theorem refines_readVar (n : Nat) : Refines (Obj.readVar n) (Serial.readVar n) :=
  refines_bind (refines_readInt n) fun len => refines_readExactly len

theorem refines_readListInt (n m : Nat) : Refines (Obj.readListInt n m) (Serial.readListInt n m) := by
  refine refines_bind (refines_readInt n) fun len => ?_
  split
  · exact refines_throw _
  · exact refines_bind (refines_readExactly len) fun b => refines_pure _

theorem isEof_eq (s : SerialIO) : Obj.isEof s = (.ok (s.pos == s.buf.length), s) := rfl

theorem readVars_eq (nitem : Nat) : ∀ (fuel : Nat) (items : List Bytes) (s : SerialIO), InBounds s →
    (Obj.readVars nitem fuel items s).1 =
      (Serial.untilEof (Serial.readVar nitem) fuel (viewOf s)).map (items ++ ·) := by
  intro fuel
  induction fuel with
  | zero =>
    intro items s hs
    unfold Obj.readVars Serial.untilEof
    rw [O.bind_def, isEof_eq]
    by_cases h : s.pos = s.buf.length
    · have : (viewOf s).rest.isEmpty = true := by simp [viewOf, h]
      rw [if_pos this]
      simp [h, Except.map, O.pure_def]
    · have : ¬ (viewOf s).rest.isEmpty = true := by
        have := hs.1
        simp [viewOf]; omega
      rw [if_neg this]
      simp [h, Except.map, O.throw]
  | succ fuel ih =>
    intro items s hs
    unfold Obj.readVars Serial.untilEof
    rw [O.bind_def, isEof_eq]
    by_cases h : s.pos = s.buf.length
    · have : (viewOf s).rest.isEmpty = true := by simp [viewOf, h]
      rw [if_pos this]
      simp [h, Except.map, O.pure_def]
    · have : ¬ (viewOf s).rest.isEmpty = true := by
        have := hs.1
        simp [viewOf]; omega
      rw [if_neg this]
      have hb : (s.pos == s.buf.length) = false := by simpa using h
      dsimp only
      rw [hb, if_neg (by simp), O.bind_def]
      have hr := (refines_readVar nitem s hs).2
      cases hp : Serial.readVar nitem (viewOf s) with
      | error e =>
        rw [hp] at hr
        cases hm : Obj.readVar nitem s with
        | mk r s' =>
          rw [hm] at hr
          cases hr.1
          rfl
      | ok x =>
        obtain ⟨a, v⟩ := x
        rw [hp] at hr
        obtain ⟨s', hm, hv, hi, -, -⟩ := hr
        rw [hm]
        dsimp only
        rw [ih _ _ hi, hv]
        cases Serial.untilEof (Serial.readVar nitem) fuel v with
        | error e => rfl
        | ok l => simp [Except.map]

theorem inBounds_new (b : Bytes) : InBounds (Obj.new b) := by
  refine ⟨Nat.zero_le _, ?_⟩
  simp [Obj.new]

theorem refines_lift {α} (r : Except Exn α) : Refines (O.lift r) (P.lift r) := by
  intro s hs
  cases r with
  | error e => exact ⟨rfl, rfl, Nat.le_refl _, hs.1, List.suffix_refl _⟩
  | ok a => exact ⟨rfl, s, rfl, rfl, hs, rfl, Nat.le_refl _⟩

theorem refines_readListVar (n m : Nat) : Refines (Obj.readListVar n m) (Serial.readListVar n m) := by
  refine refines_bind (refines_readVar n) fun b => ?_
  have : (Obj.readVars m b.length [] (Obj.new b)).1 = Serial.parseMany (Serial.readVar m) b := by
    rw [readVars_eq m b.length [] _ (inBounds_new b)]
    unfold Serial.parseMany
    have hv : viewOf (Obj.new b) = Stream.new b := by simp [viewOf, Obj.new, Stream.new]
    rw [hv]
    cases Serial.untilEof (Serial.readVar m) b.length (Stream.new b) <;> simp [Except.map]
  rw [this]
  exact refines_lift _

theorem refines_tell : Refines Obj.tell (fun s => .ok (s.pos, s)) := by
  intro s hs
  exact ⟨rfl, s, rfl, rfl, hs, rfl, Nat.le_refl _⟩

theorem limit_loose {α} {n : Nat} {m : O α} {s : SerialIO} {l : Nat} {ls : List Nat}
    (hl : s.lims = l :: ls) (h : s.pos + n > l) : Obj.limit n m s = (.error .valueError, s) := by
  unfold Obj.limit
  rw [hl]
  dsimp only
  rw [if_pos (by simpa using h)]

theorem limit_tight {α} {n : Nat} {m : O α} {s : SerialIO} (h : ∀ l ∈ s.lims.head?, s.pos + n ≤ l) :
    Obj.limit n m s = (do
      let a ← m
      let top ← Obj.popLimit
      if top ≠ some (s.pos + n) then O.throw .runtimeError else do
      let current ← Obj.tell
      if ((s.pos + n : Nat) : Int) - (current : Int) ≠ 0 then O.throw .bufTooMuch
      else return a : O α) { s with lims := (s.pos + n) :: s.lims } := by
  unfold Obj.limit
  cases hl : s.lims with
  | nil => dsimp only; rw [if_neg (by simp)]
  | cons l ls =>
    have := h l (by rw [hl]; simp)
    dsimp only
    rw [if_neg (by simp; omega)]

theorem refines_limit {α} (n : Nat) {m : O α} {p : P α} (h : Refines m p) :
    Refines (Obj.limit n m) (Serial.limit n p) := by
  intro s hs
  by_cases hloose : ∃ l ls, s.lims = l :: ls ∧ s.pos + n > l
  · obtain ⟨l, ls, hl, hgt⟩ := hloose
    have e2 : Serial.limit n p (viewOf s) = .error .valueError := by
      unfold Serial.limit viewOf
      dsimp only
      rw [hl]
      dsimp only
      rw [if_pos (by simpa using hgt)]
    rw [limit_loose hl hgt, e2]
    exact ⟨rfl, rfl, Nat.le_refl _, hs.1, List.suffix_refl _⟩
  · have htight : ∀ l ∈ s.lims.head?, s.pos + n ≤ l := by
      intro l hl
      cases hls : s.lims with
      | nil => rw [hls] at hl; cases hl
      | cons a as =>
        rw [hls] at hl
        cases hl
        exact Nat.not_lt.mp fun hc => hloose ⟨_, _, hls, hc⟩
    have e2 : Serial.limit n p (viewOf s) =
        match p (viewOf { s with lims := (s.pos + n) :: s.lims }) with
        | .error e => .error e
        | .ok (a, s') =>
          if s.pos + n ≠ s'.pos then .error .bufTooMuch
          else .ok (a, { s' with lims := s'.lims.tail }) := by
      unfold Serial.limit viewOf
      dsimp only
      cases hls : s.lims with
      | nil =>
        dsimp only
        rw [if_neg (by simp)]
        cases p _ <;> rfl
      | cons a as =>
        have := htight a (by rw [hls]; simp)
        dsimp only
        rw [if_neg (by simp; omega)]
        cases p _ <;> rfl
    rw [limit_tight htight, e2, O.bind_def]
    have hin : InBounds { s with lims := (s.pos + n) :: s.lims } := by
      obtain ⟨h1, h2⟩ := hs
      refine ⟨h1, ?_⟩
      rw [List.pairwise_cons] at h2
      dsimp only
      rw [List.pairwise_cons, List.pairwise_cons]
      refine ⟨fun a ha => ?_, fun a ha => ?_, h2.2⟩
      · rcases List.mem_cons.mp ha with rfl | ha
        · omega
        · exact h2.1 a ha
      · cases hls : s.lims with
        | nil => rw [hls] at ha; cases ha
        | cons c cs =>
          have hc := htight c (by rw [hls]; simp)
          have := (limit_head (s := s) ⟨h1, List.pairwise_cons.mpr h2⟩ hls).2 a ha
          omega
    obtain ⟨hb, hr⟩ := h _ hin
    cases hp : p (viewOf { s with lims := (s.pos + n) :: s.lims }) with
    | error e =>
      rw [hp] at hr
      cases hm : m { s with lims := (s.pos + n) :: s.lims } with
      | mk r s' =>
        rw [hm] at hr hb
        obtain ⟨h1, h2, h3, h4⟩ := hr
        cases h1
        exact ⟨hb, rfl, h2, h3, (List.suffix_cons _ _).trans h4⟩
    | ok x =>
      obtain ⟨a, v⟩ := x
      rw [hp] at hr
      obtain ⟨s', hm, hv, hi, hl, hpos⟩ := hr
      rw [hm] at hb ⊢
      dsimp only at hb hl hpos ⊢
      subst hv
      rw [O.bind_def]
      simp only [Obj.popLimit, hl, List.head?_cons, List.tail_cons, ne_eq, not_true_eq_false,
        if_false]
      rw [O.bind_def]
      simp only [Obj.tell, viewOf]
      by_cases hend : s.pos + n = s'.pos
      · rw [if_neg (by omega)]
        simp only [hend, not_true_eq_false, if_false]
        refine ⟨hb, _, rfl, ?_, ⟨hi.1, ?_⟩, rfl, hpos⟩
        · simp [viewOf, hl]
        · have h2 := hi.2
          rw [hl] at h2
          simp only [List.pairwise_cons] at h2 ⊢
          exact ⟨fun c hc => h2.1 c (by simp [hc]), h2.2.2⟩
      · rw [if_pos (by omega)]
        simp only [hend, not_false_eq_true, if_true]
        exact ⟨hb, rfl, hpos, hb ▸ hi.1, List.suffix_refl _⟩

theorem refines_prog {α} (prog : ReadProg α) : Refines prog.act prog.run := by
  induction prog with
  | ret a => exact refines_pure a
  | raise e => exact refines_throw e
  | readAll k ih => exact refines_bind refines_readAll ih
  | read n k ih => exact refines_bind (refines_read n) ih
  | readExactly n k ih => exact refines_bind (refines_readExactly n) ih
  | readInt n k ih => exact refines_bind (refines_readInt n) ih
  | readVar n k ih => exact refines_bind (refines_readVar n) ih
  | readListInt n m k ih => exact refines_bind (refines_readListInt n m) ih
  | readListVar n m k ih => exact refines_bind (refines_readListVar n m) ih
  | tell k ih =>
    have := refines_bind (f := fun i => (k i).act) (g := fun i => (k i).run) refines_tell ih
    exact this
  | limit n body k ihb ih => exact refines_bind (refines_limit n ihb) ih

/-! ## Programs with `lookahead` -/

/-- Reading changes neither the buffer nor the outer limits; it ends with the same limits. -/
def Peeks {α} (m : O α) : Prop :=
  ∀ s, InBounds s →
    (m s).2.buf = s.buf ∧ (m s).2.pos ≤ s.buf.length ∧ s.lims <:+ (m s).2.lims ∧
    ∀ a s', m s = (.ok a, s') → InBounds s' ∧ s'.lims = s.lims

theorem Refines.peeks {α} {m : O α} {p : P α} (h : Refines m p) : Peeks m := by
  intro s hs
  obtain ⟨hb, hr⟩ := h s hs
  cases hp : p (viewOf s) with
  | error e =>
    rw [hp] at hr
    obtain ⟨h1, h2, h3, h4⟩ := hr
    refine ⟨hb, h3, h4, fun a s' hm => ?_⟩
    rw [hm] at h1
    cases h1
  | ok x =>
    obtain ⟨a, v⟩ := x
    rw [hp] at hr
    obtain ⟨s', hm, hv, hi, hl, hpos⟩ := hr
    rw [hm] at hb ⊢
    refine ⟨hb, hb ▸ hi.1, by rw [hl]; exact List.suffix_refl _, fun a' s'' hm' => ?_⟩
    cases hm'
    exact ⟨hi, hl⟩

theorem peeks_bind {α β} {m : O α} {f : α → O β} (h : Peeks m) (hk : ∀ a, Peeks (f a)) :
    Peeks (m >>= f) := by
  intro s hs
  obtain ⟨h1, h2, h3, h4⟩ := h s hs
  rw [O.bind_def]
  cases hm : m s with
  | mk r s' =>
    rw [hm] at h1 h2 h3
    cases r with
    | error e => exact ⟨h1, h2, h3, fun a s'' hc => by cases hc⟩
    | ok a =>
      obtain ⟨hi, hl⟩ := h4 a s' hm
      obtain ⟨g1, g2, g3, g4⟩ := hk a s' hi
      dsimp only at h1 h2 h3 ⊢
      refine ⟨g1.trans h1, h1 ▸ g2, hl ▸ g3, fun b s'' hc => ?_⟩
      obtain ⟨q1, q2⟩ := g4 b s'' hc
      exact ⟨q1, q2.trans hl⟩

theorem peeks_limit {α} (n : Nat) {m : O α} (h : Peeks m) : Peeks (Obj.limit n m) := by
  intro s hs
  by_cases hloose : ∃ l ls, s.lims = l :: ls ∧ s.pos + n > l
  · obtain ⟨l, ls, hl, hgt⟩ := hloose
    rw [limit_loose hl hgt]
    exact ⟨rfl, hs.1, List.suffix_refl _, fun a s' hc => by cases hc⟩
  · have htight : ∀ l ∈ s.lims.head?, s.pos + n ≤ l := by
      intro l hl
      cases hls : s.lims with
      | nil => rw [hls] at hl; cases hl
      | cons a as =>
        rw [hls] at hl
        cases hl
        exact Nat.not_lt.mp fun hc => hloose ⟨_, _, hls, hc⟩
    have hin : InBounds { s with lims := (s.pos + n) :: s.lims } := by
      obtain ⟨h1, h2⟩ := hs
      refine ⟨h1, ?_⟩
      rw [List.pairwise_cons] at h2
      dsimp only
      rw [List.pairwise_cons, List.pairwise_cons]
      refine ⟨fun a ha => ?_, fun a ha => ?_, h2.2⟩
      · rcases List.mem_cons.mp ha with rfl | ha
        · omega
        · exact h2.1 a ha
      · cases hls : s.lims with
        | nil => rw [hls] at ha; cases ha
        | cons c cs =>
          have hc := htight c (by rw [hls]; simp)
          have := (limit_head (s := s) ⟨h1, List.pairwise_cons.mpr h2⟩ hls).2 a ha
          omega
    rw [limit_tight htight, O.bind_def]
    obtain ⟨h1, h2, h3, h4⟩ := h _ hin
    cases hm : m { s with lims := (s.pos + n) :: s.lims } with
    | mk r s' =>
      rw [hm] at h1 h2 h3
      cases r with
      | error e =>
        exact ⟨h1, h2, (List.suffix_cons _ _).trans h3, fun a s'' hc => by cases hc⟩
      | ok a =>
        obtain ⟨hi, hl⟩ := h4 a s' hm
        dsimp only at h1 h2 h3 hl ⊢
        rw [O.bind_def]
        simp only [Obj.popLimit, hl, List.head?_cons, List.tail_cons, ne_eq, not_true_eq_false,
          if_false]
        rw [O.bind_def]
        simp only [Obj.tell]
        by_cases hend : s.pos + n = s'.pos
        · rw [if_neg (by omega)]
          refine ⟨h1, h2, List.suffix_refl _, fun b s'' hc => ?_⟩
          cases hc
          refine ⟨⟨hi.1, ?_⟩, rfl⟩
          have h5 := hi.2
          rw [hl] at h5
          simp only [List.pairwise_cons] at h5 ⊢
          exact ⟨fun c hc => h5.1 c (by simp [hc]), h5.2.2⟩
        · rw [if_pos (by omega)]
          exact ⟨h1, h2, List.suffix_refl _, fun b s'' hc => by cases hc⟩

theorem peeks_lookahead {α} {m : O α} (h : Peeks m) : Peeks (Obj.lookahead m) := by
  intro s hs
  obtain ⟨h1, h2, h3, h4⟩ := h s hs
  unfold Obj.lookahead
  cases hm : m s with
  | mk r s' =>
    rw [hm] at h1 h3
    refine ⟨h1, hs.1, h3, fun a s'' hc => ?_⟩
    cases hc
    obtain ⟨hi, hl⟩ := h4 a s' hm
    dsimp only at h1
    refine ⟨⟨?_, ?_⟩, hl⟩
    · show s.pos ≤ s'.buf.length
      rw [h1]; exact hs.1
    · show (s.pos :: s'.lims).Pairwise (· ≤ ·)
      rw [hl]; exact hs.2

theorem peeks_isEof : Peeks Obj.isEof := by
  intro s hs
  rw [isEof_eq]
  refine ⟨rfl, hs.1, List.suffix_refl _, fun a s' hc => ?_⟩
  cases hc
  exact ⟨hs, rfl⟩

theorem assertEof_eq {s : SerialIO} (hs : s.pos ≤ s.buf.length) : Obj.assertEof s =
    (if s.pos = s.buf.length then (.ok (), s) else (.error .bufTooMuch, s)) := by
  show (if s.buf.length - s.pos ≠ 0 then _ else _ : O Unit) _ = _
  by_cases h : s.pos = s.buf.length
  · rw [if_neg (by omega), if_pos h]
    show (_, _) = _
    rw [← h]
  · rw [if_pos (by omega), if_neg h]
    rfl

theorem peeks_assertEof : Peeks Obj.assertEof := by
  intro s hs
  rw [assertEof_eq hs.1]
  split
  · refine ⟨rfl, hs.1, List.suffix_refl _, fun a s' hc => ?_⟩
    cases hc
    exact ⟨hs, rfl⟩
  · exact ⟨rfl, hs.1, List.suffix_refl _, fun a s' hc => by cases hc⟩

theorem peeks_prog {α} (prog : IoProg α) : Peeks prog.act := by
  induction prog with
  | ret a => exact (refines_pure a).peeks
  | reads p k ih => exact peeks_bind (refines_prog p).peeks ih
  | limit n body k ihb ih => exact peeks_bind (peeks_limit n ihb) ih
  | lookahead body k ihb ih => exact peeks_bind (peeks_lookahead ihb) ih
  | isEof k ih => exact peeks_bind peeks_isEof ih
  | assertEof k ih => exact peeks_bind peeks_assertEof fun _ => ih

/-! ## Writes -/

theorem placed_nil {s : SerialIO} : placed [] s = s := by
  cases s
  simp [placed]

theorem placed_placed {s : SerialIO} (hs : s.pos ≤ s.buf.length) (a b : Bytes) :
    placed b (placed a s) = placed (a ++ b) s := by
  unfold placed
  have h1 : (s.buf.take s.pos ++ a).length = s.pos + a.length := by simp; omega
  congr 1
  · dsimp only
    rw [List.take_left' h1, List.drop_append, List.drop_eq_nil_of_le (by omega), List.drop_drop, h1]
    simp only [List.nil_append, List.append_assoc, List.length_append]
    congr 4
    omega
  · simp; omega

theorem placed_bounds {s : SerialIO} (hs : s.pos ≤ s.buf.length) (a : Bytes) :
    (placed a s).pos ≤ (placed a s).buf.length := by
  unfold placed
  simp; omega

theorem placed_take {s : SerialIO} (hs : s.pos ≤ s.buf.length) (a : Bytes) :
    (placed a s).buf.take s.pos = s.buf.take s.pos := by
  unfold placed
  dsimp only
  rw [List.append_assoc, List.take_left' (by simp; omega)]

theorem puts_write (b : Bytes) : Puts (Obj.write b) (.ok b) := fun _ _ => rfl

theorem puts_pure : Puts (Pure.pure ()) (.ok []) := by
  intro s _
  show _ = _
  rw [placed_nil]
  rfl

theorem puts_seq {m : O Unit} {n : Unit → O Unit} {r q : Except Exn Bytes} (hm : Puts m r)
    (hn : Puts (n ()) q) :
    Puts (m >>= n) (do let x ← r; let y ← q; return x ++ y) := by
  intro s hs
  have h1 := hm s hs
  cases r with
  | error e =>
    obtain ⟨s', h2, h3⟩ := h1
    refine ⟨s', ?_, h3⟩
    rw [O.bind_def, h2]
  | ok x =>
    dsimp only at h1
    have h4 := hn (placed x s) (placed_bounds hs x)
    cases q with
    | error e =>
      obtain ⟨s', h5, h6, h7, h8, h9⟩ := h4
      refine ⟨s', ?_, ?_, ?_, h8, h9⟩
      · rw [O.bind_def, h1]
        exact h5
      · have := congrArg (List.take s.pos) h6
        rw [List.take_take, List.take_take, Nat.min_eq_left (by simp [placed])] at this
        rw [this, placed_take hs]
      · have : (placed x s).pos = s.pos + x.length := rfl
        omega
    | ok y =>
      show (m >>= n) s = _
      rw [O.bind_def, h1]
      dsimp only at h4 ⊢
      rw [h4, placed_placed hs]

theorem puts_writeInt (n i : Nat) : Puts (Obj.writeInt n i) (Serial.writeInt n i) := by
  intro s hs
  unfold Obj.writeInt Serial.writeInt
  cases h : Serial.toBytes n i with
  | error e =>
    refine ⟨s, ?_, rfl, Nat.le_refl _, hs, rfl⟩
    rw [O.bind_def]
    rfl
  | ok b =>
    show _ = _
    rw [O.bind_def]
    rfl

theorem puts_writeVar (n : Nat) (b : Bytes) : Puts (Obj.writeVar n b) (Serial.writeVar n b) := by
  have := puts_seq (puts_writeInt n b.length) (n := fun _ => Obj.write b) (puts_write b)
  have e : (do let x ← Serial.writeInt n b.length; let y ← (.ok b : Except Exn Bytes); return x ++ y) =
      Serial.writeVar n b := by
    unfold Serial.writeVar Serial.writeInt
    cases Serial.toBytes n b.length <;> rfl
  rw [← e]
  exact this

theorem puts_forEach {α} (f : α → O Unit) (g : α → Except Exn Bytes) (h : ∀ a, Puts (f a) (g a)) :
    ∀ l : List α, Puts (Obj.forEach f l) (Serial.concatMapM g l) := by
  intro l
  induction l with
  | nil => exact puts_pure
  | cons a as ih => exact puts_seq (h a) ih

theorem puts_writeListInt (nlist nitem : Nat) (items : List Nat) :
    Puts (Obj.writeListInt nlist nitem items) (Serial.writeListInt nlist nitem items) :=
  puts_seq (puts_writeInt nlist _) (n := fun _ => Obj.forEach (Obj.writeInt nitem) items)
    (puts_forEach _ _ (puts_writeInt nitem) items)

theorem puts_writeListVar (nlist nitem : Nat) (items : List Bytes) :
    Puts (Obj.writeListVar nlist nitem items) (Serial.writeListVar nlist nitem items) := by
  intro s hs
  have hz : Serial.writeInt nlist 0 = .ok (beEnc nlist 0) := by
    unfold Serial.writeInt Serial.toBytes
    rw [if_pos (Nat.pow_pos (by omega))]
  have hw := puts_writeInt nlist 0 s hs
  rw [hz] at hw
  dsimp only at hw
  have hlen0 : (beEnc nlist 0).length = nlist := length_beEnc nlist 0
  have hf := puts_forEach _ _ (puts_writeVar nitem) items (placed (beEnc nlist 0) s)
    (placed_bounds hs _)
  have hstart : Obj.writeListVar nlist nitem items s =
      match Obj.forEach (Obj.writeVar nitem) items (placed (beEnc nlist 0) s) with
      | (.error e, s') => (.error e, s')
      | (.ok _, s') =>
        match Obj.writeInt nlist (s'.pos - s.pos - nlist) { s' with pos := s.pos } with
        | (.error e, s'') => (.error e, s'')
        | (.ok _, s'') => (.ok (), { s'' with pos := s'.pos }) := by
    unfold Obj.writeListVar
    rw [O.bind_def]
    simp only [Obj.tell]
    rw [O.bind_def, hw]
    dsimp only
    rw [O.bind_def]
    rcases Obj.forEach (Obj.writeVar nitem) items (placed (beEnc nlist 0) s) with ⟨r, s'⟩
    cases r with
    | error e => rfl
    | ok u =>
      dsimp only
      rw [O.bind_def]
      simp only [Obj.tell]
      rw [O.bind_def]
      simp only [Obj.seek]
      rw [O.bind_def]
      rcases Obj.writeInt nlist (s'.pos - s.pos - nlist) { s' with pos := s.pos } with ⟨r, s''⟩
      cases r <;> rfl
  rw [hstart]
  unfold Serial.writeListVar
  cases hb : Serial.concatMapM (Serial.writeVar nitem) items with
  | error e =>
    rw [hb] at hf
    obtain ⟨s', h5, h6, h7, h8, h9⟩ := hf
    refine ⟨s', by rw [h5], ?_, ?_, h8, h9⟩
    · have := congrArg (List.take s.pos) h6
      rw [List.take_take, List.take_take, Nat.min_eq_left (by simp [placed])] at this
      rw [this, placed_take hs]
    · have : (placed (beEnc nlist 0) s).pos = s.pos + (beEnc nlist 0).length := rfl
      omega
  | ok b =>
    rw [hb] at hf
    dsimp only at hf
    rw [hf, placed_placed hs]
    dsimp only
    have hpos : (placed (beEnc nlist 0 ++ b) s).pos - s.pos - nlist = b.length := by
      show s.pos + (beEnc nlist 0 ++ b).length - s.pos - nlist = b.length
      rw [List.length_append, hlen0]; omega
    rw [hpos]
    have hbnd : s.pos ≤ (placed (beEnc nlist 0 ++ b) s).buf.length := by
      have := placed_bounds hs (beEnc nlist 0 ++ b)
      have h2 : (placed (beEnc nlist 0 ++ b) s).pos = s.pos + (beEnc nlist 0 ++ b).length := rfl
      omega
    have hlast := puts_writeInt nlist b.length { placed (beEnc nlist 0 ++ b) s with pos := s.pos } hbnd
    show (match Serial.writeVar nlist b with | .ok out => _ | .error e => _)
    unfold Serial.writeVar
    unfold Serial.writeInt at hlast
    cases ht : Serial.toBytes nlist b.length with
    | error e =>
      rw [ht] at hlast
      obtain ⟨s', h5, h6, h7, h8, h9⟩ := hlast
      refine ⟨s', by rw [h5], ?_, h7, h8, h9⟩
      exact h6.trans (placed_take hs _)
    | ok o =>
      rw [ht] at hlast
      dsimp only at hlast
      have hol : o.length = nlist := by
        unfold Serial.toBytes at ht
        split at ht
        · cases ht; exact length_beEnc _ _
        · cases ht
      rw [hlast]
      show ((Except.ok (), { placed o { placed (beEnc nlist 0 ++ b) s with pos := s.pos } with
        pos := (placed (beEnc nlist 0 ++ b) s).pos }) : Except Exn Unit × SerialIO) =
          (.ok (), placed (o ++ b) s)
      unfold placed
      dsimp only
      congr 2
      · have e1 : (s.buf.take s.pos).length = s.pos := by simp; omega
        have e2 : (s.buf.take s.pos ++ beEnc nlist 0).length = s.pos + o.length := by
          rw [List.length_append, e1, hlen0, hol]
        rw [List.append_assoc (s.buf.take s.pos) (beEnc nlist 0 ++ b), List.take_left' e1,
          ← List.append_assoc, ← List.append_assoc, List.append_assoc (_ ++ _) b,
          List.drop_left' e2]
        simp [hlen0, hol]
      · simp [hlen0, hol]

/-! ## The loops end -/

theorem readExactly_ends (n : Nat) (s : Stream) :
    (Serial.readExactly n s ≠ .error .fuel) ∧
    ∀ d s', Serial.readExactly n s = .ok (d, s') → s'.rest.length + n = s.rest.length := by
  unfold Serial.readExactly
  by_cases h0 : n = 0
  · rw [if_pos h0]
    refine ⟨by simp, fun d s' h => ?_⟩
    cases h
    omega
  rw [if_neg h0]
  have hraw : ∀ d s', Serial.read n s = .ok (d, s') → d = s.rest.take n ∧ s'.rest = s.rest.drop n := by
    intro d s' h
    unfold Serial.read at h
    split at h
    · unfold Serial.rawRead at h; cases h; exact ⟨rfl, rfl⟩
    · split at h
      · cases h
      · unfold Serial.rawRead at h; cases h; exact ⟨rfl, rfl⟩
  have herr : Serial.read n s ≠ .error .fuel := by
    unfold Serial.read Serial.rawRead
    split
    · simp
    · split <;> simp
  cases h : Serial.read n s with
  | error e =>
    refine ⟨fun hc => herr (by rw [h]; cases hc; rfl), fun d s' hc => by cases hc⟩
  | ok x =>
    obtain ⟨d, s1⟩ := x
    obtain ⟨h1, h2⟩ := hraw d s1 h
    dsimp only
    split
    · rename_i hl
      refine ⟨by simp, fun d' s' hc => ?_⟩
      cases hc
      rw [h1, List.length_take] at hl
      rw [h2, List.length_drop]
      omega
    · exact ⟨by simp, fun d' s' hc => by cases hc⟩

theorem readInt_ends (n : Nat) (s : Stream) :
    (Serial.readInt n s ≠ .error .fuel) ∧
    ∀ d s', Serial.readInt n s = .ok (d, s') → s'.rest.length < s.rest.length := by
  unfold Serial.readInt
  by_cases h0 : n = 0
  · rw [if_pos h0]
    exact ⟨by simp [P.throw], fun d s' h => by cases h⟩
  rw [if_neg h0, P.bind_def]
  obtain ⟨h1, h2⟩ := readExactly_ends n s
  cases h : Serial.readExactly n s with
  | error e => exact ⟨fun hc => h1 (by rw [h]; cases hc; rfl), fun d s' hc => by cases hc⟩
  | ok x =>
    obtain ⟨d, s1⟩ := x
    have := h2 d s1 h
    refine ⟨fun hc => (by cases hc), fun d' s' hc => ?_⟩
    cases hc
    omega

theorem readVar_ends (n : Nat) (s : Stream) :
    (Serial.readVar n s ≠ .error .fuel) ∧
    ∀ d s', Serial.readVar n s = .ok (d, s') → s'.rest.length < s.rest.length := by
  unfold Serial.readVar
  rw [P.bind_def]
  obtain ⟨h1, h2⟩ := readInt_ends n s
  cases h : Serial.readInt n s with
  | error e => exact ⟨fun hc => h1 (by rw [h]; cases hc; rfl), fun d s' hc => by cases hc⟩
  | ok x =>
    obtain ⟨len, s1⟩ := x
    have := h2 len s1 h
    obtain ⟨h3, h4⟩ := readExactly_ends len s1
    refine ⟨h3, fun d s' hc => ?_⟩
    have := h4 d s' hc
    omega

theorem untilEof_ends (n : Nat) : ∀ (k : Nat) (s : Stream), s.rest.length ≤ k →
    Serial.untilEof (Serial.readVar n) k s ≠ .error .fuel := by
  intro k
  induction k with
  | zero =>
    intro s hs
    unfold Serial.untilEof
    rw [if_pos (by simpa using hs)]
    simp
  | succ k ih =>
    intro s hs
    unfold Serial.untilEof
    split
    · simp
    · obtain ⟨h1, h2⟩ := readVar_ends n s
      cases h : Serial.readVar n s with
      | error e => exact fun hc => h1 (by rw [h]; cases hc; rfl)
      | ok x =>
        obtain ⟨a, s1⟩ := x
        have h3 := ih s1 (by have := h2 a s1 h; omega)
        dsimp only
        cases h4 : Serial.untilEof (Serial.readVar n) k s1 with
        | error e => exact fun hc => h3 (by rw [h4]; cases hc; rfl)
        | ok l => simp

theorem readListVar_ends (n m : Nat) (s : Stream) : Serial.readListVar n m s ≠ .error .fuel := by
  unfold Serial.readListVar
  rw [P.bind_def]
  obtain ⟨h1, _⟩ := readVar_ends n s
  cases h : Serial.readVar n s with
  | error e => exact fun hc => h1 (by rw [h]; cases hc; rfl)
  | ok x =>
    obtain ⟨b, s1⟩ := x
    have := untilEof_ends m b.length (Stream.new b) (Nat.le_refl _)
    dsimp only
    unfold P.lift Serial.parseMany
    cases h2 : Serial.untilEof (Serial.readVar m) b.length (Stream.new b) with
    | error e => exact fun hc => this (by rw [h2]; cases hc; rfl)
    | ok l => simp

theorem Refines.ends {α} {m : O α} {p : P α} (h : Refines m p) {s : SerialIO} (hs : InBounds s)
    (hp : p (viewOf s) ≠ .error .fuel) : (m s).1 ≠ .error .fuel := by
  obtain ⟨_, hr⟩ := h s hs
  cases hq : p (viewOf s) with
  | error e =>
    rw [hq] at hr
    rw [hr.1]
    exact fun hc => hp (by rw [hq]; cases hc; rfl)
  | ok x =>
    obtain ⟨a, v⟩ := x
    rw [hq] at hr
    obtain ⟨s', hm, _⟩ := hr
    rw [hm]
    simp

end Siotls
