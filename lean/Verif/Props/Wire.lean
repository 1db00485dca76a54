import Verif.Proofs.Canon
import Verif.Proofs.Limit
import Verif.Model.Contents
import Verif.Model.Toy
import Verif.Spec.Layout
/-!
# Properties C01, C02, C03, C61: primitive codecs and alerts

Statements only mention the methods of `SerialIO` as modelled in `Model/Serial.lean`, the
stream they act upon, and `Content` parsing/serializing.
-/

namespace Siotls
open Serial Spec

/-! ## C01 -/

theorem bigEndian_eq_beDec (b : Bytes) : Spec.bigEndian b = beDec b := by
  induction b with
  | nil => rfl
  | cons x xs ih => rw [beDec_cons, Spec.bigEndian, ih]

/-- C01, integers: what `write_int` emits is the n-byte big-endian encoding, `read_int` gives
the integer back and stops right after it, whatever follows and whatever limits are set, as
long as they leave room. -/
theorem C01_int {n i : Nat} {out : Bytes} (hn : n ≠ 0) (h : writeInt n i = .ok out) :
    out.length = n ∧ Spec.bigEndian out = i ∧
    ∀ (trailing : Bytes) (pos : Nat) (lims : List Nat), (∀ l ∈ lims.head?, pos + n ≤ l) →
      readInt n ⟨out ++ trailing, pos, lims⟩ = .ok (i, ⟨trailing, pos + n, lims⟩) := by
  obtain ⟨hi, rfl⟩ := toBytes_ok.mp h
  refine ⟨length_beEnc n i, by rw [bigEndian_eq_beDec, beDec_beEnc hi], fun t pos lims hl => ?_⟩
  simpa using parses_readInt hn hi t pos lims (by simpa using hl)

example : writeInt 3 0x010203 = .ok [1, 2, 3] := by decide

/-- C01, integers: `write_int` raises OverflowError exactly on what does not fit. -/
theorem C01_int_refused (n i : Nat) :
    (writeInt n i = .error .overflow ↔ 256 ^ n ≤ i) ∧
    ((∃ out, writeInt n i = .ok out) ↔ i < 256 ^ n) := by
  unfold writeInt toBytes
  split <;> simp <;> omega

example : (256 : Nat) ^ 1 ≤ 256 := by decide

/-- C01, byte strings. -/
theorem C01_var {n : Nat} {b out : Bytes} (hn : n ≠ 0) (h : writeVar n b = .ok out) :
    out.length = n + b.length ∧ Spec.bigEndian (out.take n) = b.length ∧ out.drop n = b ∧
    ∀ (trailing : Bytes) (pos : Nat) (lims : List Nat), (∀ l ∈ lims.head?, pos + out.length ≤ l) →
      readVar n ⟨out ++ trailing, pos, lims⟩ = .ok (b, ⟨trailing, pos + out.length, lims⟩) := by
  have hp := parses_writeVar hn h
  obtain ⟨hi, rfl⟩ := writeVar_ok.mp h
  refine ⟨by simp, ?_, ?_, fun t pos lims hl => hp t pos lims hl⟩
  · rw [bigEndian_eq_beDec, List.take_left' (length_beEnc n _), beDec_beEnc hi]
  · rw [List.drop_left' (length_beEnc n _)]

example : writeVar 2 [7, 8] = .ok [0, 2, 7, 8] := by decide

/-- C01, byte strings: refused exactly when the length does not fit in the prefix. -/
theorem C01_var_refused (n : Nat) (b : Bytes) :
    (writeVar n b = .error .overflow ↔ 256 ^ n ≤ b.length) ∧
    ((∃ out, writeVar n b = .ok out) ↔ b.length < 256 ^ n) := by
  by_cases h : b.length < 256 ^ n
  · have : writeVar n b = .ok (beEnc n b.length ++ b) := writeVar_ok.mpr ⟨h, rfl⟩
    rw [this]
    simp; omega
  · have : writeVar n b = .error .overflow := by
      unfold writeVar toBytes
      rw [if_neg h]; rfl
    rw [this]
    simp; omega

/-- C01, lists of integers. -/
theorem C01_listint {nlist nitem : Nat} {l : List Nat} {out : Bytes} (h1 : nlist ≠ 0)
    (h2 : nitem ≠ 0) (h : writeListInt nlist nitem l = .ok out) :
    out.length = nlist + l.length * nitem ∧
    ∀ (trailing : Bytes) (pos : Nat) (lims : List Nat), (∀ m ∈ lims.head?, pos + out.length ≤ m) →
      readListInt nlist nitem ⟨out ++ trailing, pos, lims⟩ =
        .ok (l, ⟨trailing, pos + out.length, lims⟩) := by
  have hp := parses_writeListInt h1 h2 h
  obtain ⟨b, _, hb, rfl⟩ := writeListInt_ok.mp h
  exact ⟨by simp [concatMapM_toBytes_length hb], fun t pos lims hl => hp t pos lims hl⟩

example : writeListInt 1 2 [258, 3] = .ok [4, 1, 2, 0, 3] := by decide

theorem concatMapM_toBytes_total (n : Nat) (l : List Nat) :
    concatMapM (toBytes n) l = .error .overflow ∧ (∃ i ∈ l, 256 ^ n ≤ i) ∨
    (∃ b, concatMapM (toBytes n) l = .ok b) ∧ (∀ i ∈ l, i < 256 ^ n) := by
  induction l with
  | nil => right; exact ⟨⟨[], rfl⟩, by simp⟩
  | cons a as ih =>
    show (toBytes n a >>= fun x => concatMapM (toBytes n) as >>= fun y => pure (x ++ y)) = _ ∧ _ ∨
      (∃ b, (toBytes n a >>= fun x => concatMapM (toBytes n) as >>= fun y => pure (x ++ y)) = _) ∧ _
    by_cases ha : a < 256 ^ n
    · have : toBytes n a = .ok (beEnc n a) := by simp [toBytes, ha]
      rw [this]
      rcases ih with ⟨he, i, hi, hle⟩ | ⟨⟨b, hb⟩, hall⟩
      · left; exact ⟨by simp [Except.bind_def, he], i, by simp [hi], hle⟩
      · right; exact ⟨⟨beEnc n a ++ b, by simp [Except.bind_def, hb]; rfl⟩, by simpa [ha] using hall⟩
    · have : toBytes n a = .error .overflow := by simp [toBytes, ha]
      left; rw [this]; exact ⟨rfl, a, by simp, by omega⟩

/-- C01, lists of integers: refused exactly when an item or the total does not fit. -/
theorem C01_listint_refused (nlist nitem : Nat) (l : List Nat) :
    (writeListInt nlist nitem l = .error .overflow ↔
      (256 ^ nlist ≤ l.length * nitem ∨ ∃ i ∈ l, 256 ^ nitem ≤ i)) ∧
    ((∃ out, writeListInt nlist nitem l = .ok out) ↔
      (l.length * nitem < 256 ^ nlist ∧ ∀ i ∈ l, i < 256 ^ nitem)) := by
  show ((toBytes nlist _ >>= fun h => concatMapM (toBytes nitem) l >>= fun b => pure (h ++ b)) = _ ↔ _)
    ∧ ((∃ out, (toBytes nlist _ >>= fun h => concatMapM (toBytes nitem) l >>= fun b =>
      pure (h ++ b)) = _) ↔ _)
  by_cases hlen : l.length * nitem < 256 ^ nlist
  · have : toBytes nlist (l.length * nitem) = .ok (beEnc nlist (l.length * nitem)) := by
      simp [toBytes, hlen]
    rw [this]
    rcases concatMapM_toBytes_total nitem l with ⟨he, i, hi, hle⟩ | ⟨⟨b, hb⟩, hall⟩
    · rw [he]
      refine ⟨⟨fun _ => .inr ⟨i, hi, hle⟩, fun _ => rfl⟩, ⟨fun ⟨_, h⟩ => ?_, fun ⟨_, h⟩ => ?_⟩⟩
      · simp [Except.bind_def] at h
      · exact absurd (h i hi) (by omega)
    · rw [hb]
      refine ⟨⟨fun h => ?_, fun h => ?_⟩, ⟨fun _ => ⟨hlen, hall⟩, fun _ => ⟨_, rfl⟩⟩⟩
      · simp [Except.bind_def] at h; cases h
      · rcases h with h | ⟨i, hi, hle⟩
        · omega
        · exact absurd (hall i hi) (by omega)
  · have : toBytes nlist (l.length * nitem) = .error .overflow := by simp [toBytes, hlen]
    rw [this]
    refine ⟨⟨fun _ => .inl (by omega), fun _ => rfl⟩, ⟨fun ⟨_, h⟩ => ?_, fun ⟨h, _⟩ => by omega⟩⟩
    simp [Except.bind_def] at h

/-- C01, lists of byte strings. -/
theorem C01_listvar {nlist nitem : Nat} {l : List Bytes} {out : Bytes} (h1 : nlist ≠ 0)
    (h2 : nitem ≠ 0) (h : writeListVar nlist nitem l = .ok out) :
    ∀ (trailing : Bytes) (pos : Nat) (lims : List Nat), (∀ m ∈ lims.head?, pos + out.length ≤ m) →
      readListVar nlist nitem ⟨out ++ trailing, pos, lims⟩ =
        .ok (l, ⟨trailing, pos + out.length, lims⟩) :=
  fun t pos lims hl => parses_writeListVar h1 h2 h t pos lims hl

example : writeListVar 2 1 [[5], [], [6, 7]] = .ok [0, 6, 1, 5, 0, 2, 6, 7] := by decide

theorem concatMapM_writeVar_total (n : Nat) (l : List Bytes) :
    concatMapM (writeVar n) l = .error .overflow ∧ (∃ i ∈ l, 256 ^ n ≤ i.length) ∨
    (∃ b, concatMapM (writeVar n) l = .ok b ∧ b.length = (l.map fun x => n + x.length).sum) ∧
      (∀ i ∈ l, i.length < 256 ^ n) := by
  induction l with
  | nil => right; exact ⟨⟨[], rfl, rfl⟩, by simp⟩
  | cons a as ih =>
    show (writeVar n a >>= fun x => concatMapM (writeVar n) as >>= fun y => pure (x ++ y)) = _ ∧ _ ∨
      (∃ b, (writeVar n a >>= fun x => concatMapM (writeVar n) as >>= fun y => pure (x ++ y)) = _
        ∧ _) ∧ _
    by_cases ha : a.length < 256 ^ n
    · have : writeVar n a = .ok (beEnc n a.length ++ a) := writeVar_ok.mpr ⟨ha, rfl⟩
      rw [this]
      rcases ih with ⟨he, i, hi, hle⟩ | ⟨⟨b, hb, hl⟩, hall⟩
      · left; exact ⟨by simp [Except.bind_def, he], i, by simp [hi], hle⟩
      · right
        refine ⟨⟨(beEnc n a.length ++ a) ++ b, by simp [Except.bind_def, hb]; rfl, ?_⟩,
          by simpa [ha] using hall⟩
        simp [hl]; omega
    · have : writeVar n a = .error .overflow := ((C01_var_refused n a).1).mpr (by omega)
      left; rw [this]; exact ⟨rfl, a, by simp, by omega⟩

/-- C01, lists of byte strings: refused exactly when an item or the total does not fit. -/
theorem C01_listvar_refused (nlist nitem : Nat) (l : List Bytes) :
    (writeListVar nlist nitem l = .error .overflow ↔
      ((∃ b ∈ l, 256 ^ nitem ≤ b.length) ∨ 256 ^ nlist ≤ (l.map fun b => nitem + b.length).sum)) ∧
    ((∃ out, writeListVar nlist nitem l = .ok out) ↔
      ((∀ b ∈ l, b.length < 256 ^ nitem) ∧ (l.map fun b => nitem + b.length).sum < 256 ^ nlist)) := by
  show ((concatMapM (writeVar nitem) l >>= writeVar nlist) = _ ↔ _) ∧
    ((∃ out, (concatMapM (writeVar nitem) l >>= writeVar nlist) = _) ↔ _)
  rcases concatMapM_writeVar_total nitem l with ⟨he, i, hi, hle⟩ | ⟨⟨b, hb, hl⟩, hall⟩
  · rw [he]
    refine ⟨⟨fun _ => .inl ⟨i, hi, hle⟩, fun _ => rfl⟩, ⟨fun ⟨_, h⟩ => ?_, fun ⟨h, _⟩ => ?_⟩⟩
    · simp [Except.bind_def] at h
    · exact absurd (h i hi) (by omega)
  · rw [hb, ← hl]
    have := C01_var_refused nlist b
    refine ⟨?_, ?_⟩
    · show writeVar nlist b = _ ↔ _
      rw [this.1]
      refine ⟨.inr, fun h => ?_⟩
      rcases h with ⟨i, hi, hle⟩ | h
      · exact absurd (hall i hi) (by omega)
      · exact h
    · show (∃ out, writeVar nlist b = _) ↔ _
      rw [this.2]
      exact ⟨fun h => ⟨hall, h⟩, fun h => h.2⟩

/-! ## C61: one encoding per value -/

/-- C61, integers: the bytes consumed by `read_int` are those `write_int` writes for its result. -/
theorem C61_int {n i : Nat} {s s' : Stream} (h : readInt n s = .ok (i, s')) :
    ∃ out, writeInt n i = .ok out ∧ s = ⟨out ++ s'.rest, s.pos, s.lims⟩ ∧
      s' = ⟨s'.rest, s.pos + out.length, s.lims⟩ := by
  obtain ⟨o, h1, h2, h3, h4⟩ := canonical_readInt _ _ _ h
  exact ⟨o, h1, by rw [← h2], by rw [← h3, ← h4]⟩

example : readInt 2 ⟨[1, 2, 3], 0, []⟩ = .ok (258, ⟨[3], 2, []⟩) := by decide

/-- C61, byte strings. -/
theorem C61_var {n : Nat} {b : Bytes} {s s' : Stream} (h : readVar n s = .ok (b, s')) :
    ∃ out, writeVar n b = .ok out ∧ s = ⟨out ++ s'.rest, s.pos, s.lims⟩ ∧
      s' = ⟨s'.rest, s.pos + out.length, s.lims⟩ := by
  obtain ⟨o, h1, h2, h3, h4⟩ := canonical_readVar _ _ _ h
  exact ⟨o, h1, by rw [← h2], by rw [← h3, ← h4]⟩

example : readVar 1 ⟨[1, 2, 3], 0, []⟩ = .ok ([2], ⟨[3], 2, []⟩) := by decide

/-- C61, lists of integers. -/
theorem C61_listint {nlist nitem : Nat} {l : List Nat} {s s' : Stream} (hn : nitem ≠ 0)
    (h : readListInt nlist nitem s = .ok (l, s')) :
    ∃ out, writeListInt nlist nitem l = .ok out ∧ s = ⟨out ++ s'.rest, s.pos, s.lims⟩ ∧
      s' = ⟨s'.rest, s.pos + out.length, s.lims⟩ := by
  obtain ⟨o, h1, h2, h3, h4⟩ := canonical_readListInt hn _ _ _ h
  exact ⟨o, h1, by rw [← h2], by rw [← h3, ← h4]⟩

example : readListInt 1 2 ⟨[4, 0, 1, 0, 2, 9], 0, []⟩ = .ok ([1, 2], ⟨[9], 5, []⟩) := by decide

/-- C61, lists of byte strings. -/
theorem C61_listvar {nlist nitem : Nat} {l : List Bytes} {s s' : Stream}
    (h : readListVar nlist nitem s = .ok (l, s')) :
    ∃ out, writeListVar nlist nitem l = .ok out ∧ s = ⟨out ++ s'.rest, s.pos, s.lims⟩ ∧
      s' = ⟨s'.rest, s.pos + out.length, s.lims⟩ := by
  obtain ⟨o, h1, h2, h3, h4⟩ := canonical_readListVar _ _ _ h
  exact ⟨o, h1, by rw [← h2], by rw [← h3, ← h4]⟩

example : readListVar 1 1 ⟨[3, 0, 1, 7, 9], 0, []⟩ = .ok ([[], [7]], ⟨[9], 4, []⟩) := by decide

/-! ## C02 -/

/-- C02. Run any program of reads and nested limits inside `with stream.limit(n)`. Either it
raises, and it raises the same exception whatever the bytes past the n-th are; or it returns,
the value it returns does not depend on the bytes past the n-th, exactly those n bytes have been
consumed, and the limits in force are those from before the block.

`r` ranges over all possible continuations of the stream after the n-th byte (when there are
fewer than n bytes, nothing follows them). -/
theorem C02_limit {α : Type} (prog : ReadProg α) (n : Nat) (s : Stream) :
    (∃ e, ∀ r, (s.rest.length < n → r = []) →
      limit n prog.run { s with rest := s.rest.take n ++ r } = .error e) ∨
    (n ≤ s.rest.length ∧ ∃ v, ∀ r,
      limit n prog.run { s with rest := s.rest.take n ++ r } =
        .ok (v, { s with rest := r, pos := s.pos + n })) :=
  limit_bounded n (bounded_prog prog) s

/-- C02, as seen by a caller: leaving the block normally means exactly n bytes were consumed. -/
theorem C02_limit_consumes {α : Type} (prog : ReadProg α) (n : Nat) (s s' : Stream) (v : α)
    (h : limit n prog.run s = .ok (v, s')) :
    n ≤ s.rest.length ∧ s' = { rest := s.rest.drop n, pos := s.pos + n, lims := s.lims } := by
  have hs : s = { s with rest := s.rest.take n ++ s.rest.drop n } := by simp
  rcases C02_limit prog n s with ⟨e, he⟩ | ⟨hn, w, hw⟩
  · have := he (s.rest.drop n) (fun h => List.drop_eq_nil_of_le (by omega))
    rw [← hs, h] at this
    cases this
  · have := hw (s.rest.drop n)
    rw [← hs, h] at this
    refine ⟨hn, ?_⟩
    simp only [Except.ok.injEq, Prod.mk.injEq] at this
    rw [this.2]

/-- a program with two levels of limits that reads a length-prefixed string in the inner one -/
def demoProg : ReadProg Bytes :=
  .limit 3 (.readVar 1 fun b => .ret b) fun b => .readAll fun c => .ret (b ++ c)

example : limit 5 demoProg.run ⟨[2, 10, 11, 12, 13, 99], 0, []⟩ =
    .ok ([10, 11, 12, 13], ⟨[99], 5, []⟩) := by rfl

/-! ## C03 -/

/-- C03: an alert is two bytes on the wire, and those parse back to it. -/
theorem C03_roundtrip (E : Env) (ct : Option (Option Nat)) (level desc : UInt8)
    (hl : level = 1 ∨ level = 2) :
    serContent E (.alert level.toNat desc.toNat) = .ok [level, desc] ∧
    decodeContent E ct 21 [level, desc] = .ok (.alert level.toNat desc.toNat) := by
  have hlt : level.toNat * 256 + desc.toNat < 256 ^ 2 := by
    have := level.toNat_lt; have := desc.toNat_lt; omega
  refine ⟨?_, ?_⟩
  · have : beEnc 2 (level.toNat * 256 + desc.toNat) = [level, desc] := by
      have := beEnc_beDec [level, desc]
      simpa [beDec] using this
    simp only [serContent, toBytes, hlt, if_true, this]
  · rcases hl with rfl | rfl <;>
    · simp [decodeContent, parseContent, parseAlert, P.bind_def, P.map_def, readInt, readExactly, Serial.read,
        rawRead, Stream.new, assertEof, P.pure_def, beDec]

example : serContent Toy.env (.alert 2 80) = .ok [2, 80] := (C03_roundtrip _ none 2 80 (.inr rfl)).1

/-- C03: the alert parser over all byte strings. -/
theorem C03_parse (E : Env) (ct : Option (Option Nat)) (b : Bytes) :
    decodeContent E ct 21 b =
      match b with
      | [] => .error (.alert Iana.decodeError)
      | level :: rest =>
        if level = 1 ∨ level = 2 then
          match rest with
          | [desc] => .ok (.alert level.toNat desc.toNat)
          | _ => .error (.alert Iana.decodeError)
        else .error (.alert Iana.illegalParameter) := by
  have h8 : ∀ (x : UInt8) (k : Nat) (hk : k < 256), (x.toNat = k ↔ x = UInt8.ofNat k) := by
    intro x k hk
    constructor
    · intro h; rw [← h]; simp
    · intro h; rw [h]; simp [UInt8.toNat_ofNat', Nat.mod_eq_of_lt hk]
  cases b with
  | nil => rfl
  | cons level rest =>
    have hiff : (level.toNat = 1 ∨ level.toNat = 2) ↔ (level = 1 ∨ level = 2) := by
      rw [h8 level 1 (by omega), h8 level 2 (by omega)]; rfl
    by_cases hl : level = 1 ∨ level = 2
    · have hl' := hiff.mpr hl
      cases rest with
      | nil =>
        simp [decodeContent, parseContent, parseAlert, P.bind_def, P.map_def, readInt, readExactly, Serial.read,
          rawRead, Stream.new, beDec, hl, hl', Exn.isBuffer]
      | cons desc rest =>
        cases rest <;>
        simp [decodeContent, parseContent, parseAlert, P.bind_def, P.map_def, readInt, readExactly, Serial.read,
          rawRead, Stream.new, assertEof, P.pure_def, beDec, hl, hl', Exn.isBuffer]
    · have hl' : ¬ (level.toNat = 1 ∨ level.toNat = 2) := fun h => hl (hiff.mp h)
      simp [decodeContent, parseContent, parseAlert, P.bind_def, P.map_def, readInt, readExactly, Serial.read,
          rawRead, Stream.new, P.pure_def, beDec, hl, hl', P.throw, Exn.isBuffer]

example : decodeContent Toy.env none 21 [3, 0, 0] = .error (.alert Iana.illegalParameter) :=
  C03_parse _ _ _

end Siotls
