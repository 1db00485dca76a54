import Verif.Proofs.SplitExtensions
import Verif.Model.Toy
/-!
# C105: `split_extensions`
-/

namespace Siotls
open Serial Spec.Rfc

/-- What `split_extensions(SerialIO(b))` returns. -/
def splitOf (b : Bytes) : Except Exn (List (Nat × Bytes)) :=
  (splitExtensions (Stream.new b)).map Prod.fst

/-- C105. `split_extensions` returns a list exactly for the bytes that RFC 8446 §4.2 gives for it:
`Extension extensions<..2^16-1>`, each a number of two bytes and a vector of at most 2^16-1 bytes,
and nothing after. -/
theorem C105_split (b : Bytes) (l : List (Nat × Bytes)) :
    splitOf b = .ok l ↔ VecOf 2 (fun x => Pair (Num 2 x.1) (Vec 2 x.2)) l b := by
  constructor
  · intro h
    unfold splitOf splitExtensions at h
    rw [P.bind_def] at h
    split at h
    · next len s₁ hlen =>
      obtain ⟨o, h1, h2, h3, h4⟩ := canonical_readInt _ _ _ hlen
      rw [P.bind_def] at h
      split at h
      · next l' s₂ hl =>
        rw [P.bind_def] at h
        split at h
        · next u s₃ hu =>
          cases h
          unfold assertEof at hu
          split at hu
          · next hempty =>
            cases hu
            unfold limit at hl
            simp only [h4, Stream.new, Bool.false_eq_true, if_false] at hl
            split at hl
            · cases hl
            · next a s₄ hw =>
              split at hl
              · cases hl
              · next hpos =>
                cases hl
                obtain ⟨out, g1, g2, g3, g4⟩ := untilPos_canonical canonical_raw _ _ _ _ _ hw
                dsimp only at g2 g3 hempty
                have hnil : s₄.rest = [] := by simpa using hempty
                refine ⟨out, (seq_ok fun x _ y => raw_ok).mp g1, o, ?_, ?_⟩
                · rw [← num_ok]
                  have : out.length = len := by omega
                  rw [this]
                  exact h1
                · rw [hnil, List.append_nil] at g2
                  rw [← g2]
                  exact h2
          · cases hu
        · cases h
      · cases h
    · cases h
  · rintro ⟨body, hs, len, hlen, rfl⟩
    have hp : Parses (limit body.length (fun s =>
        untilPos rawExtension (s.pos + body.length) (s.rest.length + 1) s)) body l := by
      refine parses_limit rfl ?_
      intro rest pos lims
      exact untilPos_seq (fun a _ x hx => ⟨raw_ne hx, raw_parses hx⟩) hs _ rest pos lims
        (by simp; omega)
    have h1 := Parses.num (by decide) hlen body 0 [] (by simp)
    have h2 := hp [] (0 + len.length) [] (by simp)
    rw [List.append_nil] at h2
    unfold splitOf splitExtensions
    rw [P.bind_def]
    simp only [Stream.new, h1]
    rw [P.bind_def]
    simp only [h2]
    rw [P.bind_def]
    rfl

example : splitOf [0, 9, 0, 43, 0, 1, 7, 0x12, 0x34, 0, 0] = .ok [(43, [7]), (0x1234, [])] := by
  decide +kernel

/-- C105. On any other bytes it raises one of the two errors of a stream that is too short or too
long. -/
theorem C105_error (b : Bytes) (e : Exn) (h : splitOf b = .error e) :
    e = .bufMissing ∨ e = .bufTooMuch := by
  unfold splitOf splitExtensions at h
  rw [P.bind_def] at h
  split at h
  · next len s₁ hlen =>
    obtain ⟨o, -, -, -, h4⟩ := canonical_readInt _ _ _ hlen
    rw [P.bind_def] at h
    split at h
    · next l' s₂ hl =>
      rw [P.bind_def] at h
      split at h
      · cases h
      · next hu =>
        cases h
        unfold assertEof at hu
        split at hu
        · cases hu
        · cases hu; exact .inr rfl
    · next hl =>
      cases h
      unfold limit at hl
      simp only [h4, Stream.new, Bool.false_eq_true, if_false] at hl
      split at hl
      · next hw => cases hl; exact split_misfit _ _ _ _ (by simp) hw
      · split at hl
        · cases hl; exact .inr rfl
        · cases hl
  · next hr => cases h; exact readInt_misfit (by decide) hr

example : splitOf [0, 2, 0, 43] = .error .bufTooMuch := by decide +kernel

/-- C105. Two different lists never have the same bytes, nor has one list two encodings. -/
theorem C105_unambiguous {b b' : Bytes} {l l' : List (Nat × Bytes)} (h : splitOf b = .ok l)
    (h' : splitOf b' = .ok l') : b = b' ↔ l = l' := by
  constructor
  · rintro rfl
    rw [h] at h'
    cases h'
    rfl
  · rintro rfl
    obtain ⟨x, hx, n, hn, rfl⟩ := (C105_split _ _).mp h
    obtain ⟨y, hy, m, hm, rfl⟩ := (C105_split _ _).mp h'
    have e := ((seq_ok fun x _ y => raw_ok).mpr hx).symm.trans ((seq_ok fun x _ y => raw_ok).mpr hy)
    cases e
    have e := (num_ok.mpr hn).symm.trans (num_ok.mpr hm)
    cases e
    rfl

/-- C105. It agrees with the parser of the messages: the extensions of a message, laid out as the
RFCs say, are split into their numbers and their data, in the same order. -/
theorem C105_agrees {E : Env} {exts : List Ext} {b : Bytes} (h : VecOf 2 (Extension E) exts b) :
    ∃ l, splitOf b = .ok l ∧
      List.Forall₂ (fun e x => x.1 = extensionCode e ∧ ExtensionData E e x.2) exts l := by
  obtain ⟨body, hs, hv⟩ := h
  obtain ⟨l, hl, hf⟩ : ∃ l : List (Nat × Bytes),
      Spec.Rfc.Seq (fun x => Pair (Num 2 x.1) (Vec 2 x.2)) l body ∧
      List.Forall₂ (fun e x => x.1 = extensionCode e ∧ ExtensionData E e x.2) exts l := by
    clear hv
    induction exts generalizing body with
    | nil => cases hs; exact ⟨[], rfl, .nil⟩
    | cons e es ih =>
      obtain ⟨x, y, ⟨data, hd, hx⟩, hy, rfl⟩ := hs
      obtain ⟨l, hl, hf⟩ := ih _ hy
      exact ⟨(extensionCode e, data) :: l, ⟨x, y, hx, hl, rfl⟩, .cons ⟨rfl, hd⟩ hf⟩
  exact ⟨l, (C105_split b l).mpr ⟨body, hl, hv⟩, hf⟩

example : VecOf 2 (Extension Toy.env) [.postHandshakeAuth, .heartbeat 2]
    [0, 9, 0, 49, 0, 0, 0, 15, 0, 1, 2] := by
  refine ⟨[0, 49, 0, 0, 0, 15, 0, 1, 2], ⟨[0, 49, 0, 0], [0, 15, 0, 1, 2], ?_, ?_, rfl⟩,
    ⟨[0, 9], ⟨rfl, rfl⟩, rfl⟩⟩
  · exact ⟨[], rfl, [0, 49], [0, 0], ⟨rfl, rfl⟩, ⟨[0, 0], ⟨rfl, rfl⟩, rfl⟩, rfl⟩
  · refine ⟨[0, 15, 0, 1, 2], [], ?_, rfl, rfl⟩
    exact ⟨[2], ⟨rfl, rfl⟩, [0, 15], [0, 1, 2], ⟨rfl, rfl⟩, ⟨[0, 1], ⟨rfl, rfl⟩, rfl⟩, rfl⟩

end Siotls
