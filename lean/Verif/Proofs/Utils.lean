import Verif.Model.Utils
import Verif.Spec.Text
import Verif.Proofs.Bytes
/-! Helper lemmas for `Model/Utils.lean`. -/

namespace Siotls

theorem hexDigit_facts : ∀ n : Fin 16, hexDigit n ≠ '\n' ∧ hexDigit n ≠ ':' ∧ hexDigit n ≠ ' ' ∧
    Spec.hexValue (hexDigit n) = some n.val := by decide

theorem hexDigit_value {n : Nat} (h : n < 16) : Spec.hexValue (hexDigit n) = some n :=
  (hexDigit_facts ⟨n, h⟩).2.2.2

theorem hexDigit_ne {n : Nat} (h : n < 16) {c : Char} (hc : c = '\n' ∨ c = ':' ∨ c = ' ') :
    hexDigit n ≠ c := by
  obtain ⟨h1, h2, h3, -⟩ := hexDigit_facts ⟨n, h⟩
  rcases hc with rfl | rfl | rfl <;> assumption

theorem hexNat_length {n k : Nat} (hk : 0 < k) (h : n < 16 ^ k) : (hexNat n).length ≤ k := by
  induction k generalizing n with
  | zero => omega
  | succ k ih =>
    unfold hexNat
    split
    · simp
    · rename_i h16
      have hk' : 0 < k := by
        rcases Nat.eq_zero_or_pos k with rfl | h'
        · simp at h; omega
        · exact h'
      have : n / 16 < 16 ^ k := by
        rw [Nat.div_lt_iff_lt_mul (by omega)]; rw [Nat.pow_succ] at h; exact h
      simp only [List.length_append, List.length_singleton]
      have := ih hk' this
      omega

theorem hexNat_mem {n : Nat} {c : Char} (h : c ∈ hexNat n) : ∃ d, d < 16 ∧ c = hexDigit d := by
  induction n using hexNat.induct with
  | case1 n hn =>
    rw [hexNat, if_pos hn] at h
    exact ⟨n, hn, by simpa using h⟩
  | case2 n hn ih =>
    rw [hexNat, if_neg hn, List.mem_append] at h
    rcases h with h | h
    · exact ih h
    · exact ⟨n % 16, Nat.mod_lt _ (by omega), by simpa using h⟩

theorem hexPad_mem {d n : Nat} {c : Char} (h : c ∈ hexPad d n) : ∃ d, d < 16 ∧ c = hexDigit d := by
  rw [hexPad, List.mem_append] at h
  rcases h with h | h
  · exact ⟨0, by omega, (List.eq_of_mem_replicate h).trans (by decide)⟩
  · exact hexNat_mem h

theorem hexPad_length {d n : Nat} (hd : 0 < d) (h : n < 16 ^ d) : (hexPad d n).length = d := by
  have := hexNat_length hd h
  simp only [hexPad, List.length_append, List.length_replicate]; omega

theorem readNat_append_digit {s : List Char} {base a d : Nat} (hs : Spec.readNat base s = some a)
    (hd : d < base) (hb : base ≤ 16) :
    Spec.readNat base (s ++ [hexDigit d]) = some (a * base + d) := by
  rw [Spec.readNat] at hs ⊢
  rw [List.foldl_append, hs]
  simp [hexDigit_value (show d < 16 by omega), hd]

theorem readNat_replicate (base k : Nat) (hb : 0 < base) :
    Spec.readNat base (List.replicate k '0') = some 0 := by
  have h0 : Spec.hexValue '0' = some 0 := by decide
  rw [Spec.readNat]
  induction k with
  | zero => rfl
  | succ k ih => rw [List.replicate_succ, List.foldl_cons]; simpa [h0, hb] using ih

theorem readNat_hexNat (k n : Nat) :
    Spec.readNat 16 (List.replicate k '0' ++ hexNat n) = some n := by
  induction n using hexNat.induct with
  | case1 n hn =>
    rw [hexNat, if_pos hn, readNat_append_digit (readNat_replicate 16 k (by omega)) hn (by omega)]
    simp
  | case2 n hn ih =>
    rw [hexNat, if_neg hn, ← List.append_assoc,
      readNat_append_digit ih (Nat.mod_lt _ (by omega)) (by omega)]
    congr 1
    have := Nat.div_add_mod n 16
    omega

theorem readNat_hexPad (d n : Nat) : Spec.readNat 16 (hexPad d n) = some n := readNat_hexNat _ n

theorem readNat_decNat (n : Nat) : Spec.readNat 10 (decNat n) = some n := by
  have h0 : Spec.readNat 10 [] = some 0 := rfl
  induction n using decNat.induct with
  | case1 n hn =>
    rw [decNat, if_pos hn]
    have := readNat_append_digit h0 hn (by omega)
    simpa using this
  | case2 n hn ih =>
    rw [decNat, if_neg hn, readNat_append_digit ih (Nat.mod_lt _ (by omega)) (by omega)]
    congr 1
    have := Nat.div_add_mod n 10
    omega

theorem hexlify_length (b : Bytes) : (hexlify b).length = 3 * b.length - 1 := by
  induction b using hexlify.induct with
  | case1 => rfl
  | case2 b => rfl
  | case3 b b' bs ih => simp only [hexlify, List.length_cons, ih]; omega

theorem hexPart_length {line : Bytes} (h : line.length ≤ 16) : (hexPart line).length = 50 := by
  simp only [hexPart, List.length_append, List.length_replicate, hexlify_length, List.length_take,
    List.length_drop, List.length_cons, List.length_nil]
  omega

/-- two digits per byte -/
def hexPairs (b : Bytes) : List Char :=
  b.flatMap fun x => [hexDigit (x.toNat / 16), hexDigit (x.toNat % 16)]

theorem byte_div_lt (x : UInt8) : x.toNat / 16 < 16 := by have := x.toNat_lt; omega

theorem hexlify_filter (b : Bytes) : (hexlify b).filter (· ≠ ' ') = hexPairs b := by
  induction b using hexlify.induct with
  | case1 => rfl
  | case2 b =>
    have h1 := hexDigit_ne (byte_div_lt b) (c := ' ') (by simp)
    have h2 := hexDigit_ne (Nat.mod_lt b.toNat (show 16 > 0 by omega)) (c := ' ') (by simp)
    simp [hexlify, hexPairs, h1, h2]
  | case3 b b' bs ih =>
    have h1 := hexDigit_ne (byte_div_lt b) (c := ' ') (by simp)
    have h2 := hexDigit_ne (Nat.mod_lt b.toNat (show 16 > 0 by omega)) (c := ' ') (by simp)
    rw [hexlify, List.filter_cons_of_pos (by simpa using h1),
      List.filter_cons_of_pos (by simpa using h2), List.filter_cons_of_neg (by simp), ih]
    simp [hexPairs]

theorem readHex_hexPairs (b : Bytes) : Spec.readHex (hexPairs b) = some b := by
  induction b with
  | nil => rfl
  | cons x b ih =>
    have : hexPairs (x :: b) =
        hexDigit (x.toNat / 16) :: hexDigit (x.toNat % 16) :: hexPairs b := by simp [hexPairs]
    rw [this, Spec.readHex, hexDigit_value (byte_div_lt x),
      hexDigit_value (Nat.mod_lt _ (by omega)), ih]
    have h := Nat.div_add_mod x.toNat 16
    simp [h]

theorem hexPart_filter (line : Bytes) : (hexPart line).filter (· ≠ ' ') = hexPairs line := by
  have hr : ∀ n, (List.replicate n ' ').filter (· ≠ ' ') = [] := by
    intro n; simp
  have h2 : ([' ', ' '] : List Char).filter (· ≠ ' ') = [] := by decide
  simp only [hexPart, List.filter_append, hexlify_filter, hr, h2, List.append_nil]
  rw [hexPairs, hexPairs, ← List.flatMap_append, List.take_append_drop, hexPairs]

theorem hexlify_mem {b : Bytes} {c : Char} (h : c ∈ hexlify b) :
    c = ' ' ∨ ∃ d, d < 16 ∧ c = hexDigit d := by
  induction b using hexlify.induct with
  | case1 => simp [hexlify] at h
  | case2 b =>
    simp only [hexlify, List.mem_cons, List.not_mem_nil, or_false] at h
    rcases h with rfl | rfl
    · exact .inr ⟨_, byte_div_lt b, rfl⟩
    · exact .inr ⟨_, Nat.mod_lt _ (by omega), rfl⟩
  | case3 b b' bs ih =>
    simp only [hexlify] at h
    rcases List.mem_cons.mp h with rfl | h
    · exact .inr ⟨_, byte_div_lt b, rfl⟩
    rcases List.mem_cons.mp h with rfl | h
    · exact .inr ⟨_, Nat.mod_lt _ (by omega), rfl⟩
    rcases List.mem_cons.mp h with rfl | h
    · exact .inl rfl
    · exact ih h

theorem hexPart_mem {b : Bytes} {c : Char} (h : c ∈ hexPart b) :
    c = ' ' ∨ ∃ d, d < 16 ∧ c = hexDigit d := by
  simp only [hexPart, List.mem_append] at h
  rcases h with (((h | h) | h) | h) | h
  · exact hexlify_mem h
  · simp at h; exact .inl h
  · exact hexlify_mem h
  · simp at h; exact .inl h
  · exact .inl (List.eq_of_mem_replicate h)

theorem textChar_ne_newline (b : UInt8) : textChar b ≠ '\n' := by
  have : ∀ n : Fin 256, textChar (UInt8.ofNat n) ≠ '\n' := by decide +kernel
  have h := this ⟨b.toNat, b.toNat_lt⟩
  simpa using h

theorem dumpLine_no_newline (d i : Nat) (line : Bytes) : '\n' ∉ dumpLine d i line := by
  intro h
  simp only [dumpLine, List.mem_append] at h
  rcases h with ((((h | h) | h) | h) | h) | h
  · obtain ⟨k, hk, h⟩ := hexPad_mem h
    exact hexDigit_ne hk (.inl rfl) h.symm
  · simp at h
  · rcases hexPart_mem h with h | ⟨k, hk, h⟩
    · simp at h
    · exact hexDigit_ne hk (.inl rfl) h.symm
  · obtain ⟨x, -, h⟩ := List.mem_map.mp h
    exact textChar_ne_newline x h
  · split at h <;> simp at h
  · obtain ⟨x, -, h⟩ := List.mem_map.mp h
    exact textChar_ne_newline x h

theorem takeWhile_colon (p : List Char) (rest : List Char) (h : ∀ c ∈ p, c ≠ ':') :
    (p ++ ':' :: rest).takeWhile (· ≠ ':') = p ∧
    (p ++ ':' :: rest).dropWhile (· ≠ ':') = ':' :: rest := by
  induction p with
  | nil => simp
  | cons c p ih =>
    have hc := h c List.mem_cons_self
    have ih := ih fun c hc => h c (List.mem_cons_of_mem _ hc)
    constructor
    · rw [List.cons_append, List.takeWhile_cons, if_pos (by simpa using hc), ih.1]
    · rw [List.cons_append, List.dropWhile_cons, if_pos (by simpa using hc), ih.2]

theorem dumpLine_split (d i : Nat) (line : Bytes) : ∃ rest,
    dumpLine d i line = hexPad d i ++ ':' :: ' ' :: (hexPart line ++ rest) := by
  refine ⟨(line.take 8).map textChar ++
    ((if 8 < line.length then [' '] else []) ++ (line.drop 8).map textChar), ?_⟩
  simp [dumpLine]

theorem dumpLine_offset (d i : Nat) (line : Bytes) :
    Spec.offsetText (dumpLine d i line) = hexPad d i := by
  obtain ⟨rest, h⟩ := dumpLine_split d i line
  rw [h, Spec.offsetText, (takeWhile_colon _ _ _).1]
  intro c hc
  obtain ⟨k, hk, rfl⟩ := hexPad_mem hc
  exact hexDigit_ne hk (by simp)

theorem dumpLine_bytes (d i : Nat) {line : Bytes} (hl : line.length ≤ 16) :
    Spec.lineBytes (dumpLine d i line) = some line := by
  obtain ⟨rest, h⟩ := dumpLine_split d i line
  rw [h, Spec.lineBytes, (takeWhile_colon _ _ _).2]
  · rw [List.drop_succ_cons, List.drop_succ_cons, List.drop_zero, List.take_append_of_le_length
      (by rw [hexPart_length hl]), List.take_of_length_le
      (by rw [hexPart_length hl]), hexPart_filter, readHex_hexPairs]
  · intro c hc
    obtain ⟨k, hk, rfl⟩ := hexPad_mem hc
    exact hexDigit_ne hk (by simp)

theorem lines_single {l : List Char} (h : '\n' ∉ l) : Spec.lines l = [l] := by
  induction l with
  | nil => rfl
  | cons c l ih =>
    rw [List.mem_cons, not_or] at h
    rw [Spec.lines, if_neg (fun h' => h.1 h'.symm), ih h.2]

theorem lines_append {l rest : List Char} (h : '\n' ∉ l) :
    Spec.lines (l ++ '\n' :: rest) = l :: Spec.lines rest := by
  induction l with
  | nil => simp [Spec.lines]
  | cons c l ih =>
    rw [List.mem_cons, not_or] at h
    rw [List.cons_append, Spec.lines, if_neg (fun h' => h.1 h'.symm), ih h.2]

/-- the lines of a dump -/
def dumpLines (d i : Nat) (data : Bytes) : List (List Char) :=
  if data = [] then []
  else dumpLine d i (data.take 16) :: dumpLines d (i + 16) (data.drop 16)
termination_by data.length
decreasing_by
  rename_i h
  have : data.length ≠ 0 := fun h' => h (List.length_eq_zero_iff.mp h')
  simp only [List.length_drop]; omega

theorem dumpLoop_ne_nil {d i : Nat} {data : Bytes} (h : data ≠ []) : dumpLoop d i data ≠ [] := by
  rw [dumpLoop, if_neg h]; simp

theorem lines_dumpLoop (d i : Nat) (data : Bytes) (h : data ≠ []) :
    Spec.lines (dumpLoop d i data).dropLast = dumpLines d i data := by
  induction i, data using dumpLines.induct with
  | case1 i => exact absurd rfl h
  | case2 i data hd ih =>
    rw [dumpLoop, if_neg hd, dumpLines, if_neg hd]
    by_cases hr : data.drop 16 = []
    · rw [hr, dumpLoop, if_pos rfl, dumpLines, if_pos rfl, List.dropLast_concat,
        lines_single (dumpLine_no_newline _ _ _)]
    · have e : ∀ (l r : List Char), r ≠ [] → (l ++ '\n' :: r).dropLast = l ++ '\n' :: r.dropLast := by
        intro l r hr
        rw [List.dropLast_append_of_ne_nil (by simp), List.dropLast_cons_of_ne_nil hr]
      rw [e _ _ (dumpLoop_ne_nil hr), lines_append (dumpLine_no_newline _ _ _), ih hr]

theorem dumpLines_get (d i : Nat) (data : Bytes) (k : Nat) (hk : 16 * k < data.length) :
    (dumpLines d i data)[k]? =
      some (dumpLine d (i + 16 * k) ((data.drop (16 * k)).take 16)) := by
  induction k generalizing i data with
  | zero =>
    rw [dumpLines, if_neg (by rintro rfl; simp at hk)]
    simp
  | succ k ih =>
    rw [dumpLines, if_neg (by rintro rfl; simp at hk), List.getElem?_cons_succ,
      ih _ _ (by rw [List.length_drop]; omega), List.drop_drop]
    congr 2
    · omega
    · rw [show 16 + 16 * k = 16 * (k + 1) by omega]

theorem dumpLines_length (d i : Nat) (data : Bytes) :
    (dumpLines d i data).length = (data.length + 15) / 16 := by
  induction i, data using dumpLines.induct with
  | case1 i => rw [dumpLines, if_pos rfl]; rfl
  | case2 i data hd ih =>
    have : data.length ≠ 0 := fun h' => hd (List.length_eq_zero_iff.mp h')
    rw [dumpLines, if_neg hd, List.length_cons, ih, List.length_drop]
    omega

theorem dumpLines_undump (d i : Nat) (data : Bytes) :
    (dumpLines d i data).foldr (fun l acc => match Spec.lineBytes l, acc with
      | some b, some bs => some (b ++ bs)
      | _, _ => none) (some []) = some data := by
  induction i, data using dumpLines.induct with
  | case1 i => rw [dumpLines, if_pos rfl]; rfl
  | case2 i data hd ih =>
    rw [dumpLines, if_neg hd, List.foldr_cons, ih, dumpLine_bytes _ _ (by simp)]
    simp

theorem lt_offsetWidth {len : Nat} (h : len ≠ 0) : 0 < offsetWidth len ∧
    len < 16 ^ offsetWidth len := by
  have h1 : len < 2 ^ (len.log2 + 1) := Nat.lt_log2_self
  have hw : bitLength len = len.log2 + 1 := by simp [bitLength, h]
  have hge : bitLength len ≤ 4 * offsetWidth len := by
    simp only [offsetWidth, ceilDiv4]; omega
  refine ⟨by simp only [offsetWidth, ceilDiv4]; omega, ?_⟩
  calc len < 2 ^ bitLength len := by rw [hw]; exact h1
    _ ≤ 2 ^ (4 * offsetWidth len) := Nat.pow_le_pow_right (by omega) hge
    _ = 16 ^ offsetWidth len := by rw [Nat.pow_mul]

end Siotls
