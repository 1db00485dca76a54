import Verif.Model.KeyExchange
import Verif.Proofs.Ffdhe
import Verif.Props.Crypto
/-!
# C85: the finite-field groups are those of RFC 7919; C86: which public values are accepted
-/

namespace Siotls.Ffdhe

/-- What has to be computed for one group: its prime follows from `N = [2^(b-130) e]`. -/
def Row (G : Group) (b X n : ℕ) : Prop :=
  let N := (G.p + 1 + 2 ^ (b - 64) - 2 ^ b) / 2 ^ 64 - X
  G.p + 1 + 2 ^ (b - 64) = 2 ^ b + (N + X) * 2 ^ 64 ∧
  N * ((n + 1).factorial * (n + 1)) + 2 ^ (b - 130) * (n + 2) ≤
    2 ^ (b - 130) * (eSum (n + 1) * (n + 1) * (n + 1)) ∧
  2 ^ (b - 130) * (eSum (n + 1) * (n + 1) * (n + 1)) + 2 ^ (b - 130) * (n + 2) <
    (N + 1) * ((n + 1).factorial * (n + 1))

instance (G : Group) (b X n : ℕ) : Decidable (Row G b X n) := by unfold Row; infer_instance

theorem Row.prime {G : Group} {b X n : ℕ} (h : Row G b X n) :
    (G.p : ℤ) = Spec.rfc7919Prime b X := by
  obtain ⟨h0, h1, h2⟩ := h
  rw [Spec.rfc7919Prime, floor_exp h1 h2]
  generalize (G.p + 1 + 2 ^ (b - 64) - 2 ^ b) / 2 ^ 64 - X = N at *
  have := congrArg (Nat.cast : ℕ → ℤ) h0
  push_cast at this
  linarith

set_option maxRecDepth 1000000 in
theorem rows : Row ffdhe2048 2048 560316 300 ∧ Row ffdhe3072 3072 2625351 420 ∧
    Row ffdhe4096 4096 5736041 540 ∧ Row ffdhe6144 6144 15705020 760 ∧
    Row ffdhe8192 8192 10965728 980 := by
  decide +kernel

/-- C85: the groups are registered under the code points of RFC 8446, their primes are given by
the formula of RFC 7919 (all the digits typed in the code, against the real number `e`), the
order is `(p-1)/2`, the generator 2, and key shares are as long as the prime. -/
theorem C85_groups :
    groups.map (·.id) = Spec.rfc7919Table.map (·.1) ∧
    ∀ G ∈ groups, ∀ b X, (G.id, b, X) ∈ Spec.rfc7919Table →
      (G.p : ℤ) = Spec.rfc7919Prime b X ∧ 2 * (G.q : ℤ) = Spec.rfc7919Prime b X - 1 ∧ G.g = 2 ∧
      8 * G.pLength = b := by
  refine ⟨rfl, ?_⟩
  have key : ∀ G ∈ groups, ∀ b X, (G.id, b, X) ∈ Spec.rfc7919Table →
      (G.p : ℤ) = Spec.rfc7919Prime b X ∧ 8 * G.pLength = b := by
    intro G hG b X hb
    obtain ⟨r1, r2, r3, r4, r5⟩ := rows
    simp only [groups, List.mem_cons, List.not_mem_nil, or_false] at hG
    simp only [Spec.rfc7919Table, List.mem_cons, List.not_mem_nil, or_false, Prod.mk.injEq] at hb
    rcases hG with rfl | rfl | rfl | rfl | rfl <;>
      rcases hb with ⟨h, rfl, rfl⟩ | ⟨h, rfl, rfl⟩ | ⟨h, rfl, rfl⟩ | ⟨h, rfl, rfl⟩ | ⟨h, rfl, rfl⟩ <;>
      first
      | exact absurd h (by decide)
      | exact ⟨r1.prime, rfl⟩
      | exact ⟨r2.prime, rfl⟩
      | exact ⟨r3.prime, rfl⟩
      | exact ⟨r4.prime, rfl⟩
      | exact ⟨r5.prime, rfl⟩
  intro G hG b X hb
  obtain ⟨hp, hl⟩ := key G hG b X hb
  obtain ⟨h2, hg, -⟩ := C46_params G hG
  refine ⟨hp, ?_, hg, hl⟩
  rw [← hp, h2]
  push_cast
  ring

/-- every group is in the table -/
example : ∃ G ∈ groups, (G.id, 8192, 10965728) ∈ Spec.rfc7919Table :=
  ⟨ffdhe8192, by simp [groups], by simp [Spec.rfc7919Table, ffdhe8192]⟩

/-! ## C86 -/

theorem lstrip_length (m : ℕ) (b : Bytes) :
    (lstrip b).length < m + 1 ↔ Spec.bigEndian b < 256 ^ m := by
  rw [bigEndian_eq_beDec]
  induction b with
  | nil => simp [lstrip]
  | cons x t ih =>
    rw [beDec_cons]
    by_cases hx : x = 0
    · subst hx
      rw [show lstrip (0 :: t) = lstrip t from rfl, ih]
      simp
    · have h0 : lstrip (x :: t) = x :: t := by
        simp [lstrip, List.dropWhile_cons, hx]
      have hpos : 1 ≤ x.toNat := by
        rcases Nat.eq_zero_or_pos x.toNat with h | h
        · exact absurd (UInt8.toNat_inj.mp (by simpa using h)) hx
        · exact h
      have hlt : x.toNat < 256 := x.toNat_lt
      have ht := beDec_lt t
      rw [h0, List.length_cons]
      constructor
      · intro h
        have : (256 : ℕ) ^ (t.length + 1) ≤ 256 ^ m := Nat.pow_le_pow_right (by simp) (by omega)
        rw [pow_succ] at this
        nlinarith
      · intro h
        have h1 : 256 ^ t.length < 256 ^ m := by nlinarith
        have := (Nat.pow_lt_pow_iff_right (a := 256) (by simp)).mp h1
        omega

/-- C86, the full statement: a peer value of the right length that RFC 7919 (section 5.1) and the
library allow is accepted. -/
def C86_statement : Prop :=
  ∀ G ∈ groups, ∀ (libOk : ℕ → Bool) (x : ℕ) (share : Bytes), share.length = G.pLength →
    1 < Spec.bigEndian share → Spec.bigEndian share < G.p - 1 → libOk (Spec.bigEndian share) →
    ∃ secret, resume G libOk x share = .ok secret

/-- the constant of the code is the number of *bits* that the RFC asks of private exponents -/
theorem minKeyLength_eq {G : Group} (hG : G ∈ groups) {m : ℕ}
    (hm : (G.id, m) ∈ Spec.rfc7919Exponents) : G.minKeyLength = m := by
  simp only [groups, List.mem_cons, List.not_mem_nil, or_false] at hG
  simp only [Spec.rfc7919Exponents, List.mem_cons, List.not_mem_nil, or_false, Prod.mk.injEq] at hm
  rcases hG with rfl | rfl | rfl | rfl | rfl <;>
    rcases hm with ⟨h, rfl⟩ | ⟨h, rfl⟩ | ⟨h, rfl⟩ | ⟨h, rfl⟩ | ⟨h, rfl⟩ <;>
    first
    | rfl
    | exact absurd h (by decide)

/-- C86: among the values that RFC 7919 allows, exactly those are accepted that have as many significant
*bytes* as the RFC asks *bits* of private exponents; the others are answered with
`insufficient_security` (71). -/
theorem C86_partial {G : Group} (hG : G ∈ groups) {m : ℕ} (hm : (G.id, m) ∈ Spec.rfc7919Exponents)
    (libOk : ℕ → Bool) (x : ℕ) (share : Bytes)
    (h1 : 1 < Spec.bigEndian share) (h2 : Spec.bigEndian share < G.p - 1)
    (h3 : libOk (Spec.bigEndian share)) :
    (256 ^ (m - 1) ≤ Spec.bigEndian share →
      ∃ secret, resume G libOk x share = .ok secret ∧ secret.length = G.pLength ∧
        Spec.bigEndian secret = Spec.bigEndian share ^ x % G.p) ∧
    (Spec.bigEndian share < 256 ^ (m - 1) →
      resume G libOk x share = .error (.alert 71)) := by
  obtain rfl := minKeyLength_eq hG hm
  have hm := (C46_params G hG).2.2.2.2.1
  have hl := lstrip_length (G.minKeyLength - 1) share
  rw [show G.minKeyLength - 1 + 1 = G.minKeyLength by omega] at hl
  constructor
  · intro h
    have hno : ¬ (lstrip share).length < G.minKeyLength := fun hc => absurd (hl.mp hc) (by omega)
    have hok : resume G libOk x share =
        .ok (beEnc G.pLength (powMod G.p (beDec share) x)) := by
      rw [bigEndian_eq_beDec] at h1 h2 h3
      unfold resume
      rw [if_neg hno]
      simp [h1, h2, h3]
    exact ⟨_, hok, (C46_accepted hG hok).2.2⟩
  · intro h
    unfold resume
    rw [if_pos (hl.mpr h)]

/-- the share `g^1 = 2` of a peer whose exponent is 1, on 256 bytes -/
theorem C86_false : ¬ C86_statement := by
  intro h
  obtain ⟨s, hs⟩ := h ffdhe2048 (by simp [groups]) (fun _ => true) 3 (List.replicate 255 0 ++ [2])
    (by decide +kernel) (by decide +kernel) (by decide +kernel) rfl
  have : resume ffdhe2048 (fun _ => true) 3 (List.replicate 255 0 ++ [2]) = .error (.alert 71) :=
    (C86_partial (G := ffdhe2048) (m := 225) (by simp [groups]) (by decide) _ _ _ (by decide +kernel) (by decide +kernel) rfl).2
      (by decide +kernel)
  rw [this] at hs
  cases hs

/-- a value that is accepted -/
example : ∃ s, resume ffdhe2048 (fun _ => true) 3 (0x7f :: List.replicate 255 0) = .ok s :=
  ((C86_partial (G := ffdhe2048) (m := 225) (by simp [groups]) (by decide) _ _ _ (by decide +kernel) (by decide +kernel) rfl).1
    (by decide +kernel)).imp fun _ h => h.1

end Siotls.Ffdhe
