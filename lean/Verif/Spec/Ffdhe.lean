import Verif.Model.Bytes
import Mathlib.Analysis.SpecialFunctions.Exp
/-!
# The groups of RFC 7919, appendix A

Nothing here refers to the digits typed in the code: a prime is given by the formula of the RFC,
with the real number `e`.
-/

namespace Siotls.Spec

/-- `p = 2^b - 2^(b-64) + ([2^(b-130) e] + X) 2^64 - 1`, RFC 7919 appendix A. -/
noncomputable def rfc7919Prime (b X : ℕ) : ℤ :=
  2 ^ b - 2 ^ (b - 64) + (⌊(2 : ℝ) ^ (b - 130) * Real.exp 1⌋ + X) * 2 ^ 64 - 1

/-- Code point, number of bits and constant `X` of every group, RFC 7919 appendices A.1 to A.5 and
RFC 8446 section 4.2.7. -/
def rfc7919Table : List (ℕ × ℕ × ℕ) :=
  [(0x100, 2048, 560316), (0x101, 3072, 2625351), (0x102, 4096, 5736041), (0x103, 6144, 15705020),
   (0x104, 8192, 10965728)]

/-- Code point, and the least number of bits of a private exponent, RFC 7919 appendices A.1 to A.5. -/
def rfc7919Exponents : List (ℕ × ℕ) :=
  [(0x100, 225), (0x101, 275), (0x102, 325), (0x103, 375), (0x104, 400)]

end Siotls.Spec
