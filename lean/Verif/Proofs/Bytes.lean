import Verif.Model.Bytes
import Mathlib.Tactic.Ring
import Mathlib.Tactic.Linarith

namespace Siotls

@[simp] theorem length_beEnc (n i : Nat) : (beEnc n i).length = n := by
  induction n with
  | zero => rfl
  | succ n ih => simp [beEnc, ih]

theorem foldl_be_acc (b : Bytes) (a : Nat) :
    b.foldl (fun acc x => acc * 256 + x.toNat) a = a * 256 ^ b.length + beDec b := by
  unfold beDec
  induction b generalizing a with
  | nil => simp
  | cons x xs ih =>
    simp only [List.foldl_cons, List.length_cons]
    rw [ih, ih (0 * 256 + x.toNat)]
    ring

@[simp] theorem beDec_nil : beDec [] = 0 := rfl

theorem beDec_cons (x : UInt8) (b : Bytes) :
    beDec (x :: b) = x.toNat * 256 ^ b.length + beDec b := by
  rw [beDec, List.foldl_cons, foldl_be_acc]; simp

theorem beDec_append (a b : Bytes) :
    beDec (a ++ b) = beDec a * 256 ^ b.length + beDec b := by
  rw [beDec, List.foldl_append, foldl_be_acc]; rfl

theorem beDec_lt (b : Bytes) : beDec b < 256 ^ b.length := by
  induction b with
  | nil => simp
  | cons x xs ih =>
    rw [beDec_cons, List.length_cons, pow_succ]
    have hx : x.toNat < 256 := x.toNat_lt
    nlinarith

theorem beDec_beEnc_mod (n i : Nat) : beDec (beEnc n i) = i % 256 ^ n := by
  induction n with
  | zero => simp [beEnc, Nat.mod_one]
  | succ n ih =>
    rw [beEnc, beDec_cons, ih, length_beEnc]
    have h : (UInt8.ofNat (i / 256 ^ n)).toNat = (i / 256 ^ n) % 256 := by
      simp [UInt8.toNat_ofNat']
    rw [h, pow_succ, Nat.mod_mul (a := 256 ^ n) (b := 256)]
    ring

theorem beDec_beEnc {n i : Nat} (h : i < 256 ^ n) : beDec (beEnc n i) = i := by
  rw [beDec_beEnc_mod, Nat.mod_eq_of_lt h]

theorem beEnc_beDec (b : Bytes) : beEnc b.length (beDec b) = b := by
  suffices H : ∀ (b : Bytes) (k : Nat), beEnc b.length (k * 256 ^ b.length + beDec b) = b by
    simpa using H b 0
  intro b
  induction b with
  | nil => intro k; rfl
  | cons x xs ih =>
    intro k
    have hlt := beDec_lt xs
    have hpos : 0 < 256 ^ xs.length := Nat.pos_of_ne_zero (by positivity)
    rw [List.length_cons, beEnc, beDec_cons]
    have e : k * 256 ^ (xs.length + 1) + (x.toNat * 256 ^ xs.length + beDec xs)
        = (k * 256 + x.toNat) * 256 ^ xs.length + beDec xs := by ring
    rw [e, ih]
    congr 1
    rw [mul_comm, Nat.mul_add_div hpos, Nat.div_eq_of_lt hlt, add_zero]
    apply UInt8.toNat_inj.mp
    simp

theorem beEnc_inj {n i j : Nat} (hi : i < 256 ^ n) (hj : j < 256 ^ n)
    (h : beEnc n i = beEnc n j) : i = j := by
  rw [← beDec_beEnc hi, ← beDec_beEnc hj, h]

@[simp] theorem length_zeros (n : Nat) : (zeros n).length = n := by simp [zeros]

theorem length_xorBytes (a b : Bytes) : (xorBytes a b).length = min a.length b.length := by
  induction a generalizing b with
  | nil => simp [xorBytes]
  | cons x xs ih =>
    cases b with
    | nil => simp [xorBytes]
    | cons y ys => simp [xorBytes, ih]

theorem xorBytes_right_inj {a b c : Bytes} (hb : b.length = a.length) (hc : c.length = a.length)
    (h : xorBytes a b = xorBytes a c) : b = c := by
  induction a generalizing b c with
  | nil =>
    cases b <;> cases c <;> simp_all
  | cons x xs ih =>
    cases b with
    | nil => simp at hb
    | cons y ys =>
      cases c with
      | nil => simp at hc
      | cons z zs =>
        simp only [xorBytes, List.cons.injEq] at h
        have h1 : y = z := by
          have := congrArg (fun t => x ^^^ t) h.1
          simpa [← UInt8.xor_assoc] using this
        simp only [List.length_cons, Nat.add_right_cancel_iff] at hb hc
        rw [h1, ih hb hc h.2]

end Siotls
