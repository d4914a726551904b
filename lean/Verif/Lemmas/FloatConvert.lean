import Verif.Lemmas.FloatField
import Verif.Lemmas.MixedProgress

/-!
# No silent errors in `floating_point_to_fraction`, and sufficient conditions to finish
-/

namespace Ieme

open Res IntTy

variable {F : Fmt} {T : IntTy} {o : Ops} {r s : Raw} {w : Bool}

theorem wrap_half (hs : T.signed = true) : T.wrap ((2 ^ (T.bits - 1) : ℕ) : ℤ) = T.min := by
  have hb := T.bits_pos
  have e : (2 : ℕ) ^ T.bits = 2 * 2 ^ (T.bits - 1) := by
    rw [← Nat.pow_succ', Nat.succ_eq_add_one, Nat.sub_add_cancel (by omega)]
  have hp : 0 < 2 ^ (T.bits - 1) := Nat.pow_pos (by decide)
  unfold IntTy.wrap IntTy.min
  rw [if_pos hs, if_pos hs, e]
  generalize 2 ^ (T.bits - 1) = z at hp
  rw [Int.bmod_def, Int.emod_eq_of_lt (by omega) (by omega), if_neg (by omega)]
  push_cast; omega

/-- `pow2` of a signed type is clean or has the minimum value as a part. -/
theorem pow2_signed (hs : T.signed = true) {e : ℤ} (he : i32.InRange e)
    (h : Fraction.pow2 T e = .ok r w) : w = false ∨ r = ⟨T.min, 1⟩ ∨ r = ⟨1, T.min⟩ := by
  by_cases hm : e = -2147483648
  · subst hm
    rw [Fraction.pow2, if_neg (by decide)] at h
    rw [show i32.neg (-2147483648) = .fault .overflow by decide, fault_bind] at h
    cases h
  rw [Fraction.pow2_eq he hm] at h
  split at h
  · rename_i hlt
    obtain ⟨p, w1, w2, h1, h2, rfl⟩ := bind_eq_ok.1 h
    simp only [pure_eq_ok] at h2
    obtain ⟨rfl, rfl⟩ := h2
    rcases conv_eq_ok.1 h1 with ⟨-, -, rfl⟩ | ⟨hn, rfl, rfl⟩
    · exact .inl rfl
    · have : e.natAbs = T.bits - 1 := by
        by_contra hne
        exact hn ((two_pow_inRange_iff _).2 ⟨hlt, fun _ => hne⟩)
      rw [this, wrap_half hs]
      right
      split <;> simp
  · cases h

theorem min_natAbs_not_inRange (hs : T.signed = true) : ¬ T.InRange (T.min.natAbs : ℤ) := by
  have := T.max_ge
  have hm : T.min = -T.max - 1 := by unfold IntTy.min IntTy.max; simp [hs]
  rintro ⟨-, h⟩; omega

theorem reduce_min_part (hs : T.signed = true) {f : Raw} {mode : ReduceMode} (hd : f.den ≠ 0)
    (h : f.num = T.min ∨ f.den = T.min) : f.reduce T mode ≠ .ok r w := by
  have key : ∀ {r w}, f.reduceIgnoreSigns T ≠ .ok r w := by
    intro r w e
    obtain ⟨h1, h2, -⟩ := (Raw.reduceIgnoreSigns_eq_ok hd).1 e
    rcases h with h | h
    · rw [h] at h1; exact min_natAbs_not_inRange hs h1
    · rw [h] at h2; exact min_natAbs_not_inRange hs h2
  intro e
  cases mode
  · obtain ⟨a, w1, w2, h1, -⟩ := bind_eq_ok.1 e
    exact key h1
  · exact key e

theorem mul_min_inRange (hs : T.signed = true) {n : ℤ} (h0 : n ≠ 0) (h : T.InRange (n * T.min)) :
    n = 1 := by
  have := T.max_ge
  have hm : T.min = -T.max - 1 := by unfold IntTy.min IntTy.max; simp [hs]
  obtain ⟨h1, h2⟩ := h
  rw [hm] at h1 h2
  rcases lt_trichotomy n 1 with h | h | h
  · have : n ≤ -1 := by omega
    nlinarith
  · exact h
  · nlinarith

theorem arith_signed_ok (hs : T.signed = true) {x y : ℤ} (h : T.arith x = .ok y w) :
    T.InRange x ∧ y = x ∧ w = false := by
  rcases arith_eq_ok.1 h with h | ⟨-, h, -⟩
  · exact h
  · rw [hs] at h; cases h

/-- Multiplying by a fraction with a part equal to the minimum value only finishes under a
policy without reduction and when the corresponding part of the other factor is one. -/
theorem Ops.mul_min (hs : T.signed = true) {p : Raw} (hp : p = ⟨T.min, 1⟩ ∨ p = ⟨1, T.min⟩)
    (hn : s.num ≠ 0) (hd : s.den ≠ 0)
    (h : o.arith T .multiplies (.ff s p) = .ok r w) : (o = .safe ∨ o = .fast) ∧
      (s.num = 1 ∨ s.den = 1) ∧ r.den ≠ 0 ∧ (r.num = T.min ∨ r.den = T.min) := by
  have hmax := T.max_ge
  have hm : T.min = -T.max - 1 := by unfold IntTy.min IntTy.max; simp [hs]
  have hmin : T.min ≠ 0 := by omega
  have prod : ∀ {n d w1 w2}, T.mul s.num p.num = .ok n w1 → T.mul s.den p.den = .ok d w2 →
      (s.num = 1 ∨ s.den = 1) ∧ d ≠ 0 ∧ (n = T.min ∨ d = T.min) := by
    intro n d w1 w2 h1 h2
    obtain ⟨k1, rfl, -⟩ := arith_signed_ok hs h1
    obtain ⟨k2, rfl, -⟩ := arith_signed_ok hs h2
    rcases hp with rfl | rfl
    · have := mul_min_inRange hs hn k1
      exact ⟨.inl this, by simpa using hd, .inl (by simp [this])⟩
    · have := mul_min_inRange hs hd k2
      exact ⟨.inr this, by simp [this, hmin], .inr (by simp [this])⟩
  induction o generalizing r w with
  | safe =>
    obtain ⟨n, w1, w2, h1, g1, -⟩ := bind_eq_ok.1 h
    obtain ⟨d, w3, w4, h2, g2, -⟩ := bind_eq_ok.1 g1
    simp only [pure_eq_ok] at g2
    obtain ⟨rfl, -⟩ := g2
    exact ⟨.inl rfl, prod h1 h2⟩
  | fast =>
    obtain ⟨n, w1, w2, h1, g1, -⟩ := bind_eq_ok.1 h
    obtain ⟨d, w3, w4, h2, g2, -⟩ := bind_eq_ok.1 g1
    simp only [pure_eq_ok] at g2
    obtain ⟨rfl, -⟩ := g2
    exact ⟨.inr rfl, prod h1 h2⟩
  | reducedInput o mode ih =>
    obtain ⟨a, w1, w2, h1, g1, -⟩ := bind_eq_ok.1 h
    obtain ⟨s', w3, w4, h2, g2, -⟩ := bind_eq_ok.1 h1
    obtain ⟨p', w5, w6, h3, g3, -⟩ := bind_eq_ok.1 g2
    refine absurd h3 (reduce_min_part hs ?_ ?_)
    · rcases hp with rfl | rfl <;> simp [hmin]
    · rcases hp with rfl | rfl <;> simp
  | reducedOutput o mode ih =>
    obtain ⟨a, w1, w2, h1, g1, -⟩ := bind_eq_ok.1 h
    obtain ⟨-, -, k1, k2⟩ := ih h1
    exact absurd g1 (reduce_min_part hs k1 k2)

/-- Multiplying by plus or minus one finishes. -/
theorem Ops.mul_sign_progress {f : Raw} {n : ℤ} {K : ℕ} (hs : T.signed = true) (h1 : (K : ℤ) ≤ T.max)
    (hf : f.AbsLe K) (hn : n.natAbs = 1) :
    ∃ r, o.arith T .multiplies (.rf n f) ⇓ r ∧ r.AbsLe K := by
  have red : ∀ {f : Raw} (mode : ReduceMode), f.AbsLe K → ∃ r, f.reduce T mode ⇓ r ∧ r.AbsLe K := by
    intro f mode h
    have : f.Fit T K :=
      ⟨⟨h.1, fun h' => by rw [hs] at h'; cases h'⟩, ⟨h.2, fun h' => by rw [hs] at h'; cases h'⟩⟩
    obtain ⟨r, hr, fr⟩ := this.reduce h1 mode
    exact ⟨r, hr, fr.1.1, fr.2.1⟩
  induction o generalizing f with
  | safe =>
    have n1 : (f.num * n).natAbs ≤ K := by rw [Int.natAbs_mul, hn, mul_one]; exact hf.1
    refine ⟨⟨_, _⟩, ?_, n1, hf.2⟩
    simp only [Ops.arith, Safe.arith, Safe.multipliesRF, Safe.multipliesFR,
      mul_of_inRange (inRange_of_abs hs h1 n1), ok_bind_false]
    rfl
  | fast =>
    have n1 : (f.num * n).natAbs ≤ K := by rw [Int.natAbs_mul, hn, mul_one]; exact hf.1
    refine ⟨⟨_, _⟩, ?_, n1, hf.2⟩
    simp only [Ops.arith, Fast.arith, Fast.multipliesRF, Fast.multipliesFR,
      mul_of_inRange (inRange_of_abs hs h1 n1), ok_bind_false]
    rfl
  | reducedInput o mode ih =>
    obtain ⟨f', hf', bf⟩ := red mode hf
    obtain ⟨r, hr, br⟩ := ih bf
    exact ⟨r, by simp only [Ops.arith, Args.reduce, hf', ok_bind_false, Res.pure_def, hr], br⟩
  | reducedOutput o mode ih =>
    obtain ⟨r, hr, br⟩ := ih hf
    obtain ⟨s, hs, bs⟩ := red mode br
    exact ⟨s, by simp only [Ops.arith, hr, ok_bind_false, hs], bs⟩

namespace FloatingPoint

theorem signFactor_noWrap (hs : T.signed = true) (n : ℕ) : (signFactor T n).NoWrap := by
  unfold signFactor IntTy.neg; nowrap hs

/-- On a signed type that can hold the mantissa the assembly never finishes with a wrapped
value. -/
theorem assemble_noWrap (hs : T.signed = true) {bias : ℤ} {M a e m : ℕ} (hM : 1 ≤ M)
    (hT : M + 1 < T.bits) (he : e ≤ 2147483647) (hm : m < 2 ^ M) :
    (assemble T o bias ((2 ^ M : ℕ) : ℤ) a e m).NoWrap := by
  intro r h
  have h2M : 2 ≤ 2 ^ M := by
    calc 2 = 2 ^ 1 := rfl
      _ ≤ 2 ^ M := Nat.pow_le_pow_right (by decide) hM
  have hden : T.InRange (((2 ^ M : ℕ) : ℤ)) :=
    (two_pow_inRange_iff _).2 ⟨by omega, fun _ => by omega⟩
  have hmr : T.InRange (m : ℤ) := by
    have := T.min_le_zero
    obtain ⟨-, h⟩ := hden
    constructor <;> omega
  obtain ⟨sg, w1, v1, h1, g1, f1⟩ := bind_eq_ok.1 h
  obtain ⟨e', w2, v2, h2, g2, f2⟩ := bind_eq_ok.1 g1
  obtain ⟨k, w3, v3, h3, g3, f3⟩ := bind_eq_ok.1 g2
  obtain ⟨n, w4, v4, h4, g4, f4⟩ := bind_eq_ok.1 g3
  obtain ⟨f, w5, v5, h5, g5, f5⟩ := bind_eq_ok.1 g4
  obtain ⟨g, w6, v6, h6, g6, f6⟩ := bind_eq_ok.1 g5
  obtain ⟨p, w7, v7, h7, g7, f7⟩ := bind_eq_ok.1 g6
  have e1 := (signFactor_noWrap hs _).flag h1
  rw [conv_small he] at h2
  simp only [Res.ok.injEq] at h2
  obtain ⟨rfl, rfl⟩ := h2
  obtain ⟨hk, rfl, e3⟩ := arith_signed_ok (T := i32) rfl h3
  rw [conv_clean.2 ⟨hmr, rfl⟩] at h4
  simp only [Res.ok.injEq] at h4
  obtain ⟨rfl, rfl⟩ := h4
  have e5 := (Fraction.arith_noWrap hs _ _).flag h5
  have e6 := (Fraction.arith_noWrap hs _ _).flag h6
  have e8 := (Fraction.arith_noWrap hs _ _).flag g7
  subst e1 e3 e5 e6 e8
  -- only the power can have wrapped
  have e7 : w7 = true := by simpa [f7, f6, f5, f4, f3, f2] using f1.symm
  rcases pow2_signed hs hk h7 with hw | hp
  · rw [hw] at e7; cases e7
  have hsg : sg = 1 ∨ sg = -1 := by
    unfold signFactor at h1
    split at h1
    · simp only [pure_eq_ok, and_true] at h1; exact .inl h1.symm
    · obtain ⟨-, rfl⟩ := neg_clean.1 h1; exact .inr rfl
  have hf : Denotes f (1 + (m : ℚ) / ((2 ^ M : ℕ) : ℤ)) := by
    have := arith_int_plus (f := Fraction.mk (m : ℤ) ((2 ^ M : ℕ) : ℤ)) (n := 1)
      (x := (m : ℚ) / ((2 ^ M : ℕ) : ℤ)) ⟨by simp only [Fraction.mk]; omega, by simp [Fraction.mk]⟩ h5
    simpa using this
  rw [Fraction.arith_self] at h6 g7
  have hg := Ops.arith_exact (a := .rf sg f) (op := .multiplies) ⟨rfl, hf⟩ h6
  have hd : g.den ≠ 0 := hg.1
  have hn : g.num ≠ 0 := by
    intro h0
    have h3 := hg.2
    rw [h0] at h3
    have : (0 : ℚ) < 1 + (m : ℚ) / ((2 ^ M : ℕ) : ℤ) := by positivity
    rcases hsg with rfl | rfl <;> simp at h3 <;> simp at this <;> linarith
  obtain ⟨ho, h11, -⟩ := Ops.mul_min hs hp hn hd g7
  -- without reduction the factor still has the large parts
  have hg' : g.num = sg * (m + ((2 ^ M : ℕ) : ℤ)) ∧ g.den = ((2 ^ M : ℕ) : ℤ) := by
    rw [Fraction.arith_self] at h5
    rcases ho with rfl | rfl <;>
      simp only [Ops.arith, Safe.arith, Fast.arith, Safe.plusRF, Safe.plusFR, Fast.plusRF,
        Fast.plusFR, Safe.multipliesRF, Safe.multipliesFR, Fast.multipliesRF, Fast.multipliesFR,
        bind_eq_clean, mul_clean, add_clean, pure_eq_ok, and_true, Fraction.mk] at h5 h6 <;>
      obtain ⟨a1, ⟨-, rfl⟩, a2, ⟨-, rfl⟩, rfl⟩ := h5 <;>
      obtain ⟨a3, ⟨-, rfl⟩, rfl⟩ := h6 <;>
      exact ⟨by simp; ring, rfl⟩
  rcases h11 with h | h
  · rw [hg'.1] at h
    rcases hsg with rfl | rfl <;> omega
  · omega

/-- The assembly finishes when the unreduced product fits. -/
theorem assemble_progress (hs : T.signed = true) {bias : ℤ} {M a e m : ℕ}
    (he : e ≤ 2147483647) (hb : i32.InRange ((e : ℤ) - bias))
    (hne : (e : ℤ) - bias ≠ -2147483648) (hm : m < 2 ^ M)
    (hfit : ((2 ^ (M + 1 + ((e : ℤ) - bias).natAbs) : ℕ) : ℤ) ≤ T.max) :
    ∃ r, assemble T o bias ((2 ^ M : ℕ) : ℤ) a e m ⇓ r := by
  set k := (e : ℤ) - bias with hk
  have hpos : ∀ n : ℕ, 0 < 2 ^ n := fun n => Nat.pow_pos (by decide)
  have eK : 2 ^ (M + 1 + k.natAbs) = 2 ^ (M + 1) * 2 ^ k.natAbs := pow_add _ _ _
  have l1 : 2 ^ (M + 1) ≤ 2 ^ (M + 1 + k.natAbs) := Nat.pow_le_pow_right (by decide) (by omega)
  have l2 : 2 ^ k.natAbs ≤ 2 ^ (M + 1 + k.natAbs) := Nat.pow_le_pow_right (by decide) (by omega)
  have l3 : 2 ^ (M + 1) = 2 * 2 ^ M := pow_succ' _ _
  have K1 : ((2 ^ (M + 1) : ℕ) : ℤ) ≤ T.max := by omega
  have K2 : ((2 ^ k.natAbs : ℕ) : ℤ) ≤ T.max := by omega
  have hmin := T.min_le_zero
  -- sign
  obtain ⟨sg, h1, hsg⟩ : ∃ sg, signFactor T a ⇓ sg ∧ sg.natAbs = 1 := by
    unfold signFactor
    split
    · exact ⟨1, rfl, rfl⟩
    · refine ⟨-1, neg_clean.2 ⟨?_, rfl⟩, rfl⟩
      have := T.min_signed hs
      have := T.max_ge
      constructor <;> omega
  have h2 : i32.conv e ⇓ (e : ℤ) := conv_small he
  have h3 : i32.sub e bias ⇓ k := sub_clean.2 ⟨hb, rfl⟩
  have h4 : T.conv m ⇓ (m : ℤ) := conv_clean.2 ⟨⟨by omega, by omega⟩, rfl⟩
  have hd0 : ((2 ^ M : ℕ) : ℤ) ≠ 0 := by have := hpos M; omega
  have hM : (0 : ℚ) < ((2 ^ M : ℕ) : ℚ) := by exact_mod_cast hpos M
  obtain ⟨f, h5, -, hfA⟩ := Ops.shift_progress (o := o) (K := 2 ^ (M + 1)) hs K1
    (f := Fraction.mk (m : ℤ) ((2 ^ M : ℕ) : ℤ)) (x := (m : ℚ) / ((2 ^ M : ℕ) : ℚ)) (n := 1)
    (v := 1 + (m : ℚ) / ((2 ^ M : ℕ) : ℚ)) (a := .rf 1 (Fraction.mk (m : ℤ) ((2 ^ M : ℕ) : ℤ)))
    (op := .plus)
    ⟨by simp only [Fraction.mk, Int.natAbs_natCast]; omega,
      by simp only [Fraction.mk, Int.natAbs_natCast]; omega⟩
    ⟨hd0, by simp [Fraction.mk]⟩
    (by simp only [Fraction.mk, Int.natAbs_natCast]
        have : 1 * 2 ^ M ≤ 2 ^ (M + 1) := by omega
        exact_mod_cast this)
    (by simp only [Fraction.mk, Int.natAbs_natCast]
        rw [abs_of_nonneg (by positivity), add_mul, div_mul_cancel₀ _ hM.ne', one_mul]
        have : 2 ^ M + m ≤ 2 ^ (M + 1) := by omega
        exact_mod_cast this)
    (by simp [IsShift])
  obtain ⟨g, h6, hgA⟩ := Ops.mul_sign_progress (o := o) hs K1 hfA hsg
  have hkr := hb
  rw [i32_inRange] at hkr
  have hsmall : k.natAbs < T.bits ∧ T.InRange (((2 ^ k.natAbs : ℕ) : ℤ)) := by
    have hr : T.InRange (((2 ^ k.natAbs : ℕ) : ℤ)) := ⟨by have := hpos k.natAbs; omega, K2⟩
    exact ⟨((two_pow_inRange_iff _).1 hr).1, hr⟩
  have h7 : Fraction.pow2 T k ⇓ (if 0 ≤ k then ⟨((2 ^ k.natAbs : ℕ) : ℤ), 1⟩
      else ⟨1, ((2 ^ k.natAbs : ℕ) : ℤ)⟩) := by
    rw [Fraction.pow2_eq hb hne, if_pos hsmall.1, conv_clean.2 ⟨hsmall.2, rfl⟩, ok_bind_false]
    rfl
  obtain ⟨r, h8, -⟩ := Ops.mul_progress (o := o) (f := g) (g := if 0 ≤ k then
      ⟨((2 ^ k.natAbs : ℕ) : ℤ), 1⟩ else ⟨1, ((2 ^ k.natAbs : ℕ) : ℤ)⟩) hs K1 K2
    (by rw [← eK]; exact hfit) hgA
    (by have := hpos k.natAbs
        split <;> constructor <;> simp only [Int.natAbs_natCast, Int.natAbs_one] <;> omega)
  refine ⟨r, ?_⟩
  simp only [assemble, h1, h2, h3, h4, ok_bind_false, Fraction.arith_self, h5, h6, h7, h8]

end FloatingPoint
end Ieme
