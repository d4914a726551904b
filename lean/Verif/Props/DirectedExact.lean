import Verif.Props.Directed

/-!
# What conversion to floating point computes, whatever the parts: properties C74 and C104

`C104_rounded_partial` and `C74_monotone_partial` are for fractions whose parts in lowest terms
are representable in the format.  The theorems here describe the result for all fractions: the
parts are rounded first and their quotient is rounded again.
-/

namespace Ieme

open Res IntTy FloatingPoint

variable {F : Fmt} {T : IntTy} {f g : Raw} {b c n m : ℕ} {q x y : ℚ} {d : Direction}

private theorem zero_representable : F.Representable 0 := by
  obtain ⟨c, hc, -⟩ := Fmt.representable_one (F := F) false
  have := Fmt.representable_grid (F := F) (k := 0) (j := 0) false (Nat.pow_pos (by decide))
    (by have := Fmt.bias_pos F; omega) (by
      rw [Nat.cast_zero, zero_mul]
      exact (abs_nonneg _).trans_lt (Fmt.Representable.lt ⟨c, hc, rfl⟩))
  simpa using this

/-- **C104** What is computed, for every defined fraction: numerator and denominator in lowest
terms are correctly rounded to finite numbers, and the result is their quotient correctly
rounded. -/
theorem C104_three_roundings (hT : (T.bits : ℤ) ≤ F.bias) (hq : Denotes f q)
    (h : ofFractionTo F T d f ⇓ b) :
    ∃ n m, F.RoundedTo d q.num n ∧ F.RoundedTo d q.den m ∧ F.Finite n ∧ F.Finite m ∧
      0 < F.value m ∧ F.RoundedTo d (F.value n / F.value m) b := by
  obtain ⟨r, hr, h1⟩ := bind_eq_clean.1 h
  have hi := Raw.reduce_inRange hr
  have e := reduce_parts hq hr
  subst e
  obtain rfl := pure_eq_ok.1 h1 |>.1
  have r1 := Fmt.roundedTo_ofInt (F := F) d q.num
  have r2 := Fmt.roundedTo_ofInt (F := F) d q.den
  have hd : (0 : ℚ) < ((q.den : ℤ) : ℚ) := by exact_mod_cast q.pos
  obtain ⟨f2, l2, -⟩ := r2.bounds hT (by have := q.pos; omega) (IntTy.natAbs_lt_pow hi.2).le
  have s2 := r2.2.1
  rw [if_neg (not_lt.2 hd.le)] at s2
  have hm : 0 < F.value (F.ofIntTo d q.den) := by
    rw [Fmt.abs_value] at l2
    rw [Fmt.value_nonneg s2]
    linarith
  rcases eq_or_ne q.num 0 with h0 | h0
  · obtain ⟨f1, -⟩ := r1.exact (by rw [h0, Int.cast_zero]; exact zero_representable)
    refine ⟨_, _, r1, by exact_mod_cast r2, f1, f2, hm, ?_⟩
    refine Fmt.roundedTo_div d f1 f2 hm.ne' fun _ => ?_
    have s1 := r1.2.1
    rw [h0, Int.cast_zero, if_neg (lt_irrefl _)] at s1
    rw [s2, h0, s1]
  · obtain ⟨f1, l1, -⟩ := r1.bounds hT h0 (IntTy.natAbs_lt_pow hi.1).le
    refine ⟨_, _, r1, by exact_mod_cast r2, f1, f2, hm, ?_⟩
    refine Fmt.roundedTo_div d f1 f2 hm.ne' fun h => ?_
    rw [h, abs_zero] at l1
    linarith

/-- **C104** Exactly when the result is the fraction correctly rounded: when the fraction and
the quotient of its rounded parts round to the same number. -/
theorem C104_rounded_iff (hT : (T.bits : ℤ) ≤ F.bias) (hq : Denotes f q)
    (h : ofFractionTo F T d f ⇓ b) (hn : F.RoundedTo d q.num n) (hm : F.RoundedTo d q.den m)
    (hc : F.RoundedTo d q c) :
    F.RoundedTo d q b ↔ F.RoundedTo d (F.value n / F.value m) c := by
  obtain ⟨n', m', h1, h2, -, -, -, h3⟩ := C104_three_roundings hT hq h
  obtain rfl := h1.unique hn
  obtain rfl := h2.unique hm
  constructor
  · intro h4
    obtain rfl := h4.unique hc
    exact h3
  · intro h4
    obtain rfl := h4.unique h3
    exact hc

/-- Two finite numbers in the order of floating-point numbers. -/
private theorem le_values (hb : F.Finite b) (hc : F.Finite c) (h : F.Le b c) :
    F.value b ≤ F.value c := by
  rcases h with ⟨⟨h, -⟩, -⟩ | ⟨⟨h, -⟩, -⟩ | ⟨-, -, h⟩
  · have := hb.2; omega
  · have := hc.2; omega
  · exact h

/-- **C104** For the result downward to be at most the fraction, and the result upward at least
the fraction, it is enough that the denominator in lowest terms is representable. -/
theorem C104_brackets_denominator (hT : (T.bits : ℤ) ≤ F.bias) (hq : Denotes f q)
    (hd : F.Representable q.den) :
    (ofFractionTo F T .downward f ⇓ b → F.Finite b → F.value b ≤ q) ∧
    (ofFractionTo F T .upward f ⇓ c → F.Finite c → q ≤ F.value c) := by
  have nf : ∀ {p}, F.Finite p → ¬ F.Inf p := fun hp h => by have := h.1; have := hp.2; omega
  have hp : (0 : ℚ) < q.den := by exact_mod_cast q.pos
  constructor
  · intro h fb
    obtain ⟨n, m, h1, h2, f1, f2, h0, h3⟩ := C104_three_roundings hT hq h
    obtain ⟨-, e⟩ := h2.exact hd
    obtain ⟨-, -, ⟨i, -⟩ | ⟨-, l1, -⟩⟩ := h1
    · exact absurd i (nf f1)
    obtain ⟨-, -, ⟨i, -⟩ | ⟨-, l2, -⟩⟩ := h3
    · exact absurd i (nf fb)
    rw [e] at l2
    refine l2.trans ?_
    rw [div_le_iff₀ hp, Rat.mul_den_eq_num]
    exact l1
  · intro h fb
    obtain ⟨n, m, h1, h2, f1, f2, h0, h3⟩ := C104_three_roundings hT hq h
    obtain ⟨-, e⟩ := h2.exact hd
    obtain ⟨-, -, ⟨i, -⟩ | ⟨-, l1, -⟩⟩ := h1
    · exact absurd i (nf f1)
    obtain ⟨-, -, ⟨i, -⟩ | ⟨-, l2, -⟩⟩ := h3
    · exact absurd i (nf fb)
    rw [e] at l2
    refine le_trans ?_ l2
    rw [le_div_iff₀ hp, Rat.mul_den_eq_num]
    exact l1

/-- **C104** The order is kept, whatever the parts, if no part gets in the way: among fractions
that are not negative, by a numerator that is not smaller and a denominator that is not
larger. -/
theorem C104_monotone_parts (hT : (T.bits : ℤ) ≤ F.bias) (hx : Denotes f x) (hy : Denotes g y)
    (h0 : 0 ≤ x.num) (hn : x.num ≤ y.num) (hd : y.den ≤ x.den)
    (hb : ofFractionTo F T d f ⇓ b) (hc : ofFractionTo F T d g ⇓ c) : F.Le b c := by
  obtain ⟨n, m, h1, h2, f1, f2, p2, h3⟩ := C104_three_roundings hT hx hb
  obtain ⟨n', m', h1', h2', f1', f2', p2', h3'⟩ := C104_three_roundings hT hy hc
  have l1 := le_values f1 f1' (h1.mono h1' (by exact_mod_cast hn))
  have l2 := le_values f2' f2 (h2'.mono h2 (by exact_mod_cast hd))
  have s := h1.2.1
  rw [if_neg (not_lt.2 (by exact_mod_cast h0))] at s
  have l0 : 0 ≤ F.value n := by rw [Fmt.value_nonneg s]; exact Fmt.magnitude_nonneg _ _
  exact h3.mono h3' (div_le_div₀ (l0.trans l1) l1 p2' l2)

/-- **C104** The order is kept among all fractions with the same denominator in lowest terms,
in particular among integers. -/
theorem C104_monotone_same_denominator (hT : (T.bits : ℤ) ≤ F.bias) (hx : Denotes f x)
    (hy : Denotes g y) (hd : x.den = y.den) (hxy : x ≤ y)
    (hb : ofFractionTo F T d f ⇓ b) (hc : ofFractionTo F T d g ⇓ c) : F.Le b c := by
  obtain ⟨n, m, h1, h2, f1, f2, p2, h3⟩ := C104_three_roundings hT hx hb
  obtain ⟨n', m', h1', h2', f1', f2', p2', h3'⟩ := C104_three_roundings hT hy hc
  have hn : x.num ≤ y.num := by
    have hp : (0 : ℤ) < y.den := by exact_mod_cast y.pos
    have := (Rat.le_iff x y).1 hxy
    rw [hd] at this
    exact le_of_mul_le_mul_right this hp
  have l1 := le_values f1 f1' (h1.mono h1' (by exact_mod_cast hn))
  rw [← hd] at h2'
  obtain rfl := h2.unique h2'
  exact h3.mono h3' (div_le_div_of_nonneg_right l1 p2.le)

/-- **C74** In the default direction: exactly when the order of two fractions is kept, whatever
their parts, is read off the quotients of the rounded parts. -/
theorem C74_monotone_iff (hT : (T.bits : ℤ) < F.bias) (hx : Denotes f x) (hy : Denotes g y)
    (hb : ofFraction F T f ⇓ b) (hc : ofFraction F T g ⇓ c) :
    ∃ u v : ℚ, (∃ n m, F.RoundedTo .nearest x.num n ∧ F.RoundedTo .nearest x.den m ∧
        u = F.value n / F.value m) ∧
      (∃ n m, F.RoundedTo .nearest y.num n ∧ F.RoundedTo .nearest y.den m ∧
        v = F.value n / F.value m) ∧
      F.Rounded u b ∧ F.Rounded v c ∧ (F.Le b c ↔ u ≤ v ∨ F.value b = F.value c) := by
  obtain ⟨n, m, h1, h2, f1, f2, p2, h3⟩ := C104_three_roundings (d := .nearest) hT.le hx hb
  obtain ⟨n', m', h1', h2', f1', f2', p2', h3'⟩ :=
    C104_three_roundings (d := .nearest) hT.le hy hc
  refine ⟨_, _, ⟨n, m, h1, h2, rfl⟩, ⟨n', m', h1', h2', rfl⟩, h3.2.2, h3'.2.2, ?_⟩
  have fin : ∀ {f x b}, Denotes f x → ofFraction F T f ⇓ b → F.Finite b := by
    intro f x b hx hb
    rcases eq_or_ne x 0 with rfl | h0
    · exact (C104_exact (d := .nearest) hT.le hx zero_representable hb).1
    · exact (C105_relative_error (d := .nearest) hT hx h0 hb).1
  have fb := fin hx hb
  have fc := fin hy hc
  constructor
  · intro h
    rcases le_or_gt (F.value n / F.value m) (F.value n' / F.value m') with h4 | h4
    · exact .inl h4
    · exact .inr (le_antisymm (le_values fb fc h) (le_values fc fb (h3'.mono h3 h4.le)))
  · rintro (h | h)
    · exact h3.mono h3' h
    · exact .inr (.inr ⟨fb, fc, h.le⟩)

/-- The parts of `1/16777217` on `int`, rounded downward to `float`. -/
example : (i32.bits : ℤ) < binary32.bias ∧ Denotes ⟨2, 33554434⟩ (1 / 16777217) ∧
    (1 / 16777217 : ℚ).num = 1 ∧ (1 / 16777217 : ℚ).den = 16777217 ∧
    binary32.ofIntTo .downward 16777217 = 0x4B800000 ∧ binary32.value 0x4B800000 = 16777216 ∧
    ofFractionTo binary32 i32 .downward ⟨2, 33554434⟩ ⇓ 0x33800000 ∧
    binary32.value 0x33800000 = 1 / 16777216 := by
  refine ⟨by decide, by norm_num [Denotes], by decide +kernel, by decide +kernel,
    by decide +kernel, by decide +kernel, by decide +kernel, by decide +kernel⟩

/-- A numerator that `float` does not represent, over a denominator that it does. -/
example : (i32.bits : ℤ) ≤ binary32.bias ∧ Denotes ⟨16777217, 2⟩ (16777217 / 2) ∧
    Denotes ⟨16777219, 2⟩ (16777219 / 2) ∧
    binary32.Representable (16777217 / 2 : ℚ).den ∧
    (16777217 / 2 : ℚ).den = (16777219 / 2 : ℚ).den ∧ (0 : ℤ) ≤ (16777217 / 2 : ℚ).num ∧
    (16777217 / 2 : ℚ).num ≤ (16777219 / 2 : ℚ).num ∧
    ofFractionTo binary32 i32 .downward ⟨16777217, 2⟩ ⇓ 0x4B000000 ∧
    ofFractionTo binary32 i32 .upward ⟨16777217, 2⟩ ⇓ 0x4B000001 ∧
    ofFractionTo binary32 i32 .downward ⟨16777219, 2⟩ ⇓ 0x4B000001 ∧
    binary32.Finite 0x4B000000 ∧ binary32.Finite 0x4B000001 ∧
    binary32.value 0x4B000000 < 16777217 / 2 ∧ 16777217 / 2 < binary32.value 0x4B000001 := by
  refine ⟨by decide, by norm_num [Denotes], by norm_num [Denotes], ?_, by decide +kernel⟩
  rw [show (16777217 / 2 : ℚ).den = 2 by decide +kernel]
  exact Fmt.representable_int (n := 2) (by decide) (by decide)

end Ieme
