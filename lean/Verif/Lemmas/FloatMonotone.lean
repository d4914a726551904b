import Verif.Lemmas.FloatRounding

/-!
# Rounding is monotone
-/

namespace Ieme.Fmt

variable {F : Fmt} {x y : ℚ} {b c : ℕ}

theorem Finite.not_nan (h : F.Finite b) : ¬ F.NaN b := fun hn => by
  have := h.2
  rw [hn.1] at this
  exact lt_irrefl _ this

theorem Inf.not_nan (h : F.Inf b) : ¬ F.NaN b := fun hn => hn.2 h.2

theorem Rounded.not_nan (h : F.Rounded x b) : ¬ F.NaN b := by
  rcases lt_or_ge |x| F.overflowBound with hx | hx
  · exact (h.finite hx).not_nan
  · exact (h.overflow hx).not_nan

/-- Correct rounding keeps the order. -/
theorem Rounded.mono (hb : F.Rounded x b) (hc : F.Rounded y c) (hxy : x ≤ y) : F.Le b c := by
  rcases lt_or_ge |y| F.overflowBound with hy | hy
  · rcases lt_or_ge |x| F.overflowBound with hx | hx
    · have fb := hb.finite hx
      have fc := hc.finite hy
      refine .inr (.inr ⟨fb, fc, ?_⟩)
      by_contra hlt
      have hlt := not_le.1 hlt
      have n1 := hb.nearest hx c fc
      have n2 := hc.nearest hy b fb
      have e : x = y := by
        rcases abs_cases (F.value b - x) with ⟨a1, _⟩ | ⟨a1, _⟩ <;>
        rcases abs_cases (F.value c - x) with ⟨a2, _⟩ | ⟨a2, _⟩ <;>
        rcases abs_cases (F.value b - y) with ⟨a3, _⟩ | ⟨a3, _⟩ <;>
        rcases abs_cases (F.value c - y) with ⟨a4, _⟩ | ⟨a4, _⟩ <;>
        rw [a1, a2] at n1 <;> rw [a3, a4] at n2 <;> linarith
      subst e
      rw [hb.unique hc] at hlt
      exact lt_irrefl _ hlt
    · rcases lt_or_ge x 0 with h0 | h0
      · exact .inl ⟨hb.overflow hx, by rw [hb.sign, if_pos h0], hc.not_nan⟩
      · rw [abs_of_nonneg h0] at hx
        rw [abs_of_nonneg (h0.trans hxy)] at hy
        linarith
  · rcases lt_or_ge y 0 with h0 | h0
    · have hx : F.overflowBound ≤ |x| := by
        rw [abs_of_neg h0] at hy
        rw [abs_of_neg (hxy.trans_lt h0)]
        linarith
      exact .inl ⟨hb.overflow hx, by rw [hb.sign, if_pos (hxy.trans_lt h0)], hc.not_nan⟩
    · exact .inr (.inl ⟨hc.overflow hy, by rw [hc.sign, if_neg (not_lt.2 h0)], hb.not_nan⟩)

theorem roundAbs_lt (F : Fmt) (a : ℚ) : F.roundAbs a < 2 ^ (F.mant + F.exp) := by
  have hle : F.roundAbs a ≤ F.infBits := by rw [roundAbs_eq]; exact min_le_right _ _
  exact lt_of_le_of_lt hle (infBits_lt F)

/-- Quotients of opposite numerators differ in the sign only. -/
theorem div_neg {n d : ℤ} (hn : 0 < n) (hd : 0 < d) :
    F.div (F.ofInt n) (F.ofInt d) = F.quietNaN ∨
    F.div (F.ofInt (-n)) (F.ofInt d) = 2 ^ (F.mant + F.exp) + F.div (F.ofInt n) (F.ofInt d) := by
  have e1 : F.ofInt n = F.withSign false (F.roundAbs n.natAbs) := by
    rw [ofInt, decide_eq_false (by omega)]
  have e2 : F.ofInt (-n) = F.withSign true (F.roundAbs n.natAbs) := by
    rw [ofInt, decide_eq_true (by omega), Int.natAbs_neg]
  have e3 : F.ofInt d = F.withSign false (F.roundAbs d.natAbs) := by
    rw [ofInt, decide_eq_false (by omega)]
  rw [e1, e2, e3]
  obtain ⟨-, s1, u1, v1, -⟩ := withSign_fields (F := F) false (roundAbs_lt F n.natAbs)
  obtain ⟨-, s2, u2, v2, -⟩ := withSign_fields (F := F) true (roundAbs_lt F n.natAbs)
  obtain ⟨-, s3, u3, v3, -⟩ := withSign_fields (F := F) false (roundAbs_lt F d.natAbs)
  simp only [div, NaN, Inf, magnitude, s1, s2, s3, u1, u2, u3, v1, v2, v3]
  split_ifs <;> simp_all [withSign]

end Ieme.Fmt
