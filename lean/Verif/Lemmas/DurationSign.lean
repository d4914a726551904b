import Verif.Props.Duration

/-!
# The order of two durations in terms of the counts that are compared
-/

namespace Ieme

open Res IntTy Chrono

variable {T : IntTy} {o : Ops} {p q : Period} {l r : Count} {t u : ℚ}

theorem Ops.orderSafe_comm (x y : Raw) : o.OrderSafe (.ff x y) ↔ o.OrderSafe (.ff y x) := by
  induction o with
  | safe => rfl
  | fast => simp only [Ops.OrderSafe, mul_comm]
  | reducedInput o mode ih => cases mode <;> simp only [Ops.OrderSafe, ih]
  | reducedOutput o mode ih => simp only [Ops.OrderSafe, ih]

theorem common_swap {x y : Raw} (h : Chrono.common T o q p r l ⇓ (y, x)) : Chrono.common T o p q l r ⇓ (x, y) := by
  unfold Chrono.common at h ⊢
  rw [commonPeriod_comm p q]
  cases hc : commonPeriod q p with
  | none => rw [hc] at h; cases h
  | some c =>
    rw [hc] at h
    simp only at h ⊢
    split at h
    · cases h
    · rename_i h0
      rw [if_neg (by rwa [or_comm] at h0)]
      simp only [bind_eq_clean, pure_eq_ok, and_true, Prod.mk.injEq] at h ⊢
      obtain ⟨a, h1, b, h2, rfl, rfl⟩ := h
      exact ⟨_, h2, _, h1, rfl, rfl⟩

theorem less_answer {v : Bool} (hl : Lasts p l t) (hr : Lasts q r u)
    (h : (Chrono.common T o p q l r >>= fun z => match z with
      | (x, y) => Fraction.cmp T T o .less (.ff x y)) ⇓ v) :
    ∃ x y : Raw, Chrono.common T o p q l r ⇓ (x, y) ∧
      ((o.OrderSafe (.ff x y) ∧ (v = true ↔ t < u)) ∨
        (¬ o.OrderSafe (.ff x y) ∧ (v = true ↔ u < t))) := by
  obtain ⟨⟨x, y⟩, h1, h2⟩ := bind_eq_clean.1 h
  simp only [Fraction.cmp_self] at h2
  refine ⟨x, y, h1, ?_⟩
  cases hc : commonPeriod p q with
  | none => simp only [Chrono.common, hc, reduceCtorEq] at h1
  | some c =>
    obtain ⟨dx, dy⟩ := common_denotes hc hl hr h1
    have c0 := c.seconds_pos
    have := C15_order_characterised (a := .ff x y) ⟨dx, dy⟩ h2
    simp only [CmpOp.Holds, div_lt_div_iff_of_pos_right c0] at this
    by_cases hs : o.OrderSafe (.ff x y)
    · exact .inl ⟨hs, this.1 hs⟩
    · exact .inr ⟨hs, this.2 hs⟩

end Ieme
