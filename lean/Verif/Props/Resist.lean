import Verif.Lemmas.ToSafe
import Verif.Props.Finish

/-!
# Resistance to overflow: properties C12 (for every policy) and C84
-/

namespace Ieme

open Res IntTy

variable {T : IntTy} {o : Ops} {a : Args} {f r s : Raw} {x y : ℚ} {j k : ℤ}

/-! ## C84: cancelling common factors never loses a result -/

/-- **C84** If an arithmetic operator finishes on operands with common factors, it finishes on
the operands without them, and the results differ by a positive common factor. -/
theorem C84_arith_cancel {op : ArithOp} (hj : 0 < j) (hk : 0 < k)
    (h : o.arith T op (a.expand j k) ⇓ s) :
    ∃ m s', 0 < m ∧ o.arith T op a ⇓ s' ∧ s = s'.expand m :=
  Ops.arith_expand hj hk h

/-- **C84** If a comparison finishes on operands with common factors, it finishes on the
operands without them, with the same answer. -/
theorem C84_cmp_cancel {op : CmpOp} {b : Bool} (hj : 0 < j) (hk : 0 < k)
    (h : o.cmp T op (a.expand j k) ⇓ b) : o.cmp T op a ⇓ b :=
  Ops.cmp_expand hj hk h

example : Ops.fast.arith i32 .plus ((Args.ff ⟨1, 3⟩ ⟨-1, 2⟩).expand 4 5) ⇓ ⟨-20, 120⟩ ∧
    Ops.fast.arith i32 .plus (.ff ⟨1, 3⟩ ⟨-1, 2⟩) ⇓ ⟨-1, 6⟩ ∧
    Ops.safe.arith i32 .modulus ((Args.ff ⟨7, 3⟩ ⟨-1, 2⟩).expand 4 5) ⇓ ⟨20, 60⟩ ∧
    Ops.safe.arith i32 .modulus (.ff ⟨7, 3⟩ ⟨-1, 2⟩) ⇓ ⟨2, 6⟩ ∧
    Ops.fast.cmp i32 .less ((Args.ff ⟨1, 3⟩ ⟨-1, 2⟩).expand 4 5) ⇓ false := by decide

/-- **C84** Reducing the operands first never loses a result: when a policy finishes on defined
operands none of whose parts is the minimum value, so does the same policy behind
`reduced_input`, with the same value.  For `normalize_signs` the denominators have to be positive,
see `C84_normalizing_signs_overflows`. -/
theorem C84_reduced_input_resists {op : ArithOp} {mode : ReduceMode} (hd : a.Denote x y)
    (hi : a.InRange T) (hn : a.AbsInRange T) (hm : mode = .ignoreSigns ∨ a.PosDen)
    (h : o.arith T op a ⇓ s) :
    ∃ m s', 0 < m ∧ (Ops.reducedInput o mode).arith T op a ⇓ s' ∧ s = s'.expand m := by
  obtain ⟨a', ha'⟩ := Args.reduce_progress mode hi hn
  obtain ⟨j, k, hj, hk, e⟩ := Args.reduce_is_expand hd hm ha'
  rw [e] at h
  obtain ⟨m, s', hm, h', rfl⟩ := C84_arith_cancel hj hk h
  exact ⟨m, s', hm, by simp only [Ops.arith, ha', ok_bind_false, h'], rfl⟩

/-- **C84** The same for comparisons: the answer is the same. -/
theorem C84_reduced_input_resists_cmp {op : CmpOp} {mode : ReduceMode} {b : Bool}
    (hd : a.Denote x y) (hi : a.InRange T) (hn : a.AbsInRange T)
    (hm : mode = .ignoreSigns ∨ a.PosDen) (h : o.cmp T op a ⇓ b) :
    (Ops.reducedInput o mode).cmp T op a ⇓ b := by
  obtain ⟨a', ha'⟩ := Args.reduce_progress mode hi hn
  obtain ⟨j, k, hj, hk, e⟩ := Args.reduce_is_expand hd hm ha'
  rw [e] at h
  have h' := C84_cmp_cancel hj hk h
  simp only [Ops.cmp, ha', ok_bind_false, h']

example : (Args.ff ⟨60000, 60000⟩ ⟨-4, 6⟩).Denote 1 (-2/3) ∧
    (Args.ff ⟨60000, 60000⟩ ⟨-4, 6⟩).InRange i32 ∧ (Args.ff ⟨60000, 60000⟩ ⟨-4, 6⟩).PosDen ∧
    (Args.ff ⟨60000, 60000⟩ ⟨-4, 6⟩).AbsInRange i32 ∧
    Ops.fast.arith i32 .plus (.ff ⟨60000, 60000⟩ ⟨-4, 6⟩) ⇓ ⟨120000, 360000⟩ ∧
    (Ops.reducedInput .fast .normalizeSigns).arith i32 .plus (.ff ⟨60000, 60000⟩ ⟨-4, 6⟩) ⇓
      ⟨1, 3⟩ ∧
    (Ops.reducedInput .fast .normalizeSigns).cmp i32 .less (.ff ⟨60000, 60000⟩ ⟨-4, 6⟩) ⇓
      false := by
  refine ⟨by norm_num [Args.Denote, Denotes], ⟨by decide, by decide⟩, ⟨by decide, by decide⟩,
    ⟨by constructor <;> decide, by constructor <;> decide⟩, by decide, by decide, by decide⟩

/-- **C84** The gain is real: `60000/60000 + 60000/60000` on `int` overflows under `fast` and
finishes behind `reduced_input`. -/
theorem C84_reduced_input_gains :
    Ops.fast.arith i32 .plus (.ff ⟨60000, 60000⟩ ⟨60000, 60000⟩) = .fault .overflow ∧
    (Ops.reducedInput .fast .ignoreSigns).arith i32 .plus (.ff ⟨60000, 60000⟩ ⟨60000, 60000⟩) ⇓
      ⟨2, 1⟩ := by decide

/-- **C84** With `normalize_signs` and a negative denominator a result can be lost: the product
of `(-65536)/(-3)` and `32768/5` has the numerator `-2147483648` under `fast`, and the numerator
`2147483648` does not fit. -/
theorem C84_normalizing_signs_overflows :
    Ops.fast.arith i32 .multiplies (.ff ⟨-65536, -3⟩ ⟨32768, 5⟩) ⇓ ⟨-2147483648, -15⟩ ∧
    (Ops.reducedInput .fast .normalizeSigns).arith i32 .multiplies
      (.ff ⟨-65536, -3⟩ ⟨32768, 5⟩) = .fault .overflow ∧
    (Ops.reducedInput .fast .ignoreSigns).arith i32 .multiplies
      (.ff ⟨-65536, -3⟩ ⟨32768, 5⟩) ⇓ ⟨-2147483648, -15⟩ := by decide

/-- **C84** The minimum value is a true exception: `std::gcd` can not be called with it. -/
theorem C84_minimum_lost :
    Ops.fast.arith i32 .plus (.fr ⟨-2147483648, 2⟩ 1) ⇓ ⟨-2147483646, 2⟩ ∧
    (Ops.reducedInput .fast .ignoreSigns).arith i32 .plus (.fr ⟨-2147483648, 2⟩ 1) =
      .fault .gcdPrecond := by decide

/-! ## C12 for every policy -/

/-- **C12** For positive denominators, whatever a policy built on `fast` computes without overflow
(any arithmetic operator, any overload, any nesting of `reduced_input` and `reduced_output`), the
same policy built on `safe` computes too, up to a positive common factor. -/
theorem C12_nested_resists_overflow {op : ArithOp} (hp : a.PosDen) (hi : a.InRange T)
    (h : o.arith T op a ⇓ s) :
    ∃ m s', 0 < m ∧ o.toSafe.arith T op a ⇓ s' ∧ s = s'.expand m :=
  Ops.arith_toSafe hp hi h

example : (Args.ff ⟨4, 6⟩ ⟨1, 10⟩).PosDen ∧ (Args.ff ⟨4, 6⟩ ⟨1, 10⟩).InRange i32 ∧
    (Ops.reducedOutput .fast .ignoreSigns).toSafe = .reducedOutput .safe .ignoreSigns ∧
    Ops.fast.arith i32 .modulus (.ff ⟨4, 6⟩ ⟨1, 10⟩) ⇓ ⟨4, 60⟩ ∧
    Ops.safe.arith i32 .modulus (.ff ⟨4, 6⟩ ⟨1, 10⟩) ⇓ ⟨2, 30⟩ :=
  ⟨⟨by decide, by decide⟩, ⟨by decide, by decide⟩, rfl, by decide, by decide⟩

/-- **C12** The gain is real: `1/65536 + 1/65536` on `int`. -/
theorem C12_safe_gains : Ops.fast.arith i32 .plus (.ff ⟨1, 65536⟩ ⟨1, 65536⟩) = .fault .overflow ∧
    Ops.safe.arith i32 .plus (.ff ⟨1, 65536⟩ ⟨1, 65536⟩) ⇓ ⟨2, 65536⟩ := by decide

/-- **C12** (part) Comparisons under every nesting: for positive denominators a policy built on
`safe` gives the answer that the same policy built on `fast` gives, or the least common
denominator is not representable, which can only happen to two fractions. -/
theorem C12_nested_comparison {op : CmpOp} {b : Bool} (hp : a.PosDen) (hi : a.InRange T)
    (h : o.cmp T op a ⇓ b) :
    o.toSafe.cmp T op a ⇓ b ∨
      (o.toSafe.cmp T op a = .fault .lcmPrecond ∧ ∃ l r, a = .ff l r) := by
  induction o generalizing a with
  | safe => exact .inl h
  | fast =>
    cases a with
    | ff l r =>
      by_cases hl : (Int.lcm l.den r.den : ℤ) ≤ T.max
      · exact .inl (C12_safe_comparison_partial hp.1 hp.2 hi.1 hi.2 hl h)
      · exact .inr ⟨(C12_safe_comparison_finishes_iff hp.1 hp.2 hi.1 hi.2 h).2 (by omega), l, r, rfl⟩
    | fr l r =>
      left
      rw [Ops.toSafe, Ops.cmp, Fast.cmp_toSafe_int (by simp)]; exact h
    | rf l r =>
      left
      rw [Ops.toSafe, Ops.cmp, Fast.cmp_toSafe_int (by simp)]; exact h
  | reducedInput o mode ih =>
    simp only [Ops.cmp, Ops.toSafe, bind_eq_clean] at h ⊢
    obtain ⟨a', h1, h2⟩ := h
    rcases ih (Args.reduce_posDen hp h1) (Args.reduce_inRange hi h1) h2 with h3 | ⟨h3, l', r', rfl⟩
    · exact .inl ⟨a', h1, h3⟩
    · right
      refine ⟨by rw [h1, ok_bind_false, h3], ?_⟩
      cases a with
      | ff l r => exact ⟨l, r, rfl⟩
      | fr l r => rw [Args.reduce] at h1; cases e : Raw.reduce T mode l <;> rw [e] at h1 <;> cases h1
      | rf l r => rw [Args.reduce] at h1; cases e : Raw.reduce T mode r <;> rw [e] at h1 <;> cases h1
  | reducedOutput o mode ih => exact ih hp hi h

example : (Args.ff ⟨1, 65536⟩ ⟨1, 65537⟩).PosDen ∧ (Args.ff ⟨1, 65536⟩ ⟨1, 65537⟩).InRange i32 ∧
    (Ops.reducedInput .fast .ignoreSigns).cmp i32 .less (.ff ⟨1, 65536⟩ ⟨1, 65537⟩) ⇓ false ∧
    (Ops.reducedInput .fast .ignoreSigns).toSafe.cmp i32 .less (.ff ⟨1, 65536⟩ ⟨1, 65537⟩) =
      .fault .lcmPrecond :=
  ⟨⟨by decide, by decide⟩, ⟨by decide, by decide⟩, by decide, by decide⟩

end Ieme
