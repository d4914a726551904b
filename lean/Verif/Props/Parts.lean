import Verif.Lemmas.ToSafe
import Verif.Lemmas.Exact
import Mathlib.Data.Int.ModEq

/-!
# The exact parts that `safe` and `fast` compute, and exactly when: property C85
-/

namespace Ieme

open Res IntTy

variable {T : IntTy} {o : Ops} {a : Args} {f l r s : Raw}

/-- **C85** `fast` computes the textbook formula, treating an integer operand `n` as `n/1`, and
finishes without overflow exactly when both parts of the result and, for the operators that need
a common denominator, both cross products are representable (and for `%` the divisor is not zero
and the quotient representable). -/
theorem C85_fast_iff {op : ArithOp} (hi : a.InRange T) :
    Ops.fast.arith T op a ⇓ s ↔ s = op.crossParts a.left a.right ∧ s.InRange T ∧
      (op.UsesCommon → T.InRange (a.left.num * a.right.den) ∧
        T.InRange (a.right.num * a.left.den)) ∧
      (op = .modulus → a.right.num * a.left.den ≠ 0 ∧
        T.InRange ((a.left.num * a.right.den).tdiv (a.right.num * a.left.den))) := by
  cases s with | mk n d => ?_
  cases a with
  | ff l r =>
    cases op <;> simp only [Ops.arith, Fast.arith, Fast.plusFF, Fast.minusFF, Fast.multipliesFF,
      Fast.dividesFF, Fast.modulusFF, bind_eq_clean, mul_clean, add_clean, sub_clean, mod_clean,
      pure_eq_ok, and_true, ArithOp.crossParts, ArithOp.overCommon, ArithOp.UsesCommon, Args.left,
      Args.right, Raw.InRange, Raw.mk.injEq, reduceCtorEq, false_imp_iff,
      forall_const]
    · constructor
      · rintro ⟨_, ⟨h1, rfl⟩, _, ⟨h2, rfl⟩, _, ⟨h3, rfl⟩, _, ⟨h4, rfl⟩, rfl, rfl⟩
        exact ⟨⟨rfl, rfl⟩, ⟨h3, h4⟩, h1, h2⟩
      · rintro ⟨⟨rfl, rfl⟩, ⟨h3, h4⟩, h1, h2⟩
        exact ⟨_, ⟨h1, rfl⟩, _, ⟨h2, rfl⟩, _, ⟨h3, rfl⟩, _, ⟨h4, rfl⟩, rfl, rfl⟩
    · constructor
      · rintro ⟨_, ⟨h1, rfl⟩, _, ⟨h2, rfl⟩, _, ⟨h3, rfl⟩, _, ⟨h4, rfl⟩, rfl, rfl⟩
        exact ⟨⟨rfl, rfl⟩, ⟨h3, h4⟩, h1, h2⟩
      · rintro ⟨⟨rfl, rfl⟩, ⟨h3, h4⟩, h1, h2⟩
        exact ⟨_, ⟨h1, rfl⟩, _, ⟨h2, rfl⟩, _, ⟨h3, rfl⟩, _, ⟨h4, rfl⟩, rfl, rfl⟩
    · constructor
      · rintro ⟨_, ⟨h1, rfl⟩, _, ⟨h2, rfl⟩, rfl, rfl⟩
        exact ⟨⟨rfl, rfl⟩, h1, h2⟩
      · rintro ⟨⟨rfl, rfl⟩, h1, h2⟩
        exact ⟨_, ⟨h1, rfl⟩, _, ⟨h2, rfl⟩, rfl, rfl⟩
    · constructor
      · rintro ⟨_, ⟨h1, rfl⟩, _, ⟨h2, rfl⟩, rfl, rfl⟩
        exact ⟨⟨rfl, rfl⟩, h1, h2⟩
      · rintro ⟨⟨rfl, rfl⟩, h1, h2⟩
        exact ⟨_, ⟨h1, rfl⟩, _, ⟨h2, rfl⟩, rfl, rfl⟩
    · constructor
      · rintro ⟨_, ⟨h1, rfl⟩, _, ⟨h2, rfl⟩, _, ⟨h0, h3, rfl⟩, _, ⟨h4, rfl⟩, rfl, rfl⟩
        exact ⟨⟨rfl, rfl⟩, ⟨tmod_inRange h1, h4⟩, ⟨h1, h2⟩, h0, h3⟩
      · rintro ⟨⟨rfl, rfl⟩, ⟨-, h4⟩, ⟨h1, h2⟩, h0, h3⟩
        exact ⟨_, ⟨h1, rfl⟩, _, ⟨h2, rfl⟩, _, ⟨h0, h3, rfl⟩, _, ⟨h4, rfl⟩, rfl, rfl⟩
  | fr l r =>
    obtain ⟨⟨i1, i2⟩, i3⟩ := hi
    cases op <;> simp only [Ops.arith, Fast.arith, Fast.plusFR, Fast.minusFR, Fast.multipliesFR,
      Fast.dividesFR, Fast.modulusFR, bind_eq_clean, mul_clean, add_clean, sub_clean, mod_clean,
      pure_eq_ok, and_true, ArithOp.crossParts, ArithOp.overCommon, ArithOp.UsesCommon, Args.left,
      Args.right, Raw.InRange, Raw.mk.injEq, reduceCtorEq, false_imp_iff,
      forall_const, mul_one]
    · constructor
      · rintro ⟨_, ⟨h1, rfl⟩, _, ⟨h2, rfl⟩, rfl, rfl⟩
        exact ⟨⟨rfl, rfl⟩, ⟨h2, i2⟩, i1, h1⟩
      · rintro ⟨⟨rfl, rfl⟩, ⟨h2, -⟩, -, h1⟩
        exact ⟨_, ⟨h1, rfl⟩, _, ⟨h2, rfl⟩, rfl, rfl⟩
    · constructor
      · rintro ⟨_, ⟨h1, rfl⟩, _, ⟨h2, rfl⟩, rfl, rfl⟩
        exact ⟨⟨rfl, rfl⟩, ⟨h2, i2⟩, i1, h1⟩
      · rintro ⟨⟨rfl, rfl⟩, ⟨h2, -⟩, -, h1⟩
        exact ⟨_, ⟨h1, rfl⟩, _, ⟨h2, rfl⟩, rfl, rfl⟩
    · constructor
      · rintro ⟨_, ⟨h1, rfl⟩, rfl, rfl⟩
        exact ⟨⟨rfl, rfl⟩, h1, i2⟩
      · rintro ⟨⟨rfl, rfl⟩, h1, -⟩
        exact ⟨_, ⟨h1, rfl⟩, rfl, rfl⟩
    · constructor
      · rintro ⟨_, ⟨h1, rfl⟩, rfl, rfl⟩
        exact ⟨⟨rfl, rfl⟩, i1, h1⟩
      · rintro ⟨⟨rfl, rfl⟩, -, h1⟩
        exact ⟨_, ⟨h1, rfl⟩, rfl, rfl⟩
    · constructor
      · rintro ⟨_, ⟨h1, rfl⟩, _, ⟨h0, h2, rfl⟩, rfl, rfl⟩
        exact ⟨⟨rfl, rfl⟩, ⟨tmod_inRange i1, i2⟩, ⟨i1, h1⟩, h0, h2⟩
      · rintro ⟨⟨rfl, rfl⟩, -, ⟨-, h1⟩, h0, h2⟩
        exact ⟨_, ⟨h1, rfl⟩, _, ⟨h0, h2, rfl⟩, rfl, rfl⟩
  | rf l r =>
    obtain ⟨i3, ⟨i1, i2⟩⟩ := hi
    cases op <;> simp only [Ops.arith, Fast.arith, Fast.plusRF, Fast.plusFR, Fast.minusRF,
      Fast.multipliesRF, Fast.multipliesFR,
      Fast.dividesRF, Fast.modulusRF, bind_eq_clean, mul_clean, add_clean, sub_clean, mod_clean,
      pure_eq_ok, and_true, ArithOp.crossParts, ArithOp.overCommon, ArithOp.UsesCommon, Args.left,
      Args.right, Raw.InRange, Raw.mk.injEq, reduceCtorEq, false_imp_iff,
      forall_const, mul_one, one_mul]
    · rw [add_comm]
      constructor
      · rintro ⟨_, ⟨h1, rfl⟩, _, ⟨h2, rfl⟩, rfl, rfl⟩
        exact ⟨⟨rfl, rfl⟩, ⟨h2, i2⟩, h1, i1⟩
      · rintro ⟨⟨rfl, rfl⟩, ⟨h2, -⟩, h1, -⟩
        exact ⟨_, ⟨h1, rfl⟩, _, ⟨h2, rfl⟩, rfl, rfl⟩
    · constructor
      · rintro ⟨_, ⟨h1, rfl⟩, _, ⟨h2, rfl⟩, rfl, rfl⟩
        exact ⟨⟨rfl, rfl⟩, ⟨h2, i2⟩, h1, i1⟩
      · rintro ⟨⟨rfl, rfl⟩, ⟨h2, -⟩, h1, -⟩
        exact ⟨_, ⟨h1, rfl⟩, _, ⟨h2, rfl⟩, rfl, rfl⟩
    · rw [mul_comm r.num]
      constructor
      · rintro ⟨_, ⟨h1, rfl⟩, rfl, rfl⟩
        exact ⟨⟨rfl, rfl⟩, h1, i2⟩
      · rintro ⟨⟨rfl, rfl⟩, h1, -⟩
        exact ⟨_, ⟨h1, rfl⟩, rfl, rfl⟩
    · constructor
      · rintro ⟨_, ⟨h1, rfl⟩, rfl, rfl⟩
        exact ⟨⟨rfl, rfl⟩, h1, i1⟩
      · rintro ⟨⟨rfl, rfl⟩, h1, -⟩
        exact ⟨_, ⟨h1, rfl⟩, rfl, rfl⟩
    · constructor
      · rintro ⟨_, ⟨h1, rfl⟩, _, ⟨h0, h2, rfl⟩, rfl, rfl⟩
        exact ⟨⟨rfl, rfl⟩, ⟨tmod_inRange h1, i2⟩, ⟨h1, i1⟩, h0, h2⟩
      · rintro ⟨⟨rfl, rfl⟩, -, ⟨h1, -⟩, h0, h2⟩
        exact ⟨_, ⟨h1, rfl⟩, _, ⟨h0, h2, rfl⟩, rfl, rfl⟩

example : (Args.ff ⟨7, 6⟩ ⟨-3, 4⟩).InRange i32 ∧
    ArithOp.crossParts .plus ⟨7, 6⟩ ⟨-3, 4⟩ = ⟨10, 24⟩ ∧
    Ops.fast.arith i32 .plus (.ff ⟨7, 6⟩ ⟨-3, 4⟩) ⇓ ⟨10, 24⟩ ∧
    Ops.fast.arith i32 .modulus (.ff ⟨7, 6⟩ ⟨-3, 4⟩) ⇓ ⟨10, 24⟩ ∧
    Ops.fast.arith i32 .divides (.rf 5 ⟨-3, 4⟩) ⇓ ⟨20, -3⟩ ∧
    Ops.fast.arith i32 .plus (.ff ⟨1, 65536⟩ ⟨0, 65536⟩) = .fault .overflow :=
  ⟨⟨by decide, by decide⟩, by decide, by decide, by decide, by decide, by decide⟩

/-- **C85** `safe` and `fast` are the same function, faults and wrap-around included, except for
`+`, `-` and `%` of two fractions. -/
theorem C85_safe_eq_fast {op : ArithOp} (h : ¬ op.UsesCommon ∨ ∀ l r, a ≠ .ff l r) :
    Ops.safe.arith T op a = Ops.fast.arith T op a := by
  cases a with
  | ff l r =>
    rcases h with h | h
    · cases op <;> first | rfl | exact absurd trivial h
    · exact absurd rfl (h l r)
  | fr l r =>
    cases op <;> first
      | rfl
      | simp only [Ops.arith, Safe.arith, Safe.modulusFR, Fast.arith, Fast.modulusFR, IntTy.mul,
          mul_comm l.den]
  | rf l r =>
    cases op <;> first
      | rfl
      | simp only [Ops.arith, Safe.arith, Safe.modulusRF, Fast.arith, Fast.modulusRF, IntTy.mul,
          mul_comm r.den]

example : ¬ ArithOp.UsesCommon .divides ∧
    Ops.safe.arith u32 .divides (.ff ⟨3, 4⟩ ⟨2147483648, 2⟩) = .ok ⟨6, 0⟩ true ∧
    Ops.fast.arith u32 .divides (.ff ⟨3, 4⟩ ⟨2147483648, 2⟩) = .ok ⟨6, 0⟩ true ∧
    Ops.safe.arith i32 .modulus (.fr ⟨7, 2⟩ 2) ⇓ ⟨3, 2⟩ :=
  ⟨id, by decide, by decide, by decide⟩

/-- **C85** `+`, `-` and `%` of two fractions under `safe`: the result is over the least common
denominator `D`, and the operation finishes without overflow exactly when both operands are
defined and `D`, both numerators over `D` and the numerator of the result are representable (and
for `%` the divisor is not zero and the quotient representable). -/
theorem C85_safe_iff {op : ArithOp} (hop : op.UsesCommon) (hl : l.InRange T) (hr : r.InRange T) :
    Ops.safe.arith T op (.ff l r) ⇓ s ↔ l.den ≠ 0 ∧ r.den ≠ 0 ∧
      s.den = Int.lcm l.den r.den ∧ s.InRange T ∧
      ∃ p q, p * l.den = l.num * s.den ∧ q * r.den = r.num * s.den ∧ T.InRange p ∧ T.InRange q ∧
        s.num = op.overCommon p q ∧
        (op = .modulus → q ≠ 0 ∧ T.InRange (p.tdiv q)) := by
  cases s with | mk n d => ?_
  by_cases h0 : l.den ≠ 0 ∧ r.den ≠ 0
  · obtain ⟨hl0, hr0⟩ := h0
    obtain ⟨L, k, m, hL, hdk, hdm, pe, qe, fit⟩ := lcm_scale hl0 hr0 hl.2 hr.2
    cases op <;> simp only [ArithOp.UsesCommon] at hop <;>
      simp only [Ops.arith, Safe.arith, Safe.plusFF, Safe.minusFF, Safe.modulusFF, bind_eq_clean,
        lcm_clean, div_clean, mul_clean, add_clean, sub_clean, mod_clean, pure_eq_ok, and_true,
        ArithOp.overCommon, Raw.InRange, Raw.mk.injEq, reduceCtorEq, false_imp_iff,
        forall_const, hL]
    · constructor
      · rintro ⟨_, ⟨h1, h2, h3, rfl⟩, _, ⟨-, h5, rfl⟩, _, ⟨h6, rfl⟩, _, ⟨-, h8, rfl⟩, _, ⟨h9, rfl⟩,
          _, ⟨h10, rfl⟩, rfl, rfl⟩
        rw [hdk, hdm] at *
        exact ⟨hl0, hr0, rfl, ⟨h10, h3⟩, _, _, (pe _).2 rfl, (qe _).2 rfl, h6, h9, rfl⟩
      · rintro ⟨-, -, rfl, ⟨h10, h3⟩, p, q, hp, hq, h6, h9, rfl⟩
        obtain rfl := (pe p).1 hp
        obtain rfl := (qe q).1 hq
        obtain ⟨f1, f2, f3, f4⟩ := fit h3
        exact ⟨_, ⟨f1, f3, h3, rfl⟩, _, ⟨hl0, hdk ▸ f2, hdk.symm⟩, _, ⟨h6, rfl⟩, _,
          ⟨hr0, hdm ▸ f4, hdm.symm⟩, _, ⟨h9, rfl⟩, _, ⟨h10, rfl⟩, rfl, rfl⟩
    · constructor
      · rintro ⟨_, ⟨h1, h2, h3, rfl⟩, _, ⟨-, h5, rfl⟩, _, ⟨h6, rfl⟩, _, ⟨-, h8, rfl⟩, _, ⟨h9, rfl⟩,
          _, ⟨h10, rfl⟩, rfl, rfl⟩
        rw [hdk, hdm] at *
        exact ⟨hl0, hr0, rfl, ⟨h10, h3⟩, _, _, (pe _).2 rfl, (qe _).2 rfl, h6, h9, rfl⟩
      · rintro ⟨-, -, rfl, ⟨h10, h3⟩, p, q, hp, hq, h6, h9, rfl⟩
        obtain rfl := (pe p).1 hp
        obtain rfl := (qe q).1 hq
        obtain ⟨f1, f2, f3, f4⟩ := fit h3
        exact ⟨_, ⟨f1, f3, h3, rfl⟩, _, ⟨hl0, hdk ▸ f2, hdk.symm⟩, _, ⟨h6, rfl⟩, _,
          ⟨hr0, hdm ▸ f4, hdm.symm⟩, _, ⟨h9, rfl⟩, _, ⟨h10, rfl⟩, rfl, rfl⟩
    · constructor
      · rintro ⟨_, ⟨h1, h2, h3, rfl⟩, _, ⟨-, h5, rfl⟩, _, ⟨h6, rfl⟩, _, ⟨-, h8, rfl⟩, _, ⟨h9, rfl⟩,
          _, ⟨h10, h11, rfl⟩, rfl, rfl⟩
        rw [hdk, hdm] at *
        exact ⟨hl0, hr0, rfl, ⟨tmod_inRange h6, h3⟩, _, _, (pe _).2 rfl, (qe _).2 rfl, h6, h9, rfl,
          h10, h11⟩
      · rintro ⟨-, -, rfl, ⟨-, h3⟩, p, q, hp, hq, h6, h9, rfl, h10, h11⟩
        obtain rfl := (pe p).1 hp
        obtain rfl := (qe q).1 hq
        obtain ⟨f1, f2, f3, f4⟩ := fit h3
        exact ⟨_, ⟨f1, f3, h3, rfl⟩, _, ⟨hl0, hdk ▸ f2, hdk.symm⟩, _, ⟨h6, rfl⟩, _,
          ⟨hr0, hdm ▸ f4, hdm.symm⟩, _, ⟨h9, rfl⟩, _, ⟨h10, h11, rfl⟩, rfl, rfl⟩
  · constructor
    · intro h
      exfalso
      apply h0
      cases op <;> simp only [ArithOp.UsesCommon] at hop <;>
        simp only [Ops.arith, Safe.arith, Safe.plusFF, Safe.minusFF, Safe.modulusFF, bind_eq_clean,
          div_clean] at h <;>
        obtain ⟨_, -, _, ⟨h1, -⟩, _, -, _, ⟨h2, -⟩, -⟩ := h <;> exact ⟨h1, h2⟩
    · rintro ⟨h1, h2, -⟩
      exact absurd ⟨h1, h2⟩ h0

example : ArithOp.UsesCommon .minus ∧ (⟨7, 6⟩ : Raw).InRange i32 ∧ (⟨-3, -4⟩ : Raw).InRange i32 ∧
    Ops.safe.arith i32 .minus (.ff ⟨7, 6⟩ ⟨-3, -4⟩) ⇓ ⟨5, 12⟩ ∧
    Ops.safe.arith i32 .modulus (.ff ⟨7, 6⟩ ⟨-3, -4⟩) ⇓ ⟨5, 12⟩ ∧
    Ops.safe.arith i32 .plus (.ff ⟨1, 65536⟩ ⟨0, 65537⟩) = .fault .lcmPrecond ∧
    Ops.safe.arith i32 .plus (.ff ⟨1, 65536⟩ ⟨0, 0⟩) = .fault .divByZero :=
  ⟨trivial, by decide, by decide, by decide, by decide, by decide, by decide⟩

/-- **C85** Comparisons under `fast`: the cross products are compared, and the comparison
finishes without overflow exactly when both are representable. -/
theorem C85_fast_cmp_iff {op : CmpOp} {b : Bool} (hi : a.InRange T) :
    Ops.fast.cmp T op a ⇓ b ↔ T.InRange (a.left.num * a.right.den) ∧
      T.InRange (a.right.num * a.left.den) ∧
      (a.HasUndefined → b = op.undefAnswer) ∧
      (¬ a.HasUndefined →
        (b = true ↔ op.HoldsInt (a.left.num * a.right.den) (a.right.num * a.left.den))) := by
  cases a with
  | ff l r =>
    cases op <;> simp only [Ops.cmp, Fast.cmp, Fast.equalToFF, Fast.notEqualToFF, Fast.lessFF,
        Fast.lessEqualFF, Fast.greaterFF, Fast.greaterEqualFF, bind_eq_clean, mul_clean,
        Args.HasUndefined, Args.left, Args.right, CmpOp.undefAnswer, CmpOp.HoldsInt,
        Raw.isDefined, pure_eq_ok, and_true] <;>
      by_cases h1 : l.den = 0 <;> by_cases h2 : r.den = 0 <;> cases b <;>
      simp [h1, h2, and_assoc, and_comm (a := T.InRange (l.num * r.den))]
  | fr l r =>
    have i1 := hi.1.1
    cases op <;> simp only [Ops.cmp, Fast.cmp, Fast.equalToFR, Fast.notEqualToFR, Fast.lessFR,
        Fast.lessEqualFR, Fast.greaterFR, Fast.greaterEqualFR, Fast.lessRF, Fast.lessEqualRF,
        bind_eq_clean, mul_clean,
        Args.HasUndefined, Args.left, Args.right, CmpOp.undefAnswer, CmpOp.HoldsInt,
        Raw.isDefined, pure_eq_ok, and_true] <;>
      by_cases h1 : l.den = 0 <;> cases b <;> simp [h1, i1]
  | rf l r =>
    have i1 := hi.2.1
    cases op <;> simp only [Ops.cmp, Fast.cmp, Fast.equalToRF, Fast.notEqualToRF, Fast.lessRF,
        Fast.lessEqualRF, Fast.greaterRF, Fast.greaterEqualRF, Fast.lessFR, Fast.lessEqualFR,
        Fast.equalToFR, bind_eq_clean, mul_clean,
        Args.HasUndefined, Args.left, Args.right, CmpOp.undefAnswer, CmpOp.HoldsInt,
        Raw.isDefined, pure_eq_ok, and_true] <;>
      by_cases h1 : r.den = 0 <;> cases b <;> simp [h1, i1, eq_comm (a := r.num)]

example : (Args.ff ⟨7, 6⟩ ⟨-3, 4⟩).InRange i32 ∧ ¬ (Args.ff ⟨7, 6⟩ ⟨-3, 4⟩).HasUndefined ∧
    Ops.fast.cmp i32 .greater (.ff ⟨7, 6⟩ ⟨-3, 4⟩) ⇓ true ∧
    Ops.fast.cmp i32 .notEqualTo (.rf 3 ⟨7, 0⟩) ⇓ true ∧
    Ops.fast.cmp i32 .less (.fr ⟨1, 2147483647⟩ 2) = .fault .overflow :=
  ⟨⟨by decide, by decide⟩, by simp [Args.HasUndefined], by decide, by decide, by decide⟩

/-- **C85** Comparing with an integer is the same under `safe` and `fast`. -/
theorem C85_safe_cmp_eq_fast {op : CmpOp} (h : ∀ l r, a ≠ .ff l r) :
    Ops.safe.cmp T op a = Ops.fast.cmp T op a := Fast.cmp_toSafe_int h

/-- **C85** Comparing two fractions under `safe`: undefined operands never overflow; defined ones
are compared over the least common denominator, without overflow exactly when it and both
numerators over it are representable. -/
theorem C85_safe_cmp_iff {op : CmpOp} {b : Bool} (hl : l.InRange T) (hr : r.InRange T) :
    Ops.safe.cmp T op (.ff l r) ⇓ b ↔
      ((l.den = 0 ∨ r.den = 0) ∧ b = op.undefAnswer) ∨
      (l.den ≠ 0 ∧ r.den ≠ 0 ∧ T.InRange (Int.lcm l.den r.den) ∧
        ∃ p q, p * l.den = l.num * Int.lcm l.den r.den ∧
          q * r.den = r.num * Int.lcm l.den r.den ∧ T.InRange p ∧ T.InRange q ∧
          (b = true ↔ op.HoldsInt p q)) := by
  by_cases h1 : l.den = 0
  · cases op <;> cases b <;> simp [Ops.cmp, Safe.cmp, Safe.equalToFF, Safe.notEqualToFF,
      Safe.lessFF, Safe.lessEqualFF, Safe.greaterFF, Safe.greaterEqualFF, Raw.isUndefined,
      Raw.isDefined, h1, CmpOp.undefAnswer, pure_def]
  by_cases h2 : r.den = 0
  · cases op <;> cases b <;> simp [Ops.cmp, Safe.cmp, Safe.equalToFF, Safe.notEqualToFF,
      Safe.lessFF, Safe.lessEqualFF, Safe.greaterFF, Safe.greaterEqualFF, Raw.isUndefined,
      Raw.isDefined, h2, CmpOp.undefAnswer, pure_def]
  obtain ⟨L, k, m, hL, hdk, hdm, pe, qe, fit⟩ := lcm_scale h1 h2 hl.2 hr.2
  have e : (l.isUndefined || r.isUndefined) = false := by
    simp [Raw.isUndefined, Raw.isDefined, h1, h2]
  have e' : (r.isUndefined || l.isUndefined) = false := by rw [Bool.or_comm, e]
  simp only [h1, h2, or_self, false_and, false_or, ne_eq, not_false_eq_true, true_and, hL, pe, qe]
  have key : ∀ c : ℤ → ℤ → Bool, (∀ p q, c p q = true ↔ op.HoldsInt p q) →
      ((∃ d, (T.InRange l.den.natAbs ∧ T.InRange r.den.natAbs ∧ T.InRange L ∧ d = L) ∧ T.InRange k ∧
        T.InRange m ∧ T.InRange (k * l.num) ∧ T.InRange (m * r.num) ∧ c (k * l.num) (m * r.num) = b)
      ↔ T.InRange L ∧ ∃ p q, p = k * l.num ∧ q = m * r.num ∧ T.InRange p ∧ T.InRange q ∧
          (b = true ↔ op.HoldsInt p q)) := by
    intro c hc
    constructor
    · rintro ⟨_, ⟨-, -, h3, rfl⟩, -, -, h4, h5, rfl⟩
      exact ⟨h3, _, _, rfl, rfl, h4, h5, hc _ _⟩
    · rintro ⟨h3, _, _, rfl, rfl, h4, h5, h6⟩
      obtain ⟨f1, f2, f3, f4⟩ := fit h3
      exact ⟨_, ⟨f1, f3, h3, rfl⟩, f2, f4, h4, h5, by rw [Bool.eq_iff_iff, hc, h6]⟩
  cases op
  · rw [← key (fun p q => decide (p = q)) (by simp [CmpOp.HoldsInt])]
    simp only [Ops.cmp, Safe.cmp, Safe.equalToFF, e, Bool.false_eq_true, if_false, bind_eq_clean,
      lcm_clean, div_clean, mul_clean, pure_eq_ok, and_true, hL]
    constructor
    · rintro ⟨d, ⟨f1, f2, f3, rfl⟩, _, ⟨-, f5, rfl⟩, _, ⟨f6, rfl⟩, _, ⟨-, f7, rfl⟩, _, ⟨f8, rfl⟩, rfl⟩
      rw [hdk, hdm] at *
      exact ⟨_, ⟨f1, f2, f3, rfl⟩, f5, f7, f6, f8, rfl⟩
    · rintro ⟨d, ⟨f1, f2, f3, rfl⟩, f5, f7, f6, f8, rfl⟩
      exact ⟨_, ⟨f1, f2, f3, rfl⟩, _, ⟨h1, hdk ▸ f5, hdk.symm⟩, _, ⟨f6, rfl⟩, _,
        ⟨h2, hdm ▸ f7, hdm.symm⟩, _, ⟨f8, rfl⟩, rfl⟩
  · rw [← key (fun p q => !decide (p = q)) (by simp [CmpOp.HoldsInt])]
    simp only [Ops.cmp, Safe.cmp, Safe.notEqualToFF, Safe.equalToFF, e, Bool.false_eq_true,
      if_false, bind_eq_clean, lcm_clean, div_clean, mul_clean, pure_eq_ok, and_true, hL]
    constructor
    · rintro ⟨_, ⟨d, ⟨f1, f2, f3, rfl⟩, _, ⟨-, f5, rfl⟩, _, ⟨f6, rfl⟩, _, ⟨-, f7, rfl⟩, _,
        ⟨f8, rfl⟩, rfl⟩, rfl⟩
      rw [hdk, hdm] at *
      exact ⟨_, ⟨f1, f2, f3, rfl⟩, f5, f7, f6, f8, rfl⟩
    · rintro ⟨d, ⟨f1, f2, f3, rfl⟩, f5, f7, f6, f8, rfl⟩
      exact ⟨_, ⟨_, ⟨f1, f2, f3, rfl⟩, _, ⟨h1, hdk ▸ f5, hdk.symm⟩, _, ⟨f6, rfl⟩, _,
        ⟨h2, hdm ▸ f7, hdm.symm⟩, _, ⟨f8, rfl⟩, rfl⟩, rfl⟩
  · rw [← key (fun p q => decide (p < q)) (by simp [CmpOp.HoldsInt])]
    simp only [Ops.cmp, Safe.cmp, Safe.lessFF, e, Bool.false_eq_true, if_false, bind_eq_clean,
      lcm_clean, div_clean, mul_clean, pure_eq_ok, and_true, hL]
    constructor
    · rintro ⟨d, ⟨f1, f2, f3, rfl⟩, _, ⟨-, f5, rfl⟩, _, ⟨f6, rfl⟩, _, ⟨-, f7, rfl⟩, _, ⟨f8, rfl⟩, rfl⟩
      rw [hdk, hdm] at *
      exact ⟨_, ⟨f1, f2, f3, rfl⟩, f5, f7, f6, f8, rfl⟩
    · rintro ⟨d, ⟨f1, f2, f3, rfl⟩, f5, f7, f6, f8, rfl⟩
      exact ⟨_, ⟨f1, f2, f3, rfl⟩, _, ⟨h1, hdk ▸ f5, hdk.symm⟩, _, ⟨f6, rfl⟩, _,
        ⟨h2, hdm ▸ f7, hdm.symm⟩, _, ⟨f8, rfl⟩, rfl⟩
  · rw [← key (fun p q => decide (p ≤ q)) (by simp [CmpOp.HoldsInt])]
    simp only [Ops.cmp, Safe.cmp, Safe.lessEqualFF, e, Bool.false_eq_true, if_false, bind_eq_clean,
      lcm_clean, div_clean, mul_clean, pure_eq_ok, and_true, hL]
    constructor
    · rintro ⟨d, ⟨f1, f2, f3, rfl⟩, _, ⟨-, f5, rfl⟩, _, ⟨f6, rfl⟩, _, ⟨-, f7, rfl⟩, _, ⟨f8, rfl⟩, rfl⟩
      rw [hdk, hdm] at *
      exact ⟨_, ⟨f1, f2, f3, rfl⟩, f5, f7, f6, f8, rfl⟩
    · rintro ⟨d, ⟨f1, f2, f3, rfl⟩, f5, f7, f6, f8, rfl⟩
      exact ⟨_, ⟨f1, f2, f3, rfl⟩, _, ⟨h1, hdk ▸ f5, hdk.symm⟩, _, ⟨f6, rfl⟩, _,
        ⟨h2, hdm ▸ f7, hdm.symm⟩, _, ⟨f8, rfl⟩, rfl⟩
  · rw [← key (fun p q => decide (q < p)) (by simp [CmpOp.HoldsInt])]
    simp only [Ops.cmp, Safe.cmp, Safe.greaterFF, Safe.lessFF, e', Bool.false_eq_true, if_false,
      bind_eq_clean, lcm_clean, div_clean, mul_clean, pure_eq_ok, and_true,
      Int.lcm_comm r.den l.den, hL]
    constructor
    · rintro ⟨d, ⟨f2, f1, f3, rfl⟩, _, ⟨-, f7, rfl⟩, _, ⟨f8, rfl⟩, _, ⟨-, f5, rfl⟩, _, ⟨f6, rfl⟩, rfl⟩
      rw [hdk, hdm] at *
      exact ⟨_, ⟨f1, f2, f3, rfl⟩, f5, f7, f6, f8, rfl⟩
    · rintro ⟨d, ⟨f1, f2, f3, rfl⟩, f5, f7, f6, f8, rfl⟩
      exact ⟨_, ⟨f2, f1, f3, rfl⟩, _, ⟨h2, hdm ▸ f7, hdm.symm⟩, _, ⟨f8, rfl⟩, _,
        ⟨h1, hdk ▸ f5, hdk.symm⟩, _, ⟨f6, rfl⟩, rfl⟩
  · rw [← key (fun p q => decide (q ≤ p)) (by simp [CmpOp.HoldsInt])]
    simp only [Ops.cmp, Safe.cmp, Safe.greaterEqualFF, Safe.lessEqualFF, e', Bool.false_eq_true, if_false,
      bind_eq_clean, lcm_clean, div_clean, mul_clean, pure_eq_ok, and_true,
      Int.lcm_comm r.den l.den, hL]
    constructor
    · rintro ⟨d, ⟨f2, f1, f3, rfl⟩, _, ⟨-, f7, rfl⟩, _, ⟨f8, rfl⟩, _, ⟨-, f5, rfl⟩, _, ⟨f6, rfl⟩, rfl⟩
      rw [hdk, hdm] at *
      exact ⟨_, ⟨f1, f2, f3, rfl⟩, f5, f7, f6, f8, rfl⟩
    · rintro ⟨d, ⟨f1, f2, f3, rfl⟩, f5, f7, f6, f8, rfl⟩
      exact ⟨_, ⟨f2, f1, f3, rfl⟩, _, ⟨h2, hdm ▸ f7, hdm.symm⟩, _, ⟨f8, rfl⟩, _,
        ⟨h1, hdk ▸ f5, hdk.symm⟩, _, ⟨f6, rfl⟩, rfl⟩

example : (⟨7, -6⟩ : Raw).InRange i32 ∧ (⟨-3, 4⟩ : Raw).InRange i32 ∧
    Ops.safe.cmp i32 .greater (.ff ⟨7, -6⟩ ⟨-3, 4⟩) ⇓ false ∧
    Ops.safe.cmp i32 .less (.ff ⟨7, -6⟩ ⟨-3, 4⟩) ⇓ true ∧
    Ops.safe.cmp i32 .notEqualTo (.ff ⟨7, 6⟩ ⟨7, 0⟩) ⇓ true ∧
    Ops.safe.cmp i32 .less (.ff ⟨1073741824, 3⟩ ⟨1, 2⟩) = .fault .overflow :=
  ⟨by decide, by decide, by decide, by decide, by decide, by decide⟩

/-- **C85** Negation under `safe` and `fast` changes the sign of the numerator and nothing else,
without overflow exactly when the new numerator is representable. -/
theorem C85_negate_iff :
    (Ops.safe.negate T f ⇓ s ↔ T.InRange (-f.num) ∧ s = ⟨-f.num, f.den⟩) ∧
    Ops.fast.negate T f = Ops.safe.negate T f := by
  refine ⟨?_, rfl⟩
  simp only [Ops.negate, Safe.negate, bind_eq_clean, neg_clean, pure_eq_ok, and_true]
  constructor
  · rintro ⟨_, ⟨h, rfl⟩, rfl⟩; exact ⟨h, rfl⟩
  · rintro ⟨h, rfl⟩; exact ⟨_, ⟨h, rfl⟩, rfl⟩

example : Ops.safe.negate i32 ⟨7, -6⟩ ⇓ ⟨-7, -6⟩ ∧
    Ops.fast.negate i32 ⟨-2147483648, 1⟩ = .fault .overflow := by decide

/-! ## C86: wrap-around -/

/-- **C86** For an unsigned type, `+`, `-`, `*` and `/` under `fast` always finish, and the parts
of the result are congruent to the exact ones modulo `2^bits`, whatever wrapped on the way. -/
theorem C86_fast_unsigned {op : ArithOp} (hs : T.signed = false) (hop : op ≠ .modulus) :
    ∃ s w, Ops.fast.arith T op a = .ok s w ∧
      s.num ≡ (op.crossParts a.left a.right).num [ZMOD 2 ^ T.bits] ∧
      s.den ≡ (op.crossParts a.left a.right).den [ZMOD 2 ^ T.bits] := by
  cases op with
  | plus =>
    cases a with
    | ff l r =>
      obtain ⟨x, w1, e1, c1⟩ := arith_cong hs (l.num * r.den)
      obtain ⟨y, w2, e2, c2⟩ := arith_cong hs (r.num * l.den)
      obtain ⟨n, w3, e3, c3⟩ := arith_cong hs (x + y)
      obtain ⟨d, w4, e4, c4⟩ := arith_cong hs (l.den * r.den)
      refine ⟨⟨n, d⟩, w1 || (w2 || (w3 || (w4 || false))), ?_, c3.trans (c1.add c2), c4⟩
      simp only [Ops.arith, Fast.arith, Fast.plusFF, IntTy.mul, IntTy.add, e1, e2, e3, e4,
        bind_def, Res.bind, pure_def]
    | fr l r =>
      obtain ⟨x, w1, e1, c1⟩ := arith_cong hs (r * l.den)
      obtain ⟨n, w3, e3, c3⟩ := arith_cong hs (l.num + x)
      refine ⟨⟨n, l.den⟩, w1 || (w3 || false), ?_, ?_, ?_⟩
      · simp only [Ops.arith, Fast.arith, Fast.plusFR, IntTy.mul, IntTy.add, e1, e3, bind_def,
          Res.bind, pure_def]
      · simpa [ArithOp.crossParts, ArithOp.overCommon, Args.left, Args.right] using
          c3.trans (c1.add_left _)
      · simp [ArithOp.crossParts, Args.left, Args.right, Int.ModEq.refl]
    | rf l r =>
      obtain ⟨x, w1, e1, c1⟩ := arith_cong hs (l * r.den)
      obtain ⟨n, w3, e3, c3⟩ := arith_cong hs (r.num + x)
      refine ⟨⟨n, r.den⟩, w1 || (w3 || false), ?_, ?_, ?_⟩
      · simp only [Ops.arith, Fast.arith, Fast.plusRF, Fast.plusFR, IntTy.mul, IntTy.add, e1, e3,
          bind_def, Res.bind, pure_def]
      · simpa [ArithOp.crossParts, ArithOp.overCommon, Args.left, Args.right, add_comm] using
          c3.trans (c1.add_left _)
      · simp [ArithOp.crossParts, Args.left, Args.right, Int.ModEq.refl]
  | minus =>
    cases a with
    | ff l r =>
      obtain ⟨x, w1, e1, c1⟩ := arith_cong hs (l.num * r.den)
      obtain ⟨y, w2, e2, c2⟩ := arith_cong hs (r.num * l.den)
      obtain ⟨n, w3, e3, c3⟩ := arith_cong hs (x - y)
      obtain ⟨d, w4, e4, c4⟩ := arith_cong hs (l.den * r.den)
      refine ⟨⟨n, d⟩, w1 || (w2 || (w3 || (w4 || false))), ?_, c3.trans (c1.sub c2), c4⟩
      simp only [Ops.arith, Fast.arith, Fast.minusFF, IntTy.mul, IntTy.sub, e1, e2, e3, e4,
        bind_def, Res.bind, pure_def]
    | fr l r =>
      obtain ⟨x, w1, e1, c1⟩ := arith_cong hs (r * l.den)
      obtain ⟨n, w3, e3, c3⟩ := arith_cong hs (l.num - x)
      refine ⟨⟨n, l.den⟩, w1 || (w3 || false), ?_, ?_, ?_⟩
      · simp only [Ops.arith, Fast.arith, Fast.minusFR, IntTy.mul, IntTy.sub, e1, e3, bind_def,
          Res.bind, pure_def]
      · simpa [ArithOp.crossParts, ArithOp.overCommon, Args.left, Args.right] using
          c3.trans (c1.sub_left _)
      · simp [ArithOp.crossParts, Args.left, Args.right, Int.ModEq.refl]
    | rf l r =>
      obtain ⟨x, w1, e1, c1⟩ := arith_cong hs (l * r.den)
      obtain ⟨n, w3, e3, c3⟩ := arith_cong hs (x - r.num)
      refine ⟨⟨n, r.den⟩, w1 || (w3 || false), ?_, ?_, ?_⟩
      · simp only [Ops.arith, Fast.arith, Fast.minusRF, IntTy.mul, IntTy.sub, e1, e3,
          bind_def, Res.bind, pure_def]
      · simpa [ArithOp.crossParts, ArithOp.overCommon, Args.left, Args.right] using
          c3.trans (c1.sub_right _)
      · simp [ArithOp.crossParts, Args.left, Args.right, Int.ModEq.refl]
  | multiplies =>
    cases a with
    | ff l r =>
      obtain ⟨x, w1, e1, c1⟩ := arith_cong hs (l.num * r.num)
      obtain ⟨y, w2, e2, c2⟩ := arith_cong hs (l.den * r.den)
      refine ⟨⟨x, y⟩, w1 || (w2 || false), ?_, c1, c2⟩
      simp only [Ops.arith, Fast.arith, Fast.multipliesFF, IntTy.mul, e1, e2, bind_def, Res.bind,
        pure_def]
    | fr l r =>
      obtain ⟨x, w1, e1, c1⟩ := arith_cong hs (l.num * r)
      refine ⟨⟨x, l.den⟩, w1 || false, ?_, c1, ?_⟩
      · simp only [Ops.arith, Fast.arith, Fast.multipliesFR, IntTy.mul, e1, bind_def, Res.bind,
          pure_def]
      · simp [ArithOp.crossParts, Args.left, Args.right, Int.ModEq.refl]
    | rf l r =>
      obtain ⟨x, w1, e1, c1⟩ := arith_cong hs (r.num * l)
      refine ⟨⟨x, r.den⟩, w1 || false, ?_, ?_, ?_⟩
      · simp only [Ops.arith, Fast.arith, Fast.multipliesRF, Fast.multipliesFR, IntTy.mul, e1,
          bind_def, Res.bind, pure_def]
      · rw [mul_comm] at c1; exact c1
      · simp [ArithOp.crossParts, Args.left, Args.right, Int.ModEq.refl]
  | divides =>
    cases a with
    | ff l r =>
      obtain ⟨x, w1, e1, c1⟩ := arith_cong hs (l.num * r.den)
      obtain ⟨y, w2, e2, c2⟩ := arith_cong hs (l.den * r.num)
      refine ⟨⟨x, y⟩, w1 || (w2 || false), ?_, c1, c2⟩
      simp only [Ops.arith, Fast.arith, Fast.dividesFF, IntTy.mul, e1, e2, bind_def, Res.bind,
        pure_def]
    | fr l r =>
      obtain ⟨x, w1, e1, c1⟩ := arith_cong hs (l.den * r)
      refine ⟨⟨l.num, x⟩, w1 || false, ?_, ?_, c1⟩
      · simp only [Ops.arith, Fast.arith, Fast.dividesFR, IntTy.mul, e1, bind_def, Res.bind,
          pure_def]
      · simp [ArithOp.crossParts, Args.left, Args.right, Int.ModEq.refl]
    | rf l r =>
      obtain ⟨x, w1, e1, c1⟩ := arith_cong hs (l * r.den)
      refine ⟨⟨x, r.num⟩, w1 || false, ?_, c1, ?_⟩
      · simp only [Ops.arith, Fast.arith, Fast.dividesRF, IntTy.mul, e1, bind_def, Res.bind,
          pure_def]
      · simp [ArithOp.crossParts, Args.left, Args.right, Int.ModEq.refl]
  | modulus => exact absurd rfl hop

example : u32.signed = false ∧
    Ops.fast.arith u32 .minus (.ff ⟨1, 3⟩ ⟨1, 2⟩) = .ok ⟨4294967295, 6⟩ true ∧
    ArithOp.crossParts .minus ⟨1, 3⟩ ⟨1, 2⟩ = ⟨-1, 6⟩ ∧
    (4294967295 : ℤ) ≡ -1 [ZMOD 2 ^ 32] := by decide

end Ieme
