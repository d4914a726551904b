import Verif.Lemmas.Defaults

/-!
# The default policy in terms of values: property C96
-/

namespace Ieme

open Res IntTy

variable {T : IntTy} {op : ArithOp} {a : Args} {l r s : Raw} {x y : ℚ}

/-- **C96** The default policy, completely, for operands with the values `x` and `y`: it finishes
without overflow exactly when the parts of the operands have representable absolute values and
the intermediate values, computed from `x` and `y` in lowest terms, are representable; the
result is the exact value in lowest terms.  (A fraction that meets an integer must have a
positive denominator.) -/
theorem C96_arith_iff (ha : a.InRange T) (hd : a.Denote x y) (hp : a.IntegerPosDen) :
    Ops.defaults.arith T op a ⇓ s ↔ a.AbsInRange T ∧ op.Fits T x y ∧ s = op.answer x y := by
  rw [show Ops.defaults = .reducedInput (.reducedOutput .safe .normalizeSigns) .ignoreSigns from rfl,
    C90_reduced_input_arith ha, Args.cancellable_of_denote hd]
  refine and_congr_right fun hc => ?_
  rw [C90_reduced_output_arith
    (Args.lowest_inRange ha ((Args.cancellable_of_denote hd).2 hc))]
  obtain ⟨hd', he⟩ := fits_iff (op := op) ha hd hp hc
  rw [← he]
  constructor
  · rintro ⟨t, h1, h2, rfl⟩
    exact ⟨⟨t, h1, h2⟩, answer_of_exact (fun v hv => lowest_normalize hv)
      (Ops.arith_exact hd' h1)⟩
  · rintro ⟨⟨t, h1, h2⟩, rfl⟩
    exact ⟨t, h1, h2, (answer_of_exact (fun v hv => lowest_normalize hv)
      (Ops.arith_exact hd' h1)).symm⟩

example : Ops.defaults.arith i32 .plus (.ff ⟨-3, -6⟩ ⟨8, 12⟩) ⇓ ⟨7, 6⟩ :=
  (C96_arith_iff (a := .ff ⟨-3, -6⟩ ⟨8, 12⟩) (x := 1 / 2) (y := 2 / 3) ⟨by decide, by decide⟩
    ⟨⟨by decide, by norm_num⟩, ⟨by decide, by norm_num⟩⟩ trivial).2
    ⟨⟨⟨by decide, by decide⟩, by decide, by decide⟩, by decide +kernel, by decide +kernel⟩

/-- A negative difference does not exist in an unsigned type. -/
example : ¬∃ s, Ops.defaults.arith u32 .minus (.ff ⟨1, 2⟩ ⟨2, 3⟩) ⇓ s := fun ⟨s, h⟩ =>
  absurd ((C96_arith_iff (a := .ff ⟨1, 2⟩ ⟨2, 3⟩) (x := 1 / 2) (y := 2 / 3)
    ⟨by decide, by decide⟩ ⟨⟨by decide, by norm_num⟩, ⟨by decide, by norm_num⟩⟩ trivial).1 h).2.1
    (by decide +kernel)

/-- **C96** Comparing two fractions under the default policy: the answer is exact, and found
exactly when both can be brought over the least common denominator. -/
theorem C96_cmp_iff {op : CmpOp} {b : Bool} (hl : l.InRange T) (hr : r.InRange T)
    (hx : Denotes l x) (hy : Denotes r y) :
    Ops.defaults.cmp T op (.ff l r) ⇓ b ↔
      l.AbsInRange T ∧ r.AbsInRange T ∧ CommonFits T x y ∧ (b = true ↔ op.Holds x y) := by
  rw [show Ops.defaults = .reducedInput (.reducedOutput .safe .normalizeSigns) .ignoreSigns from rfl,
    (C90_cmp (a := .ff l r) ⟨hl, hr⟩).2, Args.cancellable_of_denote (a := .ff l r) ⟨hx, hy⟩,
    ← and_assoc]
  refine and_congr_right fun hc => ?_
  have hli := Raw.lowest_inRange (mode := .ignoreSigns) hl (Or.inr hc.1)
  have hri := Raw.lowest_inRange (mode := .ignoreSigns) hr (Or.inr hc.2)
  exact cmp_safe hx hy hli hri

example : Ops.defaults.cmp i32 .less (.ff ⟨-3, -6⟩ ⟨8, 12⟩) ⇓ true :=
  (C96_cmp_iff (x := 1 / 2) (y := 2 / 3) (by decide) (by decide) ⟨by decide, by norm_num⟩
    ⟨by decide, by norm_num⟩).2 ⟨⟨by decide, by decide⟩,
    ⟨by decide, by decide⟩, by decide +kernel, by norm_num [CmpOp.Holds]⟩

/-- **C96** Operands whose parts do not exceed `B`, with `2B²` representable, never overflow:
the result is the exact value in lowest terms.  Excluded are the remainder by zero, and
differences in unsigned types. -/
theorem C96_bounded {B : ℤ} (hB : 2 * (B * B) ≤ T.max) (ha : a.InRange T) (hb : a.PartsAtMost B)
    (hd : a.Denote x y) (hp : a.IntegerPosDen) (hm : T.signed = false → op ≠ .minus)
    (h0 : op = .modulus → y ≠ 0) :
    Ops.defaults.arith T op a ⇓ op.answer x y := by
  obtain ⟨h1, h2, h3, h4⟩ := bounded_parts hB ha hb hd
  exact (C96_arith_iff ha hd hp).2 ⟨h1, fits_bounded hB h2 h3 h4 hm h0, rfl⟩

/-- All 64-bit fractions with 32-bit parts. -/
example (l r : Raw) (hl : l.InRange i32) (hr : r.InRange i32) (h1 : i32.min < l.num)
    (h2 : i32.min < l.den) (h3 : i32.min < r.num) (h4 : i32.min < r.den) (hx : Denotes l x)
    (hy : Denotes r y) : Ops.defaults.arith i64 .plus (.ff l r) ⇓ ratParts (x + y) := by
  refine C96_bounded (op := .plus) (B := 2147483647) (by decide) ?_ ?_ ⟨hx, hy⟩ trivial (by simp)
    (by simp)
  · simp only [Args.InRange, Raw.InRange, IntTy.InRange, IntTy.min, IntTy.max, i32, i64] at *
    norm_num at *
    omega
  · simp only [Args.PartsAtMost, abs_le, Raw.InRange, IntTy.InRange, IntTy.min, IntTy.max, i32] at *
    norm_num at *
    omega

end Ieme
