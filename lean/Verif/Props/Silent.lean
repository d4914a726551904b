import Verif.Lemmas.Silent
import Verif.Props.Program
import Verif.Props.MixedNumber

/-!
# Where values can change silently: property C123
-/

namespace Ieme

open Res IntTy Overload

variable {T L R W F S : IntTy} {o : Ops} {f g : Raw} {w : Bool}

/-- **C123** Where all operators of an expression mixing integers, literals, fractions and mixed
numbers have signed types, nothing changes silently: whatever the expression evaluates to, without
undefined behaviour, is its exact value. -/
theorem C123_typed_expressions {e : TExpr} {v : Val} (hw : e.WellTyped) (hc : e.calm = true)
    (h : e.eval = .ok v w) : w = false ∧ ∀ q, e.value = some q → v.Denotes q := by
  have := (eval_noWrap hw hc).1.flag h
  subst this
  exact ⟨rfl, fun q hq => eval_exact h hq⟩

/-- `3u + x / -4_fr + m` for a fraction `x` over `long long` and a mixed number `m`. -/
def exampleCalm : TExpr :=
  .bin .plus (.leaf (.int u32) (.int 3)) (.bin .plus
    (.bin .divides (.leaf (.frac i64 .defaults) (.frac ⟨5, 6⟩))
      (.neg (.leaf (.lit false .defaults) (.lit 4))))
    (.leaf (.mixed i64 i32 .defaults) (.mixed ⟨2, ⟨1, 2⟩⟩)))

example : exampleCalm.calm = true ∧ exampleCalm.ty = some (.mixed i64 i64 .defaults) ∧
    exampleCalm.eval ⇓ .mixed ⟨5, ⟨7, 24⟩⟩ ∧ exampleCalm.value = some (127 / 24) := by
  refine ⟨by decide, by decide, by decide +kernel, by decide +kernel⟩

example : exampleCalm.WellTyped := by
  simp only [exampleCalm, TExpr.WellTyped, Val.HasTy]
  decide

/-- **C123** Operators between two signed representations, or a signed one and a narrower unsigned
one, never change a value silently. -/
theorem C123_operators {a : Args} (hs : (IntTy.common L R).signed = true) (ha : a.HaveTypes L R) :
    (∀ op r, Fraction.arith L R o op a = .ok r w → w = false) ∧
    ∀ op b, Fraction.cmp L R o op a = .ok b w → w = false :=
  ⟨fun op _ => (arith_common_noWrap hs ha op).flag, fun op _ => (cmp_common_noWrap hs ha op).flag⟩

example : (IntTy.common u32 i64).signed = true ∧ (Args.ff ⟨1, 2⟩ ⟨-1, 3⟩).HaveTypes u32 i64 ∧
    Fraction.arith u32 i64 .safe .plus (.ff ⟨1, 2⟩ ⟨-1, 3⟩) ⇓ ⟨1, 6⟩ := by
  refine ⟨by decide, ?_, by decide⟩
  simp only [Args.HaveTypes]; decide

/-- **C123** No function of fractions over a signed type changes a value silently: queries,
reduction, absolute value, rounding, redenomination and powers. -/
theorem C123_functions (hs : T.signed = true) :
    (∀ b, f.isInteger T = .ok b w → w = false) ∧ (∀ b, f.isUnitFraction T = .ok b w → w = false) ∧
    (∀ b, f.isReduced T = .ok b w → w = false) ∧ (∀ b, f.isProper T = .ok b w → w = false) ∧
    (∀ m r, f.reduce T m = .ok r w → w = false) ∧
    (∀ r, f.normalizeSigns T = .ok r w → w = false) ∧
    (∀ r, Fraction.abs T o f = .ok r w → w = false) ∧
    (∀ m r, Fraction.toWhole T o f m = .ok r w → w = false) ∧
    (∀ m d r, Fraction.redenominate T o f d m = .ok r w → w = false) ∧
    ∀ b e r, i32.InRange e → Fraction.pow T b e = .ok r w → w = false :=
  ⟨fun _ => Raw.isInteger_noWrap.flag, fun _ => Raw.isUnitFraction_noWrap.flag,
    fun _ => Raw.isReduced_noWrap.flag, fun _ => (Raw.isProper_noWrap hs).flag,
    fun m _ => (Raw.reduce_noWrap hs m).flag, fun _ => (Raw.normalizeSigns_noWrap hs).flag,
    fun _ => (Fraction.abs_noWrap hs).flag, fun m _ => (Fraction.toWhole_noWrap hs m).flag,
    fun m _ _ => (Fraction.redenominate_noWrap hs m).flag,
    fun _ _ _ he => (Fraction.pow_noWrap hs he).flag⟩

example : i32.signed = true ∧ Fraction.redenominate i32 .defaults ⟨1, 3⟩ 4 .ceil ⇓ ⟨2, 4⟩ ∧
    Fraction.pow i32 (-3) 3 ⇓ ⟨-27, 1⟩ ∧ Fraction.pow i32 3 40 = .fault .overflow := by
  decide +kernel

/-- **C123** The exception is `pow2`: over a signed type it changes its value silently exactly when
the exponent is one less than the width, up to the sign. -/
theorem C123_pow2 (hs : T.signed = true) {e : ℤ} (he : i32.InRange e) (hm : e ≠ -2147483648) :
    (∃ r, Fraction.pow2 T e = .ok r true) ↔ e.natAbs = T.bits - 1 := by
  have hw := T.wide
  rw [Fraction.pow2_eq he hm]
  by_cases h : e.natAbs < T.bits
  · rw [if_pos h]
    by_cases hr : T.InRange ((2 ^ e.natAbs : ℕ) : ℤ)
    · rw [conv_clean.2 ⟨hr, rfl⟩, ok_bind_false]
      have := ((two_pow_inRange_iff _).1 hr).2 hs
      simp only [pure_eq_ok, Bool.true_eq_false, and_false, exists_false, false_iff]
      omega
    · have h2 : ¬ e.natAbs ≠ T.bits - 1 := fun hlt =>
        hr ((two_pow_inRange_iff _).2 ⟨h, fun _ => hlt⟩)
      rw [IntTy.conv, if_neg hr]
      constructor
      · intro _; omega
      · intro _; exact ⟨_, rfl⟩
  · rw [if_neg h]
    constructor
    · rintro ⟨r, h⟩; cases h
    · intro h'; omega

example : Fraction.pow2 i64 63 = .ok ⟨-9223372036854775808, 1⟩ true ∧ i64.bits = 64 := by decide

/-- **C123** A conversion to another representation changes a value silently exactly when a part
does not fit; a compound assignment does not if the right operand fits the left one's signed type. -/
theorem C123_conversions : ((∃ r, Fraction.ofOther T f = .ok r true) ↔ ¬ f.InRange T) ∧
    (L.signed = true → (∀ op r, g.InRange L → Fraction.assignF L R o op f g = .ok r w → w = false) ∧
      ∀ op n r, L.InRange n → Fraction.assignR L R o op f n = .ok r w → w = false) :=
  ⟨Raw.conv_wraps_iff, fun hs => ⟨fun _ _ hg => (Fraction.assignF_noWrap hs hg).flag,
    fun _ _ _ hn => (Fraction.assignR_noWrap hs hn).flag⟩⟩

example : Fraction.ofOther i32 ⟨4294967297, 2⟩ = .ok ⟨1, 2⟩ true ∧
    Fraction.assignF i32 i64 .safe .plus ⟨1, 2⟩ ⟨4294967297, 2⟩ = .ok ⟨2, 2⟩ true ∧
    Fraction.assignF i32 i64 .safe .plus ⟨1, 2⟩ ⟨1, 3⟩ ⇓ ⟨5, 6⟩ := by decide

/-- **C123** Dividing an integer by a denominator literal changes the denominator silently exactly
when it does not fit the integer's type, and negating a literal exactly when it is above `2^63`. -/
theorem C123_literals {n : ℤ} {l : DenLit} (hl : l.InRange) :
    ((∃ r, l.divRep T n = .ok r true) ↔ ¬ T.InRange l.value) ∧
    ((∃ r, l.neg = .ok r true) ↔ 2 ^ 63 < l.value) := by
  constructor
  · unfold DenLit.divRep IntTy.conv
    split <;> simp [*, bind_def, Res.bind, pure_def]
  · have e1 : i64.min = -9223372036854775808 := rfl
    have e2 : i64.max = 9223372036854775807 := rfl
    have hu : -9223372036854775808 ≤ l.value ∧ l.value ≤ 18446744073709551615 := by
      obtain ⟨s, v⟩ := l
      cases s
      · obtain ⟨h1, h2⟩ := hl
        have e3 : (DenLit.mk false v).ty.min = 0 := rfl
        have e4 : (DenLit.mk false v).ty.max = 18446744073709551615 := rfl
        simp only at h1 h2 ⊢
        omega
      · obtain ⟨h1, h2⟩ := hl
        have e3 : (DenLit.mk true v).ty.min = -9223372036854775808 := rfl
        have e4 : (DenLit.mk true v).ty.max = 9223372036854775807 := rfl
        simp only at h1 h2 ⊢
        omega
    unfold DenLit.neg
    by_cases hv : i64.InRange l.value
    · rw [conv_clean.2 ⟨hv, rfl⟩, ok_bind_false]
      constructor
      · rintro ⟨r, h⟩
        exact absurd h (NoWrap.bind (IntTy.arith_noWrap (T := i64) rfl _) (fun _ => NoWrap.pure _) r)
      · intro h
        obtain ⟨-, h2⟩ := hv
        omega
    · have hgt : 9223372036854775807 < l.value := by
        by_contra hc
        exact hv ⟨by omega, by omega⟩
      have hw : i64.wrap l.value = l.value - 18446744073709551616 := by
        unfold IntTy.wrap
        rw [if_pos (show i64.signed = true from rfl)]
        show Int.bmod l.value 18446744073709551616 = _
        rw [Int.bmod_def]
        split <;> omega
      rw [IntTy.conv, if_neg hv, hw]
      by_cases hm : l.value = 9223372036854775808
      · rw [hm]
        constructor
        · rintro ⟨r, h⟩
          rw [show (9223372036854775808 - 18446744073709551616 : ℤ) = -9223372036854775808 by decide] at h
          cases h
        · intro h; omega
      · have : i64.InRange (-(l.value - 18446744073709551616)) := ⟨by omega, by omega⟩
        constructor
        · intro _; omega
        · intro _
          refine ⟨⟨true, -(l.value - 18446744073709551616)⟩, bind_eq_ok.2 ⟨_, true, false, rfl, ?_, rfl⟩⟩
          rw [neg_clean.2 ⟨this, rfl⟩, ok_bind_false]
          rfl

example : (DenLit.fr 4294967297).divRep i32 1 = .ok ⟨1, 1⟩ true ∧
    (DenLit.fr 18446744073709551615).neg = .ok ⟨true, 1⟩ true ∧
    (DenLit.fr 9223372036854775808).neg = .fault .overflow ∧
    (DenLit.fr 3).neg ⇓ ⟨true, -3⟩ := by decide

/-- **C123** Expressions over mixed numbers of signed types, with whole parts not narrower than the
fractional parts, change nothing silently: whatever is computed is exact. -/
theorem C123_mixed_numbers {e : MExpr} {m : Mixed} (hl : e.TypedLeaves) (hc : e.calm = true)
    (h : e.eval o = .ok m w) : w = false ∧ ∃ q, e.value = some q ∧ m.Denotes q := by
  have := (MExpr.eval_noWrap hl hc).flag h
  subst this
  exact ⟨rfl, C44_expression_exact hl.wellTyped h⟩

example : let e := MExpr.add (.mk i64 i32 1 ⟨1, 2⟩) (.ofFraction i64 i32 i32 ⟨-9, 4⟩)
    e.calm = true ∧ e.eval .defaults ⇓ ⟨0, ⟨-3, 4⟩⟩ := by decide +kernel

/-- **C123, refuted in general.** The mixed number `0 4294967297/2` over `int` and `long long` becomes
`-2147483647 -1/2` silently. -/
theorem C123_mixed_wrong : Mixed.mk' i32 i64 .defaults 0 ⟨4294967297, 2⟩ =
      .ok ⟨-2147483647, ⟨-1, 2⟩⟩ true ∧
    i32.InRange 0 ∧ (⟨4294967297, 2⟩ : Raw).InRange i64 := by decide

/-- **C123** Programs over a signed type change nothing silently. -/
theorem C123_programs (hs : T.signed = true) (c : Cmd) (k : ℕ) (m : Mem) {r : Option Mem}
    (h : c.exec T o k m = .ok r w) : w = false := (Cmd.exec_noWrap hs k c m).flag h

/-- `while (x != 8) x = x * 2;` from `1/2`. -/
example : ((Cmd.loop .notEqualTo (.var 0) (.lit ⟨8, 1⟩)
      (.assign 0 (.fr .multiplies (.var 0) 2))).exec i32 .defaults 9 fun _ => ⟨1, 2⟩).bind
    (fun r => pure (r.map fun m => m 0)) ⇓ some ⟨8, 1⟩ := by decide +kernel

/-- **C123** Durations over a signed type of at least 64 bits with integer counts that fit change
nothing silently. -/
theorem C123_durations {p q : Chrono.Period} {l r : Chrono.Count} (hs : T.signed = true)
    (hb : 64 ≤ T.bits) (hl : l.Fits T) (hr : r.Fits T) :
    (∀ x, Chrono.convert T o p q l = .ok x w → w = false) ∧
    (∀ op x, Chrono.arith T o op p q l r = .ok x w → w = false) ∧
    (∀ op x, Chrono.cmp T o op p q l r = .ok x w → w = false) ∧
    (∀ op x, Chrono.assign T o op p q f r = .ok x w → w = false) ∧
    (∀ x, Chrono.abs T o p f = .ok x w → w = false) ∧
    (∀ x, Chrono.floor T o p q l = .ok x w → w = false) ∧
    ∀ x, Chrono.ceil T o p q l = .ok x w → w = false :=
  ⟨fun _ => (Chrono.convert_noWrap hs hb hl).flag, fun op _ => (Chrono.arith_noWrap hs hb hl hr op).flag,
    fun op _ => (Chrono.cmp_noWrap hs hb hl hr op).flag,
    fun op _ => (Chrono.assign_noWrap hs hb hr op).flag, fun _ => (Chrono.abs_noWrap hs hb).flag,
    fun _ => (Chrono.floor_noWrap hs hb hl).flag, fun _ => (Chrono.ceil_noWrap hs hb hl).flag⟩

example : let ms : Chrono.Period := ⟨1, 1000, by decide, by decide, by decide⟩
    let sec : Chrono.Period := ⟨1, 1, by decide, by decide, by decide⟩
    (Chrono.Count.int 250).Fits i64 ∧
    Chrono.arith i64 .defaults .plus ms sec (.int 250) (.frac ⟨1, 2⟩) ⇓ ⟨750, 1⟩ := by
  refine ⟨?_, by decide +kernel⟩
  simp only [Chrono.Count.Fits]; decide

/-- **C123, refuted for narrower types.** One second over `int`, counted in picoseconds, is silently
negative. -/
theorem C123_durations_wrong :
    let sec : Chrono.Period := ⟨1, 1, by decide, by decide, by decide⟩
    let ps : Chrono.Period := ⟨1, 1000000000000, by decide, by decide, by decide⟩
    Chrono.convert i32 .defaults sec ps (.int 1) = .ok ⟨-727379968, 1⟩ true := by decide +kernel

/-- **C123** Nor does the conversion of any floating-point number, normal or not, to a signed type
wider than the mantissa by two bits. -/
theorem C123_floating_point {G : Fmt} (hs : T.signed = true) (hT : G.mant + 1 < T.bits)
    (b : ℕ) {r : Raw} (h : FloatingPoint.toFraction .little G T o b = .ok r w) : w = false :=
  (FloatingPoint.toFraction_noWrap' hs hT b).flag h

example : FloatingPoint.toFraction .little binary32 i64 .defaults 0xC0200000 ⇓ ⟨-5, 2⟩ ∧
    binary32.mant + 1 < i64.bits := by decide +kernel

/-- **C123, refuted for unsigned types.** Over an unsigned type a difference of small fractions is
silently wrong, and so are products and comparisons of `int` with `unsigned`. -/
theorem C123_unsigned_wrong :
    Fraction.arith u32 u32 .defaults .minus (.ff ⟨1, 2⟩ ⟨3, 4⟩) = .ok ⟨4294967295, 4⟩ true ∧
    Fraction.arith i32 u32 .defaults .multiplies (.ff ⟨-1, 2⟩ ⟨3, 4⟩) = .ok ⟨4294967293, 8⟩ true ∧
    Fraction.cmp i32 u32 .defaults .less (.ff ⟨-1, 2⟩ ⟨3, 4⟩) = .ok false true := by
  decide +kernel

end Ieme
