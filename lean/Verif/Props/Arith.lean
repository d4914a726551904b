import Verif.Lemmas.Fraction
import Mathlib.Tactic.LinearCombination
import Mathlib.Tactic.FieldSimp

/-!
# Arithmetic: properties C01–C12

`o` ranges over all policies, `T` over all integer types of at least 32 bits, `a` over the
three overloads with arbitrary operands.  `e ⇓ r` says that `e` returns `r` without
undefined behaviour and without unsigned wrap-around.
-/

namespace Ieme

open Res IntTy

variable {T : IntTy} {o : Ops} {a : Args} {x y : ℚ} {r : Raw}

/-- **C01** A sum that finishes cleanly is defined and exact. -/
theorem C01_add_exact (ha : a.Denote x y) (h : o.arith T .plus a ⇓ r) : Denotes r (x + y) :=
  Ops.arith_exact ha h

example : (Args.ff ⟨1, 6⟩ ⟨-3, -4⟩).Denote (1/6) (3/4) ∧
    Ops.defaults.arith i32 .plus (.ff ⟨1, 6⟩ ⟨-3, -4⟩) ⇓ ⟨11, 12⟩ :=
  ⟨by simp [Args.Denote, Denotes], by decide⟩

/-- **C01** (also C02–C06, comparisons): on a signed representation nothing ever wraps
silently, so there "finishes cleanly" is the same as "has no undefined behaviour". -/
theorem C01_signed_never_wraps (hs : T.signed = true) (op : ArithOp) (c : CmpOp) (v : Raw) :
    (∀ r w, o.arith T op a = .ok r w → w = false) ∧
    (∀ b w, o.cmp T c a = .ok b w → w = false) ∧
    (∀ r w, o.negate T v = .ok r w → w = false) :=
  ⟨fun _ _ h => (Ops.arith_noWrap hs o op a).flag h, fun _ _ h => (Ops.cmp_noWrap hs o c a).flag h,
    fun _ _ h => (Ops.negate_noWrap hs o v).flag h⟩

example : i32.signed = true ∧
    Ops.fast.arith i32 .plus (.ff ⟨1, 6⟩ ⟨3, 4⟩) = .ok ⟨22, 24⟩ false := by decide

/-- **C02** A difference that finishes cleanly is defined and exact. -/
theorem C02_sub_exact (ha : a.Denote x y) (h : o.arith T .minus a ⇓ r) : Denotes r (x - y) :=
  Ops.arith_exact ha h

example : (Args.rf 2 ⟨3, -4⟩).Denote 2 (-3/4) ∧
    Ops.fast.arith i32 .minus (.rf 2 ⟨3, -4⟩) ⇓ ⟨-11, -4⟩ :=
  ⟨by norm_num [Args.Denote, Denotes], by decide⟩

/-- **C03** A product that finishes cleanly is defined and exact. -/
theorem C03_mul_exact (ha : a.Denote x y) (h : o.arith T .multiplies a ⇓ r) :
    Denotes r (x * y) :=
  Ops.arith_exact ha h

example : (Args.ff ⟨2, 3⟩ ⟨-3, 4⟩).Denote (2/3) (-3/4) ∧
    Ops.defaults.arith i32 .multiplies (.ff ⟨2, 3⟩ ⟨-3, 4⟩) ⇓ ⟨-1, 2⟩ :=
  ⟨by norm_num [Args.Denote, Denotes], by decide⟩

/-- **C04** A quotient that finishes cleanly is exact for a non-zero divisor and undefined
for a zero divisor. -/
theorem C04_div_exact (ha : a.Denote x y) (h : o.arith T .divides a ⇓ r) :
    (y ≠ 0 → Denotes r (x / y)) ∧ (y = 0 → r.den = 0) :=
  Ops.arith_exact ha h

example : (Args.fr ⟨2, 3⟩ (-4)).Denote (2/3) (-4) ∧
    Ops.defaults.arith i32 .divides (.fr ⟨2, 3⟩ (-4)) ⇓ ⟨-1, 6⟩ ∧
    Ops.safe.arith i32 .divides (.ff ⟨2, 3⟩ ⟨0, 5⟩) ⇓ ⟨10, 0⟩ :=
  ⟨by norm_num [Args.Denote, Denotes], by decide, by decide⟩

/-- **C05** A remainder that finishes cleanly has a non-zero divisor and is exactly
`x - y * t` with `t` the quotient truncated towards zero. -/
theorem C05_mod_exact (ha : a.Denote x y) (h : o.arith T .modulus a ⇓ r) :
    y ≠ 0 ∧ Denotes r (x - y * ratTrunc (x / y)) :=
  Ops.arith_exact ha h

example : (Args.ff ⟨-7, 2⟩ ⟨3, -4⟩).Denote (-7/2) (-3/4) ∧
    Ops.defaults.arith i32 .modulus (.ff ⟨-7, 2⟩ ⟨3, -4⟩) ⇓ ⟨-1, 2⟩ :=
  ⟨by norm_num [Args.Denote, Denotes], by decide⟩

/-- **C05** The remainder is smaller than the divisor in absolute value and is zero or has
the sign of the dividend. -/
theorem C05_mod_bound_and_sign {m : ℚ} (ha : a.Denote x y) (h : o.arith T .modulus a ⇓ r)
    (hm : Denotes r m) : |m| < |y| ∧ (m = 0 ∨ 0 < m * x) := by
  obtain ⟨hy, hd⟩ := C05_mod_exact ha h
  have hm' := hm.unique hd
  have hxq : x = y * (x / y) := by field_simp
  set q := x / y with hq
  have hmq : m = y * (q - ratTrunc q) := by rw [hm']; linear_combination hxq
  have hy' : 0 < |y| := abs_pos.2 hy
  have hyy : 0 < y * y := mul_self_pos.2 hy
  rw [hmq, abs_mul]
  unfold ratTrunc
  split
  · rename_i h0
    have h1 := Int.floor_le q
    have h2 := Int.lt_floor_add_one q
    have h3 : |q - ⌊q⌋| < 1 := by rw [abs_lt]; constructor <;> linarith
    refine ⟨by nlinarith, ?_⟩
    rcases eq_or_lt_of_le (show (0 : ℚ) ≤ q - ⌊q⌋ by linarith) with h4 | h4
    · left; rw [← h4]; ring
    · right
      have h5 : (0 : ℚ) ≤ ⌊q⌋ := by exact_mod_cast Int.floor_nonneg.2 h0
      have h6 : 0 < q := by linarith
      rw [hxq]
      have : y * (q - ⌊q⌋) * (y * q) = y * y * ((q - ⌊q⌋) * q) := by ring
      rw [this]; positivity
  · rename_i h0
    have h0 : q < 0 := not_le.1 h0
    have h1 := Int.le_ceil q
    have h2 := Int.ceil_lt_add_one q
    have h3 : |q - ⌈q⌉| < 1 := by rw [abs_lt]; constructor <;> linarith
    refine ⟨by nlinarith, ?_⟩
    rcases eq_or_lt_of_le (show q - ⌈q⌉ ≤ (0 : ℚ) by linarith) with h4 | h4
    · left; rw [h4]; ring
    · right
      rw [hxq]
      have : y * (q - ⌈q⌉) * (y * q) = y * y * ((q - ⌈q⌉) * q) := by ring
      rw [this]
      exact mul_pos hyy (mul_pos_of_neg_of_neg h4 h0)

example : Denotes ⟨-1, 2⟩ (-1/2) := by norm_num [Denotes]

/-- **C06** Unary minus that finishes cleanly is exact. -/
theorem C06_neg_exact {v : Raw} (hv : Denotes v x) (h : Fraction.neg T o v ⇓ r) :
    Denotes r (-x) :=
  Ops.negate_exact hv h

/-- **C06** Negating twice gives back the value; unary plus is the identity. -/
theorem C06_neg_neg {v s : Raw} (hv : v.den ≠ 0) (h1 : Fraction.neg T o v ⇓ r)
    (h2 : Fraction.neg T o r ⇓ s) : SameValue s v ∧ Fraction.pos v = v := by
  have hv' := denotes_self hv
  have := Ops.negate_exact (Ops.negate_exact hv' h1) h2
  rw [neg_neg] at this
  exact ⟨⟨_, this, hv'⟩, rfl⟩

example : Fraction.neg i32 .defaults ⟨-6, 4⟩ ⇓ ⟨3, 2⟩ ∧
    Fraction.neg i32 .defaults ⟨3, 2⟩ ⇓ ⟨-3, 2⟩ ∧ Denotes ⟨-6, 4⟩ (-3/2) :=
  ⟨by decide, by decide, by norm_num [Denotes]⟩

/-- **C07** With all parts at most `B` in absolute value and `2 * B * B` representable, sums,
products and quotients of defined operands finish cleanly on every representation;
differences on signed ones; remainders when the divisor is not zero. -/
theorem C07_small_arith_finishes {B : ℕ} (op : ArithOp) (ha : a.Denote x y) (hr : a.InRange T)
    (hB : a.AbsLe B) (hm : (2 * (B * B) : ℤ) ≤ T.max)
    (hsub : op = .minus → T.signed = true) (hmod : op = .modulus → y ≠ 0) :
    ∃ r, o.arith T op a ⇓ r := by
  have hop : op.Allowed T y := by
    cases op <;> simp_all [ArithOp.Allowed]
  obtain ⟨r, h, -⟩ := Ops.arith_progress ha (fit_of_absLe hr hB) (by exact_mod_cast hm) hop (o := o)
  exact ⟨r, h⟩

/-- **C07** Comparisons, also with undefined operands, finish cleanly. -/
theorem C07_small_cmp_finishes {B : ℕ} (op : CmpOp) (hr : a.InRange T) (hB : a.AbsLe B)
    (hm : (B * B : ℤ) ≤ T.max) : ∃ b, o.cmp T op a ⇓ b :=
  Ops.cmp_progress (fit_of_absLe hr hB) (by exact_mod_cast hm)

/-- **C07** Unary minus finishes cleanly on a signed representation. -/
theorem C07_small_neg_finishes {B : ℕ} {v : Raw} (hs : T.signed = true) (hr : v.InRange T)
    (hB : v.AbsLe B) (hm : (B : ℤ) ≤ T.max) : ∃ r, Fraction.neg T o v ⇓ r := by
  obtain ⟨r, h, -⟩ := Ops.negate_progress hs
    (⟨Fit.of_inRange hr.1 hB.1, Fit.of_inRange hr.2 hB.2⟩ : v.Fit T B) hm (o := o)
  exact ⟨r, h⟩

example : (Args.ff ⟨-32767, 32766⟩ ⟨32765, -32767⟩).AbsLe 32767 ∧
    (2 * (32767 * 32767) : ℤ) ≤ i32.max ∧ (Args.ff ⟨-32767, 32766⟩ ⟨32765, -32767⟩).InRange i32 :=
  ⟨by simp [Args.AbsLe, Raw.AbsLe], by decide,
    ⟨by decide, by decide⟩⟩

/-- **C08** Under a policy whose output step normalises signs, every result of a binary
operation is in lowest terms with positive denominator, or is exactly `0/0`. -/
theorem C08_canonical_results {op : ArithOp} {w : Bool} (hn : o.NormalizesOutput)
    (ha : a.InRange T) (h : o.arith T op a = .ok r w) :
    (r.den ≠ 0 → 0 < r.den ∧ Int.gcd r.num r.den = 1) ∧ (r.den = 0 → r = ⟨0, 0⟩) := by
  rcases Ops.arith_canonical hn ha h with hc | rfl
  · exact ⟨fun _ => hc, fun h0 => absurd h0 hc.1.ne'⟩
  · simp

/-- **C08** The same for unary minus. -/
theorem C08_canonical_neg {v : Raw} {w : Bool} (hn : o.NormalizesOutput)
    (hv : v.InRange T) (h : Fraction.neg T o v = .ok r w) :
    (r.den ≠ 0 → 0 < r.den ∧ Int.gcd r.num r.den = 1) ∧ (r.den = 0 → r = ⟨0, 0⟩) := by
  rcases Ops.negate_canonical hn hv h with hc | rfl
  · exact ⟨fun _ => hc, fun h0 => absurd h0 hc.1.ne'⟩
  · simp

/-- **C08** The default policy is such a policy. -/
theorem C08_defaults_normalize : Ops.defaults.NormalizesOutput := trivial

example : Ops.defaults.arith i32 .divides (.ff ⟨2, 3⟩ ⟨-4, 6⟩) ⇓ ⟨-1, 1⟩ ∧
    Ops.defaults.arith i32 .divides (.ff ⟨2, 3⟩ ⟨0, 6⟩) ⇓ ⟨0, 0⟩ := by decide

/-- **C09** Two policies that both finish cleanly agree in value: both results denote the
same rational, or both are undefined (division by zero). -/
theorem C09_policies_agree {o' : Ops} {op : ArithOp} {r' : Raw} (ha : a.Denote x y)
    (h : o.arith T op a ⇓ r) (h' : o'.arith T op a ⇓ r') :
    SameValue r r' ∨ (r.den = 0 ∧ r'.den = 0 ∧ op = .divides ∧ y = 0) := by
  have e := Ops.arith_exact ha h
  have e' := Ops.arith_exact ha h'
  cases op
  · exact .inl ⟨_, e, e'⟩
  · exact .inl ⟨_, e, e'⟩
  · exact .inl ⟨_, e, e'⟩
  · by_cases hy : y = 0
    · exact .inr ⟨e.2 hy, e'.2 hy, rfl, hy⟩
    · exact .inl ⟨_, e.1 hy, e'.1 hy⟩
  · exact .inl ⟨_, e.2, e'.2⟩

/-- **C09** Two policies that both finish cleanly agree on equality. -/
theorem C09_policies_agree_eq {o' : Ops} {b b' : Bool} (ha : a.Denote x y)
    (h : o.cmp T .equalTo a ⇓ b) (h' : o'.cmp T .equalTo a ⇓ b') : b = b' := by
  have e := (Ops.cmp_form ha h).eq_iff
  have e' := (Ops.cmp_form ha h').eq_iff
  rw [Bool.eq_iff_iff, e, e']

example : Ops.defaults.arith i32 .plus (.ff ⟨1, 6⟩ ⟨1, 4⟩) ⇓ ⟨5, 12⟩ ∧
    Ops.fast.arith i32 .plus (.ff ⟨1, 6⟩ ⟨1, 4⟩) ⇓ ⟨10, 24⟩ ∧
    Ops.fast.cmp i32 .equalTo (.ff ⟨1, 2⟩ ⟨-2, -4⟩) ⇓ true ∧
    Ops.defaults.cmp i32 .equalTo (.ff ⟨1, 2⟩ ⟨-2, -4⟩) ⇓ true := by decide

/-! ### C10: field laws -/

section C10

variable {f g k s t u v w : Raw}

/-- **C10** `a + b` and `b + a` have the same value. -/
theorem C10_add_comm (hf : f.den ≠ 0) (hg : g.den ≠ 0) (h1 : o.arith T .plus (.ff f g) ⇓ r)
    (h2 : o.arith T .plus (.ff g f) ⇓ s) : SameValue r s := by
  have df := denotes_self hf
  have dg := denotes_self hg
  have e1 := C01_add_exact (a := .ff f g) ⟨df, dg⟩ h1
  have e2 := C01_add_exact (a := .ff g f) ⟨dg, df⟩ h2
  rw [add_comm] at e2
  exact ⟨_, e1, e2⟩

/-- **C10** `a * b` and `b * a` have the same value. -/
theorem C10_mul_comm (hf : f.den ≠ 0) (hg : g.den ≠ 0)
    (h1 : o.arith T .multiplies (.ff f g) ⇓ r)
    (h2 : o.arith T .multiplies (.ff g f) ⇓ s) : SameValue r s := by
  have df := denotes_self hf
  have dg := denotes_self hg
  have e1 := C03_mul_exact (a := .ff f g) ⟨df, dg⟩ h1
  have e2 := C03_mul_exact (a := .ff g f) ⟨dg, df⟩ h2
  rw [mul_comm] at e2
  exact ⟨_, e1, e2⟩

/-- **C10** `(a + b) + c` and `a + (b + c)` have the same value. -/
theorem C10_add_assoc (hf : f.den ≠ 0) (hg : g.den ≠ 0) (hk : k.den ≠ 0)
    (h1 : o.arith T .plus (.ff f g) ⇓ r) (h2 : o.arith T .plus (.ff r k) ⇓ s)
    (h3 : o.arith T .plus (.ff g k) ⇓ t) (h4 : o.arith T .plus (.ff f t) ⇓ u) :
    SameValue s u := by
  have df := denotes_self hf
  have dg := denotes_self hg
  have dk := denotes_self hk
  have e1 := C01_add_exact (a := .ff f g) ⟨df, dg⟩ h1
  have e2 := C01_add_exact (a := .ff r k) ⟨e1, dk⟩ h2
  have e3 := C01_add_exact (a := .ff g k) ⟨dg, dk⟩ h3
  have e4 := C01_add_exact (a := .ff f t) ⟨df, e3⟩ h4
  rw [add_assoc] at e2
  exact ⟨_, e2, e4⟩

/-- **C10** `(a * b) * c` and `a * (b * c)` have the same value. -/
theorem C10_mul_assoc (hf : f.den ≠ 0) (hg : g.den ≠ 0) (hk : k.den ≠ 0)
    (h1 : o.arith T .multiplies (.ff f g) ⇓ r) (h2 : o.arith T .multiplies (.ff r k) ⇓ s)
    (h3 : o.arith T .multiplies (.ff g k) ⇓ t) (h4 : o.arith T .multiplies (.ff f t) ⇓ u) :
    SameValue s u := by
  have df := denotes_self hf
  have dg := denotes_self hg
  have dk := denotes_self hk
  have e1 := C03_mul_exact (a := .ff f g) ⟨df, dg⟩ h1
  have e2 := C03_mul_exact (a := .ff r k) ⟨e1, dk⟩ h2
  have e3 := C03_mul_exact (a := .ff g k) ⟨dg, dk⟩ h3
  have e4 := C03_mul_exact (a := .ff f t) ⟨df, e3⟩ h4
  rw [mul_assoc] at e2
  exact ⟨_, e2, e4⟩

/-- **C10** `a * (b + c)` and `a * b + a * c` have the same value. -/
theorem C10_distrib (hf : f.den ≠ 0) (hg : g.den ≠ 0) (hk : k.den ≠ 0)
    (h1 : o.arith T .plus (.ff g k) ⇓ r) (h2 : o.arith T .multiplies (.ff f r) ⇓ s)
    (h3 : o.arith T .multiplies (.ff f g) ⇓ t) (h4 : o.arith T .multiplies (.ff f k) ⇓ u)
    (h5 : o.arith T .plus (.ff t u) ⇓ v) : SameValue s v := by
  have df := denotes_self hf
  have dg := denotes_self hg
  have dk := denotes_self hk
  have e1 := C01_add_exact (a := .ff g k) ⟨dg, dk⟩ h1
  have e2 := C03_mul_exact (a := .ff f r) ⟨df, e1⟩ h2
  have e3 := C03_mul_exact (a := .ff f g) ⟨df, dg⟩ h3
  have e4 := C03_mul_exact (a := .ff f k) ⟨df, dk⟩ h4
  have e5 := C01_add_exact (a := .ff t u) ⟨e3, e4⟩ h5
  rw [mul_add] at e2
  exact ⟨_, e2, e5⟩

/-- **C10** `a - b` and `a + (-b)` have the same value. -/
theorem C10_sub_eq_add_neg (hf : f.den ≠ 0) (hg : g.den ≠ 0)
    (h1 : o.arith T .minus (.ff f g) ⇓ r) (h2 : Fraction.neg T o g ⇓ s)
    (h3 : o.arith T .plus (.ff f s) ⇓ t) : SameValue r t := by
  have df := denotes_self hf
  have dg := denotes_self hg
  have e1 := C02_sub_exact (a := .ff f g) ⟨df, dg⟩ h1
  have e2 := C06_neg_exact dg h2
  have e3 := C01_add_exact (a := .ff f s) ⟨df, e2⟩ h3
  rw [sub_eq_add_neg] at e1
  exact ⟨_, e1, e3⟩

/-- **C10** `(a / b) * b` has the value of `a` when `b` is not zero. -/
theorem C10_div_mul_cancel (hf : f.den ≠ 0) (hg : Denotes g y) (hy : y ≠ 0)
    (h1 : o.arith T .divides (.ff f g) ⇓ r) (h2 : o.arith T .multiplies (.ff r g) ⇓ s) :
    SameValue s f := by
  have df := denotes_self hf
  have e1 := (C04_div_exact (a := .ff f g) ⟨df, hg⟩ h1).1 hy
  have e2 := C03_mul_exact (a := .ff r g) ⟨e1, hg⟩ h2
  rw [div_mul_cancel₀ _ hy] at e2
  exact ⟨_, e2, df⟩

/-- **C10** `a - a` is zero. -/
theorem C10_sub_self (hf : f.den ≠ 0) (h1 : o.arith T .minus (.ff f f) ⇓ r) : Denotes r 0 := by
  have df := denotes_self hf
  have e1 := C02_sub_exact (a := .ff f f) ⟨df, df⟩ h1
  rwa [sub_self] at e1

example : Ops.fast.arith i32 .plus (.ff ⟨1, 2⟩ ⟨1, 3⟩) ⇓ ⟨5, 6⟩ ∧
    Ops.fast.arith i32 .plus (.ff ⟨5, 6⟩ ⟨-1, 4⟩) ⇓ ⟨14, 24⟩ ∧
    Ops.fast.arith i32 .plus (.ff ⟨1, 3⟩ ⟨-1, 4⟩) ⇓ ⟨1, 12⟩ ∧
    Ops.fast.arith i32 .plus (.ff ⟨1, 2⟩ ⟨1, 12⟩) ⇓ ⟨14, 24⟩ ∧
    Ops.fast.arith i32 .divides (.ff ⟨1, 2⟩ ⟨-1, 4⟩) ⇓ ⟨4, -2⟩ ∧
    Ops.fast.arith i32 .multiplies (.ff ⟨4, -2⟩ ⟨-1, 4⟩) ⇓ ⟨-4, -8⟩ ∧
    Ops.defaults.arith i32 .minus (.ff ⟨1, 3⟩ ⟨1, 3⟩) ⇓ ⟨0, 1⟩ := by decide

end C10

/-- **C11** Every expression tree that evaluates cleanly and whose exact value exists (no
division or modulus by zero, no undefined literal) evaluates to that value. -/
theorem C11_expressions_exact {e : Expr} {q : ℚ} (h : e.eval T o ⇓ r) (hv : e.value = some q) :
    Denotes r q :=
  Expr.eval_exact h hv

/-- `-(1/2 + 1/3) * 6 % (7/4 - 1)` -/
def exampleExpr : Expr :=
  .ff .modulus (.fr .multiplies (.neg (.ff .plus (.lit ⟨1, 2⟩) (.lit ⟨1, 3⟩))) 6)
    (.fr .minus (.lit ⟨7, 4⟩) 1)

example : exampleExpr.eval i32 .defaults ⇓ ⟨-1, 2⟩ ∧ exampleExpr.value = some (-1/2) :=
  ⟨by decide, by decide +kernel⟩

/-! ### C12 -/

/-- **C12** (part) For positive denominators, if `fast` adds or subtracts two fractions
without overflow then `safe` does too, and the results have the same value. Missing from
the full property: comparisons, see `C12_safe_comparison_less_resistant`. -/
theorem C12_safe_resists_overflow_partial {op : ArithOp} (hop : op = .plus ∨ op = .minus)
    {l s : Raw} {r : Raw} (hl : 0 < l.den) (hr : 0 < r.den) (il : l.InRange T) (ir : r.InRange T)
    (h : Ops.fast.arith T op (.ff l r) ⇓ s) :
    ∃ s', Ops.safe.arith T op (.ff l r) ⇓ s' ∧ SameValue s' s := by
  obtain ⟨s', h'⟩ := safe_of_fast_arith hop hl hr il.2 ir.2 h
  have ha : (Args.ff l r).Denote _ _ := ⟨denotes_self hl.ne', denotes_self hr.ne'⟩
  refine ⟨s', h', ?_⟩
  rcases C09_policies_agree (o := .safe) (o' := .fast) ha h' h with e | e
  · exact e
  · rcases hop with rfl | rfl <;> simp at e

/-- **C12** (part) `safe` compares without overflow whenever `fast` does and the least common
denominator is representable, with the same answer. -/
theorem C12_safe_comparison_partial {op : CmpOp} {l r : Raw} {b : Bool} (hl : 0 < l.den)
    (hr : 0 < r.den) (il : l.InRange T) (ir : r.InRange T)
    (hlcm : (Int.lcm l.den r.den : ℤ) ≤ T.max) (h : Ops.fast.cmp T op (.ff l r) ⇓ b) :
    Ops.safe.cmp T op (.ff l r) ⇓ b := by
  obtain ⟨b', h'⟩ := safe_of_fast_cmp hl hr il.2 ir.2 hlcm h
  have ha : (Args.ff l r).Denote _ _ := ⟨denotes_self hl.ne', denotes_self hr.ne'⟩
  have hp : (Args.ff l r).PosDen := ⟨hl, hr⟩
  have e1 := (Ops.cmp_form (o := .safe) ha h').order_good (Ops.orderSafe_of_posDen hp)
  have e2 := (Ops.cmp_form (o := .fast) ha h).order_good (Ops.orderSafe_of_posDen hp)
  have : b' = b := by rw [Bool.eq_iff_iff, e1, e2]
  rw [← this]; exact h'

/-- **C12** (negation) The full property fails for comparisons: `1/65536 < 1/65537` is
answered by `fast` but is undefined behaviour under `safe` on `int`, because the least
common denominator does not fit. -/
theorem C12_safe_comparison_less_resistant :
    ¬ ∀ (T : IntTy) (op : CmpOp) (l r : Raw) (b : Bool), 0 < l.den → 0 < r.den → l.InRange T →
      r.InRange T → Ops.fast.cmp T op (.ff l r) ⇓ b → (Ops.safe.cmp T op (.ff l r)).Finishes := by
  intro h
  obtain ⟨b, w, hb⟩ := h i32 .less ⟨1, 65536⟩ ⟨1, 65537⟩ false (by decide) (by decide) (by decide)
    (by decide) (by decide)
  have : Ops.safe.cmp i32 .less (.ff ⟨1, 65536⟩ ⟨1, 65537⟩) = .fault .lcmPrecond := by decide
  rw [this] at hb
  cases hb

example : Ops.fast.arith i32 .plus (.ff ⟨1, 46340⟩ ⟨1, 23170⟩) ⇓ ⟨69510, 1073697800⟩ ∧
    Ops.safe.arith i32 .plus (.ff ⟨1, 46340⟩ ⟨1, 23170⟩) ⇓ ⟨3, 46340⟩ ∧
    Ops.fast.cmp i32 .less (.ff ⟨1, 4⟩ ⟨1, 6⟩) ⇓ false ∧ (Int.lcm 4 6 : ℤ) ≤ i32.max := by decide

end Ieme
