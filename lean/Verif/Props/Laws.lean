import Verif.Lemmas.Laws
import Verif.Props.Arith
import Verif.Props.Convert
import Verif.Props.Rounding
import Verif.Props.MixedNumber

/-!
# Laws that combine several operations: properties C72 and C77–C81
-/

namespace Ieme

open Res IntTy

variable {T : IntTy} {o : Ops} {a : Args} {f g r s : Raw} {x y : ℚ} {d n t l u : ℤ}

/-! ## C72: positive denominators -/

/-- **C72, partial.**  Full claim: when every fraction among the operands has a positive
denominator, so has every clean result.  Proved for every operation but division, and for
division by a positive value; false for division by a negative one, see
`C72_division_by_negative`. -/
theorem C72_positive_denominator_partial {op : ArithOp} (hp : a.PosDen) (ha : a.Denote x y)
    (hd : op = .divides → 0 < y) (h : o.arith T op a ⇓ r) : 0 < r.den := by
  by_cases hop : op = .divides
  · subst hop; exact Ops.div_posDen hp ha (hd rfl) h
  · exact Ops.arith_posDen hp hop h

/-- **C72** The exact condition under which a clean result has a positive denominator. -/
theorem C72_positive_denominator_iff {op : ArithOp} (hp : a.PosDen) (ha : a.Denote x y)
    (h : o.arith T op a ⇓ r) :
    0 < r.den ↔ (op = .divides → 0 < y ∨ (y < 0 ∧ o.NormalizesOutput)) := by
  by_cases hop : op = .divides
  swap
  · exact ⟨fun _ h' => absurd h' hop, fun _ => Ops.arith_posDen hp hop h⟩
  subst hop
  simp only [true_implies]
  rcases lt_trichotomy y 0 with hy | hy | hy
  · refine ⟨fun hr => .inr ⟨hy, ?_⟩, ?_⟩
    · by_contra hn
      have := Ops.div_negDen hn hp ha hy h
      omega
    · rintro (h' | ⟨-, hn⟩)
      · exact absurd h' hy.not_gt
      · exact Ops.normalizesOutput_posDen hn h ((C04_div_exact ha h).1 hy.ne).1
  · have := (C04_div_exact ha h).2 hy
    subst hy
    rw [this]; simp
  · exact ⟨fun _ => .inl hy, fun _ => Ops.div_posDen hp ha hy h⟩

example : (Args.ff ⟨1, 2⟩ ⟨-1, 3⟩).PosDen ∧ (Args.ff ⟨1, 2⟩ ⟨-1, 3⟩).Denote (1/2) (-1/3) ∧
    Ops.arith i32 .defaults .divides (.ff ⟨1, 2⟩ ⟨-1, 3⟩) ⇓ ⟨-3, 2⟩ ∧
    Ops.arith i32 .fast .divides (.ff ⟨1, 2⟩ ⟨-1, 3⟩) ⇓ ⟨3, -2⟩ := by
  refine ⟨by simp [Args.PosDen], by norm_num [Args.Denote, Denotes], by decide, by decide⟩

/-- **C72** Negation keeps a positive denominator. -/
theorem C72_neg_positive_denominator (hp : 0 < f.den) (h : Fraction.neg T o f ⇓ r) : 0 < r.den :=
  Ops.negate_posDen hp h

/-- **C72, partial** (as above).  Every expression, of any size, over fractions with positive
denominators in which every divisor has a positive value. -/
theorem C72_expressions_partial {e : Expr} (hp : e.PosDivisors) (h : e.eval T o ⇓ r) :
    0 < r.den := Expr.eval_posDen hp h

/-- **C72, refuted for division.**  Under `safe` and `fast` the quotient of two fractions with
positive denominators can have a negative one, and then `fast` orders it wrongly: it takes
`1/2 ÷ (-1/3)`, which is `-3/2`, to be greater than `0`. -/
theorem C72_division_by_negative :
    Ops.arith i32 .safe .divides (.ff ⟨1, 2⟩ ⟨-1, 3⟩) ⇓ ⟨3, -2⟩ ∧
    Ops.arith i32 .fast .divides (.ff ⟨1, 2⟩ ⟨-1, 3⟩) ⇓ ⟨3, -2⟩ ∧
    Ops.cmp i32 .fast .greater (.ff ⟨3, -2⟩ ⟨0, 1⟩) ⇓ true := by decide

example : (Args.ff ⟨1, 2⟩ ⟨1, 3⟩).PosDen ∧ (Args.ff ⟨1, 2⟩ ⟨1, 3⟩).Denote (1/2) (1/3) ∧
    Ops.arith i32 .fast .divides (.ff ⟨1, 2⟩ ⟨1, 3⟩) ⇓ ⟨3, 2⟩ ∧
    Ops.arith i32 .fast .minus (.ff ⟨1, 2⟩ ⟨4, 3⟩) ⇓ ⟨-5, 6⟩ ∧
    (Expr.ff .divides (.lit ⟨-1, 2⟩) (.fr .plus (.lit ⟨1, 3⟩) 1)).PosDivisors ∧
    (Expr.ff .divides (.lit ⟨-1, 2⟩) (.fr .plus (.lit ⟨1, 3⟩) 1)).eval i32 .fast ⇓ ⟨-3, 8⟩ := by
  refine ⟨by simp [Args.PosDen], by norm_num [Args.Denote, Denotes], by decide, by decide, ?_,
    by decide⟩
  refine ⟨by simp [Expr.PosDivisors], by simp [Expr.PosDivisors], fun _ => ⟨4/3, ?_, by norm_num⟩⟩
  norm_num [Expr.value, litValue, ArithOp.value]

/-! ## C77: mixed numbers have one form -/

/-- **C77** Under a policy that normalises its output, two expressions over mixed numbers with
the same exact value give identical mixed numbers, part by part. -/
theorem C77_equal_values_identical {e e' : MExpr} {m m' : Mixed} (hn : o.NormalizesOutput)
    (hl : e.CanonicalLeaves) (hl' : e'.CanonicalLeaves) (hm : e.eval o ⇓ m) (hm' : e'.eval o ⇓ m')
    (hv : e.value = e'.value) : m = m' := by
  obtain ⟨i, q, hq, hd⟩ := MExpr.eval_ok hl.wellTyped hm
  obtain ⟨i', q', hq', hd'⟩ := MExpr.eval_ok hl'.wellTyped hm'
  obtain rfl : q = q' := by rw [hq, hq'] at hv; exact Option.some.inj hv
  obtain ⟨h1, h2⟩ := i.unique i' hd hd'
  have canon : ∀ {e : MExpr} {m : Mixed}, e.CanonicalLeaves → e.eval o ⇓ m → m.Invariant →
      Canonical m.frac := by
    intro e m hl hm hi
    rcases (MExpr.eval_canon hn hl hm).2 with h | h
    · exact h
    · obtain ⟨y, hy, -⟩ := hi
      exact absurd (by rw [h] : m.frac.den = 0) hy.1
  have h3 := (canon hl hm i).unique (canon hl' hm' i') h2
  cases m; cases m'
  simp only at h1 h3
  rw [h1, h3]

/-- **C77** Under every policy the whole part of the result is the exact value rounded towards
zero, and the fractional part denotes the rest. -/
theorem C77_whole_is_trunc {e : MExpr} {m : Mixed} (hw : e.WellTyped) (hm : e.eval o ⇓ m) :
    ∃ q, e.value = some q ∧ m.whole = ratTrunc q ∧ Denotes m.frac (q - ratTrunc q) := by
  obtain ⟨i, q, hq, hd⟩ := MExpr.eval_ok hw hm
  exact ⟨q, hq, i.whole hd⟩

example : Ops.NormalizesOutput .defaults ∧
    (MExpr.add (.mk i32 i32 1 ⟨3, 4⟩) (.mk i32 i32 (-4) ⟨-1, 4⟩)).eval .defaults ⇓ ⟨-2, ⟨-1, 2⟩⟩ ∧
    (MExpr.ofFraction i32 i32 i32 ⟨-10, 4⟩).eval .defaults ⇓ ⟨-2, ⟨-1, 2⟩⟩ ∧
    (MExpr.add (.mk i32 i32 1 ⟨3, 4⟩) (.mk i32 i32 (-4) ⟨-1, 4⟩)).CanonicalLeaves ∧
    (MExpr.ofFraction i32 i32 i32 ⟨-10, 4⟩).CanonicalLeaves ∧
    (MExpr.ofFraction i32 i32 i32 ⟨-10, 4⟩).WellTyped ∧
    (MExpr.add (.mk i32 i32 1 ⟨3, 4⟩) (.mk i32 i32 (-4) ⟨-1, 4⟩)).value =
      (MExpr.ofFraction i32 i32 i32 ⟨-10, 4⟩).value := by
  refine ⟨trivial, by decide, by decide, ?_, ?_, trivial, ?_⟩
  · exact ⟨⟨by decide, by decide, by decide, by decide⟩, by decide, by decide, by decide, by decide⟩
  · exact (by decide : (⟨-10, 4⟩ : Raw).InRange i32)
  · norm_num [MExpr.value, litValue]

/-- **C79** Where the condition of `C79_integers_fixed_partial` fails, `round` of an integer
value is always one too many. -/
theorem C79_round_integer_one_more {m : ℤ} (hx : Denotes f m) (hs : ¬ o.RoundsProperly f)
    (h : Fraction.round T o f ⇓ n) : n = m + 1 := by
  obtain ⟨k, hk, -, hn⟩ := Fraction.round_cases hx h
  rw [if_neg, Int.floor_intCast] at hk
  · rw [hn hs, hk, if_neg (by norm_num)]
  · rintro ⟨h1, h2⟩
    have h1 : (-1 : ℤ) < m := by exact_mod_cast h1
    have h2 : m < 0 := by exact_mod_cast h2
    omega

example : Denotes ⟨-6, -3⟩ ((2 : ℤ) : ℚ) ∧ ¬ Ops.RoundsProperly .fast ⟨-6, -3⟩ ∧
    Fraction.round i32 .fast ⟨-6, -3⟩ ⇓ 3 := by
  refine ⟨by norm_num [Denotes], ?_, by decide⟩
  simp [Ops.RoundsProperly, Ops.SafeBased, Ops.IgnoresSigns]

/-! ## C78: redenominating twice -/

/-- **C78, partial.**  Full claim: redenominating a second time, in any mode and to the same
denominator, changes nothing.  Missing (false in the code, see `C78_redenominate_drifts`):
rounding to a negative denominator under a policy that never fixes signs; see
`C78_redenominate_drifts_always`. -/
theorem C78_redenominate_idempotent_partial {mode mode' : RoundMode} (hd : d ≠ 0)
    (hs : mode' = .trunc ∨ mode' = .ceil ∨ mode' = .floor ∨ 0 < d ∨ o.SafeBased ∨
      ¬ o.IgnoresSigns)
    (h : Fraction.redenominate T o f d mode ⇓ r)
    (h' : Fraction.redenominate T o r d mode' ⇓ s) : s = r := by
  have hr := redenominate_den h
  have hr0 : r.den ≠ 0 := by rw [hr]; exact hd
  obtain ⟨h1, h2⟩ := C34_multiple_unchanged_partial (m := r.num) hd (denotes_self hr0)
    (by rw [hr]) mode' (by rw [Ops.RoundsProperly, hr]; exact hs) h'
  have hdq : (d : ℚ) ≠ 0 := by exact_mod_cast hd
  have h3 := h1.2
  rw [h2, hr, div_left_inj' hdq] at h3
  have h4 : s.num = r.num := by exact_mod_cast h3
  cases r; cases s
  simp only at h2 hr h4
  rw [h4, h2, hr]

/-- **C78, refuted in general.**  Under `fast`, rounding to the denominator `-4` again and again
moves the value by a quarter each time. -/
theorem C78_redenominate_drifts :
    Fraction.redenominate i32 .fast ⟨1, 4⟩ (-4) .round ⇓ ⟨-1, -4⟩ ∧
    Fraction.redenominate i32 .fast ⟨-1, -4⟩ (-4) .round ⇓ ⟨0, -4⟩ ∧
    Fraction.redenominate i32 .fast ⟨0, -4⟩ (-4) .round ⇓ ⟨1, -4⟩ := by decide

/-- **C78, refuted in general.**  Whenever a policy that never fixes signs and is built on
`fast` rounds to a negative denominator a second time, the numerator grows by one. -/
theorem C78_redenominate_drifts_always {mode : RoundMode} (hd : d < 0) (hf : ¬ o.SafeBased)
    (hi : o.IgnoresSigns) (h : Fraction.redenominate T o f d mode ⇓ r)
    (h' : Fraction.redenominate T o r d .round ⇓ s) : s.num = r.num + 1 ∧ s.den = d := by
  have hr := redenominate_den h
  have hr0 : r.den ≠ 0 := by rw [hr]; exact hd.ne
  have hdq : (d : ℚ) ≠ 0 := by exact_mod_cast hd.ne
  obtain ⟨p, hp, h'⟩ := bind_eq_clean.1 h'
  obtain ⟨n, hn, h'⟩ := bind_eq_clean.1 h'
  simp only [pure_eq_ok, and_true] at h'
  subst h'
  have hpd := redenominate_product (denotes_self hr0) hp
  rw [hr, div_mul_cancel₀ _ hdq] at hpd
  have hnp : ¬ o.RoundsProperly p := by
    rw [redenominate_properly hr0 hp, Ops.RoundsProperly, hr]
    simp [hf, hi, hd.le]
  exact ⟨C79_round_integer_one_more hpd hnp hn, rfl⟩

example : ¬ Ops.SafeBased .fast ∧ Ops.IgnoresSigns .fast ∧
    Fraction.redenominate i32 .fast ⟨3, 4⟩ (-4) .trunc ⇓ ⟨-3, -4⟩ ∧
    Fraction.redenominate i32 .fast ⟨-3, -4⟩ (-4) .round ⇓ ⟨-2, -4⟩ :=
  ⟨id, trivial, by decide, by decide⟩

example : Fraction.redenominate i32 .defaults ⟨-7, 8⟩ (-4) .floor ⇓ ⟨4, -4⟩ ∧
    Fraction.redenominate i32 .defaults ⟨4, -4⟩ (-4) .round ⇓ ⟨4, -4⟩ ∧
    Ops.SafeBased .defaults := ⟨by decide, by decide, trivial⟩

/-! ## C79: the four ways to a whole number -/

/-- **C79** `floor ≤ trunc ≤ ceil`; `floor` and `ceil` agree on integers and differ by one
elsewhere (also where both are wrong, see C30 and C31). -/
theorem C79_floor_le_trunc_le_ceil (hx : Denotes f x) (ht : Fraction.trunc T f ⇓ t)
    (hl : Fraction.floor T f ⇓ l) (hu : Fraction.ceil T f ⇓ u) :
    l ≤ t ∧ t ≤ u ∧ ((∃ m : ℤ, x = m) → u = l) ∧ ((¬ ∃ m : ℤ, x = m) → u = l + 1) := by
  have et := (Fraction.trunc_ok hx ht).1
  have el := Fraction.floor_val hx hl
  have eu := Fraction.ceil_val hx hu
  by_cases hc : -1 < x ∧ x < 0
  · rw [if_pos hc] at el eu
    have hf0 : ⌈x⌉ = 0 := by
      rw [Int.ceil_eq_iff]; push_cast; constructor <;> linarith [hc.1, hc.2]
    rw [ratTrunc, if_neg (not_le.2 hc.2), hf0] at et
    refine ⟨by omega, by omega, ?_, fun _ => by omega⟩
    rintro ⟨m, rfl⟩
    have h1 : (-1 : ℤ) < m := by exact_mod_cast hc.1
    have h2 : m < 0 := by exact_mod_cast hc.2
    omega
  · rw [if_neg hc] at el eu
    have hfc := Int.floor_le_ceil x
    refine ⟨?_, ?_, ?_, ?_⟩
    · rw [et, el, ratTrunc]; split <;> omega
    · rw [et, eu, ratTrunc]; split <;> omega
    · rintro ⟨m, rfl⟩
      rw [el, eu]; simp
    · intro hm
      rw [el, eu, Int.ceil_eq_iff]
      have h1 := Int.floor_le x
      have h2 := Int.lt_floor_add_one x
      push_cast
      refine ⟨?_, by linarith⟩
      rcases h1.lt_or_eq with h | h
      · linarith
      · exact absurd ⟨_, h.symm⟩ hm

/-- **C79** `round` is `floor` or one more, under every policy. -/
theorem C79_round_near_floor (hl : Fraction.floor T f ⇓ l) (hn : Fraction.round T o f ⇓ n) :
    n = l ∨ n = l + 1 := by
  obtain ⟨m, hm, h⟩ := Fraction.round_near hn
  rw [hl] at hm
  obtain ⟨rfl, -⟩ := Res.ok.inj hm
  exact h

/-- **C79, partial.**  Full claim: all four give the number itself for a fraction with integer
value.  Missing (false in the code, see `C79_round_integer_wrong`): `round` of a negative
denominator under a policy that never fixes signs, where the answer is always one more. -/
theorem C79_integers_fixed_partial {m : ℤ} (hx : Denotes f m) :
    (Fraction.trunc T f ⇓ n → n = m) ∧ (Fraction.floor T f ⇓ n → n = m) ∧
    (Fraction.ceil T f ⇓ n → n = m) ∧
    (o.RoundsProperly f → Fraction.round T o f ⇓ n → n = m) := by
  have nint : ¬ (-1 < (m : ℚ) ∧ (m : ℚ) < 0) := by
    rintro ⟨h1, h2⟩
    have h1 : (-1 : ℤ) < m := by exact_mod_cast h1
    have h2 : m < 0 := by exact_mod_cast h2
    omega
  refine ⟨fun h => ?_, fun h => ?_, fun h => ?_, fun hs h => ?_⟩
  · rw [(Fraction.trunc_ok hx h).1, ratTrunc_int]
  · rw [Fraction.floor_val hx h, if_neg nint, Int.floor_intCast]
  · rw [Fraction.ceil_val hx h, if_neg nint, Int.ceil_intCast]
  · rw [Fraction.round_val hx hs h, if_neg (fun hc => nint ⟨hc.1, by linarith [hc.2]⟩),
      Int.floor_eq_iff]
    constructor <;> linarith

/-- **C79, refuted for `round` under `fast`.**  `round(-4/(-4))` is `2`, although
`ceil(-4/(-4))` is `1`. -/
theorem C79_round_integer_wrong :
    Fraction.round i32 .fast ⟨-4, -4⟩ ⇓ 2 ∧ Fraction.ceil i32 ⟨-4, -4⟩ ⇓ 1 := by decide

example : Denotes ⟨-9, 4⟩ (-9/4) ∧ Fraction.trunc i32 ⟨-9, 4⟩ ⇓ -2 ∧
    Fraction.floor i32 ⟨-9, 4⟩ ⇓ -3 ∧ Fraction.ceil i32 ⟨-9, 4⟩ ⇓ -2 ∧
    Fraction.round i32 .fast ⟨-9, 4⟩ ⇓ -2 ∧
    Denotes ⟨-6, 3⟩ ((-2 : ℤ) : ℚ) ∧ Fraction.trunc i32 ⟨-6, 3⟩ ⇓ -2 ∧
    Fraction.floor i32 ⟨-6, 3⟩ ⇓ -2 ∧ Fraction.ceil i32 ⟨-6, 3⟩ ⇓ -2 ∧
    Fraction.round i32 .fast ⟨-6, 3⟩ ⇓ -2 := by
  refine ⟨by norm_num [Denotes], by decide, by decide, by decide, by decide,
    by norm_num [Denotes], by decide, by decide, by decide, by decide⟩

/-! ## C80: quotient and remainder -/

/-- **C80** `b * trunc(a / b) + a % b` is `a`, when all steps finish cleanly. -/
theorem C80_quotient_remainder {q p m : Raw} (hf : f.den ≠ 0) (hg : g.den ≠ 0)
    (hq : o.arith T .divides (.ff f g) ⇓ q) (ht : Fraction.trunc T q ⇓ t)
    (hp : o.arith T .multiplies (.fr g t) ⇓ p) (hm : o.arith T .modulus (.ff f g) ⇓ m)
    (hs : o.arith T .plus (.ff p m) ⇓ s) : SameValue s f := by
  have hx := denotes_self hf
  have hy := denotes_self hg
  generalize (f.num : ℚ) / f.den = x at hx
  generalize (g.num : ℚ) / g.den = y at hy
  obtain ⟨y0, dm⟩ := C05_mod_exact (a := .ff f g) ⟨hx, hy⟩ hm
  have dq := (Ops.arith_exact (a := .ff f g) ⟨hx, hy⟩ hq).1 y0
  have et := (Fraction.trunc_ok dq ht).1
  have dp : Denotes p (y * t) := Ops.arith_exact (a := .fr g t) ⟨hy, rfl⟩ hp
  have ds : Denotes s (y * t + (x - y * ratTrunc (x / y))) :=
    Ops.arith_exact (a := .ff p m) ⟨dp, dm⟩ hs
  rw [et, add_sub_cancel] at ds
  exact ⟨x, ds, hx⟩

example : Ops.arith i32 .defaults .divides (.ff ⟨-7, 2⟩ ⟨3, 4⟩) ⇓ ⟨-14, 3⟩ ∧
    Fraction.trunc i32 ⟨-14, 3⟩ ⇓ -4 ∧
    Ops.arith i32 .defaults .multiplies (.fr ⟨3, 4⟩ (-4)) ⇓ ⟨-3, 1⟩ ∧
    Ops.arith i32 .defaults .modulus (.ff ⟨-7, 2⟩ ⟨3, 4⟩) ⇓ ⟨-1, 2⟩ ∧
    Ops.arith i32 .defaults .plus (.ff ⟨-3, 1⟩ ⟨-1, 2⟩) ⇓ ⟨-7, 2⟩ := by decide

/-! ## C81: the order of a sum does not matter -/

/-- **C81** Adding (or multiplying) the same fractions in two orders gives the same value, under
every policy. -/
theorem C81_order_same_value {ts us : List Raw} {op : ArithOp}
    (hop : op = .plus ∨ op = .multiplies) (hf : f.den ≠ 0) (ht : ∀ t ∈ ts, t.den ≠ 0)
    (hp : ts.Perm us) (h : Assign.run T o f (ts.map (.frac op)) ⇓ r)
    (h' : Assign.run T o f (us.map (.frac op)) ⇓ s) : SameValue r s := by
  have hu : ∀ t ∈ us, t.den ≠ 0 := fun t h => ht t (hp.mem_iff.2 h)
  have hx := denotes_self hf
  rcases hop with rfl | rfl
  · have h1 := (C40_loop_sum hx ht).1 h
    have h2 := (C40_loop_sum hx hu).1 h'
    rw [← (hp.map _).sum_eq] at h2
    exact ⟨_, h1, h2⟩
  · have h1 := (C40_loop_sum hx ht).2 h
    have h2 := (C40_loop_sum hx hu).2 h'
    rw [← (hp.map _).prod_eq] at h2
    exact ⟨_, h1, h2⟩

/-- **C81** Under a policy that normalises its output the two results are identical. -/
theorem C81_order_identical {ts us : List Raw} {op : ArithOp} (hn : o.NormalizesOutput)
    (hop : op = .plus ∨ op = .multiplies) (hf : f.den ≠ 0) (ht : ∀ t ∈ ts, t.den ≠ 0)
    (hfT : f.InRange T) (htT : ∀ t ∈ ts, t.InRange T)
    (hp : ts.Perm us) (h : Assign.run T o f (ts.map (.frac op)) ⇓ r)
    (h' : Assign.run T o f (us.map (.frac op)) ⇓ s) : r = s := by
  by_cases h0 : ts = []
  · subst h0
    obtain rfl := hp.nil_eq
    rw [h] at h'
    exact (Res.ok.inj h').1
  · have h1 : us ≠ [] := fun e => h0 (by subst e; exact hp.eq_nil)
    obtain ⟨q, d1, d2⟩ := C81_order_same_value hop hf ht hp h h'
    have c1 := Assign.run_canonical hn hfT htT h0 h
    have c2 := Assign.run_canonical hn hfT (fun t h => htT t (hp.mem_iff.2 h)) h1 h'
    rcases c1 with c1 | rfl
    · rcases c2 with c2 | rfl
      · exact c1.unique c2 ⟨q, d1, d2⟩
      · exact absurd rfl d2.1
    · exact absurd rfl d1.1

example : [(⟨1, 3⟩ : Raw), ⟨-1, 2⟩, ⟨5, 6⟩].Perm [⟨5, 6⟩, ⟨1, 3⟩, ⟨-1, 2⟩] ∧
    Assign.run i32 .defaults ⟨0, 1⟩ ([⟨1, 3⟩, ⟨-1, 2⟩, ⟨5, 6⟩].map (.frac .plus)) ⇓ ⟨2, 3⟩ ∧
    Assign.run i32 .defaults ⟨0, 1⟩ ([⟨5, 6⟩, ⟨1, 3⟩, ⟨-1, 2⟩].map (.frac .plus)) ⇓ ⟨2, 3⟩ := by
  refine ⟨by decide, by decide, by decide⟩

/-- Without normalisation the two results need not be identical. -/
example :
    Assign.run i32 (.reducedInput .fast .normalizeSigns) ⟨0, 1⟩
      ([⟨1, 2⟩, ⟨1, 2⟩, ⟨1, 3⟩].map (.frac .plus)) ⇓ ⟨4, 3⟩ ∧
    Assign.run i32 (.reducedInput .fast .normalizeSigns) ⟨0, 1⟩
      ([⟨1, 2⟩, ⟨1, 3⟩, ⟨1, 2⟩].map (.frac .plus)) ⇓ ⟨16, 12⟩ := by decide

end Ieme
