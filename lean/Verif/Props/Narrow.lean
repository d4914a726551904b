import Verif.Lemmas.Narrow

/-!
# C109: representation types narrower than `int`
-/

namespace Ieme
open Res IntTy

variable {N : NarrowTy} {f l r : Raw} {a : Args} {x y : ℚ}

/-- **C109** `is_integer` and `is_unit_fraction` answer exactly, for every fraction: unlike for
`fraction<int>` the least value over minus one is no exception. -/
theorem C109_queries (hf : f.InNarrow N) :
    Narrow.isInteger f ⇓ decide (f.den ≠ 0 ∧ f.den ∣ f.num) ∧
    Narrow.isUnitFraction f ⇓ decide (f.den ≠ 0 ∧ f.num ≠ 0 ∧ f.num ∣ f.den) := by
  have key : ∀ {a b : ℤ}, N.InRange a → b ≠ 0 → i32.mod a b ⇓ a.tmod b := by
    intro a b ha hb
    have h1 := NarrowTy.abs_le ha
    have h2 : |a.tdiv b| ≤ |a| := by
      rw [Int.abs_eq_natAbs, Int.abs_eq_natAbs, Int.natAbs_tdiv]
      exact_mod_cast Nat.div_le_self _ _
    have := abs_le.1 (h2.trans h1)
    exact mod_clean.2 ⟨hb, i32_iff.2 ⟨by omega, by omega⟩, rfl⟩
  constructor
  · unfold Narrow.isInteger Raw.isDefined
    by_cases h : f.den = 0
    · simp [h, pure_def]
    · simp only [bne_iff_ne, ne_eq, h, not_false_eq_true, if_true, key hf.1 h, ok_bind_false,
        true_and]
      simp [pure_def, Int.dvd_iff_tmod_eq_zero, beq_eq_decide]
  · unfold Narrow.isUnitFraction Raw.isDefined
    by_cases h : f.den = 0
    · simp [h, pure_def]
    · by_cases h' : f.num = 0
      · simp [h', pure_def]
      · simp only [bne_iff_ne, ne_eq, h, h', not_false_eq_true, Bool.and_eq_true, and_self, if_true,
          key hf.2 h', ok_bind_false, true_and]
        simp [pure_def, Int.dvd_iff_tmod_eq_zero, beq_eq_decide]

example : (⟨-32768, -1⟩ : Raw).InNarrow i16 ∧ Narrow.isInteger ⟨-32768, -1⟩ ⇓ true ∧
    (⟨-2147483648, -1⟩ : Raw).isInteger i32 = .fault .overflow := by decide

/-- **C109** `is_proper` compares the absolute values unless a part is the least value. -/
theorem C109_is_proper_partial (hf : f.InNarrow N) (hm : f.AvoidsMin N) :
    Narrow.isProper N f ⇓ decide (|f.num| < |f.den|) := by
  have key : ∀ {v : ℤ}, N.InRange v → (N.signed = true → v ≠ N.min) →
      Narrow.mathAbs N v ⇓ |v| := by
    intro v hv hv'
    unfold Narrow.mathAbs
    split
    · rename_i h; rw [abs_of_nonneg h]; rfl
    · rename_i h
      have hn : v < 0 := by omega
      have := NarrowTy.natAbs_inRange hv hv'
      rw [show (v.natAbs : ℤ) = -v by omega] at this
      rw [neg_clean.2 ⟨NarrowTy.neg_inRange_int hv, rfl⟩, ok_bind_false, NarrowTy.conv_ok this,
        abs_of_neg hn]
  unfold Narrow.isProper
  rw [key hf.1 fun h => (hm h).1, ok_bind_false, key hf.2 fun h => (hm h).2, ok_bind_false]
  rfl

example : (⟨-3, 4⟩ : Raw).InNarrow i8 ∧ Narrow.isProper i8 ⟨-3, 4⟩ ⇓ true := by decide

/-- **C109** (negation) The absolute value of the least `short` is converted back to itself, so
that `-32768/1` is called proper. -/
theorem C109_is_proper_wrong :
    (⟨-32768, 1⟩ : Raw).InNarrow i16 ∧ Narrow.isProper i16 ⟨-32768, 1⟩ = .ok true true := by decide

/-- **C109** `is_reduced` finishes and is exact unless a part is the least value. -/
theorem C109_is_reduced_partial (hf : f.InNarrow N) (hm : f.AvoidsMin N) :
    Narrow.isReduced N f ⇓
      decide ((0 < f.num ∨ 0 < f.den) ∧ f.den ≠ 0 ∧ Int.gcd f.num f.den = 1) := by
  have h1 := NarrowTy.natAbs_inRange hf.1 fun h => (hm h).1
  have h2 := NarrowTy.natAbs_inRange hf.2 fun h => (hm h).2
  have hg : N.gcd f.num f.den ⇓ (Int.gcd f.num f.den : ℤ) := by rw [NarrowTy.gcd, if_pos ⟨h1, h2⟩]
  unfold Narrow.isReduced Raw.isDefined
  by_cases hp : 0 < f.num ∨ 0 < f.den
  · by_cases h0 : f.den = 0
    · simp [h0, pure_def]
    · have e : ((Int.gcd f.num f.den : ℤ) == 1) = decide (Int.gcd f.num f.den = 1) := by
        rw [beq_eq_decide]; exact decide_eq_decide.2 (by norm_cast)
      simp [hp, h0, hg, pure_def, ok_bind_false, e]
  · have : ¬ (f.num > 0) ∧ ¬ (f.den > 0) := by push Not at hp; omega
    simp [this.1, this.2, pure_def]

example : (⟨-3, 4⟩ : Raw).InNarrow i8 ∧ Narrow.isReduced i8 ⟨-3, 4⟩ ⇓ true ∧
    Narrow.isReduced i8 ⟨-128, 3⟩ = .fault .gcdPrecond := by decide

/-- **C109** `normalize_signs` keeps the value and makes the denominator positive, unless a part
is the least value of a signed type. -/
theorem C109_normalize_signs_partial (hf : f.InNarrow N) (hm : f.AvoidsMin N) (h0 : f.den ≠ 0) :
    ∃ g, Narrow.normalizeSigns N f ⇓ g ∧ 0 < g.den ∧ g.InNarrow N ∧
      ∀ q, Denotes g q ↔ Denotes f q := by
  by_cases hp : 0 < f.den
  · exact ⟨f, by simp [Narrow.normalizeSigns, hp, pure_def], hp, hf, fun _ => Iff.rfl⟩
  · have hs : N.signed = true := by
      by_contra hs
      have : 0 ≤ f.den := by simpa [NarrowTy.InRange, NarrowTy.min, hs] using hf.2.1
      omega
    have h1 := NarrowTy.neg_inRange hf.1 hs (hm hs).1
    have h2 := NarrowTy.neg_inRange hf.2 hs (hm hs).2
    refine ⟨⟨-f.num, -f.den⟩, ?_, by simp only; omega, ⟨h1, h2⟩, fun q => ?_⟩
    · simp only [Narrow.normalizeSigns, gt_iff_lt, hp, if_false]
      rw [neg_clean.2 ⟨NarrowTy.neg_inRange_int hf.1, rfl⟩, ok_bind_false, NarrowTy.conv_ok h1,
        ok_bind_false, neg_clean.2 ⟨NarrowTy.neg_inRange_int hf.2, rfl⟩, ok_bind_false,
        NarrowTy.conv_ok h2, ok_bind_false]
      rfl
    · simp [Denotes, neg_eq_zero, neg_div_neg_eq]

example : (⟨3, -4⟩ : Raw).InNarrow i8 ∧ Narrow.normalizeSigns i8 ⟨3, -4⟩ ⇓ ⟨-3, 4⟩ := by decide

/-- **C109** (negation) On `short`, numerator -32768 over denominator -1 becomes -32768 over 1: the
value changes its sign. -/
theorem C109_normalize_signs_wrong :
    (⟨-32768, -1⟩ : Raw).InNarrow i16 ∧
    Narrow.normalizeSigns i16 ⟨-32768, -1⟩ = .ok ⟨-32768, 1⟩ true := by decide

/-- **C109** Rounding agrees with `fraction<int>`, except for the least value over minus one. -/
theorem C109_rounding_partial (hf : f.InNarrow N) (h0 : f.den ≠ 0)
    (hm : ¬ (f.num = N.min ∧ f.den = -1)) :
    Narrow.trunc N f = Fraction.trunc i32 f ∧ Narrow.ceil N f = Fraction.ceil i32 f ∧
    Narrow.floor N f = Fraction.floor i32 f := by
  have hq : i32.div f.num f.den ⇓ f.num.tdiv f.den := by
    have h1 := NarrowTy.abs_le hf.1
    have h2 : |f.num.tdiv f.den| ≤ |f.num| := by
      rw [Int.abs_eq_natAbs, Int.abs_eq_natAbs, Int.natAbs_tdiv]
      exact_mod_cast Nat.div_le_self _ _
    have := abs_le.1 (h2.trans h1)
    exact div_clean.2 ⟨h0, i32_iff.2 ⟨by omega, by omega⟩, rfl⟩
  obtain ⟨hr, hstep⟩ := NarrowTy.quotient hf.1 hf.2 h0 hm
  have ht : Narrow.trunc N f ⇓ f.num.tdiv f.den := by
    rw [Narrow.trunc, hq, ok_bind_false, NarrowTy.conv_ok hr]
  have hi := (C109_queries hf).1
  have hi' : f.isInteger i32 ⇓ decide (f.den ≠ 0 ∧ f.den ∣ f.num) := hi
  refine ⟨ht.trans hq.symm, ?_, ?_⟩
  · rw [Narrow.ceil, Fraction.ceil, Fraction.trunc, ht, hq, ok_bind_false, ok_bind_false, hi, hi',
      ok_bind_false, ok_bind_false]
    split
    · rfl
    · rename_i hc
      simp only [Bool.or_eq_true, decide_eq_true_eq, not_or, not_and, not_lt] at hc
      have := (hstep (hc.1 h0)).1 hc.2
      rw [add_clean.2 ⟨NarrowTy.inRange_int this, rfl⟩, ok_bind_false, NarrowTy.conv_ok this]
  · rw [Narrow.floor, Fraction.floor, Fraction.trunc, ht, hq, ok_bind_false, ok_bind_false, hi, hi',
      ok_bind_false, ok_bind_false]
    split
    · rfl
    · rename_i hc
      simp only [Bool.or_eq_true, decide_eq_true_eq, not_or, not_and, ge_iff_le, not_le] at hc
      have := (hstep (hc.1 h0)).2 hc.2
      rw [sub_clean.2 ⟨NarrowTy.inRange_int this, rfl⟩, ok_bind_false, NarrowTy.conv_ok this]

example : (⟨-7, 2⟩ : Raw).InNarrow i8 ∧ Narrow.floor i8 ⟨-7, 2⟩ ⇓ -4 ∧
    Narrow.ceil i8 ⟨7, 2⟩ ⇓ 4 := by decide

/-- **C109** (negation) The exception: truncating -128 over -1 on `signed char` yields -128. -/
theorem C109_trunc_wrong :
    (⟨-128, -1⟩ : Raw).InNarrow i8 ∧ Narrow.trunc i8 ⟨-128, -1⟩ = .ok (-128) true := by decide

/-- **C109** `pow2` of an exponent for which the power is representable is exact. -/
theorem C109_pow2 {e : ℕ} (he : N.InRange (2 ^ e : ℕ)) :
    Narrow.mathPow2 N e ⇓ ((2 ^ e : ℕ) : ℤ) := by
  have hlt : e < N.bits := by
    by_contra h
    have h1 : 2 ^ N.bits ≤ 2 ^ e := Nat.pow_le_pow_right (by norm_num) (by omega)
    have h2 : 2 ^ (N.bits - 1) ≤ 2 ^ N.bits := Nat.pow_le_pow_right (by norm_num) (by omega)
    have h3 := he.2
    unfold NarrowTy.max at h3
    split at h3 <;> omega
  have hu : N.toUnsigned.InRange e := by
    have : e < 2 ^ N.bits := hlt.trans Nat.lt_two_pow_self
    constructor
    · simp [NarrowTy.min, NarrowTy.toUnsigned]
    · have : (e : ℤ) < ((2 ^ N.bits : ℕ) : ℤ) := by exact_mod_cast this
      simp only [NarrowTy.max, NarrowTy.toUnsigned, Bool.false_eq_true, if_false]
      omega
  have hb := N.narrow
  rw [Narrow.mathPow2, NarrowTy.conv_ok hu, ok_bind_false, if_pos (by omega), Int.toNat_natCast,
    conv_clean.2 ⟨NarrowTy.inRange_int he, rfl⟩, ok_bind_false, NarrowTy.conv_ok he]

example : u8.InRange (2 ^ 7 : ℕ) ∧ Narrow.mathPow2 u8 7 ⇓ 128 ∧
    Narrow.mathPow2 i8 7 = .ok (-128) true := by decide

/-- **C109** Comparisons under `fast` never overflow when products fit into `int`; with positive
denominators they are exact. -/
theorem C109_fast_cmp {op : CmpOp} (hN : N.ProductsFit) (ha : a.InNarrow N) :
    ∃ b, Narrow.cmp N .fast op a ⇓ b ∧ (a.HasUndefined → b = op.undefAnswer) ∧
      (a.PosDen → a.Denote x y → (b = true ↔ op.Holds x y)) := by
  have hone : ∀ {v : ℤ}, N.InRange v → i32.InRange (v * 1) ∧ i32.InRange (1 * v) := fun h => by
    simpa using NarrowTy.inRange_int h
  have hl : i32.InRange (a.left.num * a.right.den) ∧ i32.InRange (a.right.num * a.left.den) := by
    cases a <;> simp only [Args.InNarrow, Raw.InNarrow, Args.left, Args.right] at ha ⊢
    · exact ⟨NarrowTy.mul_inRange hN ha.1.1 ha.2.2, NarrowTy.mul_inRange hN ha.2.1 ha.1.2⟩
    · exact ⟨(hone ha.1.1).1, NarrowTy.mul_inRange hN ha.2 ha.1.2⟩
    · exact ⟨NarrowTy.mul_inRange hN ha.1 ha.2.2, (hone ha.2.1).1⟩
  classical
  let b : Bool := if a.HasUndefined then op.undefAnswer else
    decide (op.HoldsInt (a.left.num * a.right.den) (a.right.num * a.left.den))
  have hb : Ops.fast.cmp i32 op a ⇓ b := by
    refine (C85_fast_cmp_iff ha.int).2 ⟨hl.1, hl.2, fun h => ?_, fun h => ?_⟩
    · simp [b, h]
    · simp [b, h]
  exact ⟨b, hb, fun h => by simp [b, h], fun hp hd => C15_order_exact_partial hd hp hb⟩

example : i16.ProductsFit ∧ (Args.ff ⟨-32768, 32767⟩ ⟨32767, -32768⟩).InNarrow i16 ∧
    Narrow.cmp i16 .fast .less (.ff ⟨1, 301⟩ ⟨1, 300⟩) ⇓ true :=
  ⟨by decide, ⟨by decide, by decide⟩, by decide⟩

/-- **C109** (negation) `unsigned short` is promoted to the signed `int`: comparing two
`fraction<unsigned short>` can overflow, where `fraction<unsigned>` would wrap. -/
theorem C109_unsigned_short_overflows :
    (⟨65535, 1⟩ : Raw).InNarrow u16 ∧ (⟨1, 65535⟩ : Raw).InNarrow u16 ∧
    Narrow.cmp u16 .fast .less (.ff ⟨65535, 1⟩ ⟨1, 65535⟩) = .fault .overflow := by decide

/-- **C109** Comparing two defined fractions under `safe` finishes exactly when the denominators'
absolute values and their least common multiple are values of the narrow type, and is then exact
whatever the signs. -/
theorem C109_safe_cmp {op : CmpOp} (hN : N.ProductsFit) (hl : l.InNarrow N) (hr : r.InNarrow N)
    (hx : Denotes l x) (hy : Denotes r y) :
    ((∃ b, Narrow.cmp N .safe op (.ff l r) ⇓ b) ↔
      N.InRange l.den.natAbs ∧ N.InRange r.den.natAbs ∧ N.InRange (Int.lcm l.den r.den)) ∧
    ∀ b, Narrow.cmp N .safe op (.ff l r) ⇓ b → (b = true ↔ op.Holds x y) := by
  have h1 : l.den ≠ 0 := hx.1
  have h2 : r.den ≠ 0 := hy.1
  by_cases hc : N.InRange l.den.natAbs ∧ N.InRange r.den.natAbs ∧ N.InRange (Int.lcm l.den r.den)
  · have he := Narrow.safeCmp_eq (op := op) hc
    obtain ⟨b, hb⟩ := Narrow.safe_finishes (op := op) hN hl hr h1 h2 hc.2.2
    refine ⟨⟨fun _ => hc, fun _ => ⟨b, he.trans hb⟩⟩, fun b' hb' => ?_⟩
    exact C15_safe_ff_exact (o := .safe) trivial hx hy (he.symm.trans hb')
  · have hf := Narrow.safeCmp_fault (op := op) h1 h2 hc
    refine ⟨⟨fun ⟨b, hb⟩ => ?_, fun h => (hc h).elim⟩, fun b hb => ?_⟩ <;>
    · have := hf.symm.trans hb; simp at this

example : i16.ProductsFit ∧ (⟨1, 6⟩ : Raw).InNarrow i16 ∧ (⟨-3, -4⟩ : Raw).InNarrow i16 ∧
    Denotes ⟨1, 6⟩ (1/6) ∧ Denotes ⟨-3, -4⟩ (3/4) ∧ i16.InRange (Int.lcm 6 (-4)) ∧
    Narrow.cmp i16 .safe .less (.ff ⟨1, 6⟩ ⟨-3, -4⟩) ⇓ true :=
  ⟨by decide, by decide, by decide, by norm_num [Denotes], by norm_num [Denotes], by decide,
    by decide +kernel⟩

/-- **C109** (negation) Under `safe`, `std::lcm` must be representable in the narrow type although
everything else is computed in `int`: `1/300 < 1/301` on `short` is undefined. -/
theorem C109_safe_lcm :
    Narrow.cmp i16 .safe .less (.ff ⟨1, 300⟩ ⟨1, 301⟩) = .fault .lcmPrecond ∧
    Narrow.cmp i16 .fast .less (.ff ⟨1, 300⟩ ⟨1, 301⟩) ⇓ false := by decide +kernel

/-- **C109** Operands of two different narrow types are computed with in `int`: every policy's
result is exact. -/
theorem C109_mixed_exact {L R : NarrowTy} {o : Ops} {op : ArithOp} {s : Raw} (hLR : L ≠ R)
    (ha : a.Denote x y) (h : AnyTy.arith (.narrow L) (.narrow R) o op a ⇓ s) : op.Exact x y s := by
  rw [AnyTy.arith, if_neg (by simpa using hLR)] at h
  simp only [AnyTy.promote] at h
  rw [Fraction.arith_self] at h
  exact Ops.arith_exact ha h

example : i8 ≠ i16 ∧ AnyTy.arith (.narrow i8) (.narrow i16) .fast .plus (.ff ⟨1, 2⟩ ⟨1, 300⟩) ⇓
    ⟨302, 600⟩ := by decide

/-- **C109** Sums, differences, products and quotients of operands of two different narrow types
that have at most 29 bits together never overflow under `fast`. -/
theorem C109_mixed_finishes {L R : NarrowTy} {op : ArithOp} (hLR : L ≠ R)
    (hb : L.bits + R.bits ≤ 29) (ha : a.InTypes L R) (hop : op ≠ .modulus) :
    AnyTy.arith (.narrow L) (.narrow R) .fast op a ⇓ op.crossParts a.left a.right := by
  rw [AnyTy.arith, if_neg (by simpa using hLR)]
  simp only [AnyTy.promote]
  rw [Fraction.arith_self]
  obtain ⟨A, B, hAB, l1, l2, r1, r2⟩ := ha.bounds hb
  have e : ∀ {u v : ℤ}, |u| ≤ A → |v| ≤ B → |u * v| ≤ 536870912 := fun hu hv => by
    rw [abs_mul]
    exact (mul_le_mul hu hv (abs_nonneg _) ((abs_nonneg _).trans hu)).trans hAB
  have p1 := abs_le.1 (e l1 r2)
  have p2 := abs_le.1 (e l2 r1)
  have p3 := abs_le.1 (e l2 r2)
  have p4 := abs_le.1 (e l1 r1)
  have c : a.right.num * a.left.den = a.left.den * a.right.num := mul_comm _ _
  refine (C85_fast_iff ha.int).2 ⟨rfl, ?_, fun _ => ?_, fun h => (hop h).elim⟩
  · cases op <;> simp only [ArithOp.crossParts, ArithOp.overCommon, Raw.InRange, i32_iff, c] <;>
      first | exact (hop rfl).elim | constructor <;> constructor <;> omega
  · simp only [i32_iff, c]; constructor <;> constructor <;> omega

example : i8.bits + i16.bits ≤ 29 ∧ (Args.ff ⟨-128, 127⟩ ⟨-32768, 32767⟩).InTypes i8 i16 :=
  ⟨by decide, by decide, by decide⟩

/-- **C109** (negation) With more bits they can: `short` times `unsigned short`. -/
theorem C109_mixed_overflows :
    AnyTy.arith (.narrow i16) (.narrow u16) .fast .minus (.ff ⟨-32768, 1⟩ ⟨65535, 65535⟩) =
      .fault .overflow := by decide

/-- **C109** Comparisons of operands of two different narrow types are exact for positive
denominators, under every policy. -/
theorem C109_mixed_cmp {L R : NarrowTy} {o : Ops} {op : CmpOp} {b : Bool} (hLR : L ≠ R)
    (ha : a.Denote x y) (hp : a.PosDen) (h : AnyTy.cmp (.narrow L) (.narrow R) o op a ⇓ b) :
    b = true ↔ op.Holds x y := by
  rw [AnyTy.cmp, if_neg (by simpa using hLR)] at h
  simp only [AnyTy.promote] at h
  rw [Fraction.cmp_self] at h
  exact C15_order_exact_partial ha hp h

example : AnyTy.cmp (.narrow i8) (.narrow u16) .defaults .less (.ff ⟨1, 3⟩ ⟨40000, 60000⟩) ⇓ true := by
  decide +kernel

end Ieme
