import Verif.Lemmas.FaultsApps

/-!
# What can go wrong: property C97

Every function either finishes or fails in one of a few ways.  `Fault.Arith T dz` lists them for
computations in one integer type: overflow and the precondition of `std::gcd` on signed types
only, the precondition of `std::lcm` on all types, and division by zero when `dz` holds.
-/

namespace Ieme

open Res IntTy

variable {T L R W F S : IntTy} {o : Ops} {f g : Raw} {k : Fault} {n d : ℤ}

/-! ## Operators -/

/-- **C97** An operator on signed types divides by zero only for `%` with a zero on the right, or
for undefined operands. -/
theorem C97_arith {op : ArithOp} {a : Args} (ha : a.HaveTypes L R)
    (h : Fraction.arith L R o op a = .fault k) :
    Fault.Arith (IntTy.common L R)
      ((IntTy.common L R).signed = true → a.Defined → op = .modulus ∧ a.ZeroRight) k := by
  refine Triple.fault (P := fun _ => True) ?_ h
  refine (Fraction.toCommon_triple ha).bind fun b hb => ?_
  refine ((Ops.arith_triple (o := o) (op := op) hb.1).mono (fun _ _ => trivial)
    fun k => Fault.Arith.mono fun h hs => ?_)
  rw [← hb.2]
  · exact h hs
  · have := common_signed hs
    cases a with
    | ff l r => exact ⟨⟨this.1 ha.1.1, this.1 ha.1.2⟩, this.2 ha.2.1, this.2 ha.2.2⟩
    | fr l r => exact ⟨⟨this.1 ha.1.1, this.1 ha.1.2⟩, this.2 ha.2⟩
    | rf l r => exact ⟨this.1 ha.1, this.2 ha.2.1, this.2 ha.2.2⟩

example : Fraction.arith i32 i64 .defaults .modulus (.ff ⟨1, 2⟩ ⟨0, 3⟩) = .fault .divByZero := by
  decide +kernel

/-- Division by zero is not a failure: the result is undefined. -/
example : Fraction.arith i32 i32 .safe .divides (.ff ⟨1, 2⟩ ⟨0, 3⟩) ⇓ ⟨3, 0⟩ := by decide +kernel

example : Fraction.arith u32 u32 .safe .plus (.ff ⟨1, 4294967295⟩ ⟨1, 4294967294⟩) =
    .fault .lcmPrecond := by decide +kernel

/-- **C97** Under the fast policy the only failures are overflow and the division by zero of
`%`. -/
theorem C97_fast {op : ArithOp} {a : Args} (ha : a.InRange T)
    (h : Ops.arith T .fast op a = .fault k) :
    k = .overflow ∧ T.signed = true ∨ k = .divByZero ∧ op = .modulus ∧
      (T.signed = true → a.Defined → a.ZeroRight) := by
  rcases (Fast.arith_faults ha).fault h with h | ⟨h1, h2, h3⟩
  · exact Or.inl h
  · exact Or.inr ⟨h1, h2, fun hs hd => (h3 hs hd).2⟩

example : Ops.arith i32 .fast .plus (.ff ⟨1, 65536⟩ ⟨1, 65536⟩) = .fault .overflow := by
  decide +kernel

/-- **C97** Comparisons never divide by zero, not even for undefined operands. -/
theorem C97_cmp {op : CmpOp} {a : Args} (ha : a.HaveTypes L R)
    (h : Fraction.cmp L R o op a = .fault k) : Fault.Arith (IntTy.common L R) False k :=
  ((Fraction.toCommon_triple ha).bind fun _ hb => Ops.cmp_faults (o := o) (op := op) hb.1).fault h

example : Fraction.cmp u32 u32 .safe .less (.ff ⟨1, 4294967295⟩ ⟨1, 4294967294⟩) =
    .fault .lcmPrecond := by decide +kernel

/-- **C97** Under the fast policy the only failure of a comparison is signed overflow. -/
theorem C97_fast_cmp {op : CmpOp} {a : Args} (h : Ops.cmp T .fast op a = .fault k) :
    k = .overflow ∧ T.signed = true := Fast.cmp_faults.fault h

example : Ops.cmp i32 .fast .less (.ff ⟨1, 2⟩ ⟨2147483647, 3⟩) = .fault .overflow := by
  decide +kernel

/-- **C97** Negation, and the absolute value, never divide by zero. -/
theorem C97_neg (hf : f.InRange T) :
    (Fraction.neg T o f = .fault k → Fault.Arith T False k) ∧
    (Fraction.abs T o f = .fault k → Fault.Arith T False k) :=
  ⟨(Ops.negate_faults hf).fault, (Fraction.abs_triple hf).fault⟩

example : Fraction.neg i32 .safe ⟨-2147483648, 1⟩ = .fault .overflow ∧
    Fraction.neg i32 .defaults ⟨-2147483648, 1⟩ = .fault .gcdPrecond := by decide +kernel

/-- **C97** A whole expression over a signed type divides by zero only when it has no value: an
undefined operand or a division or `%` by zero occurs in it. -/
theorem C97_expressions {e : Expr} (he : e.LeavesInRange T) (h : e.eval T o = .fault k) :
    Fault.Arith T (T.signed = true → e.value = none) k := (Expr.eval_triple he).fault h

/-- `1/2 + 1/(1/2 - 1/2)` -/
example : Expr.eval i32 .safe (.ff .plus (.lit ⟨1, 2⟩)
    (.rf .divides 1 (.ff .minus (.lit ⟨1, 2⟩) (.lit ⟨1, 2⟩)))) = .fault .divByZero := by
  decide +kernel

/-! ## Queries and reduction -/

/-- **C97** The queries fail only on signed types, by overflow; `is_reduced` by the precondition
of `std::gcd`. -/
theorem C97_queries (hf : f.InRange T) :
    (f.isProper T = .fault k → k = .overflow ∧ T.signed = true) ∧
    (f.isImproper T = .fault k → k = .overflow ∧ T.signed = true) ∧
    (f.isInteger T = .fault k → k = .overflow ∧ T.signed = true) ∧
    (f.isUnitFraction T = .fault k → k = .overflow ∧ T.signed = true) ∧
    (f.isReduced T = .fault k → k = .gcdPrecond ∧ T.signed = true) ∧
    (f.isReducedIgnoreSigns T = .fault k → k = .gcdPrecond ∧ T.signed = true) :=
  ⟨(Raw.isProper_triple hf).fault, (Raw.isImproper_triple hf).fault,
    (Raw.isInteger_triple hf).fault, (Raw.isUnitFraction_triple hf).fault,
    (Raw.isReduced_triple hf).fault, (Raw.isReducedIgnoreSigns_triple hf).fault⟩

example : Raw.isInteger i32 ⟨-2147483648, -1⟩ = .fault .overflow ∧
    Raw.isReduced i32 ⟨-2147483648, 3⟩ = .fault .gcdPrecond := by decide +kernel

/-- **C97** Reduction never divides by zero, and fails on signed types only. -/
theorem C97_reduce {mode : ReduceMode} (hf : f.InRange T) (h : f.reduce T mode = .fault k) :
    (k = .overflow ∨ k = .gcdPrecond) ∧ T.signed = true :=
  (Raw.reduce_triple' (K := fun k => (k = .overflow ∨ k = .gcdPrecond) ∧ T.signed = true) mode hf
    (fun h => ⟨Or.inl rfl, h⟩) (fun h => ⟨Or.inr rfl, h⟩)).fault h

example : Raw.reduce i32 .normalizeSigns ⟨3, -2147483648⟩ = .fault .gcdPrecond := by decide +kernel

/-! ## Rounding and powers -/

/-- **C97** `trunc`, `ceil` and `floor` divide by zero exactly for undefined fractions; otherwise
they fail by signed overflow only. -/
theorem C97_round (hf : f.InRange T) {fn : IntTy → Raw → Res ℤ}
    (hfn : fn ∈ [Fraction.trunc, Fraction.ceil, Fraction.floor]) :
    (fn T f = .fault .divByZero ↔ f.den = 0) ∧
    (fn T f = .fault k → f.den ≠ 0 → k = .overflow ∧ T.signed = true) := by
  have key : ∀ {x : Res ℤ}, x.Triple T.InRange
      (fun k => k = .overflow ∧ T.signed = true ∨ k = .divByZero ∧ f.den = 0) →
      (f.den = 0 → x = .fault .divByZero) →
      (x = .fault .divByZero ↔ f.den = 0) ∧
      (x = .fault k → f.den ≠ 0 → k = .overflow ∧ T.signed = true) := fun h1 h2 =>
    ⟨⟨fun h => by simpa using h1.fault h, h2⟩, fun h h0 => by simpa [h0] using h1.fault h⟩
  have hz : f.den = 0 → Fraction.trunc T f = .fault .divByZero := fun h => if_pos h
  simp only [List.mem_cons, List.not_mem_nil, or_false] at hfn
  rcases hfn with rfl | rfl | rfl
  · exact key (Fraction.trunc_triple hf) hz
  · exact key (Fraction.ceil_triple hf) fun h => by rw [Fraction.ceil, hz h, fault_bind]
  · exact key (Fraction.floor_triple hf) fun h => by rw [Fraction.floor, hz h, fault_bind]

example : Fraction.floor i32 ⟨5, 0⟩ = .fault .divByZero ∧
    Fraction.floor i32 ⟨-2147483648, -1⟩ = .fault .overflow := by decide +kernel

/-- **C97** `to_whole` and `redenominate`, for signed types, divide by zero only for undefined
fractions; a new denominator of zero is not a failure by itself. -/
theorem C97_whole {mode : RoundMode} (hf : f.InRange T) :
    (Fraction.toWhole T o f mode = .fault k →
      Fault.Arith T (T.signed = true → f.den = 0) k) ∧
    (T.InRange d → Fraction.redenominate T o f d mode = .fault k →
      Fault.Arith T (T.signed = true → f.den = 0) k) :=
  ⟨(Fraction.toWhole_triple mode hf).fault, fun h => (Fraction.redenominate_triple mode hf h).fault⟩

example : Fraction.redenominate i32 .safe ⟨1, 0⟩ 4 .round = .fault .divByZero ∧
    Fraction.redenominate i32 .safe ⟨2147483647, 2⟩ 4 .round = .fault .overflow := by
  decide +kernel

example : Fraction.redenominate i32 .safe ⟨1, 2⟩ 0 .round ⇓ ⟨0, 0⟩ := by decide +kernel

/-- **C97** `pow` fails by overflow only, `pow2` by shifting too far or on the smallest
exponent. -/
theorem C97_pow {b e : ℤ} :
    (Fraction.pow T b e = .fault k → k = .overflow) ∧
    (i32.InRange e → Fraction.pow2 T e = .fault k →
      k = .shiftRange ∧ T.bits ≤ e.natAbs ∨ k = .overflow ∧ e = -2147483648) :=
  ⟨(Fraction.pow_triple b e).fault, fun h => (Fraction.pow2_triple h).fault⟩

example : Fraction.pow i32 10 (-10) = .fault .overflow ∧ Fraction.pow2 i32 (-32) = .fault .shiftRange ∧
    Fraction.pow2 u64 (-2147483648) = .fault .overflow := by decide +kernel

/-! ## Mixed numbers -/

/-- **C97** Mixed numbers of signed types divide by zero only for undefined fractions. -/
theorem C97_mixed {m : Mixed} {w : ℤ} (hm : W.InRange m.whole ∧ m.frac.InRange F)
    (hw : W.InRange w) (hf : f.InRange F) (hg : g.InRange S) :
    (Mixed.mk' W F o w f = .fault k → Fault.Calc (F.signed = true → f.den = 0) k) ∧
    (Mixed.ofFraction W F o S g = .fault k → Fault.Calc (S.signed = true → g.den = 0) k) ∧
    (m.asFraction W F o = .fault k →
      Fault.Calc ((IntTy.common W F).signed = true → m.frac.den = 0) k) ∧
    (m.neg W F o = .fault k → Fault.Calc (F.signed = true → m.frac.den = 0) k) :=
  ⟨(Mixed.mk'_triple hw hf).fault, (Mixed.ofFraction_triple hg).fault,
    (Mixed.asFraction_triple hm).fault, (Mixed.neg_triple hm).fault⟩

example : Mixed.mk' i32 i32 .safe 1 ⟨1, 0⟩ = .fault .divByZero ∧
    Mixed.ofFraction i32 i32 .safe i64 ⟨1, 0⟩ = .fault .divByZero ∧
    Mixed.mk' i32 i32 .safe 2147483647 ⟨3, 2⟩ = .fault .overflow := by decide +kernel

/-- **C97** So does their addition. -/
theorem C97_mixed_add {W₁ F₁ W₂ F₂ : IntTy} {l r : Mixed}
    (hl : W₁.InRange l.whole ∧ l.frac.InRange F₁) (hr : W₂.InRange r.whole ∧ r.frac.InRange F₂) :
    (Mixed.add W₁ F₁ W₂ F₂ o l r = .fault k →
      Fault.Calc ((IntTy.common F₁ F₂).signed = true → l.frac.den = 0 ∨ r.frac.den = 0) k) ∧
    (Mixed.addWhole W₁ F₁ W₂ o l n = .fault k →
      Fault.Calc (F₁.signed = true → l.frac.den = 0) k) :=
  ⟨(Mixed.add_triple hl hr).fault, (Mixed.addWhole_triple hl).fault⟩

example : Mixed.add i32 i32 i64 i64 .safe ⟨1, ⟨1, 2⟩⟩ ⟨1, ⟨1, 0⟩⟩ = .fault .divByZero := by
  decide +kernel

/-! ## Literals, floating point and durations -/

/-- **C97** Converting a string never divides by zero on a signed type, never reads outside the
string and shifts nowhere. -/
theorem C97_parse {s : List Char} (h : Parse.toFraction T o s = .fault k) :
    Fault.Calc (T.signed = false) k := by
  obtain ⟨r, w, hs, hr⟩ := Parse.scan_sound s
  rw [Parse.toFraction, hs] at h
  cases r with
  | none => cases h
  | some r =>
    have h' := Parse.scanValue_triple (T := T) (o := o) r (Parse.scan_base hs)
    cases hv : Parse.scanValue T o r with
    | ok v w' => simp [bind_def, Res.bind, hv] at h
    | fault k' =>
      have : k' = k := by simpa [bind_def, Res.bind, hv] using h
      subst this
      exact h'.fault hv

example : Parse.toFraction i32 .defaults "10000000000.0".toList = .fault .overflow ∧
    Parse.toFraction i32 .safe "0.1e9".toList ⇓ ⟨1000000000, 10⟩ := by decide +kernel

/-- **C50** The whole conversion of a text, arithmetic included, never reads out of bounds, shifts
out of range or throws, whatever the text, type and policy. -/
theorem C50_conversion_in_bounds (T : IntTy) (o : Ops) (s : List Char) :
    Parse.toFraction T o s ≠ .fault .outOfBounds ∧ Parse.toFraction T o s ≠ .fault .shiftRange ∧
    Parse.toFraction T o s ≠ .fault .thrown :=
  ⟨fun h => C97_parse h, fun h => C97_parse h, fun h => C97_parse h⟩

/-- It can fail in other ways; text that is cut short gives `0/0`. -/
example : Parse.toFraction i32 .defaults "10000000000.0".toList = .fault .overflow ∧
    Parse.toFraction i32 .defaults "1.0e+".toList ⇓ ⟨0, 0⟩ := by decide +kernel

/-- **C97** Converting a floating-point number, on a little-endian machine. -/
theorem C97_from_float {X : Fmt} {b : ℕ}
    (h : FloatingPoint.toFraction .little X T o b = .fault k) : Fault.FromFloat T X k :=
  (FloatingPoint.toFraction_triple b).fault h

/-- The largest `float` shifts too far; a `double` does not fit a 32-bit type. -/
example : FloatingPoint.toFraction .little binary32 i64 .defaults 0x7f7fffff = .fault .shiftRange ∧
    FloatingPoint.toFraction .little binary64 i32 .defaults 0 = .fault .illFormed := by
  decide +kernel

/-- **C97** Converting to a floating-point number. -/
theorem C97_to_float {X : Fmt} (hf : f.InRange T)
    (h : FloatingPoint.ofFraction X T f = .fault k) : Fault.Arith T False k :=
  (FloatingPoint.ofFraction_triple hf).fault h

example : FloatingPoint.ofFraction binary32 i32 ⟨-2147483648, 3⟩ = .fault .gcdPrecond := by
  decide +kernel

/-- **C97** Converting durations: an unrepresentable ratio of the periods makes the program
ill-formed; on signed types only undefined counts divide by zero. -/
theorem C97_durations {p q : Chrono.Period} {c : Chrono.Count}
    (hc : ∀ f, c = .frac f → f.InRange T) (h : Chrono.convert T o p q c = .fault k) :
    k = .illFormed ∧ Chrono.ratioDivide p q = none ∨
      Fault.Arith T (T.signed = true → c.Undefined) k :=
  (Chrono.convert_triple hc).fault h

/-- Periods for the example: seconds and minutes. -/
private def sec : Chrono.Period := ⟨1, 1, by decide, by decide, by decide⟩
private def minute : Chrono.Period := ⟨60, 1, by decide, by decide, by decide⟩

example : Chrono.convert i32 .safe minute sec (.int 100000000) = .fault .overflow ∧
    Chrono.convert i32 .safe ⟨9223372036854775807, 1, by decide, by decide, by decide⟩
      ⟨1, 1000, by decide, by decide, by decide⟩ (.frac ⟨1, 2⟩) = .fault .illFormed := by
  decide +kernel

end Ieme
