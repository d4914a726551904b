import Verif.Lemmas.Order

/-!
# Evaluation order: property C101

C++ leaves the order of operands and arguments open.  `Comp.Outcome` (`Verif/Spec/Order.lean`) collects the
outcomes of all orders, interleavings included.
-/

namespace Ieme

open Comp

variable {T L R W F S : IntTy} {o : Ops}

/-- **C101** Every computation has an outcome; when one of the permitted orders returns a value, all
of them return it, and when one fails, all of them fail. -/
theorem C101_deterministic {α : Type} (c : Comp α) :
    (∃ r, c.Outcome r) ∧ ∀ r r', c.Outcome r → c.Outcome r' → r.Agree r' := by
  refine ⟨c.exists_outcome, fun r r' h h' => ?_⟩
  rcases outcome_agree rfl h with h1 | ⟨k, k', h1, h2⟩
  · rcases outcome_agree rfl h' with h3 | ⟨k3, k4, h3, h4⟩
    · exact .inl (h1.trans h3.symm)
    · exact .inr ⟨k4, k3, h1.trans h4, h3⟩
  · rcases outcome_agree rfl h' with h3 | ⟨k3, k4, h3, h4⟩
    · exact .inr ⟨k, k', h1, h3.trans h2⟩
    · exact .inr ⟨k, k3, h1, h3⟩

example : (Src.bin i32.add (Src.bin i32.mul (Src.val 65536) (Src.val 65536))
      (Src.bin i32.div (Src.val 1) (Src.val 0))).Outcome (.fault .overflow) ∧
    (Src.bin i32.add (Src.bin i32.mul (Src.val 65536) (Src.val 65536))
      (Src.bin i32.div (Src.val 1) (Src.val 0))).Outcome (.fault .divByZero) := by
  refine ⟨.inl ⟨_, .inl ⟨_, .inr (.inl ⟨_, false, _, .inr (.inr ⟨_, _, _, _, rfl, rfl, rfl⟩), ?_, rfl⟩),
    rfl⟩, rfl⟩, .inl ⟨_, .inr (.inl ⟨_, .inr (.inl ⟨_, false, _,
      .inr (.inr ⟨_, _, _, _, rfl, rfl, rfl⟩), ?_, rfl⟩), rfl⟩), rfl⟩⟩
  · show Res.fault .overflow = i32.mul 65536 65536
    decide +kernel
  · show Res.fault .divByZero = i32.div 1 0
    decide +kernel

/-- **C101** Reduction, negation and the operators: whatever the order, the outcome is that of the model. -/
theorem C101_operators (mode : ReduceMode) (op : ArithOp) (cop : CmpOp) (f : Raw) (a : Args) :
    (∀ r, (Src.reduce T mode f).Outcome r → r.Agree (f.reduce T mode)) ∧
    (∀ r, (Src.negate T o f).Outcome r → r.Agree (o.negate T f)) ∧
    (∀ r, (Src.arith L R o op a).Outcome r → r.Agree (Fraction.arith L R o op a)) ∧
    (∀ r, (Src.cmp L R o cop a).Outcome r → r.Agree (Fraction.cmp L R o cop a)) :=
  ⟨fun _ => outcome_agree (by simp), fun _ => outcome_agree (by simp),
    fun _ => outcome_agree (by simp), fun _ => outcome_agree (by simp)⟩

example : ∀ r, (Src.arith i32 i64 .safe .plus (.ff ⟨1, 6⟩ ⟨-3, 4⟩)).Outcome r → r ⇓ ⟨-7, 12⟩ := by
  intro r h
  have h1 := (C101_operators (T := i32) (o := .safe) .ignoreSigns .plus .less ⟨1, 2⟩ _).2.2.1 r h
  have h2 : Fraction.arith i32 i64 .safe .plus (.ff ⟨1, 6⟩ ⟨-3, 4⟩) ⇓ ⟨-7, 12⟩ := by decide +kernel
  rcases h1 with h1 | ⟨k, k', -, h1⟩
  · exact h1.trans h2
  · rw [h2] at h1; cases h1

/-- **C101** Expressions and compound assignments. -/
theorem C101_expressions (e : Expr) (op : ArithOp) (l f : Raw) (n : ℤ) :
    (∀ r, (Src.expr T o e).Outcome r → r.Agree (e.eval T o)) ∧
    (∀ r, (Src.assignF L R o op l f).Outcome r → r.Agree (Fraction.assignF L R o op l f)) ∧
    (∀ r, (Src.assignR L R o op l n).Outcome r → r.Agree (Fraction.assignR L R o op l n)) :=
  ⟨fun _ => outcome_agree (by simp), fun _ => outcome_agree (by simp),
    fun _ => outcome_agree (by simp)⟩

example : ∀ r, (Src.expr i32 .fast (.ff .minus (.ff .multiplies (.lit ⟨1, 2⟩) (.lit ⟨2, 3⟩))
      (.fr .divides (.lit ⟨5, 7⟩) 3))).Outcome r → r ⇓ ⟨12, 126⟩ := by
  intro r h
  have h1 := (C101_expressions (L := i32) (R := i32) _ .plus ⟨1, 2⟩ ⟨1, 2⟩ 1).1 r h
  have h2 : (Expr.ff .minus (.ff .multiplies (.lit ⟨1, 2⟩) (.lit ⟨2, 3⟩))
      (.fr .divides (.lit ⟨5, 7⟩) 3)).eval i32 .fast ⇓ ⟨12, 126⟩ := by decide +kernel
  rcases h1 with h1 | ⟨k, k', -, h1⟩
  · exact h1.trans h2
  · rw [h2] at h1; cases h1

/-- **C101** The functions of `fraction_math.hpp`. -/
theorem C101_functions (f : Raw) (d base exponent : ℤ) (mode : RoundMode) :
    (∀ r, (Src.abs T o f).Outcome r → r.Agree (Fraction.abs T o f)) ∧
    (∀ r, (Src.toWhole T o f mode).Outcome r → r.Agree (Fraction.toWhole T o f mode)) ∧
    (∀ r, (Src.redenominate T o f d mode).Outcome r → r.Agree (Fraction.redenominate T o f d mode)) ∧
    (∀ r, (Src.pow T base exponent).Outcome r → r.Agree (Fraction.pow T base exponent)) :=
  ⟨fun _ => outcome_agree (by simp), fun _ => outcome_agree (by simp),
    fun _ => outcome_agree (by simp), fun _ => outcome_agree (by simp)⟩

example : ∀ r, (Src.redenominate i32 .defaults ⟨7, 3⟩ (-4) .ceil).Outcome r → r ⇓ ⟨-10, -4⟩ := by
  intro r h
  have h1 := (C101_functions ⟨7, 3⟩ (-4) 1 1 .ceil).2.2.1 r h
  have h2 : Fraction.redenominate i32 .defaults ⟨7, 3⟩ (-4) .ceil ⇓ ⟨-10, -4⟩ := by decide +kernel
  rcases h1 with h1 | ⟨k, k', -, h1⟩
  · exact h1.trans h2
  · rw [h2] at h1; cases h1

/-- **C101** Mixed numbers. -/
theorem C101_mixed_numbers (m : Mixed) (v : Raw) (e : MExpr) :
    (∀ r, (Src.fix W F o m).Outcome r → r.Agree (m.fix W F o)) ∧
    (∀ r, (Src.ofFraction W F o S v).Outcome r → r.Agree (Mixed.ofFraction W F o S v)) ∧
    (∀ r, (Src.asFraction W F o m).Outcome r → r.Agree (m.asFraction W F o)) ∧
    (∀ r, (Src.mexpr o e).Outcome r → r.Agree (e.eval o)) :=
  ⟨fun _ => outcome_agree (by simp), fun _ => outcome_agree (by simp),
    fun _ => outcome_agree (by simp), fun _ => outcome_agree (by simp)⟩

example : ∀ r, (Src.mexpr .defaults (.add (.mk i32 i32 2 ⟨3, 4⟩) (.ofFraction i32 i32 i32 ⟨9, 4⟩))).Outcome r →
    r ⇓ ⟨5, ⟨0, 1⟩⟩ := by
  intro r h
  have h1 := (C101_mixed_numbers (W := i32) (F := i32) (S := i32) ⟨0, ⟨0, 1⟩⟩ ⟨0, 1⟩ _).2.2.2 r h
  have h2 : (MExpr.add (.mk i32 i32 2 ⟨3, 4⟩) (.ofFraction i32 i32 i32 ⟨9, 4⟩)).eval .defaults ⇓
      ⟨5, ⟨0, 1⟩⟩ := by decide +kernel
  rcases h1 with h1 | ⟨k, k', -, h1⟩
  · exact h1.trans h2
  · rw [h2] at h1; cases h1

/-- **C101** Decimal strings and floating-point numbers. -/
theorem C101_conversions (s : List Char) (E : FloatingPoint.Endian) (F : Fmt) (bits : ℕ) :
    (∀ r, (Src.parse T o s).Outcome r → r.Agree (Parse.toFraction T o s)) ∧
    (∀ r, (Src.floatToFraction E F T o bits).Outcome r →
      r.Agree (FloatingPoint.toFraction E F T o bits)) :=
  ⟨fun _ => outcome_agree (by simp), fun _ => outcome_agree (by simp)⟩

example : ∀ r, (Src.parse i64 .defaults "12.5e-1".toList).Outcome r → r ⇓ ⟨5, 4⟩ := by
  intro r h
  have h1 := (C101_conversions "12.5e-1".toList .little binary64 0).1 r h
  have h2 : Parse.toFraction i64 .defaults "12.5e-1".toList ⇓ ⟨5, 4⟩ := by decide +kernel
  rcases h1 with h1 | ⟨k, k', -, h1⟩
  · exact h1.trans h2
  · rw [h2] at h1; cases h1

/-- **C101** The exponent arithmetic of `math_utilities::pow`, which the model does on integers, is exact
in the representation. -/
theorem C101_exponent_arithmetic {e : ℤ} (h : T.InRange e) :
    T.mod e 2 ⇓ e.tmod 2 ∧ T.div e 2 ⇓ e.tdiv 2 ∧ (e.tmod 2 = 1 → T.sub e 1 ⇓ e - 1) := by
  have hmin := T.min_le_zero
  have hmax := T.max_pos
  have hneg : e < 0 → e.tdiv 2 = -((-e) / 2) := by
    intro he
    have := Int.neg_tdiv (a := -e) (b := 2)
    rw [neg_neg, Int.tdiv_eq_ediv_of_nonneg (a := -e) (by omega)] at this
    exact this
  have hq : T.InRange (e.tdiv 2) := by
    rcases le_or_gt 0 e with he | he
    · rw [Int.tdiv_eq_ediv_of_nonneg he]
      exact ⟨by omega, by have := h.2; omega⟩
    · rw [hneg he]
      exact ⟨by have := h.1; omega, by omega⟩
  refine ⟨?_, ?_, fun h1 => ?_⟩
  · rw [IntTy.mod, if_neg (by decide), if_pos hq]
  · rw [IntTy.div, if_neg (by decide), if_pos hq]
  · have he : 0 < e := by
      rcases lt_or_ge 0 e with he | he
      · exact he
      · exfalso
        have h2 := Int.neg_tmod (-e) 2
        have h3 := Int.tmod_nonneg 2 (a := -e) (by omega)
        rw [Int.neg_neg] at h2
        omega
    rw [IntTy.sub, IntTy.arith, if_pos]
    exact ⟨by omega, by have := h.2; omega⟩

example : i32.mod (-2147483647) 2 ⇓ -1 ∧ i32.sub 2147483647 1 ⇓ 2147483646 :=
  ⟨(C101_exponent_arithmetic (by decide)).1,
    (C101_exponent_arithmetic (T := i32) (e := 2147483647) (by decide)).2.2 (by decide)⟩

end Ieme
