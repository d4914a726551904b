import Verif.Lemmas.Range

/-!
# Every function returns values of its result type: property C91

These are statements about results with or without unsigned wrap-around.
-/

namespace Ieme

open Res IntTy

variable {T L R : IntTy} {o : Ops} {f r : Raw} {w : Bool} {n : ℤ}

/-- **C91** The operators between operands of types `L` and `R` return fractions over their
common type. -/
theorem C91_operators {op : ArithOp} {a : Args} (ha : a.HaveTypes L R)
    (h : Fraction.arith L R o op a = .ok r w) : r.InRange (IntTy.common L R) :=
  Fraction.arith_all ha _ _ h

example : (Args.fr ⟨1, 2⟩ (-1)).HaveTypes u32 i32 ∧
    Fraction.arith u32 i32 .safe .plus (.fr ⟨1, 2⟩ (-1)) = .ok ⟨4294967295, 2⟩ true :=
  ⟨⟨by decide, by decide⟩, by decide +kernel⟩

/-- **C91** Compound assignments, and sequences of them, leave a fraction over the type of the
left operand. -/
theorem C91_assignments {op : ArithOp} {l g : Raw} (hl : l.InRange L) :
    (g.InRange R → Fraction.assignF L R o op l g = .ok r w → r.InRange L) ∧
    (R.InRange n → Fraction.assignR L R o op l n = .ok r w → r.InRange L) ∧
    (∀ s : List Assign, (∀ a ∈ s, a.InRange L) → Assign.run L o l s = .ok r w → r.InRange L) :=
  ⟨fun h => Fraction.assignF_all hl h _ _, fun h => Fraction.assignR_all hl h _ _,
    fun _ h => Assign.run_all hl h _ _⟩

example : Fraction.assignF i32 i64 .defaults .plus ⟨1, 2⟩ ⟨4294967297, 3⟩ = .ok ⟨5, 6⟩ true := by
  decide +kernel

/-- **C91** So do whole expressions. -/
theorem C91_expressions {e : Expr} (he : e.LeavesInRange T) (h : e.eval T o = .ok r w) :
    r.InRange T :=
  Expr.eval_all he _ _ h

example : (Expr.ff .plus (.lit ⟨1, 2⟩) (.fr .divides (.lit ⟨1, 3⟩) 2)).LeavesInRange i32 ∧
    (Expr.ff .plus (.lit ⟨1, 2⟩) (.fr .divides (.lit ⟨1, 3⟩) 2)).eval i32 .defaults ⇓ ⟨2, 3⟩ :=
  ⟨⟨⟨by decide, by decide⟩, ⟨by decide, by decide⟩, by decide⟩, by decide +kernel⟩

/-- **C91** `abs`, the rounding functions, `redenominate`, `pow2` and `pow` return values of the
representation type, or fractions over it. -/
theorem C91_functions {mode : RoundMode} {d b e : ℤ} :
    (f.InRange T → Fraction.abs T o f = .ok r w → r.InRange T) ∧
    (Fraction.toWhole T o f mode = .ok n w → T.InRange n) ∧
    (T.InRange d → Fraction.redenominate T o f d mode = .ok r w → r.InRange T) ∧
    (Fraction.pow2 T e = .ok r w → r.InRange T) ∧ (Fraction.pow T b e = .ok r w → r.InRange T) :=
  ⟨fun h => Fraction.abs_all h _ _, Fraction.toWhole_all _ _,
    fun h => Fraction.redenominate_all h _ _, Fraction.pow2_all _ _, Fraction.pow_all _ _⟩

example : Fraction.pow u32 10 10 = .ok ⟨1410065408, 1⟩ true ∧
    Fraction.redenominate i32 .defaults ⟨22, 7⟩ 10 .floor ⇓ ⟨31, 10⟩ := by decide +kernel

/-- **C91** Every expression over mixed numbers returns a mixed number whose parts are values
of their types; converted to a fraction, one over the common type of both. -/
theorem C91_mixed_numbers {e : MExpr} {m : Mixed} {W F : IntTy} :
    (e.LeavesInRange → e.eval o = .ok m w → m.InRange e.ty.1 e.ty.2) ∧
    (m.asFraction W F o = .ok r w → r.InRange (IntTy.common W F)) :=
  ⟨fun h => MExpr.eval_all h _ _, Mixed.asFraction_all _ _⟩

example : (MExpr.neg (.mk i32 i64 2 ⟨7, 3⟩)).LeavesInRange ∧
    (MExpr.neg (.mk i32 i64 2 ⟨7, 3⟩)).eval .defaults ⇓ ⟨-4, ⟨-1, 3⟩⟩ :=
  ⟨⟨by decide, by decide⟩, by decide +kernel⟩

/-- **C91** Text, literals and floating-point numbers are converted to fractions over the
representation type. -/
theorem C91_conversions {s : List Char} {E : FloatingPoint.Endian} {G : Fmt} {bits : ℕ}
    {l : DenLit} :
    (Parse.toFraction T o s = .ok r w → r.InRange T) ∧
    (Parse.dec s = .ok r w → r.InRange i64) ∧
    (FloatingPoint.toFraction E G T o bits = .ok r w → r.InRange T) ∧
    (T.InRange n → DenLit.divRep T n l = .ok r w → r.InRange T) ∧
    (f.InRange T → DenLit.divFraction T o f l = .ok r w → r.InRange T) := by
  refine ⟨Parse.toFraction_all _ _, fun h => ?_, FloatingPoint.toFraction_all _ _, fun hn => ?_,
    fun hf => ?_⟩
  · exact Res.All.bind (P := Raw.InRange i64) Parse.toFraction_all (fun _ h =>
      .ite (fun _ => .pure h) fun _ => .fault) _ _ h
  · exact Res.All.bind conv_all (fun _ h => .pure ⟨hn, h⟩) _ _
  · exact Res.All.bind conv_all
      (fun _ h => Fraction.arith_self_all (a := .fr _ _) ⟨hf, h⟩) _ _

example : Parse.toFraction u32 .safe "42949672.96".toList = .ok ⟨0, 100⟩ true := by
  decide +kernel

/-- **C91** Durations converted to, and computed with, fractional counts have counts over the
representation type. -/
theorem C91_durations {p q : Chrono.Period} {c l : Chrono.Count} {op : ArithOp}
    (hc : c.InRange T) :
    (Chrono.convert T o p q c = .ok r w → r.InRange T) ∧
    (l.InRange T → Chrono.arith T o op p q c l = .ok r w → r.InRange T) ∧
    (f.InRange T → Chrono.assign T o op p q f c = .ok r w → r.InRange T) :=
  ⟨Chrono.convert_all hc _ _, fun h => Chrono.arith_all hc h _ _,
    fun h => Chrono.assign_all h hc _ _⟩

example : Chrono.convert i32 .defaults ⟨1, 1, by decide, by decide, by decide⟩
    ⟨1, 1, by decide, by decide, by decide⟩ (.int 4294967297) = .ok ⟨1, 1⟩ true := by
  decide +kernel

end Ieme
