import Verif.Lemmas.Closure
import Verif.Model.FractionMath

/-!
# Arithmetic never throws
-/

namespace Ieme

/-- The evaluation does not end in an exception and the program is well-formed. -/
def Res.NoThrow {α : Type} (x : Res α) : Prop :=
  ∀ k, x = .fault k → k ≠ .thrown ∧ k ≠ .illFormed

namespace Res

variable {α β : Type}

theorem NoThrow.pure (a : α) : (Pure.pure a : Res α).NoThrow := by
  intro k h; cases h

theorem NoThrow.ne {x : Res α} (h : x.NoThrow) : x ≠ .fault .thrown := fun e => (h _ e).1 rfl

theorem NoThrow.bind {x : Res α} {f : α → Res β} (h : x.NoThrow) (h' : ∀ a, (f a).NoThrow) :
    (x >>= f).NoThrow := by
  cases x with
  | fault k => intro k' he; rw [Res.fault_bind] at he; cases he; exact h k rfl
  | ok a w =>
    have := h' a
    intro k' he
    rw [Res.bind_def, Res.bind] at he
    cases hfa : f a with
    | fault k => rw [hfa] at he this; cases he; exact this _ rfl
    | ok b w => rw [hfa] at he; cases he

end Res

open Res

variable {T : IntTy}

theorem arith_noThrow (x : ℤ) : (T.arith x).NoThrow := by
  unfold IntTy.arith; intro k h; split at h <;> [skip; split at h] <;> cases h <;> decide

theorem conv_noThrow (x : ℤ) : (T.conv x).NoThrow := by
  unfold IntTy.conv; intro k h; split at h <;> cases h <;> decide

theorem div_noThrow (a b : ℤ) : (T.div a b).NoThrow := by
  unfold IntTy.div; intro k h; split at h <;> [skip; split at h] <;> cases h <;> decide

theorem mod_noThrow (a b : ℤ) : (T.mod a b).NoThrow := by
  unfold IntTy.mod; intro k h; split at h <;> [skip; split at h] <;> cases h <;> decide

theorem gcd_noThrow (a b : ℤ) : (T.gcd a b).NoThrow := by
  unfold IntTy.gcd; intro k h; split at h <;> cases h <;> decide

theorem lcm_noThrow (a b : ℤ) : (T.lcm a b).NoThrow := by
  unfold IntTy.lcm; intro k h; split at h <;> cases h <;> decide

/-- Closes `NoThrow` goals about straight-line code. -/
macro "nothrow" : tactic => `(tactic|
  repeat' first
    | exact NoThrow.pure _
    | exact arith_noThrow _
    | exact conv_noThrow _
    | exact div_noThrow _ _
    | exact mod_noThrow _ _
    | exact lcm_noThrow _ _
    | exact gcd_noThrow _ _
    | (refine NoThrow.bind ?_ fun _ => ?_)
    | split)

theorem Raw.reduce_noThrow (mode : ReduceMode) (f : Raw) : (f.reduce T mode).NoThrow := by
  cases mode <;>
    simp only [Raw.reduce, Raw.reduceNormalizeSigns, Raw.reduceIgnoreSigns, Raw.normalizeSigns,
      IntTy.neg] <;> nothrow

theorem Args.reduce_noThrow (mode : ReduceMode) (a : Args) : (a.reduce T mode).NoThrow := by
  cases a <;> simp only [Args.reduce] <;>
    repeat' first
      | exact NoThrow.pure _
      | exact Raw.reduce_noThrow _ _
      | (refine NoThrow.bind ?_ fun _ => ?_)

theorem Safe.arith_noThrow (op : ArithOp) (a : Args) : (Safe.arith T op a).NoThrow := by
  cases a <;> cases op <;>
    simp only [Safe.arith, Safe.plusFF, Safe.plusFR, Safe.plusRF, Safe.minusFF, Safe.minusFR,
      Safe.minusRF, Safe.multipliesFF, Safe.multipliesFR, Safe.multipliesRF, Safe.dividesFF,
      Safe.dividesFR, Safe.dividesRF, Safe.modulusFF, Safe.modulusFR, Safe.modulusRF, IntTy.add,
      IntTy.sub, IntTy.mul] <;> nothrow

theorem Fast.arith_noThrow (op : ArithOp) (a : Args) : (Fast.arith T op a).NoThrow := by
  cases a <;> cases op <;>
    simp only [Fast.arith, Fast.plusFF, Fast.plusFR, Fast.plusRF, Fast.minusFF, Fast.minusFR,
      Fast.minusRF, Fast.multipliesFF, Fast.multipliesFR, Fast.multipliesRF, Fast.dividesFF,
      Fast.dividesFR, Fast.dividesRF, Fast.modulusFF, Fast.modulusFR, Fast.modulusRF, IntTy.add,
      IntTy.sub, IntTy.mul] <;> nothrow

theorem Ops.arith_noThrow (o : Ops) (op : ArithOp) (a : Args) : (o.arith T op a).NoThrow := by
  induction o generalizing a with
  | safe => exact Safe.arith_noThrow op a
  | fast => exact Fast.arith_noThrow op a
  | reducedInput o mode ih => exact (Args.reduce_noThrow mode a).bind fun _ => ih _
  | reducedOutput o mode ih => exact (ih a).bind fun _ => Raw.reduce_noThrow mode _

theorem Raw.conv_noThrow (f : Raw) : (f.conv T).NoThrow := by
  unfold Raw.conv; nothrow

theorem Fraction.arith_noThrow (L R : IntTy) (o : Ops) (op : ArithOp) (a : Args) :
    (Fraction.arith L R o op a).NoThrow := by
  unfold Fraction.arith Fraction.toCommon
  refine NoThrow.bind ?_ fun _ => Ops.arith_noThrow o op _
  cases a <;> simp only <;>
    repeat' first
      | exact NoThrow.pure _
      | exact Raw.conv_noThrow _
      | exact Ieme.conv_noThrow _
      | (refine NoThrow.bind ?_ fun _ => ?_)
      | split

theorem mathPow_noThrow (b e : ℤ) : (mathPow T b e).NoThrow := by
  induction e using mathPow.induct with
  | case1 => rw [mathPow]; exact NoThrow.pure _
  | case2 e h0 h1 ih =>
    rw [mathPow, if_neg h0, if_pos h1]
    exact ih.bind fun _ => Ieme.arith_noThrow _
  | case3 e h0 h1 ih =>
    rw [mathPow, if_neg h0, if_neg h1]
    exact ih.bind fun _ => Ieme.arith_noThrow _

theorem Fraction.pow_noThrow (b e : ℤ) : (Fraction.pow T b e).NoThrow := by
  unfold Fraction.pow
  split
  · exact (Ieme.conv_noThrow _).bind fun _ => (mathPow_noThrow _ _).bind fun _ => NoThrow.pure _
  · exact (Ieme.arith_noThrow _).bind fun _ => (Ieme.conv_noThrow _).bind fun _ =>
      (mathPow_noThrow _ _).bind fun _ => NoThrow.pure _

end Ieme
