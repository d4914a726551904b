import Verif.Lemmas.Reduce
import Verif.Model.ReduceAny

/-!
# Operands that have become `0/0`
-/

namespace Ieme

open Res IntTy

/-- All fractions among the operands are `0/0`. -/
def Args.Blank : Args → Prop
  | .ff l r => l = ⟨0, 0⟩ ∧ r = ⟨0, 0⟩
  | .fr l _ => l = ⟨0, 0⟩
  | .rf _ r => r = ⟨0, 0⟩

namespace Args

variable {T : IntTy} {a : Args}

theorem reduce_blank (mode : ReduceMode) (h : a.Blank) : a.reduce T mode ⇓ a := by
  have e : (⟨0, 0⟩ : Raw).reduce T mode ⇓ ⟨0, 0⟩ := Raw.reduce_undefined mode rfl
  cases a with
  | ff l r =>
    obtain ⟨rfl, rfl⟩ := h
    simp only [Args.reduce, e, ok_bind_false, pure_def]
  | fr l r =>
    obtain rfl := h
    simp only [Args.reduce, e, ok_bind_false, pure_def]
  | rf l r =>
    obtain rfl := h
    simp only [Args.reduce, e, ok_bind_false, pure_def]

end Args

namespace Ops

variable {T : IntTy} {a : Args}

theorem cmp_blank (o : Ops) (op : CmpOp) (h : a.Blank) :
    o.cmp T op a ⇓ decide (op = .notEqualTo) := by
  have h0 : T.arith 0 = .ok 0 false := by
    unfold IntTy.arith
    rw [if_pos inRange_zero]
  induction o with
  | safe =>
    cases a with
    | ff l r =>
      obtain ⟨rfl, rfl⟩ := h
      cases op <;> rfl
    | fr l r =>
      obtain rfl := h
      cases op <;> simp [-bind_pure_comp, ok_bind_false, pure_def, Ops.cmp, Safe.cmp,
        Safe.equalToFR, Safe.notEqualToFR, Safe.lessFR,
        Safe.lessEqualFR, Safe.greaterFR, Safe.greaterEqualFR, Safe.lessRF, Safe.lessEqualRF,
        IntTy.mul, h0, Raw.isDefined]
    | rf l r =>
      obtain rfl := h
      cases op <;> simp [-bind_pure_comp, ok_bind_false, pure_def, Ops.cmp, Safe.cmp,
        Safe.equalToRF, Safe.notEqualToRF, Safe.equalToFR,
        Safe.notEqualToFR, Safe.lessFR, Safe.lessEqualFR, Safe.greaterRF, Safe.greaterEqualRF,
        Safe.lessRF, Safe.lessEqualRF, IntTy.mul, h0, Raw.isDefined]
  | fast =>
    cases a with
    | ff l r =>
      obtain ⟨rfl, rfl⟩ := h
      cases op <;> simp [-bind_pure_comp, ok_bind_false, pure_def, Ops.cmp, Fast.cmp,
        Fast.equalToFF, Fast.notEqualToFF, Fast.lessFF,
        Fast.lessEqualFF, Fast.greaterFF, Fast.greaterEqualFF, IntTy.mul, h0, Raw.isDefined]
    | fr l r =>
      obtain rfl := h
      cases op <;> simp [-bind_pure_comp, ok_bind_false, pure_def, Ops.cmp, Fast.cmp,
        Fast.equalToFR, Fast.notEqualToFR, Fast.lessFR,
        Fast.lessEqualFR, Fast.greaterFR, Fast.greaterEqualFR, Fast.lessRF, Fast.lessEqualRF,
        IntTy.mul, h0, Raw.isDefined]
    | rf l r =>
      obtain rfl := h
      cases op <;> simp [-bind_pure_comp, ok_bind_false, pure_def, Ops.cmp, Fast.cmp,
        Fast.equalToRF, Fast.notEqualToRF, Fast.equalToFR,
        Fast.lessFR, Fast.lessEqualFR, Fast.greaterRF, Fast.greaterEqualRF,
        Fast.lessRF, Fast.lessEqualRF, IntTy.mul, h0, Raw.isDefined]
  | reducedInput o mode ih =>
    simp only [Ops.cmp, Args.reduce_blank mode h, ok_bind_false, ih]
  | reducedOutput o mode ih => exact ih

theorem arith_blank {r : Raw} {w : Bool} (o : Ops) (op : ArithOp) (h : a.Blank)
    (hr : o.arith T op a = .ok r w) : r = ⟨0, 0⟩ ∧ w = false := by
  have h0 : T.arith 0 = .ok 0 false := by
    unfold IntTy.arith
    rw [if_pos inRange_zero]
  have hl : T.lcm 0 0 = .ok 0 false := by
    unfold IntTy.lcm
    simp [inRange_zero]
  have hd : T.div 0 0 = .fault .divByZero := rfl
  have hm : ∀ x, T.mod x 0 = .fault .divByZero := fun _ => rfl
  induction o generalizing r w with
  | safe =>
    cases a with
    | ff l r =>
      obtain ⟨rfl, rfl⟩ := h
      cases op <;> simp [-bind_pure_comp, ok_bind_false, pure_def, Ops.arith, Safe.arith,
        Safe.plusFF, Safe.minusFF, Safe.multipliesFF,
        Safe.dividesFF, Safe.modulusFF, hl, hd, hm, fault_bind, IntTy.mul, h0] at hr ⊢ <;>
        simp [← hr.1, ← hr.2]
    | fr l r =>
      obtain rfl := h
      cases op <;> simp [-bind_pure_comp, ok_bind_false, pure_def, Ops.arith, Safe.arith,
        Safe.plusFR, Safe.minusFR, Safe.multipliesFR,
        Safe.dividesFR, Safe.modulusFR, hm, fault_bind, IntTy.mul, IntTy.add, IntTy.sub, h0]
        at hr ⊢ <;> simp [← hr.1, ← hr.2]
    | rf l r =>
      obtain rfl := h
      cases op <;> simp [-bind_pure_comp, ok_bind_false, pure_def, Ops.arith, Safe.arith,
        Safe.plusRF, Safe.plusFR, Safe.minusRF,
        Safe.multipliesRF, Safe.multipliesFR, Safe.dividesRF, Safe.modulusRF, hm, fault_bind,
        IntTy.mul, IntTy.add, IntTy.sub, h0] at hr ⊢ <;> simp [← hr.1, ← hr.2]
  | fast =>
    cases a with
    | ff l r =>
      obtain ⟨rfl, rfl⟩ := h
      cases op <;> simp [-bind_pure_comp, ok_bind_false, pure_def, Ops.arith, Fast.arith,
        Fast.plusFF, Fast.minusFF, Fast.multipliesFF,
        Fast.dividesFF, Fast.modulusFF, hm, fault_bind, IntTy.mul, IntTy.add, IntTy.sub, h0]
        at hr ⊢ <;> simp [← hr.1, ← hr.2]
    | fr l r =>
      obtain rfl := h
      cases op <;> simp [-bind_pure_comp, ok_bind_false, pure_def, Ops.arith, Fast.arith,
        Fast.plusFR, Fast.minusFR, Fast.multipliesFR,
        Fast.dividesFR, Fast.modulusFR, hm, fault_bind, IntTy.mul, IntTy.add, IntTy.sub, h0]
        at hr ⊢ <;> simp [← hr.1, ← hr.2]
    | rf l r =>
      obtain rfl := h
      cases op <;> simp [-bind_pure_comp, ok_bind_false, pure_def, Ops.arith, Fast.arith,
        Fast.plusRF, Fast.plusFR, Fast.minusRF,
        Fast.multipliesRF, Fast.multipliesFR, Fast.dividesRF, Fast.modulusRF, hm, fault_bind,
        IntTy.mul, IntTy.add, IntTy.sub, h0] at hr ⊢ <;> simp [← hr.1, ← hr.2]
  | reducedInput o mode ih =>
    simp only [Ops.arith, Args.reduce_blank mode h, ok_bind_false] at hr
    exact ih hr
  | reducedOutput o mode ih =>
    simp only [Ops.arith, bind_eq_ok] at hr
    obtain ⟨s, w1, w2, hs, h2, rfl⟩ := hr
    obtain ⟨rfl, rfl⟩ := ih hs
    rw [Raw.reduce_undefined mode rfl] at h2
    simp only [Res.ok.injEq] at h2
    exact ⟨h2.1.symm, by simp [← h2.2]⟩

end Ops

theorem Args.reduceCast_blank {T : IntTy} {mode : Int} (a : Args) (h : ∀ m : ReduceMode, mode ≠
  m.number) :
    ∃ b : Args, a.reduceCast T mode ⇓ b ∧ b.Blank := by
  have e : ∀ f : Raw, f.reduceCast T mode ⇓ ⟨0, 0⟩ := fun f => by
    unfold Raw.reduceCast
    rw [if_neg (h .normalizeSigns), if_neg (h .ignoreSigns)]
    rfl
  cases a <;> simp [-bind_pure_comp, ok_bind_false, pure_def, Args.reduceCast, e, Args.Blank]

end Ieme
