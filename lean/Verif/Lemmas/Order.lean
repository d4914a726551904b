import Verif.Model.Order
import Verif.Lemmas.Machine

/-!
# Left-to-right evaluation of the computations of `Verif/Model/Order.lean`
-/

namespace Ieme

open Res

namespace Comp

/-- The outcome of going from left to right. -/
def lr : {α : Type} → Comp α → Res α
  | _, .done r => r
  | _, .seq x f => x.lr >>= fun a => (f a).lr
  | _, .unseq x y => x.lr >>= fun a => y.lr >>= fun b => pure (a, b)

theorem outcome_spec {α : Type} (c : Comp α) :
    (∀ a w, c.Outcome (.ok a w) ↔ c.lr = .ok a w) ∧
    ((∃ k, c.Outcome (.fault k)) ↔ ∃ k, c.lr = .fault k) := by
  induction c with
  | done r =>
    refine ⟨fun a w => ?_, ?_⟩
    · simp [Outcome, lr, eq_comm]
    · simp [Outcome, lr, eq_comm]
  | seq x f ihx ihf =>
    obtain ⟨x1, x2⟩ := ihx
    refine ⟨fun b w => ?_, ?_⟩
    · simp only [Outcome, lr, bind_eq_ok, reduceCtorEq, and_false, exists_false, false_or]
      constructor
      · rintro ⟨a, w1, b', w2, h1, h2, h3⟩
        obtain ⟨rfl, rfl⟩ := Res.ok.inj h3
        exact ⟨a, w1, w2, (x1 a w1).1 h1, ((ihf a).1 b w2).1 h2, rfl⟩
      · rintro ⟨a, w1, w2, h1, h2, rfl⟩
        exact ⟨a, w1, b, w2, (x1 a w1).2 h1, ((ihf a).1 b w2).2 h2, rfl⟩
    · simp only [Outcome, lr, reduceCtorEq, and_false, exists_false, or_false]
      constructor
      · rintro ⟨k, ⟨k', h, -⟩ | ⟨a, w, k', h, h', -⟩⟩
        · obtain ⟨k2, h2⟩ := x2.1 ⟨k', h⟩
          exact ⟨k2, by rw [h2]; rfl⟩
        · obtain ⟨k2, h2⟩ := (ihf a).2.1 ⟨k', h'⟩
          refine ⟨k2, ?_⟩
          rw [(x1 a w).1 h, bind_def, Res.bind, h2]
      · rintro ⟨k, h⟩
        cases hx : x.lr with
        | fault k' =>
          obtain ⟨k2, h2⟩ := x2.2 ⟨k', hx⟩
          exact ⟨k2, .inl ⟨k2, h2, rfl⟩⟩
        | ok a w =>
          rw [hx, bind_def, Res.bind] at h
          cases hf : (f a).lr with
          | fault k' =>
            obtain ⟨k2, h2⟩ := (ihf a).2.2 ⟨k', hf⟩
            exact ⟨k2, .inr ⟨a, w, k2, (x1 a w).2 hx, h2, rfl⟩⟩
          | ok b w' => rw [hf] at h; cases h
  | unseq x y ihx ihy =>
    obtain ⟨x1, x2⟩ := ihx
    obtain ⟨y1, y2⟩ := ihy
    refine ⟨fun p w => ?_, ?_⟩
    · simp only [Outcome, lr, bind_eq_ok, reduceCtorEq, and_false, exists_false, false_or]
      constructor
      · rintro ⟨a, w1, b, w2, h1, h2, h3⟩
        obtain ⟨rfl, rfl⟩ := Res.ok.inj h3
        exact ⟨a, w1, w2, (x1 a w1).1 h1, ⟨b, w2, false, (y1 b w2).1 h2, rfl, by simp⟩, rfl⟩
      · rintro ⟨a, w1, w2, h1, ⟨b, w3, w4, h2, h3, rfl⟩, rfl⟩
        obtain ⟨rfl, rfl⟩ := Res.ok.inj h3
        exact ⟨a, w1, b, w3, (x1 a w1).2 h1, (y1 b w3).2 h2, by simp⟩
    · simp only [Outcome, lr, reduceCtorEq, and_false, exists_false, or_false]
      constructor
      · rintro ⟨k, ⟨k', h, -⟩ | ⟨k', h, -⟩⟩
        · obtain ⟨k2, h2⟩ := x2.1 ⟨k', h⟩
          exact ⟨k2, by rw [h2]; rfl⟩
        · obtain ⟨k2, h2⟩ := y2.1 ⟨k', h⟩
          cases hx : x.lr with
          | fault k3 => exact ⟨k3, rfl⟩
          | ok a w => exact ⟨k2, by rw [h2]; rfl⟩
      · rintro ⟨k, h⟩
        cases hx : x.lr with
        | fault k' =>
          obtain ⟨k2, h2⟩ := x2.2 ⟨k', hx⟩
          exact ⟨k2, .inl ⟨k2, h2, rfl⟩⟩
        | ok a w =>
          cases hy : y.lr with
          | fault k' =>
            obtain ⟨k2, h2⟩ := y2.2 ⟨k', hy⟩
            exact ⟨k2, .inr ⟨k2, h2, rfl⟩⟩
          | ok b w' => rw [hx, hy] at h; cases h

theorem exists_outcome {α : Type} (c : Comp α) : ∃ r, c.Outcome r := by
  obtain ⟨h1, h2⟩ := c.outcome_spec
  cases h : c.lr with
  | ok a w => exact ⟨_, (h1 a w).2 h⟩
  | fault k =>
    obtain ⟨k', h'⟩ := h2.2 ⟨k, h⟩
    exact ⟨_, h'⟩

theorem outcome_agree {α : Type} {c : Comp α} {x r : Res α} (h : c.lr = x) (hr : c.Outcome r) :
    r.Agree x := by
  obtain ⟨h1, h2⟩ := c.outcome_spec
  subst h
  cases r with
  | ok a w => exact .inl ((h1 a w).1 hr).symm
  | fault k =>
    obtain ⟨k', h'⟩ := h2.1 ⟨k, hr⟩
    exact .inr ⟨k, k', rfl, h'⟩

@[simp] theorem lr_seq {α β : Type} (x : Comp α) (f : α → Comp β) :
    (Comp.seq x f).lr = x.lr >>= fun a => (f a).lr := rfl

@[simp] theorem lr_done {α : Type} (r : Res α) : (Comp.done r).lr = r := rfl

theorem lr_ite {α : Type} (p : Prop) [Decidable p] (x y : Comp α) :
    (if p then x else y).lr = if p then x.lr else y.lr := by split <;> rfl

end Comp

namespace Src

@[simp] theorem lr_val {α : Type} (a : α) : (val a).lr = pure a := rfl

@[simp] theorem lr_bin {α β γ : Type} (f : α → β → Res γ) (x : Comp α) (y : Comp β) :
    (bin f x y).lr = x.lr >>= fun a => y.lr >>= fun b => f a b := by
  simp [bin, Comp.lr]

@[simp] theorem lr_call {α β γ : Type} (f : α → β → Comp γ) (x : Comp α) (y : Comp β) :
    (call f x y).lr = x.lr >>= fun a => y.lr >>= fun b => (f a b).lr := by
  simp [call, Comp.lr]

@[simp] theorem lr_rel (p : Int → Int → Bool) (x y : Comp Int) :
    (rel p x y).lr = x.lr >>= fun a => y.lr >>= fun b => pure (p a b) := by
  simp [rel]

@[simp] theorem lr_and (x : Comp Bool) (b : Bool) :
    (and x b).lr = x.lr >>= fun a => pure (a && b) := rfl

@[simp] theorem lr_not (x : Comp Bool) : (not x).lr = x.lr >>= fun a => pure (!a) := rfl

@[simp] theorem lr_braces (x y : Comp Int) :
    (braces x y).lr = x.lr >>= fun n => y.lr >>= fun d => pure ⟨n, d⟩ := rfl

@[simp] theorem lr_minus (T : IntTy) (x : Comp Int) :
    (minus T x).lr = x.lr >>= fun a => T.neg a := rfl

@[simp] theorem lr_castRep (T : IntTy) (x : Int) : (castRep T x).lr = T.conv x := rfl

@[simp] theorem lr_castRaw (T : IntTy) (f : Raw) : (castRaw T f).lr = f.conv T := rfl

variable (T : IntTy)

@[simp] theorem lr_mathAbs (v : Int) : (mathAbs T v).lr = Ieme.mathAbs T v := by
  simp [mathAbs, Ieme.mathAbs, Comp.lr_ite]

@[simp] theorem lr_isInteger (f : Raw) : (isInteger T f).lr = f.isInteger T := by
  simp only [isInteger, Raw.isInteger, Comp.lr_ite]
  split <;> simp [beq_eq_decide]

@[simp] theorem lr_isImproper (f : Raw) : (isImproper T f).lr = f.isImproper T := by
  simp [isImproper, isProper, Raw.isImproper, Raw.isProper]

@[simp] theorem lr_normalizeSigns (f : Raw) : (normalizeSigns T f).lr = f.normalizeSigns T := by
  simp [normalizeSigns, Raw.normalizeSigns, Comp.lr_ite]

@[simp] theorem lr_reduceIgnoreSigns (f : Raw) :
    (reduceIgnoreSigns T f).lr = f.reduceIgnoreSigns T := by
  simp [reduceIgnoreSigns, Raw.reduceIgnoreSigns, Comp.lr_ite]

@[simp] theorem lr_reduce (mode : ReduceMode) (f : Raw) : (reduce T mode f).lr = f.reduce T mode := by
  cases mode <;> simp [reduce, Raw.reduce, Raw.reduceNormalizeSigns]

@[simp] theorem lr_safeArith (op : ArithOp) (a : Args) :
    (safeArith T op a).lr = Safe.arith T op a := by
  cases op <;> cases a <;>
    simp [safeArith, safeScaled, Safe.arith, Safe.plusFF, Safe.plusFR, Safe.plusRF, Safe.minusFF,
      Safe.minusFR, Safe.minusRF, Safe.multipliesFF, Safe.multipliesFR, Safe.multipliesRF,
      Safe.dividesFF, Safe.dividesFR, Safe.dividesRF, Safe.modulusFF, Safe.modulusFR, Safe.modulusRF]

@[simp] theorem lr_fastArith (op : ArithOp) (a : Args) :
    (fastArith T op a).lr = Fast.arith T op a := by
  cases op <;> cases a <;>
    simp [fastArith, Fast.arith, Fast.plusFF, Fast.plusFR, Fast.plusRF, Fast.minusFF,
      Fast.minusFR, Fast.minusRF, Fast.multipliesFF, Fast.multipliesFR, Fast.multipliesRF,
      Fast.dividesFF, Fast.dividesFR, Fast.dividesRF, Fast.modulusFF, Fast.modulusFR, Fast.modulusRF]

@[simp] theorem lr_safeCmp (op : CmpOp) (a : Args) :
    (safeCmp T op a).lr = Safe.cmp T op a := by
  cases op <;> cases a <;>
    simp [safeCmp, safeCompare, safeScaled, Comp.lr_ite, Safe.cmp, Safe.equalToFF, Safe.equalToFR,
      Safe.equalToRF, Safe.notEqualToFF, Safe.notEqualToFR, Safe.notEqualToRF, Safe.lessFF,
      Safe.lessFR, Safe.lessRF, Safe.lessEqualFF, Safe.lessEqualFR, Safe.lessEqualRF,
      Safe.greaterFF, Safe.greaterFR, Safe.greaterRF, Safe.greaterEqualFF, Safe.greaterEqualFR,
      Safe.greaterEqualRF]

@[simp] theorem lr_fastCmp (op : CmpOp) (a : Args) :
    (fastCmp T op a).lr = Fast.cmp T op a := by
  cases op <;> cases a <;>
    simp [fastCmp, fastCompare, Fast.cmp, Fast.equalToFF, Fast.equalToFR,
      Fast.equalToRF, Fast.notEqualToFF, Fast.notEqualToFR, Fast.notEqualToRF, Fast.lessFF,
      Fast.lessFR, Fast.lessRF, Fast.lessEqualFF, Fast.lessEqualFR, Fast.lessEqualRF,
      Fast.greaterFF, Fast.greaterFR, Fast.greaterRF, Fast.greaterEqualFF, Fast.greaterEqualFR,
      Fast.greaterEqualRF]

@[simp] theorem lr_reduceArgs (mode : ReduceMode) (a : Args) :
    (reduceArgs T mode a).lr = a.reduce T mode := by
  cases a <;> simp [reduceArgs, Args.reduce]

@[simp] theorem lr_negate (o : Ops) (v : Raw) : (negate T o v).lr = o.negate T v := by
  induction o generalizing v with
  | safe => simp [negate, Ops.negate, Safe.negate]
  | fast => simp [negate, Ops.negate, Fast.negate]
  | reducedInput o m ih => simp [negate, Ops.negate, ih]
  | reducedOutput o m ih => simp [negate, Ops.negate, ih]

@[simp] theorem lr_opsArith (o : Ops) (op : ArithOp) (a : Args) :
    (opsArith T o op a).lr = o.arith T op a := by
  induction o generalizing a with
  | safe => simp [opsArith, Ops.arith]
  | fast => simp [opsArith, Ops.arith]
  | reducedInput o m ih => simp [opsArith, Ops.arith, ih]
  | reducedOutput o m ih => simp [opsArith, Ops.arith, ih]

@[simp] theorem lr_opsCmp (o : Ops) (op : CmpOp) (a : Args) :
    (opsCmp T o op a).lr = o.cmp T op a := by
  induction o generalizing a with
  | safe => simp [opsCmp, Ops.cmp]
  | fast => simp [opsCmp, Ops.cmp]
  | reducedInput o m ih => simp [opsCmp, Ops.cmp, ih]
  | reducedOutput o m ih => simp [opsCmp, Ops.cmp, ih]

@[simp] theorem lr_toCommon (L R : IntTy) (a : Args) :
    (toCommon L R a).lr = Fraction.toCommon L R a := by
  cases a <;> simp [toCommon, Fraction.toCommon, Comp.lr_ite]

@[simp] theorem lr_arith (L R : IntTy) (o : Ops) (op : ArithOp) (a : Args) :
    (arith L R o op a).lr = Fraction.arith L R o op a := by
  simp [arith, Fraction.arith]

@[simp] theorem lr_cmp (L R : IntTy) (o : Ops) (op : CmpOp) (a : Args) :
    (cmp L R o op a).lr = Fraction.cmp L R o op a := by
  simp [cmp, Fraction.cmp]

@[simp] theorem lr_expr (o : Ops) (e : Expr) : (expr T o e).lr = e.eval T o := by
  induction e with
  | lit f => simp [expr, Expr.eval]
  | neg e ih => simp [expr, Expr.eval, ih, Fraction.neg]
  | pos e ih => simp [expr, Expr.eval, ih, Fraction.pos]
  | ff op e1 e2 ih1 ih2 => simp [expr, Expr.eval, ih1, ih2]
  | fr op e n ih => simp [expr, Expr.eval, ih]
  | rf op n e ih => simp [expr, Expr.eval, ih]

@[simp] theorem lr_assignF (L R : IntTy) (o : Ops) (op : ArithOp) (l r : Raw) :
    (assignF L R o op l r).lr = Fraction.assignF L R o op l r := by
  simp [assignF, Fraction.assignF, Comp.lr_ite, Fraction.ofOther]

@[simp] theorem lr_assignR (L R : IntTy) (o : Ops) (op : ArithOp) (l : Raw) (r : Int) :
    (assignR L R o op l r).lr = Fraction.assignR L R o op l r := by
  simp [assignR, Fraction.assignR, Comp.lr_ite]

@[simp] theorem lr_abs (o : Ops) (f : Raw) : (abs T o f).lr = Fraction.abs T o f := by
  simp [abs, Fraction.abs, Comp.lr_ite, Fraction.neg]

@[simp] theorem lr_trunc (f : Raw) : (trunc T f).lr = Fraction.trunc T f := by
  simp [trunc, Fraction.trunc]

@[simp] theorem lr_ceil (f : Raw) : (ceil T f).lr = Fraction.ceil T f := by
  simp [ceil, Fraction.ceil, Comp.lr_ite]

@[simp] theorem lr_floor (f : Raw) : (floor T f).lr = Fraction.floor T f := by
  simp [floor, Fraction.floor, Comp.lr_ite]

@[simp] theorem lr_round (o : Ops) (f : Raw) : (round T o f).lr = Fraction.round T o f := by
  simp [round, Fraction.round, Comp.lr_ite, Fraction.mk]

@[simp] theorem lr_redenominate (o : Ops) (f : Raw) (d : Int) (mode : RoundMode) :
    (redenominate T o f d mode).lr = Fraction.redenominate T o f d mode := by
  cases mode <;>
    simp [redenominate, Fraction.redenominate, scaled, Fraction.truncRedenominate,
      Fraction.roundRedenominate, Fraction.ceilRedenominate, Fraction.floorRedenominate, Fraction.mk,
      Comp.lr_ite]
  all_goals split <;> simp

@[simp] theorem lr_toWhole (o : Ops) (f : Raw) (mode : RoundMode) :
    (toWhole T o f mode).lr = Fraction.toWhole T o f mode := by
  cases mode <;> simp [toWhole, Fraction.toWhole]

theorem lr_mathPow (base exponent : Int) :
    (mathPow T base exponent).lr = Ieme.mathPow T base exponent := by
  induction h : exponent.natAbs using Nat.strong_induction_on generalizing exponent with
  | _ n ih =>
    subst h
    rw [mathPow, Ieme.mathPow]
    split
    · rfl
    · rename_i h0
      split
      · rename_i h1
        have := ih _ (by
          rcases Int.lt_or_le exponent 0 with h | h
          · have h2 := Int.neg_tmod (-exponent) 2
            have h3 := Int.tmod_nonneg 2 (a := -exponent) (by omega)
            rw [Int.neg_neg] at h2
            omega
          · omega) (exponent - 1) rfl
        simp [this]
      · have := ih _ (by
          rw [Int.natAbs_tdiv]
          exact Nat.div_lt_self (by omega) (by decide)) (exponent.tdiv 2) rfl
        simp [this]

@[simp] theorem lr_fix (W F : IntTy) (o : Ops) (m : Mixed) : (fix W F o m).lr = m.fix W F o := by
  simp only [fix, Mixed.fix, Mixed.fixImproper, Comp.lr_seq, lr_isImproper, Comp.lr_ite]
  simp [Mixed.fixSigns, Comp.lr_ite]

@[simp] theorem lr_ofFraction (W F : IntTy) (o : Ops) (S : IntTy) (v : Raw) :
    (ofFraction W F o S v).lr = Mixed.ofFraction W F o S v := by
  simp [ofFraction, Mixed.ofFraction, Fraction.ofOther]

@[simp] theorem lr_asFraction (W F : IntTy) (o : Ops) (m : Mixed) :
    (asFraction W F o m).lr = m.asFraction W F o := by
  simp [asFraction, Mixed.asFraction, Fraction.ofOther]

@[simp] theorem lr_negMixed (W F : IntTy) (o : Ops) (m : Mixed) :
    (negMixed W F o m).lr = m.neg W F o := by
  simp [negMixed, Mixed.neg, Fraction.neg, Mixed.mk']

@[simp] theorem lr_addMixed (W₁ F₁ W₂ F₂ : IntTy) (o : Ops) (l r : Mixed) :
    (addMixed W₁ F₁ W₂ F₂ o l r).lr = Mixed.add W₁ F₁ W₂ F₂ o l r := by
  simp [addMixed, Mixed.add, Fraction.ofOther, Mixed.mk']

@[simp] theorem lr_addWhole (W₁ F W₂ : IntTy) (o : Ops) (l : Mixed) (r : Int) :
    (addWhole W₁ F W₂ o l r).lr = Mixed.addWhole W₁ F W₂ o l r := by
  simp [addWhole, Mixed.addWhole, Mixed.mk']

@[simp] theorem lr_mexpr (o : Ops) (e : MExpr) : (mexpr o e).lr = e.eval o := by
  induction e with
  | dflt W F => simp [mexpr, MExpr.eval]
  | mk W F w f => simp [mexpr, MExpr.eval, Mixed.mk']
  | ofFraction W F S f => simp [mexpr, MExpr.eval]
  | pos e ih => simp [mexpr, MExpr.eval, ih, Mixed.pos]
  | neg e ih => simp [mexpr, MExpr.eval, ih]
  | add l r ih1 ih2 => simp [mexpr, MExpr.eval, ih1, ih2]
  | addFraction e S f ih => simp [mexpr, MExpr.eval, ih, Mixed.addFraction]
  | addWhole e S n ih => simp [mexpr, MExpr.eval, ih]

@[simp] theorem lr_pow (base exponent : Int) :
    (pow T base exponent).lr = Fraction.pow T base exponent := by
  simp [pow, Fraction.pow, Comp.lr_ite, lr_mathPow, Fraction.mk]

@[simp] theorem lr_scanValue (o : Ops) (r : Parse.Scan) :
    (scanValue T o r).lr = Parse.scanValue T o r := by
  simp [scanValue, Parse.scanValue, lr_mathPow, Fraction.mk]

@[simp] theorem lr_parse (o : Ops) (s : List Char) : (parse T o s).lr = Parse.toFraction T o s := by
  simp only [parse, Parse.toFraction, Comp.lr_seq, Comp.lr_done]
  congr 1
  funext x
  cases x <;> simp

@[simp] theorem lr_assemble (o : Ops) (bias den : Int) (s e m : Nat) :
    (assemble T o bias den s e m).lr = FloatingPoint.assemble T o bias den s e m := by
  simp [assemble, FloatingPoint.assemble, FloatingPoint.signFactor, Comp.lr_ite, Fraction.mk]

@[simp] theorem lr_floatToFraction (E : FloatingPoint.Endian) (F : Fmt) (o : Ops) (bits : Nat) :
    (floatToFraction E F T o bits).lr = FloatingPoint.toFraction E F T o bits := by
  simp [floatToFraction, FloatingPoint.toFraction, Comp.lr, Comp.lr_ite]

end Src
end Ieme
