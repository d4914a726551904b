import Verif.Lemmas.Closure
import Verif.Lemmas.Fraction
import Verif.Spec.MixedNumber
import Verif.Spec.Chrono
import Verif.Model.Parse
import Verif.Model.FloatingPoint
import Verif.Model.Duration
import Verif.Model.Literals
import Verif.Spec.Assign

/-!
# Results are values of their types
-/

namespace Ieme

open IntTy

/-- Whatever is returned, cleanly or not, satisfies `P`. -/
def Res.All {α : Type} (P : α → Prop) (x : Res α) : Prop := ∀ v w, x = .ok v w → P v

namespace Res.All

variable {α β : Type} {P : α → Prop} {Q : β → Prop} {x : Res α}

theorem bind {f : α → Res β} (h : x.All P) (hf : ∀ v, P v → (f v).All Q) : (x >>= f).All Q := by
  intro v w e
  obtain ⟨a, w1, w2, h1, h2, -⟩ := Res.bind_eq_ok.1 e
  exact hf a (h a w1 h1) v w2 h2

theorem bind' {f : α → Res β} (hf : ∀ v, (f v).All Q) : (x >>= f).All Q :=
  bind (P := fun _ => True) (fun _ _ _ => trivial) fun v _ => hf v

theorem pure {a : α} (h : P a) : (Pure.pure a : Res α).All P := by
  intro v w e
  obtain ⟨rfl, -⟩ := Res.pure_eq_ok.1 e
  exact h

theorem fault {k : Fault} : (Res.fault k : Res α).All P := by intro v w e; cases e

theorem ite {c : Prop} [Decidable c] {y : Res α} (h1 : c → x.All P) (h2 : ¬ c → y.All P) :
    (if c then x else y).All P := by split <;> [exact h1 ‹_›; exact h2 ‹_›]

end Res.All

variable {T L R W F : IntTy} {o : Ops} {f : Raw}

open Res

theorem add_all {a b : ℤ} : (T.add a b).All T.InRange := fun _ _ => add_inRange
theorem sub_all {a b : ℤ} : (T.sub a b).All T.InRange := fun _ _ => sub_inRange
theorem mul_all {a b : ℤ} : (T.mul a b).All T.InRange := fun _ _ => mul_inRange
theorem neg_all {a : ℤ} : (T.neg a).All T.InRange := fun _ _ => neg_inRange
theorem div_all {a b : ℤ} : (T.div a b).All T.InRange := fun _ _ => div_inRange
theorem conv_all {a : ℤ} : (T.conv a).All T.InRange := by
  intro v w h
  rcases conv_eq_ok.1 h with ⟨h1, rfl, -⟩ | ⟨-, rfl, -⟩
  · exact h1
  · exact T.wrap_inRange a
theorem Raw.conv_all : (f.conv T).All (Raw.InRange T) :=
  .bind Ieme.conv_all fun _ h1 => .bind Ieme.conv_all fun _ h2 => .pure ⟨h1, h2⟩
theorem Ops.arith_all {op : ArithOp} {a : Args} (ha : a.InRange T) :
    (o.arith T op a).All (Raw.InRange T) := fun _ _ => Ops.arith_inRange ha
theorem Ops.negate_all (hf : f.InRange T) : (o.negate T f).All (Raw.InRange T) :=
  fun _ _ => Ops.negate_inRange hf

namespace Fraction

theorem toCommon_all {a : Args} (ha : a.HaveTypes L R) :
    (toCommon L R a).All (Args.InRange (IntTy.common L R)) := by
  have raw : ∀ {S : IntTy} {f : Raw}, f.InRange S →
      (if S = IntTy.common L R then (Pure.pure f : Res Raw) else f.conv (IntTy.common L R)).All
        (Raw.InRange (IntTy.common L R)) := fun h =>
    .ite (fun e => .pure (e ▸ h)) fun _ => Raw.conv_all
  have rep : ∀ {S : IntTy} {x : ℤ}, S.InRange x →
      (if S = IntTy.common L R then (Pure.pure x : Res ℤ) else (IntTy.common L R).conv x).All
        (IntTy.common L R).InRange := fun h =>
    .ite (fun e => .pure (e ▸ h)) fun _ => Ieme.conv_all
  cases a with
  | ff l r => exact .bind (raw ha.1) fun _ h1 => .bind (raw ha.2) fun _ h2 => .pure ⟨h1, h2⟩
  | fr l r => exact .bind (raw ha.1) fun _ h1 => .bind (rep ha.2) fun _ h2 => .pure ⟨h1, h2⟩
  | rf l r => exact .bind (rep ha.1) fun _ h1 => .bind (raw ha.2) fun _ h2 => .pure ⟨h1, h2⟩

theorem arith_all {op : ArithOp} {a : Args} (ha : a.HaveTypes L R) :
    (arith L R o op a).All (Raw.InRange (IntTy.common L R)) :=
  .bind (toCommon_all ha) fun _ h => Ops.arith_all h

theorem arith_self_all {op : ArithOp} {a : Args} (ha : a.InRange T) :
    (arith T T o op a).All (Raw.InRange T) := by
  rw [Fraction.arith_self]; exact Ops.arith_all ha

theorem assignF_all {op : ArithOp} {l r : Raw} (hl : l.InRange L) (hr : r.InRange R) :
    (assignF L R o op l r).All (Raw.InRange L) := by
  refine .ite ?_ fun _ => .bind Raw.conv_all fun _ h => arith_self_all (a := .ff _ _) ⟨hl, h⟩
  rintro rfl
  exact arith_self_all (a := .ff _ _) ⟨hl, hr⟩

theorem assignR_all {op : ArithOp} {l : Raw} {r : ℤ} (hl : l.InRange L) (hr : R.InRange r) :
    (assignR L R o op l r).All (Raw.InRange L) := by
  refine .ite ?_ fun _ => .bind Ieme.conv_all fun _ h => arith_self_all (a := .fr _ _) ⟨hl, h⟩
  rintro rfl
  exact arith_self_all (a := .fr _ _) ⟨hl, hr⟩

theorem abs_all (hf : f.InRange T) : (abs T o f).All (Raw.InRange T) :=
  .ite (fun _ => .pure hf) fun _ => Ops.negate_all hf

theorem trunc_all : (trunc T f).All T.InRange := div_all

theorem ceil_all : (ceil T f).All T.InRange :=
  .bind trunc_all fun _ h => .bind' fun _ => .ite (fun _ => .pure h) fun _ => add_all

theorem floor_all : (floor T f).All T.InRange :=
  .bind trunc_all fun _ h => .bind' fun _ => .ite (fun _ => .pure h) fun _ => sub_all

theorem round_all : (round T o f).All T.InRange :=
  .bind floor_all fun _ h => .bind' fun _ => .bind' fun _ => .ite (fun _ => .pure h) fun _ => add_all

theorem toWhole_all {mode : RoundMode} : (toWhole T o f mode).All T.InRange := by
  cases mode <;> [exact trunc_all; exact ceil_all; exact floor_all; exact round_all;
    exact round_all]

theorem redenominate_all {mode : RoundMode} {d : ℤ} (hd : T.InRange d) :
    (redenominate T o f d mode).All (Raw.InRange T) := by
  have hr : (roundRedenominate T o f d).All (Raw.InRange T) :=
    .bind' fun _ => .bind round_all fun _ h => .pure ⟨h, hd⟩
  cases mode
  · exact .bind' fun _ => .bind trunc_all fun _ h => .pure ⟨h, hd⟩
  · exact .ite (fun _ => .bind' fun _ => .bind ceil_all fun _ h => .pure ⟨h, hd⟩)
      fun _ => .bind' fun _ => .bind' fun _ => .bind' fun _ => .bind neg_all fun _ h => .pure ⟨h, hd⟩
  · exact .ite (fun _ => .bind' fun _ => .bind floor_all fun _ h => .pure ⟨h, hd⟩)
      fun _ => .bind' fun _ => .bind' fun _ => .bind' fun _ => .bind neg_all fun _ h => .pure ⟨h, hd⟩
  · exact hr
  · exact hr

end Fraction

theorem mathPow2_all {e : ℤ} : (mathPow2 T e).All T.InRange :=
  .bind' fun _ => .bind' fun _ => conv_all

theorem mathPow_all {b e : ℤ} : (mathPow T b e).All T.InRange := by
  rw [mathPow]
  exact .ite (fun _ => .pure inRange_one) fun _ => .ite (fun _ => .bind' fun _ => mul_all)
    fun _ => .bind' fun _ => mul_all

theorem Fraction.pow2_all {e : ℤ} : (Fraction.pow2 T e).All (Raw.InRange T) :=
  .ite (fun _ => .bind' fun _ => .bind mathPow2_all fun _ h => .pure ⟨h, inRange_one⟩)
    fun _ => .bind' fun _ => .bind' fun _ => .bind mathPow2_all fun _ h => .pure ⟨inRange_one, h⟩

theorem Fraction.pow_all {b e : ℤ} : (Fraction.pow T b e).All (Raw.InRange T) :=
  .ite (fun _ => .bind' fun _ => .bind mathPow_all fun _ h => .pure ⟨h, inRange_one⟩)
    fun _ => .bind' fun _ => .bind' fun _ => .bind mathPow_all fun _ h => .pure ⟨inRange_one, h⟩

/-! ## Mixed numbers -/

namespace Mixed

variable {m : Mixed}

theorem fix_all (hm : m.InRange W F) : (m.fix W F o).All (Mixed.InRange W F) := by
  refine .bind (P := Mixed.InRange W F) ?_ fun m' hm' => ?_
  · exact .bind' fun _ => .ite (fun _ => .bind Fraction.trunc_all fun _ ht => .bind' fun _ =>
      .bind add_all fun _ h1 => .bind (Fraction.assignR_all hm.2 ht) fun _ h2 => .pure ⟨h1, h2⟩)
      fun _ => .pure hm
  · exact .ite (fun _ => .bind sub_all fun _ h1 => .bind
        (Fraction.arith_self_all (a := .rf _ _) ⟨inRange_one, hm'.2⟩) fun _ h2 => .pure ⟨h1, h2⟩)
      fun _ => .ite (fun _ => .bind add_all fun _ h1 => .bind neg_all fun _ hn => .bind
        (Fraction.arith_self_all (a := .rf _ _) ⟨hn, hm'.2⟩) fun _ h2 => .pure ⟨h1, h2⟩)
      fun _ => .pure hm'

theorem mk_all {w : ℤ} (hw : W.InRange w) (hf : f.InRange F) :
    (mk' W F o w f).All (Mixed.InRange W F) := fix_all ⟨hw, hf⟩

theorem ofFraction_all {S : IntTy} : (ofFraction W F o S f).All (Mixed.InRange W F) :=
  .bind' fun _ => .bind Ieme.conv_all fun _ h1 => .bind' fun _ => .bind' fun _ =>
    .bind Raw.conv_all fun _ h2 => .pure ⟨h1, h2⟩

theorem asFraction_all : (m.asFraction W F o).All (Raw.InRange (IntTy.common W F)) :=
  .bind Ieme.conv_all fun _ h1 => .bind Raw.conv_all fun _ h2 =>
    Fraction.arith_self_all (a := .rf _ _) ⟨h1, h2⟩

theorem neg_all (hm : m.InRange W F) : (m.neg W F o).All (Mixed.InRange W F) :=
  .bind Ieme.neg_all fun _ h1 => .bind (Ops.negate_all hm.2) fun _ h2 => mk_all h1 h2

theorem add_all {W₁ F₁ W₂ F₂ : IntTy} {l r : Mixed} : (add W₁ F₁ W₂ F₂ o l r).All
    (Mixed.InRange (IntTy.common W₁ W₂) (IntTy.common F₁ F₂)) :=
  .bind' fun _ => .bind' fun _ => .bind Ieme.add_all fun _ h1 => .bind Raw.conv_all fun _ h2 =>
    .bind Raw.conv_all fun _ h3 => .bind (Fraction.arith_self_all (a := .ff _ _) ⟨h2, h3⟩)
      fun _ h4 => mk_all h1 h4

theorem addFraction_all {S : IntTy} : (addFraction W F S o m f).All
    (Mixed.InRange (IntTy.common W S) (IntTy.common F S)) := .bind' fun _ => add_all

theorem addWhole_all {S : IntTy} {n : ℤ} (hf : m.frac.InRange F) : (addWhole W F S o m n).All
    (Mixed.InRange (IntTy.common W S) F) :=
  .bind' fun _ => .bind' fun _ => .bind Ieme.add_all fun _ h1 => mk_all h1 hf

end Mixed

theorem MExpr.eval_all : ∀ {e : MExpr}, e.LeavesInRange →
    (e.eval o).All (Mixed.InRange e.ty.1 e.ty.2)
  | .dflt _ _, _ => .pure ⟨inRange_zero, inRange_zero, inRange_one⟩
  | .mk _ _ _ _, h => Mixed.mk_all h.1 h.2
  | .ofFraction _ _ _ _, _ => Mixed.ofFraction_all
  | .pos e, h => .bind (eval_all (e := e) h) fun _ h' => .pure h'
  | .neg e, h => .bind (eval_all (e := e) h) fun _ h' => Mixed.neg_all h'
  | .add _ _, _ => .bind' fun _ => .bind' fun _ => Mixed.add_all
  | .addFraction _ _ _, _ => .bind' fun _ => Mixed.addFraction_all
  | .addWhole e _ _, h => .bind (eval_all (e := e) h) fun _ h' => Mixed.addWhole_all h'.2

theorem Expr.eval_all : ∀ {e : Expr}, e.LeavesInRange T → (e.eval T o).All (Raw.InRange T)
  | .lit _, h => .pure h
  | .neg e, h => .bind (eval_all (e := e) h) fun _ h' => Ops.negate_all h'
  | .pos e, h => .bind (eval_all (e := e) h) fun _ h' => .pure h'
  | .ff _ e1 e2, h => .bind (eval_all (e := e1) h.1) fun _ h1 => .bind (eval_all (e := e2) h.2)
      fun _ h2 => Fraction.arith_self_all (a := .ff _ _) ⟨h1, h2⟩
  | .fr _ e _, h => .bind (eval_all (e := e) h.1) fun _ h1 =>
      Fraction.arith_self_all (a := .fr _ _) ⟨h1, h.2⟩
  | .rf _ _ e, h => .bind (eval_all (e := e) h.2) fun _ h2 =>
      Fraction.arith_self_all (a := .rf _ _) ⟨h.1, h2⟩

theorem Assign.run_all : ∀ {s : List Assign} {f : Raw}, f.InRange T → (∀ a ∈ s, a.InRange T) →
    (Assign.run T o f s).All (Raw.InRange T)
  | [], _, hf, _ => .pure hf
  | a :: s, f, hf, h => by
    refine .bind (P := Raw.InRange T) ?_ fun _ h' =>
      run_all (s := s) h' fun b hb => h b (List.mem_cons_of_mem _ hb)
    have ha := h a List.mem_cons_self
    cases a with
    | frac op r => exact Fraction.assignF_all hf ha
    | int op r => exact Fraction.assignR_all hf ha

/-! ## Literals, floating point, durations -/

theorem Parse.digitLoop_all {base : ℤ} : ∀ {s : List Char} {r p : ℤ}, T.InRange r →
    (Parse.digitLoop T base s r p).All T.InRange
  | [], _, _, h => .pure h
  | _ :: s, _, _, h => .ite (fun _ => digitLoop_all (s := s) h) fun _ => .bind' fun _ =>
      .bind' fun _ => .bind add_all fun _ h' => .bind' fun _ => digitLoop_all (s := s) h'

theorem Parse.digits_all {base : ℤ} {s : List Char} :
    (Parse.digitSequenceToInt T s base).All T.InRange := digitLoop_all inRange_zero

theorem Parse.scanValue_all {r : Parse.Scan} : (Parse.scanValue T o r).All (Raw.InRange T) :=
  .bind' fun _ => .bind digits_all fun _ h1 => .bind digits_all fun _ h2 => .bind' fun _ =>
    .bind mathPow_all fun _ h3 => .bind' fun _ => .bind' fun _ =>
    .bind (Fraction.arith_self_all (a := .rf _ _) ⟨h1, h2, h3⟩) fun _ h4 =>
    .bind Fraction.pow_all fun _ h5 => Fraction.arith_self_all (a := .ff _ _) ⟨h4, h5⟩

theorem Parse.toFraction_all {s : List Char} : (Parse.toFraction T o s).All (Raw.InRange T) := by
  refine .bind' fun v => ?_
  cases v
  · exact .pure ⟨inRange_zero, inRange_zero⟩
  · exact scanValue_all

namespace FloatingPoint

theorem assemble_all {bias den : ℤ} {s e m : ℕ} (hd : T.InRange den) :
    (assemble T o bias den s e m).All (Raw.InRange T) := by
  refine .bind (P := T.InRange) (.ite (fun _ => .pure inRange_one) fun _ => neg_all) fun _ h1 => ?_
  exact .bind' fun _ => .bind' fun _ => .bind conv_all fun _ h2 =>
    .bind (Fraction.arith_self_all (a := .rf _ _) ⟨inRange_one, h2, hd⟩) fun _ h3 =>
    .bind (Fraction.arith_self_all (a := .rf _ _) ⟨h1, h3⟩) fun _ h4 =>
    .bind Fraction.pow2_all fun _ h5 => Fraction.arith_self_all (a := .ff _ _) ⟨h4, h5⟩

theorem constant_all {α : Type} {P : α → Prop} {x : Res α} (h : x.All P) : (constant x).All P := by
  cases x with
  | ok a w => exact h
  | fault k => exact .fault

theorem toFraction_all {E : Endian} {G : Fmt} {bits : ℕ} :
    (toFraction E G T o bits).All (Raw.InRange T) := by
  refine .bind' fun _ => .bind' fun _ => .bind (P := T.InRange)
    (constant_all (.bind' fun _ => mathPow2_all)) fun _ hd => ?_
  exact .bind' fun _ => .bind' fun _ => .bind' fun _ => .bind' fun _ =>
    .ite (fun _ => .pure ⟨inRange_zero, inRange_zero⟩) fun _ => assemble_all hd

end FloatingPoint

namespace Chrono

variable {p q : Period} {c l r : Count}

theorem factor_all {n : ℤ} : (factor T n).All (Raw.InRange T) :=
  .bind conv_all fun _ h => .pure ⟨h, inRange_one⟩

theorem cast_all (hc : c.InRange T) : (c.cast T).All (Raw.InRange T) := by
  cases c with
  | int n => exact factor_all
  | frac f => exact .pure hc

theorem durationCast_all (hc : c.InRange T) : (durationCast T o p q c).All (Raw.InRange T) := by
  unfold durationCast
  cases ratioDivide p q with
  | none => exact .fault
  | some z =>
    exact .bind (cast_all hc) fun _ h => .ite (fun _ => .pure h) fun _ =>
      .ite (fun _ => .bind factor_all fun _ h1 => Fraction.arith_self_all (a := .ff _ _) ⟨h, h1⟩)
      fun _ =>
      .ite (fun _ => .bind factor_all fun _ h1 => Fraction.arith_self_all (a := .ff _ _) ⟨h, h1⟩)
      fun _ => .bind factor_all fun _ h1 =>
        .bind (Fraction.arith_self_all (a := .ff _ _) ⟨h, h1⟩) fun _ h2 =>
        .bind factor_all fun _ h3 => Fraction.arith_self_all (a := .ff _ _) ⟨h2, h3⟩

theorem convert_all (hc : c.InRange T) : (convert T o p q c).All (Raw.InRange T) := by
  unfold convert
  cases ratioDivide p q with
  | none => exact .fault
  | some z => exact .ite (fun _ => durationCast_all hc) fun _ => .fault

theorem common_all (hl : l.InRange T) (hr : r.InRange T) :
    (common T o p q l r).All fun z => z.1.InRange T ∧ z.2.InRange T := by
  unfold Chrono.common
  cases commonPeriod p q with
  | none => exact .fault
  | some c =>
    exact .ite (fun _ => .fault) fun _ => .bind (convert_all hl) fun _ h1 =>
      .bind (convert_all hr) fun _ h2 => .pure ⟨h1, h2⟩

theorem arith_all {op : ArithOp} (hl : l.InRange T) (hr : r.InRange T) :
    (Chrono.arith T o op p q l r).All (Raw.InRange T) :=
  .bind (common_all hl hr) fun _ h => Fraction.arith_self_all (a := .ff _ _) h

theorem assign_all {op : ArithOp} (hf : f.InRange T) (hr : r.InRange T) :
    (assign T o op p q f r).All (Raw.InRange T) :=
  .bind (convert_all hr) fun _ h => Fraction.assignF_all hf h

end Chrono

end Ieme
