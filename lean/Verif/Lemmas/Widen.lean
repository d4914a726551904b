import Verif.Lemmas.Range
import Verif.Lemmas.Pow
import Verif.Model.Parse
import Verif.Model.FloatingPoint
import Verif.Model.Duration
import Verif.Model.Literals
import Verif.Spec.Assign
import Verif.Spec.Widen

/-!
# Clean results survive a change to a wider type
-/

namespace Ieme

open IntTy Res

/-- Whatever `x` returns cleanly, `y` returns cleanly. -/
def Res.Sim {α : Type} (x y : Res α) : Prop := ∀ r, x ⇓ r → y ⇓ r

namespace Res.Sim

variable {α β : Type} {x y : Res α}

theorem refl (x : Res α) : x.Sim x := fun _ h => h

theorem bind {f g : α → Res β} (h : x.Sim y) (hf : ∀ v, (f v).Sim (g v)) :
    (x >>= f).Sim (y >>= g) := by
  intro r e
  obtain ⟨a, h1, h2⟩ := bind_eq_clean.1 e
  exact bind_eq_clean.2 ⟨a, h a h1, hf a r h2⟩

theorem ite {c : Prop} [Decidable c] {x' y' : Res α} (h : x.Sim y) (h' : x'.Sim y') :
    (if c then x else x').Sim (if c then y else y') := by split <;> assumption

end Res.Sim

variable {T T' U U' : IntTy}

namespace IntTy.Within

theorem refl (T : IntTy) : T.Within T := fun _ h => h

theorem trans {T₃ : IntTy} (h : T.Within T') (h' : T'.Within T₃) : T.Within T₃ :=
  fun x hx => h' x (h x hx)

theorem raw (h : T.Within T') {f : Raw} (hf : f.InRange T) : f.InRange T' := ⟨h _ hf.1, h _ hf.2⟩

theorem max_le (h : T.Within T') : T.max ≤ T'.max :=
  (h T.max ⟨T.min_le_zero.trans T.max_pos.le, le_refl _⟩).2

theorem min_le (h : T.Within T') : T'.min ≤ T.min :=
  (h T.min ⟨le_refl _, T.min_le_zero.trans T.max_pos.le⟩).1

theorem bits_le (h : T.Within T') : T.bits ≤ T'.bits := by
  by_contra hc
  push Not at hc
  have h1 := h.max_le
  have h2 := h.min_le
  have w := T.wide
  have w' := T'.wide
  have p : (2 : ℤ) ^ (T'.bits) ≤ 2 ^ (T.bits - 1) := pow_le_pow_right₀ (by decide) (by omega)
  have q : (2 : ℤ) ^ (T'.bits) = 2 * 2 ^ (T'.bits - 1) := by
    rw [← pow_succ']; congr 1; omega
  have q' : (2 : ℤ) ^ (T.bits) = 2 * 2 ^ (T.bits - 1) := by
    rw [← pow_succ']; congr 1; omega
  have q0 : (0 : ℤ) < 2 ^ (T'.bits - 1) := by positivity
  unfold IntTy.max IntTy.min at *
  push_cast at *
  split_ifs at h1 h2 <;> omega

theorem unsigned (h : T.Within T') : T.toUnsigned.Within T'.toUnsigned := by
  intro x hx
  have p : (2 : ℤ) ^ (T.bits) ≤ 2 ^ (T'.bits) := pow_le_pow_right₀ (by decide) h.bits_le
  simp only [IntTy.InRange, IntTy.max, IntTy.min, IntTy.toUnsigned, Bool.false_eq_true,
    if_false] at hx ⊢
  push_cast at hx ⊢
  omega

theorem add (h : T.Within T') (a b : ℤ) : (T.add a b).Sim (T'.add a b) := fun _ e => by
  rw [add_clean] at e ⊢; exact ⟨h _ e.1, e.2⟩
theorem sub (h : T.Within T') (a b : ℤ) : (T.sub a b).Sim (T'.sub a b) := fun _ e => by
  rw [sub_clean] at e ⊢; exact ⟨h _ e.1, e.2⟩
theorem mul (h : T.Within T') (a b : ℤ) : (T.mul a b).Sim (T'.mul a b) := fun _ e => by
  rw [mul_clean] at e ⊢; exact ⟨h _ e.1, e.2⟩
theorem neg (h : T.Within T') (a : ℤ) : (T.neg a).Sim (T'.neg a) := fun _ e => by
  rw [neg_clean] at e ⊢; exact ⟨h _ e.1, e.2⟩
theorem div (h : T.Within T') (a b : ℤ) : (T.div a b).Sim (T'.div a b) := fun _ e => by
  rw [div_clean] at e ⊢; exact ⟨e.1, h _ e.2.1, e.2.2⟩
theorem mod (h : T.Within T') (a b : ℤ) : (T.mod a b).Sim (T'.mod a b) := fun _ e => by
  rw [mod_clean] at e ⊢; exact ⟨e.1, h _ e.2.1, e.2.2⟩
theorem conv (h : T.Within T') (a : ℤ) : (T.conv a).Sim (T'.conv a) := fun _ e => by
  rw [conv_clean] at e ⊢; exact ⟨h _ e.1, e.2⟩
theorem gcd (h : T.Within T') (a b : ℤ) : (T.gcd a b).Sim (T'.gcd a b) := by
  intro r e
  unfold IntTy.gcd at *
  split_ifs at e with h1
  rw [if_pos ⟨h _ h1.1, h _ h1.2⟩, e]
theorem lcm (h : T.Within T') (a b : ℤ) : (T.lcm a b).Sim (T'.lcm a b) := by
  intro r e
  unfold IntTy.lcm at *
  split_ifs at e with h1
  rw [if_pos ⟨h _ h1.1, h _ h1.2.1, h _ h1.2.2⟩, e]
theorem shl (h : T.Within T') (a n : ℤ) : (T.shl a n).Sim (T'.shl a n) := by
  intro r e
  have := h.bits_le
  unfold IntTy.shl at *
  split_ifs at e with h1
  rw [if_pos ⟨h1.1, by omega⟩]
  rw [arith_clean] at e ⊢; exact ⟨h _ e.1, e.2⟩

end IntTy.Within

/-- One step of a proof that two computations with the same text simulate each other. -/
macro "sim_step" h:term : tactic => `(tactic| first
  | exact Res.Sim.refl _
  | exact IntTy.Within.add $h _ _ | exact IntTy.Within.sub $h _ _ | exact IntTy.Within.mul $h _ _
  | exact IntTy.Within.neg $h _ | exact IntTy.Within.div $h _ _ | exact IntTy.Within.mod $h _ _
  | exact IntTy.Within.conv $h _ | exact IntTy.Within.gcd $h _ _ | exact IntTy.Within.lcm $h _ _
  | refine Res.Sim.bind ?_ fun _ => ?_
  | refine Res.Sim.ite ?_ ?_)

variable (h : T.Within T')
include h

theorem Raw.conv_sim (f : Raw) : (f.conv T).Sim (f.conv T') := by
  unfold Raw.conv; repeat sim_step h

theorem mathAbs_sim (v : ℤ) : (mathAbs T v).Sim (mathAbs T' v) := by
  unfold mathAbs; repeat sim_step h

namespace Raw

theorem isInteger_sim (f : Raw) : (f.isInteger T).Sim (f.isInteger T') := by
  unfold isInteger; repeat sim_step h
theorem isUnitFraction_sim (f : Raw) : (f.isUnitFraction T).Sim (f.isUnitFraction T') := by
  unfold isUnitFraction; repeat sim_step h
theorem isReducedIgnoreSigns_sim (f : Raw) :
    (f.isReducedIgnoreSigns T).Sim (f.isReducedIgnoreSigns T') := by
  unfold isReducedIgnoreSigns; repeat sim_step h
theorem isReduced_sim (f : Raw) : (f.isReduced T).Sim (f.isReduced T') :=
  .ite (isReducedIgnoreSigns_sim h f) (.refl _)
theorem isProper_sim (f : Raw) : (f.isProper T).Sim (f.isProper T') :=
  .bind (mathAbs_sim h _) fun _ => .bind (mathAbs_sim h _) fun _ => .refl _
theorem isImproper_sim (f : Raw) : (f.isImproper T).Sim (f.isImproper T') :=
  .bind (isProper_sim h f) fun _ => .refl _
theorem normalizeSigns_sim (f : Raw) : (f.normalizeSigns T).Sim (f.normalizeSigns T') := by
  unfold normalizeSigns; repeat sim_step h
theorem reduceIgnoreSigns_sim (f : Raw) :
    (f.reduceIgnoreSigns T).Sim (f.reduceIgnoreSigns T') := by
  unfold reduceIgnoreSigns; repeat sim_step h
theorem reduce_sim (mode : ReduceMode) (f : Raw) : (f.reduce T mode).Sim (f.reduce T' mode) := by
  cases mode
  · exact .bind (reduceIgnoreSigns_sim h f) fun g => normalizeSigns_sim h g
  · exact reduceIgnoreSigns_sim h f

end Raw

theorem Args.reduce_sim (mode : ReduceMode) (a : Args) : (a.reduce T mode).Sim (a.reduce T' mode) := by
  cases a
  · exact .bind (Raw.reduce_sim h _ _) fun _ => .bind (Raw.reduce_sim h _ _) fun _ => .refl _
  · exact .bind (Raw.reduce_sim h _ _) fun _ => .refl _
  · exact .bind (Raw.reduce_sim h _ _) fun _ => .refl _

theorem Safe.arith_sim (op : ArithOp) (a : Args) : (Safe.arith T op a).Sim (Safe.arith T' op a) := by
  cases op <;> cases a <;>
    simp only [Safe.arith, Safe.plusFF, Safe.plusFR, Safe.plusRF, Safe.minusFF, Safe.minusFR,
      Safe.minusRF, Safe.multipliesFF, Safe.multipliesFR, Safe.multipliesRF, Safe.dividesFF,
      Safe.dividesFR, Safe.dividesRF, Safe.modulusFF, Safe.modulusFR, Safe.modulusRF] <;>
    repeat sim_step h

theorem Fast.arith_sim (op : ArithOp) (a : Args) : (Fast.arith T op a).Sim (Fast.arith T' op a) := by
  cases op <;> cases a <;>
    simp only [Fast.arith, Fast.plusFF, Fast.plusFR, Fast.plusRF, Fast.minusFF, Fast.minusFR,
      Fast.minusRF, Fast.multipliesFF, Fast.multipliesFR, Fast.multipliesRF, Fast.dividesFF,
      Fast.dividesFR, Fast.dividesRF, Fast.modulusFF, Fast.modulusFR, Fast.modulusRF] <;>
    repeat sim_step h

theorem Safe.cmp_sim (op : CmpOp) (a : Args) : (Safe.cmp T op a).Sim (Safe.cmp T' op a) := by
  cases op <;> cases a <;>
    simp only [Safe.cmp, Safe.equalToFF, Safe.equalToFR, Safe.equalToRF, Safe.notEqualToFF,
      Safe.notEqualToFR, Safe.notEqualToRF, Safe.lessFF, Safe.lessFR, Safe.lessRF,
      Safe.lessEqualFF, Safe.lessEqualFR, Safe.lessEqualRF, Safe.greaterFF, Safe.greaterFR,
      Safe.greaterRF, Safe.greaterEqualFF, Safe.greaterEqualFR, Safe.greaterEqualRF] <;>
    repeat sim_step h

theorem Fast.cmp_sim (op : CmpOp) (a : Args) : (Fast.cmp T op a).Sim (Fast.cmp T' op a) := by
  cases op <;> cases a <;>
    simp only [Fast.cmp, Fast.equalToFF, Fast.equalToFR, Fast.equalToRF, Fast.notEqualToFF,
      Fast.notEqualToFR, Fast.notEqualToRF, Fast.lessFF, Fast.lessFR, Fast.lessRF,
      Fast.lessEqualFF, Fast.lessEqualFR, Fast.lessEqualRF, Fast.greaterFF, Fast.greaterFR,
      Fast.greaterRF, Fast.greaterEqualFF, Fast.greaterEqualFR, Fast.greaterEqualRF] <;>
    repeat sim_step h

namespace Ops

theorem negate_sim (o : Ops) (f : Raw) : (o.negate T f).Sim (o.negate T' f) := by
  induction o generalizing f with
  | safe => simp only [Ops.negate, Safe.negate]; repeat sim_step h
  | fast => simp only [Ops.negate, Fast.negate]; repeat sim_step h
  | reducedInput o m ih => exact .bind (Raw.reduce_sim h _ _) fun v => ih v
  | reducedOutput o m ih => exact .bind (ih f) fun v => Raw.reduce_sim h _ _

theorem arith_sim (o : Ops) (op : ArithOp) (a : Args) : (o.arith T op a).Sim (o.arith T' op a) := by
  induction o generalizing a with
  | safe => exact Safe.arith_sim h op a
  | fast => exact Fast.arith_sim h op a
  | reducedInput o m ih => exact .bind (Args.reduce_sim h _ _) fun v => ih v
  | reducedOutput o m ih => exact .bind (ih a) fun v => Raw.reduce_sim h _ _

theorem cmp_sim (o : Ops) (op : CmpOp) (a : Args) : (o.cmp T op a).Sim (o.cmp T' op a) := by
  induction o generalizing a with
  | safe => exact Safe.cmp_sim h op a
  | fast => exact Fast.cmp_sim h op a
  | reducedInput o m ih => exact .bind (Args.reduce_sim h _ _) fun v => ih v
  | reducedOutput o m ih => exact ih a

end Ops

theorem mathPow2_sim (e : ℤ) : (mathPow2 T e).Sim (mathPow2 T' e) :=
  .bind (h.unsigned.conv _) fun _ => .bind (h.unsigned.shl _ _) fun _ => h.conv _

theorem mathPow_sim (b e : ℤ) : (mathPow T b e).Sim (mathPow T' b e) := by
  induction hn : e.natAbs using Nat.strong_induction_on generalizing e with
  | _ n ih =>
    subst hn
    rw [mathPow.eq_def T, mathPow.eq_def T']
    split
    · exact .refl _
    split
    · rename_i h0 h1
      refine .bind (ih _ ?_ _ rfl) fun _ => h.mul _ _
      rcases Int.lt_or_le e 0 with h | h
      · have h2 := Int.neg_tmod (-e) 2
        have h3 := Int.tmod_nonneg 2 (a := -e) (by omega)
        rw [Int.neg_neg] at h2
        omega
      · omega
    · rename_i h0 h1
      refine .bind (ih _ ?_ _ rfl) fun _ => h.mul _ _
      rw [Int.natAbs_tdiv]
      exact Nat.div_lt_self (by omega) (by decide)

namespace Fraction

theorem arith_self_sim (o : Ops) (op : ArithOp) (a : Args) :
    (arith T T o op a).Sim (arith T' T' o op a) := by
  rw [Fraction.arith_self, Fraction.arith_self]; exact Ops.arith_sim h o op a

theorem cmp_self_sim (o : Ops) (op : CmpOp) (a : Args) :
    (cmp T T o op a).Sim (cmp T' T' o op a) := by
  rw [Fraction.cmp_self, Fraction.cmp_self]; exact Ops.cmp_sim h o op a

theorem abs_sim (o : Ops) (f : Raw) : (abs T o f).Sim (abs T' o f) :=
  .ite (.refl _) (Ops.negate_sim h o f)

theorem ceil_sim (f : Raw) : (ceil T f).Sim (ceil T' f) :=
  .bind (h.div _ _) fun _ => .bind (Raw.isInteger_sim h f) fun _ => .ite (.refl _) (h.add _ _)

theorem floor_sim (f : Raw) : (floor T f).Sim (floor T' f) :=
  .bind (h.div _ _) fun _ => .bind (Raw.isInteger_sim h f) fun _ => .ite (.refl _) (h.sub _ _)

theorem round_sim (o : Ops) (f : Raw) : (round T o f).Sim (round T' o f) :=
  .bind (floor_sim h f) fun _ => .bind (arith_self_sim h o _ _) fun _ =>
    .bind (cmp_self_sim h o _ _) fun _ => .ite (.refl _) (h.add _ _)

theorem toWhole_sim (o : Ops) (f : Raw) (m : RoundMode) :
    (toWhole T o f m).Sim (toWhole T' o f m) := by
  cases m
  exacts [h.div _ _, ceil_sim h f, floor_sim h f, round_sim h o f, round_sim h o f]

theorem redenominate_sim (o : Ops) (f : Raw) (d : ℤ) (m : RoundMode) :
    (redenominate T o f d m).Sim (redenominate T' o f d m) := by
  have hr : (roundRedenominate T o f d).Sim (roundRedenominate T' o f d) :=
    .bind (arith_self_sim h o _ _) fun _ => .bind (round_sim h o _) fun _ => .refl _
  cases m
  · exact .bind (arith_self_sim h o _ _) fun _ => .bind (h.div _ _) fun _ => .refl _
  · exact .ite (.bind (arith_self_sim h o _ _) fun _ => .bind (ceil_sim h _) fun _ => .refl _)
      (.bind (h.neg _) fun _ => .bind (arith_self_sim h o _ _) fun _ => .bind (ceil_sim h _)
        fun _ => .bind (h.neg _) fun _ => .refl _)
  · exact .ite (.bind (arith_self_sim h o _ _) fun _ => .bind (floor_sim h _) fun _ => .refl _)
      (.bind (h.neg _) fun _ => .bind (arith_self_sim h o _ _) fun _ => .bind (floor_sim h _)
        fun _ => .bind (h.neg _) fun _ => .refl _)
  · exact hr
  · exact hr

theorem pow2_sim (e : ℤ) : (pow2 T e).Sim (pow2 T' e) :=
  .ite (.bind (h.conv _) fun _ => .bind (mathPow2_sim h _) fun _ => .refl _)
    (.bind (.refl _) fun _ => .bind (h.conv _) fun _ => .bind (mathPow2_sim h _) fun _ => .refl _)

theorem pow_sim (b e : ℤ) : (pow T b e).Sim (pow T' b e) :=
  .ite (.bind (h.conv _) fun _ => .bind (mathPow_sim h _ _) fun _ => .refl _)
    (.bind (.refl _) fun _ => .bind (h.conv _) fun _ => .bind (mathPow_sim h _ _) fun _ => .refl _)

theorem ofRatio_sim (N D : ℤ) : (ofRatio T N D).Sim (ofRatio T' N D) := by
  intro r e
  unfold ofRatio at *
  cases hs : stdRatio N D with
  | none => rw [hs] at e; cases e
  | some p =>
    rw [hs] at e
    simp only at e ⊢
    split_ifs at e with h1
    rw [if_pos ⟨h _ h1.1, h _ h1.2⟩, e]

end Fraction

theorem Expr.eval_sim (o : Ops) : ∀ e : Expr, (e.eval T o).Sim (e.eval T' o)
  | .lit _ => .refl _
  | .neg e => .bind (eval_sim o e) fun _ => Ops.negate_sim h o _
  | .pos e => .bind (eval_sim o e) fun _ => .refl _
  | .ff _ e1 e2 => .bind (eval_sim o e1) fun _ => .bind (eval_sim o e2) fun _ =>
      Fraction.arith_self_sim h o _ _
  | .fr _ e _ => .bind (eval_sim o e) fun _ => Fraction.arith_self_sim h o _ _
  | .rf _ _ e => .bind (eval_sim o e) fun _ => Fraction.arith_self_sim h o _ _

theorem Assign.run_sim (o : Ops) : ∀ (s : List Assign) (f : Raw),
    (Assign.run T o f s).Sim (Assign.run T' o f s)
  | [], _ => .refl _
  | a :: s, f => by
    refine .bind ?_ fun _ => run_sim o s _
    cases a <;> simp only [Assign.step, Fraction.assignF, Fraction.assignR, if_true] <;>
      exact Fraction.arith_self_sim h o _ _

namespace Parse

theorem digitAsInt_sim (c : Char) : (digitAsInt T c).Sim (digitAsInt T' c) :=
  .ite (h.conv _) (.ite (h.conv _) (h.conv _))

theorem digitLoop_sim (b : ℤ) : ∀ (s : List Char) (r p : ℤ),
    (digitLoop T b s r p).Sim (digitLoop T' b s r p)
  | [], _, _ => .refl _
  | c :: s, r, p => .ite (digitLoop_sim b s r p) (.bind (digitAsInt_sim h c) fun _ =>
      .bind (h.mul _ _) fun _ => .bind (h.add _ _) fun _ => .bind (h.mul _ _) fun _ =>
        digitLoop_sim b s _ _)

theorem scanValue_sim (o : Ops) (r : Scan) : (scanValue T o r).Sim (scanValue T' o r) :=
  .bind (h.conv _) fun _ => .bind (digitLoop_sim h _ _ _ _) fun _ =>
    .bind (digitLoop_sim h _ _ _ _) fun _ => .bind (h.conv _) fun _ =>
    .bind (mathPow_sim h _ _) fun _ => .bind (.refl _) fun _ => .bind (.refl _) fun _ =>
    .bind (Fraction.arith_self_sim h o _ _) fun _ => .bind (Fraction.pow_sim h _ _) fun _ =>
      Fraction.arith_self_sim h o _ _

theorem toFraction_sim (o : Ops) (s : List Char) : (toFraction T o s).Sim (toFraction T' o s) := by
  refine .bind (.refl _) fun v => ?_
  cases v
  · exact .refl _
  · exact scanValue_sim h o _

end Parse

namespace FloatingPoint

omit h in
theorem constant_sim {α : Type} {x y : Res α} (hx : x.Sim y) : (constant x).Sim (constant y) := by
  intro r e
  cases x with
  | fault k => cases e
  | ok v w => cases e; rw [hx _ rfl]; rfl

theorem assemble_sim (o : Ops) (bias den : ℤ) (s e m : ℕ) :
    (assemble T o bias den s e m).Sim (assemble T' o bias den s e m) :=
  .bind (.ite (.refl _) (h.neg _)) fun _ => .bind (.refl _) fun _ => .bind (.refl _) fun _ =>
    .bind (h.conv _) fun _ => .bind (Fraction.arith_self_sim h o _ _) fun _ =>
    .bind (Fraction.arith_self_sim h o _ _) fun _ => .bind (Fraction.pow2_sim h _) fun _ =>
      Fraction.arith_self_sim h o _ _

theorem toFraction_sim (E : Endian) (F : Fmt) (o : Ops) (b : ℕ) :
    (toFraction E F T o b).Sim (toFraction E F T' o b) :=
  .bind (.refl _) fun _ => .bind (.refl _) fun _ =>
    .bind (constant_sim (.bind (h.conv _) fun _ => mathPow2_sim h _)) fun _ =>
    .bind (.refl _) fun _ => .bind (.refl _) fun _ => .bind (.refl _) fun _ =>
    .bind (.refl _) fun _ => .ite (.refl _) (assemble_sim h o _ _ _ _ _)

theorem ofFraction_sim (F : Fmt) (f : Raw) : (ofFraction F T f).Sim (ofFraction F T' f) :=
  .bind (Raw.reduce_sim h _ _) fun _ => .refl _

end FloatingPoint

namespace DenLit

theorem divFraction_sim (o : Ops) (f : Raw) (l : DenLit) :
    (divFraction T o f l).Sim (divFraction T' o f l) :=
  .bind (h.conv _) fun _ => Fraction.arith_self_sim h o _ _

theorem divRep_sim (n : ℤ) (l : DenLit) : (divRep T n l).Sim (divRep T' n l) :=
  .bind (h.conv _) fun _ => .refl _

end DenLit

namespace Chrono

theorem cast_sim (c : Count) : (c.cast T).Sim (c.cast T') := by
  cases c
  · exact .bind (h.conv _) fun _ => .refl _
  · exact .refl _

theorem factor_sim (n : ℤ) : (factor T n).Sim (factor T' n) := .bind (h.conv _) fun _ => .refl _

theorem durationCast_sim (o : Ops) (p q : Period) (c : Count) :
    (durationCast T o p q c).Sim (durationCast T' o p q c) := by
  unfold durationCast
  split
  · exact .refl _
  · refine .bind (cast_sim h c) fun _ => .ite (.refl _) (.ite ?_ (.ite ?_ ?_))
    · exact .bind (factor_sim h _) fun _ => Fraction.arith_self_sim h o _ _
    · exact .bind (factor_sim h _) fun _ => Fraction.arith_self_sim h o _ _
    · exact .bind (factor_sim h _) fun _ => .bind (Fraction.arith_self_sim h o _ _) fun _ =>
        .bind (factor_sim h _) fun _ => Fraction.arith_self_sim h o _ _

theorem convert_sim (o : Ops) (p q : Period) (c : Count) :
    (convert T o p q c).Sim (convert T' o p q c) := by
  unfold convert
  split
  · exact .refl _
  · exact .ite (durationCast_sim h o p q c) (.refl _)

theorem common_sim (o : Ops) (p q : Period) (l r : Count) :
    (common T o p q l r).Sim (common T' o p q l r) := by
  unfold common
  split
  · exact .refl _
  · exact .ite (.refl _) (.bind (convert_sim h o _ _ _) fun _ => .bind (convert_sim h o _ _ _)
      fun _ => .refl _)

theorem arith_sim (o : Ops) (op : ArithOp) (p q : Period) (l r : Count) :
    (arith T o op p q l r).Sim (arith T' o op p q l r) :=
  .bind (common_sim h o p q l r) fun _ => Fraction.arith_self_sim h o _ _

theorem cmp_sim (o : Ops) (op : CmpOp) (p q : Period) (l r : Count) :
    (cmp T o op p q l r).Sim (cmp T' o op p q l r) := by
  have e : ∀ (op : CmpOp) (p q : Period) (l r : Count), Res.Sim
      (do let (x, y) ← common T o p q l r; Fraction.cmp T T o op (.ff x y))
      (do let (x, y) ← common T' o p q l r; Fraction.cmp T' T' o op (.ff x y)) :=
    fun op p q l r => .bind (common_sim h o p q l r) fun _ => Fraction.cmp_self_sim h o _ _
  cases op
  · exact e _ _ _ _ _
  · exact .bind (e _ _ _ _ _) fun _ => .refl _
  · exact e _ _ _ _ _
  · exact .bind (e _ _ _ _ _) fun _ => .refl _
  · exact e _ _ _ _ _
  · exact .bind (e _ _ _ _ _) fun _ => .refl _

end Chrono

namespace Mixed

variable (hu : U.Within U')
include hu

theorem fix_sim (o : Ops) (m : Mixed) : (m.fix T U o).Sim (m.fix T' U' o) := by
  refine .bind (.bind (Raw.isImproper_sim hu _) fun _ => .ite (.bind (hu.div _ _) fun _ =>
    .bind (h.conv _) fun _ => .bind (h.add _ _) fun _ => .bind ?_ fun _ => .refl _) (.refl _))
    fun m => ?_
  · simp only [Fraction.assignR, if_true]; exact Fraction.arith_self_sim hu o _ _
  · exact .ite (.bind (h.sub _ _) fun _ => .bind (Fraction.arith_self_sim hu o _ _) fun _ => .refl _)
      (.ite (.bind (h.add _ _) fun _ => .bind (hu.neg _) fun _ =>
        .bind (Fraction.arith_self_sim hu o _ _) fun _ => .refl _) (.refl _))

theorem mk_sim (o : Ops) (w : ℤ) (f : Raw) : (mk' T U o w f).Sim (mk' T' U' o w f) :=
  fix_sim h hu o _

theorem ofFraction_sim {S S' : IntTy} (hs : S.Within S') (o : Ops) (f : Raw) :
    (ofFraction T U o S f).Sim (ofFraction T' U' o S' f) :=
  .bind (hs.div _ _) fun _ => .bind (h.conv _) fun _ => .bind (hs.conv _) fun _ =>
    .bind (Fraction.arith_self_sim hs o _ _) fun _ => .bind (Raw.conv_sim hu _) fun _ => .refl _

theorem neg_sim (o : Ops) (m : Mixed) : (m.neg T U o).Sim (m.neg T' U' o) :=
  .bind (h.neg _) fun _ => .bind (Ops.negate_sim hu o _) fun _ => fix_sim h hu o _

omit h hu

theorem asFraction_sim (hc : (IntTy.common T U).Within (IntTy.common T' U')) (o : Ops) (m : Mixed) :
    (m.asFraction T U o).Sim (m.asFraction T' U' o) :=
  .bind (hc.conv _) fun _ => .bind (Raw.conv_sim hc _) fun _ => Fraction.arith_self_sim hc o _ _

variable {W₁ W₂ F₁ F₂ W₁' W₂' F₁' F₂' S S' : IntTy}
  (hw : (IntTy.common W₁ W₂).Within (IntTy.common W₁' W₂'))
include hw

theorem add_sim (hf : (IntTy.common F₁ F₂).Within (IntTy.common F₁' F₂')) (o : Ops) (l r : Mixed) :
    (add W₁ F₁ W₂ F₂ o l r).Sim (add W₁' F₁' W₂' F₂' o l r) :=
  .bind (hw.conv _) fun _ => .bind (hw.conv _) fun _ => .bind (hw.add _ _) fun _ =>
    .bind (Raw.conv_sim hf _) fun _ => .bind (Raw.conv_sim hf _) fun _ =>
    .bind (Fraction.arith_self_sim hf o _ _) fun _ => fix_sim hw hf o _

theorem addFraction_sim (hf : (IntTy.common F₁ W₂).Within (IntTy.common F₁' W₂'))
    (hs : W₂.Within W₂') (o : Ops) (l : Mixed) (r : Raw) :
    (addFraction W₁ F₁ W₂ o l r).Sim (addFraction W₁' F₁' W₂' o l r) :=
  .bind (ofFraction_sim hs hs hs o r) fun _ => add_sim hw hf o l _

theorem addWhole_sim (hf : F₁.Within F₁') (o : Ops) (l : Mixed) (n : ℤ) :
    (addWhole W₁ F₁ W₂ o l n).Sim (addWhole W₁' F₁' W₂' o l n) :=
  .bind (hw.conv _) fun _ => .bind (hw.conv _) fun _ => .bind (hw.add _ _) fun _ =>
    fix_sim hw hf o _

end Mixed

section

variable {L R L' R' : IntTy} {a : Args}
  (hc : (IntTy.common L R).Within (IntTy.common L' R')) (ha : a.HaveTypes L R)
omit h
include hc ha

theorem Fraction.toCommon_sim : (toCommon L R a).Sim (toCommon L' R' a) := by
  intro a' e
  obtain rfl := Fraction.toCommon_clean e
  have := Fraction.toCommon_all ha _ _ e
  refine Fraction.toCommon_of_inRange ?_
  cases a' with
  | ff l r => exact ⟨hc.raw this.1, hc.raw this.2⟩
  | fr l r => exact ⟨hc.raw this.1, hc _ this.2⟩
  | rf l r => exact ⟨hc _ this.1, hc.raw this.2⟩

theorem Fraction.arith_sim (o : Ops) (op : ArithOp) :
    (arith L R o op a).Sim (arith L' R' o op a) :=
  .bind (toCommon_sim hc ha) fun _ => Ops.arith_sim hc o op _

theorem Fraction.cmp_sim (o : Ops) (op : CmpOp) : (cmp L R o op a).Sim (cmp L' R' o op a) :=
  .bind (toCommon_sim hc ha) fun _ => Ops.cmp_sim hc o op _

end

end Ieme
