import Verif.Spec.Silent
import Verif.Lemmas.TypedExpr
import Verif.Lemmas.Range
import Verif.Lemmas.FaultsApps
import Verif.Lemmas.FloatField
import Verif.Lemmas.FloatSplit
import Verif.Lemmas.FloatConvert
import Verif.Lemmas.ParseValue
import Verif.Model.DurationAlg
import Verif.Spec.Chrono
import Verif.Model.Program
import Verif.Model.Algorithms

/-!
# Lemmas on where values can change silently
-/

namespace Ieme

open Res IntTy

variable {T L R W F S : IntTy} {o : Ops} {f g : Raw} {n d : ℤ}

/-- Sequencing where the first part is known to satisfy `P`. -/
theorem Res.NoWrap.bind_all {α β : Type} {x : Res α} {k : α → Res β} {P : α → Prop} (h : x.NoWrap)
    (ha : x.All P) (h' : ∀ a, P a → (k a).NoWrap) : (x >>= k).NoWrap := by
  intro r e
  obtain ⟨a, w1, w2, h1, h2, h3⟩ := bind_eq_ok.1 e
  have := h.flag h1; have := (h' a (ha a w1 h1)).flag h2
  subst_vars; simp at h3

theorem Res.NoWrap.ok {α : Type} (a : α) : (Res.ok a false).NoWrap := by
  intro r h; simp at h

theorem Res.NoWrap.fault {α : Type} (k : Fault) : (Res.fault k : Res α).NoWrap := by
  intro r h; cases h

theorem conv_noWrap (h : T.InRange n) : (T.conv n).NoWrap := by
  rw [conv_clean.2 ⟨h, rfl⟩]; exact .ok _

theorem Raw.conv_noWrap (h : f.InRange T) : (f.conv T).NoWrap :=
  .bind (Ieme.conv_noWrap h.1) fun _ => .bind (Ieme.conv_noWrap h.2) fun _ => .pure _

/-- Conversion changes a value exactly when it does not fit. -/
theorem Raw.conv_wraps_iff : (∃ g, f.conv T = .ok g true) ↔ ¬ f.InRange T := by
  constructor
  · rintro ⟨g, h⟩ hf; exact Raw.conv_noWrap hf g h
  · intro hf
    unfold Raw.conv IntTy.conv
    simp only [Raw.InRange, not_and_or] at hf
    by_cases h1 : T.InRange f.num <;> by_cases h2 : T.InRange f.den <;>
      simp_all [bind_def, Res.bind, pure_def]

theorem toCommon_noWrap (hs : (IntTy.common L R).signed = true) {a : Args} (ha : a.HaveTypes L R) :
    (Fraction.toCommon L R a).NoWrap := by
  obtain ⟨h1, h2⟩ := common_signed hs
  have : Fraction.toCommon L R a ⇓ a := Fraction.toCommon_of_inRange (by
    cases a <;> simp only [Args.HaveTypes, Args.InRange, Raw.InRange] at ha ⊢
    · exact ⟨⟨h1 ha.1.1, h1 ha.1.2⟩, h2 ha.2.1, h2 ha.2.2⟩
    · exact ⟨⟨h1 ha.1.1, h1 ha.1.2⟩, h2 ha.2⟩
    · exact ⟨h1 ha.1, h2 ha.2.1, h2 ha.2.2⟩)
  rw [this]; exact .ok _

theorem arith_common_noWrap (hs : (IntTy.common L R).signed = true) {a : Args}
    (ha : a.HaveTypes L R) (op : ArithOp) : (Fraction.arith L R o op a).NoWrap :=
  .bind (toCommon_noWrap hs ha) fun _ => Ops.arith_noWrap hs o op _

theorem cmp_common_noWrap (hs : (IntTy.common L R).signed = true) {a : Args}
    (ha : a.HaveTypes L R) (op : CmpOp) : (Fraction.cmp L R o op a).NoWrap :=
  .bind (toCommon_noWrap hs ha) fun _ => Ops.cmp_noWrap hs o op _

theorem Fraction.cmp_noWrap (hs : T.signed = true) (op : CmpOp) (a : Args) :
    (Fraction.cmp T T o op a).NoWrap := by
  rw [Fraction.cmp_self]; exact Ops.cmp_noWrap hs o op a

/-! ### Functions of one representation -/

theorem Raw.isInteger_noWrap : (f.isInteger T).NoWrap := by
  unfold Raw.isInteger; split
  · exact .bind (mod_noWrap _ _) fun _ => .pure _
  · exact .pure _

theorem Raw.isUnitFraction_noWrap : (f.isUnitFraction T).NoWrap := by
  unfold Raw.isUnitFraction; split
  · exact .bind (mod_noWrap _ _) fun _ => .pure _
  · exact .pure _

theorem Raw.isReduced_noWrap : (f.isReduced T).NoWrap := by
  unfold Raw.isReduced Raw.isReducedIgnoreSigns; split
  · split
    · exact .bind (gcd_noWrap _ _) fun _ => .pure _
    · exact .pure _
  · exact .pure _

theorem Raw.isProper_noWrap (hs : T.signed = true) : (f.isProper T).NoWrap :=
  .bind (mathAbs_noWrap hs _) fun _ => .bind (mathAbs_noWrap hs _) fun _ => .pure _

namespace Fraction

theorem neg_noWrap (hs : T.signed = true) : (neg T o f).NoWrap := Ops.negate_noWrap hs o f

theorem abs_noWrap (hs : T.signed = true) : (abs T o f).NoWrap := by
  unfold abs; split
  · exact .pure _
  · exact neg_noWrap hs

theorem ceil_noWrap (hs : T.signed = true) : (ceil T f).NoWrap := by
  refine .bind (trunc_noWrap f) fun _ => .bind Raw.isInteger_noWrap fun _ => ?_
  split
  · exact .pure _
  · exact IntTy.arith_noWrap hs _

theorem floor_noWrap (hs : T.signed = true) : (floor T f).NoWrap := by
  refine .bind (trunc_noWrap f) fun _ => .bind Raw.isInteger_noWrap fun _ => ?_
  split
  · exact .pure _
  · exact IntTy.arith_noWrap hs _

theorem round_noWrap (hs : T.signed = true) : (round T o f).NoWrap := by
  refine .bind (floor_noWrap hs) fun _ => .bind (Fraction.arith_noWrap hs _ _) fun _ =>
    .bind (cmp_noWrap hs _ _) fun _ => ?_
  split
  · exact .pure _
  · exact IntTy.arith_noWrap hs _

theorem toWhole_noWrap (hs : T.signed = true) (mode : RoundMode) : (toWhole T o f mode).NoWrap := by
  cases mode
  · exact trunc_noWrap f
  · exact ceil_noWrap hs
  · exact floor_noWrap hs
  · exact round_noWrap hs
  · exact round_noWrap hs

theorem redenominate_noWrap (hs : T.signed = true) (mode : RoundMode) :
    (redenominate T o f d mode).NoWrap := by
  have m : ∀ x, (arith T T o .multiplies (.fr f x)).NoWrap := fun x => Fraction.arith_noWrap hs _ _
  have ng : ∀ x, (T.neg x).NoWrap := fun x => IntTy.arith_noWrap hs _
  cases mode
  · exact .bind (m _) fun _ => .bind (trunc_noWrap _) fun _ => .pure _
  · simp only [redenominate, ceilRedenominate]
    split
    · exact .bind (m _) fun _ => .bind (ceil_noWrap hs) fun _ => .pure _
    · exact .bind (ng _) fun _ => .bind (m _) fun _ => .bind (ceil_noWrap hs) fun _ =>
        .bind (ng _) fun _ => .pure _
  · simp only [redenominate, floorRedenominate]
    split
    · exact .bind (m _) fun _ => .bind (floor_noWrap hs) fun _ => .pure _
    · exact .bind (ng _) fun _ => .bind (m _) fun _ => .bind (floor_noWrap hs) fun _ =>
        .bind (ng _) fun _ => .pure _
  · exact .bind (m _) fun _ => .bind (round_noWrap hs) fun _ => .pure _
  · exact .bind (m _) fun _ => .bind (round_noWrap hs) fun _ => .pure _

theorem assignF_noWrap (hs : L.signed = true) {op : ArithOp} (hr : g.InRange L) :
    (assignF L R o op f g).NoWrap := by
  unfold assignF; split
  · rename_i h; subst h; exact Fraction.arith_noWrap hs _ _
  · exact .bind (Raw.conv_noWrap hr) fun _ => Fraction.arith_noWrap hs _ _

theorem assignR_noWrap (hs : L.signed = true) {op : ArithOp} (hr : L.InRange n) :
    (assignR L R o op f n).NoWrap := by
  unfold assignR; split
  · rename_i h; subst h; exact Fraction.arith_noWrap hs _ _
  · exact .bind (conv_noWrap hr) fun _ => Fraction.arith_noWrap hs _ _

end Fraction

theorem Expr.eval_noWrap (hs : T.signed = true) : ∀ e : Expr, (e.eval T o).NoWrap
  | .lit f => .pure f
  | .neg e => .bind (e.eval_noWrap hs) fun _ => Fraction.neg_noWrap hs
  | .pos e => .bind (e.eval_noWrap hs) fun _ => .pure _
  | .ff op a b => .bind (a.eval_noWrap hs) fun _ => .bind (b.eval_noWrap hs) fun _ =>
      Fraction.arith_noWrap hs _ _
  | .fr op a n => .bind (a.eval_noWrap hs) fun _ => Fraction.arith_noWrap hs _ _
  | .rf op n a => .bind (a.eval_noWrap hs) fun _ => Fraction.arith_noWrap hs _ _

theorem Cmd.test_noWrap (hs : T.signed = true) (m : Mem) (op : CmpOp) (a b : PExpr) :
    (Cmd.test T o m op a b).NoWrap :=
  .bind (Expr.eval_noWrap hs _) fun _ => .bind (Expr.eval_noWrap hs _) fun _ =>
    Fraction.cmp_noWrap hs _ _

theorem Cmd.exec_noWrap (hs : T.signed = true) : ∀ (k : ℕ) (c : Cmd) (m : Mem),
    (c.exec T o k m).NoWrap
  | 0, _, _ => .pure _
  | _ + 1, .skip, _ => .pure _
  | _ + 1, .assign _ _, _ => .bind (Expr.eval_noWrap hs _) fun _ => .pure _
  | k + 1, .seq c d, m => by
    refine .bind (exec_noWrap hs k c m) fun r => ?_
    cases r
    · exact .pure _
    · exact exec_noWrap hs k d _
  | k + 1, .ite op a b c d, m => by
    refine .bind (Cmd.test_noWrap hs m op a b) fun r => ?_
    cases r
    · exact exec_noWrap hs k d m
    · exact exec_noWrap hs k c m
  | k + 1, .loop op a b c, m => by
    refine .bind (Cmd.test_noWrap hs m op a b) fun r => ?_
    cases r
    · exact .pure _
    · refine .bind (exec_noWrap hs k c m) fun r => ?_
      cases r
      · exact .pure _
      · exact exec_noWrap hs k (.loop op a b c) _

/-! ### Mixed numbers -/

/-- A narrower signed type. -/
theorem inRange_of_bits (hF : F.signed = true) (hW : W.signed = true) (hb : F.bits ≤ W.bits)
    (h : F.InRange n) : W.InRange n := by
  have le : 2 ^ (F.bits - 1) ≤ 2 ^ (W.bits - 1) := Nat.pow_le_pow_right (by decide) (by omega)
  unfold InRange IntTy.min IntTy.max at h ⊢
  rw [if_pos hF, if_pos hF] at h
  rw [if_pos hW, if_pos hW]
  omega

namespace Mixed

variable {m m' : Mixed}

theorem fix_noWrap (hW : W.signed = true) (hF : F.signed = true) (hb : F.bits ≤ W.bits) :
    (m.fix W F o).NoWrap := by
  refine .bind ?_ fun m => ?_
  · refine .bind (Raw.isImproper_noWrap hF _) fun i => ?_
    cases i
    · exact .pure _
    · refine NoWrap.bind_all (Fraction.trunc_noWrap _) Fraction.trunc_all fun t ht => ?_
      refine .bind (conv_noWrap (inRange_of_bits hF hW hb ht)) fun _ =>
        .bind (IntTy.arith_noWrap hW _) fun _ => ?_
      refine .bind ?_ fun _ => .pure _
      unfold Fraction.assignR
      rw [if_pos rfl]
      exact Fraction.arith_noWrap hF _ _
  · unfold fixSigns
    split
    · exact .bind (IntTy.arith_noWrap hW _) fun _ => .bind (Fraction.arith_noWrap hF _ _) fun _ =>
        .pure _
    · split
      · exact .bind (IntTy.arith_noWrap hW _) fun _ => .bind (IntTy.arith_noWrap hF _) fun _ =>
          .bind (Fraction.arith_noWrap hF _ _) fun _ => .pure _
      · exact .pure _

theorem ofFraction_noWrap (hW : W.signed = true) (hS : S.signed = true) (hb : S.bits ≤ W.bits)
    (hf : ∀ w r, S.InRange w → Fraction.arith S S o .minus (.fr f w) ⇓ r → r.InRange F) :
    (ofFraction W F o S f).NoWrap := by
  refine NoWrap.bind_all (Fraction.trunc_noWrap _) Fraction.trunc_all fun t ht => ?_
  rw [conv_clean.2 ⟨inRange_of_bits hS hW hb ht, rfl⟩, ok_bind_false, conv_clean.2 ⟨ht, rfl⟩,
    ok_bind_false]
  refine NoWrap.bind_all (Fraction.arith_noWrap hS _ _) (P := fun r => r.InRange F) ?_ fun r hr =>
    .bind (Raw.conv_noWrap hr) fun _ => .pure _
  intro r w h
  have := (Fraction.arith_noWrap hS _ _).flag h
  subst this
  exact hf _ _ ht h

theorem neg_noWrap (hW : W.signed = true) (hF : F.signed = true) (hb : F.bits ≤ W.bits) :
    (m.neg W F o).NoWrap :=
  .bind (IntTy.arith_noWrap hW _) fun _ => .bind (Fraction.neg_noWrap hF) fun _ =>
    fix_noWrap hW hF hb

theorem asFraction_noWrap (hs : (IntTy.common W F).signed = true) (hm : m.InRange W F) :
    (m.asFraction W F o).NoWrap := by
  obtain ⟨h1, h2⟩ := common_signed hs
  exact .bind (conv_noWrap (h1 hm.1)) fun _ => .bind (Raw.conv_noWrap ⟨h2 hm.2.1, h2 hm.2.2⟩) fun _ =>
    Fraction.arith_noWrap hs _ _

theorem add_noWrap {W₁ F₁ W₂ F₂ : IntTy} (hW : (IntTy.common W₁ W₂).signed = true)
    (hF : (IntTy.common F₁ F₂).signed = true)
    (hb : (IntTy.common F₁ F₂).bits ≤ (IntTy.common W₁ W₂).bits) (hm : m.InRange W₁ F₁)
    (hm' : m'.InRange W₂ F₂) : (add W₁ F₁ W₂ F₂ o m m').NoWrap := by
  obtain ⟨h1, h2⟩ := common_signed hW
  obtain ⟨h3, h4⟩ := common_signed hF
  exact .bind (conv_noWrap (h1 hm.1)) fun _ => .bind (conv_noWrap (h2 hm'.1)) fun _ =>
    .bind (IntTy.arith_noWrap hW _) fun _ =>
    .bind (Raw.conv_noWrap ⟨h3 hm.2.1, h3 hm.2.2⟩) fun _ =>
    .bind (Raw.conv_noWrap ⟨h4 hm'.2.1, h4 hm'.2.2⟩) fun _ =>
    .bind (Fraction.arith_noWrap hF _ _) fun _ => fix_noWrap hW hF hb

theorem addFraction_noWrap (hR : R.signed = true) (hW : (IntTy.common W R).signed = true)
    (hF : (IntTy.common F R).signed = true)
    (hb : (IntTy.common F R).bits ≤ (IntTy.common W R).bits) (hm : m.InRange W F)
    (hf : f.InRange R) : (addFraction W F R o m f).NoWrap := by
  refine NoWrap.bind_all (ofFraction_noWrap hR hR le_rfl fun w r hw h => ?_) ofFraction_all fun r hr =>
    add_noWrap hW hF hb hm hr
  rw [Fraction.arith_self] at h
  exact Ops.arith_inRange (a := .fr _ _) ⟨hf, hw⟩ h

theorem addWhole_noWrap (hW : (IntTy.common W R).signed = true) (hF : F.signed = true)
    (hb : F.bits ≤ (IntTy.common W R).bits) (hm : m.InRange W F) (hn : R.InRange n) :
    (addWhole W F R o m n).NoWrap := by
  obtain ⟨h1, h2⟩ := common_signed hW
  exact .bind (conv_noWrap (h1 hm.1)) fun _ => .bind (conv_noWrap (h2 hn)) fun _ =>
    .bind (IntTy.arith_noWrap hW _) fun _ => fix_noWrap hW hF hb

end Mixed

theorem MExpr.TypedLeaves.inRange : ∀ {e : MExpr}, e.TypedLeaves → e.LeavesInRange
  | .dflt _ _, _ => trivial
  | .mk _ _ _ _, h => h
  | .ofFraction _ _ _ _, _ => trivial
  | .pos e, h => TypedLeaves.inRange (e := e) h
  | .neg e, h => TypedLeaves.inRange (e := e) h
  | .add _ _, h => ⟨h.1.inRange, h.2.inRange⟩
  | .addFraction _ _ _, h => h.1.inRange
  | .addWhole _ _ _, h => h.1.inRange

theorem MExpr.TypedLeaves.wellTyped : ∀ {e : MExpr}, e.TypedLeaves → e.WellTyped
  | .dflt _ _, _ => trivial
  | .mk _ _ _ _, h => h.1
  | .ofFraction _ _ _ _, _ => trivial
  | .pos e, h => TypedLeaves.wellTyped (e := e) h
  | .neg e, h => TypedLeaves.wellTyped (e := e) h
  | .add _ _, h => ⟨h.1.wellTyped, h.2.wellTyped⟩
  | .addFraction _ _ _, h => h.1.wellTyped
  | .addWhole _ _ _, h => h.1.wellTyped

theorem MExpr.eval_noWrap : ∀ {e : MExpr}, e.TypedLeaves → e.calm = true → (e.eval o).NoWrap
  | .dflt _ _, _, _ => .pure _
  | .mk W F w f, hl, hc => by
    simp only [MExpr.calm, MExpr.ty, Overload.Ty.calm, Bool.and_eq_true, decide_eq_true_eq] at hc
    exact Mixed.fix_noWrap hc.1.1 hc.1.2 hc.2
  | .ofFraction W F S f, hl, hc => by
    simp only [MExpr.calm, Bool.and_eq_true, decide_eq_true_eq] at hc
    refine Mixed.ofFraction_noWrap hc.1.1.2 hc.1.1.1.2 hc.1.2 fun w r hw h => ?_
    rw [Fraction.arith_self] at h
    have := Ops.arith_inRange (a := .fr _ _) ⟨hl, hw⟩ h
    exact ⟨inRange_of_bits hc.1.1.1.2 hc.1.1.1.1 hc.2 this.1,
      inRange_of_bits hc.1.1.1.2 hc.1.1.1.1 hc.2 this.2⟩
  | .pos e, hl, hc => .bind (MExpr.eval_noWrap (e := e) hl hc) fun _ => .pure _
  | .neg e, hl, hc => by
    simp only [MExpr.calm, MExpr.ty, Overload.Ty.calm, Bool.and_eq_true, decide_eq_true_eq] at hc
    exact .bind (MExpr.eval_noWrap (e := e) hl hc.1) fun _ => Mixed.neg_noWrap hc.2.1.1 hc.2.1.2 hc.2.2
  | .add l r, hl, hc => by
    simp only [MExpr.calm, MExpr.ty, Overload.Ty.calm, Bool.and_eq_true, decide_eq_true_eq] at hc
    exact NoWrap.bind_all (MExpr.eval_noWrap hl.1 hc.1.1) (MExpr.eval_all hl.1.inRange) fun _ h1 =>
      NoWrap.bind_all (MExpr.eval_noWrap hl.2 hc.1.2) (MExpr.eval_all hl.2.inRange) fun _ h2 =>
        Mixed.add_noWrap hc.2.1.1 hc.2.1.2 (of_decide_eq_true hc.2.2) h1 h2
  | .addFraction e S f, hl, hc => by
    simp only [MExpr.calm, MExpr.ty, Overload.Ty.calm, Bool.and_eq_true, decide_eq_true_eq] at hc
    exact NoWrap.bind_all (MExpr.eval_noWrap hl.1 hc.1.1) (MExpr.eval_all hl.1.inRange) fun _ h1 =>
      Mixed.addFraction_noWrap hc.1.2 hc.2.1.1 hc.2.1.2 (of_decide_eq_true hc.2.2) h1 hl.2
  | .addWhole e S n, hl, hc => by
    simp only [MExpr.calm, MExpr.ty, Overload.Ty.calm, Bool.and_eq_true, decide_eq_true_eq] at hc
    exact NoWrap.bind_all (MExpr.eval_noWrap hl.1 hc.1) (MExpr.eval_all hl.1.inRange) fun _ h1 =>
      Mixed.addWhole_noWrap hc.2.1.1 hc.2.1.2 (of_decide_eq_true hc.2.2) h1 hl.2

/-! ### Durations -/

namespace Chrono

variable {p q : Period} {c l r : Count}

theorem fits_frac : (Count.frac f).Fits T := trivial

theorem ratioDivide_inRange {n d : ℤ} (h : ratioDivide p q = some (n, d)) :
    i64.InRange n ∧ i64.InRange d := by
  unfold ratioDivide at h
  simp only at h
  split at h
  · rename_i h'; cases h; exact h'
  · cases h

theorem durationCast_noWrap (hs : T.signed = true) (hb : 64 ≤ T.bits) (hc : c.Fits T) :
    (durationCast T o p q c).NoWrap := by
  unfold durationCast
  split
  · exact .fault _
  · rename_i n d h
    obtain ⟨h1, h2⟩ := ratioDivide_inRange h
    have fac : ∀ {x : ℤ}, i64.InRange x → (factor T x).NoWrap := fun hx =>
      .bind (conv_noWrap (inRange_of_bits (F := i64) rfl hs hb hx)) fun _ => .pure _
    refine .bind ?_ fun x => ?_
    · cases c
      · exact .bind (conv_noWrap hc) fun _ => .pure _
      · exact .pure _
    · split
      · exact .pure _
      · split
        · exact .bind (fac h1) fun _ => Fraction.arith_noWrap hs _ _
        · split
          · exact .bind (fac h2) fun _ => Fraction.arith_noWrap hs _ _
          · exact .bind (fac h1) fun _ => .bind (Fraction.arith_noWrap hs _ _) fun _ =>
              .bind (fac h2) fun _ => Fraction.arith_noWrap hs _ _

theorem convert_noWrap (hs : T.signed = true) (hb : 64 ≤ T.bits) (hc : c.Fits T) :
    (convert T o p q c).NoWrap := by
  unfold convert
  split
  · exact .fault _
  · split
    · exact durationCast_noWrap hs hb hc
    · exact .fault _

theorem common_noWrap (hs : T.signed = true) (hb : 64 ≤ T.bits) (hl : l.Fits T) (hr : r.Fits T) :
    (common T o p q l r).NoWrap := by
  unfold common
  split
  · exact .fault _
  · split
    · exact .fault _
    · exact .bind (convert_noWrap hs hb hl) fun _ => .bind (convert_noWrap hs hb hr) fun _ => .pure _

theorem arith_noWrap (hs : T.signed = true) (hb : 64 ≤ T.bits) (hl : l.Fits T) (hr : r.Fits T)
    (op : ArithOp) : (arith T o op p q l r).NoWrap :=
  .bind (common_noWrap hs hb hl hr) fun _ => Fraction.arith_noWrap hs _ _

theorem cmp_noWrap (hs : T.signed = true) (hb : 64 ≤ T.bits) (hl : l.Fits T) (hr : r.Fits T)
    (op : CmpOp) : (cmp T o op p q l r).NoWrap := by
  cases op
  · exact .bind (common_noWrap hs hb hl hr) fun _ => Fraction.cmp_noWrap hs _ _
  · exact .bind (.bind (common_noWrap hs hb hl hr) fun _ => Fraction.cmp_noWrap hs _ _) fun _ => .pure _
  · exact .bind (common_noWrap hs hb hl hr) fun _ => Fraction.cmp_noWrap hs _ _
  · exact .bind (.bind (common_noWrap hs hb hr hl) fun _ => Fraction.cmp_noWrap hs _ _) fun _ => .pure _
  · exact .bind (common_noWrap hs hb hr hl) fun _ => Fraction.cmp_noWrap hs _ _
  · exact .bind (.bind (common_noWrap hs hb hl hr) fun _ => Fraction.cmp_noWrap hs _ _) fun _ => .pure _

theorem assign_noWrap (hs : T.signed = true) (hb : 64 ≤ T.bits) (hr : r.Fits T) (op : ArithOp) :
    (assign T o op p q f r).NoWrap := by
  refine .bind (convert_noWrap hs hb hr) fun _ => ?_
  unfold Fraction.assignF
  rw [if_pos rfl]
  exact Fraction.arith_noWrap hs _ _

theorem abs_noWrap (hs : T.signed = true) (hb : 64 ≤ T.bits) : (abs T o p f).NoWrap := by
  unfold abs
  rw [if_pos hs]
  refine .bind (cmp_noWrap hs hb fits_frac fits_frac _) fun _ => ?_
  split
  · exact .pure _
  · exact Fraction.neg_noWrap hs

theorem floor_noWrap (hs : T.signed = true) (hb : 64 ≤ T.bits) (hc : c.Fits T) :
    (floor T o p q c).NoWrap := by
  refine .bind (durationCast_noWrap hs hb hc) fun _ =>
    .bind (cmp_noWrap hs hb fits_frac hc _) fun _ => ?_
  split
  · exact arith_noWrap hs hb fits_frac fits_frac _
  · exact .pure _

theorem ceil_noWrap (hs : T.signed = true) (hb : 64 ≤ T.bits) (hc : c.Fits T) :
    (ceil T o p q c).NoWrap := by
  refine .bind (durationCast_noWrap hs hb hc) fun _ =>
    .bind (cmp_noWrap hs hb fits_frac hc _) fun _ => ?_
  split
  · exact arith_noWrap hs hb fits_frac fits_frac _
  · exact .pure _

end Chrono

/-! ### Floating point -/

theorem FloatingPoint.toFraction_noWrap' {G : Fmt} (hs : T.signed = true) (hT : G.mant + 1 < T.bits)
    (b : ℕ) : (FloatingPoint.toFraction .little G T o b).NoWrap := by
  rw [FloatingPoint.toFraction_little, FloatingPoint.mantissaDenominator_eq, if_pos (by omega),
    conv_clean.2 ⟨(two_pow_inRange_iff _).2 ⟨by omega, fun _ => by omega⟩, rfl⟩, ok_bind_false]
  split
  · exact .pure _
  · exact FloatingPoint.assemble_noWrap hs G.mant_pos hT
      (by have := (Fmt.expField_bounds G b).1; omega) (Fmt.mantField_lt G b)

/-! ### Typed expressions -/

namespace Overload

variable {e : TExpr} {t l r : Ty} {u v : Val} {op : ArithOp} {A B : IntTy}

/-- A value of the type whose literals are small. -/
def Val.Calm (t : Ty) (v : Val) : Prop := v.HasTy t ∧ ∀ n, v = .lit n → n.natAbs ≤ 2147483647

theorem inRange_of_small (hs : T.signed = true) (h : n.natAbs ≤ 2147483647) : T.InRange n :=
  inRange_of_bits (F := i32) rfl hs T.wide <| by
    have h1 : i32.min = -2147483648 := rfl
    have h2 : i32.max = 2147483647 := rfl
    unfold InRange
    omega

theorem builtin_noWrap (hs : (IntTy.common A B).signed = true) {m n : ℤ} (hm : A.InRange m)
    (hn : B.InRange n) : (builtin A B op m n).NoWrap := by
  obtain ⟨h1, h2⟩ := common_signed hs
  refine .bind (conv_noWrap (h1 hm)) fun _ => .bind (conv_noWrap (h2 hn)) fun _ => ?_
  cases op
  · exact IntTy.arith_noWrap hs _
  · exact IntTy.arith_noWrap hs _
  · exact IntTy.arith_noWrap hs _
  · exact div_noWrap _ _
  · exact mod_noWrap _ _

theorem negate_noWrap (ht : t.calm = true) (hu : u.Calm t) : (negate t u).NoWrap := by
  cases t <;> cases u <;> first | exact absurd hu.1 id | skip
  · exact .bind (IntTy.arith_noWrap ht _) fun _ => .pure _
  · exact .bind (Fraction.neg_noWrap ht) fun _ => .pure _
  · simp only [Ty.calm, Bool.and_eq_true, decide_eq_true_eq] at ht
    exact .bind (Mixed.neg_noWrap ht.1.1 ht.1.2 ht.2) fun _ => .pure _
  · refine .bind ?_ fun _ => .pure _
    exact .bind (conv_noWrap (inRange_of_small (T := i64) rfl (hu.2 _ rfl))) fun _ =>
      .bind (IntTy.arith_noWrap (T := i64) rfl _) fun _ => .pure _

theorem negate_calm (ht : t.calm = true) (hu : u.Calm t) :
    (negate t u).All fun v => v.Calm t.neg := by
  intro v w h
  refine ⟨negate_type hu.1 v w h, ?_⟩
  rintro n rfl
  cases t <;> cases u <;> first | exact absurd hu.1 id | skip
  all_goals simp only [negate] at h
  all_goals obtain ⟨x, w1, w2, h1, h2, h3⟩ := bind_eq_ok.1 h
  all_goals simp only [pure_eq_ok] at h2
  all_goals try (obtain ⟨h2, -⟩ := h2; cases h2; done)
  obtain ⟨h2, -⟩ := h2
  cases h2
  rename_i m
  have hm := hu.2 m rfl
  obtain ⟨y, w3, w4, h4, h5, -⟩ := bind_eq_ok.1 h1
  rw [conv_clean.2 ⟨inRange_of_small (T := i64) rfl hm, rfl⟩] at h4
  cases h4
  obtain ⟨z, w5, w6, h6, h7, -⟩ := bind_eq_ok.1 h5
  simp only [pure_eq_ok] at h7
  obtain ⟨rfl, -⟩ := h7
  have := (IntTy.arith_noWrap (T := i64) rfl (-m)).flag h6
  subst this
  obtain ⟨-, rfl⟩ := neg_clean.1 h6
  simpa using hm

theorem apply_noWrap (hu : u.Calm l) (hv : v.Calm r) (hb : Ty.bin op l r = some t)
    (ht : t.calm = true) (hl : t.calmAddend l = true) (hr : t.calmAddend r = true) :
    (apply op l r u v).NoWrap := by
  rcases bin_some hb with ⟨A, B, rfl, rfl, rfl⟩ | h <;> clear hb
  · cases u <;> first | exact absurd hu.1 id | skip
    cases v <;> first | exact absurd hv.1 id | skip
    exact .bind (builtin_noWrap ht hu.1 hv.1) fun _ => .pure _
  · unfold signature at h
    split at h
    all_goals first | (cases h; done) | skip
    all_goals
      cases u <;> first | exact absurd hu.1 id | skip
      cases v <;> first | exact absurd hv.1 id | skip
    all_goals try split_ifs at h with ho; subst ho
    all_goals cases h
    all_goals simp only [Ty.calm, Ty.calmAddend, Bool.and_eq_true, decide_eq_true_eq] at ht hl hr
    · simp only [apply, resolve_eq, if_true, call]
      exact .bind (arith_common_noWrap (a := .ff _ _) ht ⟨hu.1, hv.1⟩ _) fun _ => .pure _
    · simp only [apply, resolve_eq, call]
      exact .bind (arith_common_noWrap (a := .fr _ _) ht ⟨hu.1, hv.1⟩ _) fun _ => .pure _
    · simp only [apply, resolve_eq, call]
      exact .bind (arith_common_noWrap (a := .rf _ _) ht ⟨hu.1, hv.1⟩ _) fun _ => .pure _
    · simp only [apply, resolve_eq, if_true, call]
      exact .bind (Mixed.add_noWrap ht.1.1 ht.1.2 ht.2 hu.1 hv.1) fun _ => .pure _
    · simp only [apply, resolve_eq, if_true, call]
      exact .bind (Mixed.addFraction_noWrap hr ht.1.1 ht.1.2 ht.2 hu.1 hv.1) fun _ => .pure _
    · simp only [apply, resolve_eq, if_true, call]
      exact .bind (Mixed.addFraction_noWrap hl ht.1.1 ht.1.2 ht.2 hv.1 hu.1) fun _ => .pure _
    · simp only [apply, resolve_eq, call]
      exact .bind (Mixed.addWhole_noWrap ht.1.1 ht.1.2 ht.2 hu.1 hv.1) fun _ => .pure _
    · simp only [apply, resolve_eq, call]
      rw [common_symm] at ht
      exact .bind (Mixed.addWhole_noWrap ht.1.1 ht.1.2 ht.2 hv.1 hu.1) fun _ => .pure _
    · simp only [apply, resolve_eq, if_true, call]
      exact .bind (.bind (conv_noWrap (inRange_of_small ht (hv.2 _ rfl))) fun _ =>
        Fraction.arith_noWrap ht _ _) fun _ => .pure _
    · simp only [apply, resolve_eq, call]
      exact .bind (.bind (conv_noWrap (inRange_of_small ht (hv.2 _ rfl))) fun _ => .pure _)
        fun _ => .pure _

/-- The result of a binary operator is no literal. -/
theorem apply_calm (hu : u.HasTy l) (hv : v.HasTy r) (hb : Ty.bin op l r = some t) :
    (apply op l r u v).All fun w => w.Calm t := by
  intro x w h
  have hx := apply_type hu hv hb x w h
  refine ⟨hx, ?_⟩
  rintro n rfl
  rcases bin_some hb with ⟨A, B, rfl, rfl, rfl⟩ | h
  · exact absurd hx id
  · unfold signature at h
    split at h
    all_goals first
      | (cases h; done)
      | (cases h; exact absurd hx id)
      | (split_ifs at h; cases h; exact absurd hx id)

theorem eval_noWrap (hw : e.WellTyped) (hc : e.calm = true) :
    e.eval.NoWrap ∧ ∀ t, e.ty = some t → e.eval.All fun v => v.Calm t := by
  induction e with
  | leaf t' u =>
    refine ⟨.pure _, ?_⟩
    rintro t h
    cases h
    refine .pure ⟨hw, ?_⟩
    rintro n rfl
    simpa [TExpr.calm] using hc
  | pos e ih => exact ih hw hc
  | neg e ih =>
    simp only [TExpr.calm, Bool.and_eq_true] at hc
    obtain ⟨h1, h2⟩ := ih hw hc.1
    simp only [TExpr.eval, TExpr.ty]
    cases he : e.ty with
    | none => exact ⟨.fault _, fun t h => by cases h⟩
    | some t' =>
      have ht : t'.calm = true := by simpa [he] using hc.2
      refine ⟨NoWrap.bind_all h1 (h2 t' he) fun u hu => negate_noWrap ht hu, ?_⟩
      intro t h
      cases h
      exact .bind (h2 t' he) fun u hu => negate_calm ht hu
  | bin op l r ih1 ih2 =>
    simp only [TExpr.calm, Bool.and_eq_true] at hc
    obtain ⟨h1, h2⟩ := ih1 hw.1 hc.1.1
    obtain ⟨h3, h4⟩ := ih2 hw.2 hc.1.2
    obtain ⟨-, hc⟩ := hc
    simp only [TExpr.ty] at hc
    simp only [TExpr.eval, TExpr.ty]
    cases ha : l.ty with
    | none => exact ⟨.fault _, fun t h => by cases h⟩
    | some a =>
      cases hb : r.ty with
      | none => exact ⟨.fault _, fun t h => by cases h⟩
      | some b =>
        simp only [ha, hb, Option.bind_some] at hc ⊢
        cases ht : Ty.bin op a b with
        | none =>
          refine ⟨?_, fun t h => by cases h⟩
          intro v h
          exact eval_untyped (e := .bin op l r) (by simp [TExpr.ty, ha, hb, ht]) v true
            (by simpa only [TExpr.eval, ha, hb] using h)
        | some t =>
          simp only [ht, Option.all_some, Bool.and_eq_true] at hc
          refine ⟨NoWrap.bind_all h1 (h2 a ha) fun u hu => NoWrap.bind_all h3 (h4 b hb) fun v hv =>
            apply_noWrap hu hv ht hc.1.1 hc.1.2 hc.2, ?_⟩
          intro t' h
          cases h
          exact .bind (h2 a ha) fun u hu => .bind (h4 b hb) fun v hv => apply_calm hu.1 hv.1 ht

end Overload
end Ieme
