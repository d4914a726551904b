import Verif.Lemmas.TypedExpr
import Verif.Lemmas.NoThrow
import Verif.Lemmas.Faults
import Verif.Spec.TypedProgram
import Verif.Props.MixedNumber
import Verif.Props.Convert

/-!
# Lemmas about programs with variables of different types
-/

namespace Ieme.Overload

open Res IntTy

variable {Γ : Decls} {m m' : Vars} {s s' : ℕ → ℚ} {e : VExpr} {t l r : Ty} {q x y p : ℚ} {u v : Val}

theorem inst_ty (Γ : Decls) (m : Vars) (e : VExpr) : (e.inst Γ m).ty = e.ty Γ := by
  induction e with
  | var x => rfl
  | obj t v => rfl
  | pos e ih => exact ih
  | neg e ih => simp only [VExpr.inst, TExpr.ty, VExpr.ty, ih]
  | bin op l r ih1 ih2 => simp only [VExpr.inst, TExpr.ty, VExpr.ty, ih1, ih2]

theorem denotes_value (h : v.Denotes q) : v.value = some q := by
  cases v with
  | int n => cases h; rfl
  | frac f => obtain ⟨h0, rfl⟩ := h; exact if_neg h0
  | mixed m =>
    obtain ⟨y, ⟨h0, rfl⟩, rfl⟩ := h
    simp [Val.value, litValue, h0]
  | lit n => cases h; rfl

theorem inst_value (h : m.Holds s) (e : VExpr) : (e.inst Γ m).value = e.value Γ s := by
  induction e with
  | var x => exact denotes_value (h x).1
  | obj t v => rfl
  | pos e ih => exact ih
  | neg e ih => simp only [VExpr.inst, TExpr.value, VExpr.value, ih]
  | bin op l r ih1 ih2 =>
    simp only [VExpr.inst, TExpr.value, VExpr.value, ih1, ih2, inst_ty]
    cases l.ty Γ <;> cases r.ty Γ <;> rfl

theorem inst_wellTyped (h : m.HasTy Γ) (ho : e.Objects) : (e.inst Γ m).WellTyped := by
  induction e with
  | var x => exact h x
  | obj t v => exact ho
  | pos e ih => exact ih ho
  | neg e ih => exact ih ho
  | bin op l r ih1 ih2 => exact ⟨ih1 ho.1, ih2 ho.2⟩

/-! ### The class invariant of mixed numbers -/

theorem negate_proper (h : negate t u ⇓ v) : v.Proper := by
  unfold negate at h
  split at h
  all_goals try cases h
  all_goals
    simp only [bind_eq_clean, pure_eq_ok, and_true] at h
    obtain ⟨k, hk, rfl⟩ := h
  all_goals first | trivial | exact (Mixed.neg_ok hk).1

theorem apply_proper {op : ArithOp} {w : Val} (h : apply op l r u v ⇓ w) : w.Proper := by
  unfold apply at h
  split at h
  · simp only [bind_eq_clean, pure_eq_ok, and_true] at h
    obtain ⟨k, hk, rfl⟩ := h
    trivial
  · split at h
    · unfold call at h
      split at h
      all_goals try cases h
      all_goals
        simp only [bind_eq_clean, pure_eq_ok, and_true] at h
        obtain ⟨k, hk, rfl⟩ := h
      all_goals first
        | trivial
        | exact (Mixed.add_ok hk).1
        | exact (Mixed.addFraction_ok hk).2.1
        | exact (Mixed.addWhole_ok hk).1
    · cases h

theorem inst_proper (hm : ∀ x, (m x).Proper) (he : e.Proper) (h : (e.inst Γ m).eval ⇓ v) :
    v.Proper := by
  induction e generalizing v with
  | var x => obtain ⟨rfl, -⟩ := pure_eq_ok.1 h; exact hm x
  | obj t u => obtain ⟨rfl, -⟩ := pure_eq_ok.1 h; exact he
  | pos e ih => exact ih he h
  | neg e ih =>
    rw [VExpr.inst, TExpr.eval] at h
    split at h
    · obtain ⟨u, hu, h⟩ := bind_eq_clean.1 h
      exact negate_proper h
    · cases h
  | bin op l r ih1 ih2 =>
    rw [VExpr.inst, TExpr.eval] at h
    split at h
    · obtain ⟨u, hu, h⟩ := bind_eq_clean.1 h
      obtain ⟨u', hu', h⟩ := bind_eq_clean.1 h
      exact apply_proper h
    · cases h

/-- What an expression evaluates to. -/
theorem inst_exact (hm : m.Holds s) (he : e.Proper) (h : (e.inst Γ m).eval ⇓ v)
    (hq : e.value Γ s = some q) : v.Denotes q ∧ v.Proper :=
  ⟨eval_exact h ((inst_value hm e).trans hq), inst_proper (fun x => (hm x).2) he h⟩

theorem whole_eq {k : Mixed} (hk : k.Invariant) (h : k.Denotes q) : k.whole = ratTrunc q := by
  obtain ⟨y, hy, h1, h2, h3⟩ := hk
  obtain ⟨y', hy', rfl⟩ := h
  obtain rfl := hy.unique hy'
  rw [abs_lt] at h1
  unfold ratTrunc
  rcases lt_trichotomy k.whole 0 with hw | hw | hw
  · have : (k.whole : ℚ) ≤ -1 := by exact_mod_cast (by omega : k.whole ≤ -1)
    have h3 := h3 hw
    rw [if_neg (by linarith)]
    symm; rw [Int.ceil_eq_iff]; constructor <;> linarith
  · rw [hw]
    simp only [Int.cast_zero, zero_add]
    split_ifs with h0
    · symm; rw [Int.floor_eq_iff]; push_cast; constructor <;> linarith
    · symm; rw [Int.ceil_eq_iff]; push_cast; constructor <;> linarith
  · have : (1 : ℚ) ≤ k.whole := by exact_mod_cast hw
    have h2 := h2 hw
    rw [if_pos (by linarith)]
    symm; rw [Int.floor_eq_iff]; constructor <;> linarith

theorem convert_exact (h : convert l r u ⇓ v) (hu : u.Denotes q ∧ u.Proper) :
    v.Denotes q ∧ v.Proper := by
  unfold convert at h
  split at h
  · simp only [bind_eq_clean, pure_eq_ok, and_true] at h
    obtain ⟨k, hk, rfl⟩ := h
    obtain ⟨-, rfl⟩ := conv_clean.1 hk
    exact hu
  · simp only [bind_eq_clean, pure_eq_ok, and_true] at h
    obtain ⟨k, hk, rfl⟩ := h
    obtain ⟨-, rfl⟩ := conv_clean.1 hk
    obtain ⟨rfl, -⟩ := hu
    exact ⟨by norm_num [Val.Denotes, Denotes, Fraction.mk], trivial⟩
  · simp only [bind_eq_clean, pure_eq_ok, and_true] at h
    obtain ⟨k, hk, k', hk', rfl⟩ := h
    obtain ⟨hr, rfl⟩ := conv_clean.1 hk
    obtain ⟨rfl, -⟩ := hu
    obtain ⟨-, h1, -, h2⟩ := Mixed.mk_ok hr (.inr rfl) hk'
    refine ⟨?_, h1⟩
    have := h2 rfl 0 (by norm_num [Denotes, Fraction.default])
    rwa [add_zero] at this
  · simp only [bind_eq_clean, pure_eq_ok, and_true] at h
    obtain ⟨k, hk, rfl⟩ := h
    obtain ⟨-, rfl⟩ := conv_clean.1 hk
    exact hu
  · split_ifs at h
    · obtain ⟨rfl, -⟩ := pure_eq_ok.1 h; exact hu
    · simp only [bind_eq_clean, pure_eq_ok, and_true] at h
      obtain ⟨k, hk, rfl⟩ := h
      obtain ⟨-, rfl⟩ := Raw.conv_clean.1 hk
      exact hu
  · split_ifs at h
    simp only [bind_eq_clean, pure_eq_ok, and_true] at h
    obtain ⟨k, hk, rfl⟩ := h
    obtain ⟨-, h1, -, h2⟩ := Mixed.ofFraction_ok hk
    exact ⟨h2 _ hu.1, h1⟩
  · split_ifs at h
    simp only [bind_eq_clean, pure_eq_ok, and_true] at h
    obtain ⟨k, hk, rfl⟩ := h
    exact ⟨Mixed.asFraction_ok hu.1 hk, trivial⟩
  · split_ifs at h
    obtain ⟨rfl, -⟩ := pure_eq_ok.1 h; exact hu
  · split_ifs at h
    obtain ⟨rfl, -⟩ := pure_eq_ok.1 h; exact hu
  · cases h

theorem compoundAssign_exact {op : ArithOp} {w : Val} (h : compoundAssign op l r u v ⇓ w)
    (hx : u.Denotes x) (hy : v.Denotes y) (hq : binValue op l r x y = some q) :
    w.Denotes q ∧ w.Proper := by
  unfold compoundAssign at h
  split at h
  · simp only [bind_eq_clean, pure_eq_ok, and_true] at h
    obtain ⟨k, hk, k', hk', rfl⟩ := h
    obtain ⟨-, rfl⟩ := conv_clean.1 hk'
    cases hx; cases hy
    exact ⟨builtin_exact hk hq, trivial⟩
  · split at h
    · simp only [bind_eq_clean, pure_eq_ok, and_true] at h
      obtain ⟨k, hk, rfl⟩ := h
      refine ⟨?_, trivial⟩
      rw [binValue] at hq
      · unfold Fraction.assignF at hk
        split_ifs at hk
        · exact (arith_exact (a := .ff _ _) ⟨hx, hy⟩ hk).value hq
        · obtain ⟨b', hb, hk'⟩ := bind_eq_clean.1 hk
          obtain ⟨-, rfl⟩ := Raw.conv_clean.1 hb
          exact (arith_exact (a := .ff _ _) ⟨hx, hy⟩ hk').value hq
      · simp
    · cases h
  · split at h
    · simp only [bind_eq_clean, pure_eq_ok, and_true] at h
      obtain ⟨k, hk, rfl⟩ := h
      refine ⟨?_, trivial⟩
      rw [binValue] at hq
      · unfold Fraction.assignR at hk
        split_ifs at hk
        · exact (arith_exact (a := .fr _ _) ⟨hx, hy⟩ hk).value hq
        · obtain ⟨b', hb, hk'⟩ := bind_eq_clean.1 hk
          obtain ⟨-, rfl⟩ := conv_clean.1 hb
          exact (arith_exact (a := .fr _ _) ⟨hx, hy⟩ hk').value hq
      · simp
    · cases h
  · cases h

theorem cmp_exact {L R : IntTy} {o : Ops} {op : CmpOp} {a : Args} {b : Bool} (ha : a.Denote x y)
    (hs : ¬ op.IsOrder ∨ (∃ f g, a = .ff f g) ∧ o.SafeBased) (h : Fraction.cmp L R o op a ⇓ b) :
    b = true ↔ op.Holds x y := by
  obtain ⟨a', h1, h2⟩ := bind_eq_clean.1 h
  rw [Fraction.toCommon_clean h1] at h2
  rcases hs with hs | ⟨⟨f, g, rfl⟩, hs⟩
  · cases op <;> first | exact (hs trivial).elim | skip
    · exact C13_eq_exact ha h2
    · have := C13_eq_exact ha (C14_ne_not_eq.1 h2)
      simp only [CmpOp.Holds, ne_eq, ← this]
      cases b <;> simp
  · exact C15_safe_ff_exact hs ha.1 ha.2 h2

theorem builtinCmp_iff (op : CmpOp) (a b : ℤ) : builtinCmp op a b = true ↔ op.Holds a b := by
  cases op <;> simp [builtinCmp, CmpOp.Holds]

theorem compare_exact {op : CmpOp} {b : Bool} (h : compare op l r u v ⇓ b)
    (hs : Reliable op (some l) (some r)) (hx : u.Denotes x) (hy : v.Denotes y) :
    b = true ↔ op.Holds x y := by
  unfold compare at h
  split at h
  · simp only [bind_eq_clean, pure_eq_ok, and_true] at h
    obtain ⟨k, hk, k', hk', rfl⟩ := h
    obtain ⟨-, rfl⟩ := conv_clean.1 hk
    obtain ⟨-, rfl⟩ := conv_clean.1 hk'
    cases hx; cases hy
    exact builtinCmp_iff _ _ _
  · split at h
    · exact cmp_exact (a := .ff _ _) ⟨hx, hy⟩ (hs.imp_right fun h => ⟨⟨_, _, rfl⟩, h⟩) h
    · cases h
  · split at h
    · exact cmp_exact (a := .fr _ _) ⟨hx, hy⟩ (hs.imp_right fun h => h.elim) h
    · cases h
  · split at h
    · exact cmp_exact (a := .rf _ _) ⟨hx, hy⟩ (hs.imp_right fun h => h.elim) h
    · cases h
  · cases h

theorem callRun_exact {f : Call} (h : f.run t u ⇓ v) (hu : u.Denotes x ∧ u.Proper)
    (hq : f.value x = some q) : v.Denotes q ∧ v.Proper := by
  unfold Call.run at h
  split at h <;> simp only [Call.value, Option.some.injEq] at hq
  · simp only [bind_eq_clean, pure_eq_ok, and_true] at h
    obtain ⟨k, hk, rfl⟩ := h
    subst hq
    refine ⟨?_, trivial⟩
    rw [Val.Denotes, (Fraction.trunc_ok hu.1 hk).1]
  · simp only [bind_eq_clean, pure_eq_ok, and_true] at h
    obtain ⟨k, hk, rfl⟩ := h
    subst hq
    exact ⟨(C27_abs_exact hu.1 hk).1, trivial⟩
  · obtain ⟨rfl, -⟩ := pure_eq_ok.1 h
    split_ifs at hq with h0
    cases hq
    exact ⟨(C26_reciprocal _).1 _ hu.1 h0, trivial⟩
  · obtain ⟨rfl, -⟩ := pure_eq_ok.1 h
    subst hq
    refine ⟨?_, trivial⟩
    rw [Val.Denotes, whole_eq hu.2 hu.1]
  · obtain ⟨rfl, -⟩ := pure_eq_ok.1 h
    subst hq
    refine ⟨?_, trivial⟩
    rw [← whole_eq hu.2 hu.1]
    obtain ⟨y, hy, rfl⟩ := hu.1
    rw [add_sub_cancel_left]
    exact hy
  · simp only [bind_eq_clean, pure_eq_ok, and_true] at h
    obtain ⟨k, hk, rfl⟩ := h
    subst hq
    exact ⟨Mixed.asFraction_ok hu.1 hk, trivial⟩
  · cases h

theorem test_exact {op : CmpOp} {e1 e2 : VExpr} {b : Bool} (hm : m.Holds s) (p1 : e1.Proper)
    (p2 : e2.Proper) (hr : Reliable op (e1.ty Γ) (e2.ty Γ)) (h1 : e1.value Γ s = some x)
    (h2 : e2.value Γ s = some y) (h : Stmt.test Γ m op e1 e2 ⇓ b) : b = true ↔ op.Holds x y := by
  unfold Stmt.test at h
  split at h
  · rename_i a b ha hb
    simp only [bind_eq_clean] at h
    obtain ⟨u, hu, v, hv, h⟩ := h
    rw [ha, hb] at hr
    exact compare_exact h hr (inst_exact hm p1 hu h1).1 (inst_exact hm p2 hv h2).1
  · cases h

theorem set_holds (hm : m.Holds s) {z : ℕ} (h : v.Denotes q ∧ v.Proper) :
    (m.set z v).Holds (put s z q) := by
  intro w
  by_cases hw : w = z
  · simpa only [Vars.set, put, hw, if_true] using h
  · simpa only [Vars.set, put, hw, if_false] using hm w

theorem set_hasTy (hm : m.HasTy Γ) {z : ℕ} (h : v.HasTy (Γ z)) : (m.set z v).HasTy Γ := by
  intro w
  by_cases hw : w = z
  · subst hw; simpa only [Vars.set, if_true] using h
  · simpa only [Vars.set, hw, if_false] using hm w

/-! ### Programs that compile -/

/-- Whatever is returned satisfies `P`, and there is no exception and no rejection. -/
def Fine {α : Type} (P : α → Prop) (x : Res α) : Prop := x.All P ∧ x.NoThrow

theorem Fine.pure {α : Type} {P : α → Prop} {a : α} (h : P a) : Fine P (Pure.pure a : Res α) :=
  ⟨.pure h, .pure a⟩

theorem Fine.bind {α β : Type} {P : α → Prop} {Q : β → Prop} {x : Res α} {f : α → Res β}
    (h : Fine P x) (hf : ∀ a, P a → Fine Q (f a)) : Fine Q (x >>= f) := by
  refine ⟨h.1.bind fun a ha => (hf a ha).1, ?_⟩
  cases x with
  | fault k => intro k' he; rw [fault_bind] at he; cases he; exact h.2 k rfl
  | ok a w =>
    have := (hf a (h.1 a w rfl)).2
    intro k' he
    rw [bind_def, Res.bind] at he
    cases hfa : f a with
    | fault k => rw [hfa] at he this; cases he; exact this _ rfl
    | ok b w => rw [hfa] at he; cases he

variable {T L R W F W' F' : IntTy} {o : Ops} {f g : Raw}

theorem negate_noThrow (f : Raw) : (o.negate T f).NoThrow := by
  induction o generalizing f with
  | safe => exact (Ieme.arith_noThrow _).bind fun _ => .pure _
  | fast => exact (Ieme.arith_noThrow _).bind fun _ => .pure _
  | reducedInput o mode ih => exact (Raw.reduce_noThrow _ f).bind fun _ => ih _
  | reducedOutput o mode ih => exact (ih f).bind fun _ => Raw.reduce_noThrow mode _

theorem isImproper_noThrow (f : Raw) : (f.isImproper T).NoThrow := by
  unfold Raw.isImproper Raw.isProper mathAbs IntTy.neg; nothrow

theorem assignF_noThrow (op : ArithOp) : (Fraction.assignF L R o op f g).NoThrow := by
  unfold Fraction.assignF
  split
  · exact Fraction.arith_noThrow _ _ _ _ _
  · exact (Raw.conv_noThrow _).bind fun _ => Fraction.arith_noThrow _ _ _ _ _

theorem assignR_noThrow (op : ArithOp) (n : ℤ) : (Fraction.assignR L R o op f n).NoThrow := by
  unfold Fraction.assignR
  split
  · exact Fraction.arith_noThrow _ _ _ _ _
  · exact (conv_noThrow _).bind fun _ => Fraction.arith_noThrow _ _ _ _ _

theorem mk_noThrow (w : ℤ) (f : Raw) : (Mixed.mk' W F o w f).NoThrow := by
  unfold Mixed.mk' Mixed.fix
  refine .bind ?_ fun k => ?_
  · unfold Mixed.fixImproper
    refine .bind (isImproper_noThrow _) fun i => ?_
    split
    · exact (div_noThrow _ _).bind fun _ => (conv_noThrow _).bind fun _ =>
        (Ieme.arith_noThrow _).bind fun _ => (assignR_noThrow _ _).bind fun _ => .pure _
    · exact .pure _
  · unfold Mixed.fixSigns
    split
    · exact (Ieme.arith_noThrow _).bind fun _ => (Fraction.arith_noThrow _ _ _ _ _).bind fun _ =>
        .pure _
    · split
      · exact (Ieme.arith_noThrow _).bind fun _ => (Ieme.arith_noThrow _).bind fun _ =>
          (Fraction.arith_noThrow _ _ _ _ _).bind fun _ => .pure _
      · exact .pure _

theorem ofFraction_noThrow : (Mixed.ofFraction W F o T f).NoThrow :=
  (div_noThrow _ _).bind fun _ => (conv_noThrow _).bind fun _ => (conv_noThrow _).bind fun _ =>
    (Fraction.arith_noThrow _ _ _ _ _).bind fun _ => (Raw.conv_noThrow _).bind fun _ => .pure _

theorem asFraction_noThrow (k : Mixed) : (k.asFraction W F o).NoThrow :=
  (conv_noThrow _).bind fun _ => (Raw.conv_noThrow _).bind fun _ => Fraction.arith_noThrow _ _ _ _ _

theorem mixedAdd_noThrow (k k' : Mixed) : (Mixed.add W F W' F' o k k').NoThrow :=
  (conv_noThrow _).bind fun _ => (conv_noThrow _).bind fun _ => (Ieme.arith_noThrow _).bind fun _ =>
    (Raw.conv_noThrow _).bind fun _ => (Raw.conv_noThrow _).bind fun _ =>
    (Fraction.arith_noThrow _ _ _ _ _).bind fun _ => mk_noThrow _ _

theorem addFraction_noThrow (k : Mixed) : (Mixed.addFraction W F T o k f).NoThrow :=
  ofFraction_noThrow.bind fun _ => mixedAdd_noThrow _ _

theorem addWhole_noThrow (k : Mixed) (n : ℤ) : (Mixed.addWhole W F T o k n).NoThrow :=
  (conv_noThrow _).bind fun _ => (conv_noThrow _).bind fun _ => (Ieme.arith_noThrow _).bind fun _ =>
    mk_noThrow _ _

theorem builtin_noThrow (op : ArithOp) (a b : ℤ) : (builtin L R op a b).NoThrow := by
  refine (conv_noThrow _).bind fun _ => (conv_noThrow _).bind fun _ => ?_
  cases op <;> simp only [IntTy.add, IntTy.sub, IntTy.mul] <;> nothrow

theorem negate_fine (hu : u.HasTy t) : Fine (fun v => v.HasTy t.neg) (negate t u) := by
  refine ⟨negate_type hu, ?_⟩
  cases t <;> cases u <;> first | exact absurd hu id | skip
  · exact (Ieme.arith_noThrow _).bind fun _ => .pure _
  · exact (negate_noThrow _).bind fun _ => .pure _
  · refine .bind ?_ fun _ => .pure _
    exact (Ieme.arith_noThrow _).bind fun _ => (negate_noThrow _).bind fun _ => mk_noThrow _ _
  · refine .bind ?_ fun _ => .pure _
    exact (conv_noThrow _).bind fun _ => (Ieme.arith_noThrow _).bind fun _ => .pure _

theorem apply_fine {op : ArithOp} (hu : u.HasTy l) (hv : v.HasTy r) (hb : Ty.bin op l r = some t) :
    Fine (fun w => w.HasTy t) (apply op l r u v) := by
  refine ⟨apply_type hu hv hb, ?_⟩
  rcases bin_some hb with ⟨A, B, rfl, rfl, rfl⟩ | h <;> clear hb
  · cases u <;> first | exact absurd hu id | skip
    cases v <;> first | exact absurd hv id | skip
    exact (builtin_noThrow _ _ _).bind fun _ => .pure _
  · cases l <;> cases u <;> first | exact absurd hu id | skip
    all_goals cases r <;> cases v <;> first | exact absurd hv id | skip
    all_goals cases op <;> simp only [signature, reduceCtorEq] at h
    all_goals try split_ifs at h with ho
    all_goals try subst ho
    all_goals simp only [apply, resolve_eq, if_true, call]
    all_goals first
      | exact (Fraction.arith_noThrow _ _ _ _ _).bind fun _ => .pure _
      | exact (mixedAdd_noThrow _ _).bind fun _ => .pure _
      | exact (addFraction_noThrow _).bind fun _ => .pure _
      | exact (addWhole_noThrow _ _).bind fun _ => .pure _
      | exact NoThrow.bind ((conv_noThrow _).bind fun _ => Fraction.arith_noThrow _ _ _ _ _)
          fun _ => .pure _
      | exact NoThrow.bind ((conv_noThrow _).bind fun _ => .pure _) fun _ => .pure _

theorem eval_fine {e : TExpr} (hw : e.WellTyped) (h : e.ty = some t) :
    Fine (fun v => v.HasTy t) e.eval := by
  induction e generalizing t with
  | leaf t' u => cases h; exact .pure hw
  | pos e ih => exact ih hw h
  | neg e ih =>
    obtain ⟨t', h', rfl⟩ := Option.map_eq_some_iff.1 h
    rw [TExpr.eval, h']
    exact (ih hw h').bind fun _ hv => negate_fine hv
  | bin op l r ih1 ih2 =>
    simp only [TExpr.ty, Option.bind_eq_some_iff] at h
    obtain ⟨a, ha, b, hb, h⟩ := h
    rw [TExpr.eval, ha, hb]
    exact (ih1 hw.1 ha).bind fun _ hu => (ih2 hw.2 hb).bind fun _ hv => apply_fine hu hv h

theorem convert_fine (hu : u.HasTy l) (hc : l.converts r = true) :
    Fine (fun v => v.HasTy r) (convert l r u) := by
  cases l <;> cases u <;> first | exact absurd hu id | skip
  all_goals cases r <;> simp only [Ty.converts, decide_eq_true_eq, Bool.false_eq_true] at hc
  · exact Fine.bind ⟨conv_all, conv_noThrow _⟩ fun _ h => .pure h
  · exact Fine.bind ⟨conv_all, conv_noThrow _⟩ fun _ h => .pure ⟨h, inRange_one⟩
  · refine Fine.bind ⟨conv_all, conv_noThrow _⟩ fun _ h =>
      Fine.bind ⟨Mixed.mk_all h ?_, mk_noThrow _ _⟩ fun _ h => .pure h
    exact ⟨inRange_zero, inRange_one⟩
  · rename_i s _
    refine Fine.bind ⟨conv_all, conv_noThrow _⟩ fun _ h => .pure ?_
    cases s <;> exact h
  · subst hc
    simp only [convert, if_true]
    split
    · rename_i hs; subst hs; exact .pure hu
    · exact Fine.bind ⟨Raw.conv_all, Raw.conv_noThrow _⟩ fun _ h => .pure h
  · subst hc
    simp only [convert, if_true]
    exact Fine.bind ⟨Mixed.ofFraction_all, ofFraction_noThrow⟩ fun _ h => .pure h
  · obtain ⟨rfl, rfl⟩ := hc
    simp only [convert, and_self, if_true]
    exact Fine.bind ⟨Mixed.asFraction_all, asFraction_noThrow _⟩ fun _ h => .pure h
  · obtain ⟨rfl, rfl, rfl⟩ := hc
    simp only [convert, and_self, if_true]
    exact .pure hu
  · obtain ⟨rfl, rfl⟩ := hc
    simp only [convert, and_self, if_true]
    exact .pure hu

theorem compoundAssign_fine {op : ArithOp} (hu : u.HasTy l) (hv : v.HasTy r)
    (hc : l.compounds r = true) : Fine (fun w => w.HasTy l) (compoundAssign op l r u v) := by
  cases l <;> cases u <;> first | exact absurd hu id | skip
  all_goals cases r <;> cases v <;> first | exact absurd hv id | skip
  all_goals simp only [Ty.compounds, resolveAssign_eq, Bool.false_eq_true] at hc
  · exact ⟨.bind' fun _ => .bind conv_all fun _ h => .pure h,
      (builtin_noThrow _ _ _).bind fun _ => (conv_noThrow _).bind fun _ => .pure _⟩
  · exact Fine.bind ⟨Fraction.assignR_all hu hv, assignR_noThrow _ _⟩ fun _ h => .pure h
  · rename_i o _ _ o' _
    by_cases ho : o = o'
    · subst ho
      simp only [compoundAssign, resolveAssign_eq, if_true]
      exact Fine.bind ⟨Fraction.assignF_all hu hv, assignF_noThrow _⟩ fun _ h => .pure h
    · simp [ho] at hc

theorem cmp_noThrow {op : CmpOp} {a : Args} (ha : a.HaveTypes L R) :
    (Fraction.cmp L R o op a).NoThrow := by
  refine Fine.bind (P := Args.InRange (IntTy.common L R)) (Q := fun _ => True)
    ⟨Fraction.toCommon_all ha, ?_⟩ (fun a ha => ⟨fun _ _ _ => trivial, ?_⟩) |>.2
  · cases a <;> simp only [Fraction.toCommon] <;>
    repeat' first
      | exact NoThrow.pure _
      | exact Raw.conv_noThrow _
      | exact Ieme.conv_noThrow _
      | (refine NoThrow.bind ?_ fun _ => ?_)
      | split
  · intro k hk
    have := (Ops.cmp_faults ha).fault hk
    refine ⟨?_, ?_⟩ <;> rintro rfl <;> exact this

theorem compare_fine {op : CmpOp} (hu : u.HasTy l) (hv : v.HasTy r)
    (hc : l.compares r = true) : Fine (fun _ => True) (compare op l r u v) := by
  refine ⟨fun _ _ _ => trivial, ?_⟩
  cases l <;> cases u <;> first | exact absurd hu id | skip
  all_goals cases r <;> cases v <;> first | exact absurd hv id | skip
  all_goals simp only [Ty.compares, resolveCmp_eq, Bool.false_eq_true] at hc
  · exact (conv_noThrow _).bind fun _ => (conv_noThrow _).bind fun _ => .pure _
  · exact cmp_noThrow ⟨hu, hv⟩
  · exact cmp_noThrow ⟨hu, hv⟩
  · rename_i o _ _ o' _
    by_cases ho : o = o'
    · subst ho
      simp only [compare, resolveCmp_eq, if_true]
      exact cmp_noThrow ⟨hu, hv⟩
    · simp [ho] at hc

theorem callRun_fine {f : Call} (hu : u.HasTy l) (hc : f.ty l = some t) :
    Fine (fun v => v.HasTy t) (f.run l u) := by
  cases f <;> cases l <;> simp only [Call.ty, reduceCtorEq, Option.some.injEq] at hc <;>
    cases u <;> first | exact absurd hu id | skip
  all_goals subst hc
  · exact Fine.bind ⟨Fraction.trunc_all, div_noThrow _ _⟩ fun _ h => .pure h
  · refine Fine.bind ⟨Fraction.abs_all hu, ?_⟩ fun _ h => .pure h
    unfold Fraction.abs
    split
    · exact .pure _
    · exact negate_noThrow _
  · exact .pure ⟨hu.2, hu.1⟩
  · exact .pure hu.1
  · exact .pure hu.2
  · exact Fine.bind ⟨Mixed.asFraction_all, asFraction_noThrow _⟩ fun _ h => .pure h

theorem test_fine {op : CmpOp} {e1 e2 : VExpr} (hm : m.HasTy Γ) (h1 : e1.Objects) (h2 : e2.Objects)
    (hc : ∃ a b, e1.ty Γ = some a ∧ e2.ty Γ = some b ∧ a.compares b = true) :
    Fine (fun _ => True) (Stmt.test Γ m op e1 e2) := by
  obtain ⟨a, b, ha, hb, hc⟩ := hc
  simp only [Stmt.test, ha, hb]
  exact (eval_fine (inst_wellTyped hm h1) ((inst_ty _ _ _).trans ha)).bind fun _ hu =>
    (eval_fine (inst_wellTyped hm h2) ((inst_ty _ _ _).trans hb)).bind fun _ hv =>
      compare_fine hu hv hc

theorem exec_fine {c : Stmt} (hc : c.Compiles Γ) (ho : c.All VExpr.Objects) (hm : m.HasTy Γ) (n : ℕ) :
    Fine (fun r => ∀ m', r = some m' → m'.HasTy Γ) (c.exec Γ n m) := by
  induction n generalizing c m with
  | zero => exact .pure (by simp)
  | succ n ih =>
    have ex {e : VExpr} {t : Ty} (ho : e.Objects) (h : e.ty Γ = some t) :=
      eval_fine (inst_wellTyped hm ho) ((inst_ty Γ m e).trans h)
    have set {x : ℕ} {v : Val} (hv : v.HasTy (Γ x)) : Fine (fun r => ∀ m', r = some m' → m'.HasTy Γ)
        (Pure.pure (some (m.set x v)) : Res (Option Vars)) := by
      refine .pure fun m' h => ?_
      cases h; exact set_hasTy hm hv
    cases c with
    | skip => exact .pure fun m' h => by cases h; exact hm
    | assign x e =>
      obtain ⟨t, ht, hc⟩ := hc
      simp only [Stmt.exec, ht]
      exact (ex ho ht).bind fun _ hu => (convert_fine hu hc).bind fun _ hv => set hv
    | compound op x e =>
      obtain ⟨t, ht, hc⟩ := hc
      simp only [Stmt.exec, ht]
      exact (ex ho ht).bind fun _ hu => (compoundAssign_fine (hm x) hu hc).bind fun _ hv => set hv
    | call f x e =>
      obtain ⟨t, t', ht, ht', hc⟩ := hc
      simp only [Stmt.exec, ht, ht']
      exact (ex ho ht).bind fun _ hu => (callRun_fine hu ht').bind fun _ hr =>
        (convert_fine hr hc).bind fun _ hv => set hv
    | seq c d =>
      rw [Stmt.exec]
      refine (ih hc.1 ho.1 hm).bind fun r hr => ?_
      cases r with
      | none => exact .pure (by simp)
      | some m1 => exact ih hc.2 ho.2 (hr m1 rfl)
    | ite op e1 e2 c d =>
      rw [Stmt.exec]
      refine (test_fine hm ho.1 ho.2.1 hc.1).bind fun b _ => ?_
      split
      · exact ih hc.2.1 ho.2.2.1 hm
      · exact ih hc.2.2 ho.2.2.2 hm
    | loop op e1 e2 c =>
      rw [Stmt.exec]
      refine (test_fine hm ho.1 ho.2.1 hc.1).bind fun b _ => ?_
      split
      · refine (ih hc.2 ho.2.2 hm).bind fun r hr => ?_
        cases r with
        | none => exact .pure (by simp)
        | some m1 => exact ih hc ho (hr m1 rfl)
      · exact .pure fun m' h => by cases h; exact hm

/-! ### Statements that do not compile -/

theorem convert_none (h : l.converts r = false) : (convert l r u).All fun _ => False := by
  cases l <;> cases r <;> cases u <;> simp only [Ty.converts, decide_eq_false_iff_not,
    reduceCtorEq] at h <;> simp only [convert, h, if_false] <;> exact .fault

theorem compoundAssign_none {op : ArithOp} (h : l.compounds r = false) :
    (compoundAssign op l r u v).All fun _ => False := by
  unfold compoundAssign
  split
  · simp [Ty.compounds] at h
  · split
    · rename_i he; simp [Ty.compounds, he] at h
    · exact .fault
  · split
    · rename_i he; simp [Ty.compounds, he] at h
    · exact .fault
  · exact .fault

/-! ### One representation and policy -/

theorem typed_inst (T : IntTy) (o : Ops) (k : Mem) (e : PExpr) :
    (e.typed T o).inst (fun _ => .frac T o) (fun x => .frac (k x)) = (e.inst k).typed T o := by
  induction e with
  | var x => rfl
  | lit f => rfl
  | neg e ih => simp only [PExpr.typed, VExpr.inst, PExpr.inst, Expr.typed, ih]
  | pos e ih => simp only [PExpr.typed, VExpr.inst, PExpr.inst, Expr.typed, ih]
  | ff op a b ih1 ih2 => simp only [PExpr.typed, VExpr.inst, PExpr.inst, Expr.typed, ih1, ih2]
  | fr op a n ih => simp only [PExpr.typed, VExpr.inst, PExpr.inst, Expr.typed, ih]
  | rf op n b ih => simp only [PExpr.typed, VExpr.inst, PExpr.inst, Expr.typed, ih]

theorem typed_ty (T : IntTy) (o : Ops) (e : PExpr) :
    (e.typed T o).ty (fun _ => .frac T o) = some (.frac T o) := by
  rw [← inst_ty _ (fun _ => .frac ⟨0, 1⟩), typed_inst T o fun _ => ⟨0, 1⟩]
  exact (typed_eval T o _).1

theorem typed_test (T : IntTy) (o : Ops) (k : Mem) (op : CmpOp) (e1 e2 : PExpr) :
    Stmt.test (fun _ => .frac T o) (fun x => .frac (k x)) op (e1.typed T o) (e2.typed T o) =
      Cmd.test T o k op e1 e2 := by
  simp only [Stmt.test, typed_ty, typed_inst, (typed_eval T o _).2, Cmd.test, bind_assoc, pure_bind,
    compare, resolveCmp_eq, if_true]

theorem typed_exec (c : Cmd) (T : IntTy) (o : Ops) (k : Mem) (n : ℕ) :
    (c.typed T o).exec (fun _ => .frac T o) n (fun x => .frac (k x)) =
      (do return (← c.exec T o n k).map fun k' x => .frac (k' x)) := by
  induction n generalizing c k with
  | zero => simp [Stmt.exec, Cmd.exec]
  | succ n ih =>
    have opt (d : Cmd) (r : Option Mem) :
        (match r.map fun (k' : Mem) (x : ℕ) => Val.frac (k' x) with
          | none => (Pure.pure none : Res (Option Vars))
          | some m' => (d.typed T o).exec (fun _ => .frac T o) n m') =
        (do return (← (match r with
          | none => Pure.pure none
          | some k' => d.exec T o n k')).map fun k' x => .frac (k' x)) := by
      cases r with
      | none => simp
      | some k' => exact ih d k'
    cases c with
    | skip => simp [Cmd.typed, Stmt.exec, Cmd.exec]
    | assign x e =>
      simp only [Cmd.typed, Stmt.exec, Cmd.exec, typed_ty, typed_inst, (typed_eval T o _).2,
        bind_assoc, pure_bind, convert, if_true, Option.map_some]
      congr 1; funext v; congr 2; funext y
      simp only [Vars.set]; split <;> rfl
    | seq c d =>
      simp only [Cmd.typed, Stmt.exec, Cmd.exec, ih, bind_assoc, pure_bind]
      congr 1; funext r; exact opt d r
    | ite op e1 e2 c d =>
      simp only [Cmd.typed, Stmt.exec, Cmd.exec, typed_test, ih, bind_assoc]
      congr 1; funext b; split <;> rfl
    | loop op e1 e2 c =>
      simp only [Cmd.typed, Stmt.exec, Cmd.exec, typed_test, bind_assoc]
      congr 1; funext b; split
      · simp only [ih, bind_assoc, pure_bind]
        congr 1; funext r; exact opt (.loop op e1 e2 c) r
      · simp

end Ieme.Overload
