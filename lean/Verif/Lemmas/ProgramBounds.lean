import Verif.Lemmas.Bounds
import Verif.Spec.ProgramBounds
import Verif.Spec.ProgramSign
import Verif.Props.Program

/-!
# The static check of a program bounds its run
-/

namespace Ieme

open Res IntTy

variable {T : IntTy} {o : Ops} {A B : Bound} {K : ℤ}

theorem Fit.mono' {x : ℤ} {k k' : ℕ} (h : Fit T k x) (hk : k ≤ k') : Fit T k' x :=
  ⟨h.1.trans hk, h.2⟩

theorem Args.FitB.ff {l r : Raw} (hl : l.FitB T A) (hr : r.FitB T B) :
    (Args.ff l r).FitB T A B := ⟨hl, hr⟩

/-- A comparison within the static bounds finishes. -/
theorem Ops.cmp_fitB {op : CmpOp} {l r : Raw} (hl : l.FitB T A) (hr : r.FitB T B)
    (hA : A.Le T.max) (hB : B.Le T.max) (hc : A.Comparable B T.max) (l0 : l.den ≠ 0)
    (r0 : r.den ≠ 0) : ∃ b, o.cmp T op (.ff l r) ⇓ b := by
  obtain ⟨c1, c2, c3⟩ := hc
  induction o generalizing l r with
  | safe =>
    obtain ⟨k, m, hk, hm, fL, fk, fm, hk0, hm0⟩ := lcm_fit l0 r0 hl.2 hr.2
    by_cases h : op.HoldsInt (l.num * k) (r.num * m)
    · refine ⟨true, (C85_safe_cmp_iff (hl.inRange hA) (hr.inRange hB)).2 (.inr ⟨l0, r0,
        fL.inRange c3, l.num * k, r.num * m, ?_, ?_, (hl.1.mul fk).inRange c1,
        (hr.1.mul fm).inRange c2, by simp [h]⟩)⟩
      · rw [hk]; ring
      · rw [hm]; ring
    · refine ⟨false, (C85_safe_cmp_iff (hl.inRange hA) (hr.inRange hB)).2 (.inr ⟨l0, r0,
        fL.inRange c3, l.num * k, r.num * m, ?_, ?_, (hl.1.mul fk).inRange c1,
        (hr.1.mul fm).inRange c2, by simp [h]⟩)⟩
      · rw [hk]; ring
      · rw [hm]; ring
  | fast =>
    have hu : ¬ (Args.ff l r).HasUndefined := by simp [Args.HasUndefined, l0, r0]
    by_cases h : op.HoldsInt (l.num * r.den) (r.num * l.den)
    · exact ⟨true, (C85_fast_cmp_iff ((Args.FitB.ff hl hr).inRange hA hB)).2
        ⟨(hl.1.mul hr.2).inRange c1, (hr.1.mul hl.2).inRange c2, fun h => absurd h hu,
          fun _ => by simp [h, Args.left, Args.right]⟩⟩
    · exact ⟨false, (C85_fast_cmp_iff ((Args.FitB.ff hl hr).inRange hA hB)).2
        ⟨(hl.1.mul hr.2).inRange c1, (hr.1.mul hl.2).inRange c2, fun h => absurd h hu,
          fun _ => by simp [h, Args.left, Args.right]⟩⟩
  | reducedInput o mode ih =>
    obtain ⟨l', hl', fl'⟩ := hl.reduce hA mode
    obtain ⟨r', hr', fr'⟩ := hr.reduce hB mode
    have dl := (Raw.reduce_denotes ⟨l0, rfl⟩ hl').1
    have dr := (Raw.reduce_denotes ⟨r0, rfl⟩ hr').1
    obtain ⟨b, hb⟩ := ih fl' fr' dl dr
    exact ⟨b, by simp only [Ops.cmp, Args.reduce, hl', hr', ok_bind_false, pure_def, hb]⟩
  | reducedOutput o mode ih => exact ih hl hr l0 r0

/-- One bound is no larger than another. -/
def Bound.LeB (a b : Bound) : Prop := a.num ≤ b.num ∧ a.den ≤ b.den

theorem ArithOp.bound_mono {op : ArithOp} {a b a' b' : Bound} (ha : a.LeB a') (hb : b.LeB b') :
    (op.bound a b).LeB (op.bound a' b') := by
  obtain ⟨h1, h2⟩ := ha
  obtain ⟨h3, h4⟩ := hb
  cases op <;> simp only [ArithOp.bound, Bound.LeB] <;> constructor <;>
    first | exact Nat.add_le_add (Nat.mul_le_mul ‹_› ‹_›) (Nat.mul_le_mul ‹_› ‹_›)
          | exact Nat.mul_le_mul ‹_› ‹_›

theorem Bound.LeB.le {a b : Bound} (h : a.LeB b) (hb : b.Le K) : a.Le K := by
  obtain ⟨h1, h2⟩ := h
  obtain ⟨h3, h4⟩ := hb
  constructor <;> omega

theorem ArithOp.Bounded.mono {op : ArithOp} {a b a' b' : Bound} (ha : a.LeB a') (hb : b.LeB b')
    (h : op.Bounded a' b' K) : op.Bounded a b K := by
  refine ⟨(ArithOp.bound_mono ha hb).le h.1, fun e => ?_⟩
  have h1 := h.2 e
  have h2 : b.num * a.den ≤ b'.num * a'.den := Nat.mul_le_mul hb.1 ha.2
  omega

theorem Bound.LeB.refl (a : Bound) : a.LeB a := ⟨le_rfl, le_rfl⟩

theorem PExpr.inst_bound {A : Bounds} {m : Mem} (h : m.Within T A) (e : PExpr) :
    (e.inst m).bound.LeB (e.bound A) := by
  induction e with
  | var x => exact ⟨(h x).1, (h x).2.1⟩
  | lit f => exact .refl _
  | neg e ih => exact ih
  | pos e ih => exact ih
  | ff op e1 e2 ih1 ih2 => exact ArithOp.bound_mono ih1 ih2
  | fr op e n ih => exact ArithOp.bound_mono ih (.refl _)
  | rf op n e ih => exact ArithOp.bound_mono (.refl _) ih

theorem PExpr.inst_bounded {A : Bounds} {m : Mem} (h : m.Within T A) {e : PExpr}
    (hb : e.Bounded K A) : (e.inst m).Bounded K := by
  induction e with
  | var x => exact (show (m x).bound.LeB (A x) from ⟨(h x).1, (h x).2.1⟩).le hb
  | lit f => exact hb
  | neg e ih => exact ih hb
  | pos e ih => exact ih hb
  | ff op e1 e2 ih1 ih2 =>
    exact ⟨ih1 hb.1, ih2 hb.2.1, hb.2.2.mono (e1.inst_bound h) (e2.inst_bound h)⟩
  | fr op e n ih => exact ⟨ih hb.1, hb.2.1, hb.2.2.mono (e.inst_bound h) (.refl _)⟩
  | rf op n e ih => exact ⟨ih hb.1, hb.2.1, hb.2.2.mono (.refl _) (e.inst_bound h)⟩

theorem PExpr.inst_nonneg {A : Bounds} {m : Mem} (h : m.Within T A) (hs : T.signed = false)
    {e : PExpr} (hb : e.Bounded T.max A) (hn : e.StaysNonneg) :
    (e.inst m).NoMinus ∧ (e.inst m).LeavesInRange T := by
  have hmin : T.min = 0 := by simp [IntTy.min, hs]
  have int : ∀ {n : ℤ}, 0 ≤ n → (intBound n).Le T.max → T.InRange n := fun h1 h2 => by
    have := h2.1
    simp only [intBound] at this
    exact ⟨by omega, by omega⟩
  induction e with
  | var x =>
    have hx := h x
    have h1 := hx.2.2 hs
    have h2 := hb.1
    have h3 := hb.2
    refine ⟨trivial, ⟨?_, ?_⟩, ?_, ?_⟩ <;> omega
  | lit f =>
    have h1 := hn
    have h2 := hb.1
    have h3 := hb.2
    simp only [PExpr.StaysNonneg, Raw.bound] at h1 h2 h3
    refine ⟨trivial, ⟨?_, ?_⟩, ?_, ?_⟩ <;> omega
  | neg e ih => exact hn.elim
  | pos e ih => exact ih hb hn
  | ff op e1 e2 ih1 ih2 =>
    have a := ih1 hb.1 hn.2.1
    have b := ih2 hb.2.1 hn.2.2
    exact ⟨⟨hn.1, a.1, b.1⟩, a.2, b.2⟩
  | fr op e n ih =>
    have a := ih hb.1 hn.2.1
    exact ⟨⟨hn.1, a.1⟩, a.2, int hn.2.2 hb.2.1⟩
  | rf op n e ih =>
    have a := ih hb.1 hn.2.1
    exact ⟨⟨hn.1, a.1⟩, int hn.2.2 hb.2.1, a.2⟩

theorem PExpr.bound_le {A : Bounds} {e : PExpr} (h : e.Bounded K A) : (e.bound A).Le K := by
  cases e with
  | var x => exact h
  | lit f => exact h
  | neg e => exact PExpr.bound_le (e := e) h
  | pos e => exact PExpr.bound_le (e := e) h
  | ff op e1 e2 => exact h.2.2.1
  | fr op e n => exact h.2.2.1
  | rf op n e => exact h.2.2.1

variable {s : ℕ → ℚ} {m : Mem} {V : Bounds}

theorem PExpr.eval_within {e : PExpr} {q : ℚ} (hm : m.Holds s) (hw : m.Within T V)
    (hb : e.Bounded T.max V) (hn : T.signed = true ∨ e.StaysNonneg) (hv : e.value s = some q) :
    ∃ r, (e.inst m).eval T o ⇓ r ∧ Denotes r q ∧ r.FitB T (e.bound V) := by
  have hi : T.signed = true ∨ (e.inst m).NoMinus ∧ (e.inst m).LeavesInRange T := by
    cases hs : T.signed
    · exact .inr (PExpr.inst_nonneg hw hs hb (hn.resolve_left (by simp [hs])))
    · exact .inl rfl
  obtain ⟨r, h, f⟩ := Expr.eval_fitB (o := o) ((hm.value e).trans hv) (PExpr.inst_bounded hw hb) hi
  have hl := e.inst_bound hw
  exact ⟨r, h, C11_expressions_exact h ((hm.value e).trans hv), f.1.mono' hl.1, f.2.mono' hl.2⟩

theorem Cmd.test_within {op : CmpOp} {e1 e2 : PExpr} {p q : ℚ} (hm : m.Holds s)
    (hw : m.Within T V) (hb : e1.CondBounded T.max V e2)
    (hn : T.signed = true ∨ e1.StaysNonneg ∧ e2.StaysNonneg) (h1 : e1.value s = some p)
    (h2 : e2.value s = some q) : ∃ b, Cmd.test T o m op e1 e2 ⇓ b := by
  obtain ⟨r1, g1, d1, f1⟩ := PExpr.eval_within (o := o) hm hw hb.1 (hn.imp_right (·.1)) h1
  obtain ⟨r2, g2, d2, f2⟩ := PExpr.eval_within (o := o) hm hw hb.2.1 (hn.imp_right (·.2)) h2
  obtain ⟨b, hb⟩ := Ops.cmp_fitB (o := o) (op := op) f1 f2 (PExpr.bound_le hb.1)
    (PExpr.bound_le hb.2.1) hb.2.2 d1.1 d2.1
  exact ⟨b, by simp only [Cmd.test, g1, g2, ok_bind_false, Fraction.cmp_self, hb]⟩

theorem Mem.Within.mono {V W : Bounds} (h : m.Within T V) (hle : ∀ x, (V x).LeB (W x)) :
    m.Within T W := fun x =>
  ⟨(h x).1.trans (hle x).1, (h x).2.1.trans (hle x).2, (h x).2.2⟩

/-- The run completed within the bounds, if the outcome has any. -/
def Outcome.Admits (T : IntTy) : Outcome → Mem → Prop
  | .unreached, _ => False
  | .within A, m => m.Within T A

theorem Outcome.join_left {x y : Outcome} (h : x.Admits T m) : (x.join y).Admits T m := by
  cases x with
  | unreached => exact h.elim
  | within A =>
    cases y with
    | unreached => exact h
    | within B => exact Mem.Within.mono h fun x => ⟨le_max_left _ _, le_max_left _ _⟩

theorem Outcome.join_right {x y : Outcome} (h : y.Admits T m) : (x.join y).Admits T m := by
  cases y with
  | unreached => exact h.elim
  | within A =>
    cases x with
    | unreached => exact h
    | within B => exact Mem.Within.mono h fun x => ⟨le_max_right _ _, le_max_right _ _⟩

/-- A checked program runs without overflow: it uses up its steps or completes within the
bounds. -/
theorem Cmd.exec_within {c : Cmd} {s s' : ℕ → ℚ} {n : ℕ} {R : Outcome} (hr : Runs c s s')
    (hm : m.Holds s) (hw : m.Within T V) (ho : o.SafeBased ∨ c.OnlyEquality)
    (hn : T.signed = true ∨ c.All PExpr.StaysNonneg) (hk : c.check T.max n V = some R) :
    c.exec T o n m ⇓ none ∨ ∃ m', c.exec T o n m ⇓ some m' ∧ m'.Holds s' ∧ R.Admits T m' := by
  induction hr generalizing m n V R with
  | skip =>
    cases n with
    | zero => exact .inl rfl
    | succ n =>
      simp only [Cmd.check, Option.some.injEq] at hk
      subst hk
      exact .inr ⟨m, rfl, hm, hw⟩
  | @assign s x e q he =>
    cases n with
    | zero => exact .inl rfl
    | succ n =>
      simp only [Cmd.check] at hk
      split at hk
      · rename_i hb
        simp only [Option.some.injEq] at hk
        subst hk
        obtain ⟨r, h, d, f⟩ := PExpr.eval_within (o := o) hm hw hb hn he
        refine .inr ⟨fun y => if y = x then r else m y, by
          simp only [Cmd.exec, h, ok_bind_false, pure_def], fun y => ?_, fun y => ?_⟩
        · by_cases hy : y = x
          · simp only [hy, if_true]; exact d
          · simp only [hy, if_false]; exact hm y
        · by_cases hy : y = x
          · simp only [hy, if_true]
            exact ⟨f.1.1, f.2.1, fun hs => ⟨f.1.2 hs, f.2.2 hs⟩⟩
          · simp only [hy, if_false]; exact hw y
      · cases hk
  | @seq c d s s1 s2 hc hd ihc ihd =>
    cases n with
    | zero => exact .inl rfl
    | succ n =>
      simp only [Cmd.check] at hk
      cases hk1 : c.check T.max n V with
      | none => rw [hk1] at hk; cases hk
      | some R1 =>
        rw [hk1] at hk
        rcases ihc hm hw (ho.imp_right (·.1)) (hn.imp_right (·.1)) hk1 with h1 | ⟨m1, h1, g1, w1⟩
        · exact .inl (by simp only [Cmd.exec, h1, ok_bind_false, pure_def])
        · cases R1 with
          | unreached => exact w1.elim
          | within W =>
            rcases ihd g1 w1 (ho.imp_right (·.2)) (hn.imp_right (·.2)) hk with h2 | ⟨m2, h2, g2⟩
            · exact .inl (by simp only [Cmd.exec, h1, ok_bind_false, h2])
            · exact .inr ⟨m2, by simp only [Cmd.exec, h1, ok_bind_false, h2], g2⟩
  | @iteTrue op e1 e2 c d s s' p q h1 h2 hb hc ih =>
    cases n with
    | zero => exact .inl rfl
    | succ n =>
      simp only [Cmd.check] at hk
      split at hk
      · rename_i hcb
        obtain ⟨b, ht⟩ := Cmd.test_within (o := o) (op := op) hm hw hcb
          (hn.imp_right fun h => ⟨h.1, h.2.1⟩) h1 h2
        have hbt := (Cmd.test_exact hm (ho.imp_right fun h => h.1) h1 h2 ht).2 hb
        subst hbt
        split at hk
        · rename_i o1 o2 k1 k2
          simp only [Option.some.injEq] at hk
          subst hk
          rcases ih hm hw (ho.imp_right fun h => h.2.1) (hn.imp_right fun h => h.2.2.1) k1 with
            h3 | ⟨m', h3, h4, h5⟩
          · exact .inl (by simp only [Cmd.exec, ht, ok_bind_false, if_true, h3])
          · exact .inr ⟨m', by simp only [Cmd.exec, ht, ok_bind_false, if_true, h3], h4,
              Outcome.join_left h5⟩
        · cases hk
      · cases hk
  | @iteFalse op e1 e2 c d s s' p q h1 h2 hb hd ih =>
    cases n with
    | zero => exact .inl rfl
    | succ n =>
      simp only [Cmd.check] at hk
      split at hk
      · rename_i hcb
        obtain ⟨b, ht⟩ := Cmd.test_within (o := o) (op := op) hm hw hcb
          (hn.imp_right fun h => ⟨h.1, h.2.1⟩) h1 h2
        have hbt := mt (Cmd.test_exact hm (ho.imp_right fun h => h.1) h1 h2 ht).1 hb
        simp only [Bool.not_eq_true] at hbt
        subst hbt
        split at hk
        · rename_i o1 o2 k1 k2
          simp only [Option.some.injEq] at hk
          subst hk
          rcases ih hm hw (ho.imp_right fun h => h.2.2) (hn.imp_right fun h => h.2.2.2) k2 with
            h3 | ⟨m', h3, h4, h5⟩
          · exact .inl (by simp only [Cmd.exec, ht, ok_bind_false, Bool.false_eq_true, if_false, h3])
          · exact .inr ⟨m', by simp only [Cmd.exec, ht, ok_bind_false, Bool.false_eq_true, if_false,
              h3], h4, Outcome.join_right h5⟩
        · cases hk
      · cases hk
  | @loopTrue op e1 e2 c s s1 s2 p q h1 h2 hb hc hl ihc ihl =>
    cases n with
    | zero => exact .inl rfl
    | succ n =>
      simp only [Cmd.check] at hk
      split at hk
      · rename_i hcb
        obtain ⟨b, ht⟩ := Cmd.test_within (o := o) (op := op) hm hw hcb
          (hn.imp_right fun h => ⟨h.1, h.2.1⟩) h1 h2
        have hbt := (Cmd.test_exact hm (ho.imp_right fun h => h.1) h1 h2 ht).2 hb
        subst hbt
        cases hk1 : c.check T.max n V with
        | none => rw [hk1] at hk; cases hk
        | some R1 =>
          rw [hk1] at hk
          rcases ihc hm hw (ho.imp_right (·.2)) (hn.imp_right (·.2.2)) hk1 with
            h3 | ⟨m1, h3, g1, w1⟩
          · exact .inl (by simp only [Cmd.exec, ht, ok_bind_false, if_true, h3, pure_def])
          · cases R1 with
            | unreached => exact w1.elim
            | within W =>
              simp only [Option.map_eq_some_iff] at hk
              obtain ⟨R2, hk2, rfl⟩ := hk
              rcases ihl g1 w1 ho hn hk2 with h4 | ⟨m2, h4, g2, w2⟩
              · exact .inl (by simp only [Cmd.exec, ht, ok_bind_false, if_true, h3, h4])
              · exact .inr ⟨m2, by simp only [Cmd.exec, ht, ok_bind_false, if_true, h3, h4], g2,
                  Outcome.join_right w2⟩
      · cases hk
  | @loopFalse op e1 e2 c s p q h1 h2 hb =>
    cases n with
    | zero => exact .inl rfl
    | succ n =>
      simp only [Cmd.check] at hk
      split at hk
      · rename_i hcb
        obtain ⟨b, ht⟩ := Cmd.test_within (o := o) (op := op) hm hw hcb
          (hn.imp_right fun h => ⟨h.1, h.2.1⟩) h1 h2
        have hbt := mt (Cmd.test_exact hm (ho.imp_right fun h => h.1) h1 h2 ht).1 hb
        simp only [Bool.not_eq_true] at hbt
        subst hbt
        refine .inr ⟨m, by simp only [Cmd.exec, ht, ok_bind_false, Bool.false_eq_true, if_false,
          pure_def], hm, ?_⟩
        cases hk1 : c.check T.max n V with
        | none => rw [hk1] at hk; cases hk
        | some R1 =>
          rw [hk1] at hk
          cases R1 with
          | unreached => simp only [Option.some.injEq] at hk; subst hk; exact hw
          | within W =>
            simp only [Option.map_eq_some_iff] at hk
            obtain ⟨R2, -, rfl⟩ := hk
            exact Outcome.join_left (x := .within V) hw
      · cases hk

/-- A program without loops completes within its depth. -/
theorem Cmd.LoopFree.completes {c : Cmd} (hl : c.LoopFree) {n : ℕ} (hn : c.depth ≤ n) {m : Mem} :
    ¬ (c.exec T o n m ⇓ none) := by
  induction c generalizing n m with
  | skip =>
    obtain ⟨n, rfl⟩ : ∃ k, n = k + 1 := ⟨n - 1, by simp only [Cmd.depth] at hn; omega⟩
    simp [Cmd.exec, pure_def]
  | assign x e =>
    obtain ⟨n, rfl⟩ : ∃ k, n = k + 1 := ⟨n - 1, by simp only [Cmd.depth] at hn; omega⟩
    intro h
    simp only [Cmd.exec, bind_eq_clean, pure_eq_ok] at h
    obtain ⟨_, -, h, -⟩ := h
    cases h
  | seq c d ihc ihd =>
    obtain ⟨n, rfl⟩ : ∃ k, n = k + 1 := ⟨n - 1, by simp only [Cmd.depth] at hn; omega⟩
    simp only [Cmd.depth] at hn
    intro h
    simp only [Cmd.exec, bind_eq_clean] at h
    obtain ⟨r, h1, h2⟩ := h
    cases r with
    | none => exact ihc hl.1 (by omega) h1
    | some m1 => exact ihd hl.2 (by omega) h2
  | ite op e1 e2 c d ihc ihd =>
    obtain ⟨n, rfl⟩ : ∃ k, n = k + 1 := ⟨n - 1, by simp only [Cmd.depth] at hn; omega⟩
    simp only [Cmd.depth] at hn
    intro h
    simp only [Cmd.exec, bind_eq_clean] at h
    obtain ⟨b, -, h2⟩ := h
    cases b with
    | true => exact ihc hl.1 (by omega) h2
    | false => exact ihd hl.2 (by omega) h2
  | loop op e1 e2 c ih => exact hl.elim

theorem RunsIn.runs {c : Cmd} {s s' : ℕ → ℚ} {n : ℕ} (h : RunsIn n c s s') : Runs c s s' := by
  induction h with
  | skip => exact .skip
  | assign he => exact .assign he
  | seq _ _ ih1 ih2 => exact .seq ih1 ih2
  | iteTrue h1 h2 h _ ih => exact .iteTrue h1 h2 h ih
  | iteFalse h1 h2 h _ ih => exact .iteFalse h1 h2 h ih
  | loopTrue h1 h2 h _ _ ih1 ih2 => exact .loopTrue h1 h2 h ih1 ih2
  | loopFalse h1 h2 h => exact .loopFalse h1 h2 h

/-- The number of steps that the rational run needs suffices. -/
theorem RunsIn.completes {c : Cmd} {s s' : ℕ → ℚ} {n : ℕ} (hr : RunsIn n c s s') {m : Mem}
    (hm : m.Holds s) (ho : o.SafeBased ∨ c.OnlyEquality) : ¬ (c.exec T o n m ⇓ none) := by
  induction hr generalizing m with
  | skip => simp [Cmd.exec, pure_def]
  | assign he =>
    intro h
    simp only [Cmd.exec, bind_eq_clean, pure_eq_ok] at h
    obtain ⟨_, -, h, -⟩ := h
    cases h
  | seq hc hd ihc ihd =>
    intro h
    simp only [Cmd.exec, bind_eq_clean] at h
    obtain ⟨r, h1, h2⟩ := h
    cases r with
    | none => exact ihc hm (ho.imp_right (·.1)) h1
    | some m1 =>
      exact ihd (C110_exact hc.runs hm (ho.imp_right (·.1)) h1) (ho.imp_right (·.2)) h2
  | iteTrue h1 h2 hb hc ih =>
    intro h
    simp only [Cmd.exec, bind_eq_clean] at h
    obtain ⟨b, ht, h⟩ := h
    rw [(Cmd.test_exact hm (ho.imp_right (·.1)) h1 h2 ht).2 hb, if_pos rfl] at h
    exact ih hm (ho.imp_right (·.2.1)) h
  | iteFalse h1 h2 hb hd ih =>
    intro h
    simp only [Cmd.exec, bind_eq_clean] at h
    obtain ⟨b, ht, h⟩ := h
    rw [if_neg (mt (Cmd.test_exact hm (ho.imp_right (·.1)) h1 h2 ht).1 hb)] at h
    exact ih hm (ho.imp_right (·.2.2)) h
  | loopTrue h1 h2 hb hc hl ihc ihl =>
    intro h
    simp only [Cmd.exec, bind_eq_clean] at h
    obtain ⟨b, ht, h⟩ := h
    rw [(Cmd.test_exact hm (ho.imp_right (·.1)) h1 h2 ht).2 hb, if_pos rfl, bind_eq_clean] at h
    obtain ⟨r, g1, g2⟩ := h
    cases r with
    | none => exact ihc hm (ho.imp_right (·.2)) g1
    | some m1 => exact ihl (C110_exact hc.runs hm (ho.imp_right (·.2)) g1) ho g2
  | loopFalse h1 h2 hb =>
    intro h
    simp only [Cmd.exec, bind_eq_clean] at h
    obtain ⟨b, ht, h⟩ := h
    rw [if_neg (mt (Cmd.test_exact hm (ho.imp_right (·.1)) h1 h2 ht).1 hb)] at h
    cases h

end Ieme
