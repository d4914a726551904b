import Verif.Spec.Program
import Verif.Props.Arith
import Verif.Props.Compare

/-!
# C110: programs with variables, branches and loops
-/

namespace Ieme
open Res IntTy

variable {T : IntTy} {o : Ops} {m m' : Mem} {s s' : ℕ → ℚ} {c : Cmd} {n k : ℕ}

theorem Mem.Holds.value (h : m.Holds s) (e : PExpr) : (e.inst m).value = e.value s := by
  induction e with
  | var x =>
    obtain ⟨h0, h1⟩ := h x
    simp only [PExpr.inst, Expr.value, PExpr.value, litValue, if_neg h0, h1]
  | lit f => rfl
  | neg e ih => simp only [PExpr.inst, Expr.value, PExpr.value, ih]
  | pos e ih => simp only [PExpr.inst, Expr.value, PExpr.value, ih]
  | ff op e1 e2 ih1 ih2 => simp only [PExpr.inst, Expr.value, PExpr.value, ih1, ih2]
  | fr op e n ih => simp only [PExpr.inst, Expr.value, PExpr.value, ih]
  | rf op n e ih => simp only [PExpr.inst, Expr.value, PExpr.value, ih]

theorem Cmd.test_exact {op : CmpOp} {e1 e2 : PExpr} {p q : ℚ} {b : Bool} (hm : m.Holds s)
    (ho : o.SafeBased ∨ ¬ op.IsOrder) (h1 : e1.value s = some p) (h2 : e2.value s = some q)
    (h : Cmd.test T o m op e1 e2 ⇓ b) : b = true ↔ op.Holds p q := by
  simp only [Cmd.test, bind_eq_clean] at h
  obtain ⟨v1, hv1, v2, hv2, h⟩ := h
  have d1 := C11_expressions_exact hv1 ((hm.value e1).trans h1)
  have d2 := C11_expressions_exact hv2 ((hm.value e2).trans h2)
  rw [Fraction.cmp_self] at h
  rcases ho with ho | ho
  · exact C15_safe_ff_exact ho d1 d2 h
  · cases op <;> first | exact (ho trivial).elim | skip
    · exact C13_eq_exact (a := .ff v1 v2) ⟨d1, d2⟩ h
    · have := C13_eq_exact (a := .ff v1 v2) ⟨d1, d2⟩ (C14_ne_not_eq.1 h)
      simp only [CmpOp.Holds, ne_eq, ← this]
      cases b <;> simp

/-- **C110** A program that terminates over the rational numbers and whose run is free of overflow
computes exactly the rational results, whatever its loops and branches. -/
theorem C110_exact (hr : Runs c s s') (hm : m.Holds s) (ho : o.SafeBased ∨ c.OnlyEquality)
    (h : c.exec T o n m ⇓ some m') : m'.Holds s' := by
  induction hr generalizing m m' n with
  | skip =>
    cases n with
    | zero => simp [Cmd.exec, pure_def] at h
    | succ n => simp only [Cmd.exec, pure_eq_ok, Option.some.injEq, and_true] at h; exact h ▸ hm
  | @assign s x e q he =>
    cases n with
    | zero => simp [Cmd.exec, pure_def] at h
    | succ n =>
      simp only [Cmd.exec, bind_eq_clean, pure_eq_ok, Option.some.injEq, and_true] at h
      obtain ⟨v, hv, rfl⟩ := h
      intro y
      by_cases hy : y = x
      · simp only [hy, if_true]; exact C11_expressions_exact hv ((hm.value e).trans he)
      · simp only [hy, if_false]; exact hm y
  | seq hc hd ihc ihd =>
    cases n with
    | zero => simp [Cmd.exec, pure_def] at h
    | succ n =>
      simp only [Cmd.exec, bind_eq_clean] at h
      obtain ⟨r, h1, h2⟩ := h
      cases r with
      | none => simp [pure_def] at h2
      | some m1 =>
        exact ihd (ihc hm (ho.imp_right fun h => h.1) h1) (ho.imp_right fun h => h.2) h2
  | iteTrue h1 h2 hb hc ih =>
    cases n with
    | zero => simp [Cmd.exec, pure_def] at h
    | succ n =>
      simp only [Cmd.exec, bind_eq_clean] at h
      obtain ⟨b, ht, h⟩ := h
      have := (Cmd.test_exact hm (ho.imp_right fun h => h.1) h1 h2 ht).2 hb
      rw [this, if_pos rfl] at h
      exact ih hm (ho.imp_right fun h => h.2.1) h
  | iteFalse h1 h2 hb hd ih =>
    cases n with
    | zero => simp [Cmd.exec, pure_def] at h
    | succ n =>
      simp only [Cmd.exec, bind_eq_clean] at h
      obtain ⟨b, ht, h⟩ := h
      have := mt (Cmd.test_exact hm (ho.imp_right fun h => h.1) h1 h2 ht).1 hb
      rw [if_neg this] at h
      exact ih hm (ho.imp_right fun h => h.2.2) h
  | loopTrue h1 h2 hb hc hl ihc ihl =>
    cases n with
    | zero => simp [Cmd.exec, pure_def] at h
    | succ n =>
      simp only [Cmd.exec, bind_eq_clean] at h
      obtain ⟨b, ht, h⟩ := h
      have := (Cmd.test_exact hm (ho.imp_right fun h => h.1) h1 h2 ht).2 hb
      rw [this, if_pos rfl] at h
      simp only [bind_eq_clean] at h
      obtain ⟨r, g1, g2⟩ := h
      cases r with
      | none => simp [pure_def] at g2
      | some m1 => exact ihl (ihc hm (ho.imp_right fun h => h.2) g1) ho g2
  | loopFalse h1 h2 hb =>
    cases n with
    | zero => simp [Cmd.exec, pure_def] at h
    | succ n =>
      simp only [Cmd.exec, bind_eq_clean] at h
      obtain ⟨b, ht, h⟩ := h
      have := mt (Cmd.test_exact hm (ho.imp_right fun h => h.1) h1 h2 ht).1 hb
      rw [if_neg this] at h
      simp only [pure_eq_ok, Option.some.injEq, and_true] at h
      exact h ▸ hm

/-- **C110** If the program terminates over the rational numbers, a run free of overflow does not
go on forever: from some number of steps on it is never unfinished.  The number of steps depends on
the rational run only, not on the type, the policy or the representation of the values. -/
theorem C110_terminates (hr : Runs c s s') :
    ∃ N, ∀ (T : IntTy) (o : Ops) (m : Mem), m.Holds s → (o.SafeBased ∨ c.OnlyEquality) →
      ∀ n ≥ N, ¬ (c.exec T o n m ⇓ none) := by
  induction hr with
  | skip =>
    refine ⟨1, fun T o m _ _ n hn h => ?_⟩
    obtain ⟨n, rfl⟩ : ∃ k, n = k + 1 := ⟨n - 1, by omega⟩
    simp [Cmd.exec, pure_def] at h
  | assign he =>
    refine ⟨1, fun T o m _ _ n hn h => ?_⟩
    obtain ⟨n, rfl⟩ : ∃ k, n = k + 1 := ⟨n - 1, by omega⟩
    simp only [Cmd.exec, bind_eq_clean, pure_eq_ok, reduceCtorEq, false_and, and_false,
      exists_false] at h
  | seq hc hd ihc ihd =>
    obtain ⟨N1, g1⟩ := ihc
    obtain ⟨N2, g2⟩ := ihd
    refine ⟨max N1 N2 + 1, fun T o m hm ho n hn h => ?_⟩
    obtain ⟨n, rfl⟩ : ∃ k, n = k + 1 := ⟨n - 1, by omega⟩
    simp only [Cmd.exec, bind_eq_clean] at h
    obtain ⟨r, h1, h2⟩ := h
    cases r with
    | none => exact g1 T o m hm (ho.imp_right fun h => h.1) n (by omega) h1
    | some m1 =>
      exact g2 T o m1 (C110_exact hc hm (ho.imp_right fun h => h.1) h1)
        (ho.imp_right fun h => h.2) n (by omega) h2
  | iteTrue h1 h2 hb hc ih =>
    obtain ⟨N, g⟩ := ih
    refine ⟨N + 1, fun T o m hm ho n hn h => ?_⟩
    obtain ⟨n, rfl⟩ : ∃ k, n = k + 1 := ⟨n - 1, by omega⟩
    simp only [Cmd.exec, bind_eq_clean] at h
    obtain ⟨b, ht, h⟩ := h
    have := (Cmd.test_exact hm (ho.imp_right fun h => h.1) h1 h2 ht).2 hb
    rw [this, if_pos rfl] at h
    exact g T o m hm (ho.imp_right fun h => h.2.1) n (by omega) h
  | iteFalse h1 h2 hb hd ih =>
    obtain ⟨N, g⟩ := ih
    refine ⟨N + 1, fun T o m hm ho n hn h => ?_⟩
    obtain ⟨n, rfl⟩ : ∃ k, n = k + 1 := ⟨n - 1, by omega⟩
    simp only [Cmd.exec, bind_eq_clean] at h
    obtain ⟨b, ht, h⟩ := h
    have := mt (Cmd.test_exact hm (ho.imp_right fun h => h.1) h1 h2 ht).1 hb
    rw [if_neg this] at h
    exact g T o m hm (ho.imp_right fun h => h.2.2) n (by omega) h
  | loopTrue h1 h2 hb hc hl ihc ihl =>
    obtain ⟨N1, g1⟩ := ihc
    obtain ⟨N2, g2⟩ := ihl
    refine ⟨max N1 N2 + 1, fun T o m hm ho n hn h => ?_⟩
    obtain ⟨n, rfl⟩ : ∃ k, n = k + 1 := ⟨n - 1, by omega⟩
    simp only [Cmd.exec, bind_eq_clean] at h
    obtain ⟨b, ht, h⟩ := h
    have := (Cmd.test_exact hm (ho.imp_right fun h => h.1) h1 h2 ht).2 hb
    rw [this, if_pos rfl] at h
    simp only [bind_eq_clean] at h
    obtain ⟨r, e1, e2⟩ := h
    cases r with
    | none => exact g1 T o m hm (ho.imp_right fun h => h.2) n (by omega) e1
    | some m1 =>
      exact g2 T o m1 (C110_exact hc hm (ho.imp_right fun h => h.2) e1) ho n (by omega) e2
  | loopFalse h1 h2 hb =>
    refine ⟨1, fun T o m hm ho n hn h => ?_⟩
    obtain ⟨n, rfl⟩ : ∃ k, n = k + 1 := ⟨n - 1, by omega⟩
    simp only [Cmd.exec, bind_eq_clean] at h
    obtain ⟨b, ht, h⟩ := h
    have := mt (Cmd.test_exact hm (ho.imp_right fun h => h.1) h1 h2 ht).1 hb
    rw [if_neg this] at h
    simp [pure_eq_ok] at h

/-- **C110** A correctness proof over the rational numbers carries over: what holds of every
rational result holds of the results of every run free of overflow of a program that terminates. -/
theorem C110_correctness {P Q : (ℕ → ℚ) → Prop} (hc : ∀ s, P s → ∃ s', Runs c s s' ∧ Q s')
    (ho : o.SafeBased ∨ c.OnlyEquality) (hm : m.Holds s) (hP : P s)
    (h : c.exec T o n m ⇓ some m') : ∃ s', m'.Holds s' ∧ Q s' :=
  have ⟨s', hr, hq⟩ := hc s hP
  ⟨s', C110_exact hr hm ho h, hq⟩

/-- The sum of the reciprocals of 1, 2, 3 in variable 0, counting in variable 1. -/
def exampleProgram : Cmd :=
  .seq (.assign 0 (.lit ⟨0, 1⟩)) (.seq (.assign 1 (.lit ⟨1, 1⟩))
    (.loop .lessEqual (.var 1) (.lit ⟨3, 1⟩)
      (.seq (.assign 0 (.ff .plus (.var 0) (.rf .divides 1 (.var 1))))
        (.assign 1 (.fr .plus (.var 1) 1)))))

/-- The program terminates over the rational numbers with `11/6`, and so does its run. -/
example : (∃ s', Runs exampleProgram (fun _ => 0) s' ∧ s' 0 = 11 / 6) ∧
    (Mem.Holds (fun _ => ⟨0, 1⟩) fun _ => 0) ∧ Ops.defaults.SafeBased ∧
    (exampleProgram.exec i32 .defaults 9 fun _ => ⟨0, 1⟩).bind
      (fun r => pure (r.map fun m => m 0)) ⇓ some ⟨11, 6⟩ := by
  refine ⟨⟨_, .seq (.assign (q := 0) ?_) (.seq (.assign (q := 1) ?_)
    (.loopTrue (p := 1) (q := 3) ?_ ?_ ?_ (.seq (.assign (q := 1) ?_) (.assign (q := 2) ?_))
    (.loopTrue (p := 2) (q := 3) ?_ ?_ ?_ (.seq (.assign (q := 3 / 2) ?_) (.assign (q := 3) ?_))
    (.loopTrue (p := 3) (q := 3) ?_ ?_ ?_ (.seq (.assign (q := 11 / 6) ?_) (.assign (q := 4) ?_))
    (.loopFalse (p := 4) (q := 3) ?_ ?_ ?_))))), ?_⟩, ?_, trivial, by decide +kernel⟩
  all_goals first
    | (norm_num [PExpr.value, litValue, ArithOp.value, CmpOp.Holds]; done)
    | (intro x; norm_num [Denotes])

/-- **C110** (negation) For `fast` the condition on comparisons is needed: a negative denominator
sends the program `if (x < 0) y = 1;` the wrong way. -/
theorem C110_fast_wrong :
    let c : Cmd := .ite .less (.var 0) (.lit ⟨0, 1⟩) (.assign 1 (.lit ⟨1, 1⟩)) .skip
    let m : Mem := fun x => if x = 0 then ⟨1, -2⟩ else ⟨0, 1⟩
    (c.exec i32 .fast 3 m).bind (fun r => pure (r.map fun m => m 1)) ⇓ some ⟨0, 1⟩ ∧
    (c.exec i32 .defaults 3 m).bind (fun r => pure (r.map fun m => m 1)) ⇓ some ⟨1, 1⟩ := by
  decide +kernel

end Ieme
