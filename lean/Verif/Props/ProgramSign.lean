import Verif.Spec.ProgramSign
import Verif.Props.Program
import Verif.Props.Laws

/-!
# C110 for comparisons under policies built on `fast`
-/

namespace Ieme
open Res IntTy

variable {T : IntTy} {o : Ops} {m m' : Mem} {s s' : ℕ → ℚ} {c : Cmd} {n : ℕ}

/-- What is asked of each expression. -/
def PExpr.Tame (o : Ops) (e : PExpr) : Prop := e.PosLits ∧ (o.NormalizesOutput ∨ e.NoDivision)

private theorem arith_pos {op : ArithOp} {a : Args} {x y q : ℚ} {r : Raw} (hp : a.PosDen)
    (ha : a.Denote x y) (hq : op.value x y = some q) (ho : o.NormalizesOutput ∨ op ≠ .divides)
    (h : o.arith T op a ⇓ r) : 0 < r.den := by
  refine (C72_positive_denominator_iff hp ha h).2 fun e => ?_
  subst e
  have hn := ho.resolve_right (fun h => h rfl)
  rcases lt_trichotomy y 0 with hy | hy | hy
  · exact .inr ⟨hy, hn⟩
  · simp [ArithOp.value, hy] at hq
  · exact .inl hy

/-- Tame expressions over positive denominators give positive denominators. -/
theorem PExpr.eval_pos {e : PExpr} {q : ℚ} {r : Raw} (hm : m.Holds s) (hp : m.Positive)
    (ht : e.Tame o) (hq : e.value s = some q) (h : (e.inst m).eval T o ⇓ r) : 0 < r.den := by
  obtain ⟨hl, ho⟩ := ht
  induction e generalizing q r with
  | var x =>
    simp only [PExpr.inst, Expr.eval, pure_eq_ok, and_true] at h
    exact h ▸ hp x
  | lit f =>
    simp only [PExpr.inst, Expr.eval, pure_eq_ok, and_true] at h
    exact h ▸ hl
  | neg e ih =>
    simp only [PExpr.inst, Expr.eval, bind_eq_clean] at h
    obtain ⟨v, hv, h⟩ := h
    simp only [PExpr.value, Option.map_eq_some_iff] at hq
    obtain ⟨x, hx, -⟩ := hq
    exact C72_neg_positive_denominator (ih hx hv hl ho) h
  | pos e ih =>
    simp only [PExpr.inst, Expr.eval, Fraction.pos, bind_eq_clean, pure_eq_ok, and_true] at h
    obtain ⟨v, hv, rfl⟩ := h
    exact ih hq hv hl ho
  | ff op e1 e2 ih1 ih2 =>
    simp only [PExpr.inst, Expr.eval, bind_eq_clean] at h
    obtain ⟨v1, hv1, v2, hv2, h⟩ := h
    simp only [PExpr.value, Option.bind_eq_some_iff] at hq
    obtain ⟨x, hx, y, hy, hq⟩ := hq
    rw [Fraction.arith_self] at h
    exact arith_pos (a := .ff v1 v2)
      ⟨ih1 hx hv1 hl.1 (ho.imp_right fun h => h.2.1), ih2 hy hv2 hl.2 (ho.imp_right fun h => h.2.2)⟩
      ⟨C11_expressions_exact hv1 ((hm.value e1).trans hx),
        C11_expressions_exact hv2 ((hm.value e2).trans hy)⟩ hq (ho.imp_right fun h => h.1) h
  | fr op e n ih =>
    simp only [PExpr.inst, Expr.eval, bind_eq_clean] at h
    obtain ⟨v, hv, h⟩ := h
    simp only [PExpr.value, Option.bind_eq_some_iff] at hq
    obtain ⟨x, hx, hq⟩ := hq
    rw [Fraction.arith_self] at h
    exact arith_pos (a := .fr v n) (ih hx hv hl (ho.imp_right fun h => h.2))
      ⟨C11_expressions_exact hv ((hm.value e).trans hx), rfl⟩ hq (ho.imp_right fun h => h.1) h
  | rf op n e ih =>
    simp only [PExpr.inst, Expr.eval, bind_eq_clean] at h
    obtain ⟨v, hv, h⟩ := h
    simp only [PExpr.value, Option.bind_eq_some_iff] at hq
    obtain ⟨x, hx, hq⟩ := hq
    rw [Fraction.arith_self] at h
    exact arith_pos (a := .rf n v) (ih hx hv hl (ho.imp_right fun h => h.2))
      ⟨rfl, C11_expressions_exact hv ((hm.value e).trans hx)⟩ hq (ho.imp_right fun h => h.1) h

private theorem test_exact {op : CmpOp} {e1 e2 : PExpr} {p q : ℚ} {b : Bool} (hm : m.Holds s)
    (hp : m.Positive) (t1 : e1.Tame o) (t2 : e2.Tame o) (h1 : e1.value s = some p)
    (h2 : e2.value s = some q) (h : Cmd.test T o m op e1 e2 ⇓ b) : b = true ↔ op.Holds p q := by
  simp only [Cmd.test, bind_eq_clean] at h
  obtain ⟨v1, hv1, v2, hv2, h⟩ := h
  have d1 := C11_expressions_exact hv1 ((hm.value e1).trans h1)
  have d2 := C11_expressions_exact hv2 ((hm.value e2).trans h2)
  rw [Fraction.cmp_self] at h
  exact C15_order_exact_partial (a := .ff v1 v2) ⟨d1, d2⟩
    ⟨PExpr.eval_pos hm hp t1 h1 hv1, PExpr.eval_pos hm hp t2 h2 hv2⟩ h

/-- Exactness and termination together, for one induction. -/
private theorem run (hr : Runs c s s') (hc : c.All (PExpr.Tame o)) :
    (∀ (m : Mem) n m', m.Holds s → m.Positive → c.exec T o n m ⇓ some m' →
      m'.Holds s' ∧ m'.Positive) ∧
    ∃ N, ∀ m : Mem, m.Holds s → m.Positive → ∀ n ≥ N, ¬ (c.exec T o n m ⇓ none) := by
  have zero : ∀ {c : Cmd} {m m' : Mem}, ¬ (c.exec T o 0 m ⇓ some m') := by
    intro c m m' h; simp [Cmd.exec, pure_def] at h
  have pred : ∀ {n N : ℕ}, n ≥ N + 1 → ∃ k, n = k + 1 ∧ k ≥ N := fun {n N} h =>
    ⟨n - 1, by omega, by omega⟩
  induction hr with
  | skip =>
    refine ⟨fun m n m' hm hp h => ?_, 1, fun m _ _ n hn h => ?_⟩
    · cases n with
      | zero => exact (zero h).elim
      | succ n =>
        simp only [Cmd.exec, pure_eq_ok, Option.some.injEq, and_true] at h
        exact h ▸ ⟨hm, hp⟩
    · obtain ⟨n, rfl, -⟩ := pred hn
      simp [Cmd.exec, pure_def] at h
  | @assign s x e q he =>
    refine ⟨fun m n m' hm hp h => ?_, 1, fun m _ _ n hn h => ?_⟩
    · cases n with
      | zero => exact (zero h).elim
      | succ n =>
        simp only [Cmd.exec, bind_eq_clean, pure_eq_ok, Option.some.injEq, and_true] at h
        obtain ⟨v, hv, rfl⟩ := h
        constructor <;> intro y <;> by_cases hy : y = x
        · simp only [hy, if_true]; exact C11_expressions_exact hv ((hm.value e).trans he)
        · simp only [hy, if_false]; exact hm y
        · simp only [hy, if_true]; exact PExpr.eval_pos hm hp hc he hv
        · simp only [hy, if_false]; exact hp y
    · obtain ⟨n, rfl, -⟩ := pred hn
      simp only [Cmd.exec, bind_eq_clean, pure_eq_ok, reduceCtorEq, false_and, and_false,
        exists_false] at h
  | seq _ _ ihc ihd =>
    obtain ⟨a1, N1, g1⟩ := ihc hc.1
    obtain ⟨a2, N2, g2⟩ := ihd hc.2
    refine ⟨fun m n m' hm hp h => ?_, max N1 N2 + 1, fun m hm hp n hn h => ?_⟩
    · cases n with
      | zero => exact (zero h).elim
      | succ n =>
        simp only [Cmd.exec, bind_eq_clean] at h
        obtain ⟨r, h1, h2⟩ := h
        cases r with
        | none => simp [pure_def] at h2
        | some m1 =>
          obtain ⟨i1, i2⟩ := a1 m n m1 hm hp h1
          exact a2 m1 n m' i1 i2 h2
    · obtain ⟨n, rfl, hn⟩ := pred hn
      simp only [Cmd.exec, bind_eq_clean] at h
      obtain ⟨r, h1, h2⟩ := h
      cases r with
      | none => exact g1 m hm hp n (by omega) h1
      | some m1 =>
        obtain ⟨i1, i2⟩ := a1 m n m1 hm hp h1
        exact g2 m1 i1 i2 n (by omega) h2
  | iteTrue h1 h2 hb _ ih =>
    obtain ⟨t1, t2, hc, -⟩ := hc
    obtain ⟨a, N, g⟩ := ih hc
    refine ⟨fun m n m' hm hp h => ?_, N + 1, fun m hm hp n hn h => ?_⟩
    · cases n with
      | zero => exact (zero h).elim
      | succ n =>
        simp only [Cmd.exec, bind_eq_clean] at h
        obtain ⟨b, ht, h⟩ := h
        rw [(test_exact hm hp t1 t2 h1 h2 ht).2 hb, if_pos rfl] at h
        exact a m n m' hm hp h
    · obtain ⟨n, rfl, hn⟩ := pred hn
      simp only [Cmd.exec, bind_eq_clean] at h
      obtain ⟨b, ht, h⟩ := h
      rw [(test_exact hm hp t1 t2 h1 h2 ht).2 hb, if_pos rfl] at h
      exact g m hm hp n (by omega) h
  | iteFalse h1 h2 hb _ ih =>
    obtain ⟨t1, t2, -, hc⟩ := hc
    obtain ⟨a, N, g⟩ := ih hc
    refine ⟨fun m n m' hm hp h => ?_, N + 1, fun m hm hp n hn h => ?_⟩
    · cases n with
      | zero => exact (zero h).elim
      | succ n =>
        simp only [Cmd.exec, bind_eq_clean] at h
        obtain ⟨b, ht, h⟩ := h
        rw [if_neg (mt (test_exact hm hp t1 t2 h1 h2 ht).1 hb)] at h
        exact a m n m' hm hp h
    · obtain ⟨n, rfl, hn⟩ := pred hn
      simp only [Cmd.exec, bind_eq_clean] at h
      obtain ⟨b, ht, h⟩ := h
      rw [if_neg (mt (test_exact hm hp t1 t2 h1 h2 ht).1 hb)] at h
      exact g m hm hp n (by omega) h
  | loopTrue h1 h2 hb _ _ ihc ihl =>
    obtain ⟨t1, t2, hb'⟩ := id hc
    obtain ⟨a1, N1, g1⟩ := ihc hb'
    obtain ⟨a2, N2, g2⟩ := ihl hc
    refine ⟨fun m n m' hm hp h => ?_, max N1 N2 + 1, fun m hm hp n hn h => ?_⟩
    · cases n with
      | zero => exact (zero h).elim
      | succ n =>
        simp only [Cmd.exec, bind_eq_clean] at h
        obtain ⟨b, ht, h⟩ := h
        rw [(test_exact hm hp t1 t2 h1 h2 ht).2 hb, if_pos rfl] at h
        simp only [bind_eq_clean] at h
        obtain ⟨r, e1, e2⟩ := h
        cases r with
        | none => simp [pure_def] at e2
        | some m1 =>
          obtain ⟨i1, i2⟩ := a1 m n m1 hm hp e1
          exact a2 m1 n m' i1 i2 e2
    · obtain ⟨n, rfl, hn⟩ := pred hn
      simp only [Cmd.exec, bind_eq_clean] at h
      obtain ⟨b, ht, h⟩ := h
      rw [(test_exact hm hp t1 t2 h1 h2 ht).2 hb, if_pos rfl] at h
      simp only [bind_eq_clean] at h
      obtain ⟨r, e1, e2⟩ := h
      cases r with
      | none => exact g1 m hm hp n (by omega) e1
      | some m1 =>
        obtain ⟨i1, i2⟩ := a1 m n m1 hm hp e1
        exact g2 m1 i1 i2 n (by omega) e2
  | loopFalse h1 h2 hb =>
    obtain ⟨t1, t2, -⟩ := hc
    refine ⟨fun m n m' hm hp h => ?_, 1, fun m hm hp n hn h => ?_⟩
    · cases n with
      | zero => exact (zero h).elim
      | succ n =>
        simp only [Cmd.exec, bind_eq_clean] at h
        obtain ⟨b, ht, h⟩ := h
        rw [if_neg (mt (test_exact hm hp t1 t2 h1 h2 ht).1 hb)] at h
        simp only [pure_eq_ok, Option.some.injEq, and_true] at h
        exact h ▸ ⟨hm, hp⟩
    · obtain ⟨n, rfl, -⟩ := pred hn
      simp only [Cmd.exec, bind_eq_clean] at h
      obtain ⟨b, ht, h⟩ := h
      rw [if_neg (mt (test_exact hm hp t1 t2 h1 h2 ht).1 hb)] at h
      simp [pure_eq_ok] at h

/-- **C110** With any comparisons, and under every policy: if the variables and literals have
positive denominators, and the policy normalises its output or the program does not divide, a run
free of overflow holds exactly the rational results, again with positive denominators. -/
theorem C110_positive_exact (hr : Runs c s s') (hm : m.Holds s) (hp : m.Positive)
    (hl : c.All PExpr.PosLits) (ho : o.NormalizesOutput ∨ c.All PExpr.NoDivision)
    (h : c.exec T o n m ⇓ some m') : m'.Holds s' ∧ m'.Positive :=
  (run hr (tame hl ho)).1 m n m' hm hp h
where
  tame {c : Cmd} (hl : c.All PExpr.PosLits) (ho : o.NormalizesOutput ∨ c.All PExpr.NoDivision) :
      c.All (PExpr.Tame o) := by
    induction c with
    | skip => trivial
    | assign x e => exact ⟨hl, ho⟩
    | seq c d ihc ihd =>
      exact ⟨ihc hl.1 (ho.imp_right fun h => h.1), ihd hl.2 (ho.imp_right fun h => h.2)⟩
    | ite op e1 e2 c d ihc ihd =>
      exact ⟨⟨hl.1, ho.imp_right fun h => h.1⟩, ⟨hl.2.1, ho.imp_right fun h => h.2.1⟩,
        ihc hl.2.2.1 (ho.imp_right fun h => h.2.2.1), ihd hl.2.2.2 (ho.imp_right fun h => h.2.2.2)⟩
    | loop op e1 e2 c ih =>
      exact ⟨⟨hl.1, ho.imp_right fun h => h.1⟩, ⟨hl.2.1, ho.imp_right fun h => h.2.1⟩,
        ih hl.2.2 (ho.imp_right fun h => h.2.2)⟩

/-- **C110** Under the same conditions a run free of overflow does not go on forever. -/
theorem C110_positive_terminates (hr : Runs c s s') (hm : m.Holds s) (hp : m.Positive)
    (hl : c.All PExpr.PosLits) (ho : o.NormalizesOutput ∨ c.All PExpr.NoDivision) :
    ∃ N, ∀ n ≥ N, ¬ (c.exec T o n m ⇓ none) :=
  (run hr (C110_positive_exact.tame hl ho)).2.imp fun _ h => h m hm hp

/-- **C110** (negation) Without the condition on division it fails, although all denominators are
positive at the start: under `fast` the program `x = 1/2 ÷ (-1/3); if (x < 0) y = 1;` leaves `y`
alone. -/
theorem C110_fast_division_wrong :
    let c : Cmd := .seq (.assign 0 (.ff .divides (.lit ⟨1, 2⟩) (.lit ⟨-1, 3⟩)))
      (.ite .less (.var 0) (.lit ⟨0, 1⟩) (.assign 1 (.lit ⟨1, 1⟩)) .skip)
    (c.exec i32 .fast 3 fun _ => ⟨0, 1⟩).bind (fun r => pure (r.map fun m => m 1)) ⇓ some ⟨0, 1⟩ ∧
    (c.exec i32 .fastReducedO 3 fun _ => ⟨0, 1⟩).bind (fun r => pure (r.map fun m => m 1)) ⇓
      some ⟨1, 1⟩ := by
  decide +kernel

/-- The program of C110 divides and orders; under `fast_reduced_o` the theorem applies to it. -/
example : exampleProgram.All PExpr.PosLits ∧ Ops.fastReducedO.NormalizesOutput ∧
    ¬ Ops.fastReducedO.SafeBased ∧ Mem.Positive (fun _ => ⟨0, 1⟩) ∧
    (exampleProgram.exec i32 .fastReducedO 9 fun _ => ⟨0, 1⟩).bind
      (fun r => pure (r.map fun m => m 0)) ⇓ some ⟨11, 6⟩ := by
  refine ⟨by simp [exampleProgram, Cmd.All, PExpr.PosLits], trivial, id, fun _ => Int.zero_lt_one,
    by decide +kernel⟩

/-- A countdown without division under plain `fast`. -/
example : Cmd.All PExpr.NoDivision (.loop .greater (.var 0) (.lit ⟨0, 1⟩)
      (.assign 0 (.ff .minus (.var 0) (.lit ⟨1, 2⟩)))) ∧
    (Cmd.exec i32 .fast 5 (.loop .greater (.var 0) (.lit ⟨0, 1⟩)
      (.assign 0 (.ff .minus (.var 0) (.lit ⟨1, 2⟩)))) fun _ => ⟨3, 2⟩).bind
      (fun r => pure (r.map fun m => m 0)) ⇓ some ⟨0, 16⟩ := by
  refine ⟨by simp [Cmd.All, PExpr.NoDivision], by decide +kernel⟩

end Ieme
