import Verif.Lemmas.Bounds
import Verif.Props.Arith

/-!
# Overflow excluded by a static bound: property C106
-/

namespace Ieme

open Res IntTy

variable {T : IntTy} {o : Ops} {r : Raw}

/-- **C106** If the static bounds of every node of an expression are representable, the expression
has a value, and either the type is signed or no operator can go below zero, then it evaluates
without overflow or wrap-around under every policy, the result has that value, and both its parts
stay within the bounds computed for the root. -/
theorem C106_bounded_finishes (o : Ops) {e : Expr} {q : ℚ} (hv : e.value = some q)
    (hb : e.Bounded T.max) (hr : T.signed = true ∨ e.NoMinus ∧ e.LeavesInRange T) :
    ∃ r, e.eval T o ⇓ r ∧ Denotes r q ∧ r.num.natAbs ≤ e.bound.num ∧
      r.den.natAbs ≤ e.bound.den := by
  obtain ⟨r, h, f⟩ := Expr.eval_fitB (o := o) hv hb hr
  exact ⟨r, h, C11_expressions_exact h hv, f.1.1, f.2.1⟩

/-- The expression of C11 has static bounds 120 and 24. -/
example : exampleExpr.value = some (-1/2) ∧ exampleExpr.Bounded i32.max ∧
    exampleExpr.bound = ⟨120, 24⟩ ∧ i32.signed = true := by decide +kernel

/-- An unsigned expression without subtraction: `(3/4 + 5/6) * 7 / (1/9)`. -/
example : (Expr.ff .divides (.fr .multiplies (.ff .plus (.lit ⟨3, 4⟩) (.lit ⟨5, 6⟩)) 7)
      (.lit ⟨1, 9⟩)).Bounded u32.max ∧
    (Expr.ff .divides (.fr .multiplies (.ff .plus (.lit ⟨3, 4⟩) (.lit ⟨5, 6⟩)) 7)
      (.lit ⟨1, 9⟩)).NoMinus ∧
    (Expr.ff .divides (.fr .multiplies (.ff .plus (.lit ⟨3, 4⟩) (.lit ⟨5, 6⟩)) 7)
      (.lit ⟨1, 9⟩)).LeavesInRange u32 :=
  ⟨by decide, by simp [Expr.NoMinus], by simp only [Expr.LeavesInRange]; decide⟩

/-- **C106** A closed form: an expression with `m` operands whose parts all have magnitude at most
`B` finishes exactly, under every policy, as soon as `2 ^ (m - 1) * B ^ m` is representable, and
that is a bound for both parts of the result. -/
theorem C106_operand_count (o : Ops) {e : Expr} {q : ℚ} {B : ℕ} (hv : e.value = some q)
    (hB : e.LeavesLe B) (hm : ((2 ^ (e.leaves - 1) * B ^ e.leaves : ℕ) : ℤ) ≤ T.max)
    (hr : T.signed = true ∨ e.NoMinus ∧ e.LeavesInRange T) :
    ∃ r, e.eval T o ⇓ r ∧ Denotes r q ∧ r.num.natAbs ≤ 2 ^ (e.leaves - 1) * B ^ e.leaves ∧
      r.den.natAbs ≤ 2 ^ (e.leaves - 1) * B ^ e.leaves := by
  have hB1 : 1 ≤ B := by
    clear hm hr
    induction e generalizing q with
    | lit f =>
      have h0 : f.den ≠ 0 := by
        intro h
        simp [Expr.value, litValue, h] at hv
      have := hB.2
      omega
    | neg e ih =>
      simp only [Expr.value, Option.map_eq_some_iff] at hv
      obtain ⟨x, hx, -⟩ := hv
      exact ih hx hB
    | pos e ih => exact ih hv hB
    | ff op e1 e2 ih1 ih2 =>
      simp only [Expr.value, Option.bind_eq_some_iff] at hv
      obtain ⟨x, hx, -⟩ := hv
      exact ih1 hx hB.1
    | fr op e n ih =>
      simp only [Expr.value, Option.bind_eq_some_iff] at hv
      obtain ⟨x, hx, -⟩ := hv
      exact ih hx hB.1
    | rf op n e ih =>
      simp only [Expr.value, Option.bind_eq_some_iff] at hv
      obtain ⟨x, hx, -⟩ := hv
      exact ih hx hB.1
  obtain ⟨r, h1, h2, h3, h4⟩ := C106_bounded_finishes o hv (Expr.bounded_closed hB1 hB hm) hr
  obtain ⟨b1, b2⟩ := Expr.bound_closed hB1 hB
  exact ⟨r, h1, h2, h3.trans b1, h4.trans b2⟩

/-- Five operands of magnitude at most 7 need 268912, so the expression of C11 fits `int`. -/
example : exampleExpr.LeavesLe 7 ∧ exampleExpr.leaves = 5 ∧
    ((2 ^ (exampleExpr.leaves - 1) * 7 ^ exampleExpr.leaves : ℕ) : ℤ) = 268912 ∧
    (268912 : ℤ) ≤ i32.max := by
  refine ⟨by simp [Expr.LeavesLe, exampleExpr], by decide, by decide, by decide⟩

/-- **C106** The static bound is exact: under `fast`, an expression of sums, products and quotients
of non-negative operands finishes without overflow if and only if its static bounds are
representable, and the parts of its result are then the bounds themselves. -/
theorem C106_fast_bound_exact {e : Expr} (ha : e.Additive) (hl : e.LeavesInRange T) :
    e.eval T .fast ⇓ r ↔ e.Bounded T.max ∧ r = ⟨e.bound.num, e.bound.den⟩ := by
  have range : ∀ {n : ℕ}, T.InRange n ↔ (n : ℤ) ≤ T.max := by
    intro n
    have := T.min_le_zero
    exact ⟨fun h => h.2, fun h => ⟨by omega, h⟩⟩
  have key : ∀ {a : Args} {A B : Bound} {op : ArithOp} {s : Raw}, a.InRange T →
      (op = .plus ∨ op = .multiplies ∨ op = .divides) → a.left = ⟨A.num, A.den⟩ →
      a.right = ⟨B.num, B.den⟩ → (Ops.fast.arith T op a ⇓ s ↔
        op.Bounded A B T.max ∧ s = ⟨(op.bound A B).num, (op.bound A B).den⟩) := by
    intro a A B op s hi hop h1 h2
    rw [C85_fast_iff hi, h1, h2]
    have hc : (op.crossParts ⟨A.num, A.den⟩ ⟨B.num, B.den⟩ : Raw) =
        ⟨(op.bound A B).num, (op.bound A B).den⟩ := by
      rcases hop with rfl | rfl | rfl <;>
        simp [ArithOp.crossParts, ArithOp.overCommon, ArithOp.bound]
    rw [hc]
    have hnm : op ≠ .modulus := by rcases hop with rfl | rfl | rfl <;> simp
    constructor
    · rintro ⟨rfl, ⟨h3, h4⟩, -⟩
      exact ⟨⟨⟨range.1 h3, range.1 h4⟩, fun h => absurd h hnm⟩, rfl⟩
    · rintro ⟨⟨⟨h3, h4⟩, -⟩, rfl⟩
      refine ⟨rfl, ⟨range.2 h3, range.2 h4⟩, fun hu => ?_, fun h => absurd h hnm⟩
      rcases hop with rfl | rfl | rfl
      · simp only [ArithOp.bound] at h3
        push_cast at h3
        simp only [← Nat.cast_mul]
        rw [range, range]
        push_cast
        constructor <;> nlinarith [Nat.zero_le (A.num * B.den), Nat.zero_le (B.num * A.den)]
      · exact absurd hu id
      · exact absurd hu id
  have nat : ∀ {n : ℤ}, 0 ≤ n → ((n.natAbs : ℕ) : ℤ) = n := fun h => Int.natAbs_of_nonneg h
  have inr : ∀ {e : Expr}, e.Bounded T.max → (⟨e.bound.num, e.bound.den⟩ : Raw).InRange T := fun h =>
    ⟨range.2 h.bound_le.1, range.2 h.bound_le.2⟩
  induction e generalizing r with
  | lit f =>
    simp only [Expr.eval, pure_eq_ok, and_true, Expr.Bounded, Expr.bound, Raw.bound, Bound.Le,
      nat ha.1, nat ha.2]
    exact ⟨fun h => ⟨⟨hl.1.2, hl.2.2⟩, h.symm⟩, fun h => h.2.symm⟩
  | neg e ih => exact ha.elim
  | pos e ih =>
    simp only [Expr.eval, bind_eq_clean, pure_eq_ok, and_true, Fraction.pos, ih ha hl]
    constructor
    · rintro ⟨v, ⟨h1, rfl⟩, rfl⟩; exact ⟨h1, rfl⟩
    · rintro ⟨h1, rfl⟩; exact ⟨_, ⟨h1, rfl⟩, rfl⟩
  | ff op e1 e2 ih1 ih2 =>
    obtain ⟨hop, ha1, ha2⟩ := ha
    simp only [Expr.eval, bind_eq_clean, ih1 ha1 hl.1, ih2 ha2 hl.2, Fraction.arith_self]
    constructor
    · rintro ⟨v, ⟨h1, rfl⟩, w, ⟨h2, rfl⟩, h3⟩
      obtain ⟨h4, rfl⟩ := (key (a := .ff _ _) ⟨inr h1, inr h2⟩ hop rfl rfl).1 h3
      exact ⟨⟨h1, h2, h4⟩, rfl⟩
    · rintro ⟨⟨h1, h2, h4⟩, rfl⟩
      exact ⟨_, ⟨h1, rfl⟩, _, ⟨h2, rfl⟩, (key (a := .ff _ _) ⟨inr h1, inr h2⟩ hop rfl rfl).2 ⟨h4, rfl⟩⟩
  | fr op e n ih =>
    obtain ⟨hop, ha1, hn⟩ := ha
    have hn' : (Args.fr ⟨e.bound.num, e.bound.den⟩ n).right =
        ⟨(intBound n).num, (intBound n).den⟩ := by simp [Args.right, intBound, abs_of_nonneg hn]
    have hnI : (intBound n).Le T.max := ⟨by simpa [intBound, abs_of_nonneg hn] using hl.2.2, by
      have := T.max_pos; simp only [intBound]; omega⟩
    simp only [Expr.eval, bind_eq_clean, ih ha1 hl.1, Fraction.arith_self]
    constructor
    · rintro ⟨v, ⟨h1, rfl⟩, h3⟩
      obtain ⟨h4, rfl⟩ := (key (a := .fr _ _) ⟨inr h1, hl.2⟩ hop rfl hn').1 h3
      exact ⟨⟨h1, hnI, h4⟩, rfl⟩
    · rintro ⟨⟨h1, -, h4⟩, rfl⟩
      exact ⟨_, ⟨h1, rfl⟩, (key (a := .fr _ _) ⟨inr h1, hl.2⟩ hop rfl hn').2 ⟨h4, rfl⟩⟩
  | rf op n e ih =>
    obtain ⟨hop, ha1, hn⟩ := ha
    have hn' : (Args.rf n ⟨e.bound.num, e.bound.den⟩).left =
        ⟨(intBound n).num, (intBound n).den⟩ := by simp [Args.left, intBound, abs_of_nonneg hn]
    have hnI : (intBound n).Le T.max := ⟨by simpa [intBound, abs_of_nonneg hn] using hl.1.2, by
      have := T.max_pos; simp only [intBound]; omega⟩
    simp only [Expr.eval, bind_eq_clean, ih ha1 hl.2, Fraction.arith_self]
    constructor
    · rintro ⟨v, ⟨h1, rfl⟩, h3⟩
      obtain ⟨h4, rfl⟩ := (key (a := .rf _ _) ⟨hl.1, inr h1⟩ hop hn' rfl).1 h3
      exact ⟨⟨h1, hnI, h4⟩, rfl⟩
    · rintro ⟨⟨h1, -, h4⟩, rfl⟩
      exact ⟨_, ⟨h1, rfl⟩, (key (a := .rf _ _) ⟨hl.1, inr h1⟩ hop hn' rfl).2 ⟨h4, rfl⟩⟩

/-- `(7/10 + 3/10) * 50000 / 3` reaches exactly its static bounds, 5000000 and 300; with 50000000
in place of 50000 the bound is not representable and `fast` overflows, while the default policy
reduces and finishes. -/
example :
    (Expr.fr .divides (.fr .multiplies (.ff .plus (.lit ⟨7, 10⟩) (.lit ⟨3, 10⟩)) 50000) 3).eval
      i32 .fast ⇓ ⟨5000000, 300⟩ ∧
    (Expr.fr .divides (.fr .multiplies (.ff .plus (.lit ⟨7, 10⟩) (.lit ⟨3, 10⟩)) 50000) 3).bound =
      ⟨5000000, 300⟩ ∧
    ¬ (Expr.fr .divides (.fr .multiplies (.ff .plus (.lit ⟨7, 10⟩) (.lit ⟨3, 10⟩))
      50000000) 3).Bounded i32.max ∧
    (Expr.fr .divides (.fr .multiplies (.ff .plus (.lit ⟨7, 10⟩) (.lit ⟨3, 10⟩)) 50000000) 3).eval
      i32 .fast = .fault .overflow ∧
    (Expr.fr .divides (.fr .multiplies (.ff .plus (.lit ⟨7, 10⟩) (.lit ⟨3, 10⟩)) 50000000) 3).eval
      i32 .defaults ⇓ ⟨50000000, 3⟩ := by decide

end Ieme
