import Verif.Lemmas.Progress
import Verif.Lemmas.Fraction
import Verif.Props.Parts
import Verif.Spec.Bounds

/-!
# Operations finish when the static bounds are representable
-/

namespace Ieme

open Res IntTy

variable {T : IntTy}

/-- Numerator and denominator fit their bounds. -/
def Raw.FitB (T : IntTy) (A : Bound) (f : Raw) : Prop :=
  Ieme.Fit T A.num f.num ∧ Ieme.Fit T A.den f.den

theorem Raw.FitB.inRange {A : Bound} {f : Raw} (h : f.FitB T A) (hA : A.Le T.max) : f.InRange T :=
  ⟨h.1.inRange hA.1, h.2.inRange hA.2⟩

theorem Raw.FitB.reduce {f : Raw} {A : Bound} (h : f.FitB T A) (hA : A.Le T.max)
    (mode : ReduceMode) : ∃ r, f.reduce T mode ⇓ r ∧ r.FitB T A := by
  obtain ⟨r, hr, hin⟩ := Raw.reduce_progress mode (h.inRange hA)
    (h.1.natAbs_inRange hA.1) (h.2.natAbs_inRange hA.2)
  obtain ⟨h1, h2⟩ := Raw.reduce_natAbs_le hr
  exact ⟨r, hr, Ieme.Fit.of_inRange hin.1 (h1.trans h.1.1), Ieme.Fit.of_inRange hin.2 (h2.trans h.2.1)⟩

/-- Both operands fit their bounds. -/
def Args.FitB (T : IntTy) (A B : Bound) (a : Args) : Prop :=
  a.left.FitB T A ∧ a.right.FitB T B

theorem Args.FitB.inRange {A B : Bound} {a : Args} (h : a.FitB T A B) (hA : A.Le T.max)
    (hB : B.Le T.max) : a.InRange T := by
  obtain ⟨h1, h2⟩ := h
  cases a with
  | ff l r => exact ⟨h1.inRange hA, h2.inRange hB⟩
  | fr l r => exact ⟨h1.inRange hA, (h2.inRange hB).1⟩
  | rf l r => exact ⟨(h1.inRange hA).1, h2.inRange hB⟩

theorem Args.FitB.reduce {A B : Bound} {a : Args} (h : a.FitB T A B) (hA : A.Le T.max)
    (hB : B.Le T.max) (mode : ReduceMode) : ∃ r, a.reduce T mode ⇓ r ∧ r.FitB T A B := by
  obtain ⟨h1, h2⟩ := h
  cases a with
  | ff l r =>
    obtain ⟨l', hl, fl⟩ := h1.reduce hA mode
    obtain ⟨r', hr, fr⟩ := h2.reduce hB mode
    exact ⟨.ff _ _, by simp only [Args.reduce, Args.left, Args.right] at *
                       simp only [hl, hr, ok_bind_false, pure_def], fl, fr⟩
  | fr l r =>
    obtain ⟨l', hl, fl⟩ := h1.reduce hA mode
    exact ⟨.fr l' r, by simp only [Args.reduce, Args.left] at *
                        simp only [hl, ok_bind_false, pure_def], fl, h2⟩
  | rf l r =>
    obtain ⟨r', hr, fr⟩ := h2.reduce hB mode
    exact ⟨.rf l r', by simp only [Args.reduce, Args.right] at *
                        simp only [hr, ok_bind_false, pure_def], h1, fr⟩

theorem Args.Denote.sides {a : Args} {x y : ℚ} (h : a.Denote x y) :
    Denotes a.left x ∧ Denotes a.right y := by
  cases a with
  | ff l r => exact h
  | fr l r => exact ⟨h.1, by simp [Args.right], by rw [← h.2]; simp [Args.right]⟩
  | rf l r => exact ⟨⟨by simp [Args.left], by rw [← h.1]; simp [Args.left]⟩, h.2⟩

/-- Everything the cross-multiplied operation computes fits the static bounds. -/
theorem crossParts_fitB {op : ArithOp} {l r : Raw} {A B : Bound} (hl : l.FitB T A)
    (hr : r.FitB T B) (hm : op = .minus → T.signed = true) :
    (op.crossParts l r).FitB T (op.bound A B) := by
  have f1 := hl.1.mul hr.2
  have f2 := hr.1.mul hl.2
  have f3 := hl.2.mul hr.2
  cases op with
  | plus => exact ⟨f1.add f2, f3⟩
  | minus => exact ⟨f1.sub (hm rfl) f2, f3⟩
  | multiplies => exact ⟨hl.1.mul hr.1, f3⟩
  | divides => exact ⟨f1, hl.2.mul hr.1⟩
  | modulus => exact ⟨f1.tmod _, f3⟩

theorem Raw.FitB.den_pos {f : Raw} {A : Bound} (h : f.FitB T A) (h0 : f.den ≠ 0) : 1 ≤ A.den := by
  have := h.2.1
  omega

theorem Fast.arith_fitB {op : ArithOp} {a : Args} {x y : ℚ} {A B : Bound} (ha : a.Denote x y)
    (hf : a.FitB T A B) (hA : A.Le T.max) (hB : B.Le T.max) (hop : op.Bounded A B T.max)
    (hal : op.Allowed T y) :
    ∃ r, Ops.fast.arith T op a ⇓ r ∧ r.FitB T (op.bound A B) := by
  have hfit := crossParts_fitB (op := op) hf.1 hf.2 (by rintro rfl; exact hal)
  refine ⟨_, (C85_fast_iff (hf.inRange hA hB)).2 ⟨rfl, hfit.inRange hop.1, fun hc => ?_, ?_⟩, hfit⟩
  · have f1 := hf.1.1.mul hf.2.2
    have f2 := hf.2.1.mul hf.1.2
    have hk := hop.1.1
    cases op with
    | plus =>
      simp only [ArithOp.bound] at hk
      push_cast at hk
      refine ⟨f1.inRange ?_, f2.inRange ?_⟩ <;> push_cast <;>
        nlinarith [Nat.zero_le (A.num * B.den), Nat.zero_le (B.num * A.den)]
    | minus =>
      simp only [ArithOp.bound] at hk
      push_cast at hk
      refine ⟨f1.inRange ?_, f2.inRange ?_⟩ <;> push_cast <;>
        nlinarith [Nat.zero_le (A.num * B.den), Nat.zero_le (B.num * A.den)]
    | multiplies => exact absurd hc id
    | divides => exact absurd hc id
    | modulus => exact ⟨f1.inRange hk, f2.inRange (hop.2 rfl)⟩
  · rintro rfl
    obtain ⟨hx, hy⟩ := ha.sides
    have hy0 : y ≠ 0 := hal
    refine ⟨mul_ne_zero ?_ hx.1, ((hf.1.1.mul hf.2.2).tdiv (hf.2.1.mul hf.1.2)).inRange hop.1.1⟩
    intro e
    exact hy0 (by rw [← hy.2, e]; simp)

/-- The cofactors of the least common denominator are no larger than the other denominator. -/
theorem lcm_fit {a b : ℤ} {A B : ℕ} (ha : a ≠ 0) (hb : b ≠ 0) (fa : Fit T A a) (fb : Fit T B b) :
    ∃ k m : ℤ, (Int.lcm a b : ℤ) = a * k ∧ (Int.lcm a b : ℤ) = b * m ∧
      Fit T (A * B) (Int.lcm a b) ∧ Fit T B k ∧ Fit T A m ∧ k ≠ 0 ∧ m ≠ 0 := by
  obtain ⟨L, k, m, hL, hpos, hk, hm, -, -, hk0, hm0⟩ := lcm_split ha hb
  have hLle : L.natAbs ≤ a.natAbs * b.natAbs := by
    rw [← hL]
    simp only [Int.natAbs_natCast]
    exact Nat.le_of_dvd (Nat.mul_pos (by omega) (by omega)) (by
      rw [← Int.natAbs_mul]
      have := Int.coe_lcm_dvd (dvd_mul_right a b) (dvd_mul_left b a)
      have := Int.natAbs_dvd_natAbs.2 this
      simpa using this)
  refine ⟨k, m, by rw [hL, hk], by rw [hL, hm], ?_, ⟨?_, fun hs => ?_⟩, ⟨?_, fun hs => ?_⟩, hk0, hm0⟩
  · rw [hL]
    exact ⟨hLle.trans (Nat.mul_le_mul fa.1 fb.1), fun _ => hpos.le⟩
  · have h1 : a.natAbs * k.natAbs ≤ a.natAbs * b.natAbs := by
      rw [← Int.natAbs_mul, ← hk]; exact hLle
    exact (Nat.le_of_mul_le_mul_left h1 (by omega)).trans fb.1
  · have h0 := fa.2 hs
    by_contra hneg
    have : a * k ≤ 0 := mul_nonpos_of_nonneg_of_nonpos h0 (by omega)
    omega
  · have h1 : b.natAbs * m.natAbs ≤ b.natAbs * a.natAbs := by
      rw [← Int.natAbs_mul, ← hm, Nat.mul_comm b.natAbs]; exact hLle
    exact (Nat.le_of_mul_le_mul_left h1 (by omega)).trans fa.1
  · have h0 := fb.2 hs
    by_contra hneg
    have : b * m ≤ 0 := mul_nonpos_of_nonneg_of_nonpos h0 (by omega)
    omega

theorem Safe.arith_fitB {op : ArithOp} {a : Args} {x y : ℚ} {A B : Bound} (ha : a.Denote x y)
    (hf : a.FitB T A B) (hA : A.Le T.max) (hB : B.Le T.max) (hop : op.Bounded A B T.max)
    (hal : op.Allowed T y) :
    ∃ r, Ops.safe.arith T op a ⇓ r ∧ r.FitB T (op.bound A B) := by
  by_cases hc : ¬ op.UsesCommon ∨ ∀ l r, a ≠ .ff l r
  · rw [C85_safe_eq_fast hc]
    exact Fast.arith_fitB ha hf hA hB hop hal
  simp only [not_or, not_not, not_forall] at hc
  obtain ⟨hcom, l, r, rfl⟩ := hc
  obtain ⟨hl, hr⟩ := ha
  obtain ⟨fl, fr⟩ := hf
  simp only [Args.left, Args.right] at fl fr
  obtain ⟨k, m, hk, hm, fL, fk, fm, hk0, hm0⟩ := lcm_fit hl.1 hr.1 fl.2 fr.2
  have fp : Fit T (A.num * B.den) (l.num * k) := fl.1.mul fk
  have fq : Fit T (B.num * A.den) (r.num * m) := fr.1.mul fm
  have main : ∀ n, Fit T (op.bound A B).num n → n = op.overCommon (l.num * k) (r.num * m) →
      (A.num * B.den : ℕ) ≤ T.max → (B.num * A.den : ℕ) ≤ T.max →
      (A.den * B.den : ℕ) = (op.bound A B).den →
      (op = .modulus → r.num * m ≠ 0 ∧ T.InRange ((l.num * k).tdiv (r.num * m))) →
      ∃ s, Ops.safe.arith T op (.ff l r) ⇓ s ∧ s.FitB T (op.bound A B) := by
    intro n fn hn b1 b2 b3 hmod
    rw [b3] at fL
    refine ⟨⟨n, Int.lcm l.den r.den⟩, (C85_safe_iff hcom (fl.inRange hA) (fr.inRange hB)).2
      ⟨hl.1, hr.1, rfl, ⟨fn.inRange hop.1.1, fL.inRange hop.1.2⟩, l.num * k, r.num * m, ?_, ?_,
        fp.inRange b1, fq.inRange b2, hn, hmod⟩, fn, fL⟩
    · rw [hk]; ring
    · rw [hm]; ring
  have hk1 := hop.1.1
  cases op with
  | plus =>
    simp only [ArithOp.bound] at hk1
    push_cast at hk1
    refine main _ (fp.add fq) rfl ?_ ?_ rfl (by simp) <;> push_cast <;>
      nlinarith [Nat.zero_le (A.num * B.den), Nat.zero_le (B.num * A.den)]
  | minus =>
    simp only [ArithOp.bound] at hk1
    push_cast at hk1
    refine main _ (fp.sub hal fq) rfl ?_ ?_ rfl (by simp) <;> push_cast <;>
      nlinarith [Nat.zero_le (A.num * B.den), Nat.zero_le (B.num * A.den)]
  | multiplies => exact absurd hcom id
  | divides => exact absurd hcom id
  | modulus =>
    have hy0 : y ≠ 0 := hal
    refine main _ (fp.tmod _) rfl hk1 (hop.2 rfl) rfl fun _ => ⟨mul_ne_zero ?_ hm0,
      (fp.tdiv fq).inRange hk1⟩
    intro e
    exact hy0 (by rw [← hr.2, e]; simp)

theorem Ops.arith_fitB {o : Ops} {op : ArithOp} {a : Args} {x y : ℚ} {A B : Bound}
    (ha : a.Denote x y) (hf : a.FitB T A B) (hA : A.Le T.max) (hB : B.Le T.max)
    (hop : op.Bounded A B T.max) (hal : op.Allowed T y) :
    ∃ r, o.arith T op a ⇓ r ∧ r.FitB T (op.bound A B) := by
  induction o generalizing a with
  | safe => exact Safe.arith_fitB ha hf hA hB hop hal
  | fast => exact Fast.arith_fitB ha hf hA hB hop hal
  | reducedInput o mode ih =>
    obtain ⟨a', ha', fa'⟩ := hf.reduce hA hB mode
    obtain ⟨r, hr, fr⟩ := ih (Args.reduce_denote ha ha') fa'
    exact ⟨r, by simp only [Ops.arith, ha', ok_bind_false, hr], fr⟩
  | reducedOutput o mode ih =>
    obtain ⟨r, hr, fr⟩ := ih ha hf
    obtain ⟨s, hs, fs⟩ := fr.reduce hop.1 mode
    exact ⟨s, by simp only [Ops.arith, hr, ok_bind_false, hs], fs⟩

theorem Ops.negate_fitB {o : Ops} {v : Raw} {A : Bound} (hs : T.signed = true) (hf : v.FitB T A)
    (hA : A.Le T.max) : ∃ r, o.negate T v ⇓ r ∧ r.FitB T A := by
  induction o generalizing v with
  | safe =>
    have := hf.1.neg hs
    exact ⟨⟨_, _⟩, by simp only [Ops.negate, Safe.negate, neg_of_inRange (this.inRange hA.1),
      ok_bind_false, pure_def], this, hf.2⟩
  | fast =>
    have := hf.1.neg hs
    exact ⟨⟨_, _⟩, by simp only [Ops.negate, Fast.negate, neg_of_inRange (this.inRange hA.1),
      ok_bind_false, pure_def], this, hf.2⟩
  | reducedInput o mode ih =>
    obtain ⟨a', ha', fa'⟩ := hf.reduce hA .normalizeSigns
    obtain ⟨r, hr, fr⟩ := ih fa'
    exact ⟨r, by simp only [Ops.negate, ha', ok_bind_false, hr], fr⟩
  | reducedOutput o mode ih =>
    obtain ⟨r, hr, fr⟩ := ih hf
    obtain ⟨s, hs, fs⟩ := fr.reduce hA mode
    exact ⟨s, by simp only [Ops.negate, hr, ok_bind_false, hs], fs⟩

theorem Expr.Bounded.bound_le {K : ℤ} {e : Expr} (h : e.Bounded K) : e.bound.Le K := by
  induction e with
  | lit f => exact h
  | neg e ih => exact ih h
  | pos e ih => exact ih h
  | ff op e1 e2 _ _ => exact h.2.2.1
  | fr op e n _ => exact h.2.2.1
  | rf op n e _ => exact h.2.2.1

theorem allowed_of_value {op : ArithOp} {x y q : ℚ} (hs : op = .minus → T.signed = true)
    (hv : op.value x y = some q) : op.Allowed T y := by
  cases op with
  | minus => exact hs rfl
  | modulus =>
    intro e
    simp [ArithOp.value, e] at hv
  | plus => trivial
  | multiplies => trivial
  | divides => trivial

/-- An expression whose static bounds are representable finishes. -/
theorem Expr.eval_fitB {o : Ops} {e : Expr} {q : ℚ} (hv : e.value = some q)
    (hb : e.Bounded T.max) (hr : T.signed = true ∨ e.NoMinus ∧ e.LeavesInRange T) :
    ∃ r, e.eval T o ⇓ r ∧ r.FitB T e.bound := by
  have leaf : ∀ {n : ℤ}, (T.signed = true ∨ T.InRange n) → Fit T n.natAbs n := fun h =>
    ⟨le_rfl, fun hs => by
      rcases h with h | h
      · simp [h] at hs
      · exact h.nonneg hs⟩
  induction e generalizing q with
  | lit f =>
    exact ⟨f, rfl, leaf (hr.imp id fun h => h.2.1), leaf (hr.imp id fun h => h.2.2)⟩
  | neg e ih =>
    simp only [Expr.value, Option.map_eq_some_iff] at hv
    obtain ⟨x, hx, -⟩ := hv
    rcases hr with hs | ⟨h, -⟩
    · obtain ⟨v, h1, f1⟩ := ih hx hb (Or.inl hs)
      obtain ⟨w, h2, f2⟩ := Ops.negate_fitB (o := o) hs f1 (Expr.Bounded.bound_le (e := e) hb)
      exact ⟨w, bind_eq_clean.2 ⟨v, h1, h2⟩, f2⟩
    · exact h.elim
  | pos e ih =>
    obtain ⟨v, h1, f1⟩ := ih hv hb (hr.imp id fun h => h)
    exact ⟨v, bind_eq_clean.2 ⟨v, h1, rfl⟩, f1⟩
  | ff op e1 e2 ih1 ih2 =>
    simp only [Expr.value, Option.bind_eq_some_iff] at hv
    obtain ⟨x, hx, y, hy, hv⟩ := hv
    obtain ⟨hb1, hb2, hb3⟩ := hb
    obtain ⟨v1, h1, f1⟩ := ih1 hx hb1 (hr.imp id fun h => ⟨h.1.2.1, h.2.1⟩)
    obtain ⟨v2, h2, f2⟩ := ih2 hy hb2 (hr.imp id fun h => ⟨h.1.2.2, h.2.2⟩)
    obtain ⟨r, h3, f3⟩ := Ops.arith_fitB (o := o) (op := op) (a := .ff v1 v2)
      ⟨Expr.eval_exact h1 hx, Expr.eval_exact h2 hy⟩ ⟨f1, f2⟩ hb1.bound_le hb2.bound_le hb3
      (allowed_of_value (fun e => hr.elim id fun h => absurd e h.1.1) hv)
    exact ⟨r, by simp only [Expr.eval, h1, h2, ok_bind_false, Fraction.arith_self, h3], f3⟩
  | fr op e n ih =>
    simp only [Expr.value, Option.bind_eq_some_iff] at hv
    obtain ⟨x, hx, hv⟩ := hv
    obtain ⟨hb1, hb2, hb3⟩ := hb
    obtain ⟨v1, h1, f1⟩ := ih hx hb1 (hr.imp id fun h => ⟨h.1.2, h.2.1⟩)
    obtain ⟨r, h3, f3⟩ := Ops.arith_fitB (o := o) (op := op) (a := .fr v1 n)
      ⟨Expr.eval_exact h1 hx, rfl⟩ ⟨f1, leaf (hr.imp id fun h => h.2.2), by simp [Args.right, Ieme.Fit, intBound]⟩
      hb1.bound_le hb2 hb3
      (allowed_of_value (fun e => hr.elim id fun h => absurd e h.1.1) hv)
    exact ⟨r, by simp only [Expr.eval, h1, ok_bind_false, Fraction.arith_self, h3], f3⟩
  | rf op n e ih =>
    simp only [Expr.value, Option.bind_eq_some_iff] at hv
    obtain ⟨x, hx, hv⟩ := hv
    obtain ⟨hb1, hb2, hb3⟩ := hb
    obtain ⟨v1, h1, f1⟩ := ih hx hb1 (hr.imp id fun h => ⟨h.1.2, h.2.2⟩)
    obtain ⟨r, h3, f3⟩ := Ops.arith_fitB (o := o) (op := op) (a := .rf n v1)
      ⟨rfl, Expr.eval_exact h1 hx⟩ ⟨⟨leaf (hr.imp id fun h => h.2.1), by simp [Args.left, Ieme.Fit, intBound]⟩, f1⟩
      hb2 hb1.bound_le hb3
      (allowed_of_value (fun e => hr.elim id fun h => absurd e h.1.1) hv)
    exact ⟨r, by simp only [Expr.eval, h1, ok_bind_false, Fraction.arith_self, h3], f3⟩

/-! ### A closed form for the bounds -/

theorem Expr.leaves_pos (e : Expr) : 1 ≤ e.leaves := by
  induction e <;> simp only [Expr.leaves] <;> omega

theorem bound_combine {op : ArithOp} {A B : Bound} {P Q : ℕ} (h1 : A.num ≤ P) (h2 : A.den ≤ P)
    (h3 : B.num ≤ Q) (h4 : B.den ≤ Q) :
    (op.bound A B).num ≤ 2 * (P * Q) ∧ (op.bound A B).den ≤ 2 * (P * Q) ∧
      B.num * A.den ≤ 2 * (P * Q) := by
  have a1 := Nat.mul_le_mul h1 h4
  have a2 := Nat.mul_le_mul h3 h2
  have a3 := Nat.mul_le_mul h2 h4
  have a4 := Nat.mul_le_mul h1 h3
  have a5 := Nat.mul_le_mul h2 h3
  have a6 : Q * P = P * Q := Nat.mul_comm _ _
  cases op <;> simp only [ArithOp.bound] <;> omega

/-- With `m` operands of magnitude at most `B`, both parts are at most `2 ^ (m - 1) * B ^ m`. -/
theorem Expr.bound_closed {B : ℕ} {e : Expr} (hB : 1 ≤ B) (h : e.LeavesLe B) :
    e.bound.num ≤ 2 ^ (e.leaves - 1) * B ^ e.leaves ∧
      e.bound.den ≤ 2 ^ (e.leaves - 1) * B ^ e.leaves := by
  have split : ∀ {m n : ℕ}, 1 ≤ m → 1 ≤ n → 2 * (2 ^ (m - 1) * B ^ m * (2 ^ (n - 1) * B ^ n)) =
      2 ^ (m + n - 1) * B ^ (m + n) := by
    intro m n hm hn
    obtain ⟨m, rfl⟩ := Nat.exists_eq_add_of_le hm
    obtain ⟨n, rfl⟩ := Nat.exists_eq_add_of_le hn
    have e1 : 1 + m + (1 + n) - 1 = m + n + 1 := by omega
    have e2 : 1 + m - 1 = m := by omega
    have e3 : 1 + n - 1 = n := by omega
    rw [e1, e2, e3]
    ring
  induction e with
  | lit f => simpa [Expr.leaves, Expr.bound, Raw.bound, Expr.LeavesLe] using h
  | neg e ih => exact ih h
  | pos e ih => exact ih h
  | ff op e1 e2 ih1 ih2 =>
    obtain ⟨a1, a2⟩ := ih1 h.1
    obtain ⟨b1, b2⟩ := ih2 h.2
    obtain ⟨c1, c2, -⟩ := bound_combine (op := op) a1 a2 b1 b2
    rw [split e1.leaves_pos e2.leaves_pos] at c1 c2
    exact ⟨c1, c2⟩
  | fr op e n ih =>
    obtain ⟨a1, a2⟩ := ih h.1
    obtain ⟨c1, c2, -⟩ := bound_combine (op := op) (B := intBound n) (Q := 2 ^ (1 - 1) * B ^ 1) a1 a2
      (by simpa [intBound] using h.2) (by simpa [intBound] using hB)
    rw [split e.leaves_pos le_rfl] at c1 c2
    exact ⟨c1, c2⟩
  | rf op n e ih =>
    obtain ⟨a1, a2⟩ := ih h.1
    obtain ⟨c1, c2, -⟩ := bound_combine (op := op) (A := intBound n) (P := 2 ^ (1 - 1) * B ^ 1)
      (by simpa [intBound] using h.2) (by simpa [intBound] using hB) a1 a2
    rw [split le_rfl e.leaves_pos] at c1 c2
    exact ⟨c1, c2⟩

/-- The closed form bounds every node. -/
theorem Expr.bounded_closed {B : ℕ} {K : ℤ} {e : Expr} (hB : 1 ≤ B) (h : e.LeavesLe B)
    (hK : ((2 ^ (e.leaves - 1) * B ^ e.leaves : ℕ) : ℤ) ≤ K) : e.Bounded K := by
  have grow : ∀ {m n : ℕ}, m ≤ n → 2 ^ (m - 1) * B ^ m ≤ 2 ^ (n - 1) * B ^ n := fun h =>
    Nat.mul_le_mul (Nat.pow_le_pow_right (by omega) (by omega)) (Nat.pow_le_pow_right hB h)
  have split : ∀ {m n : ℕ}, 1 ≤ m → 1 ≤ n → 2 * (2 ^ (m - 1) * B ^ m * (2 ^ (n - 1) * B ^ n)) =
      2 ^ (m + n - 1) * B ^ (m + n) := by
    intro m n hm hn
    obtain ⟨m, rfl⟩ := Nat.exists_eq_add_of_le hm
    obtain ⟨n, rfl⟩ := Nat.exists_eq_add_of_le hn
    have e1 : 1 + m + (1 + n) - 1 = m + n + 1 := by omega
    have e2 : 1 + m - 1 = m := by omega
    have e3 : 1 + n - 1 = n := by omega
    rw [e1, e2, e3]
    ring
  have cast : ∀ {m n : ℕ}, m ≤ n → (n : ℤ) ≤ K → (m : ℤ) ≤ K := fun h h' => by omega
  have small : ∀ {m n : ℕ}, n ≤ B → 1 ≤ m → ((2 ^ (m - 1) * B ^ m : ℕ) : ℤ) ≤ K → (n : ℤ) ≤ K :=
    fun h1 h2 h3 => cast (h1.trans (by simpa using grow h2)) h3
  induction e with
  | lit f =>
    simp only [Expr.leaves] at hK
    exact ⟨small (m := 1) h.1 le_rfl hK, small (m := 1) h.2 le_rfl hK⟩
  | neg e ih => exact ih h hK
  | pos e ih => exact ih h hK
  | ff op e1 e2 ih1 ih2 =>
    obtain ⟨a1, a2⟩ := Expr.bound_closed hB h.1
    obtain ⟨b1, b2⟩ := Expr.bound_closed hB h.2
    obtain ⟨c1, c2, c3⟩ := bound_combine (op := op) a1 a2 b1 b2
    rw [split e1.leaves_pos e2.leaves_pos] at c1 c2 c3
    exact ⟨ih1 h.1 (cast (grow (by simp [Expr.leaves])) hK),
      ih2 h.2 (cast (grow (by simp [Expr.leaves])) hK), ⟨cast c1 hK, cast c2 hK⟩,
      fun _ => cast c3 hK⟩
  | fr op e n ih =>
    obtain ⟨a1, a2⟩ := Expr.bound_closed hB h.1
    obtain ⟨c1, c2, c3⟩ := bound_combine (op := op) (B := intBound n) (Q := 2 ^ (1 - 1) * B ^ 1)
      a1 a2 (by simpa [intBound] using h.2) (by simpa [intBound] using hB)
    rw [split e.leaves_pos le_rfl] at c1 c2 c3
    refine ⟨ih h.1 (cast (grow (by simp [Expr.leaves])) hK), ⟨?_, ?_⟩,
      ⟨cast c1 hK, cast c2 hK⟩, fun _ => cast c3 hK⟩
    · exact small h.2 (Expr.leaves_pos (.fr op e n)) hK
    · exact small hB (Expr.leaves_pos (.fr op e n)) hK
  | rf op n e ih =>
    obtain ⟨a1, a2⟩ := Expr.bound_closed hB h.1
    obtain ⟨c1, c2, c3⟩ := bound_combine (op := op) (A := intBound n) (P := 2 ^ (1 - 1) * B ^ 1)
      (by simpa [intBound] using h.2) (by simpa [intBound] using hB) a1 a2
    rw [split le_rfl e.leaves_pos] at c1 c2 c3
    refine ⟨ih h.1 (cast (grow (by simp [Expr.leaves])) hK), ⟨?_, ?_⟩,
      ⟨cast c1 hK, cast c2 hK⟩, fun _ => cast c3 hK⟩
    · exact small h.2 (Expr.leaves_pos (.rf op n e)) hK
    · exact small hB (Expr.leaves_pos (.rf op n e)) hK

end Ieme
