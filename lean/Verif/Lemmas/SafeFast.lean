import Verif.Lemmas.Undefined

/-!
# `safe` finishes whenever `fast` does, and relations between comparison overloads
-/

namespace Ieme

open Res IntTy

variable {T : IntTy}

/-- Dividing an in-range product by a positive cofactor stays in range. -/
theorem IntTy.InRange.of_mul {g s : ℤ} (hg : 0 < g) (h : T.InRange (g * s)) : T.InRange s := by
  refine h.shrink ?_
  rcases le_total 0 s with hs | hs
  · left; constructor <;> nlinarith
  · right; constructor <;> nlinarith

/-- The common-denominator prefix shared by `safe`'s fraction-fraction operations. -/
theorem safe_prefix {l r : Raw} (hl : 0 < l.den) (hr : 0 < r.den) (il : T.InRange l.den)
    (ir : T.InRange r.den) (ha : T.InRange (l.num * r.den)) (hb : T.InRange (r.num * l.den))
    (hd : (Int.lcm l.den r.den : ℤ) ≤ T.max) :
    ∃ L k m g : ℤ, T.lcm l.den r.den ⇓ L ∧ T.div L l.den ⇓ k ∧ T.div L r.den ⇓ m ∧
      T.mul k l.num ⇓ (k * l.num) ∧ T.mul m r.num ⇓ (m * r.num) ∧
      0 < L ∧ 0 < g ∧ L = l.den * k ∧ L = r.den * m ∧ r.den = g * k ∧ l.den = g * m := by
  obtain ⟨L, k, m, hL, hpos, hk, hm, hdk, hdm, hk0, hm0⟩ := lcm_split hl.ne' hr.ne'
  have hkp : 0 < k := by by_contra hc; nlinarith
  have hmp : 0 < m := by by_contra hc; nlinarith
  have hg := Int.gcd_mul_lcm l.den r.den
  have hg' : ((Int.gcd l.den r.den : ℕ) : ℤ) * L = l.den * r.den := by
    rw [← hL, ← Int.natCast_mul, hg]
    push_cast
    rw [abs_of_pos hl, abs_of_pos hr]
  have hgp : 0 < ((Int.gcd l.den r.den : ℕ) : ℤ) := by
    by_contra hc
    have : ((Int.gcd l.den r.den : ℕ) : ℤ) * L ≤ 0 := by nlinarith
    have : 0 < l.den * r.den := mul_pos hl hr
    omega
  generalize hgg : ((Int.gcd l.den r.den : ℕ) : ℤ) = g at *
  have e1 : r.den = g * k := by
    have : l.den * r.den = l.den * (g * k) := by rw [← hg', hk]; ring
    exact mul_left_cancel₀ hl.ne' this
  have e2 : l.den = g * m := by
    have : r.den * l.den = r.den * (g * m) := by rw [mul_comm, ← hg', hm]; ring
    exact mul_left_cancel₀ hr.ne' this
  have hmin := T.min_le_zero
  have iL : T.InRange L := ⟨by omega, by rw [← hL]; exact hd⟩
  have ik : T.InRange k := ir.shrink (by left; constructor <;> nlinarith)
  have im : T.InRange m := il.shrink (by left; constructor <;> nlinarith)
  refine ⟨L, k, m, g, ?_, ?_, ?_, ?_, ?_, hpos, hgp, hk, hm, e1, e2⟩
  · rw [lcm_clean]
    refine ⟨?_, ?_, by rw [hL]; exact iL, hL.symm⟩
    · rw [Int.natAbs_of_nonneg hl.le]; exact il
    · rw [Int.natAbs_of_nonneg hr.le]; exact ir
  · rw [div_clean]; exact ⟨hl.ne', by rw [hdk]; exact ik, hdk.symm⟩
  · rw [div_clean]; exact ⟨hr.ne', by rw [hdm]; exact im, hdm.symm⟩
  · refine mul_of_inRange (IntTy.InRange.of_mul hgp ?_)
    rw [← mul_assoc, ← e1, mul_comm]; exact ha
  · refine mul_of_inRange (IntTy.InRange.of_mul hgp ?_)
    rw [← mul_assoc, ← e2, mul_comm]; exact hb

theorem lcm_le_mul {a b : ℤ} (ha : 0 < a) (hb : 0 < b) : (Int.lcm a b : ℤ) ≤ a * b := by
  have h := Nat.le_of_dvd (by positivity) (Nat.lcm_dvd_mul a.natAbs b.natAbs)
  have e : ((a.natAbs * b.natAbs : ℕ) : ℤ) = a * b := by
    push_cast; rw [abs_of_pos ha, abs_of_pos hb]
  rw [← e]
  exact_mod_cast h

/-- Whenever `fast` adds or subtracts two fractions without overflow, so does `safe`. -/
theorem safe_of_fast_arith {op : ArithOp} (hop : op = .plus ∨ op = .minus) {l r s : Raw}
    (hl : 0 < l.den) (hr : 0 < r.den) (il : T.InRange l.den) (ir : T.InRange r.den)
    (h : Fast.arith T op (.ff l r) ⇓ s) :
    ∃ s', Safe.arith T op (.ff l r) ⇓ s' := by
  rcases hop with rfl | rfl
  · simp only [Fast.arith, Fast.plusFF, bind_eq_clean, mul_clean, add_clean, pure_eq_ok,
      and_true] at h
    obtain ⟨_, ⟨h1, rfl⟩, _, ⟨h2, rfl⟩, _, ⟨h3, rfl⟩, _, ⟨h4, rfl⟩, -⟩ := h
    obtain ⟨L, k, m, g, e1, e2, e3, e4, e5, -, hg, -, -, e8, e9⟩ :=
      safe_prefix hl hr il ir h1 h2 ((lcm_le_mul hl hr).trans h4.2)
    have h6 : T.InRange (k * l.num + m * r.num) := by
      refine IntTy.InRange.of_mul hg ?_
      rw [mul_add, ← mul_assoc, ← mul_assoc, ← e8, ← e9, mul_comm r.den, mul_comm l.den]
      exact h3
    exact ⟨⟨_, _⟩, by simp only [Safe.arith, Safe.plusFF, e1, e2, e3, e4, e5, ok_bind_false,
      add_of_inRange h6, pure_def]; rfl⟩
  · simp only [Fast.arith, Fast.minusFF, bind_eq_clean, mul_clean, sub_clean, pure_eq_ok,
      and_true] at h
    obtain ⟨_, ⟨h1, rfl⟩, _, ⟨h2, rfl⟩, _, ⟨h3, rfl⟩, _, ⟨h4, rfl⟩, -⟩ := h
    obtain ⟨L, k, m, g, e1, e2, e3, e4, e5, -, hg, -, -, e8, e9⟩ :=
      safe_prefix hl hr il ir h1 h2 ((lcm_le_mul hl hr).trans h4.2)
    have h6 : T.InRange (k * l.num - m * r.num) := by
      refine IntTy.InRange.of_mul hg ?_
      rw [mul_sub, ← mul_assoc, ← mul_assoc, ← e8, ← e9, mul_comm r.den, mul_comm l.den]
      exact h3
    exact ⟨⟨_, _⟩, by simp only [Safe.arith, Safe.minusFF, e1, e2, e3, e4, e5, ok_bind_false,
      sub_of_inRange h6, pure_def]; rfl⟩

/-- Whenever `fast` compares two fractions without overflow and the least common
denominator is representable, `safe` compares them without overflow too. -/
theorem safe_of_fast_cmp {op : CmpOp} {l r : Raw} {b : Bool}
    (hl : 0 < l.den) (hr : 0 < r.den) (il : T.InRange l.den) (ir : T.InRange r.den)
    (hlcm : (Int.lcm l.den r.den : ℤ) ≤ T.max)
    (h : Fast.cmp T op (.ff l r) ⇓ b) :
    ∃ b', Safe.cmp T op (.ff l r) ⇓ b' := by
  have key : T.InRange (l.num * r.den) ∧ T.InRange (r.num * l.den) := by
    cases op <;> simp only [Fast.cmp, Fast.equalToFF, Fast.notEqualToFF, Fast.lessFF,
      Fast.lessEqualFF, Fast.greaterFF, Fast.greaterEqualFF, bind_eq_clean, mul_clean,
      pure_eq_ok, and_true] at h
    · obtain ⟨_, ⟨h1, -⟩, _, ⟨h2, -⟩, -⟩ := h; exact ⟨h1, h2⟩
    · obtain ⟨_, ⟨_, ⟨h1, -⟩, _, ⟨h2, -⟩, -⟩, -⟩ := h; exact ⟨h1, h2⟩
    · obtain ⟨_, ⟨h1, -⟩, _, ⟨h2, -⟩, -⟩ := h; exact ⟨h1, h2⟩
    · obtain ⟨_, ⟨h1, -⟩, _, ⟨h2, -⟩, -⟩ := h; exact ⟨h1, h2⟩
    · obtain ⟨_, ⟨h1, -⟩, _, ⟨h2, -⟩, -⟩ := h; exact ⟨h2, h1⟩
    · obtain ⟨_, ⟨h1, -⟩, _, ⟨h2, -⟩, -⟩ := h; exact ⟨h2, h1⟩
  obtain ⟨L, k, m, g, e1, e2, e3, e4, e5, -⟩ := safe_prefix hl hr il ir key.1 key.2 hlcm
  obtain ⟨L', k', m', g', f1, f2, f3, f4, f5, -⟩ := safe_prefix hr hl ir il key.2 key.1
    (by rw [Int.lcm_comm]; exact hlcm)
  have u1 : (l.isUndefined || r.isUndefined) = false := by
    simp [Raw.isUndefined, Raw.isDefined, hl.ne', hr.ne']
  have u2 : (r.isUndefined || l.isUndefined) = false := by
    simp [Raw.isUndefined, Raw.isDefined, hl.ne', hr.ne']
  cases op <;> exact ⟨_, by simp only [Safe.cmp, Safe.equalToFF, Safe.notEqualToFF, Safe.lessFF,
    Safe.lessEqualFF, Safe.greaterFF, Safe.greaterEqualFF, u1, u2, Bool.false_eq_true, if_false,
    e1, e2, e3, e4, e5, f1, f2, f3, f4, f5, ok_bind_false, pure_def]; rfl⟩

/-! ## Relations between comparison operators -/

theorem Args.reduce_swap {mode : ReduceMode} {a a1 a2 : Args} {w1 w2 : Bool}
    (h1 : a.reduce T mode = .ok a1 w1) (h2 : a.swap.reduce T mode = .ok a2 w2) : a2 = a1.swap := by
  cases a with
  | ff l r =>
    simp only [Args.reduce, Args.swap, bind_eq_ok, pure_eq_ok] at h1 h2
    obtain ⟨l', _, _, h3, ⟨r', _, _, h4, ⟨rfl, -⟩, -⟩, -⟩ := h1
    obtain ⟨l'', _, _, h5, ⟨r'', _, _, h6, ⟨rfl, -⟩, -⟩, -⟩ := h2
    rw [h3] at h6; rw [h4] at h5
    simp only [Res.ok.injEq] at h5 h6
    rw [← h5.1, ← h6.1]; rfl
  | fr l r =>
    simp only [Args.reduce, Args.swap, bind_eq_ok, pure_eq_ok] at h1 h2
    obtain ⟨l', _, _, h3, ⟨rfl, -⟩, -⟩ := h1
    obtain ⟨l'', _, _, h4, ⟨rfl, -⟩, -⟩ := h2
    rw [h3] at h4
    simp only [Res.ok.injEq] at h4
    rw [← h4.1]; rfl
  | rf l r =>
    simp only [Args.reduce, Args.swap, bind_eq_ok, pure_eq_ok] at h1 h2
    obtain ⟨l', _, _, h3, ⟨rfl, -⟩, -⟩ := h1
    obtain ⟨l'', _, _, h4, ⟨rfl, -⟩, -⟩ := h2
    rw [h3] at h4
    simp only [Res.ok.injEq] at h4
    rw [← h4.1]; rfl

/-- `a > b` is `b < a` and `a >= b` is `b <= a`, for every policy and all operands, also
undefined ones, also with unsigned wrap-around. -/
theorem Ops.cmp_swap {o : Ops} {op : CmpOp} (hop : op.IsOrder) {a : Args} {b c w w' : Bool}
    (h1 : o.cmp T op a = .ok b w) (h2 : o.cmp T op.swap a.swap = .ok c w') : b = c := by
  induction o generalizing a w w' with
  | safe =>
    have : Safe.cmp T op.swap a.swap = Safe.cmp T op a := by
      cases op <;> first | exact hop.elim | (cases a <;> rfl)
    rw [Ops.cmp, this, ← Ops.cmp.eq_1, h1] at h2
    simp only [Res.ok.injEq] at h2; exact h2.1
  | fast =>
    have : Fast.cmp T op.swap a.swap = Fast.cmp T op a := by
      cases op <;> first | exact hop.elim | (cases a <;> rfl)
    rw [Ops.cmp, this, ← Ops.cmp.eq_2, h1] at h2
    simp only [Res.ok.injEq] at h2; exact h2.1
  | reducedInput o mode ih =>
    simp only [Ops.cmp, bind_eq_ok] at h1 h2
    obtain ⟨a1, _, _, ha1, h1, -⟩ := h1
    obtain ⟨a2, _, _, ha2, h2, -⟩ := h2
    rw [Args.reduce_swap ha1 ha2] at h2
    exact ih h1 h2
  | reducedOutput o mode ih => exact ih h1 h2

/-- `!=` is computed as the negation of `==`. -/
theorem Ops.cmp_not {o : Ops} {a : Args} : o.cmp T .notEqualTo a =
    (o.cmp T .equalTo a >>= fun b => pure (!b)) := by
  induction o generalizing a with
  | safe => cases a <;> rfl
  | fast => cases a <;> rfl
  | reducedInput o mode ih =>
    simp only [Ops.cmp]
    rw [bind_assoc]
    congr 1
    funext a'
    exact ih
  | reducedOutput o mode ih => exact ih

end Ieme

namespace Ieme

open Res IntTy

variable {T : IntTy}

/-- `reduce` succeeds when both absolute values are representable, and keeps that. -/
theorem Raw.reduce_repr {f : Raw} (mode : ReduceMode) (hf : f.InRange T)
    (h : T.InRange f.num.natAbs ∧ T.InRange f.den.natAbs) :
    ∃ r, f.reduce T mode ⇓ r ∧ r.InRange T ∧ T.InRange r.num.natAbs ∧ T.InRange r.den.natAbs := by
  obtain ⟨r, hr, ir⟩ := Raw.reduce_progress mode hf h.1 h.2
  obtain ⟨h1, h2⟩ := Raw.reduce_natAbs_le hr
  exact ⟨r, hr, ir, h.1.shrink (by omega), h.2.shrink (by omega)⟩

/-- Policies built on `safe` compare undefined fractions without undefined behaviour when
all absolute values are representable. -/
theorem Ops.cmp_ff_undefined_finishes {o : Ops} (hs : o.SafeBased) (op : CmpOp) {l r : Raw}
    (hu : l.den = 0 ∨ r.den = 0) (hl : l.InRange T) (hr : r.InRange T)
    (al : T.InRange l.num.natAbs ∧ T.InRange l.den.natAbs)
    (ar : T.InRange r.num.natAbs ∧ T.InRange r.den.natAbs) :
    o.cmp T op (.ff l r) ⇓ op.undefAnswer := by
  induction o generalizing l r with
  | safe => exact Safe.cmp_ff_undefined op hu
  | fast => exact hs.elim
  | reducedInput o mode ih =>
    obtain ⟨l', h1, i1, a1⟩ := Raw.reduce_repr mode hl al
    obtain ⟨r', h2, i2, a2⟩ := Raw.reduce_repr mode hr ar
    have hu' : l'.den = 0 ∨ r'.den = 0 := by
      rcases hu with hu | hu
      · left; exact (Raw.reduce_den_eq_zero h1).2 hu
      · right; exact (Raw.reduce_den_eq_zero h2).2 hu
    simp only [Ops.cmp, Args.reduce, h1, h2, ok_bind_false, pure_def]
    exact ih hs hu' i1 i2 a1 a2
  | reducedOutput o mode ih => exact ih hs hu hl hr al ar

end Ieme
