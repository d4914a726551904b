import Verif.Lemmas.Scale
import Verif.Lemmas.PosDen
import Mathlib.Data.Int.ModEq

/-!
# From a policy built on `fast` to the same policy built on `safe`
-/

namespace Ieme

open Res IntTy

variable {T : IntTy} {o : Ops}

/-- Wrapping does not change the residue. -/
theorem wrap_cong (x : ℤ) : T.wrap x ≡ x [ZMOD 2 ^ T.bits] := by
  unfold IntTy.wrap
  split
  · have := @Int.bmod_emod x (2 ^ T.bits)
    push_cast at this
    exact this
  · push_cast
    exact Int.mod_modEq _ _

/-- Unsigned arithmetic always finishes, with the exact result modulo `2^bits`. -/
theorem arith_cong (hs : T.signed = false) (x : ℤ) :
    ∃ r w, T.arith x = .ok r w ∧ r ≡ x [ZMOD 2 ^ T.bits] := by
  by_cases h : T.InRange x
  · exact ⟨x, false, arith_of_inRange h, Int.ModEq.refl _⟩
  · refine ⟨T.wrap x, true, arith_eq_ok.2 (.inr ⟨h, hs, rfl, rfl⟩), ?_⟩
    have e : T.wrap x = x % ((2 ^ T.bits : ℕ) : ℤ) := by simp [IntTy.wrap, hs]
    rw [e]
    push_cast
    exact Int.mod_modEq _ _

/-- A truncated remainder is between zero and the dividend. -/
theorem tmod_inRange {p q : ℤ} (hp : T.InRange p) : T.InRange (p.tmod q) := by
  apply hp.shrink
  have h1 : (p.tmod q).natAbs ≤ p.natAbs := by rw [Int.natAbs_tmod]; exact Nat.mod_le _ _
  rcases le_total 0 p with h | h
  · have := Int.tmod_nonneg q h
    omega
  · have := Int.tmod_nonneg q (a := -p) (by omega)
    rw [Int.neg_tmod] at this
    omega

/-- Bringing two fractions to the least common denominator: the factors, and that everything fits
once the denominator does. -/
theorem lcm_scale {l r : Raw} (hl0 : l.den ≠ 0) (hr0 : r.den ≠ 0) (hl : T.InRange l.den)
    (hr : T.InRange r.den) : ∃ L k m : ℤ, (Int.lcm l.den r.den : ℤ) = L ∧
      L.tdiv l.den = k ∧ L.tdiv r.den = m ∧
      (∀ p : ℤ, p * l.den = l.num * L ↔ p = k * l.num) ∧
      (∀ q : ℤ, q * r.den = r.num * L ↔ q = m * r.num) ∧
      (T.InRange L → T.InRange (l.den.natAbs : ℤ) ∧ T.InRange k ∧ T.InRange (r.den.natAbs : ℤ) ∧
        T.InRange m) := by
  obtain ⟨L, k, m, hL, hpos, hk, hm, hdk, hdm, hk0, hm0⟩ := lcm_split hl0 hr0
  have habs : ∀ {a k : ℤ}, L = a * k → k ≠ 0 → a.natAbs ≤ L.natAbs ∧ k.natAbs ≤ L.natAbs := by
    intro a k e hk
    have ha : a ≠ 0 := by rintro rfl; simp at e; omega
    rw [e, Int.natAbs_mul]
    exact ⟨Nat.le_mul_of_pos_right _ (by omega), Nat.le_mul_of_pos_left _ (by omega)⟩
  have hb := T.min_le_zero
  have fit : ∀ {a k : ℤ}, L = a * k → k ≠ 0 → T.InRange a → T.InRange L →
      T.InRange (a.natAbs : ℤ) ∧ T.InRange k := by
    intro a k e hk ha hL
    obtain ⟨h1, h2⟩ := habs e hk
    refine ⟨⟨by omega, by have := hL.2; omega⟩, ?_⟩
    have hs : T.signed = true ∨ 0 ≤ k := by
      cases hs : T.signed
      · right
        have := ha.nonneg hs
        by_contra hc
        nlinarith
      · exact .inl rfl
    rcases hs with hs | hs
    · have := min_signed hs
      have := hL.2
      exact ⟨by omega, by omega⟩
    · exact ⟨by omega, by have := hL.2; omega⟩
  refine ⟨L, k, m, hL, hdk, hdm, fun p => ?_, fun p => ?_, fun h => ?_⟩
  · rw [hk]
    constructor
    · intro h; exact mul_right_cancel₀ hl0 (by rw [h]; ring)
    · rintro rfl; ring
  · rw [hm]
    constructor
    · intro h; exact mul_right_cancel₀ hr0 (by rw [h]; ring)
    · rintro rfl; ring
  · obtain ⟨f1, f2⟩ := fit hk hk0 hl h
    obtain ⟨f3, f4⟩ := fit hm hm0 hr h
    exact ⟨f1, f2, f3, f4⟩

theorem Fast.arith_toSafe {op : ArithOp} {a : Args} {s : Raw} (hp : a.PosDen) (ha : a.InRange T)
    (h : Fast.arith T op a ⇓ s) : ∃ m s', 0 < m ∧ Safe.arith T op a ⇓ s' ∧ s = s'.expand m := by
  have triv : ∀ {s' : Raw}, Safe.arith T op a ⇓ s' → s' = s →
      ∃ m s', 0 < m ∧ Safe.arith T op a ⇓ s' ∧ s = s'.expand m :=
    fun h e => ⟨1, s, one_pos, e ▸ h, (Raw.expand_one s).symm⟩
  cases a with
  | ff l r =>
    obtain ⟨hl, hr⟩ := hp
    obtain ⟨il, ir⟩ := ha
    cases op
    · simp only [Fast.arith, Fast.plusFF, bind_eq_clean, mul_clean, add_clean, pure_eq_ok,
        and_true] at h
      obtain ⟨_, ⟨h1, rfl⟩, _, ⟨h2, rfl⟩, _, ⟨h3, rfl⟩, _, ⟨h4, rfl⟩, rfl⟩ := h
      obtain ⟨L, k, m, g, e1, e2, e3, e4, e5, -, hg, e6, -, e8, e9⟩ :=
        safe_prefix hl hr il.2 ir.2 h1 h2 ((lcm_le_mul hl hr).trans h4.2)
      have e : l.num * r.den + r.num * l.den = g * (k * l.num + m * r.num) := by
        rw [e8, e9]; ring
      refine ⟨g, ⟨k * l.num + m * r.num, L⟩, hg, ?_, ?_⟩
      · simp only [Safe.arith, Safe.plusFF, e1, e2, e3, e4, e5, ok_bind_false,
          add_of_inRange (IntTy.InRange.of_eq_mul hg h3 e), pure_def]
      · simp only [Raw.expand, Raw.mk.injEq, e, true_and]
        rw [e6, e8]; ring
    · simp only [Fast.arith, Fast.minusFF, bind_eq_clean, mul_clean, sub_clean, pure_eq_ok,
        and_true] at h
      obtain ⟨_, ⟨h1, rfl⟩, _, ⟨h2, rfl⟩, _, ⟨h3, rfl⟩, _, ⟨h4, rfl⟩, rfl⟩ := h
      obtain ⟨L, k, m, g, e1, e2, e3, e4, e5, -, hg, e6, -, e8, e9⟩ :=
        safe_prefix hl hr il.2 ir.2 h1 h2 ((lcm_le_mul hl hr).trans h4.2)
      have e : l.num * r.den - r.num * l.den = g * (k * l.num - m * r.num) := by
        rw [e8, e9]; ring
      refine ⟨g, ⟨k * l.num - m * r.num, L⟩, hg, ?_, ?_⟩
      · simp only [Safe.arith, Safe.minusFF, e1, e2, e3, e4, e5, ok_bind_false,
          sub_of_inRange (IntTy.InRange.of_eq_mul hg h3 e), pure_def]
      · simp only [Raw.expand, Raw.mk.injEq, e, true_and]
        rw [e6, e8]; ring
    · exact triv h rfl
    · exact triv h rfl
    · simp only [Fast.arith, Fast.modulusFF, bind_eq_clean, mul_clean, pure_eq_ok,
        and_true] at h
      obtain ⟨_, ⟨h1, rfl⟩, _, ⟨h2, rfl⟩, n, hn, _, ⟨h4, rfl⟩, rfl⟩ := h
      obtain ⟨L, k, m, g, e1, e2, e3, e4, e5, -, hg, e6, -, e8, e9⟩ :=
        safe_prefix hl hr il.2 ir.2 h1 h2 ((lcm_le_mul hl hr).trans h4.2)
      obtain ⟨n', hn', rfl⟩ := mod_expand (a' := k * l.num) (b' := m * r.num) hg hn
        (by rw [e8]; ring) (by rw [e9]; ring)
      refine ⟨g, ⟨n', L⟩, hg, ?_, ?_⟩
      · simp only [Safe.arith, Safe.modulusFF, e1, e2, e3, e4, e5, ok_bind_false, hn', pure_def]
      · simp only [Raw.expand, Raw.mk.injEq, true_and]
        rw [e6, e8]; ring
  | fr l r =>
    cases op <;> try exact triv h rfl
    refine triv (s' := s) ?_ rfl
    simp only [Fast.arith, Fast.modulusFR] at h
    simp only [Safe.arith, Safe.modulusFR, IntTy.mul]
    rw [mul_comm]; exact h
  | rf l r =>
    cases op <;> try exact triv h rfl
    refine triv (s' := s) ?_ rfl
    simp only [Fast.arith, Fast.modulusRF] at h
    simp only [Safe.arith, Safe.modulusRF, IntTy.mul]
    rw [mul_comm]; exact h

theorem Ops.arith_toSafe {op : ArithOp} {a : Args} {s : Raw} (hp : a.PosDen) (ha : a.InRange T)
    (h : o.arith T op a ⇓ s) :
    ∃ m s', 0 < m ∧ o.toSafe.arith T op a ⇓ s' ∧ s = s'.expand m := by
  induction o generalizing a s with
  | safe => exact ⟨1, s, one_pos, h, (Raw.expand_one s).symm⟩
  | fast => exact Fast.arith_toSafe hp ha h
  | reducedInput o mode ih =>
    simp only [Ops.arith, Ops.toSafe, bind_eq_clean] at h ⊢
    obtain ⟨a', h1, h2⟩ := h
    obtain ⟨m, s', hm, h3, e⟩ := ih (Args.reduce_posDen hp h1) (Args.reduce_inRange ha h1) h2
    exact ⟨m, s', hm, ⟨a', h1, h3⟩, e⟩
  | reducedOutput o mode ih =>
    simp only [Ops.arith, Ops.toSafe, bind_eq_clean] at h ⊢
    obtain ⟨t, h1, h2⟩ := h
    obtain ⟨m, s', hm, h3, rfl⟩ := ih hp ha h1
    exact ⟨1, s, one_pos, ⟨s', h3, Raw.reduce_expand hm h2⟩, (Raw.expand_one s).symm⟩

theorem Ops.negate_toSafe {v : Raw} : o.toSafe.negate T v = o.negate T v := by
  induction o generalizing v with
  | safe => rfl
  | fast => rfl
  | reducedInput o mode ih => simp only [Ops.toSafe, Ops.negate, ih]
  | reducedOutput o mode ih => simp only [Ops.toSafe, Ops.negate, ih]

theorem Fast.cmp_toSafe_int {op : CmpOp} {a : Args} (ha : ∀ l r, a ≠ .ff l r) :
    Safe.cmp T op a = Fast.cmp T op a := by
  cases a with
  | ff l r => exact absurd rfl (ha l r)
  | fr l r => cases op <;> rfl
  | rf l r => cases op <;> rfl

theorem Raw.reduce_is_expand {f r : Raw} {mode : ReduceMode} (h0 : f.den ≠ 0)
    (hm : mode = .ignoreSigns ∨ 0 < f.den) (h : f.reduce T mode ⇓ r) :
    ∃ k, 0 < k ∧ f = r.expand k := by
  obtain ⟨g, hg, hn, hd, -, h1, h2⟩ := Raw.reduce_clean_spec h0 h
  refine ⟨g, ?_, ?_⟩
  · rcases hm with rfl | hp
    · exact h1 rfl
    · have := Raw.reduce_posDen hp h
      by_contra hc
      nlinarith
  · cases f
    simp only at hn hd
    simp only [Raw.expand, hn, hd, Raw.mk.injEq]
    constructor <;> ring

theorem Args.reduce_is_expand {a a' : Args} {mode : ReduceMode} {x y : ℚ} (hd : a.Denote x y)
    (hm : mode = .ignoreSigns ∨ a.PosDen) (h : a.reduce T mode ⇓ a') :
    ∃ j k, 0 < j ∧ 0 < k ∧ a = a'.expand j k := by
  cases a with
  | ff l r =>
    simp only [Args.reduce, bind_eq_clean, pure_eq_ok, and_true] at h
    obtain ⟨l', h1, r', h2, rfl⟩ := h
    obtain ⟨j, hj, e1⟩ := Raw.reduce_is_expand hd.1.1 (hm.imp id And.left) h1
    obtain ⟨k, hk, e2⟩ := Raw.reduce_is_expand hd.2.1 (hm.imp id And.right) h2
    exact ⟨j, k, hj, hk, by simp only [Args.expand, ← e1, ← e2]⟩
  | fr l r =>
    simp only [Args.reduce, bind_eq_clean, pure_eq_ok, and_true] at h
    obtain ⟨l', h1, rfl⟩ := h
    obtain ⟨j, hj, e1⟩ := Raw.reduce_is_expand hd.1.1 hm h1
    exact ⟨j, 1, hj, one_pos, by simp only [Args.expand, ← e1]⟩
  | rf l r =>
    simp only [Args.reduce, bind_eq_clean, pure_eq_ok, and_true] at h
    obtain ⟨r', h2, rfl⟩ := h
    obtain ⟨k, hk, e2⟩ := Raw.reduce_is_expand hd.2.1 hm h2
    exact ⟨1, k, one_pos, hk, by simp only [Args.expand, ← e2]⟩

theorem Args.reduce_progress {a : Args} (mode : ReduceMode) (hi : a.InRange T)
    (ha : a.AbsInRange T) : ∃ a', a.reduce T mode ⇓ a' := by
  cases a with
  | ff l r =>
    obtain ⟨l', h1, -⟩ := Raw.reduce_progress mode hi.1 ha.1.1 ha.1.2
    obtain ⟨r', h2, -⟩ := Raw.reduce_progress mode hi.2 ha.2.1 ha.2.2
    exact ⟨.ff l' r', by simp only [Args.reduce, h1, h2, ok_bind_false, pure_def]⟩
  | fr l r =>
    obtain ⟨l', h1, -⟩ := Raw.reduce_progress mode hi.1 ha.1 ha.2
    exact ⟨.fr l' r, by simp only [Args.reduce, h1, ok_bind_false, pure_def]⟩
  | rf l r =>
    obtain ⟨r', h2, -⟩ := Raw.reduce_progress mode hi.2 ha.1 ha.2
    exact ⟨.rf l r', by simp only [Args.reduce, h2, ok_bind_false, pure_def]⟩

end Ieme
