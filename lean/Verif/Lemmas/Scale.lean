import Verif.Lemmas.SafeFast
import Verif.Lemmas.Reduce

/-!
# Cancelling common factors of the operands
-/

namespace Ieme

open Res IntTy

variable {T : IntTy} {o : Ops}

theorem IntTy.InRange.of_eq_mul {g x s : ℤ} (hg : 0 < g) (h : T.InRange x) (e : x = g * s) :
    T.InRange s := IntTy.InRange.of_mul hg (e ▸ h)

/-- Cancelling factors of the denominators in the part common to all of `safe`'s
fraction-fraction operations. -/
theorem safe_prefix_expand {l r : Raw} {j k L p a q b : ℤ} (hj : 0 < j) (hk : 0 < k)
    (hL : T.lcm (l.expand j).den (r.expand k).den ⇓ L)
    (hp : T.div L (l.expand j).den ⇓ p) (ha : T.mul p (l.expand j).num ⇓ a)
    (hq : T.div L (r.expand k).den ⇓ q) (hb : T.mul q (r.expand k).num ⇓ b) :
    ∃ m L' p' a' q' b' : ℤ, 0 < m ∧ T.lcm l.den r.den ⇓ L' ∧ T.div L' l.den ⇓ p' ∧
      T.mul p' l.num ⇓ a' ∧ T.div L' r.den ⇓ q' ∧ T.mul q' r.num ⇓ b' ∧
      L = m * L' ∧ a = m * a' ∧ b = m * b' := by
  simp only [Raw.expand] at hL hp ha hq hb
  rw [lcm_clean] at hL
  obtain ⟨i1, i2, i3, rfl⟩ := hL
  rw [div_clean] at hp hq
  rw [mul_clean] at ha hb
  obtain ⟨d1, i4, hp⟩ := hp
  obtain ⟨d2, i5, hq⟩ := hq
  have hl : l.den ≠ 0 := fun e => d1 (by rw [e, mul_zero])
  have hr : r.den ≠ 0 := fun e => d2 (by rw [e, mul_zero])
  obtain ⟨L', k1, k2, hL', hpos, e1, e2, e3, e4, -, -⟩ := lcm_split hl hr
  obtain ⟨L, m1, m2, hL, hLpos, f1, f2, f3, f4, -, -⟩ := lcm_split d1 d2
  rw [hL] at i3 i4 i5 hp hq
  rw [f3] at i4 hp
  rw [f4] at i5 hq
  subst hp hq
  obtain ⟨m, hm⟩ : L' ∣ L := by
    rw [← hL']
    exact Int.coe_lcm_dvd (Dvd.intro_left j rfl |>.trans ⟨p, f1⟩)
      (Dvd.intro_left k rfl |>.trans ⟨q, f2⟩)
  have hmp : 0 < m := by by_contra hc; nlinarith
  have g1 : p * j = m * k1 := by
    have : l.den * (p * j) = l.den * (m * k1) := by
      rw [show l.den * (p * j) = j * l.den * p by ring, ← f1, hm, e1]; ring
    exact mul_left_cancel₀ hl this
  have g2 : q * k = m * k2 := by
    have : r.den * (q * k) = r.den * (m * k2) := by
      rw [show r.den * (q * k) = k * r.den * q by ring, ← f2, hm, e2]; ring
    exact mul_left_cancel₀ hr this
  have iL' : T.InRange L' := IntTy.InRange.of_eq_mul hmp i3 (by rw [hm]; ring)
  have key : ∀ {d j p k1 : ℤ}, 0 < j → d ≠ 0 → T.InRange p → p * j = m * k1 → L' = d * k1 →
      T.InRange k1 := by
    intro d j p k1 hj hd ip hg he
    have hle : k1.natAbs ≤ L'.natAbs := Raw.natAbs_le_of_mul hd (by rw [he]; ring)
    cases hs : T.signed
    · have hp0 := ip.nonneg hs
      have : 0 ≤ k1 := by by_contra hc; nlinarith [mul_nonneg hp0 hj.le]
      exact iL'.shrink (by omega)
    · exact inRange_of_natAbs_le hs (by rw [Int.natAbs_of_nonneg hpos.le]; exact iL') hle
  have ik1 := key hj hl i4 g1 e1
  have ik2 := key hk hr i5 g2 e2
  have iexp : ∀ {d j : ℤ}, 0 < j → T.InRange (j * d).natAbs → T.InRange d.natAbs := by
    intro d j hj h
    exact inRange_natAbs_shrink h (Raw.natAbs_le_of_mul hj.ne' (by ring))
  have ea : p * (j * l.num) = m * (k1 * l.num) := by rw [← mul_assoc, g1]; ring
  have eb : q * (k * r.num) = m * (k2 * r.num) := by rw [← mul_assoc, g2]; ring
  refine ⟨m, L', k1, k1 * l.num, k2, k2 * r.num, hmp, ?_, ?_, ?_, ?_, ?_, ?_, ?_, ?_⟩
  · rw [lcm_clean]
    exact ⟨iexp hj i1, iexp hk i2, by rw [hL']; exact iL', hL'.symm⟩
  · rw [div_clean]; exact ⟨hl, by rw [e3]; exact ik1, e3.symm⟩
  · exact mul_of_inRange (IntTy.InRange.of_eq_mul hmp ha.1 ea)
  · rw [div_clean]; exact ⟨hr, by rw [e4]; exact ik2, e4.symm⟩
  · exact mul_of_inRange (IntTy.InRange.of_eq_mul hmp hb.1 eb)
  · rw [hL, hm]; ring
  · rw [ha.2, ea]
  · rw [hb.2, eb]

theorem mod_expand {m a b a' b' n : ℤ} (hm : 0 < m) (h : T.mod a b ⇓ n) (ha : a = m * a')
    (hb : b = m * b') : ∃ n', T.mod a' b' ⇓ n' ∧ n = m * n' := by
  rw [mod_clean] at h
  subst ha hb
  obtain ⟨h1, h2, h3⟩ := h
  rw [Int.mul_tdiv_mul_of_pos _ _ hm] at h2
  rw [Int.mul_tmod_mul_of_pos _ _ hm] at h3
  exact ⟨_, mod_clean.2 ⟨fun e => h1 (by rw [e, mul_zero]), h2, rfl⟩, h3⟩

theorem Safe.arith_expand {op : ArithOp} {a : Args} {s : Raw} {j k : ℤ} (hj : 0 < j) (hk : 0 < k)
    (h : Safe.arith T op (a.expand j k) ⇓ s) :
    ∃ m s', 0 < m ∧ Safe.arith T op a ⇓ s' ∧ s = s'.expand m := by
  have hjk := mul_pos hj hk
  cases a with
  | ff l r =>
    cases op
    · simp only [Args.expand, Safe.arith, Safe.plusFF, bind_eq_clean, pure_eq_ok, and_true] at h
      obtain ⟨L, hL, p, hp, a, ha, q, hq, b, hb, n, hn, rfl⟩ := h
      obtain ⟨m, L', p', a', q', b', hm, g1, g2, g3, g4, g5, rfl, rfl, rfl⟩ :=
        safe_prefix_expand hj hk hL hp ha hq hb
      rw [add_clean] at hn
      refine ⟨m, ⟨a' + b', L'⟩, hm, ?_, by simp [Raw.expand, hn.2, mul_add]⟩
      simp only [Safe.arith, Safe.plusFF, g1, g2, g3, g4, g5, ok_bind_false, pure_def,
        add_of_inRange (IntTy.InRange.of_eq_mul hm hn.1 (mul_add m a' b').symm)]
    · simp only [Args.expand, Safe.arith, Safe.minusFF, bind_eq_clean, pure_eq_ok, and_true] at h
      obtain ⟨L, hL, p, hp, a, ha, q, hq, b, hb, n, hn, rfl⟩ := h
      obtain ⟨m, L', p', a', q', b', hm, g1, g2, g3, g4, g5, rfl, rfl, rfl⟩ :=
        safe_prefix_expand hj hk hL hp ha hq hb
      rw [sub_clean] at hn
      refine ⟨m, ⟨a' - b', L'⟩, hm, ?_, by simp [Raw.expand, hn.2, mul_sub]⟩
      simp only [Safe.arith, Safe.minusFF, g1, g2, g3, g4, g5, ok_bind_false, pure_def,
        sub_of_inRange (IntTy.InRange.of_eq_mul hm hn.1 (mul_sub m a' b').symm)]
    · simp only [Args.expand, Safe.arith, Safe.multipliesFF, bind_eq_clean, pure_eq_ok, and_true,
        mul_clean, Raw.expand] at h
      obtain ⟨_, ⟨h1, rfl⟩, _, ⟨h2, rfl⟩, rfl⟩ := h
      refine ⟨j * k, ⟨l.num * r.num, l.den * r.den⟩, hjk, ?_, by
        simp only [Raw.expand, Raw.mk.injEq]; constructor <;> first | ring | trivial⟩
      simp only [Safe.arith, Safe.multipliesFF, ok_bind_false, pure_def,
        mul_of_inRange (IntTy.InRange.of_eq_mul hjk h1 (s := l.num * r.num) (by ring)),
        mul_of_inRange (IntTy.InRange.of_eq_mul hjk h2 (s := l.den * r.den) (by ring))]
    · simp only [Args.expand, Safe.arith, Safe.dividesFF, bind_eq_clean, pure_eq_ok, and_true,
        mul_clean, Raw.expand] at h
      obtain ⟨_, ⟨h1, rfl⟩, _, ⟨h2, rfl⟩, rfl⟩ := h
      refine ⟨j * k, ⟨l.num * r.den, l.den * r.num⟩, hjk, ?_, by
        simp only [Raw.expand, Raw.mk.injEq]; constructor <;> first | ring | trivial⟩
      simp only [Safe.arith, Safe.dividesFF, ok_bind_false, pure_def,
        mul_of_inRange (IntTy.InRange.of_eq_mul hjk h1 (s := l.num * r.den) (by ring)),
        mul_of_inRange (IntTy.InRange.of_eq_mul hjk h2 (s := l.den * r.num) (by ring))]
    · simp only [Args.expand, Safe.arith, Safe.modulusFF, bind_eq_clean, pure_eq_ok, and_true] at h
      obtain ⟨L, hL, p, hp, a, ha, q, hq, b, hb, n, hn, rfl⟩ := h
      obtain ⟨m, L', p', a', q', b', hm, g1, g2, g3, g4, g5, rfl, rfl, rfl⟩ :=
        safe_prefix_expand hj hk hL hp ha hq hb
      obtain ⟨n', hn', rfl⟩ := mod_expand hm hn rfl rfl
      refine ⟨m, ⟨n', L'⟩, hm, ?_, rfl⟩
      simp only [Safe.arith, Safe.modulusFF, g1, g2, g3, g4, g5, hn', ok_bind_false, pure_def]
  | fr l r =>
    cases op
    · simp only [Args.expand, Safe.arith, Safe.plusFR, bind_eq_clean, pure_eq_ok, and_true,
        mul_clean, add_clean, Raw.expand] at h
      obtain ⟨_, ⟨h1, rfl⟩, _, ⟨h2, rfl⟩, rfl⟩ := h
      refine ⟨j, ⟨l.num + r * l.den, l.den⟩, hj, ?_, by
        simp only [Raw.expand, Raw.mk.injEq]; constructor <;> first | ring | trivial⟩
      simp only [Safe.arith, Safe.plusFR, ok_bind_false, pure_def,
        mul_of_inRange (IntTy.InRange.of_eq_mul hj h1 (s := r * l.den) (by ring)),
        add_of_inRange (IntTy.InRange.of_eq_mul hj h2 (s := l.num + r * l.den) (by ring))]
    · simp only [Args.expand, Safe.arith, Safe.minusFR, bind_eq_clean, pure_eq_ok, and_true,
        mul_clean, sub_clean, Raw.expand] at h
      obtain ⟨_, ⟨h1, rfl⟩, _, ⟨h2, rfl⟩, rfl⟩ := h
      refine ⟨j, ⟨l.num - r * l.den, l.den⟩, hj, ?_, by
        simp only [Raw.expand, Raw.mk.injEq]; constructor <;> first | ring | trivial⟩
      simp only [Safe.arith, Safe.minusFR, ok_bind_false, pure_def,
        mul_of_inRange (IntTy.InRange.of_eq_mul hj h1 (s := r * l.den) (by ring)),
        sub_of_inRange (IntTy.InRange.of_eq_mul hj h2 (s := l.num - r * l.den) (by ring))]
    · simp only [Args.expand, Safe.arith, Safe.multipliesFR, bind_eq_clean, pure_eq_ok, and_true,
        mul_clean, Raw.expand] at h
      obtain ⟨_, ⟨h1, rfl⟩, rfl⟩ := h
      refine ⟨j, ⟨l.num * r, l.den⟩, hj, ?_, by
        simp only [Raw.expand, Raw.mk.injEq]; constructor <;> first | ring | trivial⟩
      simp only [Safe.arith, Safe.multipliesFR, ok_bind_false, pure_def,
        mul_of_inRange (IntTy.InRange.of_eq_mul hj h1 (s := l.num * r) (by ring))]
    · simp only [Args.expand, Safe.arith, Safe.dividesFR, bind_eq_clean, pure_eq_ok, and_true,
        mul_clean, Raw.expand] at h
      obtain ⟨_, ⟨h1, rfl⟩, rfl⟩ := h
      refine ⟨j, ⟨l.num, l.den * r⟩, hj, ?_, by
        simp only [Raw.expand, Raw.mk.injEq]; constructor <;> first | ring | trivial⟩
      simp only [Safe.arith, Safe.dividesFR, ok_bind_false, pure_def,
        mul_of_inRange (IntTy.InRange.of_eq_mul hj h1 (s := l.den * r) (by ring))]
    · simp only [Args.expand, Safe.arith, Safe.modulusFR, bind_eq_clean, pure_eq_ok, and_true,
        mul_clean, Raw.expand] at h
      obtain ⟨_, ⟨h1, rfl⟩, n, hn, rfl⟩ := h
      obtain ⟨n', hn', rfl⟩ := mod_expand hj hn rfl (mul_assoc j l.den r)
      refine ⟨j, ⟨n', l.den⟩, hj, ?_, rfl⟩
      simp only [Safe.arith, Safe.modulusFR, ok_bind_false, pure_def, hn',
        mul_of_inRange (IntTy.InRange.of_eq_mul hj h1 (s := l.den * r) (by ring))]
  | rf l r =>
    cases op
    · simp only [Args.expand, Safe.arith, Safe.plusRF, Safe.plusFR, bind_eq_clean, pure_eq_ok,
        and_true, mul_clean, add_clean, Raw.expand] at h
      obtain ⟨_, ⟨h1, rfl⟩, _, ⟨h2, rfl⟩, rfl⟩ := h
      refine ⟨k, ⟨r.num + l * r.den, r.den⟩, hk, ?_, by
        simp only [Raw.expand, Raw.mk.injEq]; constructor <;> first | ring | trivial⟩
      simp only [Safe.arith, Safe.plusRF, Safe.plusFR, ok_bind_false, pure_def,
        mul_of_inRange (IntTy.InRange.of_eq_mul hk h1 (s := l * r.den) (by ring)),
        add_of_inRange (IntTy.InRange.of_eq_mul hk h2 (s := r.num + l * r.den) (by ring))]
    · simp only [Args.expand, Safe.arith, Safe.minusRF, bind_eq_clean, pure_eq_ok, and_true,
        mul_clean, sub_clean, Raw.expand] at h
      obtain ⟨_, ⟨h1, rfl⟩, _, ⟨h2, rfl⟩, rfl⟩ := h
      refine ⟨k, ⟨l * r.den - r.num, r.den⟩, hk, ?_, by
        simp only [Raw.expand, Raw.mk.injEq]; constructor <;> first | ring | trivial⟩
      simp only [Safe.arith, Safe.minusRF, ok_bind_false, pure_def,
        mul_of_inRange (IntTy.InRange.of_eq_mul hk h1 (s := l * r.den) (by ring)),
        sub_of_inRange (IntTy.InRange.of_eq_mul hk h2 (s := l * r.den - r.num) (by ring))]
    · simp only [Args.expand, Safe.arith, Safe.multipliesRF, Safe.multipliesFR, bind_eq_clean,
        pure_eq_ok, and_true, mul_clean, Raw.expand] at h
      obtain ⟨_, ⟨h1, rfl⟩, rfl⟩ := h
      refine ⟨k, ⟨r.num * l, r.den⟩, hk, ?_, by
        simp only [Raw.expand, Raw.mk.injEq]; constructor <;> first | ring | trivial⟩
      simp only [Safe.arith, Safe.multipliesRF, Safe.multipliesFR, ok_bind_false, pure_def,
        mul_of_inRange (IntTy.InRange.of_eq_mul hk h1 (s := r.num * l) (by ring))]
    · simp only [Args.expand, Safe.arith, Safe.dividesRF, bind_eq_clean, pure_eq_ok, and_true,
        mul_clean, Raw.expand] at h
      obtain ⟨_, ⟨h1, rfl⟩, rfl⟩ := h
      refine ⟨k, ⟨l * r.den, r.num⟩, hk, ?_, by
        simp only [Raw.expand, Raw.mk.injEq]; constructor <;> first | ring | trivial⟩
      simp only [Safe.arith, Safe.dividesRF, ok_bind_false, pure_def,
        mul_of_inRange (IntTy.InRange.of_eq_mul hk h1 (s := l * r.den) (by ring))]
    · simp only [Args.expand, Safe.arith, Safe.modulusRF, bind_eq_clean, pure_eq_ok, and_true,
        mul_clean, Raw.expand] at h
      obtain ⟨_, ⟨h1, rfl⟩, n, hn, rfl⟩ := h
      obtain ⟨n', hn', rfl⟩ := mod_expand hk hn (mul_assoc k r.den l) rfl
      refine ⟨k, ⟨n', r.den⟩, hk, ?_, rfl⟩
      simp only [Safe.arith, Safe.modulusRF, ok_bind_false, pure_def, hn',
        mul_of_inRange (IntTy.InRange.of_eq_mul hk h1 (s := r.den * l) (by ring))]

theorem Fast.arith_expand {op : ArithOp} {a : Args} {s : Raw} {j k : ℤ} (hj : 0 < j) (hk : 0 < k)
    (h : Fast.arith T op (a.expand j k) ⇓ s) :
    ∃ m s', 0 < m ∧ Fast.arith T op a ⇓ s' ∧ s = s'.expand m := by
  have hjk := mul_pos hj hk
  cases a with
  | ff l r =>
    cases op
    · simp only [Args.expand, Fast.arith, Fast.plusFF, bind_eq_clean, pure_eq_ok, and_true,
        mul_clean, add_clean, Raw.expand] at h
      obtain ⟨_, ⟨h1, rfl⟩, _, ⟨h2, rfl⟩, _, ⟨h3, rfl⟩, _, ⟨h4, rfl⟩, rfl⟩ := h
      refine ⟨j * k, ⟨l.num * r.den + r.num * l.den, l.den * r.den⟩, hjk, ?_, by
        simp only [Raw.expand, Raw.mk.injEq]; constructor <;> first | ring | trivial⟩
      simp only [Fast.arith, Fast.plusFF, ok_bind_false, pure_def,
        mul_of_inRange (IntTy.InRange.of_eq_mul hjk h1 (s := l.num * r.den) (by ring)),
        mul_of_inRange (IntTy.InRange.of_eq_mul hjk h2 (s := r.num * l.den) (by ring)),
        add_of_inRange (IntTy.InRange.of_eq_mul hjk h3
          (s := l.num * r.den + r.num * l.den) (by ring)),
        mul_of_inRange (IntTy.InRange.of_eq_mul hjk h4 (s := l.den * r.den) (by ring))]
    · simp only [Args.expand, Fast.arith, Fast.minusFF, bind_eq_clean, pure_eq_ok, and_true,
        mul_clean, sub_clean, Raw.expand] at h
      obtain ⟨_, ⟨h1, rfl⟩, _, ⟨h2, rfl⟩, _, ⟨h3, rfl⟩, _, ⟨h4, rfl⟩, rfl⟩ := h
      refine ⟨j * k, ⟨l.num * r.den - r.num * l.den, l.den * r.den⟩, hjk, ?_, by
        simp only [Raw.expand, Raw.mk.injEq]; constructor <;> first | ring | trivial⟩
      simp only [Fast.arith, Fast.minusFF, ok_bind_false, pure_def,
        mul_of_inRange (IntTy.InRange.of_eq_mul hjk h1 (s := l.num * r.den) (by ring)),
        mul_of_inRange (IntTy.InRange.of_eq_mul hjk h2 (s := r.num * l.den) (by ring)),
        sub_of_inRange (IntTy.InRange.of_eq_mul hjk h3
          (s := l.num * r.den - r.num * l.den) (by ring)),
        mul_of_inRange (IntTy.InRange.of_eq_mul hjk h4 (s := l.den * r.den) (by ring))]
    · simp only [Args.expand, Fast.arith, Fast.multipliesFF, bind_eq_clean, pure_eq_ok, and_true,
        mul_clean, Raw.expand] at h
      obtain ⟨_, ⟨h1, rfl⟩, _, ⟨h2, rfl⟩, rfl⟩ := h
      refine ⟨j * k, ⟨l.num * r.num, l.den * r.den⟩, hjk, ?_, by
        simp only [Raw.expand, Raw.mk.injEq]; constructor <;> first | ring | trivial⟩
      simp only [Fast.arith, Fast.multipliesFF, ok_bind_false, pure_def,
        mul_of_inRange (IntTy.InRange.of_eq_mul hjk h1 (s := l.num * r.num) (by ring)),
        mul_of_inRange (IntTy.InRange.of_eq_mul hjk h2 (s := l.den * r.den) (by ring))]
    · simp only [Args.expand, Fast.arith, Fast.dividesFF, bind_eq_clean, pure_eq_ok, and_true,
        mul_clean, Raw.expand] at h
      obtain ⟨_, ⟨h1, rfl⟩, _, ⟨h2, rfl⟩, rfl⟩ := h
      refine ⟨j * k, ⟨l.num * r.den, l.den * r.num⟩, hjk, ?_, by
        simp only [Raw.expand, Raw.mk.injEq]; constructor <;> first | ring | trivial⟩
      simp only [Fast.arith, Fast.dividesFF, ok_bind_false, pure_def,
        mul_of_inRange (IntTy.InRange.of_eq_mul hjk h1 (s := l.num * r.den) (by ring)),
        mul_of_inRange (IntTy.InRange.of_eq_mul hjk h2 (s := l.den * r.num) (by ring))]
    · simp only [Args.expand, Fast.arith, Fast.modulusFF, bind_eq_clean, pure_eq_ok, and_true,
        mul_clean, Raw.expand] at h
      obtain ⟨_, ⟨h1, rfl⟩, _, ⟨h2, rfl⟩, n, hn, _, ⟨h4, rfl⟩, rfl⟩ := h
      obtain ⟨n', hn', rfl⟩ := mod_expand (a' := l.num * r.den) (b' := r.num * l.den) hjk hn
        (by ring) (by ring)
      refine ⟨j * k, ⟨n', l.den * r.den⟩, hjk, ?_, by
        simp only [Raw.expand, Raw.mk.injEq]; constructor <;> first | ring | trivial⟩
      simp only [Fast.arith, Fast.modulusFF, ok_bind_false, pure_def, hn',
        mul_of_inRange (IntTy.InRange.of_eq_mul hjk h1 (s := l.num * r.den) (by ring)),
        mul_of_inRange (IntTy.InRange.of_eq_mul hjk h2 (s := r.num * l.den) (by ring)),
        mul_of_inRange (IntTy.InRange.of_eq_mul hjk h4 (s := l.den * r.den) (by ring))]
  | fr l r =>
    cases op
    · simp only [Args.expand, Fast.arith, Fast.plusFR, bind_eq_clean, pure_eq_ok, and_true,
        mul_clean, add_clean, Raw.expand] at h
      obtain ⟨_, ⟨h1, rfl⟩, _, ⟨h2, rfl⟩, rfl⟩ := h
      refine ⟨j, ⟨l.num + r * l.den, l.den⟩, hj, ?_, by
        simp only [Raw.expand, Raw.mk.injEq]; constructor <;> first | ring | trivial⟩
      simp only [Fast.arith, Fast.plusFR, ok_bind_false, pure_def,
        mul_of_inRange (IntTy.InRange.of_eq_mul hj h1 (s := r * l.den) (by ring)),
        add_of_inRange (IntTy.InRange.of_eq_mul hj h2 (s := l.num + r * l.den) (by ring))]
    · simp only [Args.expand, Fast.arith, Fast.minusFR, bind_eq_clean, pure_eq_ok, and_true,
        mul_clean, sub_clean, Raw.expand] at h
      obtain ⟨_, ⟨h1, rfl⟩, _, ⟨h2, rfl⟩, rfl⟩ := h
      refine ⟨j, ⟨l.num - r * l.den, l.den⟩, hj, ?_, by
        simp only [Raw.expand, Raw.mk.injEq]; constructor <;> first | ring | trivial⟩
      simp only [Fast.arith, Fast.minusFR, ok_bind_false, pure_def,
        mul_of_inRange (IntTy.InRange.of_eq_mul hj h1 (s := r * l.den) (by ring)),
        sub_of_inRange (IntTy.InRange.of_eq_mul hj h2 (s := l.num - r * l.den) (by ring))]
    · simp only [Args.expand, Fast.arith, Fast.multipliesFR, bind_eq_clean, pure_eq_ok, and_true,
        mul_clean, Raw.expand] at h
      obtain ⟨_, ⟨h1, rfl⟩, rfl⟩ := h
      refine ⟨j, ⟨l.num * r, l.den⟩, hj, ?_, by
        simp only [Raw.expand, Raw.mk.injEq]; constructor <;> first | ring | trivial⟩
      simp only [Fast.arith, Fast.multipliesFR, ok_bind_false, pure_def,
        mul_of_inRange (IntTy.InRange.of_eq_mul hj h1 (s := l.num * r) (by ring))]
    · simp only [Args.expand, Fast.arith, Fast.dividesFR, bind_eq_clean, pure_eq_ok, and_true,
        mul_clean, Raw.expand] at h
      obtain ⟨_, ⟨h1, rfl⟩, rfl⟩ := h
      refine ⟨j, ⟨l.num, l.den * r⟩, hj, ?_, by
        simp only [Raw.expand, Raw.mk.injEq]; constructor <;> first | ring | trivial⟩
      simp only [Fast.arith, Fast.dividesFR, ok_bind_false, pure_def,
        mul_of_inRange (IntTy.InRange.of_eq_mul hj h1 (s := l.den * r) (by ring))]
    · simp only [Args.expand, Fast.arith, Fast.modulusFR, bind_eq_clean, pure_eq_ok, and_true,
        mul_clean, Raw.expand] at h
      obtain ⟨_, ⟨h1, rfl⟩, n, hn, rfl⟩ := h
      obtain ⟨n', hn', rfl⟩ := mod_expand (b' := r * l.den) hj hn rfl (by ring)
      refine ⟨j, ⟨n', l.den⟩, hj, ?_, rfl⟩
      simp only [Fast.arith, Fast.modulusFR, ok_bind_false, pure_def, hn',
        mul_of_inRange (IntTy.InRange.of_eq_mul hj h1 (s := r * l.den) (by ring))]
  | rf l r =>
    cases op
    · simp only [Args.expand, Fast.arith, Fast.plusRF, Fast.plusFR, bind_eq_clean, pure_eq_ok,
        and_true, mul_clean, add_clean, Raw.expand] at h
      obtain ⟨_, ⟨h1, rfl⟩, _, ⟨h2, rfl⟩, rfl⟩ := h
      refine ⟨k, ⟨r.num + l * r.den, r.den⟩, hk, ?_, by
        simp only [Raw.expand, Raw.mk.injEq]; constructor <;> first | ring | trivial⟩
      simp only [Fast.arith, Fast.plusRF, Fast.plusFR, ok_bind_false, pure_def,
        mul_of_inRange (IntTy.InRange.of_eq_mul hk h1 (s := l * r.den) (by ring)),
        add_of_inRange (IntTy.InRange.of_eq_mul hk h2 (s := r.num + l * r.den) (by ring))]
    · simp only [Args.expand, Fast.arith, Fast.minusRF, bind_eq_clean, pure_eq_ok, and_true,
        mul_clean, sub_clean, Raw.expand] at h
      obtain ⟨_, ⟨h1, rfl⟩, _, ⟨h2, rfl⟩, rfl⟩ := h
      refine ⟨k, ⟨l * r.den - r.num, r.den⟩, hk, ?_, by
        simp only [Raw.expand, Raw.mk.injEq]; constructor <;> first | ring | trivial⟩
      simp only [Fast.arith, Fast.minusRF, ok_bind_false, pure_def,
        mul_of_inRange (IntTy.InRange.of_eq_mul hk h1 (s := l * r.den) (by ring)),
        sub_of_inRange (IntTy.InRange.of_eq_mul hk h2 (s := l * r.den - r.num) (by ring))]
    · simp only [Args.expand, Fast.arith, Fast.multipliesRF, Fast.multipliesFR, bind_eq_clean,
        pure_eq_ok, and_true, mul_clean, Raw.expand] at h
      obtain ⟨_, ⟨h1, rfl⟩, rfl⟩ := h
      refine ⟨k, ⟨r.num * l, r.den⟩, hk, ?_, by
        simp only [Raw.expand, Raw.mk.injEq]; constructor <;> first | ring | trivial⟩
      simp only [Fast.arith, Fast.multipliesRF, Fast.multipliesFR, ok_bind_false, pure_def,
        mul_of_inRange (IntTy.InRange.of_eq_mul hk h1 (s := r.num * l) (by ring))]
    · simp only [Args.expand, Fast.arith, Fast.dividesRF, bind_eq_clean, pure_eq_ok, and_true,
        mul_clean, Raw.expand] at h
      obtain ⟨_, ⟨h1, rfl⟩, rfl⟩ := h
      refine ⟨k, ⟨l * r.den, r.num⟩, hk, ?_, by
        simp only [Raw.expand, Raw.mk.injEq]; constructor <;> first | ring | trivial⟩
      simp only [Fast.arith, Fast.dividesRF, ok_bind_false, pure_def,
        mul_of_inRange (IntTy.InRange.of_eq_mul hk h1 (s := l * r.den) (by ring))]
    · simp only [Args.expand, Fast.arith, Fast.modulusRF, bind_eq_clean, pure_eq_ok, and_true,
        mul_clean, Raw.expand] at h
      obtain ⟨_, ⟨h1, rfl⟩, n, hn, rfl⟩ := h
      obtain ⟨n', hn', rfl⟩ := mod_expand (a' := l * r.den) hk hn (by ring) rfl
      refine ⟨k, ⟨n', r.den⟩, hk, ?_, rfl⟩
      simp only [Fast.arith, Fast.modulusRF, ok_bind_false, pure_def, hn',
        mul_of_inRange (IntTy.InRange.of_eq_mul hk h1 (s := l * r.den) (by ring))]

theorem Raw.reduce_expand {f r : Raw} {mode : ReduceMode} {k : ℤ} (hk : 0 < k)
    (h : (f.expand k).reduce T mode ⇓ r) : f.reduce T mode ⇓ r := by
  by_cases h0 : f.den = 0
  · rw [Raw.reduce_clean_undefined (by simp [Raw.expand, h0]) h]
    exact Raw.reduce_undefined mode h0
  have h1 : (f.expand k).den ≠ 0 := mul_ne_zero hk.ne' h0
  have key : ∀ {r}, (f.expand k).reduceIgnoreSigns T ⇓ r → f.reduceIgnoreSigns T ⇓ r := by
    intro r h
    rw [Raw.reduceIgnoreSigns_eq_ok h1] at h
    rw [Raw.reduceIgnoreSigns_eq_ok h0]
    obtain ⟨i1, i2, i3, i4, -, g, hg, e1, e2, hc⟩ := h
    simp only [Raw.expand] at i1 i2 e1 e2
    refine ⟨inRange_natAbs_shrink i1 (Raw.natAbs_le_of_mul hk.ne' (by ring)),
      inRange_natAbs_shrink i2 (Raw.natAbs_le_of_mul hk.ne' (by ring)), i3, i4, rfl, ?_⟩
    have hkg : k ∣ g := by
      have h2 : k ∣ ((Int.gcd (r.num * g) (r.den * g) : ℕ) : ℤ) :=
        Int.dvd_coe_gcd ⟨f.num, e1.symm⟩ ⟨f.den, e2.symm⟩
      rw [Int.gcd_mul_right, hc, one_mul] at h2
      exact Int.dvd_natAbs.1 h2
    obtain ⟨c, rfl⟩ := hkg
    refine ⟨c, by by_contra hn; nlinarith, ?_, ?_, hc⟩
    · exact mul_left_cancel₀ hk.ne' (by rw [e1]; ring)
    · exact mul_left_cancel₀ hk.ne' (by rw [e2]; ring)
  cases mode
  · simp only [Raw.reduce, Raw.reduceNormalizeSigns, bind_eq_clean] at h ⊢
    obtain ⟨s, hs, h⟩ := h
    exact ⟨s, key hs, h⟩
  · exact key h

theorem Args.reduce_expand {a a' : Args} {mode : ReduceMode} {j k : ℤ} (hj : 0 < j) (hk : 0 < k)
    (h : (a.expand j k).reduce T mode ⇓ a') : a.reduce T mode ⇓ a' := by
  cases a with
  | ff l r =>
    simp only [Args.expand, Args.reduce, bind_eq_clean, pure_eq_ok, and_true] at h ⊢
    obtain ⟨l', h1, r', h2, h3⟩ := h
    exact ⟨l', Raw.reduce_expand hj h1, r', Raw.reduce_expand hk h2, h3⟩
  | fr l r =>
    simp only [Args.expand, Args.reduce, bind_eq_clean, pure_eq_ok, and_true] at h ⊢
    obtain ⟨l', h1, h3⟩ := h
    exact ⟨l', Raw.reduce_expand hj h1, h3⟩
  | rf l r =>
    simp only [Args.expand, Args.reduce, bind_eq_clean, pure_eq_ok, and_true] at h ⊢
    obtain ⟨l', h1, h3⟩ := h
    exact ⟨l', Raw.reduce_expand hk h1, h3⟩

theorem Raw.expand_one (f : Raw) : f.expand 1 = f := by simp [Raw.expand]

theorem Ops.arith_expand {op : ArithOp} {a : Args} {s : Raw} {j k : ℤ} (hj : 0 < j) (hk : 0 < k)
    (h : o.arith T op (a.expand j k) ⇓ s) :
    ∃ m s', 0 < m ∧ o.arith T op a ⇓ s' ∧ s = s'.expand m := by
  induction o generalizing a s j k with
  | safe => exact Safe.arith_expand hj hk h
  | fast => exact Fast.arith_expand hj hk h
  | reducedInput o mode ih =>
    simp only [Ops.arith, bind_eq_clean] at h
    obtain ⟨a', h1, h2⟩ := h
    refine ⟨1, s, one_pos, ?_, (Raw.expand_one s).symm⟩
    simp only [Ops.arith, bind_eq_clean]
    exact ⟨a', Args.reduce_expand hj hk h1, h2⟩
  | reducedOutput o mode ih =>
    simp only [Ops.arith, bind_eq_clean] at h
    obtain ⟨t, h1, h2⟩ := h
    obtain ⟨m, t', hm, h3, rfl⟩ := ih hj hk h1
    refine ⟨1, s, one_pos, ?_, (Raw.expand_one s).symm⟩
    simp only [Ops.arith, bind_eq_clean]
    exact ⟨t', h3, Raw.reduce_expand hm h2⟩

theorem Raw.isDefined_expand {f : Raw} {k : ℤ} (hk : 0 < k) :
    (f.expand k).isDefined = f.isDefined := by
  rw [Bool.eq_iff_iff]
  simp [Raw.isDefined, Raw.expand, hk.ne']

theorem Raw.isUndefined_expand {f : Raw} {k : ℤ} (hk : 0 < k) :
    (f.expand k).isUndefined = f.isUndefined := by
  simp [Raw.isUndefined, Raw.isDefined_expand hk]

theorem Safe.equalToFF_expand {l r : Raw} {b : Bool} {j k : ℤ} (hj : 0 < j) (hk : 0 < k)
    (h : Safe.equalToFF T (l.expand j) (r.expand k) ⇓ b) : Safe.equalToFF T l r ⇓ b := by
  unfold Safe.equalToFF at h ⊢
  rw [Raw.isUndefined_expand hj, Raw.isUndefined_expand hk] at h
  split at h
  · rename_i hu; rw [if_pos hu]; exact h
  · rename_i hu
    rw [if_neg hu]
    simp only [bind_eq_clean, pure_eq_ok, and_true] at h
    obtain ⟨L, hL, p, hp, a, ha, q, hq, c, hc, rfl⟩ := h
    obtain ⟨m, L', p', a', q', b', hm, g1, g2, g3, g4, g5, rfl, rfl, rfl⟩ :=
      safe_prefix_expand hj hk hL hp ha hq hc
    simp only [g1, g2, g3, g4, g5, ok_bind_false, pure_def, mul_right_inj' hm.ne']

theorem Fast.equalToFF_expand {l r : Raw} {b : Bool} {j k : ℤ} (hj : 0 < j) (hk : 0 < k)
    (h : Fast.equalToFF T (l.expand j) (r.expand k) ⇓ b) : Fast.equalToFF T l r ⇓ b := by
  have hjk := mul_pos hj hk
  unfold Fast.equalToFF at h ⊢
  simp only [bind_eq_clean, pure_eq_ok, and_true, mul_clean, Raw.isDefined_expand hj,
    Raw.isDefined_expand hk] at h ⊢
  obtain ⟨_, ⟨h1, rfl⟩, _, ⟨h2, rfl⟩, rfl⟩ := h
  simp only [Raw.expand] at h1 h2 ⊢
  have e1 : j * l.num * (k * r.den) = j * k * (l.num * r.den) := by ring
  have e2 : k * r.num * (j * l.den) = j * k * (r.num * l.den) := by ring
  refine ⟨_, ⟨IntTy.InRange.of_eq_mul hjk h1 e1, rfl⟩, _,
    ⟨IntTy.InRange.of_eq_mul hjk h2 e2, rfl⟩, ?_⟩
  simp only [e1, e2, mul_right_inj' hjk.ne']

theorem Safe.lessFF_expand {l r : Raw} {b : Bool} {j k : ℤ} (hj : 0 < j) (hk : 0 < k)
    (h : Safe.lessFF T (l.expand j) (r.expand k) ⇓ b) : Safe.lessFF T l r ⇓ b := by
  unfold Safe.lessFF at h ⊢
  rw [Raw.isUndefined_expand hj, Raw.isUndefined_expand hk] at h
  split at h
  · rename_i hu; rw [if_pos hu]; exact h
  · rename_i hu
    rw [if_neg hu]
    simp only [bind_eq_clean, pure_eq_ok, and_true] at h
    obtain ⟨L, hL, p, hp, a, ha, q, hq, c, hc, rfl⟩ := h
    obtain ⟨m, L', p', a', q', b', hm, g1, g2, g3, g4, g5, rfl, rfl, rfl⟩ :=
      safe_prefix_expand hj hk hL hp ha hq hc
    simp only [g1, g2, g3, g4, g5, ok_bind_false, pure_def, mul_lt_mul_iff_right₀ hm]

theorem Fast.lessFF_expand {l r : Raw} {b : Bool} {j k : ℤ} (hj : 0 < j) (hk : 0 < k)
    (h : Fast.lessFF T (l.expand j) (r.expand k) ⇓ b) : Fast.lessFF T l r ⇓ b := by
  have hjk := mul_pos hj hk
  unfold Fast.lessFF at h ⊢
  simp only [bind_eq_clean, pure_eq_ok, and_true, mul_clean, Raw.isDefined_expand hj,
    Raw.isDefined_expand hk] at h ⊢
  obtain ⟨_, ⟨h1, rfl⟩, _, ⟨h2, rfl⟩, rfl⟩ := h
  simp only [Raw.expand] at h1 h2 ⊢
  have e1 : j * l.num * (k * r.den) = j * k * (l.num * r.den) := by ring
  have e2 : k * r.num * (j * l.den) = j * k * (r.num * l.den) := by ring
  refine ⟨_, ⟨IntTy.InRange.of_eq_mul hjk h1 e1, rfl⟩, _,
    ⟨IntTy.InRange.of_eq_mul hjk h2 e2, rfl⟩, ?_⟩
  simp only [e1, e2, mul_lt_mul_iff_right₀ hjk]

theorem Safe.lessEqualFF_expand {l r : Raw} {b : Bool} {j k : ℤ} (hj : 0 < j) (hk : 0 < k)
    (h : Safe.lessEqualFF T (l.expand j) (r.expand k) ⇓ b) : Safe.lessEqualFF T l r ⇓ b := by
  unfold Safe.lessEqualFF at h ⊢
  rw [Raw.isUndefined_expand hj, Raw.isUndefined_expand hk] at h
  split at h
  · rename_i hu; rw [if_pos hu]; exact h
  · rename_i hu
    rw [if_neg hu]
    simp only [bind_eq_clean, pure_eq_ok, and_true] at h
    obtain ⟨L, hL, p, hp, a, ha, q, hq, c, hc, rfl⟩ := h
    obtain ⟨m, L', p', a', q', b', hm, g1, g2, g3, g4, g5, rfl, rfl, rfl⟩ :=
      safe_prefix_expand hj hk hL hp ha hq hc
    simp only [g1, g2, g3, g4, g5, ok_bind_false, pure_def, mul_le_mul_iff_right₀ hm]

theorem Fast.lessEqualFF_expand {l r : Raw} {b : Bool} {j k : ℤ} (hj : 0 < j) (hk : 0 < k)
    (h : Fast.lessEqualFF T (l.expand j) (r.expand k) ⇓ b) : Fast.lessEqualFF T l r ⇓ b := by
  have hjk := mul_pos hj hk
  unfold Fast.lessEqualFF at h ⊢
  simp only [bind_eq_clean, pure_eq_ok, and_true, mul_clean, Raw.isDefined_expand hj,
    Raw.isDefined_expand hk] at h ⊢
  obtain ⟨_, ⟨h1, rfl⟩, _, ⟨h2, rfl⟩, rfl⟩ := h
  simp only [Raw.expand] at h1 h2 ⊢
  have e1 : j * l.num * (k * r.den) = j * k * (l.num * r.den) := by ring
  have e2 : k * r.num * (j * l.den) = j * k * (r.num * l.den) := by ring
  refine ⟨_, ⟨IntTy.InRange.of_eq_mul hjk h1 e1, rfl⟩, _,
    ⟨IntTy.InRange.of_eq_mul hjk h2 e2, rfl⟩, ?_⟩
  simp only [e1, e2, mul_le_mul_iff_right₀ hjk]

theorem Safe.equalToFR_expand {f : Raw} {n : ℤ} {b : Bool} {k : ℤ} (hk : 0 < k)
    (h : Safe.equalToFR T (f.expand k) n ⇓ b) : Safe.equalToFR T f n ⇓ b := by
  unfold Safe.equalToFR at h ⊢
  simp only [bind_eq_clean, pure_eq_ok, and_true, mul_clean, Raw.isDefined_expand hk] at h ⊢
  obtain ⟨_, ⟨h1, rfl⟩, rfl⟩ := h
  simp only [Raw.expand] at h1 ⊢
  have e : n * (k * f.den) = k * (n * f.den) := by ring
  refine ⟨_, ⟨IntTy.InRange.of_eq_mul hk h1 e, rfl⟩, ?_⟩
  simp only [e, mul_right_inj' hk.ne']

theorem Safe.lessFR_expand {f : Raw} {n : ℤ} {b : Bool} {k : ℤ} (hk : 0 < k)
    (h : Safe.lessFR T (f.expand k) n ⇓ b) : Safe.lessFR T f n ⇓ b := by
  unfold Safe.lessFR at h ⊢
  simp only [bind_eq_clean, pure_eq_ok, and_true, mul_clean, Raw.isDefined_expand hk] at h ⊢
  obtain ⟨_, ⟨h1, rfl⟩, rfl⟩ := h
  simp only [Raw.expand] at h1 ⊢
  have e : n * (k * f.den) = k * (n * f.den) := by ring
  refine ⟨_, ⟨IntTy.InRange.of_eq_mul hk h1 e, rfl⟩, ?_⟩
  simp only [e, mul_lt_mul_iff_right₀ hk]

theorem Safe.lessRF_expand {f : Raw} {n : ℤ} {b : Bool} {k : ℤ} (hk : 0 < k)
    (h : Safe.lessRF T n (f.expand k) ⇓ b) : Safe.lessRF T n f ⇓ b := by
  unfold Safe.lessRF at h ⊢
  simp only [bind_eq_clean, pure_eq_ok, and_true, mul_clean, Raw.isDefined_expand hk] at h ⊢
  obtain ⟨_, ⟨h1, rfl⟩, rfl⟩ := h
  simp only [Raw.expand] at h1 ⊢
  have e : n * (k * f.den) = k * (n * f.den) := by ring
  refine ⟨_, ⟨IntTy.InRange.of_eq_mul hk h1 e, rfl⟩, ?_⟩
  simp only [e, mul_lt_mul_iff_right₀ hk]

theorem Safe.lessEqualFR_expand {f : Raw} {n : ℤ} {b : Bool} {k : ℤ} (hk : 0 < k)
    (h : Safe.lessEqualFR T (f.expand k) n ⇓ b) : Safe.lessEqualFR T f n ⇓ b := by
  unfold Safe.lessEqualFR at h ⊢
  simp only [bind_eq_clean, pure_eq_ok, and_true, mul_clean, Raw.isDefined_expand hk] at h ⊢
  obtain ⟨_, ⟨h1, rfl⟩, rfl⟩ := h
  simp only [Raw.expand] at h1 ⊢
  have e : n * (k * f.den) = k * (n * f.den) := by ring
  refine ⟨_, ⟨IntTy.InRange.of_eq_mul hk h1 e, rfl⟩, ?_⟩
  simp only [e, mul_le_mul_iff_right₀ hk]

theorem Safe.lessEqualRF_expand {f : Raw} {n : ℤ} {b : Bool} {k : ℤ} (hk : 0 < k)
    (h : Safe.lessEqualRF T n (f.expand k) ⇓ b) : Safe.lessEqualRF T n f ⇓ b := by
  unfold Safe.lessEqualRF at h ⊢
  simp only [bind_eq_clean, pure_eq_ok, and_true, mul_clean, Raw.isDefined_expand hk] at h ⊢
  obtain ⟨_, ⟨h1, rfl⟩, rfl⟩ := h
  simp only [Raw.expand] at h1 ⊢
  have e : n * (k * f.den) = k * (n * f.den) := by ring
  refine ⟨_, ⟨IntTy.InRange.of_eq_mul hk h1 e, rfl⟩, ?_⟩
  simp only [e, mul_le_mul_iff_right₀ hk]

theorem Fast.equalToFR_expand {f : Raw} {n : ℤ} {b : Bool} {k : ℤ} (hk : 0 < k)
    (h : Fast.equalToFR T (f.expand k) n ⇓ b) : Fast.equalToFR T f n ⇓ b := by
  unfold Fast.equalToFR at h ⊢
  simp only [bind_eq_clean, pure_eq_ok, and_true, mul_clean, Raw.isDefined_expand hk] at h ⊢
  obtain ⟨_, ⟨h1, rfl⟩, rfl⟩ := h
  simp only [Raw.expand] at h1 ⊢
  have e : n * (k * f.den) = k * (n * f.den) := by ring
  refine ⟨_, ⟨IntTy.InRange.of_eq_mul hk h1 e, rfl⟩, ?_⟩
  simp only [e, mul_right_inj' hk.ne']

theorem Fast.lessFR_expand {f : Raw} {n : ℤ} {b : Bool} {k : ℤ} (hk : 0 < k)
    (h : Fast.lessFR T (f.expand k) n ⇓ b) : Fast.lessFR T f n ⇓ b := by
  unfold Fast.lessFR at h ⊢
  simp only [bind_eq_clean, pure_eq_ok, and_true, mul_clean, Raw.isDefined_expand hk] at h ⊢
  obtain ⟨_, ⟨h1, rfl⟩, rfl⟩ := h
  simp only [Raw.expand] at h1 ⊢
  have e : n * (k * f.den) = k * (n * f.den) := by ring
  refine ⟨_, ⟨IntTy.InRange.of_eq_mul hk h1 e, rfl⟩, ?_⟩
  simp only [e, mul_lt_mul_iff_right₀ hk]

theorem Fast.lessRF_expand {f : Raw} {n : ℤ} {b : Bool} {k : ℤ} (hk : 0 < k)
    (h : Fast.lessRF T n (f.expand k) ⇓ b) : Fast.lessRF T n f ⇓ b := by
  unfold Fast.lessRF at h ⊢
  simp only [bind_eq_clean, pure_eq_ok, and_true, mul_clean, Raw.isDefined_expand hk] at h ⊢
  obtain ⟨_, ⟨h1, rfl⟩, rfl⟩ := h
  simp only [Raw.expand] at h1 ⊢
  have e : n * (k * f.den) = k * (n * f.den) := by ring
  refine ⟨_, ⟨IntTy.InRange.of_eq_mul hk h1 e, rfl⟩, ?_⟩
  simp only [e, mul_lt_mul_iff_right₀ hk]

theorem Fast.lessEqualFR_expand {f : Raw} {n : ℤ} {b : Bool} {k : ℤ} (hk : 0 < k)
    (h : Fast.lessEqualFR T (f.expand k) n ⇓ b) : Fast.lessEqualFR T f n ⇓ b := by
  unfold Fast.lessEqualFR at h ⊢
  simp only [bind_eq_clean, pure_eq_ok, and_true, mul_clean, Raw.isDefined_expand hk] at h ⊢
  obtain ⟨_, ⟨h1, rfl⟩, rfl⟩ := h
  simp only [Raw.expand] at h1 ⊢
  have e : n * (k * f.den) = k * (n * f.den) := by ring
  refine ⟨_, ⟨IntTy.InRange.of_eq_mul hk h1 e, rfl⟩, ?_⟩
  simp only [e, mul_le_mul_iff_right₀ hk]

theorem Fast.lessEqualRF_expand {f : Raw} {n : ℤ} {b : Bool} {k : ℤ} (hk : 0 < k)
    (h : Fast.lessEqualRF T n (f.expand k) ⇓ b) : Fast.lessEqualRF T n f ⇓ b := by
  unfold Fast.lessEqualRF at h ⊢
  simp only [bind_eq_clean, pure_eq_ok, and_true, mul_clean, Raw.isDefined_expand hk] at h ⊢
  obtain ⟨_, ⟨h1, rfl⟩, rfl⟩ := h
  simp only [Raw.expand] at h1 ⊢
  have e : n * (k * f.den) = k * (n * f.den) := by ring
  refine ⟨_, ⟨IntTy.InRange.of_eq_mul hk h1 e, rfl⟩, ?_⟩
  simp only [e, mul_le_mul_iff_right₀ hk]

theorem Safe.cmp_expand {op : CmpOp} {a : Args} {b : Bool} {j k : ℤ} (hj : 0 < j) (hk : 0 < k)
    (h : Safe.cmp T op (a.expand j k) ⇓ b) : Safe.cmp T op a ⇓ b := by
  cases a with
  | ff l r =>
    cases op
    · exact Safe.equalToFF_expand hj hk h
    · obtain ⟨c, h1, h2⟩ := bind_eq_clean.1 h
      exact bind_eq_clean.2 ⟨c, Safe.equalToFF_expand hj hk h1, h2⟩
    · exact Safe.lessFF_expand hj hk h
    · exact Safe.lessEqualFF_expand hj hk h
    · exact Safe.lessFF_expand hk hj h
    · exact Safe.lessEqualFF_expand hk hj h
  | fr l r =>
    cases op
    · exact Safe.equalToFR_expand hj h
    · obtain ⟨c, h1, h2⟩ := bind_eq_clean.1 h
      exact bind_eq_clean.2 ⟨c, Safe.equalToFR_expand hj h1, h2⟩
    · exact Safe.lessFR_expand hj h
    · exact Safe.lessEqualFR_expand hj h
    · exact Safe.lessRF_expand hj h
    · exact Safe.lessEqualRF_expand hj h
  | rf l r =>
    cases op
    · exact Safe.equalToFR_expand hk h
    · obtain ⟨c, h1, h2⟩ := bind_eq_clean.1 h
      exact bind_eq_clean.2 ⟨c, Safe.equalToFR_expand hk h1, h2⟩
    · exact Safe.lessRF_expand hk h
    · exact Safe.lessEqualRF_expand hk h
    · exact Safe.lessFR_expand hk h
    · exact Safe.lessEqualFR_expand hk h

theorem Fast.cmp_expand {op : CmpOp} {a : Args} {b : Bool} {j k : ℤ} (hj : 0 < j) (hk : 0 < k)
    (h : Fast.cmp T op (a.expand j k) ⇓ b) : Fast.cmp T op a ⇓ b := by
  cases a with
  | ff l r =>
    cases op
    · exact Fast.equalToFF_expand hj hk h
    · obtain ⟨c, h1, h2⟩ := bind_eq_clean.1 h
      exact bind_eq_clean.2 ⟨c, Fast.equalToFF_expand hj hk h1, h2⟩
    · exact Fast.lessFF_expand hj hk h
    · exact Fast.lessEqualFF_expand hj hk h
    · exact Fast.lessFF_expand hk hj h
    · exact Fast.lessEqualFF_expand hk hj h
  | fr l r =>
    cases op
    · exact Fast.equalToFR_expand hj h
    · obtain ⟨c, h1, h2⟩ := bind_eq_clean.1 h
      exact bind_eq_clean.2 ⟨c, Fast.equalToFR_expand hj h1, h2⟩
    · exact Fast.lessFR_expand hj h
    · exact Fast.lessEqualFR_expand hj h
    · exact Fast.lessRF_expand hj h
    · exact Fast.lessEqualRF_expand hj h
  | rf l r =>
    cases op
    · exact Fast.equalToFR_expand hk h
    · obtain ⟨c, h1, h2⟩ := bind_eq_clean.1 h
      exact bind_eq_clean.2 ⟨c, Fast.equalToFR_expand hk h1, h2⟩
    · exact Fast.lessRF_expand hk h
    · exact Fast.lessEqualRF_expand hk h
    · exact Fast.lessFR_expand hk h
    · exact Fast.lessEqualFR_expand hk h

theorem Ops.cmp_expand {op : CmpOp} {a : Args} {b : Bool} {j k : ℤ} (hj : 0 < j) (hk : 0 < k)
    (h : o.cmp T op (a.expand j k) ⇓ b) : o.cmp T op a ⇓ b := by
  induction o generalizing a with
  | safe => exact Safe.cmp_expand hj hk h
  | fast => exact Fast.cmp_expand hj hk h
  | reducedInput o mode ih =>
    simp only [Ops.cmp, bind_eq_clean] at h ⊢
    obtain ⟨a', h1, h2⟩ := h
    exact ⟨a', Args.reduce_expand hj hk h1, h2⟩
  | reducedOutput o mode ih => exact ih h

end Ieme
