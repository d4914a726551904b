import Verif.Lemmas.Exact

/-!
# Operations other than division keep denominators positive
-/

namespace Ieme

open Res IntTy

variable {T : IntTy}

theorem num_pos_of {f : Raw} {q : ℚ} (hp : 0 < f.den) (hd : Denotes f q) (hq : 0 < q) :
    0 < f.num := by
  have h1 : (0 : ℚ) < f.den := by exact_mod_cast hp
  have h2 := (denotes_iff_mul.1 hd).2
  have : (0 : ℚ) < f.num := h2 ▸ mul_pos hq h1
  exact_mod_cast this

theorem Safe.arith_posDen {op : ArithOp} {a : Args} {res : Raw} (hp : a.PosDen)
    (hop : op ≠ .divides) (h : Safe.arith T op a ⇓ res) : 0 < res.den := by
  cases a with
  | ff l r =>
    obtain ⟨h1, h2⟩ := hp
    have hl : (0 : ℤ) < Int.lcm l.den r.den := by
      exact_mod_cast Int.lcm_pos h1.ne' h2.ne'
    cases op <;>
      simp only [Safe.arith, Safe.plusFF, Safe.minusFF, Safe.multipliesFF, Safe.modulusFF,
        bind_eq_clean, pure_eq_ok, lcm_clean, mul_clean, and_true] at h
    · obtain ⟨L, ⟨-, -, -, rfl⟩, _, -, _, -, _, -, _, -, _, -, rfl⟩ := h; exact hl
    · obtain ⟨L, ⟨-, -, -, rfl⟩, _, -, _, -, _, -, _, -, _, -, rfl⟩ := h; exact hl
    · obtain ⟨_, -, _, ⟨-, rfl⟩, rfl⟩ := h; positivity
    · exact absurd rfl hop
    · obtain ⟨L, ⟨-, -, -, rfl⟩, _, -, _, -, _, -, _, -, _, -, rfl⟩ := h; exact hl
  | fr l r =>
    have hp : 0 < l.den := hp
    cases op <;>
      simp only [Safe.arith, Safe.plusFR, Safe.minusFR, Safe.multipliesFR, Safe.modulusFR,
        bind_eq_clean, pure_eq_ok, and_true] at h
    · obtain ⟨_, -, _, -, rfl⟩ := h; exact hp
    · obtain ⟨_, -, _, -, rfl⟩ := h; exact hp
    · obtain ⟨_, -, rfl⟩ := h; exact hp
    · exact absurd rfl hop
    · obtain ⟨_, -, _, -, rfl⟩ := h; exact hp
  | rf l r =>
    have hp : 0 < r.den := hp
    cases op <;>
      simp only [Safe.arith, Safe.plusRF, Safe.plusFR, Safe.minusRF, Safe.multipliesRF,
        Safe.multipliesFR, Safe.modulusRF, bind_eq_clean, pure_eq_ok, and_true] at h
    · obtain ⟨_, -, _, -, rfl⟩ := h; exact hp
    · obtain ⟨_, -, _, -, rfl⟩ := h; exact hp
    · obtain ⟨_, -, rfl⟩ := h; exact hp
    · exact absurd rfl hop
    · obtain ⟨_, -, _, -, rfl⟩ := h; exact hp

theorem Fast.arith_posDen {op : ArithOp} {a : Args} {res : Raw} (hp : a.PosDen)
    (hop : op ≠ .divides) (h : Fast.arith T op a ⇓ res) : 0 < res.den := by
  cases a with
  | ff l r =>
    obtain ⟨h1, h2⟩ := hp
    cases op <;>
      simp only [Fast.arith, Fast.plusFF, Fast.minusFF, Fast.multipliesFF, Fast.modulusFF,
        bind_eq_clean, pure_eq_ok, mul_clean, and_true] at h
    · obtain ⟨_, -, _, -, _, -, _, ⟨-, rfl⟩, rfl⟩ := h; positivity
    · obtain ⟨_, -, _, -, _, -, _, ⟨-, rfl⟩, rfl⟩ := h; positivity
    · obtain ⟨_, -, _, ⟨-, rfl⟩, rfl⟩ := h; positivity
    · exact absurd rfl hop
    · obtain ⟨_, -, _, -, _, -, _, ⟨-, rfl⟩, rfl⟩ := h; positivity
  | fr l r =>
    have hp : 0 < l.den := hp
    cases op <;>
      simp only [Fast.arith, Fast.plusFR, Fast.minusFR, Fast.multipliesFR, Fast.modulusFR,
        bind_eq_clean, pure_eq_ok, and_true] at h
    · obtain ⟨_, -, _, -, rfl⟩ := h; exact hp
    · obtain ⟨_, -, _, -, rfl⟩ := h; exact hp
    · obtain ⟨_, -, rfl⟩ := h; exact hp
    · exact absurd rfl hop
    · obtain ⟨_, -, _, -, rfl⟩ := h; exact hp
  | rf l r =>
    have hp : 0 < r.den := hp
    cases op <;>
      simp only [Fast.arith, Fast.plusRF, Fast.plusFR, Fast.minusRF, Fast.multipliesRF,
        Fast.multipliesFR, Fast.modulusRF, bind_eq_clean, pure_eq_ok, and_true] at h
    · obtain ⟨_, -, _, -, rfl⟩ := h; exact hp
    · obtain ⟨_, -, _, -, rfl⟩ := h; exact hp
    · obtain ⟨_, -, rfl⟩ := h; exact hp
    · exact absurd rfl hop
    · obtain ⟨_, -, _, -, rfl⟩ := h; exact hp

theorem Args.reduce_posDen {mode : ReduceMode} {a a' : Args} (hp : a.PosDen)
    (h : a.reduce T mode ⇓ a') : a'.PosDen := by
  cases a with
  | ff l r =>
    simp only [Args.reduce, bind_eq_clean, pure_eq_ok, and_true] at h
    obtain ⟨l', hl, r', hr, rfl⟩ := h
    exact ⟨Raw.reduce_posDen hp.1 hl, Raw.reduce_posDen hp.2 hr⟩
  | fr l r =>
    simp only [Args.reduce, bind_eq_clean, pure_eq_ok, and_true] at h
    obtain ⟨l', hl, rfl⟩ := h
    exact Raw.reduce_posDen (f := l) hp hl
  | rf l r =>
    simp only [Args.reduce, bind_eq_clean, pure_eq_ok, and_true] at h
    obtain ⟨l', hl, rfl⟩ := h
    exact Raw.reduce_posDen (f := r) hp hl

theorem Ops.arith_posDen {o : Ops} {op : ArithOp} {a : Args} {res : Raw} (hp : a.PosDen)
    (hop : op ≠ .divides) (h : o.arith T op a ⇓ res) : 0 < res.den := by
  induction o generalizing a res with
  | safe => exact Safe.arith_posDen hp hop h
  | fast => exact Fast.arith_posDen hp hop h
  | reducedInput o mode ih =>
    simp only [Ops.arith, bind_eq_clean] at h
    obtain ⟨a', ha', h⟩ := h
    exact ih (Args.reduce_posDen hp ha') h
  | reducedOutput o mode ih =>
    simp only [Ops.arith, bind_eq_clean] at h
    obtain ⟨r, hr, h⟩ := h
    exact Raw.reduce_posDen (ih hp hr) h

theorem Ops.negate_posDen {o : Ops} {v res : Raw} (hp : 0 < v.den) (h : o.negate T v ⇓ res) :
    0 < res.den := by
  induction o generalizing v res with
  | safe =>
    simp only [Ops.negate, Safe.negate, bind_eq_clean, pure_eq_ok, and_true] at h
    obtain ⟨_, -, rfl⟩ := h; exact hp
  | fast =>
    simp only [Ops.negate, Fast.negate, bind_eq_clean, pure_eq_ok, and_true] at h
    obtain ⟨_, -, rfl⟩ := h; exact hp
  | reducedInput o mode ih =>
    simp only [Ops.negate, bind_eq_clean] at h
    obtain ⟨a', ha', h⟩ := h
    exact ih (Raw.reduce_posDen hp ha') h
  | reducedOutput o mode ih =>
    simp only [Ops.negate, bind_eq_clean] at h
    obtain ⟨s, hs, h⟩ := h
    exact Raw.reduce_posDen (ih hp hs) h

/-! ## Division by positive values -/

theorem Ops.div_posDen {o : Ops} {a : Args} {x y : ℚ} {res : Raw} (hp : a.PosDen)
    (hd : a.Denote x y) (hy : 0 < y) (h : o.arith T .divides a ⇓ res) : 0 < res.den := by
  have base : ∀ {a : Args} {res : Raw}, a.PosDen → a.Denote x y →
      Safe.arith T .divides a ⇓ res → 0 < res.den := by
    intro a res hp hd h
    cases a with
    | ff l r =>
      simp only [Safe.arith, Safe.dividesFF, bind_eq_clean, pure_eq_ok, mul_clean, and_true] at h
      obtain ⟨_, -, _, ⟨-, rfl⟩, rfl⟩ := h
      exact mul_pos hp.1 (num_pos_of hp.2 hd.2 hy)
    | fr l r =>
      simp only [Safe.arith, Safe.dividesFR, bind_eq_clean, pure_eq_ok, mul_clean, and_true] at h
      obtain ⟨_, ⟨-, rfl⟩, rfl⟩ := h
      have : (0 : ℚ) < r := hd.2 ▸ hy
      exact mul_pos hp (by exact_mod_cast this)
    | rf l r =>
      simp only [Safe.arith, Safe.dividesRF, bind_eq_clean, pure_eq_ok, mul_clean, and_true] at h
      obtain ⟨_, -, rfl⟩ := h
      exact num_pos_of hp hd.2 hy
  induction o generalizing a res with
  | safe => exact base hp hd h
  | fast => exact base hp hd (by cases a <;> exact h)
  | reducedInput o mode ih =>
    simp only [Ops.arith, bind_eq_clean] at h
    obtain ⟨a', ha', h⟩ := h
    exact ih (Args.reduce_posDen hp ha') (Args.reduce_denote hd ha') h
  | reducedOutput o mode ih =>
    simp only [Ops.arith, bind_eq_clean] at h
    obtain ⟨r, hr, h⟩ := h
    exact Raw.reduce_posDen (ih hp hd hr) h

end Ieme
