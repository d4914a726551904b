import Verif.Lemmas.PosDen
import Verif.Lemmas.Compare

/-!
# The sign of the denominator of a result
-/

namespace Ieme

open Res IntTy

variable {T : IntTy} {o : Ops} {f r d : Raw} {x y : ℚ} {n : ℤ}

theorem Raw.reduce_normalize_posDen (h0 : r.den ≠ 0) (h : f.reduce T .normalizeSigns ⇓ r) :
    0 < r.den := by
  by_cases hf : f.den = 0
  · rw [Raw.reduce_clean_undefined hf h] at h0
    exact absurd rfl h0
  · exact (Raw.reduce_canonical hf h).1

theorem Raw.reduce_ignore_neg {s : Raw} (h : f.den < 0) (hr : f.reduce T .ignoreSigns ⇓ s) :
    s.den < 0 := by
  have h1 := Raw.reduce_ignore_sign (by omega) hr
  have h2 := Raw.reduce_clean_defined (by omega) hr
  omega

theorem Ops.normalizesOutput_posDen {op : ArithOp} {a : Args} (hn : o.NormalizesOutput)
    (h : o.arith T op a ⇓ r) (h0 : r.den ≠ 0) : 0 < r.den := by
  induction o generalizing a r with
  | safe => exact hn.elim
  | fast => exact hn.elim
  | reducedInput o mode ih =>
    simp only [Ops.arith, bind_eq_clean] at h
    obtain ⟨a', -, h⟩ := h
    exact ih hn h h0
  | reducedOutput o mode ih =>
    simp only [Ops.arith, bind_eq_clean] at h
    obtain ⟨s, hs, h⟩ := h
    cases mode
    · exact Raw.reduce_normalize_posDen h0 h
    · have hs0 : s.den ≠ 0 := fun e => by
        rw [Raw.reduce_clean_undefined e h] at h0; exact h0 rfl
      exact Raw.reduce_posDen (ih hn hs hs0) h

theorem num_neg_of {f : Raw} {q : ℚ} (hp : 0 < f.den) (hd : Denotes f q) (hq : q < 0) :
    f.num < 0 := by
  have h1 : (0 : ℚ) < f.den := by exact_mod_cast hp
  have h2 := (denotes_iff_mul.1 hd).2
  have : (f.num : ℚ) < 0 := h2 ▸ mul_neg_of_neg_of_pos hq h1
  exact_mod_cast this

theorem Ops.div_negDen {a : Args} (hn : ¬ o.NormalizesOutput) (hp : a.PosDen)
    (hd : a.Denote x y) (hy : y < 0) (h : o.arith T .divides a ⇓ r) : r.den < 0 := by
  have base : ∀ {a : Args} {res : Raw}, a.PosDen → a.Denote x y →
      Safe.arith T .divides a ⇓ res → res.den < 0 := by
    intro a res hp hd h
    cases a with
    | ff l r =>
      simp only [Safe.arith, Safe.dividesFF, bind_eq_clean, pure_eq_ok, mul_clean, and_true] at h
      obtain ⟨_, -, _, ⟨-, rfl⟩, rfl⟩ := h
      exact mul_neg_of_pos_of_neg hp.1 (num_neg_of hp.2 hd.2 hy)
    | fr l r =>
      simp only [Safe.arith, Safe.dividesFR, bind_eq_clean, pure_eq_ok, mul_clean, and_true] at h
      obtain ⟨_, ⟨-, rfl⟩, rfl⟩ := h
      have : (r : ℚ) < 0 := hd.2 ▸ hy
      exact mul_neg_of_pos_of_neg hp (by exact_mod_cast this)
    | rf l r =>
      simp only [Safe.arith, Safe.dividesRF, bind_eq_clean, pure_eq_ok, mul_clean, and_true] at h
      obtain ⟨_, -, rfl⟩ := h
      exact num_neg_of hp hd.2 hy
  induction o generalizing a r with
  | safe => exact base hp hd h
  | fast => exact base hp hd (by cases a <;> exact h)
  | reducedInput o mode ih =>
    simp only [Ops.arith, bind_eq_clean] at h
    obtain ⟨a', ha', h⟩ := h
    exact ih hn (Args.reduce_posDen hp ha') (Args.reduce_denote hd ha') h
  | reducedOutput o mode ih =>
    simp only [Ops.arith, bind_eq_clean] at h
    obtain ⟨s, hs, h⟩ := h
    cases mode
    · exact absurd trivial hn
    · exact Raw.reduce_ignore_neg (ih hn hp hd hs) h

theorem Ops.arith_fr_negDen {op : ArithOp} (hop : op = .minus ∨ op = .multiplies)
    (hi : o.IgnoresSigns) (hf : f.den < 0) (h : o.arith T op (.fr f n) ⇓ r) : r.den < 0 := by
  induction o generalizing f r with
  | safe =>
    rcases hop with rfl | rfl <;>
      simp only [Ops.arith, Safe.arith, Safe.minusFR, Safe.multipliesFR, bind_eq_clean,
        pure_eq_ok, and_true] at h
    · obtain ⟨_, -, _, -, rfl⟩ := h; exact hf
    · obtain ⟨_, -, rfl⟩ := h; exact hf
  | fast =>
    rcases hop with rfl | rfl <;>
      simp only [Ops.arith, Fast.arith, Fast.minusFR, Fast.multipliesFR, bind_eq_clean,
        pure_eq_ok, and_true] at h
    · obtain ⟨_, -, _, -, rfl⟩ := h; exact hf
    · obtain ⟨_, -, rfl⟩ := h; exact hf
  | reducedInput o mode ih =>
    obtain ⟨rfl, hi⟩ := hi
    simp only [Ops.arith, Args.reduce, bind_eq_clean, pure_eq_ok, and_true] at h
    obtain ⟨_, ⟨f', hf', rfl⟩, h⟩ := h
    exact ih hi (Raw.reduce_ignore_neg hf hf') h
  | reducedOutput o mode ih =>
    obtain ⟨rfl, hi⟩ := hi
    simp only [Ops.arith, bind_eq_clean] at h
    obtain ⟨s, hs, h⟩ := h
    exact Raw.reduce_ignore_neg (ih hi hf hs) h

theorem Ops.minus_fr_posDen (hi : ¬ o.IgnoresSigns) (hf : f.den ≠ 0)
    (h : o.arith T .minus (.fr f n) ⇓ r) : 0 < r.den := by
  have hr : r.den ≠ 0 :=
    (Ops.arith_exact (op := .minus) (a := .fr f n) ⟨denotes_self hf, rfl⟩ h).1
  induction o generalizing f r with
  | safe => exact absurd trivial hi
  | fast => exact absurd trivial hi
  | reducedInput o mode ih =>
    simp only [Ops.arith, Args.reduce, bind_eq_clean, pure_eq_ok, and_true] at h
    obtain ⟨_, ⟨f', hf', rfl⟩, h⟩ := h
    cases mode
    · exact Ops.arith_posDen (a := .fr f' n) (Raw.reduce_canonical hf hf').1 (by decide) h
    · exact ih (fun h => hi ⟨rfl, h⟩) (Raw.reduce_clean_defined hf hf') h hr
  | reducedOutput o mode ih =>
    simp only [Ops.arith, bind_eq_clean] at h
    obtain ⟨s, hs, h⟩ := h
    cases mode
    · exact Raw.reduce_normalize_posDen hr h
    · have hs0 : s.den ≠ 0 := fun e => by
        rw [Raw.reduce_clean_undefined e h] at hr; exact hr rfl
      exact Raw.reduce_posDen (ih (fun h => hi ⟨rfl, h⟩) hf hs hs0) h

theorem Ops.not_orderSafe_of_neg (hi : o.IgnoresSigns) (hs : ¬ o.SafeBased) (hl : f.den < 0)
    (hr : 0 < r.den) : ¬ o.OrderSafe (.ff f r) := by
  induction o with
  | safe => exact absurd trivial hs
  | fast => exact not_lt.2 (mul_neg_of_neg_of_pos hl hr).le
  | reducedInput o mode ih =>
    obtain ⟨rfl, hi⟩ := hi
    exact ih hi hs
  | reducedOutput o mode ih => exact ih hi.2 hs

end Ieme
