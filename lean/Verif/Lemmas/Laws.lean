import Verif.Lemmas.PosDen
import Verif.Lemmas.Fraction
import Verif.Lemmas.Hash
import Verif.Lemmas.Rounding
import Verif.Spec.Assign

/-!
# Lemmas for the laws that combine several operations
-/

namespace Ieme

open Res IntTy

variable {T : IntTy} {o : Ops} {f r : Raw} {x : ℚ} {n : ℤ}

theorem Expr.eval_posDen {e : Expr} (hp : e.PosDivisors) (h : e.eval T o ⇓ r) : 0 < r.den := by
  have div : ∀ {op : ArithOp} {a : Args} {x y : ℚ} {r : Raw}, a.PosDen → a.Denote x y →
      (op = .divides → 0 < y) → o.arith T op a ⇓ r → 0 < r.den := by
    intro op a x y r h1 h2 h3 h
    by_cases hop : op = .divides
    · subst hop; exact Ops.div_posDen h1 h2 (h3 rfl) h
    · exact Ops.arith_posDen h1 hop h
  induction e generalizing r with
  | lit f =>
    simp only [Expr.eval, pure_eq_ok, and_true] at h
    subst h; exact hp
  | neg e ih =>
    obtain ⟨v, hv, h⟩ := bind_eq_clean.1 h
    exact Ops.negate_posDen (ih hp hv) h
  | pos e ih =>
    obtain ⟨v, hv, h⟩ := bind_eq_clean.1 h
    simp only [pure_eq_ok, and_true] at h
    subst h; exact ih hp hv
  | ff op e1 e2 ih1 ih2 =>
    obtain ⟨v1, h1, h⟩ := bind_eq_clean.1 h
    obtain ⟨v2, h2, h⟩ := bind_eq_clean.1 h
    rw [Fraction.arith_self] at h
    have p1 := ih1 hp.1 h1
    have p2 := ih2 hp.2.1 h2
    refine div (a := .ff v1 v2) ⟨p1, p2⟩ ⟨denotes_self p1.ne', denotes_self p2.ne'⟩ ?_ h
    intro hop
    obtain ⟨y, hy, hy0⟩ := hp.2.2 hop
    rwa [(Expr.eval_exact h2 hy).2]
  | fr op e n ih =>
    obtain ⟨v, hv, h⟩ := bind_eq_clean.1 h
    rw [Fraction.arith_self] at h
    have p := ih hp.1 hv
    exact div (a := .fr v n) p ⟨denotes_self p.ne', rfl⟩
      (fun hop => by exact_mod_cast hp.2 hop) h
  | rf op n e ih =>
    obtain ⟨v, hv, h⟩ := bind_eq_clean.1 h
    rw [Fraction.arith_self] at h
    have p := ih hp.1 hv
    refine div (a := .rf n v) p ⟨rfl, denotes_self p.ne'⟩ ?_ h
    intro hop
    obtain ⟨y, hy, hy0⟩ := hp.2 hop
    rwa [(Expr.eval_exact hv hy).2]

/-- The result of a sequence of assignments that is not empty, under a policy that
normalises. -/
theorem Assign.run_canonical {op : ArithOp} {ts : List Raw} (hn : o.NormalizesOutput)
    (hf : f.InRange T) (ht : ∀ t ∈ ts, t.InRange T) (h0 : ts ≠ [])
    (h : Assign.run T o f (ts.map (.frac op)) ⇓ r) : CanonicalOrZero r := by
  induction ts generalizing f with
  | nil => exact absurd rfl h0
  | cons t ts ih =>
    obtain ⟨v, hv, h⟩ := bind_eq_clean.1 h
    rw [Assign.step, Fraction.assignF, if_pos rfl, Fraction.arith_self] at hv
    have ha : (Args.ff f t).InRange T := ⟨hf, ht t (by simp)⟩
    cases ts with
    | nil =>
      simp only [List.map_nil, Assign.run, pure_eq_ok, and_true] at h
      subst h
      exact Ops.arith_canonical hn ha hv
    | cons u us =>
      exact ih (Ops.arith_inRange ha hv) (fun t h => ht t (by simp [h])) (by simp) h

/-- The denominator of a redenominated fraction. -/
theorem redenominate_den {d : ℤ} {mode : RoundMode} (h : Fraction.redenominate T o f d mode ⇓ r) :
    r.den = d := by
  have hr : Fraction.roundRedenominate T o f d ⇓ r → r.den = d := by
    intro h
    obtain ⟨p, -, h⟩ := bind_eq_clean.1 h
    obtain ⟨n, -, h⟩ := bind_eq_clean.1 h
    simp only [pure_eq_ok, and_true] at h
    subst h; rfl
  cases mode
  · obtain ⟨p, -, h⟩ := bind_eq_clean.1 h
    obtain ⟨n, -, h⟩ := bind_eq_clean.1 h
    simp only [pure_eq_ok, and_true] at h
    subst h; rfl
  · simp only [Fraction.redenominate, Fraction.ceilRedenominate] at h
    split at h
    · obtain ⟨p, -, h⟩ := bind_eq_clean.1 h
      obtain ⟨n, -, h⟩ := bind_eq_clean.1 h
      simp only [pure_eq_ok, and_true] at h
      subst h; rfl
    · obtain ⟨p, -, h⟩ := bind_eq_clean.1 h
      obtain ⟨n, -, h⟩ := bind_eq_clean.1 h
      obtain ⟨n, -, h⟩ := bind_eq_clean.1 h
      obtain ⟨n, -, h⟩ := bind_eq_clean.1 h
      simp only [pure_eq_ok, and_true] at h
      subst h; rfl
  · simp only [Fraction.redenominate, Fraction.floorRedenominate] at h
    split at h
    · obtain ⟨p, -, h⟩ := bind_eq_clean.1 h
      obtain ⟨n, -, h⟩ := bind_eq_clean.1 h
      simp only [pure_eq_ok, and_true] at h
      subst h; rfl
    · obtain ⟨p, -, h⟩ := bind_eq_clean.1 h
      obtain ⟨n, -, h⟩ := bind_eq_clean.1 h
      obtain ⟨n, -, h⟩ := bind_eq_clean.1 h
      obtain ⟨n, -, h⟩ := bind_eq_clean.1 h
      simp only [pure_eq_ok, and_true] at h
      subst h; rfl
  · exact hr h
  · exact hr h

/-- The whole part of a mixed number that keeps the invariant. -/
theorem Mixed.Invariant.whole {m : Mixed} {q : ℚ} (h : m.Invariant) (hq : m.Denotes q) :
    m.whole = ratTrunc q ∧ Ieme.Denotes m.frac (q - ratTrunc q) := by
  obtain ⟨y, hy, h1, h2, h3⟩ := h
  obtain ⟨z, hz, e⟩ := hq
  obtain rfl := hz.unique hy
  rw [abs_lt] at h1
  have hw : m.whole = ratTrunc q := by
    unfold ratTrunc
    split
    · rename_i h0
      symm
      rw [Int.floor_eq_iff, e]
      rcases lt_trichotomy m.whole 0 with hc | hc | hc
      · have := h3 hc
        have : (m.whole : ℚ) ≤ -1 := by exact_mod_cast (by omega : m.whole ≤ -1)
        constructor <;> linarith
      · rw [hc] at e ⊢; push_cast at e ⊢; constructor <;> linarith
      · have := h2 hc; constructor <;> linarith
    · rename_i h0
      symm
      rw [Int.ceil_eq_iff, e]
      rcases lt_trichotomy m.whole 0 with hc | hc | hc
      · have := h3 hc; constructor <;> linarith
      · rw [hc] at e ⊢; push_cast at e ⊢; constructor <;> linarith
      · have := h2 hc
        have : (1 : ℚ) ≤ m.whole := by exact_mod_cast (by omega : 1 ≤ m.whole)
        constructor <;> linarith
  refine ⟨hw, ?_⟩
  rw [← hw, e, add_sub_cancel_left]
  exact hy

/-- `round` is `floor` or one more, whatever the policy. -/
theorem Fraction.round_near (h : Fraction.round T o f ⇓ n) :
    ∃ m, Fraction.floor T f ⇓ m ∧ (n = m ∨ n = m + 1) := by
  obtain ⟨m, hm, h⟩ := bind_eq_clean.1 h
  obtain ⟨d, -, h⟩ := bind_eq_clean.1 h
  obtain ⟨b, -, h⟩ := bind_eq_clean.1 h
  refine ⟨m, hm, ?_⟩
  split at h
  · simp only [pure_eq_ok, and_true] at h; exact .inl h.symm
  · exact .inr (add_clean.1 h).2

end Ieme
