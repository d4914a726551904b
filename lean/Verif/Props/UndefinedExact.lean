import Verif.Props.Compare

/-!
# C19: exactly when an undefined operand disappears
-/

namespace Ieme
open Res IntTy

variable {T : IntTy} {o : Ops} {op : ArithOp} {a : Args} {r : Raw}

/-- **C19** Dividing by an undefined fraction with a non-zero numerator gives a defined zero under
every policy that does not reduce its operands. -/
theorem C19_lost_divisor_zero (hl : a.LostDivisor) (hn : ¬ o.ReducesInput)
    (h : o.arith T .divides a ⇓ r) : Denotes r 0 := by
  suffices r.den ≠ 0 ∧ r.num = 0 from ⟨this.1, by rw [this.2]; simp⟩
  induction o generalizing r with
  | safe =>
    cases a with
    | ff l d =>
      simp only [Ops.arith, Safe.arith, Safe.dividesFF, bind_eq_clean, pure_eq_ok, and_true] at h
      obtain ⟨n, h1, m, h2, rfl⟩ := h
      obtain ⟨-, rfl⟩ := mul_clean.1 h1
      obtain ⟨-, rfl⟩ := mul_clean.1 h2
      exact ⟨mul_ne_zero hl.1 hl.2.2, by simp [hl.2.1]⟩
    | fr l d => exact hl.elim
    | rf l d =>
      simp only [Ops.arith, Safe.arith, Safe.dividesRF, bind_eq_clean, pure_eq_ok, and_true] at h
      obtain ⟨n, h1, rfl⟩ := h
      obtain ⟨-, rfl⟩ := mul_clean.1 h1
      exact ⟨hl.2, by simp [hl.1]⟩
  | fast =>
    cases a with
    | ff l d =>
      simp only [Ops.arith, Fast.arith, Fast.dividesFF, bind_eq_clean, pure_eq_ok, and_true] at h
      obtain ⟨n, h1, m, h2, rfl⟩ := h
      obtain ⟨-, rfl⟩ := mul_clean.1 h1
      obtain ⟨-, rfl⟩ := mul_clean.1 h2
      exact ⟨mul_ne_zero hl.1 hl.2.2, by simp [hl.2.1]⟩
    | fr l d => exact hl.elim
    | rf l d =>
      simp only [Ops.arith, Fast.arith, Fast.dividesRF, bind_eq_clean, pure_eq_ok, and_true] at h
      obtain ⟨n, h1, rfl⟩ := h
      obtain ⟨-, rfl⟩ := mul_clean.1 h1
      exact ⟨hl.2, by simp [hl.1]⟩
  | reducedInput o mode ih => exact absurd trivial hn
  | reducedOutput o mode ih =>
    simp only [Ops.arith, bind_eq_clean] at h
    obtain ⟨s, h1, h2⟩ := h
    obtain ⟨i1, i2⟩ := ih hn h1
    have hd := Raw.reduce_defined h2 i1
    have hv := Raw.reduce_denotes (q := 0) ⟨i1, by rw [i2]; simp⟩ h2
    refine ⟨hd, ?_⟩
    have := hv.2
    have hd' : (r.den : ℚ) ≠ 0 := by exact_mod_cast hd
    rcases div_eq_zero_iff.1 this with h0 | h0
    · exact_mod_cast h0
    · exact absurd h0 hd'

/-- **C19** With an undefined operand, a clean result is undefined in all cases but one: a policy
that does not reduce its operands divides by an undefined fraction with a non-zero numerator. -/
theorem C19_propagates_iff (hu : a.HasUndefined) (h : o.arith T op a ⇓ r) :
    r.den = 0 ↔ ¬ (op = .divides ∧ ¬ o.ReducesInput ∧ a.LostDivisor) := by
  constructor
  · rintro hd ⟨rfl, hn, hl⟩
    exact (C19_lost_divisor_zero hl hn h).1 hd
  · intro hc
    refine C19_undefined_propagates_partial hu (fun e => ?_) h
    by_contra hh
    push Not at hh
    exact hc ⟨e, hh.1, hh.2⟩

/-- Both sides occur, also through `reduced_output` and for an integer dividend. -/
example : (Args.ff ⟨1, 2⟩ ⟨3, 0⟩).LostDivisor ∧ (Args.rf 7 ⟨3, 0⟩).LostDivisor ∧
    ¬ Ops.safeReducedO.ReducesInput ∧
    Ops.safeReducedO.arith i32 .divides (.ff ⟨1, 2⟩ ⟨3, 0⟩) ⇓ ⟨0, 1⟩ ∧
    Ops.fast.arith i32 .divides (.rf 7 ⟨3, 0⟩) ⇓ ⟨0, 3⟩ ∧
    Ops.fast.arith i32 .divides (.ff ⟨1, 2⟩ ⟨0, 0⟩) ⇓ ⟨0, 0⟩ ∧
    Ops.defaults.arith i32 .divides (.rf 7 ⟨3, 0⟩) ⇓ ⟨0, 0⟩ :=
  ⟨by simp [Args.LostDivisor], by simp [Args.LostDivisor], id, by decide, by decide, by decide,
    by decide⟩

end Ieme
