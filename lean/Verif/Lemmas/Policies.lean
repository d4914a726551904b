import Verif.Lemmas.Closure
import Verif.Lemmas.Fraction
import Verif.Lemmas.Reduce

/-!
# The policy templates, completely
-/

namespace Ieme

open Res IntTy

variable {T : IntTy} {mode : ReduceMode} {a : Args} {f r : Raw} {w : Bool}

theorem lowest_of_spec {g : ℤ} (h0 : f.den ≠ 0) (hg : g ≠ 0) (hn : f.num = r.num * g)
    (hd : f.den = r.den * g) (hc : Int.gcd r.num r.den = 1) (h1 : mode = .ignoreSigns → 0 < g)
    (h2 : mode = .normalizeSigns → 0 < r.den) : r = f.lowest mode := by
  have e : (Int.gcd f.num f.den : ℤ) = g.natAbs := by
    rw [hn, hd, Int.gcd_mul_right, hc, one_mul]
  have r0 : r.den ≠ 0 := fun h => h0 (by rw [hd, h, zero_mul])
  rw [Raw.lowest, if_neg h0, e]
  rcases lt_or_gt_of_ne hg with hneg | hpos
  · have hm : mode = .normalizeSigns := by
      cases mode
      · rfl
      · exact absurd (h1 rfl) (by omega)
    have rd := h2 hm
    have hfd : f.den < 0 := by rw [hd]; exact mul_neg_of_pos_of_neg rd hneg
    have eg : (g.natAbs : ℤ) = -g := by omega
    rw [if_pos ⟨hm, hfd⟩, eg, hn, hd, Int.ediv_neg, Int.ediv_neg, Int.mul_ediv_cancel _ hg,
      Int.mul_ediv_cancel _ hg, neg_neg, neg_neg]
  · have eg : (g.natAbs : ℤ) = g := by omega
    rw [if_neg, eg, hn, hd, Int.mul_ediv_cancel _ hg, Int.mul_ediv_cancel _ hg]
    rintro ⟨hm, hfd⟩
    have : 0 < f.den := by rw [hd]; exact mul_pos (h2 hm) hpos
    omega

/-- `reduce`, completely. -/
theorem Raw.reduce_iff (hf : f.InRange T) :
    f.reduce T mode = .ok r w ↔ f.Cancellable T ∧ r = f.lowest mode ∧ w = false := by
  have fwd : ∀ {r w}, f.reduce T mode = .ok r w →
      f.Cancellable T ∧ r = f.lowest mode ∧ w = false := by
    intro r w h
    obtain rfl := Raw.reduce_flag hf h
    by_cases h0 : f.den = 0
    · exact ⟨Or.inl h0, by rw [Raw.reduce_clean_undefined h0 h, Raw.lowest, if_pos h0], rfl⟩
    · obtain ⟨g, hg, hn, hd, hc, h1, h2⟩ := Raw.reduce_clean_spec h0 h
      refine ⟨Or.inr ?_, lowest_of_spec h0 hg hn hd hc h1 h2, rfl⟩
      cases mode
      · obtain ⟨g, h3, -⟩ := bind_eq_clean.1 h
        have := (Raw.reduceIgnoreSigns_eq_ok h0).1 h3
        exact ⟨this.1, this.2.1⟩
      · have := (Raw.reduceIgnoreSigns_eq_ok h0).1 h
        exact ⟨this.1, this.2.1⟩
  refine ⟨fwd, ?_⟩
  rintro ⟨hc, rfl, rfl⟩
  obtain ⟨r', h⟩ : ∃ r', f.reduce T mode ⇓ r' := by
    rcases hc with h0 | ⟨h1, h2⟩
    · exact ⟨_, Raw.reduce_undefined mode h0⟩
    · obtain ⟨r, h, -⟩ := Raw.reduce_progress mode hf h1 h2
      exact ⟨r, h⟩
  obtain ⟨-, rfl, -⟩ := fwd h
  exact h

/-- Reducing the operands, completely. -/
theorem Args.reduce_iff {a' : Args} (ha : a.InRange T) :
    a.reduce T mode = .ok a' w ↔ a.Cancellable T ∧ a' = a.lowest mode ∧ w = false := by
  cases a with
  | ff l r =>
    simp only [Args.reduce, bind_eq_ok, pure_eq_ok, Raw.reduce_iff ha.1, Raw.reduce_iff ha.2,
      Args.Cancellable, Args.lowest]
    constructor
    · rintro ⟨_, _, _, ⟨h1, rfl, rfl⟩, ⟨_, _, _, ⟨h2, rfl, rfl⟩, ⟨rfl, rfl⟩, rfl⟩, rfl⟩
      exact ⟨⟨h1, h2⟩, rfl, rfl⟩
    · rintro ⟨⟨h1, h2⟩, rfl, rfl⟩
      exact ⟨_, _, _, ⟨h1, rfl, rfl⟩, ⟨_, _, _, ⟨h2, rfl, rfl⟩, ⟨rfl, rfl⟩, rfl⟩, rfl⟩
  | fr l r =>
    simp only [Args.reduce, bind_eq_ok, pure_eq_ok, Raw.reduce_iff ha.1, Args.Cancellable,
      Args.lowest]
    constructor
    · rintro ⟨_, _, _, ⟨h1, rfl, rfl⟩, ⟨rfl, rfl⟩, rfl⟩
      exact ⟨h1, rfl, rfl⟩
    · rintro ⟨h1, rfl, rfl⟩
      exact ⟨_, _, _, ⟨h1, rfl, rfl⟩, ⟨rfl, rfl⟩, rfl⟩
  | rf l r =>
    simp only [Args.reduce, bind_eq_ok, pure_eq_ok, Raw.reduce_iff ha.2, Args.Cancellable,
      Args.lowest]
    constructor
    · rintro ⟨_, _, _, ⟨h1, rfl, rfl⟩, ⟨rfl, rfl⟩, rfl⟩
      exact ⟨h1, rfl, rfl⟩
    · rintro ⟨h1, rfl, rfl⟩
      exact ⟨_, _, _, ⟨h1, rfl, rfl⟩, ⟨rfl, rfl⟩, rfl⟩

end Ieme
