import Verif.Model.Hash
import Mathlib.Tactic.ByContra
import Mathlib.Tactic.SplitIfs

/-!
# Hashes tell different parts apart
-/

namespace Ieme.Hash

theorem bits {z : Nat} (p q : Prop) [Decidable p] [Decidable q] {k : Nat} (hk : k = 0 ∨ k = 1) :
    (((if p then (1 : BitVec (z + 3)) else 0) ^^^
      ((if q then (1 : BitVec (z + 3)) else 0) <<< 1)) <<< k).getLsbD k = decide p ∧
    (((if p then (1 : BitVec (z + 3)) else 0) ^^^
      ((if q then (1 : BitVec (z + 3)) else 0) <<< 1)) <<< k).getLsbD (k + 1) = decide q := by
  rcases hk with rfl | rfl <;> by_cases h1 : p <;> by_cases h2 : q <;>
    simp [h1, h2]

/-- The two lowest bits of the hash of a fraction show which part is `x`, shifted or not. -/
theorem indicator {z : Nat} {a b c d x : Int} {k : Nat} (hk : k = 0 ∨ k = 1)
    (h : ((if a = x then (1 : BitVec (z + 3)) else 0) ^^^
        ((if b = x then (1 : BitVec (z + 3)) else 0) <<< 1)) <<< k =
      ((if c = x then (1 : BitVec (z + 3)) else 0) ^^^
        ((if d = x then (1 : BitVec (z + 3)) else 0) <<< 1)) <<< k) :
    (a = x ↔ c = x) ∧ (b = x ↔ d = x) := by
  obtain ⟨e1, e2⟩ := bits (z := z) (a = x) (b = x) hk
  obtain ⟨e3, e4⟩ := bits (z := z) (c = x) (d = x) hk
  rw [h] at e1 e2
  exact ⟨decide_eq_decide.1 (e1.symm.trans e3), decide_eq_decide.1 (e2.symm.trans e4)⟩

/-- Some hash of the representation tells apart fractions whose parts differ. -/
theorem fraction_inj {z : Nat} (hz : 3 ≤ z) {f g : Raw}
    (h : ∀ h : Int → BitVec z, fraction h f = fraction h g) : f = g := by
  obtain ⟨z, rfl⟩ : ∃ k, z = k + 3 := ⟨z - 3, by omega⟩
  have key : ∀ x : Int, (f.num = x ↔ g.num = x) ∧ (f.den = x ↔ g.den = x) := fun x =>
    indicator (.inl rfl) (by
      have := h fun y => if y = x then 1 else 0
      simpa only [fraction, combine, BitVec.shiftLeft_zero] using this)
  have h1 := (key f.num).1.1 rfl
  have h2 := (key f.den).2.1 rfl
  cases f; cases g; simp_all

/-- Some hashes tell apart mixed numbers whose parts differ. -/
theorem mixed_inj {z : Nat} (hz : 3 ≤ z) {m n : Mixed}
    (h : ∀ hw hf : Int → BitVec z, mixed hw hf m = mixed hw hf n) : m = n := by
  obtain ⟨z, rfl⟩ : ∃ k, z = k + 3 := ⟨z - 3, by omega⟩
  have h1 : m.whole = n.whole := by
    have := h (fun y => if y = m.whole then 1 else 0) fun _ => 0
    by_contra hne
    rw [mixed, mixed, if_pos rfl, if_neg (fun e => hne e.symm)] at this
    have := congrArg (·.getLsbD 0) this
    simp [fraction, combine] at this
  have key : ∀ x : Int, (m.frac.num = x ↔ n.frac.num = x) ∧ (m.frac.den = x ↔ n.frac.den = x) :=
    fun x => indicator (.inr rfl) (by
      have := h (fun _ => 0) fun y => if y = x then 1 else 0
      simp only [mixed, fraction, combine] at this
      exact (BitVec.zero_xor).symm.trans (this.trans BitVec.zero_xor))
  have h2 := (key m.frac.num).1.1 rfl
  have h3 := (key m.frac.den).2.1 rfl
  obtain ⟨a, ⟨b, c⟩⟩ := m
  obtain ⟨a', ⟨b', c'⟩⟩ := n
  simp_all

end Ieme.Hash
