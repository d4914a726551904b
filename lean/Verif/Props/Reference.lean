import Verif.Lemmas.Reference
import Mathlib.Tactic.FieldSimp

/-!
# Compound assignment of an object to itself or its parts: property C115
-/

namespace Ieme

open Res IntTy

variable {T : IntTy} {o : Ops} {op : ArithOp} {σ σ' : Store} {l r : Ref} {a : ℕ} {x y : ℚ}

/-- **C115** Whatever places the two operands occupy, be they the same object, `left op= right`
leaves in `left` the exact result for the values both had before, and changes nothing else. -/
theorem C115_fraction (hd : l.num ≠ l.den) (hx : Denotes (σ.load l) x) (hy : Denotes (σ.load r) y)
    (h : σ.compoundF T o op l r ⇓ σ') :
    op.Exact x y (σ'.load l) ∧ ∀ b, b ≠ l.num → b ≠ l.den → σ' b = σ b :=
  have h' := Store.compoundF_clean hd h
  ⟨Ops.arith_exact (a := .ff _ _) ⟨hx, hy⟩ h'.1, h'.2⟩

/-- **C115** The same for an integer operand anywhere in memory, be it a part of `left`. -/
theorem C115_integer (hd : l.num ≠ l.den) (hx : Denotes (σ.load l) x)
    (h : σ.compoundR T o op l a ⇓ σ') :
    op.Exact x (σ a) (σ'.load l) ∧ ∀ b, b ≠ l.num → b ≠ l.den → σ' b = σ b :=
  have h' := Store.compoundR_clean hd h
  ⟨Ops.arith_exact (a := .fr _ _) ⟨hx, rfl⟩ h'.1, h'.2⟩

/-- **C115** `f += f` doubles, `f -= f` gives zero, `f *= f` squares, and unless `f` is zero
`f /= f` gives one and `f %= f` zero. -/
theorem C115_self (hd : l.num ≠ l.den) (hx : Denotes (σ.load l) x)
    (h : σ.compoundF T o op l l ⇓ σ') :
    match op with
    | .plus => Denotes (σ'.load l) (2 * x)
    | .minus => Denotes (σ'.load l) 0
    | .multiplies => Denotes (σ'.load l) (x ^ 2)
    | .divides => (x ≠ 0 → Denotes (σ'.load l) 1) ∧ (x = 0 → (σ'.load l).den = 0)
    | .modulus => x ≠ 0 ∧ Denotes (σ'.load l) 0 := by
  have h1 := (C115_fraction hd hx hx h).1
  cases op with
  | plus => rw [two_mul]; exact h1
  | minus => rw [← sub_self x]; exact h1
  | multiplies => rw [sq]; exact h1
  | divides =>
    refine ⟨fun h0 => ?_, h1.2⟩
    have := h1.1 h0
    rwa [div_self h0] at this
  | modulus =>
    obtain ⟨h0, h2⟩ := h1
    refine ⟨h0, ?_⟩
    rw [div_self h0] at h2
    have : ratTrunc 1 = 1 := by decide +kernel
    rw [this] at h2
    simpa using h2

/-- **C115** `f *= f.den()` leaves the numerator that `f` had, and `f /= f.num()`, unless that is
zero, the reciprocal of its denominator. -/
theorem C115_parts (hd : l.num ≠ l.den) (h0 : σ l.den ≠ 0) :
    (σ.compoundR T o .multiplies l l.den ⇓ σ' → Denotes (σ'.load l) (σ l.num)) ∧
    (σ l.num ≠ 0 → σ.compoundR T o .divides l l.num ⇓ σ' →
      Denotes (σ'.load l) (1 / (σ l.den : ℚ))) := by
  have hx : Denotes (σ.load l) ((σ l.num : ℚ) / (σ l.den : ℚ)) := ⟨h0, rfl⟩
  have hq : (σ l.den : ℚ) ≠ 0 := by exact_mod_cast h0
  refine ⟨fun h => ?_, fun hn h => ?_⟩
  · have := (C115_integer hd hx h).1
    simp only [ArithOp.Exact] at this
    rwa [div_mul_cancel₀ _ hq] at this
  · have hn' : (σ l.num : ℚ) ≠ 0 := by exact_mod_cast hn
    have := (C115_integer hd hx h).1.1 hn'
    rwa [div_div, mul_comm, ← div_div, div_self hn'] at this

/-- **C115** Two assignments in a row, `(a op= b) op2= a` included: the second sees what the first
left. -/
theorem C115_chain {op2 : ArithOp} {c : Ref} {σ'' : Store} {z w : ℚ} (hd : l.num ≠ l.den)
    (h1 : σ.compoundF T o op l r ⇓ σ') (h2 : σ'.compoundF T o op2 l c ⇓ σ'')
    (hx : Denotes (σ.load l) x) (hy : Denotes (σ.load r) y) (hz : op.value x y = some z)
    (hw : c = l ∧ w = z ∨ (c.num ≠ l.num ∧ c.num ≠ l.den ∧ c.den ≠ l.num ∧ c.den ≠ l.den) ∧
      Denotes (σ.load c) w) :
    op2.Exact z w (σ''.load l) := by
  obtain ⟨e1, f1⟩ := C115_fraction hd hx hy h1
  have hl : Denotes (σ'.load l) z := by
    cases op with
    | plus => cases hz; exact e1
    | minus => cases hz; exact e1
    | multiplies => cases hz; exact e1
    | divides =>
      simp only [ArithOp.value] at hz
      split at hz
      · cases hz
      · rename_i h0; cases hz; exact e1.1 h0
    | modulus =>
      simp only [ArithOp.value] at hz
      split at hz
      · cases hz
      · cases hz; exact e1.2
  refine (C115_fraction hd hl ?_ h2).1
  rcases hw with ⟨rfl, rfl⟩ | ⟨⟨d1, d2, d3, d4⟩, hw⟩
  · exact hl
  · have : σ'.load c = σ.load c := by simp only [Store.load, f1 _ d1 d2, f1 _ d3 d4]
    rw [this]; exact hw

/-- A store with the fraction `-6/4` in the places 0 and 1, and 7 elsewhere. -/
def exampleStore : Store := fun b => if b = 0 then -6 else if b = 1 then 4 else 7

/-- `f -= f`, `f /= f`, `f *= f`, `f *= f.den()` and `f /= f.num()`. -/
example : (⟨0, 1⟩ : Ref).num ≠ (⟨0, 1⟩ : Ref).den ∧ exampleStore.load ⟨0, 1⟩ = ⟨-6, 4⟩ ∧
    (exampleStore.compoundF i32 .defaults .minus ⟨0, 1⟩ ⟨0, 1⟩).bind
      (fun σ => pure (σ.load ⟨0, 1⟩)) ⇓ ⟨0, 1⟩ ∧
    (exampleStore.compoundF i32 .fast .divides ⟨0, 1⟩ ⟨0, 1⟩).bind
      (fun σ => pure (σ.load ⟨0, 1⟩)) ⇓ ⟨-24, -24⟩ ∧
    (exampleStore.compoundF i32 .defaults .multiplies ⟨0, 1⟩ ⟨0, 1⟩).bind
      (fun σ => pure (σ.load ⟨0, 1⟩)) ⇓ ⟨9, 4⟩ ∧
    (exampleStore.compoundR i32 .defaults .multiplies ⟨0, 1⟩ 1).bind
      (fun σ => pure (σ.load ⟨0, 1⟩)) ⇓ ⟨-6, 1⟩ ∧
    (exampleStore.compoundR i32 .defaults .divides ⟨0, 1⟩ 0).bind
      (fun σ => pure (σ.load ⟨0, 1⟩)) ⇓ ⟨1, 4⟩ := by decide +kernel

end Ieme
