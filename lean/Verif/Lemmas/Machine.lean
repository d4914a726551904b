import Verif.Model.Machine
import Mathlib.Data.Int.GCD
import Mathlib.Algebra.Order.Group.Unbundled.Int
import Mathlib.Tactic.Linarith
import Mathlib.Tactic.Ring
import Mathlib.Tactic.Push

/-!
# Basic facts about the machine model
-/

namespace Ieme

namespace Res

variable {α β : Type}

theorem bind_def (x : Res α) (f : α → Res β) : x >>= f = Res.bind x f := rfl

theorem pure_def (a : α) : (pure a : Res α) = ok a false := rfl

@[simp] theorem pure_eq_ok {a r : α} {w : Bool} : (pure a : Res α) = ok r w ↔ a = r ∧ w = false := by
  simp [pure_def, eq_comm]

@[simp] theorem ok_bind_false (a : α) (f : α → Res β) : (ok a false >>= f) = f a := by
  rw [bind_def, Res.bind]; cases f a <;> simp

@[simp] theorem fault_bind (k : Fault) (f : α → Res β) : (fault k >>= f) = fault k := rfl

theorem bind_eq_ok {x : Res α} {f : α → Res β} {b : β} {w : Bool} :
    (x >>= f) = ok b w ↔ ∃ a w₁ w₂, x = ok a w₁ ∧ f a = ok b w₂ ∧ w = (w₁ || w₂) := by
  rw [bind_def]
  cases x with
  | fault k => simp [Res.bind]
  | ok a w1 =>
    simp only [Res.bind, ok.injEq]
    constructor
    · intro h
      split at h
      · simp at h
      · rename_i b' w' h'
        simp only [ok.injEq] at h
        obtain ⟨rfl, rfl⟩ := h
        exact ⟨a, w1, w', ⟨rfl, rfl⟩, h', rfl⟩
    · rintro ⟨a', w₁, w₂, ⟨rfl, rfl⟩, h2, rfl⟩
      simp [h2]

theorem bind_eq_clean {x : Res α} {f : α → Res β} {b : β} :
    (x >>= f) ⇓ b ↔ ∃ a, x ⇓ a ∧ f a ⇓ b := by
  rw [bind_eq_ok]
  constructor
  · rintro ⟨a, w1, w2, h1, h2, h3⟩
    obtain ⟨rfl, rfl⟩ : w1 = false ∧ w2 = false := by
      revert h3; cases w1 <;> cases w2 <;> decide
    exact ⟨a, h1, h2⟩
  · rintro ⟨a, h1, h2⟩
    exact ⟨a, false, false, h1, h2, rfl⟩

theorem bind_finishes {x : Res α} {f : α → Res β} :
    (x >>= f).Finishes ↔ ∃ a w, x = ok a w ∧ (f a).Finishes := by
  constructor
  · rintro ⟨r, w, h⟩
    obtain ⟨a, w1, w2, h1, h2, -⟩ := bind_eq_ok.1 h
    exact ⟨a, w1, h1, r, w2, h2⟩
  · rintro ⟨a, w, h1, r, w2, h2⟩
    exact ⟨r, w || w2, bind_eq_ok.2 ⟨a, w, w2, h1, h2, rfl⟩⟩

theorem Finishes.of_clean {x : Res α} {r : α} (h : x ⇓ r) : x.Finishes := ⟨r, false, h⟩

/-- The evaluation never finishes with the wrap flag set. -/
def NoWrap (x : Res α) : Prop := ∀ r, x ≠ ok r true

theorem NoWrap.flag {x : Res α} (h : x.NoWrap) {r : α} {w : Bool} (e : x = ok r w) : w = false := by
  cases w
  · rfl
  · exact absurd e (h r)

theorem NoWrap.pure (a : α) : (Pure.pure a : Res α).NoWrap := by
  intro r h; simp [pure_def] at h

theorem NoWrap.bind {x : Res α} {f : α → Res β} (h : x.NoWrap) (h' : ∀ a, (f a).NoWrap) :
    (x >>= f).NoWrap := by
  intro r e
  obtain ⟨a, w1, w2, h1, h2, h3⟩ := bind_eq_ok.1 e
  have := h.flag h1; have := (h' a).flag h2
  subst_vars; simp at h3

instance : LawfulMonad Res := LawfulMonad.mk' _
  (id_map := by
    intro α x; cases x <;> simp [Functor.map, Res.bind])
  (pure_bind := by intro α β a f; exact ok_bind_false a f)
  (bind_assoc := by
    intro α β γ x f g
    cases x with
    | fault k => rfl
    | ok a w =>
      simp only [bind_def, Res.bind]
      cases h : f a with
      | fault k => simp
      | ok b w' =>
        simp only []
        cases h2 : g b with
        | fault k => simp
        | ok c w'' => simp [Bool.or_assoc])

end Res

namespace IntTy

variable {T : IntTy}

theorem bits_pos (T : IntTy) : 0 < T.bits := lt_of_lt_of_le (by decide) T.wide

theorem two_pow_ge (T : IntTy) : (2147483648 : Int) ≤ ((2 ^ (T.bits - 1) : Nat) : Int) := by
  have : 2 ^ 31 ≤ 2 ^ (T.bits - 1) := Nat.pow_le_pow_right (by decide) (by have := T.wide; omega)
  exact_mod_cast this

theorem two_pow_bits (T : IntTy) : (2 ^ T.bits : Nat) = 2 * 2 ^ (T.bits - 1) := by
  have := T.bits_pos
  conv_lhs => rw [show T.bits = (T.bits - 1) + 1 by omega]
  rw [Nat.pow_succ, Nat.mul_comm]

theorem max_ge (T : IntTy) : (2147483647 : Int) ≤ T.max := by
  have := T.two_pow_ge
  have h2 := T.two_pow_bits
  unfold max; split <;> omega

theorem min_le_zero (T : IntTy) : T.min ≤ 0 := by
  have := T.two_pow_ge
  unfold min; split <;> omega

theorem max_pos (T : IntTy) : 0 < T.max := by have := T.max_ge; omega

theorem inRange_of_nonneg_le {x : Int} (h : 0 ≤ x) (h' : x ≤ 2147483647) : T.InRange x := by
  have := T.max_ge; have := T.min_le_zero
  constructor <;> omega

@[simp] theorem inRange_zero : T.InRange 0 := inRange_of_nonneg_le (by decide) (by decide)
@[simp] theorem inRange_one : T.InRange 1 := inRange_of_nonneg_le (by decide) (by decide)
@[simp] theorem inRange_two : T.InRange 2 := inRange_of_nonneg_le (by decide) (by decide)

theorem min_signed (h : T.signed = true) : T.min = -T.max - 1 := by
  simp [min, max, h]

theorem min_unsigned (h : T.signed = false) : T.min = 0 := by
  simp [min, h]

theorem InRange.nonneg {x : Int} (h : T.InRange x) (hs : T.signed = false) : 0 ≤ x := by
  have := h.1; rw [min_unsigned hs] at this; exact this

/-- Shrinking a value towards zero keeps it in range. -/
theorem InRange.shrink {x y : Int} (hx : T.InRange x) (h : (0 ≤ y ∧ y ≤ x) ∨ (x ≤ y ∧ y ≤ 0)) :
    T.InRange y := by
  have := T.max_pos; have := T.min_le_zero
  obtain ⟨h1, h2⟩ := hx
  constructor <;> omega

theorem inRange_natAbs_shrink {x y : Int} (hx : T.InRange x.natAbs) (h : y.natAbs ≤ x.natAbs) :
    T.InRange y.natAbs := by
  have := T.min_le_zero
  obtain ⟨h1, h2⟩ := hx
  constructor <;> omega

/-- If `|x|` is representable and the type is signed, so is everything of no larger magnitude. -/
theorem inRange_of_natAbs_le {x y : Int} (hs : T.signed = true) (hx : T.InRange x.natAbs)
    (h : y.natAbs ≤ x.natAbs) : T.InRange y := by
  have := min_signed hs
  obtain ⟨h1, h2⟩ := hx
  constructor <;> omega

theorem wrap_inRange (x : Int) : T.InRange (T.wrap x) := by
  have h2 := T.two_pow_bits
  have hp := T.two_pow_ge
  unfold wrap InRange min max
  cases hs : T.signed
  · have h1 := Int.emod_nonneg x (b := ((2 ^ T.bits : Nat) : Int)) (by omega)
    have h3 := Int.emod_lt_of_pos x (b := ((2 ^ T.bits : Nat) : Int)) (by omega)
    simp only [Bool.false_eq_true, if_false]
    omega
  · have h1 := Int.le_bmod (x := x) (m := 2 ^ T.bits) (Nat.pow_pos (by decide))
    have h3 := Int.bmod_lt (x := x) (m := 2 ^ T.bits) (Nat.pow_pos (by decide))
    simp only [if_true]
    omega

theorem wrap_of_inRange {x : Int} (h : T.InRange x) : T.wrap x = x := by
  have h2 := T.two_pow_bits
  have hp := T.two_pow_ge
  obtain ⟨h3, h4⟩ := h
  unfold wrap
  unfold min at h3; unfold max at h4
  cases hs : T.signed
  · simp only [hs, Bool.false_eq_true, if_false] at h3 h4 ⊢
    exact Int.emod_eq_of_lt h3 (by omega)
  · simp only [hs, if_true] at h3 h4 ⊢
    exact Int.bmod_eq_of_le (by omega) (by omega)

/-! ### Inversion of the primitive operations -/

theorem arith_eq_ok {x r : Int} {w : Bool} : T.arith x = .ok r w ↔
    (T.InRange x ∧ r = x ∧ w = false) ∨
    (¬T.InRange x ∧ T.signed = false ∧ r = T.wrap x ∧ w = true) := by
  unfold arith
  split
  · rename_i h
    simp only [h, Res.ok.injEq, true_and, not_true_eq_false, false_and, or_false]
    constructor <;> rintro ⟨rfl, rfl⟩ <;> exact ⟨rfl, rfl⟩
  · rename_i h
    cases hs : T.signed
    · simp only [h, Res.ok.injEq, true_and, false_and, false_or, not_false_eq_true,
        Bool.false_eq_true, if_false]
      constructor <;> rintro ⟨rfl, rfl⟩ <;> exact ⟨rfl, rfl⟩
    · simp [h]

theorem arith_clean {x r : Int} : T.arith x ⇓ r ↔ T.InRange x ∧ r = x := by
  simp [arith_eq_ok]

theorem arith_of_inRange {x : Int} (h : T.InRange x) : T.arith x ⇓ x := arith_clean.2 ⟨h, rfl⟩

theorem add_clean {a b r : Int} : T.add a b ⇓ r ↔ T.InRange (a + b) ∧ r = a + b := arith_clean
theorem sub_clean {a b r : Int} : T.sub a b ⇓ r ↔ T.InRange (a - b) ∧ r = a - b := arith_clean
theorem mul_clean {a b r : Int} : T.mul a b ⇓ r ↔ T.InRange (a * b) ∧ r = a * b := arith_clean
theorem neg_clean {a r : Int} : T.neg a ⇓ r ↔ T.InRange (-a) ∧ r = -a := arith_clean

theorem div_eq_ok {a b r : Int} {w : Bool} : T.div a b = .ok r w ↔
    b ≠ 0 ∧ T.InRange (a.tdiv b) ∧ r = a.tdiv b ∧ w = false := by
  unfold div
  split
  · simp [*]
  · split <;> simp_all [eq_comm]

theorem mod_eq_ok {a b r : Int} {w : Bool} : T.mod a b = .ok r w ↔
    b ≠ 0 ∧ T.InRange (a.tdiv b) ∧ r = a.tmod b ∧ w = false := by
  unfold mod
  split
  · simp [*]
  · split <;> simp_all [eq_comm]

theorem div_clean {a b r : Int} : T.div a b ⇓ r ↔ b ≠ 0 ∧ T.InRange (a.tdiv b) ∧ r = a.tdiv b := by
  simp [div_eq_ok]

theorem mod_clean {a b r : Int} : T.mod a b ⇓ r ↔ b ≠ 0 ∧ T.InRange (a.tdiv b) ∧ r = a.tmod b := by
  simp [mod_eq_ok]

theorem gcd_eq_ok {a b r : Int} {w : Bool} : T.gcd a b = .ok r w ↔
    T.InRange a.natAbs ∧ T.InRange b.natAbs ∧ r = Int.gcd a b ∧ w = false := by
  unfold gcd
  split <;> simp_all [eq_comm]

theorem gcd_clean {a b r : Int} : T.gcd a b ⇓ r ↔
    T.InRange a.natAbs ∧ T.InRange b.natAbs ∧ r = Int.gcd a b := by
  simp [gcd_eq_ok]

theorem lcm_eq_ok {a b r : Int} {w : Bool} : T.lcm a b = .ok r w ↔
    T.InRange a.natAbs ∧ T.InRange b.natAbs ∧ T.InRange (Int.lcm a b) ∧ r = Int.lcm a b ∧
      w = false := by
  unfold lcm
  split <;> simp_all [eq_comm]

theorem lcm_clean {a b r : Int} : T.lcm a b ⇓ r ↔
    T.InRange a.natAbs ∧ T.InRange b.natAbs ∧ T.InRange (Int.lcm a b) ∧ r = Int.lcm a b := by
  simp [lcm_eq_ok]

theorem conv_eq_ok {x r : Int} {w : Bool} : T.conv x = .ok r w ↔
    (T.InRange x ∧ r = x ∧ w = false) ∨ (¬T.InRange x ∧ r = T.wrap x ∧ w = true) := by
  unfold conv
  split <;> simp_all [eq_comm]

theorem conv_clean {x r : Int} : T.conv x ⇓ r ↔ T.InRange x ∧ r = x := by
  simp [conv_eq_ok]

theorem arith_inRange {x r : Int} {w : Bool} (h : T.arith x = .ok r w) : T.InRange r := by
  rcases arith_eq_ok.1 h with ⟨h, rfl, -⟩ | ⟨-, -, rfl, -⟩
  · exact h
  · exact wrap_inRange _

theorem arith_noWrap (hs : T.signed = true) (x : Int) : (T.arith x).NoWrap := by
  intro r h
  rcases arith_eq_ok.1 h with ⟨_, _, h⟩ | ⟨_, h, _⟩ <;> simp_all

theorem div_noWrap (a b : Int) : (T.div a b).NoWrap := by
  intro r h; simp [div_eq_ok] at h
theorem mod_noWrap (a b : Int) : (T.mod a b).NoWrap := by
  intro r h; simp [mod_eq_ok] at h
theorem gcd_noWrap (a b : Int) : (T.gcd a b).NoWrap := by
  intro r h; simp [gcd_eq_ok] at h
theorem lcm_noWrap (a b : Int) : (T.lcm a b).NoWrap := by
  intro r h; simp [lcm_eq_ok] at h

end IntTy
end Ieme
