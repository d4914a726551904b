import Verif.Lemmas.LimitsTraits
import Verif.Model.LimitsTraits
import Verif.Props.Limits
import Mathlib.Tactic.NormNum.GCD

/-!
# C119: the constants of `std::numeric_limits`
-/

namespace Ieme

open Res IntTy Limits

variable {T : IntTy} {x y z : ℤ} {a : Args} {op : ArithOp} {o : Ops}

/-- **C119** `is_signed` says whether there are negative fractions. -/
theorem C119_is_signed : (traits T).isSigned = true ↔ ∃ q < 0, Holds T q := by
  have h1 := T.max_ge
  constructor
  · intro h
    have hm : T.min = -T.max - 1 := by
      have h : T.signed = true := h
      unfold IntTy.min IntTy.max; simp [h]
    exact ⟨-1, by norm_num, ⟨-1, 1⟩, ⟨⟨by simp only; omega, by simp only; omega⟩,
      by simp only; omega, by simp only; omega⟩, by norm_num [Denotes]⟩
  · rintro ⟨q, hq, f, hf, hd⟩
    by_contra hs
    have hs : T.signed = false := by simpa [traits] using hs
    have := (C66_unsigned_bounds hs hf hd).1
    rw [show T.min = 0 by simp [IntTy.min, hs]] at this
    push_cast at this
    linarith

/-- **C119** `is_integer` is false, and rightly: one half is a value. -/
theorem C119_is_integer : (traits T).isInteger = false ∧ Holds T (1 / 2) := by
  have h1 := T.max_ge
  have h2 := T.min_le_zero
  exact ⟨rfl, ⟨1, 2⟩, ⟨⟨by simp only; omega, by simp only; omega⟩, by simp only; omega,
    by simp only; omega⟩, by norm_num [Denotes]⟩

/-- **C119** The greatest value has `digits` binary digits, all ones. -/
theorem C119_max : T.max = ((traits T).radix : ℤ) ^ (traits T).digits - 1 := by
  show T.max = ((2 : ℕ) : ℤ) ^ repDigits T - 1
  unfold IntTy.max repDigits
  split <;> push_cast <;> rfl

/-- **C119** `digits`: every integer of so many binary digits is a value, with either sign if the
type is signed; with one more digit that is false. -/
theorem C119_digits (T : IntTy) :
    (∀ n : ℕ, n < (traits T).radix ^ (traits T).digits →
      Holds T n ∧ ((traits T).isSigned = true → Holds T (-n))) ∧
    ∃ n : ℕ, n < (traits T).radix ^ ((traits T).digits + 1) ∧ ¬ Holds T n := by
  have h1 := T.max_ge
  have h2 := T.min_le_zero
  have hM := C119_max (T := T)
  have hp : ((traits T).radix ^ (traits T).digits : ℕ) = T.max + 1 := by rw [hM]; push_cast; ring
  refine ⟨fun n hn => ?_, ?_⟩
  · have hn' : (n : ℤ) ≤ T.max := by omega
    refine ⟨⟨⟨n, 1⟩, ⟨⟨by simp only; omega, hn'⟩, by simp only; omega, by simp only; omega⟩,
      by simp [Denotes]⟩, fun hs => ?_⟩
    have hm : T.min = -T.max - 1 := by
      have hs : T.signed = true := hs
      unfold IntTy.min IntTy.max; simp [hs]
    exact ⟨⟨-n, 1⟩, ⟨⟨by simp only; omega, by simp only; omega⟩, by simp only; omega,
      by simp only; omega⟩, by simp [Denotes]⟩
  · refine ⟨(traits T).radix ^ ((traits T).digits + 1) - 1, ?_, ?_⟩
    · have : 0 < (traits T).radix ^ ((traits T).digits + 1) := by
        show 0 < 2 ^ _
        positivity
      omega
    · rintro ⟨f, hf, hd⟩
      obtain ⟨n, d, hd0, hx, -, -, hn, -, -⟩ := limit_parts hf hd
      have e : (((traits T).radix ^ ((traits T).digits + 1) - 1 : ℕ) : ℤ) = 2 * T.max + 1 := by
        have : 0 < (traits T).radix ^ (traits T).digits := by omega
        have h3 : (traits T).radix ^ ((traits T).digits + 1) =
            2 * (traits T).radix ^ (traits T).digits := by
          rw [pow_succ, mul_comm]; rfl
        omega
      have hd' : (0 : ℚ) < d := by exact_mod_cast hd0
      rw [eq_div_iff hd'.ne'] at hx
      have hx' : (((traits T).radix ^ ((traits T).digits + 1) - 1 : ℕ) : ℤ) * d = n := by
        exact_mod_cast hx
      rw [e] at hx'
      nlinarith

/-- **C119** `digits10`: every decimal number of so many digits is a value, wherever its point is;
with one more digit that is false. -/
theorem C119_digits10 (T : IntTy) :
    (∀ m k : ℕ, m < 10 ^ (traits T).digits10 → k ≤ (traits T).digits10 →
      Holds T (m / 10 ^ k)) ∧
    ∃ m : ℕ, m < 10 ^ ((traits T).digits10 + 1) ∧ ¬ Holds T m := by
  have h1 := T.max_ge
  have h2 := T.min_le_zero
  have hM := C119_max (T := T)
  have hM : T.max = ((2 ^ repDigits T : ℕ) : ℤ) - 1 := by rw [hM]; push_cast; rfl
  have hlo : 10 ^ repDigits10 T ≤ 2 ^ repDigits T :=
    Nat.pow_log_le_self 10 (by positivity)
  have hhi : 2 ^ repDigits T < 10 ^ (repDigits10 T + 1) := Nat.lt_pow_succ_log_self (by norm_num) _
  have hpos : 0 < repDigits T := by
    by_contra h
    have : repDigits T = 0 := by omega
    rw [this] at hM
    norm_num at hM
    omega
  have hne : ∀ k, 10 ^ k ≠ 2 ^ repDigits T := by
    intro k h
    rcases Nat.eq_zero_or_pos k with rfl | hk
    · have : (2 : ℕ) ^ repDigits T = 2 ^ 0 := by rw [← h]; rfl
      have := Nat.pow_right_injective le_rfl this
      omega
    · have h5 : 5 ∣ 2 ^ repDigits T := by
        rw [← h]
        exact dvd_pow (by norm_num) hk.ne'
      have hc : Nat.Coprime 5 (2 ^ repDigits T) := Nat.Coprime.pow_right _ (by decide)
      have := hc.eq_one_of_dvd h5
      omega
  refine ⟨fun m k hm hk => ?_, 10 ^ (repDigits10 T + 1) - 1, by
    show _ < 10 ^ (repDigits10 T + 1)
    omega, ?_⟩
  · have hm : m < 10 ^ repDigits10 T := hm
    have hk : k ≤ repDigits10 T := hk
    have hk' : 10 ^ k ≤ 10 ^ repDigits10 T := Nat.pow_le_pow_right (by norm_num) hk
    have hk2 := hne k
    have hk0 : 0 < 10 ^ k := by positivity
    refine ⟨⟨m, (10 ^ k : ℕ)⟩, ⟨⟨by simp only; omega, by simp only; omega⟩, by simp only; omega,
      by simp only; omega⟩, by simp only; omega, ?_⟩
    push_cast
    rfl
  · rintro ⟨f, hf, hd⟩
    obtain ⟨n, d, hd0, hx, -, -, hn, -, -⟩ := limit_parts hf hd
    have hd' : (0 : ℚ) < d := by exact_mod_cast hd0
    rw [eq_div_iff hd'.ne'] at hx
    have hx' : ((10 ^ (repDigits10 T + 1) - 1 : ℕ) : ℤ) * d = n := by exact_mod_cast hx
    have hge : (2 ^ repDigits T : ℕ) < 10 ^ (repDigits10 T + 1) - 1 := by
      have e1 : (10 : ℕ) ^ (repDigits10 T + 1) = 2 * (5 * 10 ^ repDigits10 T) := by
        rw [pow_succ]; ring
      have e2 : (2 : ℕ) ^ repDigits T = 2 * 2 ^ (repDigits T - 1) := by
        rw [← pow_succ', Nat.sub_add_cancel (by omega)]
      omega
    have hge' : T.max + 1 < ((10 ^ (repDigits10 T + 1) - 1 : ℕ) : ℤ) := by
      rw [hM]
      have : ((2 ^ repDigits T : ℕ) : ℤ) < ((10 ^ (repDigits10 T + 1) - 1 : ℕ) : ℤ) := by
        exact_mod_cast hge
      omega
    nlinarith

/-- The values for the usual types. -/
example : (traits i32).digits = 31 ∧ (traits i32).digits10 = 9 ∧ (traits u32).digits = 32 ∧
    (traits u32).digits10 = 9 ∧ (traits i64).digits10 = 18 ∧ (traits u64).digits10 = 19 := by
  have key : ∀ m n : ℕ, 10 ^ m ≤ 2 ^ n → 2 ^ n < 10 ^ (m + 1) → 0 < m → Nat.log 10 (2 ^ n) = m :=
    fun m n h1 h2 h3 => (Nat.log_eq_iff (.inl h3.ne')).2 ⟨h1, h2⟩
  exact ⟨rfl, key 9 31 (by norm_num) (by norm_num) (by norm_num), rfl,
    key 9 32 (by norm_num) (by norm_num) (by norm_num),
    key 18 63 (by norm_num) (by norm_num) (by norm_num),
    key 19 64 (by norm_num) (by norm_num) (by norm_num)⟩

/-! ## Overflow -/

/-- **C119, partial.**  Full claim: where `is_modulo` is true, sums, differences and products
outside the range differ from the true value by a multiple of `max() - min() + 1`.  Proved, under
every policy and with every overload, for whole numbers; it is false for others, see
`C119_not_modulo`. -/
theorem C119_modulo_whole_partial (hm : (traits T).isModulo = true) (h : a.Whole x y)
    (hz : op.Ring x y z) (hx : T.InRange x) (hy : T.InRange y) :
    ∃ (n k : ℤ) (w : Bool), o.arith T op a = .ok ⟨n, 1⟩ w ∧ n = z + k * (T.max - T.min + 1) ∧
      T.InRange n := by
  have hs : T.signed = false := by simpa [traits] using hm
  obtain ⟨w, hw⟩ := whole_wraps (o := o) hs h hz hx hy
  refine ⟨T.wrap z, -(z / 2 ^ T.bits), w, hw, ?_, T.wrap_inRange z⟩
  have h2 : T.min = 0 := by simp [IntTy.min, hs]
  have h3 : T.max = (2 : ℤ) ^ T.bits - 1 := by simp [IntTy.max, hs]
  have := Int.emod_def z (2 ^ T.bits)
  rw [h2, h3, IntTy.wrap, if_neg (by simp [hs])]
  push_cast
  rw [this]
  ring

example : (traits u32).isModulo = true ∧ (Args.fr ⟨4294967295, 1⟩ 2).Whole 4294967295 2 ∧
    ArithOp.Ring .plus 4294967295 2 4294967297 ∧ u32.InRange 4294967295 ∧
    Ops.defaults.arith u32 .plus (.fr ⟨4294967295, 1⟩ 2) = .ok ⟨1, 1⟩ true :=
  ⟨rfl, ⟨rfl, rfl⟩, rfl, by decide, by decide⟩

/-- **C119** Where `is_modulo` is false, such results do not exist: whole numbers overflow, under
every policy. -/
theorem C119_signed_overflow (hm : (traits T).isModulo = false) (h : a.Whole x y)
    (hz : op.Ring x y z) (hx : T.min < x ∧ x ≤ T.max) (hy : T.min < y ∧ y ≤ T.max)
    (hr : ¬ T.InRange z) : o.arith T op a = .fault .overflow := by
  have hs : T.signed = true := by simpa [traits] using hm
  have hmin : T.min = -T.max - 1 := by unfold IntTy.min IntTy.max; simp [hs]
  refine whole_overflows hs h hz ⟨by omega, by omega⟩ ⟨by omega, by omega⟩ ⟨by omega, by omega⟩
    ⟨by omega, by omega⟩ hr

example : (traits i32).isModulo = false ∧ (Args.ff ⟨2147483647, 1⟩ ⟨2, 1⟩).Whole 2147483647 2 ∧
    ArithOp.Ring .multiplies 2147483647 2 4294967294 ∧ ¬ i32.InRange 4294967294 ∧
    Ops.defaults.arith i32 .multiplies (.ff ⟨2147483647, 1⟩ ⟨2, 1⟩) = .fault .overflow :=
  ⟨rfl, ⟨rfl, rfl⟩, rfl, by decide, by decide⟩

/-- **C119, refuted for `is_modulo`.**  For every unsigned type and under every policy one half less
one is a value that differs from the true one by no multiple of `max() - min() + 1`. -/
theorem C119_not_modulo (hm : (traits T).isModulo = true) :
    ∃ r w v, o.arith T .minus (.ff ⟨1, 2⟩ ⟨1, 1⟩) = .ok r w ∧ Denotes r v ∧
      ¬ ∃ k : ℤ, v = (1 / 2 - 1) + k * (T.max - T.min + 1) := by
  have hs : T.signed = false := by simpa [traits] using hm
  have h2 : T.min = 0 := by simp [IntTy.min, hs]
  have h1 := T.max_ge
  obtain ⟨w, hw⟩ := half_less_one (o := o) hs
  refine ⟨_, w, _, hw, ⟨two_ne_zero, rfl⟩, ?_⟩
  rintro ⟨k, hk⟩
  rw [h2] at hk
  have e : (T.max : ℚ) + 1 = 2 * k * (T.max + 1) := by
    push_cast at hk
    linarith
  have e' : T.max + 1 = 2 * k * (T.max + 1) := by exact_mod_cast e
  have : (2 * k - 1) * (T.max + 1) = 0 := by linarith
  rcases mul_eq_zero.1 this with h | h <;> omega

/-! ## NaN -/

/-- **C119, refuted for `has_quiet_NaN` and `traps`.**  Under every policy built on `safe`, the
default among them, sums, differences and remainders with `quiet_NaN()` do not finish, whatever
the other fraction. -/
theorem C119_nan_not_quiet (ho : o.SafeBased) (hop : op = .plus ∨ op = .minus ∨ op = .modulus)
    (f : Raw) : (traits T).hasQuietNaN = true ∧ (traits T).traps = false ∧
      ¬ (o.arith T op (.ff stdQuietNaN f)).Finishes ∧
      ¬ (o.arith T op (.ff f stdQuietNaN)).Finishes := by
  refine ⟨rfl, rfl, ?_⟩
  have key : ∀ l r : Raw, l.den = 0 ∨ r.den = 0 → ¬ (o.arith T op (.ff l r)).Finishes := by
    induction o with
    | safe => exact fun l r hu => Safe.ff_undefined_fault hop hu
    | fast => exact ho.elim
    | reducedInput o mode ih =>
      rintro l r hu ⟨s, w, h⟩
      simp only [Ops.arith, Args.reduce, bind_eq_ok, pure_eq_ok] at h
      obtain ⟨_, _, _, ⟨l', _, _, hl, ⟨r', _, _, hr, ⟨rfl, -⟩, -⟩, -⟩, h, -⟩ := h
      refine ih ho l' r' ?_ ⟨_, _, h⟩
      rcases hu with hu | hu
      · rw [Raw.reduce_undefined mode hu] at hl
        cases hl
        exact .inl rfl
      · rw [Raw.reduce_undefined mode hu] at hr
        cases hr
        exact .inr rfl
    | reducedOutput o mode ih =>
      rintro l r hu ⟨s, w, h⟩
      simp only [Ops.arith, bind_eq_ok] at h
      obtain ⟨_, _, _, h, -, -⟩ := h
      exact ih ho l r hu ⟨_, _, h⟩
  exact ⟨key _ _ (.inl rfl), key _ _ (.inr rfl)⟩

/-- With the default policy the division by zero that traps on most machines. -/
example : Ops.defaults.SafeBased ∧
    Ops.defaults.arith i32 .plus (.ff stdQuietNaN ⟨1, 2⟩) = .fault .divByZero := ⟨trivial, by decide⟩

end Ieme
