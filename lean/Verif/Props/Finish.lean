import Verif.Lemmas.RoundProgress
import Verif.Props.MixedNumber
import Verif.Props.Parse
import Verif.Props.Arith
import Verif.Props.Convert
import Verif.Props.Chrono

/-!
# When the operations finish

The exactness theorems say "whenever it finishes cleanly"; the theorems here say when that is,
for the properties whose own file does not.
-/

namespace Ieme

open Res IntTy

variable {T W F : IntTy} {o : Ops} {f r : Raw} {x y : ℚ} {n d : ℤ} {m l : Mixed} {K : ℕ}

/-- **C12** (part) The exact condition under which `safe` compares two fractions that `fast`
compares without overflow: the least common denominator is representable.  Otherwise it is
undefined behaviour. -/
theorem C12_safe_comparison_finishes_iff {op : CmpOp} {l r : Raw} {b : Bool} (hl : 0 < l.den)
    (hr : 0 < r.den) (il : l.InRange T) (ir : r.InRange T)
    (h : Ops.fast.cmp T op (.ff l r) ⇓ b) :
    ((Ops.safe.cmp T op (.ff l r)).Finishes ↔ (Int.lcm l.den r.den : ℤ) ≤ T.max) ∧
    (T.max < (Int.lcm l.den r.den : ℤ) →
      Ops.safe.cmp T op (.ff l r) = .fault .lcmPrecond) := by
  have hf : T.max < (Int.lcm l.den r.den : ℤ) →
      Ops.safe.cmp T op (.ff l r) = .fault .lcmPrecond := by
    intro hlt
    have e1 : T.lcm l.den r.den = .fault .lcmPrecond := by
      rw [IntTy.lcm, if_neg]; rintro ⟨-, -, -, h3⟩; omega
    have e2 : T.lcm r.den l.den = .fault .lcmPrecond := by
      rw [IntTy.lcm, if_neg]; rintro ⟨-, -, -, h3⟩; rw [Int.lcm_comm] at h3; omega
    have ul : l.isUndefined = false := by simp [Raw.isUndefined, Raw.isDefined, hl.ne']
    have ur : r.isUndefined = false := by simp [Raw.isUndefined, Raw.isDefined, hr.ne']
    cases op <;> simp only [Ops.cmp, Safe.cmp, Safe.equalToFF, Safe.notEqualToFF, Safe.lessFF,
      Safe.lessEqualFF, Safe.greaterFF, Safe.greaterEqualFF, ul, ur, Bool.or_false,
      Bool.false_eq_true, if_false, e1, e2, fault_bind]
  refine ⟨⟨?_, fun h' => ?_⟩, hf⟩
  · rintro ⟨c, w, hc⟩
    by_contra hlt
    rw [hf (by omega)] at hc
    simp at hc
  · exact ⟨b, false, C12_safe_comparison_partial hl hr il ir h' h⟩

example : Ops.fast.cmp i32 .less (.ff ⟨1, 65536⟩ ⟨1, 65537⟩) ⇓ false ∧
    Ops.safe.cmp i32 .less (.ff ⟨1, 65536⟩ ⟨1, 65537⟩) = .fault .lcmPrecond ∧
    Ops.safe.cmp i32 .less (.ff ⟨1, 65536⟩ ⟨1, 65532⟩) ⇓ true :=
  ⟨by decide, by decide, by decide⟩

/-- **C21** `reduce` of a defined fraction finishes exactly when both absolute values are
representable: always for an unsigned type, and unless a part is the minimum for a signed one. -/
theorem C21_reduce_finishes_iff (mode : ReduceMode) (hf : f.InRange T) (h0 : f.den ≠ 0) :
    ((f.reduce T mode).Finishes ↔ T.signed = true → f.num ≠ T.min ∧ f.den ≠ T.min) := by
  constructor
  · rintro ⟨r, w, hr⟩ hs
    have : w = false := C22_reduce_never_wraps hf hr
    subst this
    have hign : ∃ s v, f.reduceIgnoreSigns T = .ok s v := by
      cases mode with
      | ignoreSigns => exact ⟨r, false, hr⟩
      | normalizeSigns =>
        simp only [Raw.reduce, Raw.reduceNormalizeSigns, bind_eq_clean] at hr
        obtain ⟨s, hs, -⟩ := hr
        exact ⟨s, false, hs⟩
    obtain ⟨s, v, hsv⟩ := hign
    obtain ⟨h1, h2, -⟩ := (Raw.reduceIgnoreSigns_eq_ok h0).1 hsv
    exact ⟨(natAbs_inRange_iff hf.1).1 h1 hs, (natAbs_inRange_iff hf.2).1 h2 hs⟩
  · intro h
    obtain ⟨r, hr, -⟩ := Raw.reduce_progress mode hf ((natAbs_inRange_iff hf.1).2 fun hs => (h hs).1)
      ((natAbs_inRange_iff hf.2).2 fun hs => (h hs).2)
    exact ⟨r, false, hr⟩

/-- **C21** Reducing an undefined fraction always finishes, with `0/0`. -/
theorem C21_reduce_undefined (mode : ReduceMode) (h0 : f.den = 0) :
    f.reduce T mode ⇓ ⟨0, 0⟩ := Raw.reduce_undefined mode h0

example : (⟨-6, -4⟩ : Raw).InRange i32 ∧ (⟨-6, -4⟩ : Raw).reduce i32 .normalizeSigns ⇓ ⟨3, 2⟩ ∧
    (⟨-2147483648, 2⟩ : Raw).reduce i32 .ignoreSigns = .fault .gcdPrecond ∧
    (⟨5, 0⟩ : Raw).reduce i32 .normalizeSigns ⇓ ⟨0, 0⟩ :=
  ⟨by decide, by decide, by decide, by decide⟩

/-- **C23** Both queries finish on every fraction of an unsigned type, and on every fraction of
a signed type none of whose parts is the minimum; on an undefined one the answer is no. -/
theorem C23_finishes (hf : f.InRange T)
    (h : T.signed = true → f.num ≠ T.min ∧ f.den ≠ T.min) :
    (∃ b, f.isReducedIgnoreSigns T ⇓ b) ∧ (∃ b, f.isReduced T ⇓ b) ∧
    (f.den = 0 → f.isReducedIgnoreSigns T ⇓ false ∧ f.isReduced T ⇓ false) := by
  have h1 : ∃ b, f.isReducedIgnoreSigns T ⇓ b := by
    unfold Raw.isReducedIgnoreSigns
    split
    · exact ⟨_, by rw [gcd_eq_ok.2 ⟨(natAbs_inRange_iff hf.1).2 fun hs => (h hs).1,
        (natAbs_inRange_iff hf.2).2 fun hs => (h hs).2, rfl, rfl⟩, ok_bind_false]; rfl⟩
    · exact ⟨_, rfl⟩
  have h3 : f.den = 0 → f.isReducedIgnoreSigns T ⇓ false := fun h0 => by
    rw [Raw.isReducedIgnoreSigns, if_neg (by simp [Raw.isDefined, h0])]; rfl
  refine ⟨h1, ?_, fun h0 => ⟨h3 h0, ?_⟩⟩ <;> unfold Raw.isReduced <;> split
  · exact h1
  · exact ⟨_, rfl⟩
  · exact h3 h0
  · rfl

example : (⟨3, -4⟩ : Raw).InRange i32 ∧ (⟨-3, 4⟩ : Raw).isReduced i32 ⇓ true ∧
    (⟨6, 4⟩ : Raw).isReducedIgnoreSigns u32 ⇓ false ∧
    (⟨-2147483648, 3⟩ : Raw).isReduced i32 = .fault .gcdPrecond :=
  ⟨by decide, by decide, by decide, by decide⟩

/-- **C27** `abs` finishes for every fraction of an unsigned type and for every fraction of a signed
type none of whose parts is the minimum. -/
theorem C27_abs_finishes (hf : f.InRange T)
    (h : T.signed = true → f.num ≠ T.min ∧ f.den ≠ T.min) (h0 : f.den ≠ 0) :
    ∃ r, Fraction.abs T o f ⇓ r := by
  unfold Fraction.abs
  split
  · exact ⟨_, rfl⟩
  · rename_i hn
    cases hs : T.signed
    · exfalso
      apply hn
      rw [(C24_sign_queries_exact f).2.1]
      have h1 := hf.1.nonneg hs
      have h2 := hf.2.nonneg hs
      exact ⟨_, denotes_self h0, div_nonneg (by exact_mod_cast h1) (by exact_mod_cast h2)⟩
    · obtain ⟨h1, h2⟩ := h hs
      have hmin := min_signed hs
      obtain ⟨⟨a1, a2⟩, ⟨b1, b2⟩⟩ := hf
      obtain ⟨r, hr, -⟩ := Ops.negate_progress (o := o) (v := f) (B := T.max.toNat) hs
        ⟨⟨by omega, by simp [hs]⟩, ⟨by omega, by simp [hs]⟩⟩ (by omega)
      exact ⟨r, hr⟩

example : (⟨-3, 4⟩ : Raw).InRange i32 ∧ Fraction.abs i32 .defaults ⟨-3, 4⟩ ⇓ ⟨3, 4⟩ ∧
    Fraction.abs u32 .fast ⟨3, 4⟩ ⇓ ⟨3, 4⟩ ∧
    Fraction.abs i32 .fast ⟨-2147483648, 1⟩ = .fault .overflow :=
  ⟨by decide, by decide, by decide, by decide⟩

/-- **C32** `round` finishes under every policy for a signed type when twice each part is
representable. -/
theorem C32_round_finishes (hs : T.signed = true) (hK : 2 * (K : ℤ) ≤ T.max) (hf : f.AbsLe K)
    (hx : f.den ≠ 0) : ∃ n, Fraction.round T o f ⇓ n :=
  Fraction.round_progress hs (by push_cast; exact hK) hf (denotes_self hx)

example : (⟨-7, 4⟩ : Raw).AbsLe 7 ∧ Fraction.round i32 .defaults ⟨-7, 4⟩ ⇓ -2 ∧
    Fraction.round i32 .defaults ⟨1, 2147483647⟩ = .fault .lcmPrecond :=
  ⟨by simp [Raw.AbsLe], by decide, by decide⟩

/-- **C34** Every redenomination finishes under every policy for a signed type when the
numerator times the new denominator, and twice that if rounding, is representable. -/
theorem C34_redenominate_finishes (hs : T.signed = true) (hK : 2 * (K : ℤ) ≤ T.max)
    (hf : f.AbsLe K) (hx : f.den ≠ 0) (hd : d ≠ 0) (h1 : f.num.natAbs * d.natAbs ≤ K)
    (hdK : d.natAbs ≤ K) (mode : RoundMode) : ∃ r, Fraction.redenominate T o f d mode ⇓ r := by
  have hKm : (K : ℤ) ≤ T.max := by omega
  have hmin := min_signed hs
  have mulp : ∀ e : ℤ, e.natAbs = d.natAbs → ∃ p, Fraction.arith T T o .multiplies (.fr f e) ⇓ p ∧
      p.AbsLe K ∧ p.den ≠ 0 ∧ p.InRange T ∧ ¬ (p.num = T.min ∧ p.den = -1) := by
    intro e he
    obtain ⟨p, hp, hk⟩ := Ops.mul_whole_progress (o := o) (d := e) hs hKm hf (by rw [he]; exact h1)
    rw [← Fraction.arith_self] at hp
    exact ⟨p, hp, hk, (redenominate_product (denotes_self hx) hp).1,
      ⟨inRange_of_abs hs hKm hk.1, inRange_of_abs hs hKm hk.2⟩,
      by rintro ⟨h2, -⟩; have := hk.1; omega⟩
  have negd : T.neg d ⇓ -d := neg_of_inRange (inRange_of_abs hs hKm (by omega))
  have hK1 : 1 ≤ K := by omega
  have bound : ∀ {p : Raw} {k : ℤ}, p.AbsLe K → p.den ≠ 0 →
      (Fraction.ceil T p ⇓ k ∨ Fraction.floor T p ⇓ k) → T.neg k ⇓ -k := by
    intro p k hk h0 h
    have hv := denotes_self h0
    set q := (p.num : ℚ) / p.den
    have hq : |(k : ℚ)| ≤ |q| + 1 := by
      rcases h with h | h
      · have hk' := Fraction.ceil_val hv h
        split at hk'
        · rw [hk']; simp
        · have h2 := Int.le_ceil q
          have h3 := Int.ceil_lt_add_one q
          rw [← hk'] at h2 h3
          have h4 : |(k : ℚ) - q| ≤ 1 := by rw [abs_le]; constructor <;> linarith
          have := abs_sub_abs_le_abs_sub (k : ℚ) q
          linarith
      · have h4 := floor_near hv h
        rw [abs_sub_comm] at h4
        have := abs_sub_abs_le_abs_sub (k : ℚ) q
        linarith
    have h5 : |q| ≤ K := by
      have e := absLe_num hv
      have e1 : (1 : ℚ) ≤ p.den.natAbs := by
        have : 1 ≤ p.den.natAbs := by omega
        exact_mod_cast this
      have e2 : ((p.num.natAbs : ℕ) : ℚ) ≤ K := by exact_mod_cast hk.1
      have e3 : |q| * 1 ≤ |q| * p.den.natAbs := mul_le_mul_of_nonneg_left e1 (abs_nonneg _)
      linarith
    have h6 : ((k.natAbs : ℕ) : ℚ) ≤ ((K + 1 : ℕ) : ℚ) := by
      rw [Nat.cast_natAbs, Int.cast_abs]; push_cast; linarith
    have h7 : k.natAbs ≤ K + 1 := by exact_mod_cast h6
    exact neg_of_inRange (inRange_of_abs hs (K := 2 * K) (by push_cast; exact hK) (by omega))
  have rnd : ∃ r, Fraction.roundRedenominate T o f d ⇓ r := by
    obtain ⟨p, hp, hk, h0, hin, hm⟩ := mulp d rfl
    obtain ⟨k, hk⟩ := C32_round_finishes (o := o) hs hK hk h0
    exact ⟨_, by simp only [Fraction.roundRedenominate, hp, hk, ok_bind_false]; rfl⟩
  cases mode
  · obtain ⟨p, hp, hk, h0, hin, hm⟩ := mulp d rfl
    obtain ⟨⟨k, hk⟩, -, -⟩ := C29_whole_parts_finish h0 hin hm
    exact ⟨_, by simp only [Fraction.redenominate, Fraction.truncRedenominate, hp, hk,
      ok_bind_false]; rfl⟩
  · simp only [Fraction.redenominate, Fraction.ceilRedenominate]
    split
    · obtain ⟨p, hp, hk, h0, hin, hm⟩ := mulp d rfl
      obtain ⟨-, -, ⟨k, hk⟩⟩ := C29_whole_parts_finish h0 hin hm
      exact ⟨_, by simp only [hp, hk, ok_bind_false]; rfl⟩
    · obtain ⟨p, hp, hpk, h0, hin, hm⟩ := mulp (-d) (by omega)
      obtain ⟨-, -, ⟨k, hk⟩⟩ := C29_whole_parts_finish h0 hin hm
      exact ⟨_, by simp only [negd, hp, hk, bound hpk h0 (.inl hk), ok_bind_false]; rfl⟩
  · simp only [Fraction.redenominate, Fraction.floorRedenominate]
    split
    · obtain ⟨p, hp, hk, h0, hin, hm⟩ := mulp d rfl
      obtain ⟨-, ⟨k, hk⟩, -⟩ := C29_whole_parts_finish h0 hin hm
      exact ⟨_, by simp only [hp, hk, ok_bind_false]; rfl⟩
    · obtain ⟨p, hp, hpk, h0, hin, hm⟩ := mulp (-d) (by omega)
      obtain ⟨-, ⟨k, hk⟩, -⟩ := C29_whole_parts_finish h0 hin hm
      exact ⟨_, by simp only [negd, hp, hk, bound hpk h0 (.inr hk), ok_bind_false]; rfl⟩
  · exact rnd
  · exact rnd

example : (⟨-7, 3⟩ : Raw).AbsLe 28 ∧ (-7 : ℤ).natAbs * (-4 : ℤ).natAbs ≤ 28 ∧
    Fraction.redenominate i32 .defaults ⟨-7, 3⟩ (-4) .floor ⇓ ⟨10, -4⟩ ∧
    Fraction.redenominate i32 .defaults ⟨-7, 3⟩ (-4) .ceil ⇓ ⟨9, -4⟩ ∧
    Fraction.redenominate i32 .defaults ⟨-7, 3⟩ (-4) .round ⇓ ⟨9, -4⟩ ∧
    Fraction.redenominate i32 .defaults ⟨-7, 3⟩ (-4) .trunc ⇓ ⟨9, -4⟩ :=
  ⟨by simp [Raw.AbsLe], by decide, by decide, by decide, by decide, by decide⟩

/-- **C41** When construction from `std::ratio<N, D>` is well formed: `D` is not zero, both
absolute values fit `std::intmax_t`, and the parts of the lowest-terms form with positive
denominator fit the representation. -/
theorem C41_ratio_well_formed_iff {N D : ℤ} : (Fraction.ofRatio T N D).Finishes ↔
    D ≠ 0 ∧ N.natAbs < 2 ^ 63 ∧ D.natAbs < 2 ^ 63 ∧
      ∃ r : Raw, Canonical r ∧ Denotes r ((N : ℚ) / D) ∧ r.InRange T := by
  have hin : ∀ n : ℕ, i64.InRange n ↔ n < 2 ^ 63 := by
    intro n
    show (-9223372036854775808 ≤ (n : ℤ) ∧ (n : ℤ) ≤ 9223372036854775807) ↔ _
    omega
  constructor
  · rintro ⟨r, w, h⟩
    obtain ⟨h1, h2, h3, h4, -⟩ := C41_ratio_exact h
    unfold Fraction.ofRatio Fraction.stdRatio at h
    split at h
    · simp at h
    rename_i hnd
    split at hnd
    · rename_i hD
      exact ⟨h1, (hin _).1 hD.2.1, (hin _).1 hD.2.2, r, h3, h2, h4⟩
    · simp at hnd
  · rintro ⟨h1, h2, h3, r, h4, h5, h6⟩
    obtain ⟨a, b, hab⟩ : ∃ a b, Fraction.stdRatio N D = some (a, b) := by
      rw [Fraction.stdRatio, if_pos ⟨h1, (hin _).2 h2, (hin _).2 h3⟩]; exact ⟨_, _, rfl⟩
    have hr : i64.InRange a ∧ i64.InRange b := by
      rw [Fraction.stdRatio, if_pos ⟨h1, (hin _).2 h2, (hin _).2 h3⟩, Option.some.injEq,
        Prod.mk.injEq] at hab
      obtain ⟨rfl, rfl⟩ := hab
      have e1 : (N.sign * D.sign * (N.natAbs / Int.gcd N D : ℕ)).natAbs ≤ N.natAbs := by
        rw [Int.natAbs_mul, Int.natAbs_mul]
        have : N.sign.natAbs ≤ 1 := by rcases Int.sign_trichotomy N with h | h | h <;> simp [h]
        have h' : D.sign.natAbs ≤ 1 := by rcases Int.sign_trichotomy D with h | h | h <;> simp [h]
        calc _ ≤ 1 * 1 * (N.natAbs / Int.gcd N D) := by
              rw [Int.natAbs_natCast]; exact Nat.mul_le_mul_right _ (Nat.mul_le_mul this h')
          _ ≤ N.natAbs := by rw [one_mul, one_mul]; exact Nat.div_le_self _ _
      constructor
      · show (-9223372036854775808 ≤ _ ∧ _ ≤ 9223372036854775807)
        omega
      · rw [hin]; exact (Nat.div_le_self _ _).trans_lt h3
    have h7 : Fraction.ofRatio i64 N D = .ok ⟨a, b⟩ false := by
      simp only [Fraction.ofRatio, hab, if_pos hr]; rfl
    obtain ⟨-, h8, h9, -⟩ := C41_ratio_exact h7
    have : r = ⟨a, b⟩ := Canonical.unique h4 h9 ⟨_, h5, h8⟩
    subst this
    exact ⟨⟨a, b⟩, false, by simp only [Fraction.ofRatio, hab]; rw [if_pos ⟨h6.1, h6.2⟩]; rfl⟩

example : Fraction.ofRatio i32 6 (-4) ⇓ ⟨-3, 2⟩ ∧ Canonical ⟨-3, 2⟩ ∧
    Denotes ⟨-3, 2⟩ (((6 : ℤ) : ℚ) / (-4 : ℤ)) ∧
    Fraction.ofRatio i32 1 4294967296 = .fault .illFormed ∧
    Fraction.ofRatio i32 8589934592 4294967296 ⇓ ⟨2, 1⟩ ∧
    Fraction.ofRatio i32 1 0 = .fault .illFormed :=
  ⟨by decide, ⟨by decide, by decide⟩, by norm_num [Denotes], by decide, by decide, by decide⟩

/-- **C44** Adding two mixed numbers that satisfy the invariant finishes under every policy
when the fractional parts are small and the whole parts add up strictly within range. -/
theorem C44_add_finishes {W₁ F₁ W₂ F₂ : IntTy} {l r : Mixed} {B : ℕ}
    (hW : (IntTy.common W₁ W₂).signed = true) (hF : (IntTy.common F₁ F₂).signed = true)
    (hB : (2 * (B * B) : ℤ) ≤ (IntTy.common F₁ F₂).max) (hl : l.Invariant) (hr : r.Invariant)
    (fl : l.frac.AbsLe B) (fr : r.frac.AbsLe B)
    (wl : (IntTy.common W₁ W₂).InRange l.whole) (wr : (IntTy.common W₁ W₂).InRange r.whole)
    (h1 : (IntTy.common W₁ W₂).min < l.whole + r.whole)
    (h2 : l.whole + r.whole < (IntTy.common W₁ W₂).max) :
    ∃ m, Mixed.add W₁ F₁ W₂ F₂ o l r ⇓ m := by
  obtain ⟨x, hx, hx1, -⟩ := hl
  obtain ⟨y, hy, hy1, -⟩ := hr
  unfold Mixed.add
  generalize IntTy.common W₁ W₂ = W at *
  generalize IntTy.common F₁ F₂ = F at *
  have hBB : (B : ℤ) ≤ F.max := by
    rcases Nat.eq_zero_or_pos B with h | h
    · have := F.max_ge; omega
    · have : (1 : ℤ) * B ≤ B * B := mul_le_mul_of_nonneg_right (by omega) (by omega)
      omega
  obtain ⟨s, hs, fs⟩ := Ops.arith_progress (o := o) (op := .plus) (a := .ff l.frac r.frac)
    (T := F) (x := x) (y := y) (B := B) ⟨hx, hy⟩ ⟨fl.fit hF, fr.fit hF⟩ (by push_cast; exact hB) trivial
  have hv : Denotes s (x + y) := Ops.arith_exact (a := .ff l.frac r.frac) (op := .plus) ⟨hx, hy⟩ hs
  rw [abs_lt] at hx1 hy1
  have ht : -1 ≤ ratTrunc (x + y) ∧ ratTrunc (x + y) ≤ 1 := by
    unfold ratTrunc
    split
    · rename_i h0
      refine ⟨by have := Int.floor_nonneg.2 h0; omega, ?_⟩
      have : ⌊x + y⌋ < 2 := Int.floor_lt.2 (by push_cast; linarith)
      omega
    · rename_i h0
      have h3 : -2 < ⌈x + y⌉ := Int.lt_ceil.2 (by push_cast; linarith)
      have h4 : ⌈x + y⌉ ≤ 0 := Int.ceil_le.2 (by push_cast; linarith)
      omega
  have hWm := min_signed hW
  have hW1 := W.max_ge
  obtain ⟨m, hm, -⟩ := Mixed.mk_progress (o := o) (W := W) (F := F) (K := 2 * (B * B)) hF
    (by push_cast; exact hB) ⟨fs.1.1, fs.2.1⟩ hv (w := l.whole + r.whole) ⟨by omega, by omega⟩
    ⟨by omega, by omega⟩ ⟨by omega, by omega⟩
  have hcv : ∀ {g : Raw}, g.AbsLe B → Fraction.ofOther F g ⇓ g := fun hg => Raw.conv_clean.2
    ⟨⟨inRange_of_abs hF hBB hg.1, inRange_of_abs hF hBB hg.2⟩, rfl⟩
  exact ⟨m, by simp only [conv_clean.2 ⟨wl, rfl⟩, conv_clean.2 ⟨wr, rfl⟩,
    add_of_inRange (T := W) ⟨h1.le, h2.le⟩, hcv fl, hcv fr, Fraction.arith_self, hs, hm,
    ok_bind_false]⟩

/-- **C44** Adding a fraction to a mixed number that satisfies the invariant finishes under
every policy when all parts are small and the whole parts add up strictly within range. -/
theorem C44_add_fraction_finishes {F₁ F₂ : IntTy} {l : Mixed} {B : ℕ}
    (hW : (IntTy.common W F₂).signed = true) (hF : (IntTy.common F₁ F₂).signed = true)
    (hF₂ : F₂.signed = true) (hB₂ : (B : ℤ) ≤ F₂.max)
    (hB : (2 * (B * B) : ℤ) ≤ (IntTy.common F₁ F₂).max) (hl : l.Invariant)
    (fl : l.frac.AbsLe B) (ff : f.AbsLe B) (hx : Denotes f x)
    (wl : (IntTy.common W F₂).InRange l.whole) (wr : (IntTy.common W F₂).InRange (ratTrunc x))
    (h1 : (IntTy.common W F₂).min < l.whole + ratTrunc x)
    (h2 : l.whole + ratTrunc x < (IntTy.common W F₂).max) :
    ∃ m, Mixed.addFraction W F₁ F₂ o l f ⇓ m := by
  have htr : F₂.InRange (ratTrunc x) := div_inRange (Fraction.trunc_progress hF₂ hB₂ ff hx)
  obtain ⟨r, hr, hw, hk, -⟩ :=
    Mixed.ofFraction_progress (W := F₂) (o := o) hF₂ hB₂ ff hx hF₂ hB₂ htr
  have hi : r.Invariant := C43_invariant_partial (e := .ofFraction F₂ F₂ F₂ f) (o := o)
    trivial hr
  rw [← hw] at wr h1 h2
  obtain ⟨m, hm⟩ := C44_add_finishes (o := o) hW hF hB hl hi fl hk wl wr h1 h2
  exact ⟨m, by simp only [Mixed.addFraction, hr, ok_bind_false, hm]⟩

example : (⟨1, ⟨1, 2⟩⟩ : Mixed).Invariant ∧ (⟨1, 2⟩ : Raw).AbsLe 8 ∧ (⟨-8, 3⟩ : Raw).AbsLe 8 ∧
    (IntTy.common i32 i64).signed = true ∧
    Mixed.add i32 i32 i64 i32 .defaults ⟨1, ⟨1, 2⟩⟩ ⟨2, ⟨2, 3⟩⟩ ⇓ ⟨4, ⟨1, 6⟩⟩ ∧
    Mixed.addFraction i32 i32 i32 .defaults ⟨1, ⟨1, 2⟩⟩ ⟨-8, 3⟩ ⇓ ⟨-1, ⟨-1, 6⟩⟩ :=
  ⟨⟨1/2, by norm_num [Denotes], by norm_num, by norm_num⟩, by simp [Raw.AbsLe],
    by simp [Raw.AbsLe], by decide, by decide, by decide⟩

/-- **C56** `_dec` returns, cleanly and with the exact value, for every literal with a radix
point whose digits, scaled by its exponent, fit the 64 bits of `std::intmax_t`. -/
theorem C56_returns {l : FloatLit} (hv : l.Valid) (hp : l.point = true)
    (he : ∀ e ∈ l.exp, (Lit.digits e.digits).length ≤ 9)
    (hfit : l.base ^ ((Lit.digits l.whole).length + (Lit.digits l.frac).length) *
      l.expBase ^ l.expValue.natAbs < 2 ^ 63) :
    ∃ r, Parse.dec l.render ⇓ r ∧ Denotes r l.value := by
  have hb : 2 ≤ l.base := by unfold FloatLit.base; split <;> omega
  have hb' : 1 ≤ l.expBase ^ l.expValue.natAbs :=
    Nat.one_le_pow _ _ (by unfold FloatLit.expBase; split <;> omega)
  have hlen : (Lit.digits l.frac).length < 63 := by
    by_contra hc
    have h1 : 2 ^ 63 ≤ 2 ^ ((Lit.digits l.whole).length + (Lit.digits l.frac).length) :=
      Nat.pow_le_pow_right (by omega) (by omega)
    have h2 := Nat.pow_le_pow_left hb ((Lit.digits l.whole).length + (Lit.digits l.frac).length)
    have h3 := Nat.mul_le_mul (h1.trans h2) hb'
    omega
  obtain ⟨r, hr, hx⟩ := C53_finishes (T := i64) (o := .defaults) rfl hv hp he (by omega)
    (show _ ≤ (9223372036854775807 : ℤ) by omega)
  refine ⟨r, ?_, hx⟩
  rw [Parse.dec, hr, ok_bind_false, if_pos (by simp [Raw.isDefined, hx.1])]
  rfl

-- a literal that meets the hypotheses
example : ∃ l : FloatLit, l.Valid ∧ l.point = true ∧ l.render = "12.50e-1".toList ∧
    l.base ^ ((Lit.digits l.whole).length + (Lit.digits l.frac).length) *
      l.expBase ^ l.expValue.natAbs < 2 ^ 63 ∧
    Parse.dec "12.50e-1".toList ⇓ ⟨5, 4⟩ := by
  refine ⟨⟨none, ['1', '2'], true, ['5', '0'], some ⟨'e', some '-', ['1']⟩⟩, ?_, rfl, by decide,
    by decide, by decide +kernel⟩
  exact {
    hexPrefix := by simp
    whole := .inr (.snoc (s := ['1']) (.digit (by decide)) (by decide))
    frac := .inr (.snoc (s := ['5']) (.digit (by decide)) (by decide))
    some_digit := by simp
    frac_point := by simp
    exp_needed := by simp
    marker := by simp
    sign := by simp
    exp_digits := by simp; exact .digit (by decide) }

end Ieme
