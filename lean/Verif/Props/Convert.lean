import Verif.Lemmas.Fraction
import Verif.Lemmas.Reduce
import Verif.Lemmas.Convert
import Verif.Props.Compare
import Verif.Spec.Assign
import Mathlib.Tactic.LinearCombination

/-!
# Conversions and mixed representations: properties C38–C41
-/

namespace Ieme

open Res IntTy

variable {T L R : IntTy} {o : Ops} {a : Args} {f r : Raw} {x y : ℚ}

/-- **C38** A conversion whose parts fit keeps them. -/
theorem C38_conversion_keeps_parts (h : f.InRange T) : Fraction.ofOther T f ⇓ f :=
  Raw.conv_clean.2 ⟨h, rfl⟩

/-- **C38** In general a conversion never fails, and each part becomes the value of the
target type congruent to it modulo `2^bits`. -/
theorem C38_conversion_modular (f : Raw) : ∃ r w, Fraction.ofOther T f = .ok r w ∧
    r.InRange T ∧ ((2 ^ T.bits : ℕ) : ℤ) ∣ r.num - f.num ∧ ((2 ^ T.bits : ℕ) : ℤ) ∣ r.den - f.den ∧
    (w = true ↔ ¬ f.InRange T) := by
  have key : ∀ x : ℤ, ∃ y w, T.conv x = .ok y w ∧ T.InRange y ∧ ((2 ^ T.bits : ℕ) : ℤ) ∣ y - x ∧
      (w = true ↔ ¬ T.InRange x) := by
    intro x
    by_cases h : T.InRange x
    · exact ⟨x, false, by simp [IntTy.conv, h], h, by simp, by simp [h]⟩
    · refine ⟨T.wrap x, true, by simp [IntTy.conv, h], wrap_inRange x, ?_, by simp [h]⟩
      unfold IntTy.wrap
      split
      · have := Int.dvd_bmod_sub_self (x := x) (m := 2 ^ T.bits)
        exact_mod_cast this
      · exact ⟨-(x / ((2 ^ T.bits : ℕ) : ℤ)), by
          have := Int.emod_add_mul_ediv x ((2 ^ T.bits : ℕ) : ℤ)
          rw [mul_neg]; omega⟩
  obtain ⟨n, w1, h1, h2, h3, h4⟩ := key f.num
  obtain ⟨d, w2, h5, h6, h7, h8⟩ := key f.den
  refine ⟨⟨n, d⟩, w1 || w2, ?_, ⟨h2, h6⟩, h3, h7, ?_⟩
  · simp [Fraction.ofOther, Raw.conv, h1, h5, bind_def, Res.bind, pure_def]
  · simp only [Bool.or_eq_true, h4, h8, Raw.InRange]; tauto

example : (⟨3, 4⟩ : Raw).InRange u32 ∧ Fraction.ofOther u32 ⟨3, 4⟩ ⇓ ⟨3, 4⟩ ∧
    Fraction.ofOther u32 ⟨-3, 4⟩ = .ok ⟨4294967293, 4⟩ true := by decide

/-- **C39** Arithmetic between different representations, when it finishes cleanly, is the
exact rational operation. -/
theorem C39_mixed_arith_exact {op : ArithOp} (ha : a.Denote x y)
    (h : Fraction.arith L R o op a ⇓ r) : op.Exact x y r := by
  obtain ⟨a', h1, h2⟩ := bind_eq_clean.1 h
  rw [Fraction.toCommon_clean h1] at h2
  exact Ops.arith_exact ha h2

/-- **C39** Mixed `==` compares the rational values; so do all comparisons when the
denominators are positive. -/
theorem C39_mixed_cmp_exact {b : Bool} (ha : a.Denote x y) :
    (Fraction.cmp L R o .equalTo a ⇓ b → (b = true ↔ x = y)) ∧
    (∀ op, a.PosDen → Fraction.cmp L R o op a ⇓ b → (b = true ↔ op.Holds x y)) := by
  constructor
  · intro h
    obtain ⟨a', h1, h2⟩ := bind_eq_clean.1 h
    rw [Fraction.toCommon_clean h1] at h2
    exact C13_eq_exact ha h2
  · intro op hp h
    obtain ⟨a', h1, h2⟩ := bind_eq_clean.1 h
    rw [Fraction.toCommon_clean h1] at h2
    exact C15_order_exact_partial ha hp h2

/-- **C39** When every part fits the common type the conversions are silent, so the
operation is the same-type operation of the common type. -/
theorem C39_mixed_fits (ha : a.InRange (IntTy.common L R)) (op : ArithOp) (c : CmpOp) :
    Fraction.arith L R o op a = o.arith (IntTy.common L R) op a ∧
    Fraction.cmp L R o c a = o.cmp (IntTy.common L R) c a := by
  simp only [Fraction.arith, Fraction.cmp, Fraction.toCommon_of_inRange ha, ok_bind_false,
    and_self]

/-- **C39** In general each part is first reduced modulo the size of the common type, with a
wrap-around exactly when some part does not fit, and the operation of the common type
follows. -/
theorem C39_mixed_converts (ha : a.HaveTypes L R) : ∃ b w,
    a.ReducedMod (IntTy.common L R) b ∧ (w = true ↔ ¬ a.InRange (IntTy.common L R)) ∧
    (∀ o op, Fraction.arith L R o op a =
      (Res.ok () w >>= fun _ => o.arith (IntTy.common L R) op b)) ∧
    (∀ o op, Fraction.cmp L R o op a =
      (Res.ok () w >>= fun _ => o.cmp (IntTy.common L R) op b)) := by
  obtain ⟨b, w, h, hb, hw⟩ := Fraction.toCommon_mod ha
  refine ⟨b, w, hb, hw, fun o op => ?_, fun o op => ?_⟩
  · rw [Fraction.arith, h]; rfl
  · rw [Fraction.cmp, h]; rfl

/-- **C39** A value of either operand type fits the common type, except a negative one
meeting an unsigned common type. -/
theorem C39_common_type_fits {v : ℤ} (hv : L.InRange v ∨ R.InRange v)
    (hn : (IntTy.common L R).signed = false → 0 ≤ v) : (IntTy.common L R).InRange v := by
  have mono : ∀ {A B : IntTy}, A.InRange v → (A.signed = B.signed → A.bits ≤ B.bits) →
      (A.signed = true → B.signed = false → A.bits ≤ B.bits) →
      (A.signed = false → B.signed = true → A.bits < B.bits) → (B.signed = false → 0 ≤ v) →
      B.InRange v := by
    intro A B hA h1 h2 h3 h4
    obtain ⟨ha, hb⟩ := hA
    have pw : ∀ {m n : ℕ}, m ≤ n → ((2 ^ m : ℕ) : ℤ) ≤ ((2 ^ n : ℕ) : ℤ) := fun h => by
      exact_mod_cast Nat.pow_le_pow_right (by decide) h
    have hAw := A.wide
    have hBw := B.wide
    cases hs : A.signed <;> cases hs' : B.signed <;>
      simp only [hs, hs', IntTy.InRange, IntTy.min, IntTy.max, if_true, Bool.false_eq_true,
        if_false, reduceCtorEq, true_imp_iff, false_imp_iff] at *
    · have := pw h1; omega
    · have := pw (show A.bits ≤ B.bits - 1 by omega); omega
    · have := pw (show A.bits - 1 ≤ B.bits by omega); omega
    · have := pw (show A.bits - 1 ≤ B.bits - 1 by omega); omega
  rcases hv with hv | hv
  · refine mono hv ?_ ?_ ?_ hn <;> unfold IntTy.common <;> split_ifs <;> simp_all <;> omega
  · refine mono hv ?_ ?_ ?_ hn <;> unfold IntTy.common <;> split_ifs <;> simp_all

example : IntTy.common i32 i64 = i64 ∧ IntTy.common i32 u32 = u32 ∧
    Fraction.arith i32 i64 .defaults .plus (.ff ⟨-1, 2⟩ ⟨1, 3⟩) ⇓ ⟨-1, 6⟩ ∧
    (Args.ff ⟨-1, 2⟩ ⟨1, 3⟩).Denote (-1/2) (1/3) ∧
    -- a negative numerator does not fit the unsigned common type and wraps silently
    Fraction.arith i32 u32 .fast .plus (.ff ⟨-1, 2⟩ ⟨1, 3⟩) = .ok ⟨4294967295, 6⟩ true ∧
    (Args.ff ⟨-1, 2⟩ ⟨1, 3⟩).HaveTypes i32 u32 ∧
    (Args.ff ⟨-1, 2⟩ ⟨1, 3⟩).ReducedMod u32 (.ff ⟨4294967295, 2⟩ ⟨1, 3⟩) :=
  ⟨by decide, by decide, by decide, by norm_num [Args.Denote, Denotes], by decide,
    ⟨by decide, by decide⟩, ⟨by decide, by decide, by decide⟩, by decide, by decide, by decide⟩

/-- **C40** `left op= right` is `left op right` when the types agree, and
`left op (right converted to the type of left)` otherwise; the same for an integer on the
right. -/
theorem C40_compound_is_binary (op : ArithOp) (l r : Raw) (n : ℤ) :
    Fraction.assignF T T o op l r = Fraction.arith T T o op (.ff l r) ∧
    Fraction.assignR T T o op l n = Fraction.arith T T o op (.fr l n) ∧
    (r.InRange L → Fraction.assignF L R o op l r = Fraction.arith L L o op (.ff l r)) ∧
    (L.InRange n → Fraction.assignR L R o op l n = Fraction.arith L L o op (.fr l n)) := by
  refine ⟨by simp [Fraction.assignF], by simp [Fraction.assignR], fun h => ?_, fun h => ?_⟩
  · unfold Fraction.assignF
    split
    · rename_i e; rw [e]
    · rw [Fraction.ofOther, Raw.conv_clean.2 ⟨h, rfl⟩, ok_bind_false]
  · unfold Fraction.assignR
    split
    · rename_i e; rw [e]
    · rw [IntTy.conv_clean.2 ⟨h, rfl⟩, ok_bind_false]

/-- **C40** With a different right type the right operand is first converted. -/
theorem C40_compound_converts (hne : L ≠ R) (op : ArithOp) (l r : Raw) (n : ℤ) :
    Fraction.assignF L R o op l r =
      (Fraction.ofOther L r >>= fun r' => Fraction.arith L L o op (.ff l r')) ∧
    Fraction.assignR L R o op l n =
      (L.conv n >>= fun n' => Fraction.arith L L o op (.fr l n')) := by
  simp [Fraction.assignF, Fraction.assignR, hne]

/-- **C40** Any sequence of compound assignments, with any mixture of operators and of
fraction and integer operands, that finishes cleanly leaves exactly the accumulated value. -/
theorem C40_sequence_exact {steps : List Assign} {q : ℚ} (hx : Denotes f x)
    (hv : Assign.values x steps = some q) (h : Assign.run T o f steps ⇓ r) : Denotes r q := by
  induction steps generalizing f x with
  | nil =>
    simp only [Assign.values, Option.some.injEq] at hv
    simp only [Assign.run, pure_eq_ok, and_true] at h
    rw [← h, ← hv]; exact hx
  | cons s rest ih =>
    simp only [Assign.values, Option.bind_eq_some_iff] at hv
    obtain ⟨z, hz, hv⟩ := hv
    obtain ⟨g, hg, h⟩ := bind_eq_clean.1 h
    refine ih ?_ hv h
    cases s with
    | frac op t =>
      simp only [Assign.value, Option.bind_eq_some_iff] at hz
      obtain ⟨u, hu, hz⟩ := hz
      rw [Assign.step, (C40_compound_is_binary (L := T) (R := T) op f t 0).1,
        Fraction.arith_self] at hg
      have ht : Denotes t u := by
        unfold litValue at hu
        split at hu
        · simp at hu
        · rename_i h0; simp only [Option.some.injEq] at hu; exact ⟨h0, hu⟩
      exact (Ops.arith_exact (a := .ff f t) ⟨hx, ht⟩ hg).value hz
    | int op t =>
      simp only [Assign.value] at hz
      rw [Assign.step, (C40_compound_is_binary (L := T) (R := T) op f f t).2.1,
        Fraction.arith_self] at hg
      exact (Ops.arith_exact (a := .fr f t) ⟨hx, rfl⟩ hg).value hz

/-- **C40** In particular a loop of `+=` over a list of defined fractions accumulates the
sum, and a loop of `*=` the product. -/
theorem C40_loop_sum {ts : List Raw} (hx : Denotes f x) (ht : ∀ t ∈ ts, t.den ≠ 0) :
    (Assign.run T o f (ts.map (.frac .plus)) ⇓ r →
      Denotes r (x + (ts.map fun t => (t.num : ℚ) / t.den).sum)) ∧
    (Assign.run T o f (ts.map (.frac .multiplies)) ⇓ r →
      Denotes r (x * (ts.map fun t => (t.num : ℚ) / t.den).prod)) := by
  constructor <;> intro h <;> refine C40_sequence_exact hx ?_ h
  all_goals clear h hx
  · induction ts generalizing x with
    | nil => simp [Assign.values]
    | cons t ts ih =>
      have h0 := ht t (by simp)
      simp only [List.map_cons, Assign.values, Assign.value, litValue, h0, if_false,
        Option.bind_some, ArithOp.value, List.sum_cons]
      rw [ih (fun t h => ht t (by simp [h])), add_assoc]
  · induction ts generalizing x with
    | nil => simp [Assign.values]
    | cons t ts ih =>
      have h0 := ht t (by simp)
      simp only [List.map_cons, Assign.values, Assign.value, litValue, h0, if_false,
        Option.bind_some, ArithOp.value, List.prod_cons]
      rw [ih (fun t h => ht t (by simp [h])), mul_assoc]

example : Assign.run i32 .defaults ⟨1, 2⟩
      [.frac .plus ⟨1, 3⟩, .int .multiplies 6, .frac .divides ⟨-5, 2⟩] ⇓ ⟨-2, 1⟩ ∧
    Assign.values (1/2) [.frac .plus ⟨1, 3⟩, .int .multiplies 6, .frac .divides ⟨-5, 2⟩]
      = some (-2) ∧
    Fraction.assignF i32 i64 .defaults .plus ⟨1, 2⟩ ⟨1, 3⟩ ⇓ ⟨5, 6⟩ :=
  ⟨by decide, by norm_num [Assign.values, Assign.value, litValue, ArithOp.value], by decide⟩

/-- **C41** Construction from `std::ratio<N, D>`, when well formed, has value `N / D`, a
positive denominator and coprime parts. -/
theorem C41_ratio_exact {N D : ℤ} {w : Bool} (h : Fraction.ofRatio T N D = .ok r w) :
    D ≠ 0 ∧ Denotes r ((N : ℚ) / D) ∧ Canonical r ∧ r.InRange T ∧ w = false := by
  unfold Fraction.ofRatio Fraction.stdRatio at h
  split at h
  · simp at h
  rename_i n d hnd
  split at hnd
  · rename_i hD
    obtain ⟨hD, -, -⟩ := hD
    simp only [Option.some.injEq, Prod.mk.injEq] at hnd
    split at h
    · rename_i hr
      simp only [pure_eq_ok] at h
      obtain ⟨rfl, rfl⟩ := h
      obtain ⟨hn, hd⟩ := hnd
      have hg : 0 < Int.gcd N D := Int.gcd_pos_of_ne_zero_right _ hD
      have hN := Nat.div_mul_cancel (Nat.gcd_dvd_left N.natAbs D.natAbs)
      have hDm := Nat.div_mul_cancel (Nat.gcd_dvd_right N.natAbs D.natAbs)
      change N.natAbs / Int.gcd N D * Int.gcd N D = N.natAbs at hN
      change D.natAbs / Int.gcd N D * Int.gcd N D = D.natAbs at hDm
      set p := N.natAbs / Int.gcd N D with hp
      set q := D.natAbs / Int.gcd N D with hq
      have hq0 : 0 < q := by
        rcases Nat.eq_zero_or_pos q with h | h
        · rw [h] at hDm; simp at hDm; exact absurd hDm.symm (by simpa using hD)
        · exact h
      have hcop : Nat.Coprime p q := Nat.coprime_div_gcd_div_gcd hg
      have hds : D.sign * D.sign = 1 := by
        rcases lt_or_gt_of_ne hD with h | h
        · rw [Int.sign_eq_neg_one_of_neg h]; rfl
        · rw [Int.sign_eq_one_of_pos h]; rfl
      have eN : N = N.sign * p * Int.gcd N D := by
        conv_lhs => rw [← Int.sign_mul_natAbs N, ← hN]
        push_cast; ring
      have eD : D = D.sign * q * Int.gcd N D := by
        conv_lhs => rw [← Int.sign_mul_natAbs D, ← hDm]
        push_cast; ring
      refine ⟨hD, ⟨by rw [← hd]; simp only; omega, ?_⟩, ⟨by rw [← hd]; simpa using hq0, ?_⟩,
        hr, rfl⟩
      · simp only [← hn, ← hd]
        have hD' : (D : ℚ) ≠ 0 := by exact_mod_cast hD
        have hq' : (q : ℚ) ≠ 0 := by exact_mod_cast hq0.ne'
        push_cast
        rw [div_eq_div_iff hq' hD']
        have : N.sign * D.sign * p * D = N * q := by
          linear_combination N.sign * D.sign * p * eD - q * eN
            + (N.sign * p * Int.gcd N D * q) * hds
        exact_mod_cast this
      · simp only [← hn, ← hd]
        rw [Int.gcd, Int.natAbs_natCast]
        rcases eq_or_ne N 0 with h0 | h0
        · have hp0 : p = 0 := by rw [hp, h0]; simp
          rw [hp0] at hcop ⊢
          simpa using hcop
        · rw [Int.natAbs_mul, Int.natAbs_mul, Int.natAbs_sign_of_ne_zero h0,
            Int.natAbs_sign_of_ne_zero hD]
          simpa using hcop
    · simp at h
  · simp at hnd

example : Fraction.ofRatio i32 (-6) (-8) ⇓ ⟨3, 4⟩ ∧ Fraction.ofRatio i32 6 (-8) ⇓ ⟨-3, 4⟩ ∧
    Fraction.ofRatio u32 6 (-8) = .fault .illFormed ∧
    Fraction.ofRatio i32 1 3000000000 = .fault .illFormed := by decide

end Ieme
