import Verif.Lemmas.CommonDen
import Verif.Props.Convert

/-!
# Accumulating over a common denominator: property C107
-/

namespace Ieme

open Res IntTy

variable {T : IntTy} {o : Ops} {f r t : Raw} {D : ℤ}

/-- **C107** Adding and subtracting fractions whose denominators all divide `D`, and integers, in
any order, with a policy that ends in `safe`: if `D`, every contribution and every running total,
counted in units of `1/D`, are representable with either sign, the whole sequence finishes without
overflow, its result has a denominator that divides `D`, and its value is the exact total. -/
theorem C107_common_denominator (ho : o.BasedOnSafe) (hs : T.signed = true) (hD : 0 < D)
    (hDm : D ≤ T.max) {steps : List Assign} (hf0 : f.den ≠ 0) (hfd : f.den ∣ D)
    (hst : ∀ s ∈ steps, s.Sums D ∧ |s.over D| ≤ T.max)
    (hpre : ∀ us, us <+: steps → |f.over D + (us.map (Assign.over D)).sum| ≤ T.max) :
    ∃ r, Assign.run T o f steps ⇓ r ∧ r.den ≠ 0 ∧ r.den ∣ D ∧
      r.over D = f.over D + (steps.map (Assign.over D)).sum := by
  induction steps generalizing f with
  | nil => exact ⟨f, rfl, hf0, hfd, by simp⟩
  | cons s rest ih =>
    have hf : f.On T D := ⟨hf0, hfd, by simpa using hpre [] (List.nil_prefix)⟩
    have h1 : |f.over D + s.over D| ≤ T.max := by
      simpa using hpre [s] (by simp)
    obtain ⟨hsum, hsf⟩ := hst s (by simp)
    have step : ∃ g, s.step T o f ⇓ g ∧ g.On T D ∧ g.over D = f.over D + s.over D := by
      cases s with
      | frac op t =>
        obtain ⟨hop, ht0, htd⟩ := hsum
        have ht : t.On T D := ⟨ht0, htd, by rcases hop with rfl | rfl <;> simpa [Assign.over] using hsf⟩
        have e : op.overCommon (f.over D) (t.over D) = f.over D + Assign.over D (.frac op t) := by
          rcases hop with rfl | rfl <;> simp [ArithOp.overCommon, Assign.over, sub_eq_add_neg]
        obtain ⟨g, hg, og, eg⟩ := Ops.arith_on (a := .ff f t) ho hs hop hD hDm ⟨hf, ht⟩
          (by simpa only [Args.left, Args.right, e] using h1)
        exact ⟨g, by rw [Assign.step, (C40_compound_is_binary (L := T) (R := T) op f t 0).1,
          Fraction.arith_self]; exact hg, og, eg.trans e⟩
      | int op n =>
        have hop : op = .plus ∨ op = .minus := hsum
        have en : (⟨n, 1⟩ : Raw).over D = n * D := by simp [Raw.over]
        have ht : (⟨n, 1⟩ : Raw).On T D := ⟨by simp, one_dvd _, by
          rw [en]; rcases hop with rfl | rfl <;> simpa [Assign.over] using hsf⟩
        have e : op.overCommon (f.over D) ((⟨n, 1⟩ : Raw).over D) =
            f.over D + Assign.over D (.int op n) := by
          rw [en]
          rcases hop with rfl | rfl <;> simp [ArithOp.overCommon, Assign.over, sub_eq_add_neg]
        obtain ⟨g, hg, og, eg⟩ := Ops.arith_on (a := .fr f n) ho hs hop hD hDm ⟨hf, ht⟩
          (by simpa only [Args.left, Args.right, e] using h1)
        exact ⟨g, by rw [Assign.step, (C40_compound_is_binary (L := T) (R := T) op f f n).2.1,
          Fraction.arith_self]; exact hg, og, eg.trans e⟩
    obtain ⟨g, hg, og, eg⟩ := step
    obtain ⟨r, hr, hr0, hrd, er⟩ := ih og.defined og.dvd (fun s h => hst s (by simp [h]))
      (fun us hus => by
        have := hpre (s :: us) (by simpa using hus)
        simpa [eg, add_assoc] using this)
    exact ⟨r, by rw [Assign.run, hg, ok_bind_false]; exact hr, hr0, hrd, by
      rw [er, eg]; simp [add_assoc]⟩

/-- `1/2 + 1/3 - 1/4 + 5/6 - 1` over 12: running totals 10, 7, 17, 5. -/
example : Assign.run i32 .safe ⟨1, 2⟩ [.frac .plus ⟨1, 3⟩, .frac .minus ⟨1, 4⟩,
      .frac .plus ⟨5, 6⟩, .int .minus 1] ⇓ ⟨5, 12⟩ ∧
    ([.frac .plus ⟨1, 3⟩, .frac .minus ⟨1, 4⟩, .frac .plus ⟨5, 6⟩, .int .minus 1].map
      (Assign.over 12)) = [4, -3, 10, -12] ∧ (⟨1, 2⟩ : Raw).over 12 = 6 ∧
    (∀ s ∈ [Assign.frac .plus ⟨1, 3⟩, .frac .minus ⟨1, 4⟩, .frac .plus ⟨5, 6⟩, .int .minus 1],
      s.Sums 12) ∧ Ops.defaults.BasedOnSafe := by
  refine ⟨by decide, by decide, by decide, ?_, trivial⟩
  simp only [List.mem_cons, List.not_mem_nil, or_false]
  rintro s (rfl | rfl | rfl | rfl) <;> simp only [Assign.Sums] <;> decide

/-- **C107** It is enough that the magnitudes, summed without cancellation, are representable. -/
theorem C107_magnitudes (ho : o.BasedOnSafe) (hs : T.signed = true) (hD : 0 < D)
    (hDm : D ≤ T.max) {steps : List Assign} (hf0 : f.den ≠ 0) (hfd : f.den ∣ D)
    (hst : ∀ s ∈ steps, s.Sums D)
    (hsum : |f.over D| + (steps.map fun s => |s.over D|).sum ≤ T.max) :
    ∃ r, Assign.run T o f steps ⇓ r ∧ r.den ≠ 0 ∧ r.den ∣ D ∧
      r.over D = f.over D + (steps.map (Assign.over D)).sum := by
  have nonneg : ∀ l : List Assign, 0 ≤ (l.map fun s => |s.over D|).sum := fun l =>
    List.sum_nonneg (by simp only [List.mem_map]; rintro _ ⟨s, -, rfl⟩; exact abs_nonneg _)
  have tri : ∀ l : List Assign,
      |(l.map (Assign.over D)).sum| ≤ (l.map fun s => |s.over D|).sum := by
    intro l
    induction l with
    | nil => simp
    | cons s l ih =>
      simp only [List.map_cons, List.sum_cons]
      exact (abs_add_le _ _).trans (by linarith)
  refine C107_common_denominator ho hs hD hDm hf0 hfd (fun s h => ⟨hst s h, ?_⟩) ?_
  · obtain ⟨l1, l2, rfl⟩ := List.append_of_mem h
    simp only [List.map_append, List.sum_append, List.map_cons, List.sum_cons] at hsum
    have := nonneg l1
    have := nonneg l2
    have := abs_nonneg (f.over D)
    linarith
  · rintro us ⟨vs, rfl⟩
    simp only [List.map_append, List.sum_append] at hsum
    have := nonneg vs
    have := abs_add_le (f.over D) (us.map (Assign.over D)).sum
    have := tri us
    linarith

example : |(⟨1, 2⟩ : Raw).over 12| + ([Assign.frac .plus ⟨1, 3⟩, .frac .minus ⟨1, 4⟩,
    .frac .plus ⟨5, 6⟩, .int .minus 1].map fun s => |s.over 12|).sum = 35 ∧
    (35 : ℤ) ≤ i32.max := by decide

/-- **C107** In particular a fraction with positive denominator can be added to zero `n` times
under `safe`, or under any reducing wrapper around it, as long as `n` times its numerator is
representable: the denominator never grows. -/
theorem C107_safe_repeated (ho : o.BasedOnSafe) (hs : T.signed = true) (ht : t.InRange T)
    (h0 : 0 < t.den) {n : ℕ} (hn : n * |t.num| ≤ T.max) :
    ∃ r, Assign.run T o ⟨0, 1⟩ (List.replicate n (.frac .plus t)) ⇓ r ∧ r.den ∣ t.den ∧
      Denotes r (n * ((t.num : ℚ) / t.den)) := by
  have e : Assign.over t.den (.frac .plus t) = t.num := by
    simp [Assign.over, Raw.over, Int.ediv_self h0.ne']
  obtain ⟨r, hr, hr0, hrd, er⟩ := C107_magnitudes (o := o) (T := T) (f := ⟨0, 1⟩) (D := t.den)
    (steps := List.replicate n (.frac .plus t)) ho hs h0 ht.2.2 (by simp) (one_dvd _)
    (by simp only [List.mem_replicate]; rintro s ⟨-, rfl⟩; exact ⟨Or.inl rfl, h0.ne', dvd_rfl⟩)
    (by simpa [Raw.over, List.map_replicate, List.sum_replicate, e] using hn)
  refine ⟨r, hr, hrd, ?_⟩
  have hx : Denotes (⟨0, 1⟩ : Raw) 0 := ⟨by simp, by simp⟩
  have h1 := (C40_loop_sum (T := T) (o := o) (r := r) (ts := List.replicate n t) hx
    (by simp only [List.mem_replicate]; rintro s ⟨-, rfl⟩; exact h0.ne')).1
    (by simpa [List.map_replicate] using hr)
  simpa [List.map_replicate, List.sum_replicate] using h1

/-- One tenth can be added to an `int` fraction two thousand million times. -/
example : i32.signed = true ∧ (⟨1, 10⟩ : Raw).InRange i32 ∧
    ((2000000000 : ℕ) : ℤ) * |(⟨1, 10⟩ : Raw).num| ≤ i32.max := by decide

/-- **C107** Under `fast` the denominator grows with every addition: `n` additions of `1/d` to zero
finish without overflow exactly when `d ^ n` and `n * d ^ (n - 1)` are representable. -/
theorem C107_fast_repeated {d n : ℕ} (hd : 1 ≤ d) (hdT : (d : ℤ) ≤ T.max) :
    Assign.run T .fast ⟨0, 1⟩ (List.replicate n (.frac .plus ⟨1, d⟩)) ⇓ r ↔
      r = ⟨n * d ^ (n - 1), d ^ n⟩ ∧ r.InRange T := by
  have range : ∀ {m : ℕ}, T.InRange m ↔ (m : ℤ) ≤ T.max := by
    intro m
    have := T.min_le_zero
    exact ⟨fun h => h.2, fun h => ⟨by omega, h⟩⟩
  have one : T.InRange 1 := inRange_one
  have hlit : (⟨1, d⟩ : Raw).InRange T := ⟨one, range.2 hdT⟩
  -- the state after `k` additions
  have gen : ∀ k m : ℕ, (⟨k * d ^ (k - 1), d ^ k⟩ : Raw).InRange T →
      (Assign.run T .fast ⟨k * d ^ (k - 1), d ^ k⟩ (List.replicate m (.frac .plus ⟨1, d⟩)) ⇓ r ↔
        r = ⟨(k + m : ℕ) * d ^ (k + m - 1), d ^ (k + m)⟩ ∧ r.InRange T) := by
    intro k m hk
    induction m generalizing k with
    | zero =>
      simp only [List.replicate_zero, Assign.run, pure_eq_ok, and_true, Nat.add_zero]
      exact ⟨fun h => ⟨h.symm, h ▸ hk⟩, fun h => h.1.symm⟩
    | succ m ih =>
      have hpow : (k : ℤ) * d ^ (k - 1) * d = k * d ^ k := by
        cases k with
        | zero => simp
        | succ k => rw [Nat.add_sub_cancel, pow_succ]; ring
      have hstep : ∀ g : Raw, Ops.fast.arith T .plus
          (.ff ⟨k * d ^ (k - 1), d ^ k⟩ ⟨1, d⟩) ⇓ g ↔
          g = ⟨(k + 1 : ℕ) * d ^ (k + 1 - 1), d ^ (k + 1)⟩ ∧ g.InRange T := by
        intro g
        rw [C85_fast_iff (a := .ff _ _) ⟨hk, hlit⟩]
        have e : ArithOp.plus.crossParts (⟨k * d ^ (k - 1), d ^ k⟩ : Raw) ⟨1, d⟩ =
            ⟨(k + 1 : ℕ) * d ^ (k + 1 - 1), d ^ (k + 1)⟩ := by
          simp only [ArithOp.crossParts, ArithOp.overCommon, Raw.mk.injEq, hpow]
          constructor
          · push_cast; ring
          · rw [pow_succ]
        simp only [Args.left, Args.right, e]
        constructor
        · rintro ⟨h1, h2, -⟩; exact ⟨h1, h2⟩
        · rintro ⟨rfl, h2⟩
          refine ⟨rfl, h2, fun _ => ?_, by simp⟩
          rw [hpow, one_mul]
          have h3 := h2.1.2
          simp only [Nat.add_sub_cancel] at h3
          have hp : (0 : ℤ) < (d : ℤ) ^ k := by positivity
          push_cast at h3
          have hk0 : (0 : ℤ) ≤ (k : ℤ) * d ^ k := by positivity
          have := T.min_le_zero
          refine ⟨⟨?_, ?_⟩, ⟨?_, ?_⟩⟩ <;> nlinarith
      rw [List.replicate_succ, Assign.run, bind_eq_clean]
      constructor
      · rintro ⟨g, hg, hr⟩
        rw [Assign.step, (C40_compound_is_binary (L := T) (R := T) .plus _ _ 0).1,
          Fraction.arith_self, hstep] at hg
        obtain ⟨rfl, hgi⟩ := hg
        rw [ih (k + 1) hgi] at hr
        have e : k + 1 + m = k + (m + 1) := by omega
        rw [e] at hr
        exact hr
      · rintro ⟨hr, hri⟩
        have hgi : (⟨(k + 1 : ℕ) * d ^ (k + 1 - 1), d ^ (k + 1)⟩ : Raw).InRange T := by
          rw [hr] at hri
          obtain ⟨h1, h2⟩ := hri
          have hle : d ^ k ≤ d ^ (k + m) := Nat.pow_le_pow_right hd (by omega)
          have hle2 : d ^ (k + 1) ≤ d ^ (k + (m + 1)) := Nat.pow_le_pow_right hd (by omega)
          have hle3 : (k + 1) * d ^ k ≤ (k + (m + 1)) * d ^ (k + m) :=
            Nat.mul_le_mul (by omega) hle
          have e1 : k + (m + 1) - 1 = k + m := by omega
          simp only [e1] at h1
          refine ⟨?_, ?_⟩
          · have := (range (m := (k + (m + 1)) * d ^ (k + m))).1 (by push_cast at h1 ⊢; exact h1)
            have h5 := range (m := (k + 1) * d ^ k) |>.2 (by omega)
            simp only [Nat.add_sub_cancel]
            push_cast at h5 ⊢
            exact h5
          · have := (range (m := d ^ (k + (m + 1)))).1 (by push_cast at h2 ⊢; exact h2)
            have h5 := range (m := d ^ (k + 1)) |>.2 (by omega)
            push_cast at h5 ⊢
            exact h5
        refine ⟨_, ?_, (ih (k + 1) hgi).2 ?_⟩
        · rw [Assign.step, (C40_compound_is_binary (L := T) (R := T) .plus _ _ 0).1,
            Fraction.arith_self, hstep]
          exact ⟨rfl, hgi⟩
        · have e : k + 1 + m = k + (m + 1) := by omega
          rw [e]
          exact ⟨hr, hri⟩
  have := gen 0 n (by simp [Raw.InRange, inRange_zero, one])
  simpa using this

/-- **C107** So under `fast` a tenth can be added to an `int` fraction nine times, but not ten,
while under `safe` and the default policy it can be added 2147483647 times. -/
theorem C107_tenths : (∀ n : ℕ, (∃ r, Assign.run i32 .fast ⟨0, 1⟩
      (List.replicate n (.frac .plus ⟨1, 10⟩)) ⇓ r) ↔ n ≤ 9) ∧
    ∀ n : ℕ, n ≤ 2147483647 → ∀ o ∈ [Ops.safe, Ops.defaults], ∃ r, Assign.run i32 o ⟨0, 1⟩
      (List.replicate n (.frac .plus ⟨1, 10⟩)) ⇓ r ∧ Denotes r (n / 10) := by
  constructor
  · intro n
    have key := fun r => C107_fast_repeated (T := i32) (r := r) (d := 10) (n := n) (by decide) (by decide)
    simp only [Nat.cast_ofNat] at key
    simp only [key]
    constructor
    · rintro ⟨r, rfl, h⟩
      by_contra hn
      have h2 : (10 : ℤ) ^ n ≤ 2147483647 := h.2.2
      have : (10 : ℤ) ^ 10 ≤ 10 ^ n := pow_le_pow_right₀ (by norm_num) (by omega)
      norm_num at this
      omega
    · intro hn
      refine ⟨_, rfl, ?_⟩
      have : n = 0 ∨ n = 1 ∨ n = 2 ∨ n = 3 ∨ n = 4 ∨ n = 5 ∨ n = 6 ∨ n = 7 ∨ n = 8 ∨ n = 9 := by
        omega
      rcases this with rfl | rfl | rfl | rfl | rfl | rfl | rfl | rfl | rfl | rfl <;> decide
  · intro n hn o ho
    obtain ⟨r, h1, -, h2⟩ := C107_safe_repeated (T := i32) (o := o) (t := ⟨1, 10⟩) (n := n)
      (by simp only [List.mem_cons, List.not_mem_nil, or_false] at ho
          rcases ho with rfl | rfl <;> trivial) rfl (by decide) (by decide)
      (by
        have : i32.max = 2147483647 := by decide
        rw [this, abs_one, mul_one]
        omega)
    exact ⟨r, h1, by simpa [div_eq_mul_inv] using h2⟩

example : Assign.run i32 .fast ⟨0, 1⟩ (List.replicate 9 (.frac .plus ⟨1, 10⟩)) ⇓
      ⟨900000000, 1000000000⟩ ∧
    Assign.run i32 .fast ⟨0, 1⟩ (List.replicate 10 (.frac .plus ⟨1, 10⟩)) = .fault .overflow ∧
    Assign.run i32 .safe ⟨0, 1⟩ (List.replicate 100 (.frac .plus ⟨1, 10⟩)) ⇓ ⟨100, 10⟩ ∧
    Assign.run i32 .defaults ⟨0, 1⟩ (List.replicate 100 (.frac .plus ⟨1, 10⟩)) ⇓ ⟨10, 1⟩ := by
  decide +kernel

end Ieme
