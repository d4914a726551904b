import Verif.Lemmas.Hash
import Verif.Props.Compare

/-!
# Hashing: properties C64, C65 and C73

`h`, `hw`, `hf` stand for `std::hash` of the representation types; nothing is assumed about
them unless stated.
-/

namespace Ieme

open Res IntTy

variable {T : IntTy} {o : Ops} {f g : Raw} {z : ℕ}
  {h hw hf : ℤ → BitVec z}

/-- **C64, partial.**  Full claim: if `f == g` then `hash(f) == hash(g)`.  Proved for
fractions in lowest terms with positive denominators, for every policy and every
`std::hash<Rep>`; false in general, see `C64_equal_hash_differently`. -/
theorem C64_equal_hash_equal_partial {b : Bool} (cf : Canonical f) (cg : Canonical g)
    (he : o.cmp T .equalTo (.ff f g) ⇓ b) (hb : b = true) :
    Hash.fraction h f = Hash.fraction h g := by
  have := (C13_eq_exact (a := .ff f g) ⟨denotes_self cf.1.ne', denotes_self cg.1.ne'⟩ he).1 hb
  rw [cf.unique cg ⟨_, denotes_self cf.1.ne', this ▸ denotes_self cg.1.ne'⟩]

/-- **C64, refuted in general.**  With the `std::hash` of libstdc++ and whatever the width of
`std::size_t`, `1/2` and `2/4` compare equal under the default policy but have different hashes, and
so do `1/2` and `-1/(-2)`. -/
theorem C64_equal_hash_differently (hz : 2 ≤ z) :
    Fraction.cmp i32 i32 .defaults .equalTo (.ff ⟨1, 2⟩ ⟨2, 4⟩) ⇓ true ∧
    Hash.fraction (Hash.stdHash z) ⟨1, 2⟩ ≠ Hash.fraction (Hash.stdHash z) ⟨2, 4⟩ ∧
    Fraction.cmp i32 i32 .defaults .equalTo (.ff ⟨1, 2⟩ ⟨-1, -2⟩) ⇓ true ∧
    Hash.fraction (Hash.stdHash z) ⟨1, 2⟩ ≠ Hash.fraction (Hash.stdHash z) ⟨-1, -2⟩ := by
  refine ⟨by decide, fun h => ?_, by decide, fun h => ?_⟩ <;>
  · have := congrArg (·.setWidth 2) h
    simp only [fraction_low _ hz] at this
    exact absurd this (by decide)

/-- **C64, refuted for every useful hash.**  Equal fractions can only hash equally when
`std::hash<Rep>` gives the same value for all positive integers. -/
theorem C64_only_constant_hash
    (H : ∀ f g : Raw, f.InRange T → g.InRange T → SameValue f g →
      Hash.fraction h f = Hash.fraction h g) {n : ℤ} (h0 : 0 < n) (hn : T.InRange n) :
    h n = h 1 := by
  have a1 := T.max_ge
  have a2 := T.min_le_zero
  have hn' := hn
  obtain ⟨b1, b2⟩ := hn'
  have r0 : T.InRange 0 := by constructor <;> omega
  have r1 : T.InRange 1 := by constructor <;> omega
  have hq : (n : ℚ) ≠ 0 := by exact_mod_cast h0.ne'
  have e1 := H ⟨0, n⟩ ⟨0, 1⟩ ⟨r0, hn⟩ ⟨r0, r1⟩
    ⟨0, ⟨h0.ne', by simp⟩, ⟨one_ne_zero, by simp⟩⟩
  have e2 := H ⟨n, n⟩ ⟨1, 1⟩ ⟨hn, hn⟩ ⟨r1, r1⟩
    ⟨1, ⟨h0.ne', by simp [hq]⟩, ⟨one_ne_zero, by simp⟩⟩
  have e3 : h n <<< 1 = h 1 <<< 1 := combine_right_cancel e1
  simp only [Hash.fraction, Hash.combine, e3] at e2
  exact (BitVec.xor_left_inj _).1 e2

example : Canonical ⟨-1, 2⟩ ∧
    Ops.cmp i32 .defaults .equalTo (.ff ⟨-1, 2⟩ ⟨-1, 2⟩) ⇓ true ∧
    i32.InRange 7 ∧ Hash.fraction (Hash.stdHash 64) ⟨-1, 2⟩ = 0xfffffffffffffffb#64 :=
  ⟨⟨by decide, by decide⟩, by decide, by decide, by decide⟩

/-- **C65** The hash is determined by the numerator and denominator (by the three parts, for
mixed numbers), whatever the policy. -/
theorem C65_identical_hash_equal {m m' : Mixed} :
    (Raw.areIdentical f g = true → Hash.fraction h f = Hash.fraction h g) ∧
    (m.whole = m'.whole → m.frac.num = m'.frac.num → m.frac.den = m'.frac.den →
      Hash.mixed hw hf m = Hash.mixed hw hf m') := by
  constructor
  · intro e
    simp only [Raw.areIdentical, Bool.and_eq_true, beq_iff_eq] at e
    simp only [Hash.fraction, e]
  · intro e1 e2 e3
    simp only [Hash.mixed, Hash.fraction, e1, e2, e3]

/-- **C65** Under a policy that normalises its output, any two arithmetic results that compare
equal hash equally, whatever computations produced them. -/
theorem C65_canonical_results_hash_equal {op op' : ArithOp} {a a' : Args} {w w' b : Bool}
    (hn : o.NormalizesOutput) (ha : a.InRange T) (ha' : a'.InRange T)
    (hf : o.arith T op a = .ok f w) (hg : o.arith T op' a' = .ok g w')
    (he : o.cmp T .equalTo (.ff f g) ⇓ b) (hb : b = true) :
    Hash.fraction h f = Hash.fraction h g := by
  subst hb
  have undef : ∀ {x y : Raw}, x.den = 0 ∨ y.den = 0 → ¬ o.cmp T .equalTo (.ff x y) ⇓ true := by
    intro x y hu e
    have := Ops.cmp_undefined (a := .ff x y) hu e
    simp [CmpOp.undefAnswer] at this
  rcases Ops.arith_canonical hn ha hf with cf | rfl
  · rcases Ops.arith_canonical hn ha' hg with cg | rfl
    · exact C64_equal_hash_equal_partial cf cg he rfl
    · exact absurd he (undef (.inr rfl))
  · exact absurd he (undef (.inl rfl))

/-- **C65** Under a policy that normalises its output, two expressions over mixed numbers
whose exact values are the same hash equally. -/
theorem C65_mixed_results_hash_equal {e e' : MExpr} {m m' : Mixed} (hn : o.NormalizesOutput)
    (hl : e.CanonicalLeaves) (hl' : e'.CanonicalLeaves) (hm : e.eval o ⇓ m) (hm' : e'.eval o ⇓ m')
    (hv : e.value = e'.value) : Hash.mixed hw hf m = Hash.mixed hw hf m' := by
  obtain ⟨i, q, hq, hd⟩ := MExpr.eval_ok hl.wellTyped hm
  obtain ⟨i', q', hq', hd'⟩ := MExpr.eval_ok hl'.wellTyped hm'
  obtain rfl : q = q' := by rw [hq, hq'] at hv; exact Option.some.inj hv
  obtain ⟨h1, h2⟩ := i.unique i' hd hd'
  have canon : ∀ {e : MExpr} {m : Mixed}, e.CanonicalLeaves → e.eval o ⇓ m → m.Invariant →
      Canonical m.frac := by
    intro e m hl hm hi
    rcases (MExpr.eval_canon hn hl hm).2 with h | h
    · exact h
    · obtain ⟨y, hy, -⟩ := hi
      exact absurd (by rw [h] : m.frac.den = 0) hy.1
  have := (canon hl hm i).unique (canon hl' hm' i') h2
  simp only [Hash.mixed, h1, this]

example : Ops.NormalizesOutput .defaults ∧
    Ops.arith i32 .defaults .plus (.ff ⟨1, 4⟩ ⟨1, 4⟩) ⇓ ⟨1, 2⟩ ∧
    Ops.arith i32 .defaults .multiplies (.ff ⟨2, 3⟩ ⟨-3, -4⟩) ⇓ ⟨1, 2⟩ ∧
    Ops.cmp i32 .defaults .equalTo (.ff ⟨1, 2⟩ ⟨1, 2⟩) ⇓ true ∧
    (MExpr.add (.mk i32 i32 1 ⟨3, 4⟩) (.mk i32 i32 1 ⟨3, 4⟩)).eval .defaults ⇓ ⟨3, ⟨1, 2⟩⟩ ∧
    (MExpr.ofFraction i32 i32 i32 ⟨14, 4⟩).eval .defaults ⇓ ⟨3, ⟨1, 2⟩⟩ ∧
    (MExpr.add (.mk i32 i32 1 ⟨3, 4⟩) (.mk i32 i32 1 ⟨3, 4⟩)).CanonicalLeaves ∧
    (MExpr.ofFraction i32 i32 i32 ⟨14, 4⟩).CanonicalLeaves ∧
    (MExpr.add (.mk i32 i32 1 ⟨3, 4⟩) (.mk i32 i32 1 ⟨3, 4⟩)).value =
      (MExpr.ofFraction i32 i32 i32 ⟨14, 4⟩).value := by
  refine ⟨trivial, by decide, by decide, by decide, by decide, by decide, ?_, ?_, ?_⟩
  · exact ⟨⟨by decide, by decide, by decide, by decide⟩, by decide, by decide, by decide, by decide⟩
  · exact (by decide : (⟨14, 4⟩ : Raw).InRange i32)
  · norm_num [MExpr.value, litValue]

/-! ## C73: the parts matter -/

/-- **C73** With the `std::hash` of libstdc++, on types not wider than `std::size_t`, fractions that
differ in the numerator only hash differently, and so do mixed numbers that differ in the whole
part only. -/
theorem C73_numerators_separate (hT : T.bits ≤ z) :
    (f.InRange T → g.InRange T → f.den = g.den → f.num ≠ g.num →
      Hash.fraction (Hash.stdHash z) f ≠ Hash.fraction (Hash.stdHash z) g) ∧
    (∀ {m m' : Mixed}, T.InRange m.whole → T.InRange m'.whole → m.frac = m'.frac →
      m.whole ≠ m'.whole →
      Hash.mixed (Hash.stdHash z) hf m ≠ Hash.mixed (Hash.stdHash z) hf m') := by
  have key : ∀ {x y : ℤ} {k : BitVec z}, T.InRange x → T.InRange y →
      Hash.combine (Hash.stdHash z x) k = Hash.combine (Hash.stdHash z y) k → x = y := by
    intro x y k hx hy e
    exact eq_of_pow_dvd (stdHash_eq_iff.1 ((BitVec.xor_left_inj _).1 e))
      ((IntTy.abs_sub_lt hx hy).trans_le (pow_le_pow_right₀ (by norm_num) hT))
  constructor
  · intro hf hg hd hn e
    rw [Hash.fraction, Hash.fraction, hd] at e
    exact hn (key hf.1 hg.1 e)
  · intro m m' hm hm' hd hn e
    rw [Hash.mixed, Hash.mixed, hd] at e
    exact hn (key hm hm' e)

/-- **C73** Exactly: two fractions with the same denominator hash equally when their numerators differ
by a multiple of 2^z for a `std::size_t` of `z` bits, and only then. -/
theorem C73_same_denominator_iff (hd : f.den = g.den) :
    Hash.fraction (Hash.stdHash z) f = Hash.fraction (Hash.stdHash z) g ↔
      (2 : ℤ) ^ z ∣ f.num - g.num := by
  rw [← stdHash_eq_iff, Hash.fraction, Hash.fraction, hd]
  exact BitVec.xor_left_inj _

example : Hash.fraction (Hash.stdHash 32) ⟨1, 3⟩ = Hash.fraction (Hash.stdHash 32) ⟨4294967297, 3⟩ ∧
    Hash.fraction (Hash.stdHash 64) ⟨1, 3⟩ ≠ Hash.fraction (Hash.stdHash 64) ⟨4294967297, 3⟩ ∧
    i32.bits ≤ 32 := by decide

/-- **C73** The hash on a system with a narrower `std::size_t` consists of the low bits of the hash on one
with a wider: what collides with the wider collides with the narrower. -/
theorem C73_narrower {n : ℕ} (hn : n ≤ z) :
    Hash.fraction (Hash.stdHash n) f = (Hash.fraction (Hash.stdHash z) f).setWidth n ∧
    (Hash.fraction (Hash.stdHash z) f = Hash.fraction (Hash.stdHash z) g →
      Hash.fraction (Hash.stdHash n) f = Hash.fraction (Hash.stdHash n) g) := by
  refine ⟨(fraction_low f hn).symm, fun h => ?_⟩
  rw [← fraction_low f hn, ← fraction_low g hn, h]

example : Hash.fraction (Hash.stdHash 64) ⟨1, 2⟩ = Hash.fraction (Hash.stdHash 64) ⟨7, 1⟩ ∧
    Hash.fraction (Hash.stdHash 64) ⟨-1, 2⟩ = 0xfffffffffffffffb#64 ∧
    Hash.fraction (Hash.stdHash 32) ⟨-1, 2⟩ = 0xfffffffb#32 := by decide

/-- **C73, partial.**  Full claim: fractions that differ in the denominator only hash
differently, with the `std::hash` of libstdc++.  Proved for types narrower than `std::size_t`, and for
positive denominators on signed types of the same width; false otherwise, see
`C73_denominator_collision`. -/
theorem C73_denominators_separate_partial (hfT : f.InRange T) (hgT : g.InRange T)
    (hT : T.bits < z ∨ (T.bits = z ∧ T.signed = true ∧ 0 < f.den ∧ 0 < g.den))
    (hn : f.num = g.num) (hd : f.den ≠ g.den) :
    Hash.fraction (Hash.stdHash z) f ≠ Hash.fraction (Hash.stdHash z) g := by
  intro e
  have hw := T.wide
  obtain ⟨z, rfl⟩ : ∃ k, z = k + 1 := ⟨z - 1, by omega⟩
  rw [Hash.fraction, Hash.fraction, hn] at e
  refine hd (eq_of_pow_dvd (stdHash_shift_eq_iff.1 (combine_right_cancel e)) ?_)
  rcases hT with hT | ⟨hb, hs, h1, h2⟩
  · exact (IntTy.abs_sub_lt hfT.2 hgT.2).trans_le (pow_le_pow_right₀ (by norm_num) (by omega))
  · have h3 := hfT.2.2
    have h4 := hgT.2.2
    rw [IntTy.max, if_pos hs, hb, Nat.add_sub_cancel] at h3 h4
    push_cast at h3 h4
    rw [abs_lt]
    omega

/-- **C73, refuted on types as wide as `std::size_t`.**  The denominator is shifted left by one bit, so
its top bit is lost: on signed types of that width `1/1` and `1/(1 - 2^(z-1))` have the same hash, on
unsigned ones `1/1` and `1/(1 + 2^(z-1))`; for 64 bits these are `1/(-9223372036854775807)` and
`1/9223372036854775809`. -/
theorem C73_denominator_collision :
    ((T.bits = z + 1 → T.signed = true → (⟨1, 1 - 2 ^ z⟩ : Raw).InRange T) ∧
      (T.bits = z + 1 → T.signed = false → (⟨1, 1 + 2 ^ z⟩ : Raw).InRange T) ∧
      Hash.fraction (Hash.stdHash (z + 1)) ⟨1, 1⟩ =
        Hash.fraction (Hash.stdHash (z + 1)) ⟨1, 1 - 2 ^ z⟩ ∧
      Hash.fraction (Hash.stdHash (z + 1)) ⟨1, 1⟩ =
        Hash.fraction (Hash.stdHash (z + 1)) ⟨1, 1 + 2 ^ z⟩) ∧
    (⟨1, -9223372036854775807⟩ : Raw).InRange i64 ∧ (⟨1, 9223372036854775809⟩ : Raw).InRange u64 ∧
    Hash.fraction (Hash.stdHash 64) ⟨1, 1⟩ = Hash.fraction (Hash.stdHash 64) ⟨1, -9223372036854775807⟩ ∧
    Hash.fraction (Hash.stdHash 64) ⟨1, 1⟩ = Hash.fraction (Hash.stdHash 64) ⟨1, 9223372036854775809⟩ := by
  have hp : (1 : ℤ) ≤ 2 ^ z := one_le_pow₀ (by norm_num)
  have ha := T.max_ge
  have hb := T.min_le_zero
  refine ⟨⟨fun h hs => ?_, fun h hs => ?_, ?_, ?_⟩, by decide⟩
  · refine ⟨⟨by show T.min ≤ 1; omega, by show 1 ≤ T.max; omega⟩, ?_,
      by show 1 - 2 ^ z ≤ T.max; omega⟩
    show T.min ≤ 1 - 2 ^ z
    rw [IntTy.min, if_pos hs, h, Nat.add_sub_cancel]
    push_cast
    omega
  · refine ⟨⟨by show T.min ≤ 1; omega, by show 1 ≤ T.max; omega⟩,
      by show T.min ≤ 1 + 2 ^ z; omega, ?_⟩
    show 1 + 2 ^ z ≤ T.max
    have hw := T.wide
    have h2 : (2 : ℤ) ≤ 2 ^ z := by
      calc (2 : ℤ) = 2 ^ 1 := by norm_num
        _ ≤ 2 ^ z := pow_le_pow_right₀ (by norm_num) (by omega)
    rw [IntTy.max, if_neg (by simp [hs]), h, pow_succ]
    push_cast
    omega
  all_goals
    refine congrArg (Hash.stdHash (z + 1) 1 ^^^ ·) (stdHash_shift_eq_iff.2 ?_)
    simp

/-- **C73** More can not be said: small fractions in lowest terms that differ in both parts
collide, such as `1/2` and `7/1`. -/
theorem C73_small_collision :
    Hash.fraction (Hash.stdHash z) ⟨1, 2⟩ = Hash.fraction (Hash.stdHash z) ⟨7, 1⟩ := by
  have e : ∀ n : ℕ, Hash.stdHash z n = BitVec.ofNat z n := fun n => BitVec.ofInt_natCast z n
  simp only [Hash.fraction, Hash.combine, stdHash_shift]
  have h1 := e 1
  have h2 := e 4
  have h3 := e 7
  have h4 := e 2
  norm_num at h1 h2 h3 h4 ⊢
  rw [h1, h2, h3, h4, ← BitVec.ofNat_xor, ← BitVec.ofNat_xor]
  rfl

example : (⟨1, 2⟩ : Raw).InRange i32 ∧ (⟨1, 3⟩ : Raw).InRange i32 ∧ i32.bits < 64 ∧
    (⟨3, 2⟩ : Raw).InRange i32 ∧ Hash.fraction (Hash.stdHash 64) ⟨1, 2⟩ = 5#64 ∧
    Hash.fraction (Hash.stdHash 64) ⟨1, 3⟩ = 7#64 ∧ Hash.fraction (Hash.stdHash 64) ⟨3, 2⟩ = 7#64 := by
  decide

end Ieme
