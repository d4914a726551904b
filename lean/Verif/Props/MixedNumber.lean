import Verif.Lemmas.MixedProgress

/-!
# Mixed numbers: properties C42–C47
-/

namespace Ieme

open Res IntTy

variable {W F S T : IntTy} {o : Ops} {m m' l r : Mixed} {f : Raw} {w n : ℤ} {x y : ℚ} {b : Bool}

/-- **C42** Construction from a whole part and a fraction keeps the value. -/
theorem C42_construction_exact (hw : W.InRange w) (hx : Denotes f x)
    (h : Mixed.mk' W F o w f ⇓ m) : m.Denotes (w + x) :=
  (Mixed.mk_ok hw (.inr rfl) h).2.2.2 rfl x hx

/-- **C42** A mixed number made from a fraction has exactly its value; the whole part is the
truncated value. -/
theorem C42_from_fraction_exact (hx : Denotes f x) (h : Mixed.ofFraction W F o S f ⇓ m) :
    m.Denotes x ∧ m.whole = ratTrunc x := by
  refine ⟨(Mixed.ofFraction_ok h).2.2.2 x hx, ?_⟩
  obtain ⟨t, ht, h1⟩ := bind_eq_clean.1 h
  obtain ⟨w, hw, h2⟩ := bind_eq_clean.1 h1
  obtain ⟨w', hw', h3⟩ := bind_eq_clean.1 h2
  obtain ⟨d, hd', h4⟩ := bind_eq_clean.1 h3
  obtain ⟨g, hg, h5⟩ := bind_eq_clean.1 h4
  obtain ⟨-, e1⟩ := conv_clean.1 hw
  simp only [pure_eq_ok, and_true] at h5
  rw [← h5, e1]
  exact (Fraction.trunc_ok hx ht).1

/-- **C42** Construction finishes under every policy: for a signed fractional representation,
parts other than its minimum, and whole parts that fit. -/
theorem C42_construction_finishes (hs : F.signed = true) {K : ℕ} (hK : (K : ℤ) ≤ F.max)
    (hf : f.AbsLe K) (hx : Denotes f x) (hw : W.InRange w) (ht : W.InRange (ratTrunc x))
    (hwt : W.InRange (w + ratTrunc x)) : ∃ m, Mixed.mk' W F o w f ⇓ m := by
  obtain ⟨m, hm, -⟩ := Mixed.mk_progress (o := o) hs hK hf hx hw ht hwt
  exact ⟨m, hm⟩

/-- **C42** Construction from a fraction finishes under every policy. -/
theorem C42_from_fraction_finishes (hS : S.signed = true) (hF : F.signed = true) {K : ℕ}
    (hKS : (K : ℤ) ≤ S.max) (hKF : (K : ℤ) ≤ F.max) (hf : f.AbsLe K) (hx : Denotes f x)
    (ht : W.InRange (ratTrunc x)) : ∃ m, Mixed.ofFraction W F o S f ⇓ m := by
  obtain ⟨m, hm, -⟩ := Mixed.ofFraction_progress (o := o) hS hKS hf hx hF hKF ht
  exact ⟨m, hm⟩

example : i32.InRange 3 ∧ Denotes ⟨-7, 4⟩ (-7/4) ∧
    Mixed.mk' i32 i32 .defaults 3 ⟨-7, 4⟩ ⇓ ⟨1, ⟨1, 4⟩⟩ ∧
    Mixed.mk' i32 i32 .defaults (-2) ⟨7, 2⟩ ⇓ ⟨1, ⟨1, 2⟩⟩ ∧
    Mixed.ofFraction i32 i32 .defaults i32 ⟨-8, 3⟩ ⇓ ⟨-2, ⟨-2, 3⟩⟩ ∧
    (⟨-7, 4⟩ : Raw).AbsLe 7 ∧ ((7 : ℕ) : ℤ) ≤ i32.max :=
  ⟨by decide, by norm_num [Denotes], by decide, by decide, by decide, by simp [Raw.AbsLe],
    by decide⟩

/-- **C43, partial.**  Full claim: every mixed number a program can hold satisfies the class
invariant.  Proved for the result of every expression built from constructors, additions and
negations, over any mix of representations, whose evaluation did not wrap.  Where
evaluation wraps the claim is false, see `C43_invariant_broken`. -/
theorem C43_invariant_partial {e : MExpr} (ht : e.WellTyped) (h : e.eval o ⇓ m) : m.Invariant :=
  (MExpr.eval_ok ht h).1

/-- **C43, partial.**  With a signed fractional representation the two-argument constructor
establishes the invariant even if the whole part wraps (hence so do negation and addition,
which end in it). -/
theorem C43_constructor_invariant_partial (hs : F.signed = true) (hw : W.InRange w)
    (h : Mixed.mk' W F o w f = .ok m b) : m.Invariant :=
  (Mixed.mk_ok hw (.inl hs) h).2.1

/-- **C43, refuted in general.**  `mixed_number<int, unsigned>(-1, 1/2)` holds the improper
fraction `4294967295/2`; a mixed number whose whole type is too narrow for the fraction it
is made from keeps an improper fraction as well. -/
theorem C43_invariant_broken :
    (∃ m, Mixed.mk' i32 u32 .defaults (-1) ⟨1, 2⟩ = .ok m true ∧ ¬ m.Invariant) ∧
    (∃ m, Mixed.ofFraction i32 i64 .defaults i64 ⟨8589934593, 2⟩ = .ok m true ∧
      ¬ m.Invariant) := by
  refine ⟨⟨⟨0, ⟨4294967295, 2⟩⟩, by decide, ?_⟩, ⟨⟨0, ⟨8589934593, 2⟩⟩, by decide, ?_⟩⟩ <;>
  · rintro ⟨y, hy, h1, -⟩
    have := (Raw.abs_lt_iff hy).1 h1
    norm_num at this

example : (MExpr.add (.neg (.mk i32 i32 3 ⟨-7, 4⟩)) (.addFraction (.ofFraction i64 i32 i32 ⟨7, 3⟩)
      i32 ⟨-1, 2⟩)).WellTyped ∧
    (MExpr.add (.neg (.mk i32 i32 3 ⟨-7, 4⟩)) (.addFraction (.ofFraction i64 i32 i32 ⟨7, 3⟩)
      i32 ⟨-1, 2⟩)).eval .defaults ⇓ ⟨0, ⟨7, 12⟩⟩ ∧
    Mixed.mk' u32 i32 .defaults 0 ⟨-3, 2⟩ = .ok ⟨4294967294, ⟨1, 2⟩⟩ true :=
  ⟨⟨(by decide : i32.InRange 3), trivial⟩, by decide, by decide⟩

/-- **C44** Adding two mixed numbers of any representations is exact. -/
theorem C44_add_exact {W₁ F₁ W₂ F₂ : IntTy} (hx : l.Denotes x) (hy : r.Denotes y)
    (h : Mixed.add W₁ F₁ W₂ F₂ o l r ⇓ m) : m.Denotes (x + y) :=
  (Mixed.add_ok h).2.2 x y hx hy

/-- **C44** Adding a fraction (on either side) is exact. -/
theorem C44_add_fraction_exact {F₁ F₂ : IntTy} (hx : l.Denotes x) (hy : Denotes f y)
    (h : Mixed.addFraction W F₁ F₂ o l f ⇓ m) : m.Denotes (x + y) :=
  (Mixed.addFraction_ok h).2.2.2 x y hx hy

/-- **C44** Adding an integer (on either side) is exact. -/
theorem C44_add_integer_exact {W₁ W₂ : IntTy} (hx : l.Denotes x)
    (h : Mixed.addWhole W₁ F W₂ o l n ⇓ m) : m.Denotes (x + n) :=
  (Mixed.addWhole_ok h).2.2 x hx

/-- **C44** Any expression over mixed numbers that evaluates cleanly has its exact value. -/
theorem C44_expression_exact {e : MExpr} (ht : e.WellTyped) (h : e.eval o ⇓ m) :
    ∃ q, e.value = some q ∧ m.Denotes q := (MExpr.eval_ok ht h).2

/-- **C44** Adding an integer to a mixed number that satisfies the invariant finishes as soon
as the whole parts add up within range. -/
theorem C44_add_integer_finishes (hs : F.signed = true) {K : ℕ} (hK : (K : ℤ) ≤ F.max)
    (hi : l.Invariant) (hf : l.frac.AbsLe K) (h1 : T.InRange l.whole) (h2 : T.InRange n)
    (h3 : T.InRange (l.whole + n)) : ∃ m, Mixed.addWhole T F T o l n ⇓ m := by
  obtain ⟨y, hy, hy1, -⟩ := hi
  have ht : ratTrunc y = 0 := by
    rw [abs_lt] at hy1
    unfold ratTrunc
    split
    · rw [Int.floor_eq_zero_iff]; constructor <;> linarith
    · rw [Int.ceil_eq_zero_iff]; constructor <;> linarith
  obtain ⟨m, hm, -⟩ := Mixed.mk_progress (o := o) hs hK hf hy h3 (by rw [ht]; simp)
    (by rw [ht]; simpa using h3)
  refine ⟨m, ?_⟩
  simp only [Mixed.addWhole, IntTy.common_self, conv_clean.2 ⟨h1, rfl⟩, conv_clean.2 ⟨h2, rfl⟩,
    add_of_inRange h3, ok_bind_false, hm]

example : (⟨1, ⟨1, 2⟩⟩ : Mixed).Denotes (3/2) ∧ Denotes ⟨-8, 3⟩ (-8/3) ∧
    Mixed.add i32 i32 i64 i32 .defaults ⟨1, ⟨1, 2⟩⟩ ⟨2, ⟨2, 3⟩⟩ ⇓ ⟨4, ⟨1, 6⟩⟩ ∧
    Mixed.addFraction i32 i32 i32 .defaults ⟨1, ⟨1, 2⟩⟩ ⟨-8, 3⟩ ⇓ ⟨-1, ⟨-1, 6⟩⟩ ∧
    Mixed.addWhole i32 i32 i64 .defaults ⟨1, ⟨1, 2⟩⟩ (-2) ⇓ ⟨0, ⟨-1, 2⟩⟩ :=
  ⟨⟨1/2, by norm_num [Denotes], by norm_num⟩, by norm_num [Denotes], by decide, by decide,
    by decide⟩

/-- **C45** Negation is exact. -/
theorem C45_negation_exact (hx : m.Denotes x) (h : m.neg W F o ⇓ m') : m'.Denotes (-x) :=
  (Mixed.neg_ok h).2.2 x hx

/-- **C45** Negating twice gives back the value. -/
theorem C45_negation_involutive {m'' : Mixed} (hx : m.Denotes x) (h : m.neg W F o ⇓ m')
    (h' : m'.neg W F o ⇓ m'') : m''.Denotes x := by
  have := C45_negation_exact (C45_negation_exact hx h) h'
  rwa [neg_neg] at this

/-- **C45** Negation finishes under every policy for a signed fractional representation
unless a part is the minimum of its type; unary plus returns its argument. -/
theorem C45_negation_finishes (hs : F.signed = true) {K : ℕ} (hK : (K : ℤ) ≤ F.max)
    (hi : m.Invariant) (hf : m.frac.AbsLe K) (hw : W.InRange (-m.whole)) :
    (∃ m', m.neg W F o ⇓ m') ∧ m.pos = m := by
  refine ⟨?_, rfl⟩
  obtain ⟨y, hy, hy1, -⟩ := hi
  obtain ⟨f, hf', fit⟩ := Ops.negate_progress (o := o) hs
    (⟨⟨hf.1, by simp [hs]⟩, ⟨hf.2, by simp [hs]⟩⟩ : m.frac.Fit F K) hK
  have hv := Ops.negate_exact hy hf'
  have ht : ratTrunc (-y) = 0 := by
    rw [abs_lt] at hy1
    unfold ratTrunc
    split
    · rw [Int.floor_eq_zero_iff]; constructor <;> linarith
    · rw [Int.ceil_eq_zero_iff]; constructor <;> linarith
  obtain ⟨m', hm, -⟩ := Mixed.mk_progress (o := o) hs hK ⟨fit.1.1, fit.2.1⟩ hv hw
    (by rw [ht]; simp) (by rw [ht]; simpa using hw)
  refine ⟨m', ?_⟩
  simp only [Mixed.neg, neg_of_inRange hw, Fraction.neg, hf', ok_bind_false, hm]

example : (⟨1, ⟨1, 2⟩⟩ : Mixed).Denotes (3/2) ∧
    Mixed.neg i32 i32 .defaults ⟨1, ⟨1, 2⟩⟩ ⇓ ⟨-1, ⟨-1, 2⟩⟩ ∧
    Mixed.neg i32 i32 .defaults ⟨-1, ⟨-1, 2⟩⟩ ⇓ ⟨1, ⟨1, 2⟩⟩ :=
  ⟨⟨1/2, by norm_num [Denotes], by norm_num⟩, by decide, by decide⟩

/-- **C46** Converting a fraction to a mixed number and back keeps the value. -/
theorem C46_round_trip_exact {W' F' : IntTy} {g : Raw} (hx : Denotes f x)
    (h : Mixed.ofFraction W F o S f ⇓ m) (h' : m.asFraction W' F' o ⇓ g) : Denotes g x :=
  Mixed.asFraction_ok (C42_from_fraction_exact hx h).1 h'

/-- **C46** `as_fraction` of any mixed number has its value. -/
theorem C46_as_fraction_exact {g : Raw} (hx : m.Denotes x) (h : m.asFraction W F o ⇓ g) :
    Denotes g x := Mixed.asFraction_ok hx h

/-- **C46** The round trip within one signed type always finishes, under every policy, unless
a part of the fraction is the minimum value. -/
theorem C46_round_trip_finishes (hs : T.signed = true) {K : ℕ} (hK : (K : ℤ) ≤ T.max)
    (hf : f.AbsLe K) (hx : Denotes f x) :
    ∃ m g, Mixed.ofFraction T T o T f ⇓ m ∧ m.asFraction T T o ⇓ g ∧ Denotes g x := by
  have htr : T.InRange (ratTrunc x) := div_inRange (Fraction.trunc_progress hs hK hf hx)
  obtain ⟨m, hm, hmw, hmk, hmd⟩ := Mixed.ofFraction_progress (o := o) hs hK hf hx hs hK htr
  obtain ⟨y, hy, hq⟩ := (C42_from_fraction_exact hx hm).1
  have hmd' : ((m.frac.den.natAbs : ℕ) : ℚ) ≤ f.den.natAbs := by exact_mod_cast hmd
  have hnum : ((f.num.natAbs : ℕ) : ℚ) ≤ K := by exact_mod_cast hf.1
  obtain ⟨g, hg⟩ := Mixed.asFraction_progress (o := o) hs hK hmk hy hq
    (by
      rw [hmw]
      exact (mul_le_mul_of_nonneg_left hmd' (by positivity)).trans
        ((ratTrunc_mul_le hx).trans hnum))
    (by
      refine (mul_le_mul_of_nonneg_left hmd' (by positivity)).trans ?_
      rw [← absLe_num hx]; exact hnum)
    (by rw [hmw]; exact htr)
  exact ⟨m, g, hm, hg, C46_round_trip_exact hx hm hg⟩

example : (⟨-8, 3⟩ : Raw).AbsLe 8 ∧ Denotes ⟨-8, 3⟩ (-8/3) ∧
    Mixed.ofFraction i32 i32 .defaults i32 ⟨-8, 3⟩ ⇓ ⟨-2, ⟨-2, 3⟩⟩ ∧
    Mixed.asFraction i32 i32 .defaults ⟨-2, ⟨-2, 3⟩⟩ ⇓ ⟨-8, 3⟩ :=
  ⟨by simp [Raw.AbsLe], by norm_num [Denotes], by decide, by decide⟩

/-- **C47, partial.**  Full claim: a mixed number made from an undefined fraction is undefined
and there is no undefined behaviour.  Proved: no constructor ever turns an undefined
fraction into a mixed number at all.  The rest of the claim is false because construction
is undefined behaviour, see `C47_undefined_faults`. -/
theorem C47_undefined_never_constructed_partial (h0 : f.den = 0) :
    (¬ ∃ m, Mixed.mk' W F o w f ⇓ m) ∧ (¬ (Mixed.ofFraction W F o S f).Finishes) ∧
    (F.signed = true → W.InRange w → ¬ (Mixed.mk' W F o w f).Finishes) := by
  refine ⟨?_, ?_, ?_⟩
  · rintro ⟨m, h⟩
    obtain ⟨m1, h1, -⟩ := bind_eq_clean.1 h
    exact (Mixed.fixImproper_ok (.inr rfl) h1).1 h0
  · rintro ⟨m, b, h⟩
    obtain ⟨t, _, _, ht, -, -⟩ := bind_eq_ok.1 h
    exact (div_eq_ok.1 ht).1 h0
  · rintro hs hw ⟨m, b, h⟩
    exact (Mixed.mk_ok hw (.inl hs) h).1 h0

/-- **C47, refuted.**  Construction from an undefined fraction divides by zero. -/
theorem C47_undefined_faults :
    (∀ (W F S : IntTy) (o : Ops) (f : Raw), f.den = 0 →
      Mixed.ofFraction W F o S f = .fault .divByZero) ∧
    (∀ (W F : IntTy) (o : Ops) (w n : ℤ), F.InRange n.natAbs → F.InRange n →
      Mixed.mk' W F o w ⟨n, 0⟩ = .fault .divByZero) := by
  constructor
  · intro W F S o f h0
    simp only [Mixed.ofFraction, Fraction.trunc, IntTy.div, h0, if_true, fault_bind]
  · intro W F o w n hn hn'
    have ha : ∀ {v : ℤ}, F.InRange v.natAbs → F.InRange v → mathAbs F v ⇓ |v| := by
      intro v h h'
      refine (mathAbs_eq_ok h').2 ⟨?_, rfl, rfl⟩
      rw [Int.abs_eq_natAbs]; exact h
    have hi : (⟨n, 0⟩ : Raw).isImproper F ⇓ true := by
      simp only [Raw.isImproper, Raw.isProper, ha hn hn',
        ha (v := 0) (by simp) (by simp), ok_bind_false, pure_bind]
      simp [abs_nonneg, pure_def]
    simp only [Mixed.mk', Mixed.fix, Mixed.fixImproper, hi, ok_bind_false, if_true,
      Fraction.trunc, IntTy.div, fault_bind]

example : Mixed.mk' i32 i32 .defaults 3 ⟨0, 0⟩ = .fault .divByZero ∧
    i32.InRange (0 : ℤ).natAbs ∧ (⟨5, 0⟩ : Raw).den = 0 := by decide

end Ieme
