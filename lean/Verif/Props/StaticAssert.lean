import Verif.Lemmas.StaticAssert

/-!
# C142: comparisons evaluated by the compiler
-/

namespace Ieme

open Source Overload Lit Res

variable {text text' text'' : List Char} {op : CmpOp} {e l r : Src} {t s : Ty} {x y : ℚ}

/-- **C142** A text is read as a comparison exactly if it is one: two expressions with an operator
between them. -/
theorem C142_reads : compileCmp text = some (op, l, r) ↔ SpellsCmp text op l r := compileCmp_iff

example : compileCmp "1/2_fr >= 1".toList =
      some (.greaterEqual, .bin .divides (.int i32 1) (.fr 2), .int i32 1) ∧
    compileCmp "1<=>2".toList = none ∧ compileCmp "1<<2".toList = none ∧
    compileCmp "1 = 2".toList = none ∧ compileCmp "1 - > 2".toList = none ∧
    compileCmp "1<2<3".toList = none ∧ compileCmp "1".toList = none := by
  decide +kernel

/-- **C142** No text can be read as two comparisons. -/
theorem C142_unambiguous {op' : CmpOp} {l' r' : Src} (h : SpellsCmp text op l r)
    (h' : SpellsCmp text op' l' r') : op = op' ∧ l = l' ∧ r = r' := by
  have := compileCmp_iff.2 h
  rw [compileCmp_iff.2 h'] at this
  cases this
  exact ⟨rfl, rfl, rfl⟩

example : SpellsCmp "1>=2".toList .greaterEqual (.int i32 1) (.int i32 2) := by
  rw [← compileCmp_iff]
  decide +kernel

/-- **C142** What is not a comparison is rejected. -/
theorem C142_no_comparison (h : ∀ op l r, ¬ SpellsCmp text op l r) : staticAssert text = .rejected := by
  have : compileCmp text = none := by
    cases hc : compileCmp text with
    | none => rfl
    | some p => exact absurd (compileCmp_iff.1 hc) (h _ _ _)
  simp [staticAssert, runTest, this]

example : ∀ op l r, ¬ SpellsCmp "1 = 2".toList op l r := by
  intro op l r h
  have := compileCmp_iff.2 h
  rw [show compileCmp "1 = 2".toList = none by decide +kernel] at this
  cases this

/-- **C142** An equation or inequation that the compiler accepts is true, and one that it finds to fail
is false, where integer literals are decimal and `_fr` literals fit `int`.  *Partial*: for other
literals this is refuted by `C142_equation_wrong`. -/
theorem C142_equation_partial (h : SpellsCmp text op l r) (ho : ¬ op.IsOrder) (sl : l.Small)
    (sr : r.Small) (ml : Means l s x) (mr : Means r t y) :
    (staticAssert text = .holds → op.Holds x y) ∧ (staticAssert text = .fails → ¬ op.Holds x y) := by
  obtain ⟨a, b, -, ha, hb⟩ := id h
  rw [staticAssert_holds, staticAssert_fails, runTest_eq h]
  constructor
  all_goals
    rintro ⟨w, hw⟩
    cases test_flag (fits_of_spells ha) (fits_of_spells hb) sl sr hw
    have := test_exact ml mr (.inl (.inl ho)) hw
    simpa using this

/-- `1/2 + 1/3 = 5/6` -/
def exampleEquation : List Char := "1/2_fr + 1/3_fr == 5/6_fr".toList

/-- Its left side. -/
def exampleSum : Src := .bin .plus (quotient 1 2) (quotient 1 3)

theorem exampleSum_means : Means exampleSum (.frac i32 .defaults) (5 / 6) := by
  have h1 := quotient_means (n := 1) (d := 2) (by decide)
  have h2 := quotient_means (n := 1) (d := 3) (by decide)
  refine .bin h1 h2 (by decide) ?_
  norm_num [binValue, ArithOp.value]

example : SpellsCmp exampleEquation .equalTo exampleSum (quotient 5 6) ∧ exampleSum.Small ∧
    (quotient 5 6).Small ∧ Means (quotient 5 6) (.frac i32 .defaults) (5 / 6) ∧
    staticAssert exampleEquation = .holds ∧
    staticAssert "0.1_dec + 0.2_dec == 0.3_dec".toList = .holds ∧
    staticAssert "0.1_dec + 0.2_dec != 0.3_dec".toList = .fails := by
  refine ⟨by rw [← compileCmp_iff]; decide +kernel, ?_, ?_, ?_, by decide +kernel, by decide +kernel,
    by decide +kernel⟩
  · simp [exampleSum, Src.Small]; decide
  · simp [Src.Small]; decide
  · simpa using quotient_means (n := 5) (d := 6) (by decide)

/-- **C142, refuted in general.** The compiler accepts `1/4294967298_fr == 1/2_fr`, which is false. -/
theorem C142_equation_wrong :
    SpellsCmp "1/4294967298_fr == 1/2_fr".toList .equalTo (quotient 1 4294967298) (quotient 1 2) ∧
    staticAssert "1/4294967298_fr == 1/2_fr".toList = .holds ∧
    Means (quotient 1 4294967298) (.frac i32 .defaults) (1 / 4294967298) ∧
    Means (quotient 1 2) (.frac i32 .defaults) (1 / 2) ∧ ¬ (1 / 4294967298 : ℚ) = 1 / 2 := by
  refine ⟨by rw [← compileCmp_iff]; decide +kernel, by decide +kernel, ?_, ?_, by norm_num⟩
  · simpa using quotient_means (n := 1) (d := 4294967298) (by decide)
  · simpa using quotient_means (n := 1) (d := 2) (by decide)

/-- **C142** Comparisons by order that the compiler accepts are true, and those that it finds to fail
are false, if moreover both sides are fractions or both are integers, or no `_fr` literal has a minus
sign.  *Partial*: otherwise this is refuted by `C142_order_wrong`. -/
theorem C142_order_partial (h : SpellsCmp text op l r) (sl : l.Small) (sr : r.Small)
    (ml : Means l s x) (mr : Means r t y)
    (hs : (∃ S T, s = .int S ∧ t = .int T) ∨ (∃ S T o o', s = .frac S o ∧ t = .frac T o') ∨
      l.Plain ∧ r.Plain) :
    (staticAssert text = .holds → op.Holds x y) ∧ (staticAssert text = .fails → ¬ op.Holds x y) := by
  have hs' : Reliable op (some s) (some t) ∨ l.Plain ∧ r.Plain := by
    rcases hs with ⟨S, T, rfl, rfl⟩ | ⟨S, T, o, o', rfl, rfl⟩ | hp
    · exact .inl (.inr trivial)
    · cases means_textTy ml
      exact .inl (.inr trivial)
    · exact .inr hp
  obtain ⟨a, b, -, ha, hb⟩ := id h
  rw [staticAssert_holds, staticAssert_fails, runTest_eq h]
  constructor
  all_goals
    rintro ⟨w, hw⟩
    cases test_flag (fits_of_spells ha) (fits_of_spells hb) sl sr hw
    have := test_exact ml mr hs' hw
    simpa using this

example : SpellsCmp "1/2_fr + 1/3_fr < 1".toList .less exampleSum (.int i32 1) ∧ exampleSum.Plain ∧
    (Src.int i32 1).Plain ∧ staticAssert "1/2_fr + 1/3_fr < 1".toList = .holds ∧
    staticAssert "1/2_fr + 1/3_fr >= 1".toList = .fails := by
  refine ⟨by rw [← compileCmp_iff]; decide +kernel, ?_, trivial, by decide +kernel, by decide +kernel⟩
  simp [exampleSum, Src.Plain]

/-- **C142, refuted in general.** The compiler accepts that zero is less than `1 / -2_fr`, and finds the
converse to fail. -/
theorem C142_order_wrong : let h : Src := .bin .divides (.int i32 1) (.neg (.fr 2))
    SpellsCmp "0 < 1/-2_fr".toList .less (.int i32 0) h ∧
    SpellsCmp "1/-2_fr < 0".toList .less h (.int i32 0) ∧
    Means h (.frac i32 .defaults) (-1 / 2) ∧ h.Small ∧
    staticAssert "0 < 1/-2_fr".toList = .holds ∧ staticAssert "1/-2_fr < 0".toList = .fails := by
  refine ⟨by rw [← compileCmp_iff]; decide +kernel, by rw [← compileCmp_iff]; decide +kernel, ?_, ?_,
    by decide +kernel, by decide +kernel⟩
  · refine .bin .int (.neg .fr) (by decide) ?_
    norm_num [binValue, ArithOp.value, Ty.neg]
  · simp [Src.Small]; decide

/-- **C142** A comparison of two fractions `n/d_fr`, with parts up to 46340 and in whatever digits and
spacing, is never rejected, and holds exactly if it is true. -/
theorem C142_decides {a b c d w₁ w₂ w₃ w₄ : List Char} {n m p q : ℕ} {za zb zc zd : Bool}
    (ha : IntLit a n za) (hb : IntLit b m zb) (hc : IntLit c p zc) (hd : IntLit d q zd)
    (hn : n ≤ 46340) (hm : m ≤ 46340) (hp : p ≤ 46340) (hq : q ≤ 46340) (m0 : m ≠ 0) (q0 : q ≠ 0)
    (h1 : ∀ c ∈ w₁, c ∈ blanks) (h2 : ∀ c ∈ w₂, c ∈ blanks) (h3 : ∀ c ∈ w₃, c ∈ blanks)
    (h4 : ∀ c ∈ w₄, c ∈ blanks) :
    let text := (w₁ ++ a ++ '/' :: (b ++ "_fr".toList) ++ w₂) ++ cmpText op ++
      (w₃ ++ c ++ '/' :: (d ++ "_fr".toList) ++ w₄)
    staticAssert text ≠ .rejected ∧ (staticAssert text = .holds ↔ op.Holds ((n : ℚ) / m) (p / q)) := by
  intro text
  have hi : ∀ {j : ℕ}, j ≤ 46340 → i32.InRange j := by
    intro j hj
    exact i32_inRange.2 ⟨by omega, by omega⟩
  have hs : SpellsCmp text op (quotient n m) (quotient p q) :=
    ⟨_, _, rfl, quotient_spells ha hb (hi hn) (hi hm) h1 h2,
      quotient_spells hc hd (hi hp) (hi hq) h3 h4⟩
  obtain ⟨z, hz⟩ := test_quotients (op := op) hn hm hp hq
  have ht := test_exact (quotient_means m0) (quotient_means q0)
    (.inr ⟨⟨trivial, trivial⟩, trivial, trivial⟩) hz
  have hr := (runTest_eq hs).trans hz
  unfold staticAssert
  rw [hr, ← ht]
  cases z <;> simp

example : IntLit ['3'] 3 true ∧ IntLit "0x4".toList 4 false ∧
    staticAssert "3/0x4_fr<4 / 5_fr".toList = .holds ∧
    staticAssert "1/2147483647_fr != 1/2147483646_fr".toList = .rejected := by
  refine ⟨.dec (.digit (by decide)) (by decide),
    .hex (s := ['4']) (by decide) (.digit (by decide)), by decide +kernel, by decide +kernel⟩

/-- **C142** Equations that are accepted can be chained: the one that follows from them does not fail. -/
theorem C142_chain {u : Ty} {z : ℚ} {e' : Src} (h1 : SpellsCmp text .equalTo l r)
    (h2 : SpellsCmp text' .equalTo r e') (h3 : SpellsCmp text'' .equalTo l e') (sl : l.Small)
    (sr : r.Small) (se : e'.Small) (ml : Means l s x) (mr : Means r t y) (me : Means e' u z)
    (a1 : staticAssert text = .holds) (a2 : staticAssert text' = .holds) :
    staticAssert text'' ≠ .fails := by
  have hn : ¬ CmpOp.equalTo.IsOrder := by simp [CmpOp.IsOrder]
  have e1 := (C142_equation_partial h1 hn sl sr ml mr).1 a1
  have e2 := (C142_equation_partial h2 hn sr se mr me).1 a2
  intro hf
  refine (C142_equation_partial h3 hn sl se ml me).2 hf ?_
  simp only [CmpOp.Holds] at e1 e2 ⊢
  exact e1.trans e2

example : staticAssert "1/2_fr + 1/3_fr == 5/6_fr".toList = .holds ∧
    staticAssert "5/6_fr == 1 - 1/6_fr".toList = .holds ∧
    staticAssert "1/2_fr + 1/3_fr == 1 - 1/6_fr".toList = .holds := by
  decide +kernel

/-- **C142** Overflow, division of integers by zero and malformed decimals are found when the program
is compiled; division by a zero literal and of a fraction by zero are not, and give fractions unequal
to everything, themselves included. -/
theorem C142_pitfalls :
    staticAssert "2147483647/1_fr + 1/1_fr != 0".toList = .rejected ∧
    staticAssert "1/0 == 1".toList = .rejected ∧ staticAssert "10_dec == 10".toList = .rejected ∧
    staticAssert "2_fr == 2".toList = .rejected ∧
    staticAssert "1/0_fr == 1/0_fr".toList = .fails ∧ staticAssert "1/0_fr != 1/0_fr".toList = .holds ∧
    staticAssert "1/2_fr/0 == 1/2_fr/0".toList = .fails ∧
    staticAssert "2/3/4_fr == 0".toList = .holds ∧ staticAssert "1/010_fr == 1/8_fr".toList = .holds := by
  decide +kernel

end Ieme
