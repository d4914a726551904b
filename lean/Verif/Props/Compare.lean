import Verif.Lemmas.CompareArgs
import Verif.Lemmas.Fraction

/-!
# Comparisons and undefined operands: properties C13–C19
-/

namespace Ieme

open Res IntTy

variable {T : IntTy} {o : Ops} {a : Args} {x y : ℚ} {b c : Bool}

/-- **C13** `==` that finishes cleanly on defined operands is equality of values. -/
theorem C13_eq_exact (ha : a.Denote x y) (h : o.cmp T .equalTo a ⇓ b) : b = true ↔ x = y :=
  (Ops.cmp_form ha h).eq_iff

example : Ops.fast.cmp i32 .equalTo (.ff ⟨1, -2⟩ ⟨-3, 6⟩) ⇓ true ∧
    Ops.defaults.cmp i32 .equalTo (.fr ⟨6, -3⟩ (-2)) ⇓ true ∧
    Ops.defaults.cmp i32 .equalTo (.ff ⟨1, 2⟩ ⟨1, 3⟩) ⇓ false ∧
    (Args.ff ⟨1, -2⟩ ⟨-3, 6⟩).Denote (-1/2) (-1/2) :=
  ⟨by decide, by decide, by decide, by norm_num [Args.Denote, Denotes]⟩

/-- **C14** `!=` and `==` finish together (with the same flag) and are opposite. -/
theorem C14_ne_not_eq {w : Bool} :
    o.cmp T .notEqualTo a = .ok b w ↔ o.cmp T .equalTo a = .ok (!b) w := by
  rw [Ops.cmp_not]
  cases h : o.cmp T .equalTo a with
  | fault k => simp only [fault_bind, reduceCtorEq]
  | ok v w' =>
    simp only [bind_eq_ok, pure_eq_ok, Res.ok.injEq]
    constructor
    · rintro ⟨v', w1, w2, ⟨rfl, rfl⟩, ⟨rfl, rfl⟩, rfl⟩; simp
    · rintro ⟨rfl, rfl⟩; exact ⟨_, _, _, ⟨rfl, rfl⟩, ⟨by simp, rfl⟩, by simp⟩

/-- **C14** If `==` is undefined behaviour then so is `!=`, with the same fault, and
conversely. -/
theorem C14_ne_fault_iff {k : Fault} :
    o.cmp T .notEqualTo a = .fault k ↔ o.cmp T .equalTo a = .fault k := by
  rw [Ops.cmp_not]
  cases h : o.cmp T .equalTo a with
  | fault k => simp only [fault_bind, Res.fault.injEq]
  | ok v w' => simp [Res.bind_def, Res.bind, Res.pure_def]

example : Ops.defaults.cmp i32 .notEqualTo (.ff ⟨1, 0⟩ ⟨1, 0⟩) ⇓ true ∧
    Ops.defaults.cmp i32 .equalTo (.ff ⟨1, 0⟩ ⟨1, 0⟩) ⇓ false ∧
    Ops.safe.cmp i32 .equalTo (.ff ⟨1, 65536⟩ ⟨1, 65537⟩) = .fault .lcmPrecond := by decide

/-! ### C15 -/

/-- **C15** (part) For positive denominators every order comparison that finishes cleanly is
the order of the values. Missing from the full property: negative denominators, for which
`C15_order_characterised` says exactly what happens. -/
theorem C15_order_exact_partial {op : CmpOp} (ha : a.Denote x y) (hp : a.PosDen)
    (h : o.cmp T op a ⇓ b) : b = true ↔ op.Holds x y :=
  (Ops.cmp_form ha h).order_good (Ops.orderSafe_of_posDen hp)

/-- **C15** Comparing two fractions with a policy built on `safe` is exact whatever the
signs of the denominators. -/
theorem C15_safe_ff_exact {op : CmpOp} {l r : Raw} (hs : o.SafeBased) (hl : Denotes l x)
    (hr : Denotes r y) (h : o.cmp T op (.ff l r) ⇓ b) : b = true ↔ op.Holds x y := by
  refine (Ops.cmp_form (a := .ff l r) ⟨hl, hr⟩ h).order_good ?_
  clear h
  induction o generalizing l r with
  | safe => trivial
  | fast => exact hs.elim
  | reducedInput o mode ih => cases mode <;> [trivial; exact ih hs hl hr]
  | reducedOutput o mode ih => exact ih hs hl hr

/-- **C15** What order comparisons answer in all cases: the order of the values when
`OrderSafe` holds and exactly the reversed order when it does not. -/
theorem C15_order_characterised {op : CmpOp} (ha : a.Denote x y) (h : o.cmp T op a ⇓ b) :
    (o.OrderSafe a → (b = true ↔ op.Holds x y)) ∧
    (¬ o.OrderSafe a → (b = true ↔ op.Holds y x)) :=
  ⟨(Ops.cmp_form ha h).order_good, (Ops.cmp_form ha h).order_bad⟩

/-- **C15** (negation) The full property is false already for the default policy:
`1/(-2) < 0` answers false. -/
theorem C15_order_wrong_for_negative_denominator :
    ¬ ∀ (T : IntTy) (o : Ops) (op : CmpOp) (a : Args) (x y : ℚ) (b : Bool), a.Denote x y →
      o.cmp T op a ⇓ b → (b = true ↔ op.Holds x y) := by
  intro h
  have := h i32 .defaults .less (.fr ⟨1, -2⟩ 0) (-1/2) 0 false
    (by norm_num [Args.Denote, Denotes]) (by decide)
  norm_num [CmpOp.Holds] at this

example : Ops.defaults.cmp i32 .less (.ff ⟨1, -2⟩ ⟨1, 3⟩) ⇓ true ∧ Ops.defaults.SafeBased ∧
    Ops.fast.cmp i32 .less (.ff ⟨1, -2⟩ ⟨1, 3⟩) ⇓ false ∧
    Ops.defaults.cmp i32 .lessEqual (.fr ⟨-7, 2⟩ (-3)) ⇓ true ∧ (Args.fr ⟨-7, 2⟩ (-3)).PosDen :=
  ⟨by decide, trivial, by decide, by decide, by simp [Args.PosDen]⟩

/-! ### C16 -/

/-- **C16** With an undefined operand, a finishing comparison is false, except `!=`, which
is true — for every policy, overload and representation, even after wrap-around. -/
theorem C16_undefined_comparisons {op : CmpOp} {w : Bool} (hu : a.HasUndefined)
    (h : o.cmp T op a = .ok b w) : b = decide (op = .notEqualTo) := by
  rw [Ops.cmp_undefined hu h]; cases op <;> rfl

/-- **C16** `safe` always finishes on two fractions one of which is undefined. -/
theorem C16_safe_ff_finishes (op : CmpOp) {l r : Raw} (hu : l.den = 0 ∨ r.den = 0) :
    Ops.safe.cmp T op (.ff l r) ⇓ decide (op = .notEqualTo) := by
  rw [show decide (op = .notEqualTo) = op.undefAnswer by cases op <;> rfl]
  exact Safe.cmp_ff_undefined op hu

/-- **C16** So does every policy built on `safe`, the default included, when the absolute
values of all parts are representable (always, except for the minimum of a signed type). -/
theorem C16_safe_based_ff_finishes (hs : o.SafeBased) (op : CmpOp) {l r : Raw}
    (hu : l.den = 0 ∨ r.den = 0) (hl : l.InRange T) (hr : r.InRange T)
    (al : T.InRange l.num.natAbs ∧ T.InRange l.den.natAbs)
    (ar : T.InRange r.num.natAbs ∧ T.InRange r.den.natAbs) :
    o.cmp T op (.ff l r) ⇓ decide (op = .notEqualTo) := by
  rw [show decide (op = .notEqualTo) = op.undefAnswer by cases op <;> rfl]
  exact Ops.cmp_ff_undefined_finishes hs op hu hl hr al ar

example : Ops.defaults.cmp i32 .lessEqual (.ff ⟨1, 0⟩ ⟨1, 2⟩) ⇓ false ∧
    Ops.fast.cmp i32 .greaterEqual (.rf 5 ⟨-7, 0⟩) ⇓ false ∧
    (Args.rf 5 ⟨-7, 0⟩).HasUndefined := ⟨by decide, by decide, rfl⟩

/-- **C16** The representability hypothesis is needed: `INT_MIN/3 == 0/0` is undefined
behaviour under the default policy. -/
theorem C16_min_value_faults :
    Ops.defaults.cmp i32 .equalTo (.ff ⟨-2147483648, 3⟩ ⟨0, 0⟩) = .fault .gcdPrecond := by decide

/-! ### C17 -/

section C17

variable {f g k : Raw}

private theorem cmp_ff_iff {op : CmpOp} (hf : 0 < f.den) (hg : 0 < g.den) (h : o.cmp T op (.ff f g) ⇓ b) :
    b = true ↔ op.Holds ((f.num : ℚ) / f.den) ((g.num : ℚ) / g.den) :=
  C15_order_exact_partial (a := .ff f g) ⟨denotes_self hf.ne', denotes_self hg.ne'⟩ ⟨hf, hg⟩ h

/-- **C17** `<` is irreflexive. -/
theorem C17_irreflexive (hf : 0 < f.den) (h : o.cmp T .less (.ff f f) ⇓ b) : b = false := by
  have := cmp_ff_iff hf hf h
  simp only [CmpOp.Holds, lt_self_iff_false, iff_false, Bool.not_eq_true] at this
  exact this

/-- **C17** `<` is asymmetric. -/
theorem C17_asymmetric (hf : 0 < f.den) (hg : 0 < g.den) (h : o.cmp T .less (.ff f g) ⇓ true)
    (h' : o.cmp T .less (.ff g f) ⇓ b) : b = false := by
  have e1 := (cmp_ff_iff hf hg h).1 rfl
  have e2 := cmp_ff_iff hg hf h'
  by_contra hb
  exact absurd (e2.1 (by simpa using hb)) (not_lt.2 (le_of_lt e1))

/-- **C17** `<` is transitive. -/
theorem C17_transitive (hf : 0 < f.den) (hg : 0 < g.den) (hk : 0 < k.den)
    (h : o.cmp T .less (.ff f g) ⇓ true) (h' : o.cmp T .less (.ff g k) ⇓ true)
    (h'' : o.cmp T .less (.ff f k) ⇓ b) : b = true :=
  (cmp_ff_iff hf hk h'').2 (lt_trans ((cmp_ff_iff hf hg h).1 rfl) ((cmp_ff_iff hg hk h').1 rfl))

/-- **C17** Two fractions are incomparable under `<` exactly when `==` holds. -/
theorem C17_incomparable_iff_eq {b1 b2 b3 : Bool} (hf : 0 < f.den) (hg : 0 < g.den)
    (h1 : o.cmp T .less (.ff f g) ⇓ b1) (h2 : o.cmp T .less (.ff g f) ⇓ b2)
    (h3 : o.cmp T .equalTo (.ff f g) ⇓ b3) : (b1 = false ∧ b2 = false) ↔ b3 = true := by
  have e1 := cmp_ff_iff hf hg h1
  have e2 := cmp_ff_iff hg hf h2
  have e3 := cmp_ff_iff hf hg h3
  simp only [CmpOp.Holds] at e1 e2 e3
  rw [← Bool.not_eq_true, ← Bool.not_eq_true, e1, e2, e3, not_lt, not_lt]
  constructor
  · rintro ⟨u, v⟩; exact le_antisymm v u
  · intro u; rw [u]; simp

/-- **C17** Exactly one of `a < b`, `a == b`, `a > b` holds. -/
theorem C17_trichotomy {b1 b2 b3 : Bool} (hf : 0 < f.den) (hg : 0 < g.den)
    (h1 : o.cmp T .less (.ff f g) ⇓ b1) (h2 : o.cmp T .equalTo (.ff f g) ⇓ b2)
    (h3 : o.cmp T .greater (.ff f g) ⇓ b3) :
    (b1, b2, b3) = (true, false, false) ∨ (b1, b2, b3) = (false, true, false) ∨
      (b1, b2, b3) = (false, false, true) := by
  have e1 := cmp_ff_iff hf hg h1
  have e2 := cmp_ff_iff hf hg h2
  have e3 := cmp_ff_iff hf hg h3
  simp only [CmpOp.Holds] at e1 e2 e3
  rcases lt_trichotomy ((f.num : ℚ) / f.den) ((g.num : ℚ) / g.den) with h | h | h
  · left
    have n2 : ¬ b2 = true := fun hb => absurd (e2.1 hb) h.ne
    have n3 : ¬ b3 = true := fun hb => absurd (e3.1 hb) (not_lt.2 h.le)
    simp [e1.2 h, Bool.eq_false_of_not_eq_true n2, Bool.eq_false_of_not_eq_true n3]
  · right; left
    have n1 : ¬ b1 = true := fun hb => absurd (e1.1 hb) (by rw [h]; exact lt_irrefl _)
    have n3 : ¬ b3 = true := fun hb => absurd (e3.1 hb) (by rw [h]; exact lt_irrefl _)
    simp [e2.2 h, Bool.eq_false_of_not_eq_true n1, Bool.eq_false_of_not_eq_true n3]
  · right; right
    have n1 : ¬ b1 = true := fun hb => absurd (e1.1 hb) (not_lt.2 h.le)
    have n2 : ¬ b2 = true := fun hb => absurd (e2.1 hb) h.ne'
    simp [e3.2 h, Bool.eq_false_of_not_eq_true n1, Bool.eq_false_of_not_eq_true n2]

example : Ops.defaults.cmp i32 .less (.ff ⟨1, 3⟩ ⟨1, 2⟩) ⇓ true ∧
    Ops.defaults.cmp i32 .less (.ff ⟨1, 2⟩ ⟨4, 6⟩) ⇓ true ∧
    Ops.defaults.cmp i32 .less (.ff ⟨1, 3⟩ ⟨4, 6⟩) ⇓ true ∧
    Ops.defaults.cmp i32 .less (.ff ⟨1, 2⟩ ⟨1, 3⟩) ⇓ false ∧
    Ops.defaults.cmp i32 .less (.ff ⟨1, 2⟩ ⟨2, 4⟩) ⇓ false ∧
    Ops.defaults.cmp i32 .less (.ff ⟨2, 4⟩ ⟨1, 2⟩) ⇓ false ∧
    Ops.defaults.cmp i32 .equalTo (.ff ⟨1, 2⟩ ⟨2, 4⟩) ⇓ true := by decide

end C17

/-! ### C18 -/

/-- **C18** `a > b` is `b < a`, `a >= b` is `b <= a` and conversely, for every policy and all
operands, whether defined or not. -/
theorem C18_swap {op : CmpOp} {w w' : Bool} (hop : op.IsOrder)
    (h1 : o.cmp T op a = .ok b w) (h2 : o.cmp T op.swap a.swap = .ok c w') : b = c :=
  Ops.cmp_swap hop h1 h2

/-- **C18** `a <= b` holds exactly when `a < b` or `a == b`, for every policy and all
operands, defined or not, whatever the denominators' signs. -/
theorem C18_le_iff_lt_or_eq {b1 b2 b3 : Bool} (h1 : o.cmp T .lessEqual a ⇓ b1)
    (h2 : o.cmp T .less a ⇓ b2) (h3 : o.cmp T .equalTo a ⇓ b3) :
    b1 = true ↔ b2 = true ∨ b3 = true := by
  rcases a.denote_or_undefined with ⟨x, y, ha⟩ | hu
  · have e3 := C13_eq_exact ha h3
    by_cases hs : o.OrderSafe a
    · rw [(C15_order_characterised ha h1).1 hs, (C15_order_characterised ha h2).1 hs, e3]
      exact le_iff_lt_or_eq
    · rw [(C15_order_characterised ha h1).2 hs, (C15_order_characterised ha h2).2 hs, e3]
      rw [eq_comm]
      exact le_iff_lt_or_eq
  · rw [C16_undefined_comparisons hu h1, C16_undefined_comparisons hu h2,
      C16_undefined_comparisons hu h3]
    simp

/-- **C18** `==` and `!=` with an integer `n` agree with comparison to the fraction `n/1`,
whatever the sign of the denominator, also for undefined fractions. -/
theorem C18_integer_as_fraction_eq {op : CmpOp} (hop : op = .equalTo ∨ op = .notEqualTo)
    {f : Raw} {n : ℤ} :
    (o.cmp T op (.fr f n) ⇓ b → o.cmp T op (.ff f ⟨n, 1⟩) ⇓ c → b = c) ∧
    (o.cmp T op (.rf n f) ⇓ b → o.cmp T op (.ff ⟨n, 1⟩ f) ⇓ c → b = c) := by
  have hn : Denotes ⟨n, 1⟩ n := by simp [Denotes]
  by_cases hf : f.den = 0
  · constructor
    · intro h1 h2
      rw [C16_undefined_comparisons (a := .fr f n) hf h1,
        C16_undefined_comparisons (a := .ff f ⟨n, 1⟩) (.inl hf) h2]
    · intro h1 h2
      rw [C16_undefined_comparisons (a := .rf n f) hf h1,
        C16_undefined_comparisons (a := .ff ⟨n, 1⟩ f) (.inr hf) h2]
  · have hd := denotes_self hf
    constructor
    · intro h1 h2
      rw [Bool.eq_iff_iff]
      rcases hop with rfl | rfl
      · rw [(Ops.cmp_form (a := .fr f n) ⟨hd, rfl⟩ h1).eq_iff,
          (Ops.cmp_form (a := .ff f ⟨n, 1⟩) ⟨hd, hn⟩ h2).eq_iff]
      · rw [(Ops.cmp_form (a := .fr f n) ⟨hd, rfl⟩ h1).ne_iff,
          (Ops.cmp_form (a := .ff f ⟨n, 1⟩) ⟨hd, hn⟩ h2).ne_iff]
    · intro h1 h2
      rw [Bool.eq_iff_iff]
      rcases hop with rfl | rfl
      · rw [(Ops.cmp_form (a := .rf n f) ⟨rfl, hd⟩ h1).eq_iff,
          (Ops.cmp_form (a := .ff ⟨n, 1⟩ f) ⟨hn, hd⟩ h2).eq_iff]
      · rw [(Ops.cmp_form (a := .rf n f) ⟨rfl, hd⟩ h1).ne_iff,
          (Ops.cmp_form (a := .ff ⟨n, 1⟩ f) ⟨hn, hd⟩ h2).ne_iff]

/-- **C18** (part) Order comparison with an integer `n` agrees with comparison to `n/1` for
fractions with non-negative denominator (undefined ones included). Missing: negative
denominators, where it is false. -/
theorem C18_integer_as_fraction_partial {op : CmpOp} {f : Raw} {n : ℤ} (hf : 0 ≤ f.den) :
    (o.cmp T op (.fr f n) ⇓ b → o.cmp T op (.ff f ⟨n, 1⟩) ⇓ c → b = c) ∧
    (o.cmp T op (.rf n f) ⇓ b → o.cmp T op (.ff ⟨n, 1⟩ f) ⇓ c → b = c) := by
  have hn : Denotes ⟨n, 1⟩ n := by simp [Denotes]
  rcases hf.eq_or_lt with hf | hf
  · have hf := hf.symm
    constructor
    · intro h1 h2
      rw [C16_undefined_comparisons (a := .fr f n) hf h1,
        C16_undefined_comparisons (a := .ff f ⟨n, 1⟩) (.inl hf) h2]
    · intro h1 h2
      rw [C16_undefined_comparisons (a := .rf n f) hf h1,
        C16_undefined_comparisons (a := .ff ⟨n, 1⟩ f) (.inr hf) h2]
  · have hd := denotes_self hf.ne'
    constructor
    · intro h1 h2
      rw [Bool.eq_iff_iff, C15_order_exact_partial (a := .fr f n) ⟨hd, rfl⟩ hf h1,
        C15_order_exact_partial (a := .ff f ⟨n, 1⟩) ⟨hd, hn⟩ ⟨hf, by simp⟩ h2]
    · intro h1 h2
      rw [Bool.eq_iff_iff, C15_order_exact_partial (a := .rf n f) ⟨rfl, hd⟩ hf h1,
        C15_order_exact_partial (a := .ff ⟨n, 1⟩ f) ⟨hn, hd⟩ ⟨by simp, hf⟩ h2]

/-- **C18** (negation) Under the default policy `1/(-2) < 0` is false but `1/(-2) < 0/1` is
true. -/
theorem C18_integer_as_fraction_false :
    ¬ ∀ (T : IntTy) (o : Ops) (op : CmpOp) (f : Raw) (n : ℤ) (b c : Bool),
      o.cmp T op (.fr f n) ⇓ b → o.cmp T op (.ff f ⟨n, 1⟩) ⇓ c → b = c := by
  intro h
  have := h i32 .defaults .less ⟨1, -2⟩ 0 false true (by decide) (by decide)
  cases this

example : Ops.defaults.cmp i32 .greater (.fr ⟨7, 2⟩ 3) ⇓ true ∧
    CmpOp.greater.IsOrder ∧ (Args.fr ⟨7, 2⟩ 3).swap = .rf 3 ⟨7, 2⟩ ∧
    Ops.defaults.cmp i32 .less (.rf 3 ⟨7, 2⟩) ⇓ true ∧
    Ops.defaults.cmp i32 .greater (.ff ⟨7, 2⟩ ⟨3, 1⟩) ⇓ true ∧
    Ops.defaults.cmp i32 .equalTo (.fr ⟨4, -2⟩ (-2)) ⇓ true ∧
    Ops.defaults.cmp i32 .equalTo (.ff ⟨4, -2⟩ ⟨-2, 1⟩) ⇓ true :=
  ⟨by decide, trivial, rfl, by decide, by decide, by decide, by decide⟩

/-! ### C19 -/

/-- **C19** (part) Arithmetic with an undefined operand that finishes (even after unsigned
wrap-around) is undefined — except possibly division of a defined dividend by `p/0` with
`p ≠ 0` under a policy that does not reduce its input. Missing from the full property: that
exception and the absence of undefined behaviour, both false (see below). -/
theorem C19_undefined_propagates_partial {op : ArithOp} {r : Raw} {w : Bool} (hu : a.HasUndefined)
    (hd : op = .divides → o.ReducesInput ∨ ¬ a.LostDivisor) (h : o.arith T op a = .ok r w) :
    r.den = 0 :=
  Ops.arith_undefined hu hd h

/-- **C19** Under the default policy there is no exception. -/
theorem C19_defaults_propagates_partial {op : ArithOp} {r : Raw} {w : Bool} (hu : a.HasUndefined)
    (h : Ops.defaults.arith T op a = .ok r w) : r.den = 0 :=
  Ops.arith_undefined (o := .defaults) hu (fun _ => .inl trivial) h

/-- **C19** Negating an undefined fraction gives an undefined fraction. -/
theorem C19_neg_undefined {v r : Raw} {w : Bool} (hu : v.den = 0)
    (h : Fraction.neg T o v = .ok r w) : r.den = 0 :=
  Ops.negate_undefined hu h

/-- **C19** Adding an undefined fraction and an integer, or subtracting an integer from an
undefined fraction, never faults under `safe` and `fast`, and the result is undefined. -/
theorem C19_integer_operand_finishes (hs : o = .safe ∨ o = .fast) {f : Raw} {n : ℤ}
    (hf : f.den = 0) (ir : f.InRange T) :
    (∃ r, o.arith T .plus (.fr f n) ⇓ r ∧ r.den = 0) ∧
    (∃ r, o.arith T .minus (.fr f n) ⇓ r ∧ r.den = 0) ∧
    (∃ r, o.arith T .plus (.rf n f) ⇓ r ∧ r.den = 0) := by
  have e1 : T.add f.num 0 ⇓ f.num := add_clean.2 ⟨by simpa using ir.1, by simp⟩
  have e2 : T.sub f.num 0 ⇓ f.num := sub_clean.2 ⟨by simpa using ir.1, by simp⟩
  rcases hs with rfl | rfl
  · refine ⟨⟨f, ?_, hf⟩, ⟨f, ?_, hf⟩, ⟨f, ?_, hf⟩⟩ <;>
      simp only [Ops.arith, Safe.arith, Safe.plusFR, Safe.plusRF, Safe.minusFR, hf, mul_zero_ok,
        ok_bind_false, e1, e2, pure_def] <;> rw [← hf]
  · refine ⟨⟨f, ?_, hf⟩, ⟨f, ?_, hf⟩, ⟨f, ?_, hf⟩⟩ <;>
      simp only [Ops.arith, Fast.arith, Fast.plusFR, Fast.plusRF, Fast.minusFR, hf, mul_zero_ok,
        ok_bind_false, e1, e2, pure_def] <;> rw [← hf]

/-- **C19** (negation) `safe`'s sum, difference and remainder of two fractions, one of them
undefined, never finish: they divide by zero. -/
theorem C19_safe_ff_never_finishes {op : ArithOp}
    (hop : op = .plus ∨ op = .minus ∨ op = .modulus) {l r : Raw} (hu : l.den = 0 ∨ r.den = 0) :
    ¬ (Ops.safe.arith T op (.ff l r)).Finishes :=
  Safe.ff_undefined_fault hop hu

/-- **C19** (negation) The full property is false: under the default policy `1/0 + 1/2` is
undefined behaviour, and under `safe` `1/2` divided by the undefined `3/0` is the defined
fraction `0/6`. -/
theorem C19_undefined_not_propagated :
    Ops.defaults.arith i32 .plus (.ff ⟨1, 0⟩ ⟨1, 2⟩) = .fault .divByZero ∧
    Ops.safe.arith i32 .divides (.ff ⟨1, 2⟩ ⟨3, 0⟩) ⇓ ⟨0, 6⟩ ∧
    Ops.fast.arith i32 .modulus (.ff ⟨1, 0⟩ ⟨1, 2⟩) = .fault .divByZero := by decide

example : (Args.ff ⟨1, 0⟩ ⟨1, 2⟩).HasUndefined ∧
    Ops.fast.arith i32 .plus (.ff ⟨1, 0⟩ ⟨1, 2⟩) ⇓ ⟨2, 0⟩ ∧
    Ops.defaults.arith i32 .divides (.ff ⟨1, 2⟩ ⟨3, 0⟩) ⇓ ⟨0, 0⟩ :=
  ⟨.inl rfl, by decide, by decide⟩

end Ieme
