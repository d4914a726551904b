import Verif.Props.Compare
import Verif.Props.Reduce
import Verif.Props.Hash
import Verif.Props.Resist
import Verif.Props.LiteralExact
import Verif.Props.ParseMore
import Verif.Props.FloatMonotone
import Verif.Props.Directed
import Verif.Lemmas.DurationSign

/-!
# Exactly where the properties that hold in part fail

For properties whose general claim the code violates (C15, C18, C23, C73, C74, C83, C88): the
exact set of inputs on which it holds, or what remains of it on the others.
-/

namespace Ieme

open Res IntTy Lit Parse FloatingPoint Chrono

variable {T : IntTy} {o : Ops} {f g r r' : Raw} {a : Args} {x y : ℚ} {b c : Bool}

/-- **C15** A comparison that finishes cleanly answers for the values exactly when the signs of
the denominators meet `OrderSafe`, or the values are equal, or it is `==` or `!=`. -/
theorem C15_correct_iff {op : CmpOp} (ha : a.Denote x y) (h : o.cmp T op a ⇓ b) :
    (b = true ↔ op.Holds x y) ↔ o.OrderSafe a ∨ x = y ∨ ¬ op.IsOrder := by
  obtain ⟨h1, h2⟩ := C15_order_characterised ha h
  by_cases hs : o.OrderSafe a
  · exact ⟨fun _ => .inl hs, fun _ => h1 hs⟩
  · rw [h2 hs]
    simp only [hs, false_or]
    rcases lt_trichotomy x y with hl | rfl | hl
    · cases op <;> simp [CmpOp.Holds, CmpOp.IsOrder, hl, hl.le, hl.ne, hl.ne', hl.not_gt, hl.not_ge]
    · simp
    · cases op <;> simp [CmpOp.Holds, CmpOp.IsOrder, hl, hl.le, hl.ne, hl.ne', hl.not_gt, hl.not_ge]

example : (Args.fr ⟨1, -2⟩ 0).Denote (-1/2) 0 ∧ Ops.defaults.cmp i32 .less (.fr ⟨1, -2⟩ 0) ⇓ false ∧
    ¬ Ops.defaults.OrderSafe (.fr ⟨1, -2⟩ 0) ∧
    Ops.defaults.cmp i32 .lessEqual (.fr ⟨4, -2⟩ (-2)) ⇓ true :=
  ⟨by norm_num [Args.Denote, Denotes], by decide,
    by simp [Ops.OrderSafe, Ops.defaults, Ops.safeReducedIO, Ops.safeReducedO], by decide⟩

/-- **C18** An order comparison of a fraction with an integer `n` agrees with the comparison to
`n/1` exactly when the fraction equals `n` or the policy orders both or neither correctly. -/
theorem C18_integer_as_fraction_iff {op : CmpOp} {n : ℤ} (hop : op.IsOrder) (hx : Denotes f x) :
    (o.cmp T op (.fr f n) ⇓ b → o.cmp T op (.ff f ⟨n, 1⟩) ⇓ c →
      (b = c ↔ x = n ∨ (o.OrderSafe (.fr f n) ↔ o.OrderSafe (.ff f ⟨n, 1⟩)))) ∧
    (o.cmp T op (.rf n f) ⇓ b → o.cmp T op (.ff ⟨n, 1⟩ f) ⇓ c →
      (b = c ↔ x = n ∨ (o.OrderSafe (.rf n f) ↔ o.OrderSafe (.ff ⟨n, 1⟩ f)))) := by
  have hn : Denotes ⟨n, 1⟩ n := by simp [Denotes]
  have key : ∀ {a a' : Args} {x y : ℚ}, a.Denote x y → a'.Denote x y → o.cmp T op a ⇓ b →
      o.cmp T op a' ⇓ c → (b = c ↔ x = y ∨ (o.OrderSafe a ↔ o.OrderSafe a')) := by
    intro a a' x y ha ha' h1 h2
    obtain ⟨p1, p2⟩ := C15_order_characterised ha h1
    obtain ⟨q1, q2⟩ := C15_order_characterised ha' h2
    have hne : (op.Holds x y ↔ op.Holds y x) ↔ x = y := by
      rcases lt_trichotomy x y with hl | rfl | hl
      · cases op <;> first
          | exact hop.elim
          | simp [CmpOp.Holds, hl, hl.le, hl.ne, hl.not_gt, hl.not_ge]
      · simp
      · cases op <;> first
          | exact hop.elim
          | simp [CmpOp.Holds, hl, hl.le, hl.ne', hl.not_gt, hl.not_ge]
    rw [Bool.eq_iff_iff]
    by_cases s1 : o.OrderSafe a <;> by_cases s2 : o.OrderSafe a'
    · simp [p1 s1, q1 s2, s1, s2]
    · rw [p1 s1, q2 s2, hne]; simp [s1, s2]
    · rw [p2 s1, q1 s2, iff_comm (a := op.Holds y x), hne]; simp [s1, s2]
    · simp [p2 s1, q2 s2, s1, s2]
  refine ⟨key (a := .fr f n) (a' := .ff f ⟨n, 1⟩) ⟨hx, rfl⟩ ⟨hx, hn⟩, fun h1 h2 => ?_⟩
  rw [key (a := .rf n f) (a' := .ff ⟨n, 1⟩ f) (x := n) (y := x) ⟨rfl, hx⟩ ⟨hn, hx⟩ h1 h2, eq_comm]

example : CmpOp.less.IsOrder ∧ Denotes ⟨1, -2⟩ (-1/2) ∧
    Ops.safe.cmp i32 .less (.fr ⟨1, -2⟩ 0) ⇓ false ∧
    Ops.safe.cmp i32 .less (.ff ⟨1, -2⟩ ⟨0, 1⟩) ⇓ true ∧
    Ops.fast.cmp i32 .less (.fr ⟨1, -2⟩ 0) ⇓ false ∧
    Ops.fast.cmp i32 .less (.ff ⟨1, -2⟩ ⟨0, 1⟩) ⇓ false :=
  ⟨trivial, by norm_num [Denotes], by decide, by decide, by decide, by decide⟩

/-- **C23** `is_reduced` answers wrongly for exactly the fractions in lowest terms with positive
numerator and negative denominator. -/
theorem C23_is_reduced_correct_iff {w : Bool} (hf : f.InRange T) (h : f.isReduced T = .ok b w) :
    (b = true ↔ f.den ≠ 0 ∧ f.reduce T .normalizeSigns ⇓ f) ↔
      ¬ (0 < f.num ∧ f.den < 0 ∧ Int.gcd f.num f.den = 1) := by
  by_cases hs : 0 < f.num ∧ f.den < 0
  · have hr : ¬ (f.den ≠ 0 ∧ f.reduce T .normalizeSigns ⇓ f) := by
      rintro ⟨h0, h1⟩
      have := (Raw.reduce_canonical h0 h1).1
      omega
    rw [Raw.isReduced, if_pos (by simp [hs.1])] at h
    have e := (Raw.isReducedIgnoreSigns_ok h).2
    have h0 : f.den ≠ 0 := hs.2.ne
    simp only [hr, iff_false, hs, true_and]
    rw [e]
    refine not_congr ⟨fun h => h.2.2.2, fun hg => ⟨h0, ?_⟩⟩
    have hd : f.isDefined = true := Raw.isDefined_iff.2 h0
    rw [Raw.isReducedIgnoreSigns, if_pos hd] at h
    simp only [bind_eq_ok, gcd_eq_ok] at h
    obtain ⟨_, _, _, ⟨h1, h2, -⟩, -⟩ := h
    exact ⟨h1, h2, hg⟩
  · have := C23_is_reduced_exact_partial hf hs h
    exact ⟨fun _ h' => hs ⟨h'.1, h'.2.1⟩, fun _ => this⟩

example : (⟨3, -4⟩ : Raw).InRange i32 ∧ (⟨3, -4⟩ : Raw).isReduced i32 ⇓ true ∧
    (⟨6, -4⟩ : Raw).isReduced i32 ⇓ false ∧ Int.gcd 3 (-4) = 1 ∧ Int.gcd 6 (-4) = 2 := by decide

/-- **C73** With the `std::hash` of libstdc++ and a `std::size_t` of `z + 1` bits, two fractions with the
same numerator hash equally exactly when their denominators differ by a multiple of 2^z. -/
theorem C73_same_numerator_iff {z : ℕ} (hn : f.num = g.num) :
    Hash.fraction (Hash.stdHash (z + 1)) f = Hash.fraction (Hash.stdHash (z + 1)) g ↔
      (2 : ℤ) ^ z ∣ f.den - g.den := by
  rw [← stdHash_shift_eq_iff, Hash.fraction, Hash.fraction, hn]
  exact ⟨combine_right_cancel, fun h => by simp only [Hash.combine, h]⟩

example : ((2 : ℤ) ^ 63 ∣ (⟨1, 1⟩ : Raw).den - (⟨1, -9223372036854775807⟩ : Raw).den) ∧
    ¬ ((2 : ℤ) ^ 63 ∣ (⟨1, 2⟩ : Raw).den - (⟨1, 3⟩ : Raw).den) := by decide

/-- **C74** Away from a few units in the last place the order is kept in every direction of
rounding: numbers that differ by four units each keep their order. -/
theorem C74_apart {F : Fmt} {d : Direction} {p q : ℕ} (hT : (T.bits : ℤ) < F.bias)
    (hu : 5 * F.unit d ≤ 1) (hx : Denotes f x) (hy : Denotes g y)
    (hb : ofFractionTo F T d f ⇓ p) (hc : ofFractionTo F T d g ⇓ q)
    (h : x + 4 * F.unit d * (|x| + |y|) ≤ y) :
    F.Finite p ∧ F.Finite q ∧ F.value p ≤ F.value q := by
  obtain ⟨f1, e1⟩ := C105_four_units hT hu hx hb
  obtain ⟨f2, e2⟩ := C105_four_units hT hu hy hc
  refine ⟨f1, f2, ?_⟩
  have a1 := (abs_le.1 e1).2
  have a2 := (abs_le.1 e2).1
  linarith

example : (i32.bits : ℤ) < binary32.bias ∧ 5 * binary32.unit .nearest ≤ 1 ∧
    Denotes ⟨1, 3⟩ (1/3) ∧ Denotes ⟨1, 2⟩ (1/2) ∧
    ofFractionTo binary32 i32 .nearest ⟨1, 3⟩ ⇓ 0x3EAAAAAB ∧
    ofFractionTo binary32 i32 .nearest ⟨1, 2⟩ ⇓ 0x3F000000 ∧
    (1/3 : ℚ) + 4 * binary32.unit .nearest * (|1/3| + |1/2|) ≤ 1/2 :=
  ⟨by decide, by decide +kernel, by norm_num [Denotes], by norm_num [Denotes], by decide +kernel,
    by decide +kernel, by decide +kernel⟩

/-- **C83** Leaving out zeros before the whole part and behind the fraction never loses a
literal: where the longer one is converted, the shorter one is, to the same parts up to a common
factor — for every type and policy. -/
theorem C83_shorter_finishes {l : FloatLit} (hbits : T.bits ≤ 2147483648) (hv : l.Valid)
    (hp : l.point = true) (m n : ℕ) (h : toFraction T o (l.pad m n).render ⇓ r') :
    ∃ k r, 0 < k ∧ toFraction T o l.render ⇓ r ∧ r' = r.expand k := by
  have hb0 : (0 : ℤ) < l.base := by unfold FloatLit.base; split <;> decide
  have e4 : (l.pad m n).whole = List.replicate m '0' ++ l.whole := rfl
  have e5 : (l.pad m n).frac = l.frac ++ List.replicate n '0' := rfl
  have e1 : (l.pad m n).base = l.base := rfl
  have e2 : (l.pad m n).expBase = l.expBase := rfl
  have e3 : (l.pad m n).expValue = l.expValue := rfl
  have e6 : (l.pad m n).exp = l.exp := rfl
  rw [C94_literal_iff hbits (padLit_valid hv hp m n) hp] at h
  rw [e1, e2, e3, e4, e5, e6, seqValue_pad_left, seqValue_pad_right, digits_append, digits_append,
    digits_zeros, digits_zeros, List.length_append, List.length_append, List.length_replicate,
    List.length_replicate] at h
  obtain ⟨h1, h2, h3, h4, sum, h5, h6⟩ := h
  have shrink : ∀ {i j : ℕ}, T.InRange ((l.base : ℤ) ^ (i + j)) → T.InRange ((l.base : ℤ) ^ i) ∧
      T.InRange ((l.base : ℤ) ^ j) := by
    intro i j hij
    have hi : (0 : ℤ) < (l.base : ℤ) ^ i := pow_pos hb0 i
    have hj : (0 : ℤ) < (l.base : ℤ) ^ j := pow_pos hb0 j
    rw [pow_add] at hij
    exact ⟨IntTy.InRange.of_eq_mul hj hij (mul_comm _ _), IntTy.InRange.of_eq_mul hi hij rfl⟩
  have hk : (0 : ℤ) < (l.base : ℤ) ^ n := pow_pos hb0 n
  have ha : Args.rf (seqValue l.base l.whole)
      ⟨(seqValue l.base l.frac * l.base ^ n : ℕ), (l.base : ℤ) ^ ((digits l.frac).length + n)⟩ =
      (Args.rf (seqValue l.base l.whole)
        ⟨seqValue l.base l.frac, (l.base : ℤ) ^ (digits l.frac).length⟩).expand 1
        ((l.base : ℤ) ^ n) := by
    simp only [Args.expand, Raw.expand, pow_add]
    push_cast
    rw [mul_comm, mul_comm ((l.base : ℤ) ^ (digits l.frac).length)]
  rw [ha] at h5
  obtain ⟨k, s, hk0, h5', rfl⟩ := C84_arith_cancel one_pos hk h5
  have hb : ∀ g : Raw, Args.ff (s.expand k) g = (Args.ff s g).expand k 1 := fun g => by
    simp only [Args.expand, Raw.expand_one]
  rw [hb] at h6
  obtain ⟨k', t, hk1, h6', rfl⟩ := C84_arith_cancel hk0 one_pos h6
  exact ⟨k', t, hk1, (C94_literal_iff hbits hv hp).2
    ⟨(shrink h1).2, (shrink h2).1, h3, h4, s, h5', h6'⟩, rfl⟩

example : exampleLit.Valid ∧ exampleLit.point = true ∧ i64.bits ≤ 2147483648 ∧
    toFraction i64 .fast "4'9.3'9e-1'0".toList ⇓ ⟨4939, 1000000000000⟩ ∧
    toFraction i64 .fast "004'9.3'90e-1'0".toList ⇓ ⟨49390, 10000000000000⟩ :=
  ⟨exampleLit_valid, rfl, by decide, by decide +kernel, by decide +kernel⟩

/-- **C88** A comparison of two durations that finishes cleanly answers for their lengths exactly
when the policy orders the two counts, expressed in the common period, correctly, or the lengths
are equal, or it is `==` or `!=`. -/
theorem C88_compare_iff {p q : Period} {l r : Count} {t u : ℚ} {op : CmpOp} (hl : Lasts p l t)
    (hr : Lasts q r u) (h : Chrono.cmp T o op p q l r ⇓ b) :
    ∃ x y : Raw, Chrono.common T o p q l r ⇓ (x, y) ∧
      ((b = true ↔ op.Holds t u) ↔ o.OrderSafe (.ff x y) ∨ t = u ∨ ¬ op.IsOrder) := by
  have neg : ∀ {e : Res Bool}, (e >>= fun v => pure (!v)) ⇓ b → e ⇓ !b := by
    intro e h
    obtain ⟨v, h1, h2⟩ := bind_eq_clean.1 h
    obtain rfl := (pure_eq_ok.1 h2).1
    simpa using h1
  have key : ∀ {v : Bool}, (Chrono.common T o p q l r >>= fun z => match z with
      | (x, y) => Fraction.cmp T T o .less (.ff x y)) ⇓ v →
      ∃ x y : Raw, Chrono.common T o p q l r ⇓ (x, y) ∧
        ((o.OrderSafe (.ff x y) ∧ (v = true ↔ t < u)) ∨
          (¬ o.OrderSafe (.ff x y) ∧ (v = true ↔ u < t))) := less_answer hl hr
  have key' : ∀ {v : Bool}, (Chrono.common T o q p r l >>= fun z => match z with
      | (x, y) => Fraction.cmp T T o .less (.ff x y)) ⇓ v →
      ∃ x y : Raw, Chrono.common T o p q l r ⇓ (x, y) ∧
        ((o.OrderSafe (.ff x y) ∧ (v = true ↔ u < t)) ∨
          (¬ o.OrderSafe (.ff x y) ∧ (v = true ↔ t < u))) := by
    intro v h
    obtain ⟨y, x, h1, h2⟩ := less_answer hr hl h
    refine ⟨x, y, common_swap h1, ?_⟩
    rwa [Ops.orderSafe_comm x y]
  have fin : ∀ {e : Res (Raw × Raw)} {A B C : Prop},
      (∃ x y : Raw, e ⇓ (x, y) ∧ ((o.OrderSafe (.ff x y) ∧ A) ∨ (¬ o.OrderSafe (.ff x y) ∧ B))) →
      (A → C) → (B → (C ↔ t = u)) →
      ∃ x y : Raw, e ⇓ (x, y) ∧ (C ↔ o.OrderSafe (.ff x y) ∨ t = u) := by
    rintro e A B C ⟨x, y, h1, ⟨h2, h3⟩ | ⟨h2, h3⟩⟩ hA hB
    · exact ⟨x, y, h1, by simp [h2, hA h3]⟩
    · exact ⟨x, y, h1, by simp [h2, hB h3]⟩
  have lt_flip : ∀ {x y : ℚ}, (x < y ↔ y < x) ↔ x = y := fun {x y} =>
    ⟨fun e => (lt_trichotomy x y).elim (fun h => (h.asymm (e.1 h)).elim)
      fun h => h.elim id fun h => (h.asymm (e.2 h)).elim, fun e => e ▸ Iff.rfl⟩
  have flip_not : ∀ {x y : ℚ}, ((!b) = true ↔ x < y) → (b = true ↔ y ≤ x) := fun e => by
    rw [← not_lt, ← e]; simp
  cases op with
  | equalTo =>
    obtain ⟨⟨x, y⟩, h1, -⟩ := bind_eq_clean.1 h
    exact ⟨x, y, h1, by simp [(C88_eq_exact hl hr).1 h, CmpOp.Holds, CmpOp.IsOrder]⟩
  | notEqualTo =>
    obtain ⟨⟨x, y⟩, h1, -⟩ := bind_eq_clean.1 (neg h)
    exact ⟨x, y, h1, by simp [(C88_eq_exact hl hr).2 h, CmpOp.Holds, CmpOp.IsOrder]⟩
  | less =>
    simp only [CmpOp.IsOrder, not_true_eq_false, or_false]
    exact fin (key h) id fun e => by rw [e]; exact lt_flip.trans eq_comm
  | greater =>
    simp only [CmpOp.IsOrder, not_true_eq_false, or_false]
    exact fin (key' h) id fun e => by rw [e]; exact lt_flip
  | lessEqual =>
    simp only [CmpOp.IsOrder, not_true_eq_false, or_false]
    refine fin (key' (neg h)) flip_not fun e => ?_
    rw [flip_not e, ← lt_flip, ← not_lt, CmpOp.Holds, ← not_lt, not_iff_not]
  | greaterEqual =>
    simp only [CmpOp.IsOrder, not_true_eq_false, or_false]
    refine fin (key (neg h)) flip_not fun e => ?_
    rw [flip_not e, eq_comm, ← lt_flip, ← not_lt, CmpOp.Holds, ge_iff_le, ← not_lt, not_iff_not]

private def sec : Period := ⟨1, 1, by decide, by decide, by decide⟩

private def ms : Period := ⟨1, 1000, by decide, by decide, by decide⟩

example : Lasts sec (.frac ⟨1, -2⟩) (-1/2) ∧ Lasts ms (.int 250) (1/4) ∧
    Chrono.cmp i64 .fast .less sec ms (.frac ⟨1, -2⟩) (.int 250) ⇓ false ∧
    Chrono.common i64 .fast sec ms (.frac ⟨1, -2⟩) (.int 250) ⇓ (⟨1000, -2⟩, ⟨250, 1⟩) ∧
    ¬ Ops.fast.OrderSafe (.ff ⟨1000, -2⟩ ⟨250, 1⟩) :=
  ⟨by norm_num [Lasts, Count.Is, Denotes, Period.seconds, sec],
    by norm_num [Lasts, Count.Is, Denotes, Period.seconds, ms], by decide +kernel,
    by decide +kernel, by simp [Ops.OrderSafe]⟩

end Ieme
