import Verif.Spec.MixedNumber
import Verif.Lemmas.Rounding

/-!
# Lemmas about mixed numbers
-/

namespace Ieme

open Res IntTy

variable {W F T : IntTy} {o : Ops} {m m' : Mixed} {b : Bool}

theorem mathAbs_clean {v r : ℤ} (h : mathAbs T v ⇓ r) : r = |v| := by
  unfold mathAbs at h
  split at h
  · rename_i h0
    simp only [pure_eq_ok, and_true] at h
    rw [abs_of_nonneg h0, h]
  · rename_i h0
    rw [abs_of_neg (by omega)]
    exact (neg_clean.1 h).2

theorem mathAbs_noWrap (hs : T.signed = true) (v : ℤ) : (mathAbs T v).NoWrap := by
  unfold mathAbs IntTy.neg; nowrap hs

theorem Raw.isImproper_noWrap (hs : T.signed = true) (f : Raw) : (f.isImproper T).NoWrap := by
  unfold Raw.isImproper Raw.isProper
  refine NoWrap.bind (NoWrap.bind (mathAbs_noWrap hs _) fun _ =>
    NoWrap.bind (mathAbs_noWrap hs _) fun _ => NoWrap.pure _) fun _ => NoWrap.pure _

theorem Raw.isImproper_clean {f : Raw} {i : Bool} (h : f.isImproper T ⇓ i) :
    i = !decide (|f.num| < |f.den|) := by
  simp only [Raw.isImproper, Raw.isProper, bind_eq_clean, pure_eq_ok, and_true] at h
  obtain ⟨p, ⟨n, hn, d, hd, rfl⟩, rfl⟩ := h
  rw [mathAbs_clean hn, mathAbs_clean hd]

theorem Raw.abs_lt_iff {f : Raw} {q : ℚ} (hq : Denotes f q) : |q| < 1 ↔ |f.num| < |f.den| := by
  have hd : (f.den : ℚ) ≠ 0 := by exact_mod_cast hq.1
  rw [← hq.2, abs_div, div_lt_one (abs_pos.2 hd)]
  exact_mod_cast Iff.rfl

theorem Fraction.trunc_noWrap (f : Raw) : (Fraction.trunc T f).NoWrap := div_noWrap _ _

theorem Fraction.arith_noWrap (hs : T.signed = true) (op : ArithOp) (a : Args) :
    (Fraction.arith T T o op a).NoWrap := by
  rw [Fraction.arith_self]; exact Ops.arith_noWrap hs o op a

/-- A result of a computation on `F` alone inside a run that is clean, or on a signed `F`, is
clean. -/
theorem part_clean {α : Type} {x : Res α} {a : α} {w : Bool} (hs : F.signed = true ∨ w = false)
    (hx : F.signed = true → x.NoWrap) (h : x = .ok a w) : x ⇓ a := by
  rcases hs with hs | rfl
  · have := (hx hs).flag h; rw [← this]; exact h
  · exact h

theorem or_left_clean {P : Prop} {a c : Bool} (h : P ∨ (a || c) = false) : P ∨ a = false := by
  rcases h with h | h
  · exact .inl h
  · rw [Bool.or_eq_false_iff] at h; exact .inr h.1

theorem or_right_clean {P : Prop} {a c : Bool} (h : P ∨ (a || c) = false) : P ∨ c = false := by
  rcases h with h | h
  · exact .inl h
  · rw [Bool.or_eq_false_iff] at h; exact .inr h.2

theorem arith_minus_int {f r : Raw} {n : ℤ} {x : ℚ} (hx : Denotes f x)
    (h : Fraction.arith T T o .minus (.fr f n) ⇓ r) : Denotes r (x - n) := by
  rw [Fraction.arith_self] at h
  exact Ops.arith_exact (a := .fr f n) ⟨hx, rfl⟩ h

theorem arith_int_plus {f r : Raw} {n : ℤ} {x : ℚ} (hx : Denotes f x)
    (h : Fraction.arith T T o .plus (.rf n f) ⇓ r) : Denotes r (n + x) := by
  rw [Fraction.arith_self] at h
  exact Ops.arith_exact (a := .rf n f) ⟨rfl, hx⟩ h

theorem arith_plus {f g r : Raw} {x y : ℚ} (hx : Denotes f x) (hy : Denotes g y)
    (h : Fraction.arith T T o .plus (.ff f g) ⇓ r) : Denotes r (x + y) := by
  rw [Fraction.arith_self] at h
  exact Ops.arith_exact (a := .ff f g) ⟨hx, hy⟩ h

theorem isNegative_iff {f : Raw} {x : ℚ} (hx : Denotes f x) : f.isNegative = true ↔ x < 0 :=
  (C24_sign_queries_exact f).2.2.2.2.trans
    ⟨fun ⟨_, h, h'⟩ => by rwa [hx.unique h], fun h => ⟨x, hx, h⟩⟩

theorem isPositive_iff {f : Raw} {x : ℚ} (hx : Denotes f x) : f.isPositive = true ↔ 0 < x :=
  (C24_sign_queries_exact f).1.trans
    ⟨fun ⟨_, h, h'⟩ => by rwa [hx.unique h], fun h => ⟨x, hx, h⟩⟩

/-- The distance to the truncation is below one and has the sign of the value. -/
theorem sub_ratTrunc (x : ℚ) : |x - ratTrunc x| < 1 ∧ (0 < ratTrunc x → 0 ≤ x - ratTrunc x) ∧
    (ratTrunc x < 0 → x - ratTrunc x ≤ 0) := by
  unfold ratTrunc
  split
  · rename_i h
    have h1 := Int.floor_le x
    have h2 := Int.lt_floor_add_one x
    have h3 := Int.floor_nonneg.2 h
    refine ⟨by rw [abs_lt]; constructor <;> linarith, fun _ => by linarith, fun h => by omega⟩
  · rename_i h
    have h1 := Int.le_ceil x
    have h2 := Int.ceil_lt_add_one x
    have h3 : ⌈x⌉ ≤ 0 := Int.ceil_le.2 (by push_cast; linarith)
    refine ⟨by rw [abs_lt]; constructor <;> linarith, fun h => by omega, fun _ => by linarith⟩

theorem Mixed.fixImproper_ok (hs : F.signed = true ∨ b = false)
    (h : m.fixImproper W F o = .ok m' b) : m.frac.den ≠ 0 ∧ (W.InRange m.whole → W.InRange m'.whole) ∧
      ∀ x, Ieme.Denotes m.frac x →
      ∃ y, Ieme.Denotes m'.frac y ∧ |y| < 1 ∧ (b = false → (m'.whole : ℚ) + y = m.whole + x) := by
  obtain ⟨i, b1, b2, hi, h2, hb⟩ := bind_eq_ok.1 h
  subst hb
  have hi' := Raw.isImproper_clean
    (part_clean (or_left_clean hs) (fun h => Raw.isImproper_noWrap h _) hi)
  have hs2 := or_right_clean hs
  split at h2
  · obtain ⟨t, b3, b4, ht, h3, hb⟩ := bind_eq_ok.1 h2
    subst hb
    have hd : m.frac.den ≠ 0 := (div_eq_ok.1 ht).1
    obtain ⟨t', b5, b6, ht', h4, hb⟩ := bind_eq_ok.1 h3
    subst hb
    have hs3 := or_right_clean (or_right_clean hs2)
    obtain ⟨w', b7, b8, hw', h5, hb⟩ := bind_eq_ok.1 h4
    subst hb
    have hs4 := or_right_clean hs3
    obtain ⟨f, b9, b10, hf, h6, hb⟩ := bind_eq_ok.1 h5
    subst hb
    have hs5 := or_left_clean hs4
    simp only [pure_eq_ok] at h6
    obtain ⟨rfl, rfl⟩ := h6
    refine ⟨hd, fun _ => add_inRange hw', fun x hx => ?_⟩
    obtain ⟨rfl, rfl⟩ := Fraction.trunc_ok hx ht
    rw [Fraction.assignR, if_pos rfl] at hf
    have hf' := part_clean hs5 (fun h => Fraction.arith_noWrap h _ _) hf
    refine ⟨_, arith_minus_int hx hf', (sub_ratTrunc x).1, fun hb => ?_⟩
    simp only [Bool.or_eq_false_iff] at hb
    obtain ⟨-, -, rfl, rfl, -⟩ := hb
    obtain ⟨-, rfl⟩ := conv_clean.1 ht'
    obtain ⟨-, rfl⟩ := add_clean.1 hw'
    push_cast; ring
  · rename_i hc
    simp only [pure_eq_ok] at h2
    obtain ⟨rfl, rfl⟩ := h2
    have hp : |m.frac.num| < |m.frac.den| := by
      by_contra hcon
      rw [hi'] at hc
      simp [hcon] at hc
    refine ⟨fun h0 => ?_, id, fun x hx => ⟨x, hx, (Raw.abs_lt_iff hx).2 hp, fun _ => rfl⟩⟩
    rw [h0] at hp
    have := abs_nonneg m.frac.num
    simp only [abs_zero] at hp
    omega

theorem Mixed.fixSigns_ok (hW : W.InRange m.whole) (hs : F.signed = true ∨ b = false)
    (h : m.fixSigns W F o = .ok m' b) {x : ℚ} (hx : Ieme.Denotes m.frac x) (hx1 : |x| < 1) :
      ∃ y, Ieme.Denotes m'.frac y ∧ |y| < 1 ∧ (0 < m'.whole → 0 ≤ y) ∧ (m'.whole < 0 → y ≤ 0) ∧
        (m'.whole : ℚ) + y = m.whole + x ∧ W.InRange m'.whole := by
  unfold Mixed.fixSigns at h
  rw [abs_lt] at hx1
  have hmin := W.min_le_zero
  have hmax := W.max_ge
  obtain ⟨hW1, hW2⟩ := hW
  split at h
  · rename_i hc
    rw [isNegative_iff hx] at hc
    obtain ⟨w', b1, b2, hw', h2, hb⟩ := bind_eq_ok.1 h
    subst hb
    have hs2 := or_right_clean hs
    obtain ⟨f, b3, b4, hf, h3, hb⟩ := bind_eq_ok.1 h2
    subst hb
    have hs3 := or_left_clean hs2
    simp only [pure_eq_ok] at h3
    obtain ⟨rfl, rfl⟩ := h3
    have hf' := part_clean hs3 (fun h => Fraction.arith_noWrap h _ _) hf
    have hv := arith_int_plus hx hf'
    push_cast at hv
    have hr : W.InRange (m.whole - 1) := ⟨by omega, by omega⟩
    rw [sub_clean.2 ⟨hr, rfl⟩] at hw'
    simp only [Res.ok.injEq] at hw'
    obtain ⟨rfl, rfl⟩ := hw'
    exact ⟨_, hv, by rw [abs_lt]; constructor <;> linarith, fun _ => by linarith,
      fun hneg => by simp only at hneg; omega, by push_cast; ring, hr⟩
  · split at h
    · rename_i _ hc
      rw [isPositive_iff hx] at hc
      obtain ⟨w', b1, b2, hw', h2, hb⟩ := bind_eq_ok.1 h
      subst hb
      have hs2 := or_right_clean hs
      obtain ⟨n, b3, b4, hn, h3, hb⟩ := bind_eq_ok.1 h2
      subst hb
      have hn' := part_clean (or_left_clean hs2) (fun h => IntTy.arith_noWrap h _) hn
      obtain ⟨-, rfl⟩ := neg_clean.1 hn'
      have hs3 := or_right_clean hs2
      obtain ⟨f, b5, b6, hf, h4, hb⟩ := bind_eq_ok.1 h3
      subst hb
      have hs4 := or_left_clean hs3
      simp only [pure_eq_ok] at h4
      obtain ⟨rfl, rfl⟩ := h4
      have hf' := part_clean hs4 (fun h => Fraction.arith_noWrap h _ _) hf
      have hv := arith_int_plus hx hf'
      push_cast at hv
      have hr : W.InRange (m.whole + 1) := ⟨by omega, by omega⟩
      rw [add_clean.2 ⟨hr, rfl⟩] at hw'
      simp only [Res.ok.injEq] at hw'
      obtain ⟨rfl, rfl⟩ := hw'
      exact ⟨_, hv, by rw [abs_lt]; constructor <;> linarith,
        fun hpos => by simp only at hpos; omega, fun _ => by linarith, by push_cast; ring, hr⟩
    · rename_i h1 h2
      simp only [pure_eq_ok] at h
      obtain ⟨rfl, rfl⟩ := h
      rw [isNegative_iff hx] at h1
      rw [isPositive_iff hx] at h2
      refine ⟨x, hx, by rw [abs_lt]; exact hx1, fun h => ?_, fun h => ?_, rfl, hW1, hW2⟩
      · by_contra hc; exact h1 ⟨h, not_le.1 hc⟩
      · by_contra hc; exact h2 ⟨h, not_le.1 hc⟩

/-- Everything about the constructor from a whole part and a fraction. -/
theorem Mixed.mk_ok {w : ℤ} {f : Raw} (hW : W.InRange w) (hs : F.signed = true ∨ b = false)
    (h : Mixed.mk' W F o w f = .ok m b) : f.den ≠ 0 ∧ m.Invariant ∧ W.InRange m.whole ∧
      (b = false → ∀ x, Ieme.Denotes f x → m.Denotes (w + x)) := by
  obtain ⟨m1, b1, b2, h1, h2, hb⟩ := bind_eq_ok.1 h
  subst hb
  obtain ⟨hd, hr, h3⟩ := Mixed.fixImproper_ok (or_left_clean hs) h1
  obtain ⟨y, hy, hy1, hyv⟩ := h3 _ (denotes_self hd)
  obtain ⟨z, hz, hz1, hz2, hz3, hzv, hzr⟩ :=
    Mixed.fixSigns_ok (hr hW) (or_right_clean hs) h2 hy hy1
  refine ⟨hd, ⟨z, hz, hz1, hz2, hz3⟩, hzr, fun hb x hx => ⟨z, hz, ?_⟩⟩
  rw [Bool.or_eq_false_iff] at hb
  rw [hzv, hyv hb.1, ← hx.2]

/-- Everything about the constructor from a fraction. -/
theorem Mixed.ofFraction_ok {S : IntTy} {f : Raw}
    (h : Mixed.ofFraction W F o S f ⇓ m) : f.den ≠ 0 ∧ m.Invariant ∧ W.InRange m.whole ∧
      ∀ x, Ieme.Denotes f x → m.Denotes x := by
  obtain ⟨t, ht, h1⟩ := bind_eq_clean.1 h
  have hd : f.den ≠ 0 := (div_clean.1 ht).1
  obtain ⟨w, hw, h2⟩ := bind_eq_clean.1 h1
  obtain ⟨w', hw', h3⟩ := bind_eq_clean.1 h2
  obtain ⟨d, hd', h4⟩ := bind_eq_clean.1 h3
  obtain ⟨g, hg, h5⟩ := bind_eq_clean.1 h4
  obtain ⟨hwr, e1⟩ := conv_clean.1 hw
  obtain ⟨-, e2⟩ := conv_clean.1 hw'
  obtain ⟨-, e3⟩ := Raw.conv_clean.1 hg
  subst e1 e2 e3
  simp only [pure_eq_ok, and_true] at h5
  subst h5
  have key : ∀ x, Ieme.Denotes f x → Ieme.Denotes g (x - w') ∧ w' = ratTrunc x := fun x hx =>
    ⟨arith_minus_int hx hd', (Fraction.trunc_ok hx ht).1⟩
  obtain ⟨k1, k2⟩ := key _ (denotes_self hd)
  have k3 := sub_ratTrunc ((f.num : ℚ) / f.den)
  rw [← k2] at k3
  refine ⟨hd, ⟨_, k1, k3⟩, hwr, fun x hx => ⟨_, (key x hx).1, by push_cast; ring⟩⟩

theorem Mixed.neg_ok (h : m.neg W F o ⇓ m') : m'.Invariant ∧ W.InRange m'.whole ∧
    ∀ x, m.Denotes x → m'.Denotes (-x) := by
  obtain ⟨w, hw, h1⟩ := bind_eq_clean.1 h
  obtain ⟨f, hf, h2⟩ := bind_eq_clean.1 h1
  obtain ⟨hr, rfl⟩ := neg_clean.1 hw
  obtain ⟨-, hi, hr', hv⟩ := Mixed.mk_ok hr (.inr rfl) h2
  refine ⟨hi, hr', ?_⟩
  rintro x ⟨y, hy, rfl⟩
  have := hv rfl _ (Ops.negate_exact hy hf)
  push_cast at this
  rwa [neg_add]

theorem Mixed.add_ok {W₁ F₁ W₂ F₂ : IntTy} {l r : Mixed} (h : Mixed.add W₁ F₁ W₂ F₂ o l r ⇓ m) :
    m.Invariant ∧ (IntTy.common W₁ W₂).InRange m.whole ∧
    ∀ x y, l.Denotes x → r.Denotes y → m.Denotes (x + y) := by
  obtain ⟨lw, hlw, h1⟩ := bind_eq_clean.1 h
  obtain ⟨rw', hrw, h2⟩ := bind_eq_clean.1 h1
  obtain ⟨w, hw, h3⟩ := bind_eq_clean.1 h2
  obtain ⟨lf, hlf, h4⟩ := bind_eq_clean.1 h3
  obtain ⟨rf, hrf, h5⟩ := bind_eq_clean.1 h4
  obtain ⟨f, hf, h6⟩ := bind_eq_clean.1 h5
  obtain ⟨-, e1⟩ := conv_clean.1 hlw
  obtain ⟨-, e2⟩ := conv_clean.1 hrw
  obtain ⟨-, e3⟩ := Raw.conv_clean.1 hlf
  obtain ⟨-, e4⟩ := Raw.conv_clean.1 hrf
  obtain ⟨hr, e5⟩ := add_clean.1 hw
  subst e1 e2 e3 e4 e5
  obtain ⟨-, hi, hr', hv⟩ := Mixed.mk_ok hr (.inr rfl) h6
  refine ⟨hi, hr', ?_⟩
  rintro _ _ ⟨x, hx, rfl⟩ ⟨y, hy, rfl⟩
  have := hv rfl _ (arith_plus hx hy hf)
  push_cast at this
  convert this using 1
  ring

theorem Mixed.addWhole_ok {W₁ W₂ : IntTy} {l : Mixed} {n : ℤ} (h : Mixed.addWhole W₁ F W₂ o l n ⇓ m) :
    m.Invariant ∧ (IntTy.common W₁ W₂).InRange m.whole ∧
    ∀ x, l.Denotes x → m.Denotes (x + n) := by
  obtain ⟨lw, hlw, h1⟩ := bind_eq_clean.1 h
  obtain ⟨rw', hrw, h2⟩ := bind_eq_clean.1 h1
  obtain ⟨w, hw, h3⟩ := bind_eq_clean.1 h2
  obtain ⟨-, e1⟩ := conv_clean.1 hlw
  obtain ⟨-, e2⟩ := conv_clean.1 hrw
  obtain ⟨hr, e5⟩ := add_clean.1 hw
  subst e1 e2 e5
  obtain ⟨-, hi, hr', hv⟩ := Mixed.mk_ok hr (.inr rfl) h3
  refine ⟨hi, hr', ?_⟩
  rintro _ ⟨x, hx, rfl⟩
  have := hv rfl _ hx
  push_cast at this
  convert this using 1
  ring

theorem Mixed.addFraction_ok {F₁ F₂ : IntTy} {l : Mixed} {f : Raw}
    (h : Mixed.addFraction W F₁ F₂ o l f ⇓ m) :
    f.den ≠ 0 ∧ m.Invariant ∧ (IntTy.common W F₂).InRange m.whole ∧
    ∀ x y, l.Denotes x → Ieme.Denotes f y → m.Denotes (x + y) := by
  obtain ⟨r, hr, h1⟩ := bind_eq_clean.1 h
  obtain ⟨hd, -, -, hv⟩ := Mixed.ofFraction_ok hr
  obtain ⟨hi, hr', hv'⟩ := Mixed.add_ok h1
  exact ⟨hd, hi, hr', fun x y hx hy => hv' x y hx (hv y hy)⟩

theorem litValue_of {f : Raw} (h : f.den ≠ 0) : litValue f = some ((f.num : ℚ) / f.den) :=
  if_neg h

/-- A clean run of any expression: invariant, exact value, and all fractions were defined. -/
theorem MExpr.eval_ok {e : MExpr} (ht : e.WellTyped) (h : e.eval o ⇓ m) :
    m.Invariant ∧ ∃ q, e.value = some q ∧ m.Denotes q := by
  induction e generalizing m with
  | dflt W F =>
    simp only [MExpr.eval, pure_eq_ok, and_true] at h
    subst h
    have hz : Ieme.Denotes (Fraction.default) 0 := ⟨by decide, by simp [Fraction.default]⟩
    exact ⟨⟨0, hz, by simp, fun _ => le_refl _, fun _ => le_refl _⟩, 0, rfl, 0, hz,
      by simp [Mixed.default]⟩
  | mk W F w f =>
    obtain ⟨hd, hi, -, hv⟩ := Mixed.mk_ok ht (.inr rfl) h
    exact ⟨hi, _, by rw [MExpr.value, litValue_of hd]; rfl, hv rfl _ (denotes_self hd)⟩
  | ofFraction W F S f =>
    obtain ⟨hd, hi, -, hv⟩ := Mixed.ofFraction_ok h
    exact ⟨hi, _, litValue_of hd, hv _ (denotes_self hd)⟩
  | pos e ih =>
    obtain ⟨m1, h1, h2⟩ := bind_eq_clean.1 h
    simp only [Mixed.pos, pure_eq_ok, and_true] at h2
    subst h2
    exact ih ht h1
  | neg e ih =>
    obtain ⟨m1, h1, h2⟩ := bind_eq_clean.1 h
    obtain ⟨-, q, hq, hq'⟩ := ih ht h1
    obtain ⟨hi, -, hv⟩ := Mixed.neg_ok h2
    exact ⟨hi, -q, by rw [MExpr.value, hq]; rfl, hv q hq'⟩
  | add l r ihl ihr =>
    obtain ⟨m1, h1, h2⟩ := bind_eq_clean.1 h
    obtain ⟨m2, h2, h3⟩ := bind_eq_clean.1 h2
    obtain ⟨-, p, hp, hp'⟩ := ihl ht.1 h1
    obtain ⟨-, q, hq, hq'⟩ := ihr ht.2 h2
    obtain ⟨hi, -, hv⟩ := Mixed.add_ok h3
    exact ⟨hi, p + q, by rw [MExpr.value, hp, hq]; rfl, hv p q hp' hq'⟩
  | addFraction e S f ih =>
    obtain ⟨m1, h1, h2⟩ := bind_eq_clean.1 h
    obtain ⟨-, q, hq, hq'⟩ := ih ht h1
    obtain ⟨hd, hi, -, hv⟩ := Mixed.addFraction_ok h2
    exact ⟨hi, _, by rw [MExpr.value, hq, litValue_of hd]; rfl, hv _ _ hq' (denotes_self hd)⟩
  | addWhole e S n ih =>
    obtain ⟨m1, h1, h2⟩ := bind_eq_clean.1 h
    obtain ⟨-, q, hq, hq'⟩ := ih ht h1
    obtain ⟨hi, -, hv⟩ := Mixed.addWhole_ok h2
    exact ⟨hi, _, by rw [MExpr.value, hq]; rfl, hv q hq'⟩

theorem Mixed.asFraction_ok {r : Raw} {q : ℚ} (hq : m.Denotes q) (h : m.asFraction W F o ⇓ r) :
    Ieme.Denotes r q := by
  obtain ⟨w, hw, h1⟩ := bind_eq_clean.1 h
  obtain ⟨f, hf, h2⟩ := bind_eq_clean.1 h1
  obtain ⟨-, e1⟩ := conv_clean.1 hw
  obtain ⟨-, e2⟩ := Raw.conv_clean.1 hf
  subst e1 e2
  obtain ⟨y, hy, rfl⟩ := hq
  exact arith_int_plus hy h2

end Ieme
