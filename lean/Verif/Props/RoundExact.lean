import Verif.Props.Rounding
import Verif.Lemmas.Range
import Verif.Spec.Answers

/-!
# Exact answers of the rounding functions and when they finish: property C92
-/

namespace Ieme

open Res IntTy

variable {T : IntTy} {o : Ops} {f r : Raw} {x : ℚ} {n d : ℤ}

/-- **C92** `trunc` of a defined fraction finishes unless it is the minimum value over minus
one, and discards the fractional part. -/
theorem C92_trunc_iff (hf : f.InRange T) (hx : Denotes f x) :
    Fraction.trunc T f ⇓ n ↔ ¬ f.MinOverMinusOne T ∧ n = ratTrunc x := by
  constructor
  · intro h
    refine ⟨fun hm => ?_, (Fraction.trunc_ok hx h).1⟩
    obtain ⟨-, h2, -⟩ := div_clean.1 h
    rw [hm.1, hm.2] at h2
    have hd := hf.2
    rw [hm.2] at hd
    have hs : T.signed = true := by
      cases hs : T.signed
      · have := hd.nonneg hs; omega
      · rfl
    have h3 := min_signed hs
    have h4 : T.min.tdiv (-1) = -T.min := by rw [Int.tdiv_neg, Int.tdiv_one]
    rw [h4] at h2
    have := h2.2
    omega
  · rintro ⟨hm, rfl⟩
    obtain ⟨n, hn⟩ := (C29_whole_parts_finish hx.1 hf hm).1
    rwa [← (Fraction.trunc_ok hx hn).1]

example : (⟨-7, 3⟩ : Raw).InRange i32 ∧ ¬ (⟨-7, 3⟩ : Raw).MinOverMinusOne i32 ∧
    Fraction.trunc i32 ⟨-7, 3⟩ ⇓ -2 ∧
    Fraction.trunc i32 ⟨-2147483648, -1⟩ = .fault .overflow := by decide

/-- **C92** `floor` of a defined fraction finishes unless it is the minimum value over minus
one, and this is its answer. -/
theorem C92_floor_iff (hf : f.InRange T) (hx : Denotes f x) :
    Fraction.floor T f ⇓ n ↔ ¬ f.MinOverMinusOne T ∧ n = floorAnswer x := by
  constructor
  · intro h
    refine ⟨?_, Fraction.floor_val hx h⟩
    obtain ⟨t, ht, -⟩ := bind_eq_clean.1 h
    exact ((C92_trunc_iff hf hx).1 ht).1
  · rintro ⟨hm, rfl⟩
    obtain ⟨n, hn⟩ := (C29_whole_parts_finish hx.1 hf hm).2.1
    rwa [floorAnswer, ← Fraction.floor_val hx hn]

example : floorAnswer (-7 / 3) = -3 ∧ floorAnswer (-1 / 3) = 0 ∧
    Fraction.floor i32 ⟨-7, 3⟩ ⇓ -3 ∧ Fraction.floor i32 ⟨1, -3⟩ ⇓ 0 := by decide +kernel

/-- **C92** `ceil` of a defined fraction finishes unless it is the minimum value over minus
one, and this is its answer. -/
theorem C92_ceil_iff (hf : f.InRange T) (hx : Denotes f x) :
    Fraction.ceil T f ⇓ n ↔ ¬ f.MinOverMinusOne T ∧ n = ceilAnswer x := by
  constructor
  · intro h
    refine ⟨?_, Fraction.ceil_val hx h⟩
    obtain ⟨t, ht, -⟩ := bind_eq_clean.1 h
    exact ((C92_trunc_iff hf hx).1 ht).1
  · rintro ⟨hm, rfl⟩
    obtain ⟨n, hn⟩ := (C29_whole_parts_finish hx.1 hf hm).2.2
    rwa [ceilAnswer, ← Fraction.ceil_val hx hn]

example : ceilAnswer (7 / 3) = 3 ∧ ceilAnswer (-1 / 3) = 1 ∧
    Fraction.ceil i32 ⟨7, 3⟩ ⇓ 3 ∧ Fraction.ceil i32 ⟨1, -3⟩ ⇓ 1 := by decide +kernel

/-- **C92** None of the three ever finishes with a wrapped value, nor on an undefined
fraction. -/
theorem C92_whole_parts_never_wrap {w : Bool} (hf : f.InRange T)
    (h : Fraction.trunc T f = .ok n w ∨ Fraction.floor T f = .ok n w ∨
      Fraction.ceil T f = .ok n w) : w = false ∧ f.den ≠ 0 := by
  have key : ∀ {t : ℤ} {v : Bool}, Fraction.trunc T f = .ok t v →
      f.den ≠ 0 ∧ ¬ f.MinOverMinusOne T := by
    intro t v ht
    obtain ⟨h1, h2, rfl, rfl⟩ := div_eq_ok.1 ht
    exact ⟨h1, ((C92_trunc_iff hf ⟨h1, rfl⟩).1 ht).1⟩
  have : f.den ≠ 0 ∧ ¬ f.MinOverMinusOne T := by
    rcases h with h | h | h
    · exact key h
    · obtain ⟨t, v, _, ht, -⟩ := bind_eq_ok.1 h
      exact key ht
    · obtain ⟨t, v, _, ht, -⟩ := bind_eq_ok.1 h
      exact key ht
  obtain ⟨h0, hm⟩ := this
  obtain ⟨⟨a, ha⟩, ⟨b, hb⟩, ⟨c, hc⟩⟩ := C29_whole_parts_finish h0 hf hm
  refine ⟨?_, h0⟩
  rcases h with h | h | h
  · rw [ha] at h; exact ((Res.ok.injEq _ _ _ _).mp h).2.symm
  · rw [hb] at h; exact ((Res.ok.injEq _ _ _ _).mp h).2.symm
  · rw [hc] at h; exact ((Res.ok.injEq _ _ _ _).mp h).2.symm

example : Fraction.floor u32 ⟨4294967295, 2⟩ = .ok 2147483647 false ∧
    Fraction.ceil u32 ⟨4294967295, 2⟩ = .ok 2147483648 false ∧
    Fraction.floor i32 ⟨1, 0⟩ = .fault .divByZero := by decide +kernel

/-- **C92** `round` of a defined fraction finishes exactly when `floor` does, the difference
from its answer can be formed and compared with one half, and the answer fits; and this is the
answer. -/
theorem C92_round_iff (hf : f.InRange T) (hx : Denotes f x) :
    Fraction.round T o f ⇓ n ↔ ¬ f.MinOverMinusOne T ∧
      (∃ d, o.arith T .minus (.fr f (floorAnswer x)) ⇓ d ∧
        ∃ b, o.cmp T .less (.ff d ⟨1, 2⟩) ⇓ b) ∧
      T.InRange n ∧ RoundAnswer (o.RoundsProperly f) x n := by
  have hfl : ∀ {m}, Fraction.floor T f ⇓ m → T.InRange m := fun h => Fraction.floor_all _ _ h
  constructor
  · intro h
    have hv := Fraction.round_cases hx h
    obtain ⟨m, hm, h⟩ := bind_eq_clean.1 h
    obtain ⟨d, hd, h⟩ := bind_eq_clean.1 h
    obtain ⟨b, hb, h⟩ := bind_eq_clean.1 h
    rw [Fraction.arith_self] at hd
    rw [Fraction.cmp_self] at hb
    have hm' := hfl hm
    obtain ⟨h1, rfl⟩ := (C92_floor_iff hf hx).1 hm
    refine ⟨h1, ⟨d, hd, b, hb⟩, ?_, ?_⟩
    · split at h
      · simp only [pure_eq_ok, and_true] at h
        rwa [← h]
      · obtain ⟨h2, rfl⟩ := add_clean.1 h
        exact h2
    · obtain ⟨m, rfl, h2, h3⟩ := hv
      exact ⟨h2, h3⟩
  · rintro ⟨hm, ⟨d, hd, b, hb⟩, hn, ha⟩
    have hfl' := (C92_floor_iff hf hx).2 ⟨hm, rfl⟩
    have hd' : Fraction.arith T T o .minus (.fr f (floorAnswer x)) ⇓ d := by
      rwa [Fraction.arith_self]
    have hb' : Fraction.cmp T T o .less (.ff d (Fraction.mk 1 2)) ⇓ b := by
      rwa [Fraction.cmp_self]
    -- the answer of the run up to the last addition
    have hrun : Fraction.round T o f =
        if b then pure (floorAnswer x) else T.add (floorAnswer x) 1 := by
      rw [Fraction.round, hfl', ok_bind_false, hd', ok_bind_false, hb', ok_bind_false]
    have hbig : ∃ m, m = (if b then floorAnswer x else floorAnswer x + 1) ∧ n = m := by
      refine ⟨_, rfl, ?_⟩
      -- decide `b` by the run over a type wide enough for the sum
      have hdd : Denotes d (x - floorAnswer x) := Ops.arith_exact (a := .fr f (floorAnswer x)) ⟨hx, rfl⟩ hd
      have h2 : Denotes (Fraction.mk 1 2) (1 / 2) := by norm_num [Denotes, Fraction.mk]
      by_cases hs : o.RoundsProperly f
      · have hlt : b = true ↔ x - floorAnswer x < 1 / 2 := by
          rcases hs with hs | hs | hs
          · exact C15_order_exact_partial (a := .ff d (Fraction.mk 1 2)) ⟨hdd, h2⟩
              ⟨Ops.arith_posDen (a := .fr f _) hs (by decide) hd, by decide⟩ hb
          · exact C15_safe_ff_exact hs hdd h2 hb
          · exact C15_order_exact_partial (a := .ff d (Fraction.mk 1 2)) ⟨hdd, h2⟩
              ⟨Ops.minus_fr_posDen hs hx.1 hd, by decide⟩ hb
        rw [ha.1 hs]; simp only [hlt]
      · rw [ha.2 hs]
        simp only [Ops.RoundsProperly, not_or, not_not, not_lt] at hs
        obtain ⟨hs1, hs2, hs3⟩ := hs
        have hneg := Ops.arith_fr_negDen (.inl rfl) hs3 (lt_of_le_of_ne hs1 hx.1) hd
        have hlt : b = true ↔ 1 / 2 < x - floorAnswer x :=
          (C15_order_characterised (a := .ff d (Fraction.mk 1 2)) ⟨hdd, h2⟩ hb).2
            (Ops.not_orderSafe_of_neg hs3 hs2 hneg (by decide))
        simp only [hlt]
    obtain ⟨m, hm', rfl⟩ := hbig
    rw [hrun]
    split
    · rename_i hbt
      rw [if_pos hbt] at hm'
      rw [hm']; rfl
    · rename_i hbt
      rw [if_neg hbt] at hm'
      exact add_clean.2 ⟨hm' ▸ hn, hm'⟩

example : RoundAnswer (Ops.defaults.RoundsProperly ⟨-3, 4⟩) (-3 / 4) 0 ∧
    Fraction.round i32 .defaults ⟨-3, 4⟩ ⇓ 0 ∧ Fraction.round i32 .fast ⟨5, 2⟩ ⇓ 3 ∧
    Fraction.round i32 .fast ⟨-2147483647, -1⟩ = .fault .overflow := by
  refine ⟨⟨fun _ => by decide +kernel, fun h => absurd (.inl (by decide)) h⟩, by decide +kernel⟩

/-- **C92** `trunc_redenominate` finishes exactly when the product with the new denominator
can be formed and truncated, and this is its answer. -/
theorem C92_trunc_redenominate_iff (hf : f.InRange T) (hx : Denotes f x) (hd : T.InRange d) :
    Fraction.truncRedenominate T o f d ⇓ r ↔
      (∃ p, o.arith T .multiplies (.fr f d) ⇓ p ∧ ¬ p.MinOverMinusOne T) ∧
      r = ⟨ratTrunc (x * d), d⟩ := by
  have hp : ∀ {p}, o.arith T .multiplies (.fr f d) ⇓ p → p.InRange T ∧ Denotes p (x * d) :=
    fun h => ⟨Ops.arith_inRange (a := .fr f d) ⟨hf, hd⟩ h,
      Ops.arith_exact (a := .fr f d) ⟨hx, rfl⟩ h⟩
  simp only [Fraction.truncRedenominate, Fraction.arith_self, bind_eq_clean, pure_eq_ok, and_true]
  constructor
  · rintro ⟨p, h1, n, h2, rfl⟩
    obtain ⟨h3, rfl⟩ := (C92_trunc_iff (hp h1).1 (hp h1).2).1 h2
    exact ⟨⟨p, h1, h3⟩, rfl⟩
  · rintro ⟨⟨p, h1, h3⟩, rfl⟩
    exact ⟨p, h1, _, (C92_trunc_iff (hp h1).1 (hp h1).2).2 ⟨h3, rfl⟩, rfl⟩

example : Fraction.truncRedenominate i32 .defaults ⟨-22, 7⟩ 10 ⇓ ⟨-31, 10⟩ ∧
    Fraction.truncRedenominate i32 .fast ⟨-2147483648, -1⟩ 1 = .fault .overflow := by
  decide +kernel

/-- **C92** `floor_redenominate` and `ceil_redenominate` multiply by the absolute value of the
new denominator, and this is when they finish and what they answer. -/
theorem C92_floor_ceil_redenominate_iff (hf : f.InRange T) (hx : Denotes f x)
    (hd : T.InRange d) :
    (Fraction.floorRedenominate T o f d ⇓ r ↔ T.InRange |d| ∧
      (∃ p, o.arith T .multiplies (.fr f |d|) ⇓ p ∧ ¬ p.MinOverMinusOne T) ∧
      T.InRange r.num ∧ r = ⟨d.sign * floorAnswer (x * |(d : ℚ)|), d⟩) ∧
    (Fraction.ceilRedenominate T o f d ⇓ r ↔ T.InRange |d| ∧
      (∃ p, o.arith T .multiplies (.fr f |d|) ⇓ p ∧ ¬ p.MinOverMinusOne T) ∧
      T.InRange r.num ∧ r = ⟨d.sign * ceilAnswer (x * |(d : ℚ)|), d⟩) := by
  have hq : (|(d : ℚ)|) = ((|d| : ℤ) : ℚ) := by push_cast; rfl
  have hp : ∀ {p}, T.InRange |d| → o.arith T .multiplies (.fr f |d|) ⇓ p →
      p.InRange T ∧ Denotes p (x * |(d : ℚ)|) := fun h0 h => by
    rw [hq]
    exact ⟨Ops.arith_inRange (a := .fr f |d|) ⟨hf, h0⟩ h,
      Ops.arith_exact (a := .fr f |d|) ⟨hx, rfl⟩ h⟩
  rcases lt_trichotomy d 0 with h0 | h0 | h0
  · have hab : |d| = -d := abs_of_neg h0
    have hsg : d.sign = -1 := Int.sign_eq_neg_one_of_neg h0
    rw [hsg]
    simp only [Fraction.floorRedenominate, Fraction.ceilRedenominate, if_neg (not_le.2 h0), ge_iff_le,
      Fraction.arith_self, bind_eq_clean, pure_eq_ok, and_true, neg_clean]
    constructor
    · constructor
      · rintro ⟨_, ⟨h1, rfl⟩, p, h2, c, h3, _, ⟨h4, rfl⟩, rfl⟩
        rw [← hab] at h1 h2
        obtain ⟨h5, rfl⟩ := (C92_floor_iff (hp h1 h2).1 (hp h1 h2).2).1 h3
        exact ⟨h1, ⟨p, h2, h5⟩, h4, by simp [Fraction.mk]⟩
      · rintro ⟨h1, ⟨p, h2, h5⟩, h4, rfl⟩
        refine ⟨_, ⟨hab ▸ h1, rfl⟩, p, hab ▸ h2, _,
          (C92_floor_iff (hp h1 h2).1 (hp h1 h2).2).2 ⟨h5, rfl⟩, _, ⟨by simpa using h4, rfl⟩, ?_⟩
        simp [Fraction.mk]
    · constructor
      · rintro ⟨_, ⟨h1, rfl⟩, p, h2, c, h3, _, ⟨h4, rfl⟩, rfl⟩
        rw [← hab] at h1 h2
        obtain ⟨h5, rfl⟩ := (C92_ceil_iff (hp h1 h2).1 (hp h1 h2).2).1 h3
        exact ⟨h1, ⟨p, h2, h5⟩, h4, by simp [Fraction.mk]⟩
      · rintro ⟨h1, ⟨p, h2, h5⟩, h4, rfl⟩
        refine ⟨_, ⟨hab ▸ h1, rfl⟩, p, hab ▸ h2, _,
          (C92_ceil_iff (hp h1 h2).1 (hp h1 h2).2).2 ⟨h5, rfl⟩, _, ⟨by simpa using h4, rfl⟩, ?_⟩
        simp [Fraction.mk]
  all_goals
    have h0' : 0 ≤ d := by omega
    have hab : |d| = d := abs_of_nonneg h0'
    have hsg : ∀ g : ℚ → ℤ, g 0 = 0 → d.sign * g (x * |(d : ℚ)|) = g (x * |(d : ℚ)|) := by
      intro g hg
      rcases h0'.lt_or_eq with h | h
      · rw [Int.sign_eq_one_of_pos h, one_mul]
      · rw [← h]; simp [hg]
    have hsf := hsg floorAnswer (by decide +kernel)
    have hsc := hsg ceilAnswer (by decide +kernel)
    rw [hsf, hsc]
    simp only [Fraction.floorRedenominate, Fraction.ceilRedenominate, if_pos h0', ge_iff_le,
      Fraction.arith_self, bind_eq_clean, pure_eq_ok, and_true]
    rw [hab] at hp ⊢
    constructor
    · constructor
      · rintro ⟨p, h2, c, h3, rfl⟩
        have h6 : T.InRange c := Fraction.floor_all _ _ h3
        obtain ⟨h5, rfl⟩ := (C92_floor_iff (hp hd h2).1 (hp hd h2).2).1 h3
        exact ⟨hd, ⟨p, h2, h5⟩, h6, rfl⟩
      · rintro ⟨-, ⟨p, h2, h5⟩, h4, rfl⟩
        exact ⟨p, h2, _, (C92_floor_iff (hp hd h2).1 (hp hd h2).2).2 ⟨h5, rfl⟩, rfl⟩
    · constructor
      · rintro ⟨p, h2, c, h3, rfl⟩
        have h6 : T.InRange c := Fraction.ceil_all _ _ h3
        obtain ⟨h5, rfl⟩ := (C92_ceil_iff (hp hd h2).1 (hp hd h2).2).1 h3
        exact ⟨hd, ⟨p, h2, h5⟩, h6, rfl⟩
      · rintro ⟨-, ⟨p, h2, h5⟩, h4, rfl⟩
        exact ⟨p, h2, _, (C92_ceil_iff (hp hd h2).1 (hp hd h2).2).2 ⟨h5, rfl⟩, rfl⟩

example : Fraction.floorRedenominate i32 .defaults ⟨22, 7⟩ (-10) ⇓ ⟨-31, -10⟩ ∧
    Fraction.ceilRedenominate i32 .defaults ⟨22, 7⟩ (-10) ⇓ ⟨-32, -10⟩ ∧
    Fraction.ceilRedenominate i32 .defaults ⟨1, 2⟩ (-2147483648) = .fault .overflow := by
  decide +kernel

/-- **C92** `round_redenominate` finishes exactly when the product with the new denominator
can be formed and rounded, and this is its answer. -/
theorem C92_round_redenominate_iff (hf : f.InRange T) (hx : Denotes f x) (hd : T.InRange d) :
    Fraction.roundRedenominate T o f d ⇓ r ↔ r.den = d ∧ T.InRange r.num ∧
      RoundAnswer (o.RoundsProperly f) (x * d) r.num ∧
      ∃ p, o.arith T .multiplies (.fr f d) ⇓ p ∧ ¬ p.MinOverMinusOne T ∧
        ∃ e, o.arith T .minus (.fr p (floorAnswer (x * d))) ⇓ e ∧
          ∃ b, o.cmp T .less (.ff e ⟨1, 2⟩) ⇓ b := by
  have hp : ∀ {p}, o.arith T .multiplies (.fr f d) ⇓ p →
      p.InRange T ∧ Denotes p (x * d) ∧ (o.RoundsProperly p ↔ o.RoundsProperly f) :=
    fun h => ⟨Ops.arith_inRange (a := .fr f d) ⟨hf, hd⟩ h,
      Ops.arith_exact (a := .fr f d) ⟨hx, rfl⟩ h,
      redenominate_properly hx.1 (by rwa [Fraction.arith_self])⟩
  simp only [Fraction.roundRedenominate, Fraction.arith_self, bind_eq_clean, pure_eq_ok, and_true]
  constructor
  · rintro ⟨p, h1, n, h2, rfl⟩
    obtain ⟨h3, ⟨e, h4, b, h5⟩, h6, h7⟩ := (C92_round_iff (hp h1).1 (hp h1).2.1).1 h2
    rw [(hp h1).2.2] at h7
    exact ⟨rfl, h6, h7, p, h1, h3, e, h4, b, h5⟩
  · rintro ⟨h8, h6, h7, p, h1, h3, h4⟩
    rw [← (hp h1).2.2] at h7
    exact ⟨p, h1, _, (C92_round_iff (hp h1).1 (hp h1).2.1).2 ⟨h3, h4, h6, h7⟩, by rw [← h8]; rfl⟩

example : Fraction.roundRedenominate i32 .defaults ⟨22, 7⟩ 10 ⇓ ⟨31, 10⟩ ∧
    Fraction.roundRedenominate i32 .fast ⟨1, -4⟩ (-4) ⇓ ⟨2, -4⟩ := by decide +kernel

end Ieme
