import Verif.Lemmas.Directed
import Verif.Spec.Parse
import Verif.Spec.Dyadic
import Mathlib.Data.Nat.Prime.Basic

/-!
# Dividing by powers of two
-/

namespace Ieme
namespace Fmt

variable {F : Fmt}

theorem scale_div_two {a : ℚ} (ha : 0 < a) (k : ℕ) (hl : 1 - F.bias + k ≤ Int.log 2 a) :
    F.scale (a / 2 ^ k) = F.scale a - k := by
  have e : Int.log 2 (a / 2 ^ k) = Int.log 2 a - k := by
    rw [← zpow_natCast, div_eq_mul_inv, ← zpow_neg]
    have h2 : (2 : ℚ) ^ (-(k : ℤ)) = (((2 : ℕ) : ℚ)) ^ (-(k : ℤ)) := by norm_num
    have h3 : (0 : ℚ) < 2 ^ (-(k : ℤ)) := two_zpow_pos _
    have h4 : 0 < a * 2 ^ (-(k : ℤ)) := mul_pos ha h3
    apply le_antisymm
    · have := Int.lt_zpow_succ_log_self (b := 2) (by decide) a
      rw [← Int.lt_add_one_iff]
      refine (Int.lt_zpow_iff_log_lt (by decide) h4).1 ?_
      rw [show Int.log 2 a - (k : ℤ) + 1 = (Int.log 2 a + 1) + -k by ring, zpow_add₀ (by norm_num),
        ← h2]
      exact mul_lt_mul_of_pos_right this h3
    · refine (Int.zpow_le_iff_le_log (by decide) h4).1 ?_
      rw [show Int.log 2 a - (k : ℤ) = Int.log 2 a + -k by ring, zpow_add₀ (by norm_num), ← h2]
      exact mul_le_mul_of_nonneg_right (Int.zpow_log_le_self (by decide) ha) h3.le
  rw [scale, scale, if_neg (by positivity), if_neg ha.ne', e]
  omega

theorem sig_div_two {a : ℚ} (ha : 0 < a) (k : ℕ) (hl : 1 - F.bias + k ≤ Int.log 2 a) :
    F.sig (a / 2 ^ k) = F.sig a := by
  rw [sig, sig, scale_div_two ha k hl]
  congr 1
  rw [show F.scale a - k - F.mant = (F.scale a - F.mant) - k by ring, zpow_sub₀ (by norm_num),
    zpow_natCast]
  field_simp

/-- Powers of two up to the bias are representable. -/
theorem representable_pow_two {k : ℕ} (hk : (k : ℤ) ≤ F.bias) : F.Representable ((2 : ℚ) ^ k) := by
  have h1 : (1 : ℕ) < 2 ^ (F.mant + 1) := Nat.one_lt_two_pow (by omega)
  have := representable_grid (F := F) (k := 1) (j := k) false h1 (by have := bias_pos F; omega) (by
    rw [overflowBound, Nat.cast_one, one_mul, zpow_add_one₀ (by norm_num)]
    have h3 : (2 : ℚ) ^ (F.bias - F.mant - 1) < 2 ^ F.bias :=
      zpow_lt_zpow_right₀ (by norm_num) (by omega)
    have h2 : (2 : ℚ) ^ (k : ℤ) ≤ 2 ^ F.bias := zpow_le_zpow_right₀ (by norm_num) hk
    linarith)
  simpa using this

/-- An integer divided by a power of two is rounded once, whether or not the integer itself is
representable. -/
theorem rounded_dyadic {n : ℤ} {k : ℕ} (hn : |(n : ℚ)| < F.overflowBound) (hk : (k : ℤ) ≤ F.bias)
    (hF : (F.mant : ℤ) < F.bias) :
    F.Rounded (n / 2 ^ k) (F.div (F.ofInt n) (F.ofInt (2 ^ k))) := by
  have hd : F.Representable (((2 : ℤ) ^ k : ℤ) : ℚ) := by
    push_cast; exact representable_pow_two hk
  rcases Nat.lt_or_ge (2 ^ (F.mant + 1)) n.natAbs with h | h
  swap
  · have := rounded_quotient (F := F) (representable_int h hF) hd (by positivity)
    push_cast at this
    exact this
  set a : ℚ := |(n : ℚ)| with ha'
  have han : a = (n.natAbs : ℚ) := by rw [ha', ← Int.cast_abs, Int.abs_eq_natAbs, Int.cast_natCast]
  have hpow : (0 : ℚ) < 2 ^ k := by positivity
  have ha : 0 < a := by rw [han]; exact_mod_cast (Nat.zero_le _).trans_lt h
  have hl : 1 - F.bias + k ≤ Int.log 2 a := by
    refine (Int.zpow_le_iff_le_log (b := 2) (by decide) ha).1 ?_
    have h1 : ((2 : ℕ) : ℚ) ^ (1 - F.bias + k) ≤ ((2 : ℕ) : ℚ) ^ (1 : ℤ) :=
      zpow_le_zpow_right₀ (by norm_num) (by omega)
    refine h1.trans ?_
    rw [han]
    have h2 : 2 ^ 1 ≤ 2 ^ (F.mant + 1) := Nat.pow_le_pow_right (by decide) (by omega)
    have : 2 ≤ n.natAbs := by omega
    rw [zpow_one]
    exact_mod_cast this
  have hlt : a / 2 ^ k < F.overflowBound := lt_of_le_of_lt
    (div_le_self ha.le (one_le_pow₀ (by norm_num))) hn
  have rn := rounded_ofInt (F := F) n
  have rd := rounded_ofInt (F := F) (2 ^ k)
  have vd := rd.exact hd
  push_cast at vd
  have rq := rounded_withSign (F := F) ((n : ℚ) / 2 ^ k)
  have hsgn : ((n : ℚ) / 2 ^ k < 0) ↔ n < 0 := by
    rw [div_neg_iff]
    constructor
    · rintro (⟨-, h1⟩ | ⟨h1, -⟩)
      · exact absurd h1 (not_lt.2 hpow.le)
      · exact_mod_cast h1
    · exact fun h1 => .inr ⟨by exact_mod_cast h1, hpow⟩
  set c := F.withSign (decide ((n : ℚ) / 2 ^ k < 0)) (F.roundAbs |(n : ℚ) / 2 ^ k|) with hc
  have habs : |(n : ℚ) / 2 ^ k| = a / 2 ^ k := by rw [abs_div, abs_of_pos hpow]
  have fc := rq.finite (by rw [habs]; exact hlt)
  have fn := rn.finite hn
  have fd := rd.finite hd.lt
  -- the value of the rounded quotient
  obtain ⟨q1, q2, -⟩ := roundAbs_magnitude (F := F) ha.le hn
  obtain ⟨p1, p2, -⟩ := roundAbs_magnitude (F := F) (a := a / 2 ^ k) (by positivity) hlt
  have vn : F.value (F.ofInt n) = (if decide (n < 0) then -1 else 1) *
      (F.sig a * 2 ^ (F.scale a - F.mant)) := by
    rw [ofInt, ← han, value_withSign _ (q1.trans (infBits_lt F)), q2]
  have vc : F.value c = F.value (F.ofInt n) / 2 ^ k := by
    rw [hc, habs, value_withSign _ (p1.trans (infBits_lt F)), p2, sig_div_two ha k hl,
      scale_div_two ha k hl, vn]
    simp only [hsgn]
    rw [show F.scale a - k - F.mant = (F.scale a - F.mant) - k by ring, zpow_sub₀ (by norm_num),
      zpow_natCast]
    ring
  have hv0 : F.value (F.ofInt n) ≠ 0 := by
    have h0 : 0 < F.sig a := by
      have h1 := le_sig (F := F) ha.le (a := a) (by
        rw [scale, if_neg ha.ne']
        have : 1 ≤ Int.log 2 a := by
          refine (Int.zpow_le_iff_le_log (b := 2) (by decide) ha).1 ?_
          rw [han, zpow_one]
          have h2 : 2 ^ 1 ≤ 2 ^ (F.mant + 1) := Nat.pow_le_pow_right (by decide) (by omega)
          exact_mod_cast (by omega : 2 ≤ n.natAbs)
        have := bias_pos F
        omega)
      exact lt_of_lt_of_le (Nat.pow_pos (by decide)) h1
    rw [vn]
    have : (0 : ℚ) < F.sig a * 2 ^ (F.scale a - F.mant) :=
      mul_pos (by exact_mod_cast h0) (two_zpow_pos _)
    split
    · linarith
    · linarith
  have rdiv := rounded_div fn fd (by rw [vd]; exact hpow.ne') (fun h0 => absurd h0 hv0)
  rw [vd, ← vc] at rdiv
  have vdiv := rdiv.exact ⟨c, fc, rfl⟩
  have hlt' : |F.value c| < F.overflowBound := Representable.lt ⟨c, fc, rfl⟩
  have e : F.div (F.ofInt n) (F.ofInt (2 ^ k)) = c := by
    refine value_inj (rdiv.finite hlt') fc ?_ vdiv
    rw [rdiv.sign, rq.sign, vc, vn]
    have : (0 : ℚ) < F.sig a * 2 ^ (F.scale a - F.mant) := by
      refine lt_of_le_of_ne (mul_nonneg (Nat.cast_nonneg _) (two_zpow_pos _).le) (fun h0 => hv0 ?_)
      rw [vn, ← h0, mul_zero]
    simp only [hsgn]
    by_cases h1 : n < 0
    · rw [if_pos h1, if_pos (by simp only [h1, decide_true, if_true]; exact div_neg_of_neg_of_pos (by linarith) hpow)]
    · rw [if_neg h1, if_neg (by simp only [h1, decide_false]; rw [not_lt]; simp only [Bool.false_eq_true, if_false]; positivity)]
  rw [e]
  exact rq

/-- Significand to which the magnitude `a` rounds in direction `d`. -/
def sigTo (F : Fmt) (d : Direction) (neg : Bool) (a : ℚ) : ℕ :=
  if d = .nearest then F.sig a
  else if away d neg then ⌈a / 2 ^ (F.scale a - F.mant)⌉₊
  else ⌊a / 2 ^ (F.scale a - F.mant)⌋₊

theorem sigTo_bounds (d : Direction) (neg : Bool) {a : ℚ} (ha : 0 ≤ a) :
    F.sigTo d neg a ≤ 2 ^ (F.mant + 1) ∧
      (F.scale a = 1 - F.bias ∨ 2 ^ F.mant ≤ F.sigTo d neg a) := by
  have h1 := quot_lt (F := F) ha
  constructor
  · rw [sigTo]
    split_ifs
    · exact sig_le ha
    · exact Nat.ceil_le.2 h1.le
    · exact Nat.floor_le_of_le h1.le
  · by_cases h0 : F.scale a = 1 - F.bias
    · exact .inl h0
    · have h2 := le_quot (F := F) ha h0
      refine .inr ?_
      rw [sigTo]
      split_ifs
      · exact le_sig ha h0
      · exact_mod_cast h2.trans (Nat.le_ceil _)
      · exact Nat.le_floor h2

theorem sigTo_div_two (d : Direction) (neg : Bool) {a : ℚ} (ha : 0 < a) (k : ℕ)
    (hl : 1 - F.bias + k ≤ Int.log 2 a) : F.sigTo d neg (a / 2 ^ k) = F.sigTo d neg a := by
  have e : a / 2 ^ k / (2 : ℚ) ^ (F.scale (a / 2 ^ k) - F.mant) = a / 2 ^ (F.scale a - F.mant) := by
    rw [scale_div_two ha k hl, show F.scale a - k - F.mant = (F.scale a - F.mant) - k by ring,
      zpow_sub₀ (by norm_num), zpow_natCast]
    field_simp
  rw [sigTo, sigTo, sig_div_two ha k hl, e]

theorem roundTo_sigTo (d : Direction) (neg : Bool) {a : ℚ} (ha : 0 < a) (h : a < 2 ^ F.bias) :
    F.roundTo d neg a < F.infBits ∧
    F.magnitude (F.roundTo d neg a) = F.sigTo d neg a * 2 ^ (F.scale a - F.mant) := by
  have hb := two_bias F
  have hb1 := bias_pos F
  have hge := scale_ge F a
  obtain ⟨s1, s2⟩ := sigTo_bounds (F := F) d neg ha.le
  have hp : 0 < 2 ^ F.mant := Nat.pow_pos (by decide)
  have hs : F.scale a < F.bias := by
    rw [scale, if_neg ha.ne']
    have : Int.log 2 a < F.bias := (Int.lt_zpow_iff_log_lt (b := 2) (by decide) ha).1 (by exact_mod_cast h)
    omega
  have hf : (F.scale a - (1 - F.bias)).toNat * 2 ^ F.mant + F.sigTo d neg a < F.infBits := by
    obtain ⟨E, hE⟩ : ∃ E : ℕ, (E : ℤ) = F.scale a - (1 - F.bias) :=
      ⟨(F.scale a - (1 - F.bias)).toNat, by omega⟩
    obtain ⟨B, hB⟩ : ∃ B : ℕ, (B : ℤ) = F.bias := ⟨F.bias.toNat, by omega⟩
    have hX : 2 ^ F.exp - 1 = 2 * B + 1 := by omega
    rw [← hE, Int.toNat_natCast, infBits, hX]
    rw [pow_succ] at s1
    have h2 : E + 2 ≤ 2 * B := by omega
    calc E * 2 ^ F.mant + F.sigTo d neg a ≤ (E + 2) * 2 ^ F.mant := by ring_nf; omega
      _ ≤ (2 * B) * 2 ^ F.mant := Nat.mul_le_mul_right _ h2
      _ < (2 * B + 1) * 2 ^ F.mant := by ring_nf; omega
  have e : F.roundTo d neg a =
      (F.scale a - (1 - F.bias)).toNat * 2 ^ F.mant + F.sigTo d neg a := by
    rw [sigTo] at hf ⊢
    rw [roundTo]
    split_ifs at hf ⊢
    · rw [roundAbs_eq, min_eq_left hf.le]
    · exact min_eq_left hf.le
    · exact min_eq_left (by omega)
  rw [e]
  refine ⟨hf, ?_⟩
  rw [magnitude_decode s1 ?_ hf]
  · congr 2
    omega
  · rcases s2 with h0 | h0
    · left; omega
    · exact .inr h0

/-- In every rounding direction an integer divided by a power of two is rounded once. -/
theorem roundedTo_dyadic (d : Direction) {n : ℤ} {k : ℕ} (hn : |(n : ℚ)| < 2 ^ F.bias)
    (hk : (k : ℤ) ≤ F.bias) (hF : (F.mant : ℤ) < F.bias) :
    F.RoundedTo d (n / 2 ^ k) (F.divTo d (F.ofIntTo d n) (F.ofIntTo d (2 ^ k))) := by
  have hd : F.Representable (((2 : ℤ) ^ k : ℤ) : ℚ) := by
    push_cast; exact representable_pow_two hk
  rcases Nat.lt_or_ge (2 ^ (F.mant + 1)) n.natAbs with h | h
  swap
  · have := roundedTo_quotient (F := F) d (representable_int h hF) hd (by positivity)
    push_cast at this
    exact this
  set a : ℚ := |(n : ℚ)| with ha'
  have han : a = (n.natAbs : ℚ) := by rw [ha', ← Int.cast_abs, Int.abs_eq_natAbs, Int.cast_natCast]
  have hpow : (0 : ℚ) < 2 ^ k := by positivity
  have ha : 0 < a := by rw [han]; exact_mod_cast (Nat.zero_le _).trans_lt h
  have ha2 : 1 ≤ Int.log 2 a := by
    refine (Int.zpow_le_iff_le_log (b := 2) (by decide) ha).1 ?_
    rw [han, zpow_one]
    have h2 : 2 ^ 1 ≤ 2 ^ (F.mant + 1) := Nat.pow_le_pow_right (by decide) (by omega)
    exact_mod_cast (by omega : 2 ≤ n.natAbs)
  have hb1 := bias_pos F
  have hl : 1 - F.bias + k ≤ Int.log 2 a := by omega
  have hlt : a / 2 ^ k < 2 ^ F.bias := lt_of_le_of_lt
    (div_le_self ha.le (one_le_pow₀ (by norm_num))) hn
  have ha' : 0 < a / 2 ^ k := div_pos ha hpow
  have rd := roundedTo_ofInt (F := F) d (2 ^ k)
  obtain ⟨fd, vd⟩ := rd.exact hd
  push_cast at vd
  have rq := roundedTo_withSign (F := F) d ((n : ℚ) / 2 ^ k)
  have hsgn : ((n : ℚ) / 2 ^ k < 0) ↔ n < 0 := by
    rw [div_neg_iff]
    constructor
    · rintro (⟨-, h1⟩ | ⟨h1, -⟩)
      · exact absurd h1 (not_lt.2 hpow.le)
      · exact_mod_cast h1
    · exact fun h1 => .inr ⟨by exact_mod_cast h1, hpow⟩
  have habs : |(n : ℚ) / 2 ^ k| = a / 2 ^ k := by rw [abs_div, abs_of_pos hpow]
  have hdec : decide ((n : ℚ) / 2 ^ k < 0) = decide (n < 0) := decide_eq_decide.2 hsgn
  rw [habs, hdec] at rq
  set neg := decide (n < 0) with hneg
  obtain ⟨q1, q2⟩ := roundTo_sigTo (F := F) d neg ha hn
  obtain ⟨p1, p2⟩ := roundTo_sigTo (F := F) d neg ha' hlt
  have fn : F.Finite (F.ofIntTo d n) := by
    rw [ofIntTo, ← han]; exact finite_withSign _ q1
  set c := F.withSign neg (F.roundTo d neg (a / 2 ^ k)) with hc
  have fc : F.Finite c := finite_withSign _ p1
  have vn : F.value (F.ofIntTo d n) = (if neg then -1 else 1) *
      (F.sigTo d neg a * 2 ^ (F.scale a - F.mant)) := by
    rw [ofIntTo, ← han, ← hneg, value_withSign _ (q1.trans (infBits_lt F)), q2]
  have vc : F.value c = F.value (F.ofIntTo d n) / 2 ^ k := by
    rw [hc, value_withSign _ (p1.trans (infBits_lt F)), p2, sigTo_div_two d neg ha k hl,
      scale_div_two ha k hl, vn]
    rw [show F.scale a - k - F.mant = (F.scale a - F.mant) - k by ring, zpow_sub₀ (by norm_num),
      zpow_natCast]
    ring
  have hpos : (0 : ℚ) < F.sigTo d neg a * 2 ^ (F.scale a - F.mant) := by
    have h0 : 0 < F.sigTo d neg a := by
      rcases (sigTo_bounds (F := F) d neg ha.le).2 with h1 | h1
      · rw [scale, if_neg ha.ne'] at h1
        omega
      · exact lt_of_lt_of_le (Nat.pow_pos (by decide)) h1
    exact mul_pos (by exact_mod_cast h0) (two_zpow_pos _)
  have hv0 : F.value (F.ofIntTo d n) ≠ 0 := by
    rw [vn]
    split
    · linarith
    · linarith
  have rdiv := roundedTo_div d fn fd (by rw [vd]; exact hpow.ne') (fun h0 => absurd h0 hv0)
  rw [vd, ← vc] at rdiv
  obtain ⟨fdiv, vdiv⟩ := rdiv.exact ⟨c, fc, rfl⟩
  have e : F.divTo d (F.ofIntTo d n) (F.ofIntTo d (2 ^ k)) = c := by
    refine value_inj fdiv fc ?_ vdiv
    rw [rdiv.2.1, rq.2.1, vc, vn]
    simp only [hsgn]
    by_cases h1 : n < 0
    · rw [if_pos h1, if_pos]
      have e1 : neg = true := decide_eq_true h1
      rw [if_pos e1]
      exact div_neg_of_neg_of_pos (by linarith) hpow
    · rw [if_neg h1, if_neg]
      have e1 : ¬ neg = true := by simpa [hneg] using h1
      rw [if_neg e1, one_mul, not_lt]
      exact (div_pos hpos hpow).le
  rw [e]
  exact rq

end Fmt

/-! ## Dyadic rationals -/

theorem dyadic_iff {q : ℚ} : IsDyadic q ↔ ∃ (n : ℤ) (k : ℕ), q = n / 2 ^ k := by
  constructor
  · rintro ⟨k, h⟩
    refine ⟨q.num, k, ?_⟩
    have := (Rat.num_div_den q).symm
    rw [h] at this
    push_cast at this
    exact this
  · rintro ⟨n, k, rfl⟩
    have h : ((n : ℚ) / 2 ^ k).den ∣ 2 ^ k := by
      have := Rat.den_dvd n ((2 ^ k : ℕ) : ℤ)
      rw [Rat.divInt_eq_div] at this
      push_cast at this
      exact_mod_cast this
    obtain ⟨j, -, hj⟩ := (Nat.dvd_prime_pow Nat.prime_two).1 h
    exact ⟨j, hj⟩

namespace IsDyadic

variable {x y : ℚ}

theorem int (n : ℤ) : IsDyadic n := ⟨0, by simp⟩

theorem neg (h : IsDyadic x) : IsDyadic (-x) := by
  obtain ⟨k, h⟩ := h
  exact ⟨k, by rw [Rat.neg_den, h]⟩

theorem mul (hx : IsDyadic x) (hy : IsDyadic y) : IsDyadic (x * y) := by
  obtain ⟨n, k, rfl⟩ := dyadic_iff.1 hx
  obtain ⟨m, j, rfl⟩ := dyadic_iff.1 hy
  refine dyadic_iff.2 ⟨n * m, k + j, ?_⟩
  push_cast
  rw [pow_add]
  field_simp

theorem add (hx : IsDyadic x) (hy : IsDyadic y) : IsDyadic (x + y) := by
  obtain ⟨n, k, rfl⟩ := dyadic_iff.1 hx
  obtain ⟨m, j, rfl⟩ := dyadic_iff.1 hy
  refine dyadic_iff.2 ⟨n * 2 ^ j + m * 2 ^ k, k + j, ?_⟩
  push_cast
  rw [pow_add]
  field_simp

theorem sub (hx : IsDyadic x) (hy : IsDyadic y) : IsDyadic (x - y) := by
  rw [sub_eq_add_neg]
  exact hx.add hy.neg

theorem two_zpow (j : ℤ) : IsDyadic (2 ^ j) := by
  obtain ⟨n, rfl | rfl⟩ := Int.eq_nat_or_neg j
  · refine dyadic_iff.2 ⟨2 ^ n, 0, ?_⟩
    push_cast
    simp
  · refine dyadic_iff.2 ⟨1, n, ?_⟩
    push_cast
    rw [zpow_neg, zpow_natCast, one_div]

theorem op {o : ArithOp} {q : ℚ} (ho : o ≠ .divides) (hx : IsDyadic x) (hy : IsDyadic y)
    (h : o.value x y = some q) : IsDyadic q := by
  cases o with
  | plus => cases h; exact hx.add hy
  | minus => cases h; exact hx.sub hy
  | multiplies => cases h; exact hx.mul hy
  | divides => exact absurd rfl ho
  | modulus =>
    rw [ArithOp.value] at h
    split at h
    · cases h
    · cases h; exact hx.sub (hy.mul (int _))

/-- Values of finite patterns are dyadic. -/
theorem of_representable {F : Fmt} (h : F.Representable x) : IsDyadic x := by
  obtain ⟨c, -, rfl⟩ := h
  obtain ⟨k, j, s, -, -, hs, e⟩ := Fmt.value_grid F c
  rw [e]
  exact (int s).mul (IsDyadic.mul (int k) (two_zpow j))

end IsDyadic

theorem Expr.Undivided.dyadic {e : Expr} (h : e.Undivided) {q : ℚ} (hq : e.value = some q) :
    IsDyadic q := by
  induction e generalizing q with
  | lit f => exact h q hq
  | neg e ih =>
    rw [Expr.value, Option.map_eq_some_iff] at hq
    obtain ⟨x, hx, rfl⟩ := hq
    exact (ih h hx).neg
  | pos e ih => exact ih h hq
  | ff op e1 e2 ih1 ih2 =>
    simp only [Expr.value, Option.bind_eq_some_iff] at hq
    obtain ⟨x, hx, y, hy, hq⟩ := hq
    exact IsDyadic.op h.1 (ih1 h.2.1 hx) (ih2 h.2.2 hy) hq
  | fr op e n ih =>
    simp only [Expr.value, Option.bind_eq_some_iff] at hq
    obtain ⟨x, hx, hq⟩ := hq
    exact IsDyadic.op h.1 (ih h.2 hx) (.int n) hq
  | rf op n e ih =>
    simp only [Expr.value, Option.bind_eq_some_iff] at hq
    obtain ⟨x, hx, hq⟩ := hq
    exact IsDyadic.op h.1 (.int n) (ih h.2 hx) hq

/-- Hexadecimal literals are dyadic. -/
theorem FloatLit.dyadic {l : FloatLit} (h : l.hexPrefix.isSome) : IsDyadic l.value := by
  have h16 : (l.base : ℚ) = 2 ^ 4 := by simp only [base, h, if_true]; norm_num
  have h2 : (l.expBase : ℚ) = 2 := by simp only [expBase, h, if_true]; norm_num
  rw [value, h16, h2, ← pow_mul]
  refine IsDyadic.mul (IsDyadic.add (.int _) (dyadic_iff.2 ⟨Lit.seqValue l.base l.frac,
    4 * (Lit.digits l.frac).length, ?_⟩)) (.two_zpow _)
  push_cast
  rfl

end Ieme
