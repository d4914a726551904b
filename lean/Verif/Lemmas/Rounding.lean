import Verif.Props.Reduce
import Verif.Props.Compare
import Verif.Lemmas.Signs

/-!
# What `trunc`, `floor`, `ceil` and `round` compute
-/

namespace Ieme

open Res IntTy

variable {T : IntTy} {o : Ops} {f r : Raw} {x : ℚ} {n : ℤ}

theorem ratTrunc_int (m : ℤ) : ratTrunc m = m := by simp [ratTrunc]

theorem Fraction.trunc_ok {w : Bool} (hx : Denotes f x) (h : Fraction.trunc T f = .ok n w) :
    n = ratTrunc x ∧ w = false := by
  obtain ⟨-, -, rfl, rfl⟩ := div_eq_ok.1 h
  rw [← hx.2, ratTrunc_div]; exact ⟨rfl, rfl⟩

theorem ceil_eq_floor_add_one {x : ℚ} (h : ¬ ∃ m : ℤ, x = m) : ⌈x⌉ = ⌊x⌋ + 1 := by
  rw [Int.ceil_eq_iff]
  push_cast
  refine ⟨?_, (Int.lt_floor_add_one x).le⟩
  have h1 := Int.floor_le x
  rcases h1.lt_or_eq with h2 | h2
  · linarith
  · exact absurd ⟨_, h2.symm⟩ h

theorem nearestUp_floor (x : ℚ) : NearestUp x ⌊x + 1 / 2⌋ := by
  have h1 := Int.floor_le (x + 1 / 2)
  have h2 := Int.lt_floor_add_one (x + 1 / 2)
  refine ⟨by rw [abs_le]; constructor <;> linarith, fun m hm => ?_⟩
  by_contra hc
  have h3 : ⌊x + 1 / 2⌋ + 1 ≤ m := by omega
  have h4 : (⌊x + 1 / 2⌋ : ℚ) + 1 ≤ m := by exact_mod_cast h3
  rw [abs_of_nonneg (by linarith)] at hm
  linarith

theorem Fraction.floor_val (hx : Denotes f x) (h : Fraction.floor T f ⇓ n) :
    n = if -1 < x ∧ x < 0 then 0 else ⌊x⌋ := by
  obtain ⟨t, ht, h⟩ := bind_eq_clean.1 h
  obtain ⟨b, hb, h⟩ := bind_eq_clean.1 h
  have ht' := (Fraction.trunc_ok hx ht).1
  have hb' := C25_is_integer_exact hb
  have hint : b = true ↔ ∃ m : ℤ, x = m := by
    rw [hb']; exact ⟨fun ⟨m, hm⟩ => ⟨m, hx.unique hm⟩, fun ⟨m, hm⟩ => ⟨m, hm ▸ hx⟩⟩
  cases hbb : b
  · have hni : ¬ ∃ m : ℤ, x = m := by rw [← hint, hbb]; simp
    have hcf := ceil_eq_floor_add_one hni
    simp only [hbb, Bool.false_or, decide_eq_true_eq] at h
    have hfl := Int.floor_le x
    have hfl' := Int.lt_floor_add_one x
    unfold ratTrunc at ht'
    split at h
    · rename_i h0
      simp only [pure_eq_ok, and_true] at h
      subst h
      by_cases hx0 : 0 ≤ x
      · rw [if_pos hx0] at ht'
        rw [if_neg (by intro h; linarith [h.2])]; exact ht'
      · rw [if_neg hx0] at ht'
        have hc0 : ⌈x⌉ ≤ 0 := Int.ceil_le.2 (by push_cast; linarith)
        have : t = 0 := by omega
        have h1 : ⌊x⌋ = -1 := by omega
        rw [h1] at hfl; push_cast at hfl
        have hne : x ≠ -1 := fun e => hni ⟨-1, by rw [e]; push_cast; ring⟩
        rw [if_pos ⟨lt_of_le_of_ne hfl (Ne.symm hne), by linarith⟩]; exact this
    · rename_i h0
      obtain ⟨-, rfl⟩ := sub_clean.1 h
      by_cases hx0 : 0 ≤ x
      · rw [if_pos hx0] at ht'
        have := Int.floor_nonneg.2 hx0; omega
      · rw [if_neg hx0] at ht'
        have h1 : ⌊x⌋ + 1 ≤ -1 := by omega
        have h2 : ((⌊x⌋ + 1 : ℤ) : ℚ) ≤ ((-1 : ℤ) : ℚ) := by exact_mod_cast h1
        push_cast at h2
        rw [if_neg (by intro h; linarith [h.1])]; omega
  · obtain ⟨m, rfl⟩ := hint.1 hbb
    simp only [hbb, Bool.true_or, if_true, pure_eq_ok, and_true] at h
    rw [ratTrunc_int] at ht'
    rw [← h, ht', Int.floor_intCast, if_neg]
    rintro ⟨h1, h2⟩
    have h1 : (-1 : ℤ) < m := by exact_mod_cast h1
    have h2 : m < 0 := by exact_mod_cast h2
    omega

theorem Fraction.ceil_val (hx : Denotes f x) (h : Fraction.ceil T f ⇓ n) :
    n = if -1 < x ∧ x < 0 then 1 else ⌈x⌉ := by
  obtain ⟨t, ht, h⟩ := bind_eq_clean.1 h
  obtain ⟨b, hb, h⟩ := bind_eq_clean.1 h
  have ht' := (Fraction.trunc_ok hx ht).1
  have hb' := C25_is_integer_exact hb
  have hint : b = true ↔ ∃ m : ℤ, x = m := by
    rw [hb']; exact ⟨fun ⟨m, hm⟩ => ⟨m, hx.unique hm⟩, fun ⟨m, hm⟩ => ⟨m, hm ▸ hx⟩⟩
  cases hbb : b
  · have hni : ¬ ∃ m : ℤ, x = m := by rw [← hint, hbb]; simp
    have hcf := ceil_eq_floor_add_one hni
    simp only [hbb, Bool.false_or, decide_eq_true_eq] at h
    have hfl := Int.floor_le x
    have hfl' := Int.lt_floor_add_one x
    unfold ratTrunc at ht'
    split at h
    · rename_i h0
      simp only [pure_eq_ok, and_true] at h
      subst h
      by_cases hx0 : 0 ≤ x
      · rw [if_pos hx0] at ht'
        have := Int.floor_nonneg.2 hx0; omega
      · rw [if_neg hx0] at ht'
        have h1 : ⌊x⌋ + 1 ≤ -1 := by omega
        have h2 : ((⌊x⌋ + 1 : ℤ) : ℚ) ≤ ((-1 : ℤ) : ℚ) := by exact_mod_cast h1
        push_cast at h2
        rw [if_neg (by intro h; linarith [h.1])]; exact ht'
    · rename_i h0
      obtain ⟨-, rfl⟩ := add_clean.1 h
      by_cases hx0 : 0 ≤ x
      · rw [if_pos hx0] at ht'
        rw [if_neg (by intro h; linarith [h.2])]; omega
      · rw [if_neg hx0] at ht'
        have hc0 : ⌈x⌉ ≤ 0 := Int.ceil_le.2 (by push_cast; linarith)
        have : t = 0 := by omega
        have h1 : ⌊x⌋ = -1 := by omega
        rw [h1] at hfl; push_cast at hfl
        have hne : x ≠ -1 := fun e => hni ⟨-1, by rw [e]; push_cast; ring⟩
        rw [if_pos ⟨lt_of_le_of_ne hfl (Ne.symm hne), by linarith⟩]; omega
  · obtain ⟨m, rfl⟩ := hint.1 hbb
    simp only [hbb, Bool.true_or, if_true, pure_eq_ok, and_true] at h
    rw [ratTrunc_int] at ht'
    rw [← h, ht', Int.ceil_intCast, if_neg]
    rintro ⟨h1, h2⟩
    have h1 : (-1 : ℤ) < m := by exact_mod_cast h1
    have h2 : m < 0 := by exact_mod_cast h2
    omega

/-- The whole number from which `round` starts: the floor, with the error of C30. -/
theorem Fraction.round_cases (hx : Denotes f x) (h : Fraction.round T o f ⇓ n) :
    ∃ m : ℤ, m = (if -1 < x ∧ x < 0 then 0 else ⌊x⌋) ∧
      (o.RoundsProperly f → n = if x - m < 1 / 2 then m else m + 1) ∧
      (¬ o.RoundsProperly f → n = if 1 / 2 < x - m then m else m + 1) := by
  obtain ⟨m, hm, h⟩ := bind_eq_clean.1 h
  obtain ⟨d, hd, h⟩ := bind_eq_clean.1 h
  obtain ⟨b, hb, h⟩ := bind_eq_clean.1 h
  rw [Fraction.arith_self] at hd
  rw [Fraction.cmp_self] at hb
  have hdd : Denotes d (x - m) := Ops.arith_exact (a := .fr f m) ⟨hx, rfl⟩ hd
  have h2 : Denotes (Fraction.mk 1 2) (1 / 2) := by norm_num [Denotes, Fraction.mk]
  have hn : n = if b = true then m else m + 1 := by
    split at h
    · simp only [pure_eq_ok, and_true] at h
      rw [if_pos (by assumption), h]
    · rw [if_neg (by assumption)]
      exact (add_clean.1 h).2
  refine ⟨m, Fraction.floor_val hx hm, fun hs => ?_, fun hs => ?_⟩
  · have hlt : b = true ↔ x - m < 1 / 2 := by
      rcases hs with hs | hs | hs
      · exact C15_order_exact_partial (a := .ff d (Fraction.mk 1 2)) ⟨hdd, h2⟩
          ⟨Ops.arith_posDen (a := .fr f m) hs (by decide) hd, by decide⟩ hb
      · exact C15_safe_ff_exact hs hdd h2 hb
      · exact C15_order_exact_partial (a := .ff d (Fraction.mk 1 2)) ⟨hdd, h2⟩
          ⟨Ops.minus_fr_posDen hs hx.1 hd, by decide⟩ hb
    rw [hn]; simp only [hlt]
  · simp only [Ops.RoundsProperly, not_or, not_not, not_lt] at hs
    obtain ⟨hs1, hs2, hs3⟩ := hs
    have hneg := Ops.arith_fr_negDen (.inl rfl) hs3 (lt_of_le_of_ne hs1 hx.1) hd
    have hlt : b = true ↔ 1 / 2 < x - m :=
      (C15_order_characterised (a := .ff d (Fraction.mk 1 2)) ⟨hdd, h2⟩ hb).2
        (Ops.not_orderSafe_of_neg hs3 hs2 hneg (by decide))
    rw [hn]; simp only [hlt]

theorem Fraction.round_val (hx : Denotes f x) (hs : o.RoundsProperly f)
    (h : Fraction.round T o f ⇓ n) :
    n = if -1 < x ∧ x < -1 / 2 then 0 else ⌊x + 1 / 2⌋ := by
  obtain ⟨m, hm', hn, -⟩ := Fraction.round_cases hx h
  rw [hn hs, hm']
  by_cases hc : -1 < x ∧ x < 0
  · simp only [if_pos hc]
    rw [if_pos (by push_cast; linarith [hc.2])]
    split
    · rfl
    · rename_i hh
      symm
      rw [Int.floor_eq_iff]
      push_cast
      constructor
      · by_contra hcc
        exact hh ⟨hc.1, by linarith⟩
      · linarith [hc.2]
  · simp only [if_neg hc]
    have hc' : ¬ (-1 < x ∧ x < -1 / 2) := fun h => hc ⟨h.1, by linarith [h.2]⟩
    rw [if_neg hc']
    have hfl := Int.floor_le x
    have hfl' := Int.lt_floor_add_one x
    split <;> symm <;> rw [Int.floor_eq_iff] <;> push_cast <;> constructor <;> linarith

end Ieme

namespace Ieme

open Res IntTy

variable {T : IntTy} {o : Ops} {f r : Raw} {x : ℚ} {n d : ℤ}

theorem nearestUp_grid {n : ℤ} (hd : d ≠ 0) :
    NearestUp (x * d) n ↔ |gridPoint d n - x| ≤ 1 / (2 * |(d : ℚ)|) ∧
      ∀ m : ℤ, |gridPoint d m - x| = 1 / (2 * |(d : ℚ)|) → m ≤ n := by
  have hdq : (d : ℚ) ≠ 0 := by exact_mod_cast hd
  have hda : 0 < |(d : ℚ)| := abs_pos.2 hdq
  have e : ∀ k : ℤ, |(k : ℚ) - x * d| = |gridPoint d k - x| * |(d : ℚ)| := fun k => by
    rw [← abs_mul]; congr 1; simp only [gridPoint]; field_simp
  have e2 : 1 / (2 * |(d : ℚ)|) * |(d : ℚ)| = 1 / 2 := by field_simp
  rw [NearestUp]
  simp only [e, ← e2]
  rw [mul_le_mul_iff_left₀ hda]
  simp only [mul_left_inj' hda.ne']

theorem redenominate_product {p : Raw} (hx : Denotes f x)
    (h : Fraction.arith T T o .multiplies (.fr f d) ⇓ p) : Denotes p (x * d) := by
  rw [Fraction.arith_self] at h
  exact Ops.arith_exact (a := .fr f d) ⟨hx, rfl⟩ h

theorem redenominate_properly {p : Raw} (hx : f.den ≠ 0)
    (h : Fraction.arith T T o .multiplies (.fr f d) ⇓ p) :
    o.RoundsProperly p ↔ o.RoundsProperly f := by
  rw [Fraction.arith_self] at h
  by_cases hi : o.IgnoresSigns
  · have : 0 < p.den ↔ 0 < f.den := by
      refine ⟨fun hp => ?_, fun hp => Ops.arith_posDen (a := .fr f d) hp (by decide) h⟩
      by_contra hc
      have := Ops.arith_fr_negDen (.inr rfl) hi (lt_of_le_of_ne (not_lt.1 hc) hx) h
      omega
    simp only [Ops.RoundsProperly, this]
  · exact ⟨fun _ => .inr (.inr hi), fun _ => .inr (.inr hi)⟩

end Ieme
