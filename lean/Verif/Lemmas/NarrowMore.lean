import Verif.Spec.NarrowMore
import Verif.Model.NarrowMore
import Verif.Lemmas.Narrow
import Verif.Lemmas.StreamExact
import Verif.Lemmas.MixedProgress
import Verif.Lemmas.Range

/-!
# Lemmas about streams of narrow integers and narrow whole parts
-/

namespace Ieme
open Res IntTy

namespace NarrowTy

variable {N : NarrowTy}

theorem two_pow_bits (N : NarrowTy) :
    ((2 ^ N.bits : ℕ) : ℤ) = 2 * ((2 ^ (N.bits - 1) : ℕ) : ℤ) := by
  have := N.pos
  obtain ⟨k, hk⟩ : ∃ k, N.bits = k + 1 := ⟨N.bits - 1, by omega⟩
  rw [hk, Nat.add_sub_cancel, pow_succ]
  push_cast; ring

theorem wrap_inRange (N : NarrowTy) (x : ℤ) : N.InRange (N.wrap x) := by
  have h2 := N.two_pow_bits
  have hp : 0 < ((2 ^ (N.bits - 1) : ℕ) : ℤ) := by exact_mod_cast Nat.two_pow_pos _
  unfold wrap InRange min max
  cases hs : N.signed
  · have h1 := Int.emod_nonneg x (b := ((2 ^ N.bits : Nat) : Int)) (by omega)
    have h3 := Int.emod_lt_of_pos x (b := ((2 ^ N.bits : Nat) : Int)) (by omega)
    simp only [Bool.false_eq_true, if_false]
    omega
  · have h1 := Int.le_bmod (x := x) (m := 2 ^ N.bits) (Nat.pow_pos (by decide))
    have h3 := Int.bmod_lt (x := x) (m := 2 ^ N.bits) (Nat.pow_pos (by decide))
    simp only [if_true]
    omega

theorem wrap_eq (N : NarrowTy) (x : ℤ) : ∃ k : ℤ, N.wrap x = x + k * 2 ^ N.bits := by
  unfold wrap
  split
  · refine ⟨-(x.bdiv (2 ^ N.bits)), ?_⟩
    have := Int.bmod_add_bdiv x (2 ^ N.bits)
    push_cast at this
    linarith [mul_comm (x.bdiv (2 ^ N.bits)) ((2 : ℤ) ^ N.bits)]
  · refine ⟨-(x / ((2 ^ N.bits : ℕ) : ℤ)), ?_⟩
    have := Int.emod_add_mul_ediv x ((2 ^ N.bits : ℕ) : ℤ)
    push_cast at this ⊢
    linarith [mul_comm (x / (2 ^ N.bits)) ((2 : ℤ) ^ N.bits)]

theorem conv_eq (N : NarrowTy) (x : ℤ) : ∃ v b, N.conv x = .ok v b ∧ N.InRange v ∧
    (∃ k : ℤ, v = x + k * 2 ^ N.bits) ∧ (b = false → N.InRange x ∧ v = x) := by
  unfold conv
  split
  · rename_i h; exact ⟨x, false, rfl, h, ⟨0, by simp⟩, fun _ => ⟨h, rfl⟩⟩
  · exact ⟨_, true, rfl, N.wrap_inRange x, N.wrap_eq x, fun h => by cases h⟩

theorem conv_clean {x r : ℤ} : N.conv x ⇓ r ↔ N.InRange x ∧ r = x := by
  unfold conv
  split
  · rename_i h; simp [h, eq_comm]
  · rename_i h; simp [h]

theorem max_le (N : NarrowTy) : N.max ≤ 2147483647 := by
  have h : N.InRange N.max := ⟨by have := (zero_inRange (N := N)); exact this.1.trans this.2, le_refl _⟩
  exact (_root_.abs_le.1 (NarrowTy.abs_le h)).2

theorem le_min (N : NarrowTy) : -2147483647 ≤ N.min := by
  have h : N.InRange N.min := ⟨le_refl _, by have := (zero_inRange (N := N)); exact this.1.trans this.2⟩
  exact (_root_.abs_le.1 (NarrowTy.abs_le h)).1

/-- The values of a narrow type are values of every wider signed type. -/
theorem inRange_signed {L : IntTy} (hL : L.signed = true) {x : ℤ} (h : N.InRange x) :
    L.InRange x := by
  have h1 := _root_.abs_le.1 (NarrowTy.abs_le h)
  have h2 := L.max_ge
  have h3 := min_signed hL
  constructor <;> omega

end NarrowTy

namespace Stream

variable {L : IntTy} {N : NarrowTy} {n d old : ℤ} {text rest : List Char} {g : Raw}

theorem getNarrow_leading (hL : L.signed = true) (h : LeadingInt text n rest) :
    getNarrow L N ⟨text, false, false⟩ old =
      (N.receives n, ⟨rest, rest.isEmpty, !decide (N.Accepts n)⟩) := by
  have hz := NarrowTy.zero_inRange (N := N)
  obtain ⟨hz1, hz2⟩ := hz
  unfold getNarrow
  split
  · rename_i hs
    have hb1 : L.min < N.min := by
      have := N.le_min; have := min_signed hL; have := L.max_ge; omega
    have hb2 : N.max < L.max := by
      have h1 := L.max_ge
      have h2 : ((2 ^ (N.bits - 1) : ℕ) : ℤ) ≤ ((2 ^ 30 : ℕ) : ℤ) := by
        exact_mod_cast Nat.pow_le_pow_right (by norm_num) (by have := N.narrow; omega)
      have h3 : N.max = ((2 ^ (N.bits - 1) : ℕ) : ℤ) - 1 := by rw [NarrowTy.max, if_pos hs]
      norm_num at h2 h3
      omega
    rw [getShort, getInt_leading h]
    have e1 : received L n = max L.min (min n L.max) := by rw [received, if_pos hL]
    have e2 : Accepted L n ↔ L.min ≤ n ∧ n ≤ L.max := by rw [Accepted, if_pos hL]; rfl
    have e3 : N.receives n = max N.min (min n N.max) := by rw [NarrowTy.receives, if_pos hs]
    have e4 : N.Accepts n ↔ N.min ≤ n ∧ n ≤ N.max := by rw [NarrowTy.Accepts, if_pos hs]; rfl
    by_cases h1 : n < N.min
    · have c1 : ¬ N.Accepts n := by rw [e4]; omega
      have c2 : received L n < N.min := by rw [e1, max_def, min_def]; split_ifs <;> omega
      simp only [c2, if_true, c1, decide_false, Bool.not_false]
      rw [e3, max_def, min_def]
      congr 1
      split_ifs <;> omega
    · by_cases h2 : N.max < n
      · have c1 : ¬ N.Accepts n := by rw [e4]; omega
        have c2 : ¬ received L n < N.min := by rw [e1, max_def, min_def]; split_ifs <;> omega
        have c3 : N.max < received L n := by rw [e1, max_def, min_def]; split_ifs <;> omega
        simp only [c2, if_false, c3, if_true, c1, decide_false, Bool.not_false]
        rw [e3, max_def, min_def]
        congr 1
        split_ifs <;> omega
      · have c1 : N.Accepts n := by rw [e4]; omega
        have c2 : received L n = n := by rw [e1, max_def, min_def]; split_ifs <;> omega
        have c3 : N.receives n = n := by rw [e3, max_def, min_def]; split_ifs <;> omega
        have c4 : Accepted L n := by rw [e2]; omega
        simp only [c2, c3, h1, h2, if_false, c1, c4]
  · rename_i hs
    obtain ⟨neg, ds, h1, h2, h3, h4, h5, h6⟩ := h.split
    have he : (text.dropWhile isSpace).isEmpty = false := by
      rw [List.isEmpty_eq_false_iff]; exact h6
    have hds : ds.isEmpty = false := by rw [List.isEmpty_eq_false_iff]; exact h1
    have hn : ((if neg = true then -(decimal ds : ℤ) else decimal ds).natAbs : ℤ) = decimal ds := by
      split <;> simp
    simp only [getUShort, Bool.or_self, he, h2, h3, h4, hds]
    simp only [Bool.false_eq_true, if_false]
    rw [NarrowTy.receives, if_neg hs, h5, hn]
    simp only [NarrowTy.Accepts, if_neg hs, hn]
    by_cases hm : N.max < (decimal ds : ℤ)
    · have : ¬ ((decimal ds : ℤ) ≤ N.max) := by omega
      simp [hm, this]
    · have : (decimal ds : ℤ) ≤ N.max := by omega
      simp only [hm, this, if_false, if_true, decide_true, Bool.not_true]
      rw [NarrowTy.wrap, if_neg hs]
      push_cast
      rfl

/-- What happens when there is no integer. -/
theorem getNarrow_none (ho : N.InRange old) (h : ∀ n rest, ¬ LeadingInt text n rest) :
    (getNarrow L N ⟨text, false, false⟩ old).1 = (if text.all isSpace then old else 0) ∧
    (getNarrow L N ⟨text, false, false⟩ old).2.fail = true := by
  have hz := NarrowTy.zero_inRange (N := N)
  obtain ⟨hz1, hz2⟩ := hz
  obtain ⟨ho1, ho2⟩ := ho
  have hall : text.all isSpace = true ↔ text.dropWhile isSpace = [] := by
    rw [dropWhile_nil_iff, List.all_eq_true]
  have hnd : ((splitSign (text.dropWhile isSpace)).2.takeWhile isDigit).isEmpty = true := by
    by_contra hc
    rw [List.isEmpty_iff] at hc
    obtain ⟨n, hn⟩ := leading_of_digits hc
    exact h _ _ hn
  unfold getNarrow
  by_cases hsp : text.dropWhile isSpace = []
  · rw [if_pos (hall.2 hsp)]
    split
    · simp only [getShort, getInt, Bool.or_self, hsp, List.isEmpty_nil, if_true]
      simp only [Bool.false_eq_true, if_false]
      rw [if_neg (by omega), if_neg (by omega)]
      exact ⟨rfl, rfl⟩
    · simp only [getUShort, Bool.or_self, hsp, List.isEmpty_nil, if_true]
      exact ⟨rfl, rfl⟩
  · rw [if_neg (fun hc => hsp (hall.1 hc))]
    have he : (text.dropWhile isSpace).isEmpty = false := by
      rw [List.isEmpty_eq_false_iff]; exact hsp
    split
    · simp only [getShort, getInt, Bool.or_self, he, hnd, if_true]
      simp only [Bool.false_eq_true, if_false]
      rw [if_neg (by omega), if_neg (by omega)]
      exact ⟨rfl, rfl⟩
    · simp only [getUShort, Bool.or_self, he, hnd, if_true]
      exact ⟨rfl, rfl⟩

theorem getNarrow_bad {s : IStream} (ho : N.InRange old) (h : (s.eof || s.fail) = true) :
    getNarrow L N s old = (old, { s with fail := true }) := by
  obtain ⟨ho1, ho2⟩ := ho
  unfold getNarrow
  split
  · simp only [getShort, getInt, h, if_true]
    rw [if_neg (by omega), if_neg (by omega)]
  · simp only [getUShort, h, if_true]

theorem ignore_fail {s : IStream} (h : s.fail = true) : ignore s '/' = s := by
  cases s; simp_all [ignore]

/-- The numerator cannot be read: the denominator keeps its value. -/
theorem readNarrow_stop (hg : N.InRange g.den)
    (hf : (getNarrow L N ⟨text, false, false⟩ g.num).2.fail = true) :
    (readNarrow L N ⟨text, false, false⟩ g).1 =
      ⟨(getNarrow L N ⟨text, false, false⟩ g.num).1, g.den⟩ ∧
    (readNarrow L N ⟨text, false, false⟩ g).2.fail = true := by
  simp only [readNarrow]
  rw [ignore_fail hf, getNarrow_bad hg (by simp [hf])]
  exact ⟨rfl, rfl⟩

theorem readNarrow_isFraction (hL : L.signed = true) (h : IsFraction text n d rest)
    (hn : N.Accepts n) :
    readNarrow L N ⟨text, false, false⟩ g =
      (⟨N.receives n, N.receives d⟩, ⟨rest, rest.isEmpty, !decide (N.Accepts d)⟩) := by
  obtain ⟨junk, t, h1, h2, h3⟩ := isFraction_iff.1 h
  have e1 := getNarrow_leading (N := N) (old := g.num) hL h1
  have e2 : ignore ⟨junk ++ '/' :: t, (junk ++ '/' :: t).isEmpty, false⟩ '/' = ⟨t, false, false⟩ :=
    ignore_slash h2 (by cases junk <;> rfl)
  have e3 := getNarrow_leading (N := N) (old := g.den) hL h3
  simp only [readNarrow, e1, hn, decide_true, Bool.not_true, e2, e3]

/-- Success means that the text has the right form and both integers are accepted. -/
theorem readNarrow_success (hL : L.signed = true) (hg : g.InNarrow N)
    (hf : (readNarrow L N ⟨text, false, false⟩ g).2.fail = false) :
    ∃ n d rest, IsFraction text n d rest ∧ N.Accepts n ∧ N.Accepts d := by
  by_cases h1 : ∃ n t, LeadingInt text n t
  · obtain ⟨n, t, hl⟩ := h1
    have e1 := getNarrow_leading (N := N) (old := g.num) hL hl
    by_cases ha : N.Accepts n
    · simp only [ha, decide_true, Bool.not_true] at e1
      rcases ignore_cases (rest := t) with ⟨junk, t', rfl, hj, e2⟩ | ⟨hj, e2⟩
      · simp only [readNarrow, e1, e2] at hf
        by_cases h2 : ∃ d rest, LeadingInt t' d rest
        · obtain ⟨d, rest, hl'⟩ := h2
          rw [getNarrow_leading hL hl'] at hf
          simp only [Bool.not_eq_false', decide_eq_true_eq] at hf
          exact ⟨n, d, rest, isFraction_iff.2 ⟨junk, t', hl, hj, hl'⟩, ha, hf⟩
        · push Not at h2
          rw [(getNarrow_none hg.2 h2).2] at hf
          cases hf
      · simp only [readNarrow, e1] at hf
        rw [getNarrow_bad hg.2 (by simp [e2])] at hf
        cases hf
    · have := (readNarrow_stop (L := L) (text := text) hg.2 (by rw [e1]; simp [ha])).2
      rw [hf] at this; cases this
  · push Not at h1
    have := (readNarrow_stop (L := L) (text := text) hg.2 (getNarrow_none hg.1 h1).2).2
    rw [hf] at this; cases this

end Stream

namespace Narrow.Mixed

variable {N : NarrowTy} {F S : IntTy} {o : Ops} {m m' : Ieme.Mixed} {f : Raw} {x : ℚ} {w : ℤ}
  {b : Bool} {K : ℕ}

/-- The second step needs no more than the narrow type has. -/
theorem fixSigns_eq (hw : N.InRange m.whole) : fixSigns N F o m = m.fixSigns i32 F o := by
  have hz := NarrowTy.zero_inRange (N := N)
  unfold fixSigns Ieme.Mixed.fixSigns
  split
  · rename_i h
    have h1 : N.InRange (m.whole - 1) := NarrowTy.between hz hw (by omega) (by omega)
    rw [sub_clean.2 ⟨NarrowTy.inRange_int h1, rfl⟩, ok_bind_false, NarrowTy.conv_ok h1,
      ok_bind_false]
  · split
    · rename_i h
      have h1 : N.InRange (m.whole + 1) := NarrowTy.between hw hz (by omega) (by omega)
      rw [add_clean.2 ⟨NarrowTy.inRange_int h1, rfl⟩, ok_bind_false, NarrowTy.conv_ok h1,
        ok_bind_false]
    · rfl

theorem ratTrunc_proper {y : ℚ} (h : |y| < 1) : ratTrunc y = 0 := by
  rw [abs_lt] at h
  unfold ratTrunc
  split
  · rw [Int.floor_eq_zero_iff]; constructor <;> linarith
  · rw [Int.ceil_eq_zero_iff]; constructor <;> linarith

theorem sum_inRange (hN : N.bits ≤ 30) {a c : ℤ} (ha : N.InRange a) (hc : N.InRange c) :
    i32.InRange (a + c) := by
  have e : (2 : ℤ) ^ N.bits ≤ 2 ^ 30 := pow_le_pow_right₀ (by norm_num) hN
  norm_num at e
  have h1 := abs_le.1 (NarrowTy.abs_le_two_pow ha)
  have h2 := abs_le.1 (NarrowTy.abs_le_two_pow hc)
  have h3 : a + c ≤ 2147483647 := by
    rcases NarrowTy.abs_le_pow ha with h | ⟨hs, h⟩
    · have := (abs_le.1 h).2; omega
    · have e' : (2 : ℤ) ^ (N.bits - 1) ≤ 2 ^ 29 := pow_le_pow_right₀ (by norm_num) (by omega)
      norm_num at e'
      have := (abs_le.1 h).2; omega
  exact i32_iff.2 ⟨by omega, h3⟩

theorem fixSigns_inRange (hw : N.InRange m.whole) (h : fixSigns N F o m = .ok m' b) :
    N.InRange m'.whole := by
  unfold fixSigns at h
  split at h
  · obtain ⟨s, _, _, -, h1, -⟩ := bind_eq_ok.1 h
    obtain ⟨v, _, _, hv, h2, -⟩ := bind_eq_ok.1 h1
    obtain ⟨f, _, _, -, h3, -⟩ := bind_eq_ok.1 h2
    simp only [pure_eq_ok] at h3
    obtain ⟨rfl, -⟩ := h3
    obtain ⟨_, _, e1, hv', -, -⟩ := N.conv_eq s
    rw [hv] at e1
    simp only [Res.ok.injEq] at e1
    rw [e1.1]; exact hv'
  · split at h
    · obtain ⟨s, _, _, -, h1, -⟩ := bind_eq_ok.1 h
      obtain ⟨v, _, _, hv, h2, -⟩ := bind_eq_ok.1 h1
      obtain ⟨n, _, _, -, h3, -⟩ := bind_eq_ok.1 h2
      obtain ⟨f, _, _, -, h4, -⟩ := bind_eq_ok.1 h3
      simp only [pure_eq_ok] at h4
      obtain ⟨rfl, -⟩ := h4
      obtain ⟨_, _, e1, hv', -, -⟩ := N.conv_eq s
      rw [hv] at e1
      simp only [Res.ok.injEq] at e1
      rw [e1.1]; exact hv'
    · simp only [pure_eq_ok] at h
      rw [← h.1]; exact hw

/-- The first step keeps the value up to a multiple of `2^bits`. -/
theorem fixImproper_ok (hN : N.bits ≤ 30) (hw : N.InRange m.whole)
    (hs : F.signed = true ∨ b = false)
    (h : fixImproper N F o m = .ok m' b) : m.frac.den ≠ 0 ∧ N.InRange m'.whole ∧
      ∀ x, Ieme.Denotes m.frac x → ∃ y, Ieme.Denotes m'.frac y ∧ |y| < 1 ∧
        ∃ k : ℤ, (m'.whole : ℚ) + y = m.whole + x + k * 2 ^ N.bits := by
  obtain ⟨i, b1, b2, hi, h2, hb⟩ := bind_eq_ok.1 h
  subst hb
  have hi' := Raw.isImproper_clean
    (part_clean (or_left_clean hs) (fun h => Raw.isImproper_noWrap h _) hi)
  have hs2 := or_right_clean hs
  split at h2
  · obtain ⟨t, b3, b4, ht, h3, hb⟩ := bind_eq_ok.1 h2
    subst hb
    have hd : m.frac.den ≠ 0 := (div_eq_ok.1 ht).1
    obtain ⟨t', b5, b6, ht', h4, hb⟩ := bind_eq_ok.1 h3
    subst hb
    obtain ⟨_, _, e1, hv, ⟨k, hk⟩, -⟩ := N.conv_eq t
    rw [ht'] at e1
    simp only [Res.ok.injEq] at e1
    obtain ⟨rfl, rfl⟩ := e1
    rw [add_clean.2 ⟨sum_inRange hN hw hv, rfl⟩, ok_bind_false] at h4
    obtain ⟨w', b7, b8, hw', h5, hb⟩ := bind_eq_ok.1 h4
    subst hb
    obtain ⟨_, _, e1, hv', ⟨k', hk'⟩, -⟩ := N.conv_eq (m.whole + t')
    rw [hw'] at e1
    simp only [Res.ok.injEq] at e1
    obtain ⟨rfl, rfl⟩ := e1
    obtain ⟨f, b9, b10, hf, h6, hb⟩ := bind_eq_ok.1 h5
    subst hb
    have hs5 := or_left_clean (or_right_clean (or_right_clean (or_right_clean hs2)))
    simp only [pure_eq_ok] at h6
    obtain ⟨rfl, rfl⟩ := h6
    refine ⟨hd, hv', fun x hx => ?_⟩
    obtain ⟨rfl, rfl⟩ := Fraction.trunc_ok hx ht
    rw [Fraction.assignR, if_pos rfl] at hf
    have hf' := part_clean hs5 (fun h => Fraction.arith_noWrap h _ _) hf
    refine ⟨_, arith_minus_int hx hf', (sub_ratTrunc x).1, k + k', ?_⟩
    rw [hk', hk]
    push_cast; ring
  · rename_i hc
    simp only [pure_eq_ok] at h2
    obtain ⟨rfl, rfl⟩ := h2
    have hp : |m.frac.num| < |m.frac.den| := by
      by_contra hcon
      rw [hi'] at hc
      simp [hcon] at hc
    refine ⟨fun h0 => ?_, hw, fun x hx => ⟨x, hx, (Raw.abs_lt_iff hx).2 hp, 0, by simp⟩⟩
    rw [h0] at hp
    have := abs_nonneg m.frac.num
    simp only [abs_zero] at hp
    omega

theorem mk_ok (hN : N.bits ≤ 30) (hw : N.InRange w) (hs : F.signed = true ∨ b = false)
    (h : mk' N F o w f = .ok m b) : f.den ≠ 0 ∧ m.Invariant ∧ N.InRange m.whole ∧
      ∀ x, Ieme.Denotes f x → ∃ k : ℤ, m.Denotes (w + x + k * 2 ^ N.bits) := by
  obtain ⟨m1, b1, b2, h1, h2, hb⟩ := bind_eq_ok.1 h
  subst hb
  obtain ⟨hd, hr, h3⟩ := fixImproper_ok hN hw (or_left_clean hs) h1
  obtain ⟨y, hy, hy1, k, hyv⟩ := h3 _ (denotes_self hd)
  have hz := NarrowTy.zero_inRange (N := N)
  have hrr := fixSigns_inRange hr h2
  rw [fixSigns_eq hr] at h2
  obtain ⟨z, hz', hz1, hz2, hz3, hzv, hzr⟩ :=
    Ieme.Mixed.fixSigns_ok (NarrowTy.inRange_int hr) (or_right_clean hs) h2 hy hy1
  refine ⟨hd, ⟨z, hz', hz1, hz2, hz3⟩, hrr, fun x hx => ⟨k, z, hz', ?_⟩⟩
  rw [hzv, hyv, ← hx.2]

/-- The first step is clean exactly when it is for `int` and the narrow type holds its numbers. -/
theorem fixImproper_clean_iff (hN : N.bits ≤ 30) (hw : N.InRange w) (hx : Ieme.Denotes f x) :
    fixImproper N F o ⟨w, f⟩ ⇓ m ↔
      Ieme.Mixed.fixImproper i32 F o ⟨w, f⟩ ⇓ m ∧ N.InRange (ratTrunc x) ∧
        N.InRange (w + ratTrunc x) := by
  have hz := NarrowTy.zero_inRange (N := N)
  simp only [fixImproper, Ieme.Mixed.fixImproper, bind_eq_clean]
  constructor
  · rintro ⟨i, hi, h⟩
    split at h
    · rename_i hc
      simp only [bind_eq_clean] at h
      obtain ⟨t, ht, t', ht', s, hs, v, hv, g, hg, h⟩ := h
      obtain ⟨h1, rfl⟩ := NarrowTy.conv_clean.1 ht'
      obtain ⟨h2, rfl⟩ := add_clean.1 hs
      obtain ⟨h3, rfl⟩ := NarrowTy.conv_clean.1 hv
      obtain ⟨rfl, -⟩ := Fraction.trunc_ok hx ht
      refine ⟨⟨i, hi, ?_⟩, h1, h3⟩
      rw [if_pos hc]
      simp only [bind_eq_clean]
      exact ⟨_, ht, _, conv_clean.2 ⟨NarrowTy.inRange_int h1, rfl⟩, _, hs, g, hg, h⟩
    · rename_i hc
      have hi' := Raw.isImproper_clean hi
      have hp : |f.num| < |f.den| := by
        by_contra hcon
        rw [hi'] at hc
        simp [hcon] at hc
      rw [ratTrunc_proper ((Raw.abs_lt_iff hx).2 hp), add_zero]
      exact ⟨⟨i, hi, by rw [if_neg hc]; exact h⟩, hz, hw⟩
  · rintro ⟨⟨i, hi, h⟩, h1, h3⟩
    refine ⟨i, hi, ?_⟩
    split at h
    · rename_i hc
      simp only [bind_eq_clean] at h
      obtain ⟨t, ht, t', ht', v, hv, g, hg, h⟩ := h
      obtain ⟨rfl, -⟩ := Fraction.trunc_ok hx ht
      obtain ⟨-, rfl⟩ := conv_clean.1 ht'
      obtain ⟨h4, rfl⟩ := add_clean.1 hv
      rw [if_pos hc]
      simp only [bind_eq_clean]
      exact ⟨_, ht, _, NarrowTy.conv_ok h1, _, hv, _, NarrowTy.conv_ok h3, g, hg, h⟩
    · rename_i hc
      rw [if_neg hc]; exact h

theorem mk_clean_iff (hN : N.bits ≤ 30) (hw : N.InRange w) (hx : Ieme.Denotes f x) :
    mk' N F o w f ⇓ m ↔ Ieme.Mixed.mk' i32 F o w f ⇓ m ∧ N.InRange (ratTrunc x) ∧
      N.InRange (w + ratTrunc x) := by
  simp only [mk', Ieme.Mixed.mk', Ieme.Mixed.fix, bind_eq_clean]
  constructor
  · rintro ⟨m1, h1, h2⟩
    have hr := (fixImproper_ok hN (m := ⟨w, f⟩) hw (.inr rfl) h1).2.1
    rw [fixSigns_eq hr] at h2
    obtain ⟨h3, h4⟩ := (fixImproper_clean_iff hN hw hx).1 h1
    exact ⟨⟨m1, h3, h2⟩, h4⟩
  · rintro ⟨⟨m1, h1, h2⟩, h4⟩
    have h5 := (fixImproper_clean_iff hN hw hx).2 ⟨h1, h4⟩
    have hr := (fixImproper_ok hN (m := ⟨w, f⟩) hw (.inr rfl) h5).2.1
    exact ⟨m1, h5, by rw [fixSigns_eq hr]; exact h2⟩

/-- With a signed fractional part construction never fails, whatever happens to the whole part. -/
theorem mk_progress (hN : N.bits ≤ 30) (hs : F.signed = true) (hK : (K : ℤ) ≤ F.max)
    (hf : f.AbsLe K) (hx : Ieme.Denotes f x) (hw : N.InRange w) :
    ∃ m b, mk' N F o w f = .ok m b := by
  have h1 : ∃ m1 b, fixImproper N F o ⟨w, f⟩ = .ok m1 b ∧ m1.frac.AbsLe K := by
    simp only [fixImproper, Raw.isImproper_progress hs hK hf, ok_bind_false]
    split
    · obtain ⟨r, hr, hd, hk⟩ := Ops.shift_progress (o := o) hs hK hf hx
        ((ratTrunc_mul_le hx).trans (by exact_mod_cast hf.1))
        (proper_mul_le (sub_ratTrunc x).1.le hf)
        (.inl ⟨rfl, rfl, rfl⟩)
      obtain ⟨t', b1, e1, hr1, -, -⟩ := N.conv_eq (ratTrunc x)
      obtain ⟨w', b2, e2, hr2, -, -⟩ := N.conv_eq (w + t')
      refine ⟨⟨w', r⟩, b1 || b2, ?_, hk⟩
      rw [Fraction.trunc_progress hs hK hf hx, ok_bind_false, e1]
      refine bind_eq_ok.2 ⟨t', b1, b2, rfl, ?_, rfl⟩
      rw [add_clean.2 ⟨sum_inRange hN hw hr1, rfl⟩, ok_bind_false, e2]
      refine bind_eq_ok.2 ⟨w', b2, false, rfl, ?_, by simp⟩
      simp only [Fraction.assignR, if_pos, Fraction.arith_self, hr, ok_bind_false]
      rfl
    · exact ⟨_, _, rfl, hf⟩
  obtain ⟨m1, b, hm1, hk1⟩ := h1
  obtain ⟨-, hr, h2⟩ := fixImproper_ok hN (m := ⟨w, f⟩) hw (.inl hs) hm1
  obtain ⟨y, hy, hy1, -⟩ := h2 x hx
  have e0 : ratTrunc y = 0 := ratTrunc_proper hy1
  have hw1 : i32.InRange m1.whole := NarrowTy.inRange_int hr
  obtain ⟨m2, hm2, -, -⟩ := Ieme.Mixed.mk_progress (W := i32) (o := o) hs hK hk1 hy hw1
    (by rw [e0]; decide) (by rw [e0, add_zero]; exact hw1)
  -- the first step does nothing here
  have e1 : Ieme.Mixed.fixImproper i32 F o ⟨m1.whole, m1.frac⟩ ⇓ m1 := by
    simp only [Ieme.Mixed.fixImproper, Raw.isImproper_progress hs hK hk1, ok_bind_false]
    rw [if_neg (by simpa using (Raw.abs_lt_iff hy).1 hy1)]
    rfl
  simp only [Ieme.Mixed.mk', Ieme.Mixed.fix, e1, ok_bind_false] at hm2
  refine ⟨m2, b, ?_⟩
  simp only [mk']
  rw [hm1]
  exact bind_eq_ok.2 ⟨m1, b, false, rfl, by rw [fixSigns_eq hr]; exact hm2, by simp⟩

theorem ofFraction_clean_iff (hx : Ieme.Denotes f x) : ofFraction N F o S f ⇓ m ↔
    Ieme.Mixed.ofFraction S F o S f ⇓ m ∧ N.InRange (ratTrunc x) := by
  simp only [ofFraction, Ieme.Mixed.ofFraction, bind_eq_clean]
  constructor
  · rintro ⟨t, ht, w, hw, h⟩
    obtain ⟨h1, rfl⟩ := NarrowTy.conv_clean.1 hw
    obtain ⟨rfl, -⟩ := Fraction.trunc_ok hx ht
    exact ⟨⟨_, ht, _, conv_clean.2 ⟨div_inRange ht, rfl⟩, h⟩, h1⟩
  · rintro ⟨⟨t, ht, w, hw, h⟩, h1⟩
    obtain ⟨-, rfl⟩ := conv_clean.1 hw
    obtain ⟨rfl, -⟩ := Fraction.trunc_ok hx ht
    exact ⟨_, ht, _, NarrowTy.conv_ok h1, h⟩

/-- Whatever the whole part becomes, the fractional part makes up for it. -/
theorem ofFraction_value (hS : S.signed = true) (hf : f.InRange S) (hx : Ieme.Denotes f x)
    (h : ofFraction N S o S f = .ok m b) :
    m.Denotes x ∧ N.InRange m.whole ∧ (N.InRange (ratTrunc x) → b = false) := by
  obtain ⟨t, b1, b2, ht, h1, hb⟩ := bind_eq_ok.1 h
  obtain ⟨w, b3, b4, hw, h2, hb2⟩ := bind_eq_ok.1 h1
  obtain ⟨_, _, e1, hv, -, -⟩ := N.conv_eq t
  rw [hw] at e1
  simp only [Res.ok.injEq] at e1
  obtain ⟨rfl, rfl⟩ := e1
  rw [conv_clean.2 ⟨NarrowTy.inRange_signed hS hv, rfl⟩, ok_bind_false] at h2
  obtain ⟨d, b5, b6, hd, h3, hb4⟩ := bind_eq_ok.1 h2
  have hc : b5 = false := (Fraction.arith_noWrap hS _ _).flag hd
  subst hc
  obtain ⟨g, b7, b8, hg, h4, hb6⟩ := bind_eq_ok.1 h3
  have hdr : d.InRange S := by
    rw [Fraction.arith_self] at hd
    exact (Ops.arith_all (a := .fr f w) ⟨hf, NarrowTy.inRange_signed hS hv⟩) _ _ hd
  have : Fraction.ofOther S d ⇓ d := Raw.conv_clean.2 ⟨hdr, rfl⟩
  rw [this] at hg
  simp only [Res.ok.injEq] at hg
  obtain ⟨rfl, rfl⟩ := hg
  simp only [pure_eq_ok] at h4
  obtain ⟨rfl, rfl⟩ := h4
  refine ⟨⟨_, arith_minus_int hx hd, by simp⟩, hv, fun hr => ?_⟩
  obtain ⟨rfl, rfl⟩ := Fraction.trunc_ok hx ht
  rw [NarrowTy.conv_ok hr] at hw
  simp only [Res.ok.injEq] at hw
  rw [hb, hb2, hb4, hb6, ← hw.2]; rfl

end Narrow.Mixed
end Ieme
