import Verif.Lemmas.Parse
import Verif.Lemmas.Pow

/-!
# Evaluating digit sequences
-/

namespace Ieme

open Res IntTy Lit

namespace Parse

variable {T : IntTy}

theorem digitAsInt_eq {c : Char} (h : c ∈ hexDigits) :
    digitAsInt T c = T.conv (digitValue c : ℤ) := by
  simp only [hexDigits, decDigits, List.cons_append, List.nil_append, List.mem_cons, List.not_mem_nil,
    or_false] at h
  rcases h with rfl | rfl | rfl | rfl | rfl | rfl | rfl | rfl | rfl | rfl | rfl | rfl | rfl | rfl |
    rfl | rfl | rfl | rfl | rfl | rfl | rfl | rfl <;> rfl

theorem digitValue_lt {c : Char} (h : c ∈ hexDigits) : digitValue c < 16 := by
  simp only [hexDigits, decDigits, List.cons_append, List.nil_append, List.mem_cons, List.not_mem_nil,
    or_false] at h
  rcases h with rfl | rfl | rfl | rfl | rfl | rfl | rfl | rfl | rfl | rfl | rfl | rfl | rfl | rfl |
    rfl | rfl | rfl | rfl | rfl | rfl | rfl | rfl <;> decide

theorem digitValue_lt_dec {c : Char} (h : c ∈ decDigits) : digitValue c < 10 := by
  simp only [decDigits, List.mem_cons, List.not_mem_nil, or_false] at h
  rcases h with rfl | rfl | rfl | rfl | rfl | rfl | rfl | rfl | rfl | rfl <;> decide

theorem digitAsInt_clean {c : Char} (h : c ∈ hexDigits) : digitAsInt T c ⇓ (digitValue c : ℤ) := by
  have := digitValue_lt h
  rw [digitAsInt_eq h]
  exact conv_small (by omega)

theorem dset_sub (base : ℤ) {c : Char} (h : c ∈ dset base) : c ∈ hexDigits := by
  unfold dset at h
  split at h
  · exact h
  · exact List.mem_append_left _ h

theorem digitValue_lt_base {b : ℕ} (hb : b = 10 ∨ b = 16) {c : Char} (h : c ∈ dset (b : ℤ)) :
    digitValue c < b := by
  rcases hb with rfl | rfl
  · exact digitValue_lt_dec (by simpa [dset] using h)
  · exact digitValue_lt (by simpa [dset] using h)

/-- Value of a reversed digit sequence: least significant digit first. -/
def revValue (b : ℕ) : List Char → ℕ
  | [] => 0
  | c :: s => if c = '\'' then revValue b s else digitValue c + b * revValue b s

theorem seqValue_snoc (b : ℕ) (s : List Char) (c : Char) : seqValue b (s ++ [c]) =
    if c = '\'' then seqValue b s else seqValue b s * b + digitValue c := by
  unfold seqValue digits
  rw [List.filter_append, List.foldl_append]
  by_cases h : c = '\'' <;> simp [h]

theorem revValue_reverse (b : ℕ) (s : List Char) : revValue b s.reverse = seqValue b s := by
  induction s using List.reverseRecOn with
  | nil => rfl
  | append_singleton s c ih =>
    rw [List.reverse_append, seqValue_snoc]
    simp only [List.reverse_cons, List.reverse_nil, List.nil_append, List.cons_append, revValue]
    rw [ih]
    split
    · rfl
    · ring

theorem digits_reverse_length (s : List Char) : (digits s.reverse).length = (digits s).length := by
  unfold digits; rw [List.filter_reverse, List.length_reverse]

theorem digits_cons {c : Char} (s : List Char) (h : c ≠ '\'') :
    digits (c :: s) = c :: digits s := by simp [digits, h]

theorem digits_sep (s : List Char) : digits ('\'' :: s) = digits s := by simp [digits]

/-- The loop finishes cleanly exactly when the last `base_power` is representable. -/
theorem digitLoop_clean {b : ℕ} (hb : b = 10 ∨ b = 16) {s : List Char}
    (hs : ∀ c ∈ s, c ∈ dset (b : ℤ) ∨ c = '\'') {res p r : ℤ} (h0 : 0 ≤ res) (h1 : res < p)
    (hp : T.InRange p) :
    digitLoop T b s res p ⇓ r ↔
      T.InRange (p * (b : ℤ) ^ (digits s).length) ∧ r = res + p * revValue b s := by
  have hb10 : (10 : ℤ) ≤ b := by rcases hb with rfl | rfl <;> decide
  have hmin := T.min_le_zero
  induction s generalizing res p with
  | nil => simp [digitLoop, digits, revValue, hp, eq_comm]
  | cons c s ih =>
    by_cases hq : c = '\''
    · subst hq
      rw [digitLoop, if_pos rfl, digits_sep, revValue, if_pos rfl]
      exact ih (fun c hc => hs c (List.mem_cons_of_mem _ hc)) h0 h1 hp
    have hc : c ∈ dset (b : ℤ) := (hs c (by simp)).resolve_right hq
    have hlt := digitValue_lt_base hb hc
    have hs' : ∀ c ∈ s, c ∈ dset (b : ℤ) ∨ c = '\'' := fun c hc => hs c (List.mem_cons_of_mem _ hc)
    rw [digitLoop, if_neg hq, digitAsInt_clean (dset_sub _ hc), ok_bind_false, digits_cons _ hq,
      revValue, if_neg hq, List.length_cons]
    have hd0 : (0 : ℤ) ≤ digitValue c := Int.natCast_nonneg _
    have hd1 : (digitValue c : ℤ) + 1 ≤ b := by exact_mod_cast hlt
    have hmul0 : 0 ≤ (digitValue c : ℤ) * p := mul_nonneg hd0 (by omega)
    have hle : (digitValue c : ℤ) * p + p ≤ p * b := by
      have := mul_le_mul_of_nonneg_right hd1 (by omega : 0 ≤ p)
      linarith
    have epow : p * (b : ℤ) ^ ((digits s).length + 1) = p * b * (b : ℤ) ^ (digits s).length := by ring
    have hpow : p * b ≤ p * b * (b : ℤ) ^ (digits s).length := by
      have : (1 : ℤ) ≤ (b : ℤ) ^ (digits s).length := one_le_pow₀ (by omega)
      nlinarith
    rw [bind_eq_clean]
    constructor
    · rintro ⟨q, hq1, h⟩
      obtain ⟨-, rfl⟩ := mul_clean.1 hq1
      obtain ⟨r', hr', h⟩ := bind_eq_clean.1 h
      obtain ⟨-, rfl⟩ := add_clean.1 hr'
      obtain ⟨p', hp', h⟩ := bind_eq_clean.1 h
      obtain ⟨hpr, rfl⟩ := mul_clean.1 hp'
      obtain ⟨g1, g2⟩ := (ih hs' (by omega) (by omega) hpr).1 h
      refine ⟨by rw [epow]; exact g1, ?_⟩
      rw [g2]; push_cast; ring
    · rintro ⟨g1, g2⟩
      rw [epow] at g1
      have hpr : T.InRange (p * b) := ⟨by omega, hpow.trans g1.2⟩
      have m1 : T.InRange ((digitValue c : ℤ) * p) := ⟨by omega, by have := hpr.2; omega⟩
      have m2 : T.InRange (res + (digitValue c : ℤ) * p) := ⟨by omega, by have := hpr.2; omega⟩
      refine ⟨_, mul_of_inRange m1, ?_⟩
      rw [add_of_inRange m2, ok_bind_false, mul_of_inRange hpr, ok_bind_false]
      refine (ih hs' (by omega) (by omega) hpr).2 ⟨g1, ?_⟩
      rw [g2]; push_cast; ring

theorem digitSeq_mem_reverse {D s : List Char} (h : s = [] ∨ DigitSeq D s) :
    ∀ c ∈ s.reverse, c ∈ D ∨ c = '\'' := by
  intro c hc
  rw [List.mem_reverse] at hc
  rcases h with rfl | h
  · simp at hc
  · exact digitSeq_mem h c hc

theorem digitSequence_clean {b : ℕ} (hb : b = 10 ∨ b = 16) {s : List Char}
    (hs : s = [] ∨ DigitSeq (dset (b : ℤ)) s) {r : ℤ} :
    digitSequenceToInt T s b ⇓ r ↔ T.InRange ((b : ℤ) ^ (digits s).length) ∧ r = seqValue b s := by
  rw [digitSequenceToInt, digitLoop_clean hb (digitSeq_mem_reverse hs) le_rfl (by decide)
    (inRange_of_nonneg_le (by decide) (by decide)), digits_reverse_length, revValue_reverse]
  simp

/-- In any base a clean run gives the positional value. -/
theorem digitLoop_value {b : ℕ} {s : List Char} (hs : ∀ c ∈ s, c ∈ hexDigits ∨ c = '\'')
    {res p r : ℤ} (h : digitLoop T b s res p ⇓ r) : r = res + p * revValue b s := by
  induction s generalizing res p with
  | nil => simpa [digitLoop, revValue, eq_comm] using h
  | cons c s ih =>
    have ih := @ih (fun c hc => hs c (List.mem_cons_of_mem _ hc))
    by_cases hq : c = '\''
    · rw [digitLoop, if_pos hq] at h
      rw [revValue, if_pos hq]
      exact ih h
    rw [digitLoop, if_neg hq, digitAsInt_clean ((hs c (by simp)).resolve_right hq),
      ok_bind_false] at h
    obtain ⟨q, hq1, h⟩ := bind_eq_clean.1 h
    obtain ⟨-, rfl⟩ := mul_clean.1 hq1
    obtain ⟨r', hr', h⟩ := bind_eq_clean.1 h
    obtain ⟨-, rfl⟩ := add_clean.1 hr'
    obtain ⟨p', hp', h⟩ := bind_eq_clean.1 h
    obtain ⟨-, rfl⟩ := mul_clean.1 hp'
    rw [ih h, revValue, if_neg hq]
    push_cast
    ring

theorem digitLoop_noWrap (hs : T.signed = true) {b : ℕ} {s : List Char}
    (hd : ∀ c ∈ s, c ∈ dset (b : ℤ) ∨ c = '\'') (res p : ℤ) :
    (digitLoop T b s res p).NoWrap := by
  induction s generalizing res p with
  | nil => exact NoWrap.pure _
  | cons c s ih =>
    have ih := ih (fun c hc => hd c (List.mem_cons_of_mem _ hc))
    rw [digitLoop]
    split
    · exact ih _ _
    · rename_i hq
      rw [digitAsInt_clean (dset_sub _ ((hd c (by simp)).resolve_right hq)), ok_bind_false]
      exact (arith_noWrap hs _).bind fun _ => (arith_noWrap hs _).bind fun _ =>
        (arith_noWrap hs _).bind fun _ => ih _ _

theorem digitLoop_unsigned (hs : T.signed = false) {b : ℕ} {s : List Char}
    (hd : ∀ c ∈ s, c ∈ dset (b : ℤ) ∨ c = '\'') (res p : ℤ) (hr : T.InRange res) :
    ∃ r w, digitLoop T b s res p = .ok r w ∧ T.InRange r ∧
      r ≡ res + p * revValue b s [ZMOD ((2 ^ T.bits : ℕ) : ℤ)] := by
  induction s generalizing res p with
  | nil => exact ⟨res, false, rfl, hr, by simp [revValue, Int.ModEq.refl]⟩
  | cons c s ih =>
    have ih := ih (fun c hc => hd c (List.mem_cons_of_mem _ hc))
    rw [digitLoop]
    split
    · rename_i hq
      rw [revValue, if_pos hq]
      exact ih _ _ hr
    · rename_i hq
      rw [digitAsInt_clean (dset_sub _ ((hd c (by simp)).resolve_right hq)), ok_bind_false,
        revValue, if_neg hq]
      obtain ⟨y1, w1, e1, r1, m1⟩ := arith_unsigned (T := T) hs ((digitValue c : ℤ) * p)
      obtain ⟨y2, w2, e2, r2, m2⟩ := arith_unsigned (T := T) hs (res + y1)
      obtain ⟨y3, w3, e3, r3, m3⟩ := arith_unsigned (T := T) hs (p * b)
      obtain ⟨r, w, e, r4, m⟩ := ih y2 y3 r2
      refine ⟨r, w1 || (w2 || (w3 || w)), bind_eq_ok.2 ⟨_, _, _, e1, bind_eq_ok.2 ⟨_, _, _, e2,
        bind_eq_ok.2 ⟨_, _, _, e3, e, rfl⟩, rfl⟩, rfl⟩, r4, ?_⟩
      refine m.trans ?_
      have h1 := m2.trans (m1.add_left res)
      have h2 := m3.mul_right (revValue b s : ℤ)
      refine (h1.add h2).trans ?_
      have : res + (digitValue c : ℤ) * p + p * b * (revValue b s : ℤ) =
        res + p * ((digitValue c + b * revValue b s : ℕ) : ℤ) := by push_cast; ring
      rw [this]

theorem digitSequence_unsigned (hs : T.signed = false) {b : ℕ} {s : List Char}
    (hd : s = [] ∨ DigitSeq (dset (b : ℤ)) s) :
    ∃ r w, digitSequenceToInt T s b = .ok r w ∧ T.InRange r ∧
      r ≡ seqValue b s [ZMOD ((2 ^ T.bits : ℕ) : ℤ)] := by
  obtain ⟨r, w, h1, h2, h3⟩ := digitLoop_unsigned hs (digitSeq_mem_reverse hd) 0 1
    (inRange_of_nonneg_le (by decide) (by decide))
  refine ⟨r, w, h1, h2, ?_⟩
  simpa [revValue_reverse] using h3

end Parse
end Ieme
