import Verif.Model.Parse
import Verif.Spec.Parse
import Verif.Lemmas.Machine

/-!
# The scanner against the grammar
-/

namespace Ieme

open Res IntTy Lit

/-- The digits the code means by `base`. -/
def dset (base : ℤ) : List Char := if base = 16 then hexDigits else decDigits

theorem char_eq_iff (c d : Char) : c = d ↔ c.toNat = d.toNat :=
  ⟨fun h => by rw [h], fun h => Char.toNat_inj.1 h⟩

theorem char_lt_iff (c d : Char) : c < d ↔ c.toNat < d.toNat := by
  rw [Char.lt_def, UInt32.lt_iff_toNat_lt]; rfl

theorem char_le_iff (c d : Char) : c ≤ d ↔ c.toNat ≤ d.toNat := by
  rw [Char.le_def, UInt32.le_iff_toNat_le]; rfl

theorem mem_decDigits (c : Char) : c ∈ decDigits ↔ 48 ≤ c.toNat ∧ c.toNat ≤ 57 := by
  simp only [decDigits, List.mem_cons, List.not_mem_nil, or_false, char_eq_iff]
  simp only [Char.reduceToNat]
  omega

theorem mem_hexDigits (c : Char) : c ∈ hexDigits ↔ (48 ≤ c.toNat ∧ c.toNat ≤ 57) ∨
    (97 ≤ c.toNat ∧ c.toNat ≤ 102) ∨ (65 ≤ c.toNat ∧ c.toNat ≤ 70) := by
  rw [hexDigits, List.mem_append, mem_decDigits]
  simp only [List.mem_cons, List.not_mem_nil, or_false, char_eq_iff]
  simp only [Char.reduceToNat]
  omega

theorem mem_dset (base : ℤ) (c : Char) : c ∈ dset base ↔ (48 ≤ c.toNat ∧ c.toNat ≤ 57) ∨
    (base = 16 ∧ ((97 ≤ c.toNat ∧ c.toNat ≤ 102) ∨ (65 ≤ c.toNat ∧ c.toNat ≤ 70))) := by
  rw [dset]
  split
  · rename_i h; rw [mem_hexDigits]; simp [h]
  · rename_i h; rw [mem_decDigits]; simp [h]

theorem not_digit_iff (base : ℤ) (c : Char) :
    ((c < '0' || c > '9') && (((c < 'a' || c > 'f') && (c < 'A' || c > 'F')) || base != 16)) = true ↔
    c ∉ dset base := by
  rw [mem_dset]
  simp only [Bool.and_eq_true, Bool.or_eq_true, decide_eq_true_eq, gt_iff_lt, char_lt_iff,
    Char.reduceToNat, bne_iff_ne, ne_eq]
  by_cases h : base = 16 <;> simp [h] <;> omega

theorem quote_not_mem (base : ℤ) : '\'' ∉ dset base := by
  rw [mem_dset]; simp only [Char.reduceToNat]; omega

theorem quote_ne {base : ℤ} {c : Char} (h : c ∈ dset base) : c ≠ '\'' := by
  rintro rfl; exact quote_not_mem base h

namespace Parse

variable {base : ℤ}

theorem validLoop_digit {c : Char} {s : List Char} {p : Bool} (h : c ∈ dset base) :
    validLoop base p (c :: s) = validLoop base true s := by
  rw [validLoop, if_neg (quote_ne h), if_neg]
  rw [not_digit_iff]; exact fun h' => h' h

theorem validLoop_sep {s : List Char} :
    validLoop base true ('\'' :: s) = validLoop base false s := by
  simp [validLoop]

theorem validLoop_false_sep {s : List Char} : validLoop base false ('\'' :: s) = false := by
  simp [validLoop]

theorem validLoop_append {s : List Char} (h : DigitSeq (dset base) s) (p : Bool) (t : List Char) :
    validLoop base p (s ++ t) = validLoop base true t := by
  induction h generalizing t with
  | digit hd => exact validLoop_digit hd
  | snoc _ hd ih => rw [List.append_assoc, ih]; exact validLoop_digit hd
  | sep _ hd ih =>
    rw [List.append_assoc, ih]
    simp only [List.cons_append, List.nil_append]
    rw [validLoop_sep, validLoop_digit hd]

theorem validLoop_sound (t : List Char) :
    (validLoop base true t = true → ∀ p, DigitSeq (dset base) p → DigitSeq (dset base) (p ++ t)) ∧
    (validLoop base false t = true → DigitSeq (dset base) t ∧
      ∀ p, DigitSeq (dset base) p → DigitSeq (dset base) (p ++ '\'' :: t)) := by
  induction t with
  | nil => simp [validLoop]
  | cons c t ih =>
    obtain ⟨ih1, ih2⟩ := ih
    by_cases hq : c = '\''
    · subst hq
      rw [validLoop_sep, validLoop_false_sep]
      exact ⟨fun h p hp => (ih2 h).2 p hp, by simp⟩
    by_cases hd : c ∈ dset base
    · rw [validLoop_digit hd, validLoop_digit hd]
      refine ⟨fun h p hp => ?_, fun h => ⟨?_, fun p hp => ?_⟩⟩
      · have := ih1 h _ (DigitSeq.snoc hp hd)
        rwa [List.append_assoc] at this
      · exact ih1 h _ (DigitSeq.digit hd)
      · have := ih1 h _ (DigitSeq.sep hp hd)
        rwa [List.append_assoc] at this
    · have : ∀ p, validLoop base p (c :: t) = false := by
        intro p
        rw [validLoop, if_neg hq, if_pos ((not_digit_iff base c).2 hd)]
      rw [this, this]
      simp

/-- `is_valid_digit_sequence` decides the grammar's digit sequences. -/
theorem isValid_iff {s : List Char} : isValidDigitSequence s base = true ↔
    DigitSeq (dset base) s := by
  constructor
  · intro h; exact ((validLoop_sound s).2 h).1
  · intro h
    have := validLoop_append h false []
    rwa [List.append_nil] at this

theorem digitSeq_mem {D s : List Char} (h : DigitSeq D s) : ∀ c ∈ s, c ∈ D ∨ c = '\'' := by
  induction h with
  | digit hd => intro c hc; simp only [List.mem_cons, List.not_mem_nil, or_false] at hc; subst hc; exact Or.inl hd
  | snoc _ hd ih =>
    intro c hc
    rcases List.mem_append.1 hc with h | h
    · exact ih c h
    · simp only [List.mem_cons, List.not_mem_nil, or_false] at h; subst h; exact Or.inl hd
  | sep _ hd ih =>
    intro c hc
    rcases List.mem_append.1 hc with h | h
    · exact ih c h
    · simp only [List.mem_cons, List.not_mem_nil, or_false] at h
      rcases h with h | h
      · exact Or.inr h
      · subst h; exact Or.inl hd

theorem digitSeq_ne_nil {D s : List Char} (h : DigitSeq D s) : s ≠ [] := by
  cases h <;> simp

/-! ## String views -/

theorem find_none {c : Char} {s : List Char} (h : c ∉ s) : View.find c s = none := by
  induction s with
  | nil => rfl
  | cons x s ih =>
    simp only [List.mem_cons, not_or] at h
    rw [View.find, if_neg (Ne.symm h.1), ih h.2]; rfl

theorem find_append {c : Char} {a b : List Char} (h : c ∉ a) :
    View.find c (a ++ c :: b) = some a.length := by
  induction a with
  | nil => simp [View.find]
  | cons x a ih =>
    simp only [List.mem_cons, not_or] at h
    rw [List.cons_append, View.find, if_neg (Ne.symm h.1), ih h.2]; rfl

theorem find_cases (c : Char) (s : List Char) : (c ∉ s ∧ View.find c s = none) ∨
    ∃ a b, s = a ++ c :: b ∧ c ∉ a ∧ View.find c s = some a.length := by
  by_cases h : c ∈ s
  · obtain ⟨a, b, rfl, h'⟩ := List.eq_append_cons_of_mem h
    exact Or.inr ⟨a, b, rfl, h', find_append h'⟩
  · exact Or.inl ⟨h, find_none h⟩

theorem removePrefix_append (c : Char) (a b : List Char) :
    View.removePrefix (a ++ c :: b) (a.length + 1) = pure b := by
  rw [View.removePrefix, if_pos (by simp)]
  simp

theorem prefix_append (c : Char) (a b : List Char) :
    View.prefix' (a ++ c :: b) (some a.length) = a := by
  simp [View.prefix']

theorem lastPos_append (c : Char) (a b : List Char) :
    View.lastPos (a ++ c :: b) = some (a.length + b.length) := by
  rw [View.lastPos, if_neg (by simp)]
  congr 1; simp

theorem lastPos_ne_nil {s : List Char} (h : s ≠ []) : View.lastPos s = some (s.length - 1) := by
  rw [View.lastPos, if_neg (by simpa using h)]

theorem some_eq_lastPos (c : Char) (a b : List Char) :
    (some a.length = View.lastPos (a ++ c :: b)) ↔ b = [] := by
  rw [lastPos_append, Option.some.injEq, ← List.length_eq_zero_iff]; omega

/-! ## Precision -/

theorem precision_loop (s : List Char) (n : ℤ) (hn : u32.InRange n) :
    ∃ r w, s.foldlM (fun n c => if c ≠ '\'' then u32.add n 1 else pure n) n = Res.ok r w ∧
      u32.InRange r ∧ (w = false → r = n + (digits s).length) ∧
      (n + (digits s).length ≤ 2147483647 → w = false) := by
  induction s generalizing n with
  | nil => exact ⟨n, false, rfl, hn, by simp [digits], by simp⟩
  | cons c s ih =>
    rw [List.foldlM_cons]
    by_cases hq : c = '\''
    · subst hq
      rw [if_neg (by simp), Res.pure_def, ok_bind_false]
      obtain ⟨r, w, h⟩ := ih n hn
      exact ⟨r, w, by simpa [digits] using h⟩
    · have hl : (digits (c :: s)).length = (digits s).length + 1 := by simp [digits, hq]
      rw [if_pos hq, hl]
      by_cases hr : u32.InRange (n + 1)
      · rw [show u32.add n 1 = .ok (n + 1) false from arith_of_inRange hr, ok_bind_false]
        obtain ⟨r, w, h1, h2, h3, h4⟩ := ih (n + 1) hr
        refine ⟨r, w, h1, h2, fun hw => ?_, fun hw => h4 ?_⟩
        · rw [h3 hw]; push_cast; ring
        · push_cast at hw ⊢; omega
      · have e : u32.add n 1 = .ok (u32.wrap (n + 1)) true := by
          rw [IntTy.add, IntTy.arith, if_neg hr, if_neg (by decide)]
        obtain ⟨r, w, h1, h2, -, -⟩ := ih (u32.wrap (n + 1)) (wrap_inRange _)
        rw [e]
        refine ⟨r, true || w, bind_eq_ok.2 ⟨_, _, _, rfl, h1, rfl⟩, h2, by simp, fun hw => ?_⟩
        exfalso
        apply hr
        have h0 : u32.min = 0 := rfl
        have h1 : u32.max = 4294967295 := rfl
        have := hn.1
        unfold IntTy.InRange
        rw [h0] at *
        rw [h1]
        push_cast at hw
        constructor <;> omega

theorem precision_ok (s : List Char) : ∃ r w, precision s = .ok r w ∧
    (w = false → r = (digits s).length) ∧ ((digits s).length ≤ 2147483647 → w = false) := by
  obtain ⟨r, w, h1, h2, h3, h4⟩ := precision_loop s 0 (by decide)
  rw [precision, h1]
  have h5 : ∃ r' w', i32.conv r = .ok r' w' ∧ (w' = false → r' = r) ∧
      (r ≤ 2147483647 → w' = false) := by
    unfold IntTy.conv
    split
    · exact ⟨_, _, rfl, by simp, by simp⟩
    · rename_i hn
      refine ⟨_, _, rfl, by simp, fun hr => absurd ?_ hn⟩
      have h0 : u32.min = 0 := rfl
      have h1 : i32.min = -2147483648 := rfl
      have h1' : i32.max = 2147483647 := rfl
      have := h2.1
      unfold IntTy.InRange; rw [h1, h1']; omega
  obtain ⟨r', w', e, e1, e2⟩ := h5
  refine ⟨r', w || w', bind_eq_ok.2 ⟨_, _, _, rfl, e, rfl⟩, fun hw => ?_, fun hw => ?_⟩
  · simp only [Bool.or_eq_false_iff] at hw
    rw [e1 hw.2, h3 hw.1]; simp
  · have hw1 := h4 (by omega)
    rw [hw1, e2 (by rw [h3 hw1]; omega)]; rfl

/-! ## Exponents -/

theorem scanExponent_sound (res : Scan) {g : List Char} (hg : g ≠ []) :
    ∃ o, scanExponent res g = pure o ∧ ∀ r, o = some r →
      ∃ (sign : Option Char) (ds : List Char), g = sign.toList ++ ds ∧
        (∀ c ∈ sign, c = '+' ∨ c = '-') ∧ DigitSeq decDigits ds := by
  obtain ⟨c, t, rfl⟩ := List.exists_cons_of_ne_nil hg
  have key : ∀ (neg : Bool) (sign : Option Char) (ds : List Char), c :: t = sign.toList ++ ds →
      (∀ c ∈ sign, c = '+' ∨ c = '-') →
      ∃ o, (if (!isValidDigitSequence ds 10) = true then (pure none : Res (Option Scan))
        else pure (some { res with negative := neg, exponent := ds })) = pure o ∧
        ∀ r, o = some r → ∃ (sign : Option Char) (ds : List Char), c :: t = sign.toList ++ ds ∧
          (∀ c ∈ sign, c = '+' ∨ c = '-') ∧ DigitSeq decDigits ds := by
    intro neg sign ds h hs
    split
    · exact ⟨none, rfl, by simp⟩
    · rename_i hv
      refine ⟨_, rfl, fun r _ => ⟨sign, ds, h, hs, ?_⟩⟩
      simp only [Bool.not_eq_true', Bool.not_eq_false] at hv
      exact isValid_iff.1 hv
  unfold scanExponent
  rw [View.front, Res.pure_def, ok_bind_false]
  by_cases h1 : c = '-'
  · subst h1
    simp only [if_true, View.removePrefix, List.length_cons, Nat.le_add_left, Res.pure_def, ok_bind_false,
      List.drop_succ_cons, List.drop_zero]
    exact key true (some '-') t rfl (by simp)
  · by_cases h2 : c = '+'
    · subst h2
      simp only [if_neg h1, if_true, View.removePrefix, List.length_cons, Nat.le_add_left, Res.pure_def,
        ok_bind_false, List.drop_succ_cons, List.drop_zero]
      exact key res.negative (some '+') t rfl (by simp)
    · simp only [if_neg h1, if_neg h2, Res.pure_def, ok_bind_false]
      exact key res.negative none (c :: t) rfl (by simp)

theorem scanExponent_complete (res : Scan) (hres : res.negative = false) {sign : Option Char}
    {ds : List Char} (hs : ∀ c ∈ sign, c = '+' ∨ c = '-') (hd : DigitSeq decDigits ds) :
    scanExponent res (sign.toList ++ ds) =
      pure (some { res with negative := decide (sign = some '-'), exponent := ds }) := by
  have hv : isValidDigitSequence ds 10 = true := isValid_iff.2 hd
  unfold scanExponent
  rcases sign with _ | c
  · obtain ⟨c, t, rfl⟩ := List.exists_cons_of_ne_nil (digitSeq_ne_nil hd)
    have hc := digitSeq_mem hd c (by simp)
    rw [mem_decDigits] at hc
    have h1 : c ≠ '-' := by
      rintro rfl; revert hc; simp only [Char.reduceToNat]; decide
    have h2 : c ≠ '+' := by
      rintro rfl; revert hc; simp only [Char.reduceToNat]; decide
    simp only [Option.toList_none, List.nil_append, View.front, Res.pure_def, ok_bind_false, if_neg h1,
      if_neg h2, hv, hres]
    simp
  · rcases hs c rfl with rfl | rfl
    · simp [View.front, Res.pure_def, ok_bind_false, View.removePrefix, hv, hres]
    · simp [View.front, Res.pure_def, ok_bind_false, View.removePrefix, hv]

/-- The exponent markers the code means by `base`. -/
def markers (base : ℤ) : List Char := if base = 10 then ['e', 'E'] else ['p', 'P']

theorem exponentPos_cases (base : ℤ) (s : List Char) :
    (exponentPos base s = none ∧ ∀ m ∈ markers base, m ∉ s) ∨
    ∃ f m g, s = f ++ m :: g ∧ m ∈ markers base ∧ exponentPos base s = some f.length := by
  have key : ∀ lo up : Char, markers base = [lo, up] → exponentPos base s =
      (match View.find lo s with | some p => some p | none => View.find up s) →
      (exponentPos base s = none ∧ ∀ m ∈ markers base, m ∉ s) ∨
      ∃ f m g, s = f ++ m :: g ∧ m ∈ markers base ∧ exponentPos base s = some f.length := by
    intro lo up hm he
    rw [hm]
    rcases find_cases lo s with ⟨h1, h2⟩ | ⟨f, g, h1, -, h2⟩
    · rw [h2] at he
      rcases find_cases up s with ⟨h3, h4⟩ | ⟨f, g, h3, -, h4⟩
      · exact Or.inl ⟨by rw [he, h4], by simpa using ⟨h1, h3⟩⟩
      · exact Or.inr ⟨f, up, g, h3, by simp, by rw [he, h4]⟩
    · rw [h2] at he
      exact Or.inr ⟨f, lo, g, h1, by simp, he⟩
  by_cases h : base = 10
  · exact key 'e' 'E' (by rw [markers, if_pos h]) (by simp only [exponentPos, if_pos h]; rfl)
  · exact key 'p' 'P' (by rw [markers, if_neg h]) (by simp only [exponentPos, if_neg h]; rfl)

theorem exponentPos_complete {base : ℤ} {f g : List Char} {m : Char} (hm : m ∈ markers base)
    (hf : ∀ m ∈ markers base, m ∉ f) (hg : ∀ m ∈ markers base, m ∉ g) :
    exponentPos base (f ++ m :: g) = some f.length := by
  have key : ∀ lo up : Char, lo ≠ up → markers base = [lo, up] → exponentPos base (f ++ m :: g) =
      (match View.find lo (f ++ m :: g) with | some p => some p | none => View.find up (f ++ m :: g)) →
      exponentPos base (f ++ m :: g) = some f.length := by
    intro lo up hne hmk he
    rw [hmk] at hm hf hg
    simp only [List.mem_cons, List.not_mem_nil, or_false, forall_eq_or_imp, forall_eq] at hm hf hg
    rw [he]
    rcases hm with rfl | rfl
    · rw [find_append hf.1]
    · rw [find_none (by simp [hf.1, hg.1, hne]), find_append hf.2]
  by_cases h : base = 10
  · exact key 'e' 'E' (by decide) (by rw [markers, if_pos h]) (by simp only [exponentPos, if_pos h]; rfl)
  · exact key 'p' 'P' (by decide) (by rw [markers, if_neg h]) (by simp only [exponentPos, if_neg h]; rfl)

theorem exponentPos_none {base : ℤ} {s : List Char} (hs : ∀ m ∈ markers base, m ∉ s) :
    exponentPos base s = none := by
  rcases exponentPos_cases base s with h | ⟨f, m, g, h1, h2, -⟩
  · exact h.1
  · exact absurd (by simp [h1]) (hs m h2)

theorem marker_not_digit {base : ℤ} (hb : base = 10 ∨ base = 16) {s : List Char}
    (hs : s = [] ∨ DigitSeq (dset base) s) : ∀ m ∈ markers base, m ∉ s := by
  intro m hm hms
  rcases hs with rfl | hs
  · simp at hms
  have hc := digitSeq_mem hs m hms
  rw [mem_dset] at hc
  rcases hb with rfl | rfl <;> simp [markers] at hm <;> rcases hm with rfl | rfl <;>
    revert hc <;> simp

theorem marker_not_dec {base : ℤ} {s : List Char} (hs : DigitSeq decDigits s) {sign : Option Char}
    (hsg : ∀ c ∈ sign, c = '+' ∨ c = '-') :
    ∀ m ∈ markers base, m ∉ sign.toList ++ s := by
  intro m hm hms
  have hm' : m = 'e' ∨ m = 'E' ∨ m = 'p' ∨ m = 'P' := by
    unfold markers at hm; split at hm <;> simp at hm <;> tauto
  rcases List.mem_append.1 hms with h | h
  · have := hsg m (by simpa using h)
    rcases hm' with rfl | rfl | rfl | rfl <;> simp at this
  · have hc := digitSeq_mem hs m h
    rw [mem_decDigits] at hc
    rcases hm' with rfl | rfl | rfl | rfl <;> revert hc <;> simp

/-! ## Fraction and exponent -/

/-- The exponent part follows the grammar. -/
def ExpValid (base : ℤ) (exp : Option Exponent) : Prop :=
  ∀ e ∈ exp, e.marker ∈ markers base ∧ (∀ c ∈ e.sign, c = '+' ∨ c = '-') ∧
    DigitSeq decDigits e.digits

/-- The characters of an optional exponent part. -/
def expRender : Option Exponent → List Char
  | none => []
  | some e => e.render

theorem scanFractional_sound {res : Scan} {nw : Bool} {b : List Char} (hb : b ≠ []) :
    ∃ o w, scanFractional res nw false b = .ok o w ∧ ∀ r, o = some r →
      ∃ frac exp, b = frac ++ expRender exp ∧ (frac = [] ∨ DigitSeq (dset res.base) frac) ∧
        (nw = true → frac ≠ []) ∧ (exp = none → res.base ≠ 16) ∧ ExpValid res.base exp := by
  have hnone : ∃ o w, (pure none : Res (Option Scan)) = .ok o w ∧ ∀ r, o = some r →
      ∃ frac exp, b = frac ++ expRender exp ∧ (frac = [] ∨ DigitSeq (dset res.base) frac) ∧
        (nw = true → frac ≠ []) ∧ (exp = none → res.base ≠ 16) ∧ ExpValid res.base exp :=
    ⟨none, false, rfl, by simp⟩
  rcases exponentPos_cases res.base b with ⟨h1, h2⟩ | ⟨f, m, g, h1, hm, h2⟩
  · simp only [scanFractional, h1, lastPos_ne_nil hb, View.prefix', Bool.false_eq_true,
      if_false, Option.isNone_none, reduceCtorEq, Bool.and_true, decide_eq_true_eq]
    split
    · exact hnone
    rename_i h16
    split
    · exact hnone
    rename_i hw
    split
    · exact hnone
    rename_i hv
    obtain ⟨p, w, hp, -, -⟩ := precision_ok b
    rw [hp]
    refine ⟨_, _, bind_eq_ok.2 ⟨_, _, _, rfl, rfl, rfl⟩, fun r _ => ⟨b, none, by simp [expRender], ?_,
      fun _ => hb, fun _ => h16, by simp [ExpValid]⟩⟩
    right
    simp [hb] at hv
    exact isValid_iff.1 hv
  · subst h1
    simp only [scanFractional, h2, some_eq_lastPos, prefix_append, Bool.false_eq_true,
      if_false, Option.isNone_some, Bool.and_false, removePrefix_append]
    split
    · exact hnone
    rename_i hg
    split
    · exact hnone
    rename_i hw
    split
    · exact hnone
    rename_i hv
    obtain ⟨p, w, hp, -, -⟩ := precision_ok f
    obtain ⟨o, ho, hr⟩ := scanExponent_sound { res with fractional := f, precision := p } hg
    rw [hp]
    refine ⟨o, w || false, bind_eq_ok.2 ⟨_, _, _, rfl, ?_, rfl⟩, fun r hor => ?_⟩
    · simp only [Res.pure_def, ok_bind_false]
      rw [ho]; rfl
    · obtain ⟨sign, ds, rfl, hs, hd⟩ := hr r hor
      refine ⟨f, some ⟨m, sign, ds⟩, rfl, ?_, ?_, by simp, ?_⟩
      · by_cases hf : f = []
        · exact Or.inl hf
        · right; simp [hf] at hv; exact isValid_iff.1 hv
      · intro hn; simp [hn] at hw; exact hw
      · intro e he; cases he; exact ⟨hm, hs, hd⟩

/-- The scan results a literal must give. -/
def withTail (res : Scan) (frac : List Char) (exp : Option Exponent) (p : ℤ) : Scan :=
  { res with
    fractional := frac
    precision := p
    negative := exp.elim false (fun e => decide (e.sign = some '-'))
    exponent := exp.elim [] (·.digits) }

theorem scanFractional_complete {res : Scan} {nw : Bool} {frac : List Char} {exp : Option Exponent}
    (hbase : res.base = 10 ∨ res.base = 16) (hneg : res.negative = false) (hexp : res.exponent = [])
    (hfrac : frac = [] ∨ DigitSeq (dset res.base) frac) (hnw : nw = true → frac ≠ [])
    (h16 : exp = none → res.base ≠ 16) (he : ExpValid res.base exp)
    (hb : frac ++ expRender exp ≠ []) :
    scanFractional res nw false (frac ++ expRender exp) =
      (precision frac >>= fun p => pure (some (withTail res frac exp p))) := by
  have hmf := marker_not_digit hbase hfrac
  rcases exp with _ | ⟨m, sign, ds⟩
  · simp only [expRender, List.append_nil] at hb ⊢
    have hv : isValidDigitSequence frac res.base = true :=
      isValid_iff.2 (hfrac.resolve_left hb)
    simp only [scanFractional, exponentPos_none hmf, lastPos_ne_nil hb, View.prefix', hv,
      h16 rfl]
    simp [withTail, hneg, hexp, hb]
  · obtain ⟨hm, hs, hd⟩ := he _ rfl
    simp only at hm hs hd
    have hne : sign.toList ++ ds ≠ [] := by simp [digitSeq_ne_nil hd]
    have hpos := exponentPos_complete (f := frac) hm hmf (marker_not_dec hd hs)
    simp only [expRender, Exponent.render]
    simp only [scanFractional, hpos, some_eq_lastPos, prefix_append, removePrefix_append, hne]
    have h1 : ¬ ((nw && frac.isEmpty) = true) := by
      simp; exact hnw
    have h2 : ¬ ((!(frac.isEmpty || isValidDigitSequence frac res.base)) = true) := by
      simp; intro hf; exact isValid_iff.2 (hfrac.resolve_left hf)
    simp only [h1, h2, if_false, Bool.false_eq_true, Option.isNone_some, Bool.and_false]
    congr 1
    funext p
    simp only [Res.pure_def, ok_bind_false]
    have := scanExponent_complete { res with fractional := frac, precision := p } hneg hs hd
    rw [this]
    rfl

/-! ## Whole part -/

theorem point_not_digit {base : ℤ} {s : List Char} (hs : s = [] ∨ DigitSeq (dset base) s) :
    '.' ∉ s := by
  intro h
  rcases hs with rfl | hs
  · simp at h
  have hc := digitSeq_mem hs _ h
  rw [mem_dset] at hc
  revert hc; simp

theorem scanFractional_noRadix {res : Scan} {nw : Bool} {b : List Char}
    (h : ∀ m ∈ markers res.base, m ∉ b) : scanFractional res nw true b = pure none := by
  simp only [scanFractional, exponentPos_none h, Option.isNone_none, Bool.and_true]
  split <;> simp

theorem scanWhole_sound {base : ℤ} (hbase : base = 10 ∨ base = 16) {s : List Char} (hs : s ≠ [])
    (hdot : base = 10 → s ≠ ['.']) :
    ∃ o w, scanWhole base s = .ok o w ∧ ∀ r, o = some r →
      ∃ whole frac exp, s = whole ++ '.' :: (frac ++ expRender exp) ∧
        (whole = [] ∨ DigitSeq (dset base) whole) ∧
        (frac = [] ∨ DigitSeq (dset base) frac) ∧ (whole ≠ [] ∨ frac ≠ []) ∧
        (exp = none → base ≠ 16) ∧ ExpValid base exp := by
  rcases find_cases '.' s with ⟨h1, h2⟩ | ⟨a, b, rfl, h1, h2⟩
  · refine ⟨none, false, ?_, by simp⟩
    simp only [scanWhole, h2, View.prefix', lastPos_ne_nil hs, reduceCtorEq, if_false]
    split
    · rfl
    rename_i hv
    simp [hs] at hv
    exact scanFractional_noRadix (marker_not_digit hbase (Or.inr (isValid_iff.1 hv)))
  · simp only [scanWhole, h2, prefix_append, some_eq_lastPos, removePrefix_append]
    split
    · exact ⟨none, false, rfl, by simp⟩
    rename_i hv
    have hw : a = [] ∨ DigitSeq (dset base) a := by
      by_cases ha : a = []
      · exact Or.inl ha
      · right; simp [ha] at hv; exact isValid_iff.1 hv
    split
    · rename_i hb
      subst hb
      split
      · rename_i h10
        refine ⟨_, false, rfl, fun r _ => ⟨a, [], none, rfl, hw, Or.inl rfl, Or.inl ?_, ?_,
          by simp [ExpValid]⟩⟩
        · rintro rfl; exact hdot h10 rfl
        · rintro - rfl; exact absurd h10 (by decide)
      · exact ⟨none, false, rfl, by simp⟩
    · rename_i hb
      simp only [Res.pure_def, ok_bind_false]
      obtain ⟨o, w, ho, hr⟩ :=
        scanFractional_sound (res := { base := base, whole := a }) (nw := a.isEmpty) hb
      refine ⟨o, w, ho, fun r hor => ?_⟩
      obtain ⟨frac, exp, rfl, h3, h4, h5, h6⟩ := hr r hor
      refine ⟨a, frac, exp, rfl, hw, h3, ?_, h5, h6⟩
      by_cases ha : a = []
      · right; exact h4 (by simp [ha])
      · exact Or.inl ha

theorem precision_nil : precision [] = .ok 0 false := by decide

theorem scanWhole_complete {base : ℤ} (hbase : base = 10 ∨ base = 16) {whole frac : List Char}
    {exp : Option Exponent} (hw : whole = [] ∨ DigitSeq (dset base) whole)
    (hf : frac = [] ∨ DigitSeq (dset base) frac) (hne : whole ≠ [] ∨ frac ≠ [])
    (h16 : exp = none → base ≠ 16) (he : ExpValid base exp) :
    scanWhole base (whole ++ '.' :: (frac ++ expRender exp)) =
      (precision frac >>= fun p =>
        pure (some (withTail { base := base, whole := whole } frac exp p))) := by
  have h2 := find_append (b := frac ++ expRender exp) (point_not_digit hw)
  simp only [scanWhole, h2, prefix_append, some_eq_lastPos, removePrefix_append]
  have hv : ¬ ((!(whole.isEmpty || isValidDigitSequence whole base)) = true) := by
    simp; intro h; exact isValid_iff.2 (hw.resolve_left h)
  rw [if_neg hv]
  by_cases hb : frac ++ expRender exp = []
  · rw [if_pos hb]
    obtain ⟨rfl, hx⟩ := List.append_eq_nil_iff.1 hb
    have hx : exp = none := by
      rcases exp with _ | e
      · rfl
      · simp [expRender, Exponent.render] at hx
    subst hx
    rw [if_pos (hbase.resolve_right (h16 rfl)), precision_nil, ok_bind_false]
    rfl
  · rw [if_neg hb]
    simp only [Res.pure_def, ok_bind_false]
    exact scanFractional_complete (res := { base := base, whole := whole }) hbase rfl rfl hf
      (fun h => hne.resolve_left (by simpa using h)) h16 he hb

/-! ## The whole scan -/

/-- Scan results of a literal, given its precision. -/
def litScan (l : FloatLit) (p : ℤ) : Scan :=
  withTail { base := (l.base : ℤ), whole := l.whole } l.frac l.exp p

theorem dset_base (l : FloatLit) : dset (l.base : ℤ) = l.digitSet := by
  unfold dset FloatLit.base FloatLit.digitSet
  split <;> simp_all

theorem markers_base (l : FloatLit) : markers (l.base : ℤ) =
    if l.hexPrefix.isSome then ['p', 'P'] else ['e', 'E'] := by
  unfold markers FloatLit.base
  split <;> simp_all

theorem base_cases (l : FloatLit) : (l.base : ℤ) = 10 ∨ (l.base : ℤ) = 16 := by
  unfold FloatLit.base; split <;> simp

theorem render_pointed {l : FloatLit} (h : l.point = true) : l.render =
    (match l.hexPrefix with | none => [] | some c => ['0', c]) ++
      (l.whole ++ '.' :: (l.frac ++ expRender l.exp)) := by
  unfold FloatLit.render expRender
  rw [if_pos h]
  simp only [List.append_assoc, List.cons_append]
  rfl

theorem scan_complete {l : FloatLit} (hv : l.Valid) (hp : l.point = true) :
    scan l.render = (precision l.frac >>= fun p => pure (some (litScan l p))) := by
  have key := scanWhole_complete (exp := l.exp) (base_cases l)
    (by rw [dset_base]; exact hv.whole) (by rw [dset_base]; exact hv.frac) hv.some_digit
    (by
      intro he h16
      have := hv.exp_needed (Or.inl (by
        by_contra hc
        unfold FloatLit.base at h16
        rw [if_neg hc] at h16
        simp at h16))
      rw [he] at this; simp at this)
    (by
      intro e he
      refine ⟨?_, hv.sign e he, hv.exp_digits e he⟩
      rw [markers_base]; exact hv.marker e he)
  rw [render_pointed hp]
  rcases hx : l.hexPrefix with _ | c
  · have hb : (l.base : ℤ) = 10 := by simp [FloatLit.base, hx]
    have hl : ¬ ((l.whole ++ '.' :: (l.frac ++ expRender l.exp)).length < 2) := by
      have := hv.some_digit
      rcases this with h | h <;> have := List.length_pos_iff.2 h <;>
        simp only [List.length_append, List.length_cons] <;> omega
    simp only [List.nil_append]
    rw [scan, if_neg hl]
    have hpre : scanPrefix (l.whole ++ '.' :: (l.frac ++ expRender l.exp)) =
        pure (10, l.whole ++ '.' :: (l.frac ++ expRender l.exp)) := by
      unfold scanPrefix
      split
      · rw [if_neg]
        have hw := hv.whole
        rw [← dset_base, hb] at hw
        rcases hwc : l.whole with _ | ⟨c0, _ | ⟨c1, t⟩⟩
        · simp [View.prefix']
        · simp [View.prefix']
        · have hc := digitSeq_mem (hw.resolve_left (by simp [hwc])) c1 (by simp [hwc])
          rw [mem_dset] at hc
          simp only [View.prefix', List.cons_append, List.take_succ_cons, List.take_zero, List.cons.injEq,
            and_true]
          rintro (⟨-, rfl⟩ | ⟨-, rfl⟩) <;> revert hc <;> simp
      · rfl
    rw [hpre, Res.pure_def, ok_bind_false]
    simp only
    rw [← hb, key]
    rfl
  · have hb : (l.base : ℤ) = 16 := by simp [FloatLit.base, hx]
    have hc := hv.hexPrefix c (by simp [hx])
    have hl : ¬ ((['0', c] ++ (l.whole ++ '.' :: (l.frac ++ expRender l.exp))).length < 2) := by
      simp
    simp only
    rw [scan, if_neg hl]
    have hpre : scanPrefix (['0', c] ++ (l.whole ++ '.' :: (l.frac ++ expRender l.exp))) =
        pure (16, l.whole ++ '.' :: (l.frac ++ expRender l.exp)) := by
      unfold scanPrefix
      rw [if_pos (by simp), if_pos (by simpa [View.prefix'] using hc)]
      simp [View.removePrefix]
    rw [hpre, Res.pure_def, ok_bind_false]
    simp only
    rw [← hb, key]
    rfl

theorem scan_sound (s : List Char) : ∃ o w, scan s = .ok o w ∧
    ∀ r, o = some r → IsPointedFloatLit s := by
  rw [scan]
  split
  · exact ⟨none, false, rfl, by simp⟩
  rename_i hl
  have dec : ∃ o w, scanWhole 10 s = .ok o w ∧ ∀ r, o = some r → IsPointedFloatLit s := by
    obtain ⟨o, w, h1, h2⟩ := scanWhole_sound (base := 10) (Or.inl rfl) (s := s)
      (by rintro rfl; simp at hl) (by rintro - rfl; simp at hl)
    refine ⟨o, w, h1, fun r hr => ?_⟩
    obtain ⟨whole, frac, exp, rfl, h3, h4, h5, h6, h7⟩ := h2 r hr
    refine ⟨⟨none, whole, true, frac, exp⟩, ⟨by simp, h3, h4, h5, by simp, by simp, ?_, ?_, ?_⟩, rfl, ?_⟩
    · intro e he; exact (h7 e he).1
    · intro e he; exact (h7 e he).2.1
    · intro e he; exact (h7 e he).2.2
    · rw [render_pointed rfl]; rfl
  unfold scanPrefix
  split
  · rename_i hl2
    split
    · rename_i hx
      obtain ⟨c, t, rfl, hc, ht⟩ : ∃ c t, s = '0' :: c :: t ∧ (c = 'x' ∨ c = 'X') ∧ t ≠ [] := by
        rcases s with _ | ⟨a, _ | ⟨c, t⟩⟩
        · simp at hl
        · simp at hl
        · simp only [View.prefix', List.take_succ_cons, List.take_zero, List.cons.injEq, and_true] at hx
          refine ⟨c, t, ?_, ?_, ?_⟩
          · rcases hx with ⟨rfl, -⟩ | ⟨rfl, -⟩ <;> rfl
          · rcases hx with ⟨-, h⟩ | ⟨-, h⟩
            · exact Or.inl h
            · exact Or.inr h
          · rintro rfl; simp at hl2
      have hrp : View.removePrefix ('0' :: c :: t) 2 = pure t := by simp [View.removePrefix]
      simp only [hrp, Res.pure_def, ok_bind_false]
      obtain ⟨o, w, h1, h2⟩ := scanWhole_sound (base := 16) (Or.inr rfl) ht (by simp)
      refine ⟨o, w, h1, fun r hr => ?_⟩
      obtain ⟨whole, frac, exp, rfl, h3, h4, h5, h6, h7⟩ := h2 r hr
      refine ⟨⟨some c, whole, true, frac, exp⟩, ⟨by simpa using hc, h3, h4, h5, by simp, ?_, ?_, ?_, ?_⟩,
        rfl, ?_⟩
      · intro _
        rcases exp with _ | e
        · exact absurd rfl (h6 rfl)
        · rfl
      · intro e he; exact (h7 e he).1
      · intro e he; exact (h7 e he).2.1
      · intro e he; exact (h7 e he).2.2
      · rw [render_pointed rfl]; rfl
    · simpa only [Res.pure_def, ok_bind_false] using dec
  · simpa only [Res.pure_def, ok_bind_false] using dec

end Parse
end Ieme
