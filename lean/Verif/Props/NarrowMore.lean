import Verif.Lemmas.NarrowMore
import Verif.Props.Stream
import Verif.Props.MixedNumber

/-!
# C124: streams of 16-bit fractions, and mixed numbers with a narrow whole part

`L` is the type `long`, of which only the sign and a width of at least 32 bits matter.
-/

namespace Ieme
open Res IntTy Ieme.Stream

variable {N : NarrowTy} {L F S : IntTy} {o : Ops} {f g : Raw} {n d w : ℤ} {x : ℚ} {m : Mixed}
  {b : Bool} {text rest ws : List Char} {K : ℕ}

/-! ## Streams -/

/-- **C124** Exactly when extraction of a 16-bit fraction succeeds, and what is read. -/
theorem C124_read_succeeds_iff {e : Bool} (hL : L.signed = true) (hg : g.InNarrow N) :
    readNarrow L N ⟨text, false, false⟩ g = (f, ⟨rest, e, false⟩) ↔
      e = rest.isEmpty ∧ ∃ n d, IsFraction text n d rest ∧ N.Accepts n ∧ N.Accepts d ∧
        f = ⟨N.receives n, N.receives d⟩ := by
  constructor
  · intro h
    obtain ⟨n, d, r, h1, h2, h3⟩ := readNarrow_success (text := text) hL hg (by rw [h])
    rw [readNarrow_isFraction hL h1 h2] at h
    obtain ⟨rfl, h5⟩ := Prod.mk.inj h
    obtain ⟨rfl, rfl, -⟩ := IStream.mk.inj h5
    exact ⟨rfl, n, d, h1, h2, h3, rfl⟩
  · rintro ⟨rfl, n, d, h1, h2, h3, rfl⟩
    rw [readNarrow_isFraction hL h1 h2]
    simp [h3]

/-- **C124** A `short` accepts the integers that fit and stores them unchanged; an
`unsigned short` accepts their negatives as well and stores them modulo `2^bits`. -/
theorem C124_accepted (N : NarrowTy) (n : ℤ) :
    (N.signed = true → (N.Accepts n ↔ N.InRange n)) ∧
    (N.InRange n → N.Accepts n ∧ N.receives n = n) ∧
    (N.Accepts n → ∃ k : ℤ, N.receives n = n + k * 2 ^ N.bits) ∧ N.InRange (N.receives n) := by
  obtain ⟨h1, h2⟩ := NarrowTy.zero_inRange (N := N)
  refine ⟨fun hs => by rw [NarrowTy.Accepts, if_pos hs], fun hr => ?_, fun ha => ?_, ?_⟩
  · obtain ⟨h3, h4⟩ := id hr
    by_cases hs : N.signed = true
    · rw [NarrowTy.Accepts, NarrowTy.receives, if_pos hs, if_pos hs]
      exact ⟨hr, by omega⟩
    · have h0 : N.min = 0 := by rw [NarrowTy.min, if_neg hs]
      have hm : N.max = ((2 ^ N.bits : ℕ) : ℤ) - 1 := by rw [NarrowTy.max, if_neg hs]
      have h5 : (n.natAbs : ℤ) ≤ N.max := by omega
      rw [NarrowTy.Accepts, NarrowTy.receives, if_neg hs, if_neg hs, if_pos h5]
      push_cast at hm
      exact ⟨h5, Int.emod_eq_of_lt (by omega) (by omega)⟩
  · by_cases hs : N.signed = true
    · rw [NarrowTy.Accepts, if_pos hs] at ha
      obtain ⟨h3, h4⟩ := ha
      rw [NarrowTy.receives, if_pos hs]
      exact ⟨0, by omega⟩
    · rw [NarrowTy.Accepts, if_neg hs] at ha
      rw [NarrowTy.receives, if_neg hs, if_pos ha]
      refine ⟨-(n / 2 ^ N.bits), ?_⟩
      have := Int.emod_add_mul_ediv n (2 ^ N.bits)
      linarith
  · by_cases hs : N.signed = true
    · rw [NarrowTy.receives, if_pos hs]
      constructor <;> omega
    · rw [NarrowTy.receives, if_neg hs]
      split
      · have := N.wrap_inRange n
        rw [NarrowTy.wrap, if_neg hs] at this
        simpa using this
      · constructor <;> omega

/-- **C124** What was written is read back, for every 16-bit fraction. -/
theorem C124_round_trip (hL : L.signed = true) (hf : f.InNarrow N) (hg : g.InNarrow N)
    (hw : Spaces ws) (hr : NoDigitFirst rest) :
    readNarrow L N ⟨ws ++ (write f ++ rest), false, false⟩ g =
      (f, ⟨rest, rest.isEmpty, false⟩) := by
  obtain ⟨a1, e1⟩ := (C124_accepted N f.num).2.1 hf.1
  obtain ⟨a2, e2⟩ := (C124_accepted N f.den).2.1 hf.2
  refine (C124_read_succeeds_iff hL hg).2 ⟨rfl, f.num, f.den, ?_, a1, a2, by rw [e1, e2]⟩
  exact ⟨ws, showInt f.num, [], [], showInt f.den, by simp [write], hw, showInt_numeral _, by simp,
    fun c t e => by obtain ⟨rfl, -⟩ := List.cons.inj e; decide, by simp [Spaces],
    showInt_numeral _, hr⟩

example : (⟨-32768, 7⟩ : Raw).InNarrow i16 ∧ (⟨0, 1⟩ : Raw).InNarrow i16 ∧
    readNarrow i64 i16 ⟨" -32768/7 1/2".toList, false, false⟩ ⟨0, 1⟩ =
      (⟨-32768, 7⟩, ⟨" 1/2".toList, false, false⟩) ∧
    readNarrow i64 u16 ⟨"65535/-1".toList, false, false⟩ ⟨0, 1⟩ =
      (⟨65535, 65535⟩, ⟨[], true, false⟩) := by decide +kernel

/-- **C124** A number that does not fit sets `failbit`; the variable gets the nearest value
(`unsigned short`: the greatest).  If it is the numerator, the denominator stays as it was. -/
theorem C124_read_saturates (hL : L.signed = true) (hg : g.InNarrow N)
    (h : IsFraction text n d rest) :
    (¬ N.Accepts n → (readNarrow L N ⟨text, false, false⟩ g).1 = ⟨N.receives n, g.den⟩ ∧
      (readNarrow L N ⟨text, false, false⟩ g).2.fail = true) ∧
    (N.Accepts n → ¬ N.Accepts d →
      (readNarrow L N ⟨text, false, false⟩ g).1 = ⟨N.receives n, N.receives d⟩ ∧
      (readNarrow L N ⟨text, false, false⟩ g).2.fail = true) := by
  refine ⟨fun hn => ?_, fun hn hd => ?_⟩
  · obtain ⟨junk, t, h1, -, -⟩ := isFraction_iff.1 h
    have e := getNarrow_leading (N := N) (old := g.num) hL h1
    have := readNarrow_stop (L := L) (text := text) hg.2 (by rw [e]; simp [hn])
    rwa [e] at this
  · rw [readNarrow_isFraction hL h hn]
    simp [hd]

example : ¬ i16.Accepts 32768 ∧ i16.receives 32768 = 32767 ∧ ¬ u16.Accepts (-65536) ∧
    readNarrow i64 i16 ⟨"32768/3".toList, false, false⟩ ⟨5, 6⟩ =
      (⟨32767, 6⟩, ⟨"/3".toList, false, true⟩) ∧
    readNarrow i64 u16 ⟨"1/-65536".toList, false, false⟩ ⟨5, 6⟩ =
      (⟨1, 65535⟩, ⟨[], true, true⟩) := by decide +kernel

/-- **C124** Whether the text has the right form or not, the width of `long` plays no part in what
is read or whether it is. -/
theorem C124_read_any_long {L' : IntTy} (hL : L.signed = true) (hL' : L'.signed = true)
    (hg : g.InNarrow N) :
    (readNarrow L N ⟨text, false, false⟩ g).1 = (readNarrow L' N ⟨text, false, false⟩ g).1 ∧
    (readNarrow L N ⟨text, false, false⟩ g).2.fail =
      (readNarrow L' N ⟨text, false, false⟩ g).2.fail := by
  by_cases h1 : ∃ n t, LeadingInt text n t
  · obtain ⟨n, t, hl⟩ := h1
    have e1 := getNarrow_leading (N := N) (old := g.num) hL hl
    have e1' := getNarrow_leading (N := N) (old := g.num) hL' hl
    simp only [readNarrow, e1, e1']
    generalize hs : ignore ⟨t, t.isEmpty, !decide (N.Accepts n)⟩ '/' = s
    by_cases hb : (s.eof || s.fail) = true
    · rw [getNarrow_bad hg.2 hb, getNarrow_bad hg.2 hb]
      exact ⟨rfl, rfl⟩
    · obtain ⟨t', e, fl⟩ := s
      simp only [Bool.or_eq_true, not_or, Bool.not_eq_true] at hb
      obtain ⟨rfl, rfl⟩ := hb
      by_cases h2 : ∃ d rest, LeadingInt t' d rest
      · obtain ⟨d, rest, hl'⟩ := h2
        rw [getNarrow_leading hL hl', getNarrow_leading hL' hl']
        exact ⟨rfl, rfl⟩
      · push Not at h2
        obtain ⟨a1, a2⟩ := getNarrow_none (L := L) hg.2 h2
        obtain ⟨b1, b2⟩ := getNarrow_none (L := L') hg.2 h2
        rw [a1, a2, b1, b2]
        exact ⟨rfl, rfl⟩
  · push Not at h1
    obtain ⟨a1, a2⟩ := getNarrow_none (L := L) hg.1 h1
    obtain ⟨b1, b2⟩ := getNarrow_none (L := L') hg.1 h1
    obtain ⟨c1, c2⟩ := readNarrow_stop (L := L) (text := text) hg.2 a2
    obtain ⟨d1, d2⟩ := readNarrow_stop (L := L') (text := text) hg.2 b2
    rw [c1, c2, d1, d2, a1, b1]
    exact ⟨rfl, rfl⟩

example : readNarrow i32 i16 ⟨"99999999999/3".toList, false, false⟩ ⟨5, 6⟩ =
    readNarrow i64 i16 ⟨"99999999999/3".toList, false, false⟩ ⟨5, 6⟩ := by decide +kernel

/-! ## Mixed numbers -/

/-- **C124** A mixed number with a narrow whole part is constructed cleanly exactly when one with an
`int` is and the narrow type holds the truncated fraction and its sum with the whole part. -/
theorem C124_construction_iff (hN : N.bits ≤ 30) (hw : N.InRange w) (hx : Denotes f x) :
    Narrow.Mixed.mk' N F o w f ⇓ m ↔ Mixed.mk' i32 F o w f ⇓ m ∧ N.InRange (ratTrunc x) ∧
      N.InRange (w + ratTrunc x) := Narrow.Mixed.mk_clean_iff hN hw hx

/-- **C124** Clean construction is exact, from a whole part and a fraction and from a fraction; the
invariant of the class holds. -/
theorem C124_construction_exact (hN : N.bits ≤ 30) (hw : N.InRange w) (hx : Denotes f x) :
    (Narrow.Mixed.mk' N F o w f ⇓ m → m.Denotes (w + x) ∧ m.Invariant ∧ N.InRange m.whole) ∧
    (Narrow.Mixed.ofFraction N F o S f ⇓ m → m.Denotes x ∧ m.whole = ratTrunc x ∧ m.Invariant ∧
      N.InRange m.whole) := by
  refine ⟨fun h => ?_, fun h => ?_⟩
  · obtain ⟨-, hi, hr, -⟩ := Narrow.Mixed.mk_ok hN hw (.inr rfl) h
    exact ⟨C42_construction_exact (NarrowTy.inRange_int hw) hx
      ((Narrow.Mixed.mk_clean_iff hN hw hx).1 h).1, hi, hr⟩
  · obtain ⟨h1, h2⟩ := (Narrow.Mixed.ofFraction_clean_iff hx).1 h
    obtain ⟨h3, h4⟩ := C42_from_fraction_exact hx h1
    exact ⟨h3, h4, (Mixed.ofFraction_ok h1).2.1, by rw [h4]; exact h2⟩

/-- **C124** With a signed fractional part the two-argument constructor always finishes, unless a
part of the fraction is the least value, and can only be wrong by a multiple of `2^bits`: the
arithmetic of the whole part is silently modular.  The invariant holds in any case. -/
theorem C124_construction_modular (hN : N.bits ≤ 30) (hs : F.signed = true)
    (hK : (K : ℤ) ≤ F.max) (hf : f.AbsLe K) (hw : N.InRange w) (hx : Denotes f x) :
    ∃ m b, Narrow.Mixed.mk' N F o w f = .ok m b ∧ m.Invariant ∧ N.InRange m.whole ∧
      ∃ k : ℤ, m.Denotes (w + x + k * 2 ^ N.bits) := by
  obtain ⟨m, b, h⟩ := Narrow.Mixed.mk_progress (o := o) hN hs hK hf hx hw
  obtain ⟨-, hi, hr, hv⟩ := Narrow.Mixed.mk_ok hN hw (.inl hs) h
  exact ⟨m, b, h, hi, hr, hv x hx⟩

/-- **C124** The constructor from a fraction keeps the value even when the whole part does not
hold the truncated value: the fractional part makes up for it, and is improper then. -/
theorem C124_from_fraction_value (hS : S.signed = true) (hf : f.InRange S) (hx : Denotes f x)
    (h : Narrow.Mixed.ofFraction N S o S f = .ok m b) :
    m.Denotes x ∧ N.InRange m.whole ∧ (m.Invariant ↔ N.InRange (ratTrunc x)) := by
  obtain ⟨h1, h2, h3⟩ := Narrow.Mixed.ofFraction_value hS hf hx h
  refine ⟨h1, h2, fun ⟨y, hy, hy1, hy2, hy3⟩ => ?_, fun hr => ?_⟩
  · -- the whole part of a mixed number that satisfies the invariant is the truncated value
    obtain ⟨z, hz, rfl⟩ := h1
    obtain rfl := hy.unique hz
    have : ratTrunc (m.whole + y) = m.whole := by
      rw [abs_lt] at hy1
      unfold ratTrunc
      rcases lt_trichotomy m.whole 0 with hn | hn | hn
      · have hy' := hy3 hn
        have : (m.whole : ℚ) ≤ -1 := by exact_mod_cast (by omega : m.whole ≤ -1)
        rw [if_neg (by linarith), Int.ceil_eq_iff]
        constructor <;> linarith
      · rw [hn]
        simp only [Int.cast_zero, zero_add]
        split
        · rw [Int.floor_eq_zero_iff]; constructor <;> linarith
        · rw [Int.ceil_eq_zero_iff]; constructor <;> linarith
      · have hy' := hy2 hn
        have : (1 : ℚ) ≤ m.whole := by exact_mod_cast (by omega : 1 ≤ m.whole)
        rw [if_pos (by linarith), Int.floor_eq_iff]
        constructor <;> linarith
    rw [this]; exact h2
  · rw [h3 hr] at h
    exact (Mixed.ofFraction_ok ((Narrow.Mixed.ofFraction_clean_iff hx).1 h).1).2.1

/-- The hypotheses are met; the second and third values are as the theorems say. -/
example : i8.InRange 100 ∧ i8.bits ≤ 30 ∧ Denotes ⟨57, 2⟩ (57/2) ∧
    Narrow.Mixed.mk' i8 i32 .defaults 100 ⟨53, 2⟩ ⇓ ⟨126, ⟨1, 2⟩⟩ ∧
    Narrow.Mixed.mk' i8 i32 .defaults 100 ⟨57, 2⟩ = .ok ⟨-127, ⟨-1, 2⟩⟩ true ∧
    Narrow.Mixed.ofFraction i8 i32 .defaults i32 ⟨1000, 3⟩ = .ok ⟨77, ⟨769, 3⟩⟩ true := by
  refine ⟨by decide, by decide, ⟨by decide, by norm_num⟩, by decide, by decide, by decide⟩

/-- **C124** Silent changes do happen: `mixed_number<signed char, int>(100, 57/2)` is minus `127 1/2`, and
the one made from `1000/3` has an improper fractional part. -/
theorem C124_construction_wrong :
    (∃ m, Narrow.Mixed.mk' i8 i32 .defaults 100 ⟨57, 2⟩ = .ok m true ∧ m.Denotes (-255/2)) ∧
    (∃ m, Narrow.Mixed.ofFraction i8 i32 .defaults i32 ⟨1000, 3⟩ = .ok m true ∧ ¬ m.Invariant) := by
  refine ⟨⟨⟨-127, ⟨-1, 2⟩⟩, by decide, -1/2, ⟨by decide, by norm_num⟩, by norm_num⟩,
    ⟨⟨77, ⟨769, 3⟩⟩, by decide, ?_⟩⟩
  rintro ⟨y, hy, h1, -⟩
  have := (Raw.abs_lt_iff hy).1 h1
  norm_num at this

/-- **C124** Addition of mixed numbers, of a fraction and of an integer is exact whenever it compiles
and finishes cleanly, whatever the types of the whole parts are; with two equal narrow types it does
not compile, and neither does negation. -/
theorem C124_addition_exact {A B : AnyTy} {F₁ F₂ : IntTy} {l r : Mixed} {y : ℚ}
    (hl : l.Denotes x) :
    (r.Denotes y → Narrow.Mixed.add A F₁ B F₂ o l r ⇓ m → m.Denotes (x + y) ∧ m.Invariant) ∧
    (Denotes f y → Narrow.Mixed.addFraction N F₁ F₂ o l f ⇓ m → m.Denotes (x + y)) ∧
    (Narrow.Mixed.addWhole A F B o l n ⇓ m → m.Denotes (x + n) ∧ m.Invariant) ∧
    (A = .narrow N → A = B → Narrow.Mixed.add A F₁ B F₂ o l r = .fault .illFormed ∧
      Narrow.Mixed.addWhole A F B o l n = .fault .illFormed) := by
  refine ⟨fun hr h => ?_, fun hf h => C44_add_fraction_exact hl hf h, fun h => ?_, ?_⟩
  · have : ∃ W₁ W₂, Mixed.add W₁ F₁ W₂ F₂ o l r ⇓ m := by
      unfold Narrow.Mixed.add at h
      split at h
      · split at h
        · cases h
        · exact ⟨_, _, h⟩
      · exact ⟨_, _, h⟩
    obtain ⟨W₁, W₂, h⟩ := this
    exact ⟨C44_add_exact hl hr h, (Mixed.add_ok h).1⟩
  · have : ∃ W₁ W₂, Mixed.addWhole W₁ F W₂ o l n ⇓ m := by
      unfold Narrow.Mixed.addWhole at h
      split at h
      · split at h
        · cases h
        · exact ⟨_, _, h⟩
      · exact ⟨_, _, h⟩
    obtain ⟨W₁, W₂, h⟩ := this
    exact ⟨C44_add_integer_exact hl h, (Mixed.addWhole_ok h).1⟩
  · rintro rfl rfl
    simp [Narrow.Mixed.add, Narrow.Mixed.addWhole]

/-- **C124** With different whole types, the left one narrow, sums are those of an `int` whole part, so
that C44 says when they finish. -/
theorem C124_addition_in_int {M : NarrowTy} {F₁ F₂ : IntTy} {l r : Mixed} (hMN : M ≠ N) :
    Narrow.Mixed.add (.narrow M) F₁ (.narrow N) F₂ o l r = Mixed.add i32 F₁ i32 F₂ o l r ∧
    Narrow.Mixed.add (.narrow M) F₁ (.wide L) F₂ o l r = Mixed.add i32 F₁ L F₂ o l r ∧
    Narrow.Mixed.addWhole (.narrow M) F (.narrow N) o l n = Mixed.addWhole i32 F i32 o l n ∧
    Narrow.Mixed.addWhole (.narrow M) F (.wide L) o l n = Mixed.addWhole i32 F L o l n := by
  refine ⟨?_, rfl, ?_, rfl⟩ <;> simp [Narrow.Mixed.add, Narrow.Mixed.addWhole, hMN]

/-- **C124** Back to a fraction: a clean conversion has exactly the value of the mixed number. -/
theorem C124_as_fraction {q : ℚ} (hm : m.Denotes q) (h : Narrow.Mixed.asFraction N F o m ⇓ f) :
    Denotes f q := C46_as_fraction_exact hm h

example : (⟨126, ⟨1, 2⟩⟩ : Mixed).Denotes (253/2) ∧ i8 ≠ i16 ∧
    Narrow.Mixed.add (.narrow i8) i32 (.narrow i16) i32 .defaults ⟨126, ⟨1, 2⟩⟩ ⟨2, ⟨3, 4⟩⟩ ⇓
      ⟨129, ⟨1, 4⟩⟩ ∧
    Narrow.Mixed.addWhole (.narrow i8) i32 (.wide i32) .defaults ⟨126, ⟨1, 2⟩⟩ 1000 ⇓
      ⟨1126, ⟨1, 2⟩⟩ ∧
    Narrow.Mixed.addFraction i8 i32 i64 .defaults ⟨126, ⟨1, 2⟩⟩ ⟨7, 2⟩ ⇓ ⟨130, ⟨0, 1⟩⟩ ∧
    Narrow.Mixed.asFraction i8 i64 .defaults ⟨126, ⟨1, 2⟩⟩ ⇓ ⟨253, 2⟩ := by
  refine ⟨⟨1/2, ⟨by decide, by norm_num⟩, by norm_num⟩, by decide, by decide, by decide, by decide,
    by decide⟩

end Ieme
