import Verif.Lemmas.FloatText
import Verif.Spec.FloatText
import Verif.Props.ExactThird
import Verif.Props.FloatRounding

/-!
# C147: the models of the floating-point conversions compute what their text says

`Script.Text.floatNames` and `Script.Text.floatFields` in `Verif/Model/ScanText.lean` are the text of
`to_fraction`, `to_float`, `to_double`, `to_long_double` and of the two functions that do their work,
in `/repo/include/ieme/floating_point.hpp`.
-/

namespace Ieme

open Script Header

variable {E : FloatingPoint.Endian} {L : ℕ} {T : IntTy} {o : Ops} {f r : Raw} {b : ℕ} {w : Bool}

/-- **C147** Parsing the text gives the program that the other theorems are about. -/
theorem C147_text :
    Script.parse Script.Text.floatNames = some Prog.floatNames ∧
    Script.parse Script.Text.floatFields = some Prog.floatFields ∧
    floats E L = (Prog.floatNames.append Prog.floatFields).append (platform E L) := by
  refine ⟨?_, ?_, rfl⟩ <;> decide +kernel

/-- Another text gives another program. -/
example : Script.parse ["constexpr int f(uint32_t const x)", "{", "  return x >> 23;", "}"] =
    some ⟨[⟨102, [], [⟨.name N.«uint32_t», 120⟩], .name N.«int»,
      .ret (.shr (.var 120) (.num 23)) .nil⟩], [], [], [], []⟩ := by decide +kernel

/-- **C147** `to_fraction` of a `float`, for every byte order. -/
theorem C147_of_float (bits : ℕ) :
    Computes E L N.«to_fraction» [.int T, .ops o] [floatValue bits]
      (fractionValue T o <$> FloatingPoint.toFraction E binary32 T o bits) := by
  refine ⟨opsDepth o + 12, fun n h => ?_⟩
  obtain ⟨m, rfl⟩ : ∃ m, n = m + 1 := ⟨n - 1, by omega⟩
  exact ofFloat_ok (by omega) bits

/-- **C147** `to_fraction` of a `double`, for every byte order. -/
theorem C147_of_double (bits : ℕ) :
    Computes E L N.«to_fraction» [.int T, .ops o] [doubleValue bits]
      (fractionValue T o <$> FloatingPoint.toFraction E binary64 T o bits) := by
  refine ⟨opsDepth o + 12, fun n h => ?_⟩
  obtain ⟨m, rfl⟩ : ∃ m, n = m + 1 := ⟨n - 1, by omega⟩
  exact ofDouble_ok (by omega) bits

/-- -0.75 as a `float`, 0.1 as a `double`; 0.1 has a denominator too large for `int`; a byte order
that is neither little nor big does not compile. -/
example :
    (match
        Script.invoke (floats .little 10) 60 N.«to_fraction» [.int i32, .ops .defaults]
          [floatValue 0xBF400000],
        Script.invoke (floats .little 10) 60 N.«to_fraction» [.int i64, .ops .defaults]
          [doubleValue 0x3FB999999999999A],
        Script.invoke (floats .little 10) 60 N.«to_fraction» [.int i32, .ops .defaults]
          [doubleValue 0x3FB999999999999A],
        Script.invoke (floats .mixed 10) 60 N.«to_fraction» [.int i64, .ops .defaults]
          [doubleValue 0x3FB999999999999A] with
      | .ok (.val (.frac _ _ f)) false, .ok (.val (.frac _ _ g)) false, .fault _, .fault .illFormed =>
        f == ⟨-3, 4⟩ && g == ⟨3602879701896397, 36028797018963968⟩
      | _, _, _, _ => false) = true := by decide +kernel

/-- **C147** `to_float`. -/
theorem C147_to_float (f : Raw) :
    Computes E L N.«to_float» [] [fractionValue T o f]
      (floatValue <$> FloatingPoint.ofFraction binary32 T f) := by
  refine ⟨12, fun n h => ?_⟩
  obtain ⟨m, rfl⟩ : ∃ m, n = m + 1 := ⟨n - 1, by omega⟩
  exact toFloat_ok (by omega) f

/-- **C147** `to_double`. -/
theorem C147_to_double (f : Raw) :
    Computes E L N.«to_double» [] [fractionValue T o f]
      (doubleValue <$> FloatingPoint.ofFraction binary64 T f) := by
  refine ⟨12, fun n h => ?_⟩
  obtain ⟨m, rfl⟩ : ∃ m, n = m + 1 := ⟨n - 1, by omega⟩
  exact toDouble_ok (by omega) f

/-- **C147** `to_long_double`, for the four formats that `long double` has on the platforms. -/
theorem C147_to_long_double (fmt : Fmt) (hL : (L, fmt) = (4, binary32) ∨ (L, fmt) = (8, binary64) ∨
    (L, fmt) = (10, extended80) ∨ (L, fmt) = (16, binary128)) (f : Raw) :
    Computes E L N.«to_long_double» [] [fractionValue T o f]
      (longDoubleValue L <$> FloatingPoint.ofFraction fmt T f) := by
  refine ⟨12, fun n h => ?_⟩
  obtain ⟨m, rfl⟩ : ∃ m, n = m + 1 := ⟨n - 1, by omega⟩
  refine toLongDouble_ok (by omega) fmt ?_ f
  rcases hL with h | h | h | h <;> cases h <;> rfl

/-- 1/3 in three formats; `INT_MIN/3` is undefined behaviour. -/
example :
    ((10, extended80) = (4, binary32) ∨ (10, extended80) = (8, binary64) ∨
      ((10, extended80) : ℕ × Fmt) = (10, extended80) ∨ (10, extended80) = (16, binary128)) ∧
    (match
        Script.invoke (floats .little 10) 60 N.«to_float» [] [fractionValue i32 .defaults ⟨1, 3⟩],
        Script.invoke (floats .big 10) 60 N.«to_double» [] [fractionValue i32 .defaults ⟨-2, -6⟩],
        Script.invoke (floats .little 10) 60 N.«to_long_double» []
          [fractionValue i32 .defaults ⟨1, 3⟩],
        Script.invoke (floats .little 10) 60 N.«to_float» []
          [fractionValue i32 .defaults ⟨-2147483648, 3⟩] with
      | .ok (.flt 4 x) false, .ok (.flt 8 y) false, .ok (.flt 10 z) false, .fault .gcdPrecond =>
        x == 0x3EAAAAAB && y == 0x3FD5555555555555 && z == 0x3FFD * 2 ^ 63 + 0x2AAAAAAAAAAAAAAB
      | _, _, _, _ => false) = true := by
  refine ⟨.inr (.inr (.inl rfl)), ?_⟩
  decide +kernel

theorem Script.Computes.unique {f : ℕ} {ts : List TVal} {args : List V} {r r' : Res V}
    (h : Computes E L f ts args r) (h' : Computes E L f ts args r') : r = r' := by
  obtain ⟨k, hk⟩ := h
  obtain ⟨k', hk'⟩ := h'
  rw [← hk (k + k') (by omega), ← hk' (k + k') (by omega)]

theorem map_fraction_clean {m : Res Raw} (h : Res.ok (fractionValue T o r) false =
    fractionValue T o <$> m) : m = .ok r false := by
  cases m with
  | fault k => cases h
  | ok r' w' => cases w' with
    | false => cases h; rfl
    | true => cases h

theorem map_flt_clean {g : ℕ → V} (hg : ∀ a b, g a = g b → a = b) {m : Res ℕ}
    (h : Res.ok (g b) false = g <$> m) : m = .ok b false := by
  cases m with
  | fault k => cases h
  | ok r' w' =>
    obtain ⟨h1, h2⟩ := Res.ok.inj h
    cases w' with
    | false => rw [hg _ _ h1]
    | true => cases h2

/-- **C147** Evaluated from the text on a little-endian target, converting a normal `float` or
`double` returns nothing but its exact value, if nothing has wrapped. -/
theorem C147_little_endian_exact :
    (binary32.Normal b → Computes .little L N.«to_fraction» [.int T, .ops o] [floatValue b]
      (.ok (fractionValue T o r) false) → Denotes r (binary32.value b)) ∧
    (binary64.Normal b → Computes .little L N.«to_fraction» [.int T, .ops o] [doubleValue b]
      (.ok (fractionValue T o r) false) → Denotes r (binary64.value b)) :=
  ⟨fun hb h => C58_normal_exact hb (map_fraction_clean (h.unique (C147_of_float b))),
    fun hb h => C58_normal_exact hb (map_fraction_clean (h.unique (C147_of_double b)))⟩

/-- **C147** Evaluated from the text on a big-endian target, converting a normal `float` or
`double` never returns its value, if the type has at most 128 bits and nothing has wrapped. -/
theorem C147_big_endian_never_right (hT : T.bits ≤ 128) :
    (binary32.Valid b → binary32.Normal b →
      Computes .big L N.«to_fraction» [.int T, .ops o] [floatValue b]
        (.ok (fractionValue T o r) false) → ¬ Denotes r (binary32.value b)) ∧
    (binary64.Valid b → binary64.Normal b →
      Computes .big L N.«to_fraction» [.int T, .ops o] [doubleValue b]
        (.ok (fractionValue T o r) false) → ¬ Denotes r (binary64.value b)) :=
  ⟨fun hv hb h => C63_big_endian_never_right hv hb hT (.inl rfl)
      (map_fraction_clean (h.unique (C147_of_float b))),
    fun hv hb h => C63_big_endian_never_right hv hb hT (.inr (.inl rfl))
      (map_fraction_clean (h.unique (C147_of_double b)))⟩

/-- **C147** Evaluated from the text, `to_float` and `to_double` round the value of the fraction
correctly, if the type has no more bits than the significand. -/
theorem C147_narrow_always_rounded {q : ℚ} (hq : Denotes f q) :
    (T.bits ≤ 24 → Computes E L N.«to_float» [] [fractionValue T o f] (.ok (floatValue b) false) →
      binary32.Rounded q b) ∧
    (T.bits ≤ 53 → Computes E L N.«to_double» [] [fractionValue T o f] (.ok (doubleValue b) false) →
      binary64.Rounded q b) :=
  ⟨fun hT h => C61_narrow_always_rounded hT (by decide) hq
      (map_flt_clean (fun _ _ h => by cases h; rfl) (h.unique (C147_to_float f))),
    fun hT h => C61_narrow_always_rounded hT (by decide) hq
      (map_flt_clean (fun _ _ h => by cases h; rfl) (h.unique (C147_to_double f)))⟩

/-- The hypotheses hold: 1.5 is converted on a little-endian target; on a big-endian target a number
slightly above 2 becomes -5/4; `to_double` of 1/3 on `int`. -/
example : binary64.Normal 0x3FF8000000000000 ∧
    Computes .little 10 N.«to_fraction» [.int i64, .ops .defaults] [doubleValue 0x3FF8000000000000]
      (.ok (fractionValue i64 .defaults ⟨3, 2⟩) false) ∧
    binary64.Valid (2 ^ 62 + 2047) ∧ binary64.Normal (2 ^ 62 + 2047) ∧
    Computes .big 16 N.«to_fraction» [.int i64, .ops .defaults] [doubleValue (2 ^ 62 + 2047)]
      (.ok (fractionValue i64 .defaults ⟨-5, 4⟩) false) ∧
    Denotes ⟨1, 3⟩ (1 / 3) ∧ i32.bits ≤ 53 ∧
    Computes .big 16 N.«to_double» [] [fractionValue i32 .defaults ⟨1, 3⟩]
      (.ok (doubleValue 0x3FD5555555555555) false) := by
  refine ⟨by decide +kernel, ?_, by decide +kernel, by decide +kernel, ?_, ⟨by decide, by norm_num⟩,
    by decide, ?_⟩
  · have h : FloatingPoint.toFraction .little binary64 i64 .defaults 0x3FF8000000000000 =
        .ok ⟨3, 2⟩ false := by decide +kernel
    have h' := C147_of_double (E := .little) (L := 10) (T := i64) (o := .defaults)
      0x3FF8000000000000
    rwa [h] at h'
  · have h : FloatingPoint.toFraction .big binary64 i64 .defaults (2 ^ 62 + 2047) =
        .ok ⟨-5, 4⟩ false := by decide +kernel
    have h' := C147_of_double (E := .big) (L := 16) (T := i64) (o := .defaults) (2 ^ 62 + 2047)
    rwa [h] at h'
  · have h : FloatingPoint.ofFraction binary64 i32 ⟨1, 3⟩ = .ok 0x3FD5555555555555 false := by
      decide +kernel
    have h' := C147_to_double (E := .big) (L := 16) (T := i32) (o := .defaults) ⟨1, 3⟩
    rwa [h] at h'

end Ieme
