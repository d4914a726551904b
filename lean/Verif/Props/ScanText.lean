import Verif.Lemmas.ScanConvert
import Verif.Props.Parse

/-!
# C146: the models of the parser compute what its text says

`Verif/Model/ScanText.lean` is the text of `/repo/include/ieme/parse_utilities.hpp` and of the two
functions that use it.  `Script.parse` reads it, `Script.invoke` evaluates it.
-/

namespace Ieme

open Script Header

/-- **C146** Parsing the text gives the program that the other theorems are about. -/
theorem C146_text :
    Script.parse Script.Text.parseUtilities = some Prog.parseUtilities ∧
    Script.parse Script.Text.stringToFraction = some Prog.stringToFraction ∧
    Script.parse Script.Text.decLiteral = some Prog.decLiteral ∧
    parser = (Prog.parseUtilities.append Prog.stringToFraction).append Prog.decLiteral := by
  refine ⟨?_, ?_, ?_, rfl⟩ <;> decide +kernel

/-- Another text gives another program. -/
example : Script.parse ["constexpr int f(int const x)", "{", "  return x - '0';", "}"] =
    some ⟨[⟨102, [], [⟨.name N.«int», 120⟩], .name N.«int»,
      .ret (.bin .sub (.var 120) (.chr 48)) .nil⟩], [], [], [], []⟩ := by decide +kernel

/-- **C146** `is_valid_digit_sequence`. -/
theorem C146_valid (s : List Char) (base : ℤ) :
    Script.Returns N.«is_valid_digit_sequence» [] [.str s, integer i32 base]
      (pure (truth (Parse.isValidDigitSequence s base))) := by
  refine ⟨1, fun n h => ?_⟩
  obtain ⟨m, rfl⟩ : ∃ m, n = m + 1 := ⟨n - 1, by omega⟩
  exact valid_ok m s base

/-- `"19a"` has digits of the base 16 only, and other characters than those of the base 10. -/
example :
    (match
        Script.invoke parser 40 N.«is_valid_digit_sequence» []
          [.str "19a".toList, integer i32 16],
        Script.invoke parser 40 N.«is_valid_digit_sequence» []
          [.str "19a".toList, integer i32 10] with
      | .ok (.val (.bool x)) false, .ok (.val (.bool y)) false => x && !y
      | _, _ => false) = true := by decide +kernel

/-- **C146** `digit_sequence_to_int`, for every type of integer. -/
theorem C146_digits (T : IntTy) (s : List Char) (base : ℤ) :
    Script.Returns N.«digit_sequence_to_int» [] [.str s, integer T base]
      (integer T <$> Parse.digitSequenceToInt T s base) := by
  refine ⟨s.length + 5, fun n h => ?_⟩
  obtain ⟨m, rfl⟩ : ∃ m, n = m + 1 := ⟨n - 1, by omega⟩
  exact digits_ok m s T base (by omega)

/-- `1fF` is 511; 4294967297 is 1 after wrapping to 32 bits. -/
example :
    (match
        Script.invoke parser 40 N.«digit_sequence_to_int» []
          [.str "1fF".toList, integer i64 16],
        Script.invoke parser 40 N.«digit_sequence_to_int» []
          [.str "4294967297".toList, integer u32 10] with
      | .ok (.val (.int _ x)) false, .ok (.val (.int _ y)) true => x == 511 && y == 1
      | _, _ => false) = true := by decide +kernel

/-- **C146** `scan_floating_point_string`. -/
theorem C146_scan (s : List Char) (hs : s.length < 2 ^ 64) :
    Script.Returns N.«scan_floating_point_string» [] [.str s] (maybeScanned <$> Parse.scan s) := by
  refine ⟨3, fun n h => ?_⟩
  obtain ⟨m, rfl⟩ : ∃ m, n = m + 2 + 1 := ⟨n - 3, by omega⟩
  exact scan_ok m s hs

example : ("0x1.8p-3".toList.length < 2 ^ 64) ∧
    (match Script.invoke parser 40 N.«scan_floating_point_string» [] [.str "0x1.8p-3".toList] with
      | .ok (.some (.obj _ [(_, b), (_, .str w), (_, .str f), _, (_, .enum _ e), (_, .str x)]))
          false =>
        (match b with
          | .val (.int _ b) => b == 16
          | _ => false) &&
        w == "1".toList && f == "8".toList && e == N.«negative» && x == "3".toList
      | _ => false) = true := by decide +kernel

/-- **C146** `floating_point_string_to_fraction`, for every representation and policy. -/
theorem C146_to_fraction (T : IntTy) (o : Ops) (s : List Char) (hs : s.length < 2 ^ 64) :
    Script.Returns N.«floating_point_string_to_fraction» [.int T, .ops o] [.str s]
      (fractionValue T o <$> Parse.toFraction T o s) := by
  obtain ⟨k, hk⟩ := convert_ok s hs T o
  refine ⟨k + 1, fun n h => ?_⟩
  obtain ⟨m, rfl⟩ : ∃ m, n = m + 1 := ⟨n - 1, by omega⟩
  exact hk m (by omega)

/-- `12.50e1` is 125. -/
example : ("12.50e1".toList.length < 2 ^ 64) ∧
    (match Script.invoke parser 60 N.«floating_point_string_to_fraction» [.int i64, .ops .defaults]
        [.str "12.50e1".toList] with
      | .ok (.val (.frac _ _ f)) false => f == ⟨125, 1⟩
      | _ => false) = true := by decide +kernel

/-- **C146** `operator""_dec`. -/
theorem C146_dec (s : List Char) (hs : s.length < 2 ^ 64) :
    Script.Returns N.«_dec» [] [.str s] (fractionValue i64 .defaults <$> Parse.dec s) := by
  obtain ⟨k, hk⟩ := dec_ok s hs
  refine ⟨k + 1, fun n h => ?_⟩
  obtain ⟨m, rfl⟩ : ∃ m, n = m + 1 := ⟨n - 1, by omega⟩
  exact hk m (by omega)

/-- `_dec` throws for `2`, which has no radix point. -/
example :
    (match Script.invoke parser 60 N.«_dec» [] [.str "0x1.8p-3".toList],
        Script.invoke parser 60 N.«_dec» [] [.str "2".toList] with
      | .ok (.val (.frac _ _ f)) false, .fault .thrown => f == ⟨3, 16⟩
      | _, _ => false) = true := by decide +kernel

theorem Script.Returns.unique {f : ℕ} {ts : List TVal} {args : List V} {r r' : Res V}
    (h : Script.Returns f ts args r) (h' : Script.Returns f ts args r') : r = r' := by
  obtain ⟨k, hk⟩ := h
  obtain ⟨k', hk'⟩ := h'
  rw [← hk (k + k') (by omega), ← hk' (k + k') (by omega)]

/-- **C146** Evaluated from its text, `_dec` throws for exactly the strings that are no literals
with a radix point. -/
theorem C146_dec_throws_iff (s : List Char) (hs : s.length < 2 ^ 64) :
    Script.Returns N.«_dec» [] [.str s] (.fault .thrown) ↔ ¬ IsPointedFloatLit s := by
  rw [← C56_throws_iff]
  constructor
  · intro h
    have := h.unique (C146_dec s hs)
    cases hd : Parse.dec s with
    | fault k => rw [hd] at this; exact congrArg _ (Res.fault.inj this).symm
    | ok r w => rw [hd] at this; cases this
  · intro h
    have := C146_dec s hs
    rwa [h] at this

/-- **C146** Evaluated from its text, `_dec` returns nothing but the exact value of the literal. -/
theorem C146_dec_exact (s : List Char) (hs : s.length < 2 ^ 64) {r : Raw} {w : Bool}
    (h : Script.Returns N.«_dec» [] [.str s] (.ok (fractionValue i64 .defaults r) w)) :
    w = false ∧ ∃ l : FloatLit, l.Valid ∧ l.point = true ∧ l.render = s ∧ Denotes r l.value := by
  refine C56_returns_exact (r := r) ?_
  have := h.unique (C146_dec s hs)
  cases hd : Parse.dec s with
  | fault k => rw [hd] at this; cases this
  | ok r' w' =>
    rw [hd] at this
    cases w' <;> cases this <;> rfl

/-- A string that is no literal, and one that is. -/
example : Script.Returns N.«_dec» [] [.str "1e5".toList] (.fault .thrown) ∧
    Script.Returns N.«_dec» [] [.str "2.50".toList]
      (.ok (fractionValue i64 .defaults ⟨5, 2⟩) false) := by
  constructor
  · have h : Parse.dec "1e5".toList = .fault .thrown := by decide +kernel
    have h' := C146_dec "1e5".toList (by decide +kernel)
    rwa [h] at h'
  · have h : Parse.dec "2.50".toList = .ok ⟨5, 2⟩ false := by decide +kernel
    have h' := C146_dec "2.50".toList (by decide +kernel)
    rwa [h] at h'

end Ieme
