import Verif.Props.Hash
import Verif.Props.FloatingPoint
import Verif.Lemmas.BigEndian
import Verif.Lemmas.HashInj

/-!
# Exactly where the properties that hold in part fail, continued: C63 and C64
-/

namespace Ieme

open Res IntTy FloatingPoint

variable {F : Fmt} {T : IntTy} {o : Ops} {f g r : Raw} {b : ℕ}

/-- **C63** What happens on a big-endian target: the conversion takes the fields in the reverse
order, so it converts another pattern. -/
theorem C63_big_endian_reorders : toFraction .big F T o b =
    toFraction .little F T o (F.reordered b) := toFraction_big b

/-- **C63** A conversion of a normal number that finishes on a big-endian target is right exactly
for the patterns that do not change when their fields are taken in the reverse order. -/
theorem C63_big_endian_iff (hv : F.Valid b) (hb : F.Normal b) (h : toFraction .big F T o b ⇓ r) :
    Denotes r (F.value b) ↔ F.reordered b = b := by
  rw [toFraction_big] at h
  by_cases hn : F.NaN (F.reordered b)
  · have hu : r = Limits.undefined := by
      rw [toFraction_little] at h
      obtain ⟨den, -, h⟩ := bind_eq_clean.1 h
      rw [if_pos hn] at h
      exact (pure_eq_ok.1 h).1.symm
    refine iff_of_false (fun hd => hd.1 (by rw [hu]; rfl)) fun e => ?_
    rw [e] at hn
    have := hb.2
    have := hn.1
    omega
  · have hd := toFraction_pseudo hn h
    constructor
    · intro hd'
      rw [Fmt.value_of_normal hb.1.ne'] at hd'
      obtain ⟨e1, e2, e3⟩ := pseudo_inj (hd.unique hd')
      exact eq_of_fields (reordered_valid F b) hv e1 e2 e3
    · intro e
      rw [e] at hd
      rwa [Fmt.value_of_normal hb.1.ne']

example : toFraction .big binary32 i64 .defaults (2 ^ 30 + 254) ⇓ ⟨5, 4⟩ ∧
    binary32.Normal (2 ^ 30 + 254) ∧ binary32.Valid (2 ^ 30 + 254) ∧
    binary32.reordered (2 ^ 30 + 254) ≠ 2 ^ 30 + 254 := by decide +kernel

/-- A pattern that does not change, in the format of `double`. -/
example : binary64.Normal 0x6db6db6db6db6db6 ∧ binary64.Valid 0x6db6db6db6db6db6 ∧
    binary64.reordered 0x6db6db6db6db6db6 = 0x6db6db6db6db6db6 := by decide +kernel

/-- **C63** For the formats of `float`, `double` and `long double` and representations of up to
128 bits there is no such pattern that finishes: on a big-endian target no normal number is ever
converted to its value. -/
theorem C63_big_endian_never_right (hv : F.Valid b) (hb : F.Normal b) (hT : T.bits ≤ 128)
    (hF : F = binary32 ∨ F = binary64 ∨ F = extended80 ∨ F = binary128)
    (h : toFraction .big F T o b ⇓ r) : ¬ Denotes r (F.value b) := by
  rw [C63_big_endian_iff hv hb h]
  intro e
  rw [toFraction_big, e] at h
  have hn : ¬ F.NaN b := fun hn => by have := hb.2; have := hn.1; omega
  have hx : ¬ ((F.expField b : ℤ) - F.bias).natAbs ≥ T.bits := fun hx =>
    toFraction_fault_of_exponent hx hn ⟨r, _, h⟩
  have k := fixed_fields hv e
  have s2 : F.signField b < 2 := Nat.mod_lt _ (by decide)
  have s3 : (F.signField b : ℤ) = 0 ∨ (F.signField b : ℤ) = 1 := by omega
  have x0 : (0 : ℤ) < F.expField b := by have := hb.1; omega
  have x1 : (F.expField b : ℤ) < ((2 ^ F.exp - 1 : ℕ) : ℤ) := by exact_mod_cast hb.2
  have x2 : F.bias - 128 < F.expField b := by omega
  have x3 : (F.expField b : ℤ) < F.bias + 128 := by omega
  clear hx hn h e hb hv s2
  generalize (F.signField b : ℤ) = s at *
  generalize (F.expField b : ℤ) = x at *
  generalize (F.mantField b : ℤ) = m at *
  rcases hF with rfl | rfl | rfl | rfl <;>
    norm_num [Fmt.bias, binary32, binary64, extended80, binary128] at k x1 x2 x3
  · exact fixed_32 s3 x0 x1 k
  · exact fixed_64 s3 x2 x3 k
  · exact fixed_80 s3 x2 x3 k
  · exact fixed_128 s3 x2 x3 k

example : toFraction .big binary64 i64 .defaults (2 ^ 62 + 2047) ⇓ ⟨-5, 4⟩ ∧
    binary64.Normal (2 ^ 62 + 2047) ∧ binary64.Valid (2 ^ 62 + 2047) := by decide +kernel

/-- **C64** Two fractions hash equally whatever `std::hash` of the representation is exactly when
their parts are the same. -/
theorem C64_all_hashes_iff {z : ℕ} (hz : 3 ≤ z) :
    (∀ h : ℤ → BitVec z, Hash.fraction h f = Hash.fraction h g) ↔ f = g :=
  ⟨fun h => Hash.fraction_inj hz h, fun e h => by rw [e]⟩

example : Hash.fraction (fun n => if n = 2 then (1 : BitVec 64) else 0) ⟨1, 2⟩ ≠
    Hash.fraction (fun n => if n = 2 then 1 else 0) ⟨2, 4⟩ := by decide

/-- **C64** The same for mixed numbers. -/
theorem C64_all_mixed_hashes_iff {z : ℕ} (hz : 3 ≤ z) {m n : Mixed} :
    (∀ hw hf : ℤ → BitVec z, Hash.mixed hw hf m = Hash.mixed hw hf n) ↔ m = n :=
  ⟨fun h => Hash.mixed_inj hz h, fun e _ _ => by rw [e]⟩

example : Hash.mixed (fun _ => (0 : BitVec 64)) (fun n => if n = 2 then 1 else 0) ⟨3, ⟨1, 2⟩⟩ ≠
    Hash.mixed (fun _ => 0) (fun n => if n = 2 then 1 else 0) ⟨3, ⟨2, 4⟩⟩ := by decide

end Ieme
