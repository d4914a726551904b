import Verif.Lemmas.ParseCase
import Verif.Props.Parse

/-!
# More about literals: properties C82 and C83
-/

namespace Ieme

open Res IntTy Lit Parse

variable {T : IntTy} {o : Ops} {s : List Char} {r r' : Raw}

/-- **C82** Writing a literal in lower case (prefix, digits, exponent marker) leaves it a
literal and gives the same outcome, whatever the type and policy. -/
theorem C82_case_irrelevant (hs : IsPointedFloatLit s) :
    IsPointedFloatLit (lower s) ∧ toFraction T o (lower s) = toFraction T o s := by
  obtain ⟨l, hv, hp, rfl⟩ := hs
  exact ⟨⟨lowerLit l, lowerLit_valid hv, hp, lowerLit_render l⟩, toFraction_lower hv hp⟩

example : IsPointedFloatLit "0xC.8P+4".toList ∧ lower "0xC.8P+4".toList = "0xc.8p+4".toList ∧
    toFraction i32 .defaults "0xC.8P+4".toList ⇓ ⟨200, 1⟩ ∧
    toFraction i32 .defaults "0xc.8p+4".toList ⇓ ⟨200, 1⟩ :=
  ⟨⟨exampleHexLit, exampleHexLit_valid, rfl, by decide⟩, by decide, by decide +kernel,
    by decide +kernel⟩

/-- **C83, partial.**  Full claim: zeros before the whole part and after the fraction of a
literal make no difference.  Proved: the literal stays a literal, and if both conversions
finish cleanly the values agree.  Missing (false in the code, see `C83_zeros_overflow`): that
the longer literal is converted whenever the shorter one is. -/
theorem C83_zeros_same_value_partial {l : FloatLit} (hv : l.Valid) (hp : l.point = true)
    (m n : ℕ) :
    let l' := l.pad m n
    IsPointedFloatLit l'.render ∧
    (toFraction T o l.render ⇓ r → toFraction T o l'.render ⇓ r' → SameValue r r') := by
  intro l'
  have hv' : l'.Valid := padLit_valid hv hp m n
  refine ⟨⟨l', hv', hp, rfl⟩, fun h h' => ⟨l.value, C53_value_exact hv hp h, ?_⟩⟩
  rw [← padLit_value l m n]
  exact C53_value_exact hv' hp h'

/-- **C83, refuted in general.**  `1.5` is converted, but with nine zeros before it, or ten
behind it, the conversion overflows. -/
theorem C83_zeros_overflow :
    toFraction i32 .defaults "1.5".toList ⇓ ⟨3, 2⟩ ∧
    toFraction i32 .defaults "0000000001.5".toList = .fault .overflow ∧
    toFraction i32 .defaults "1.50000000000".toList = .fault .overflow := by decide +kernel

example : exampleLit.Valid ∧ exampleLit.point = true ∧
    (exampleLit.pad 2 1).render =
      "004'9.3'90e-1'0".toList ∧
    toFraction i64 .defaults "4'9.3'9e-1'0".toList ⇓ ⟨4939, 1000000000000⟩ ∧
    toFraction i64 .defaults "004'9.3'90e-1'0".toList ⇓ ⟨4939, 1000000000000⟩ :=
  ⟨exampleLit_valid, rfl, by decide, by decide +kernel, by decide +kernel⟩

end Ieme
