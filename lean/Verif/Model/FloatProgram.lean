import Verif.Model.ScanProgram
import Verif.Model.FloatingPoint

/-!
# What the text of `floating_point.hpp` parses to

As `Verif/Model/ScanProgram.lean`.  `B.fields_0` is the body of the lambda expression in
`/repo/include/ieme/floating_point.hpp:142-185`.
-/

namespace Ieme.Script

open Header

/-! ## `/repo/include/ieme/floating_point.hpp:57-89` -/

def B.toFraction32_0 : Stm :=
  .ret (.call N.«floating_point_to_fraction» [(.name N.«Rep»), (.name N.«Ops»), (.name N.«float»),
    (.name N.«uint32_t»), (.lit 23), (.lit 8)] (.cons (.var N.«value») .nil)) .nil

def F.toFraction32 : Func :=
  ⟨N.«to_fraction», [N.«Rep», N.«Ops»], [⟨(.name N.«float»), N.«value»⟩], (.app2 N.«fraction»
    (.name N.«Rep») (.name N.«Ops»)), B.toFraction32_0⟩

def B.toFraction64_0 : Stm :=
  .ret (.call N.«floating_point_to_fraction» [(.name N.«Rep»), (.name N.«Ops»), (.name N.«double»),
    (.name N.«uint64_t»), (.lit 52), (.lit 11)] (.cons (.var N.«value») .nil)) .nil

def F.toFraction64 : Func :=
  ⟨N.«to_fraction», [N.«Rep», N.«Ops»], [⟨(.name N.«double»), N.«value»⟩], (.app2 N.«fraction»
    (.name N.«Rep») (.name N.«Ops»)), B.toFraction64_0⟩

def B.toFloat_0 : Stm :=
  .ret (.call N.«fraction_to_floating_point» [(.name N.«float»)] (.cons (.var N.«value») .nil))
    .nil

def F.toFloat : Func :=
  ⟨N.«to_float», [N.«Rep», N.«Ops»], [⟨(.app2 N.«fraction» (.name N.«Rep») (.name N.«Ops»)),
    N.«value»⟩], (.name N.«float»), B.toFloat_0⟩

def B.toDouble_0 : Stm :=
  .ret (.call N.«fraction_to_floating_point» [(.name N.«double»)] (.cons (.var N.«value») .nil))
    .nil

def F.toDouble : Func :=
  ⟨N.«to_double», [N.«Rep», N.«Ops»], [⟨(.app2 N.«fraction» (.name N.«Rep») (.name N.«Ops»)),
    N.«value»⟩], (.name N.«double»), B.toDouble_0⟩

def B.toLongDouble_0 : Stm :=
  .ret (.call N.«fraction_to_floating_point» [(.name N.«long::double»)] (.cons (.var N.«value»)
    .nil)) .nil

def F.toLongDouble : Func :=
  ⟨N.«to_long_double», [N.«Rep», N.«Ops»], [⟨(.app2 N.«fraction» (.name N.«Rep») (.name N.«Ops»)),
    N.«value»⟩], (.name N.«long::double»), B.toLongDouble_0⟩

/-! ## `/repo/include/ieme/floating_point.hpp:131-219` -/

def B.fields_7 : Stm :=
  .ret (.call N.«std::make_tuple» [] (.cons (.call N.«extract_bit_field» [] (.cons (.fld (.var
    N.«offsets») N.«sign_bit») (.cons (.var N.«num_sign_bits») .nil))) (.cons (.call
    N.«extract_bit_field» [] (.cons (.fld (.var N.«offsets») N.«exponent_bits») (.cons (.var
    N.«num_exponent_bits») .nil))) (.cons (.call N.«extract_bit_field» [] (.cons (.fld (.var
    N.«offsets») N.«mantissa_bits») (.cons (.var N.«num_mantissa_bits») .nil))) .nil)))) .nil

def B.fields_6 : Stm :=
  .constant N.«offsets» (.nowR (.name N.«bitfield_offsets») (.switch (.var N.«std::endian::native»)
    (.case (.var N.«std::endian::little») (.retBrace (.cons (.bin .add (.var N.«num_mantissa_bits»)
    (.var N.«num_exponent_bits»)) (.cons (.var N.«num_mantissa_bits») (.cons (.call N.«_0» [(.name
    N.«UintRep»)] .nil) .nil))) (.case (.var N.«std::endian::big») (.retBrace (.cons (.call N.«_0»
    [(.name N.«UintRep»)] .nil) (.cons (.var N.«num_sign_bits») (.cons (.bin .add (.var
    N.«num_sign_bits») (.var N.«num_exponent_bits»)) .nil))) .nil)))) .nil)) B.fields_7

def B.fields_5 : Stm :=
  .strct N.«bitfield_offsets» [⟨(.name N.«UintRep»), N.«sign_bit»⟩, ⟨(.name N.«UintRep»),
    N.«exponent_bits»⟩, ⟨(.name N.«UintRep»), N.«mantissa_bits»⟩] B.fields_6

def B.fields_4 : Stm :=
  .constant N.«num_mantissa_bits» (.call N.«number» [(.name N.«NumMantissaBits»), (.name
    N.«UintRep»)] .nil) B.fields_5

def B.fields_3 : Stm :=
  .constant N.«num_exponent_bits» (.call N.«number» [(.name N.«NumExponentBits»), (.name
    N.«UintRep»)] .nil) B.fields_4

def B.fields_2 : Stm :=
  .constant N.«num_sign_bits» (.call N.«_1» [(.name N.«UintRep»)] .nil) B.fields_3

def B.fields_1 : Stm :=
  .decl N.«extract_bit_field» (.lamP [⟨(.name N.«UintRep»), N.«offset»⟩, ⟨(.name N.«UintRep»),
    N.«size»⟩] (some (.name N.«UintRep»)) (.ret (.band (.shr (.var N.«as_uint_rep») (.var
    N.«offset»)) (.call N.«make_repeating_1s» [] (.cons (.var N.«size») .nil))) .nil)) B.fields_2

def B.fields_0 : Stm :=
  .decl N.«as_uint_rep» (.now (.zero N.«UintRep» N.«result» (.copy N.«result» N.«value» N.«Float»
    (.ret (.var N.«result») .nil)))) B.fields_1

def B.ofBits_10 : Stm :=
  .ret (.bin .mul (.bin .mul (.var N.«sign») (.var N.«mantissa»)) (.call N.«pow2» [(.name N.«Rep»),
    (.name N.«Ops»)] (.cons (.var N.«exponent») .nil))) .nil

def B.ofBits_9 : Stm :=
  .decl N.«mantissa» (.bin .add (.call N.«_1» [(.name N.«Rep»)] .nil) (.var N.«mantissa_fraction»))
    B.ofBits_10

def B.ofBits_8 : Stm :=
  .decl N.«mantissa_fraction» (.call N.«fraction» [(.name N.«Rep»), (.name N.«Ops»)] (.cons (.var
    N.«mantissa_fraction_numerator») (.cons (.var N.«mantissa_fraction_denominator») .nil)))
    B.ofBits_9

def B.ofBits_7 : Stm :=
  .decl N.«mantissa_fraction_numerator» (.cast (.name N.«Rep») (.var N.«mantissa_part»)) B.ofBits_8

def B.ofBits_6 : Stm :=
  .constant N.«mantissa_fraction_denominator» (.call N.«math_utilities::pow2» [] (.cons (.call
    N.«number» [(.name N.«NumMantissaBits»), (.name N.«Rep»)] .nil) .nil)) B.ofBits_7

def B.ofBits_5 : Stm :=
  .decl N.«exponent» (.bin .sub (.cast (.name N.«int») (.var N.«exponent_part»)) (.var
    N.«exponent_bias»)) B.ofBits_6

def B.ofBits_4 : Stm :=
  .constant N.«exponent_bias» (.bin .sub (.call N.«math_utilities::pow2» [] (.cons (.bin .sub
    (.call N.«number» [(.name N.«NumExponentBits»), (.name N.«int»)] .nil) (.num 1)) .nil)) (.num
    1)) B.ofBits_5

def B.ofBits_3 : Stm :=
  .decl N.«sign» (.cond (.bin .eq (.var N.«sign_part») (.call N.«_0» [(.name N.«UintRep»)] .nil))
    (.call N.«_1» [(.name N.«Rep»)] .nil) (.un .neg (.call N.«_1» [(.name N.«Rep»)] .nil)))
    B.ofBits_4

def B.ofBits_2 : Stm :=
  .iteInit N.«is_NaN» (.bin .and (.bin .eq (.var N.«exponent_part») (.call N.«make_repeating_1s» []
    (.cons (.var N.«NumExponentBits») .nil))) (.bin .ne (.var N.«mantissa_part») (.call N.«_0»
    [(.name N.«UintRep»)] .nil))) (.var N.«is_NaN») (.ret (.call N.«limits::undefined» [(.app2
    N.«fraction» (.name N.«Rep») (.name N.«Ops»))] .nil) .nil) B.ofBits_3

def B.ofBits_1 : Stm :=
  .decl3 N.«sign_part» N.«exponent_part» N.«mantissa_part» (.now B.fields_0) B.ofBits_2

def B.ofBits_0 : Stm :=
  .decl N.«make_repeating_1s» (.lamP [⟨(.name N.«UintRep»), N.«count»⟩] none (.ret (.bin .sub (.bin
    .shl (.call N.«_1» [(.name N.«UintRep»)] .nil) (.var N.«count»)) (.call N.«_1» [(.name
    N.«UintRep»)] .nil)) .nil)) B.ofBits_1

def F.ofBits : Func :=
  ⟨N.«floating_point_to_fraction», [N.«Rep», N.«Ops», N.«Float», N.«UintRep», N.«NumMantissaBits»,
    N.«NumExponentBits»], [⟨(.name N.«Float»), N.«value»⟩], (.app2 N.«fraction» (.name N.«Rep»)
    (.name N.«Ops»)), B.ofBits_0⟩

def B.toBits_1 : Stm :=
  .ret (.bin .div (.cast (.name N.«Float») (.meth (.var N.«reduced») N.«num» .nil)) (.cast (.name
    N.«Float») (.meth (.var N.«reduced») N.«den» .nil))) .nil

def B.toBits_0 : Stm :=
  .decl N.«reduced» (.call N.«reduce» [] (.cons (.var N.«value») .nil)) B.toBits_1

def F.toBits : Func :=
  ⟨N.«fraction_to_floating_point», [N.«Float», N.«Rep», N.«Ops»], [⟨(.app2 N.«fraction» (.name
    N.«Rep») (.name N.«Ops»)), N.«value»⟩], (.name N.«Float»), B.toBits_0⟩

/-! ## The programs -/

/-- What `/repo/include/ieme/floating_point.hpp:57-89` parses to. -/
def Prog.floatNames : Program :=
  ⟨[F.toFraction32, F.toFraction64, F.toFloat, F.toDouble, F.toLongDouble], [], [], [], []⟩

/-- What `/repo/include/ieme/floating_point.hpp:131-219` parses to. -/
def Prog.floatFields : Program :=
  ⟨[F.ofBits, F.toBits], [], [], [], []⟩

/-- What `/repo/include/ieme/floating_point.hpp` takes from the platform: the byte order
(`FloatingPoint.Endian.mixed` is any other than the two that have names) and the types.  A
floating-point type is represented by its size in bytes; `long` is that of `long double`. -/
def platform (order : FloatingPoint.Endian) (long : Nat) : Program :=
  ⟨[], [], [(N.«std::endian», [N.«little», N.«big», N.«native»])],
    [(N.«std::endian::native», N.«std::endian», match order with
      | .little => N.«little»
      | .big => N.«big»
      | .mixed => N.«native»)],
    [(N.«float», .num 4), (N.«double», .num 8), (N.«long::double», .num long),
      (N.«uint32_t», .int u32), (N.«uint64_t», .int u64)]⟩

/-- The functions of `/repo/include/ieme/floating_point.hpp` that do not parse strings. -/
def floats (order : FloatingPoint.Endian) (long : Nat) : Program :=
  (Prog.floatNames.append Prog.floatFields).append (platform order long)

end Ieme.Script
