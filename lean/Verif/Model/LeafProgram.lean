import Verif.Model.LeafSyntax
import Verif.Model.LeafText

/-!
# What the text of `hash.hpp`, `limits.hpp` and `fraction_literals.hpp` parses to

`Verif/Props/LeafText.lean` proves that parsing the text gives exactly this, so nothing here has to
be believed.
-/

namespace Ieme.Leaf

open Header

/-! ## `/repo/include/ieme/hash.hpp` -/

def C.hash_raw : Cls :=
  ⟨[N.«Rep»], N.«hash», (some (.app1 N.«raw_fraction» (.name N.«Rep»))), [], [], []⟩

def C.hash_fraction : Cls :=
  ⟨[N.«Rep», N.«Ops»], N.«hash», (some (.app2 N.«fraction» (.name N.«Rep») (.name N.«Ops»))), [],
    [], []⟩

def C.hash_mixed : Cls :=
  ⟨[N.«WRep», N.«FRep», N.«Ops»], N.«hash», (some (.app3 N.«mixed_number» (.name N.«WRep») (.name
    N.«FRep») (.name N.«Ops»))), [], [], []⟩

def F.hash_raw : Func :=
  ⟨[N.«Rep»], none, N.«hash», [((.app1 N.«raw_fraction» (.name N.«Rep»)), N.«value»)], (.name
    N.«std::size_t»), (.ret (.call2 N.«hash_combine» (.functor (.app1 N.«std::hash» (.name
    N.«Rep»)) (.fld (.var N.«value») N.«numerator»)) (.functor (.app1 N.«std::hash» (.name
    N.«Rep»)) (.fld (.var N.«value») N.«denominator»))))⟩

def F.hash_fraction : Func :=
  ⟨[N.«Rep», N.«Ops»], none, N.«hash», [((.app2 N.«fraction» (.name N.«Rep») (.name N.«Ops»)),
    N.«value»)], (.name N.«std::size_t»), (.ret (.call1 N.«hash» (.meth (.var N.«value»)
    N.«raw»)))⟩

def F.hash_mixed : Func :=
  ⟨[N.«WRep», N.«FRep», N.«Ops»], none, N.«hash», [((.app3 N.«mixed_number» (.name N.«WRep») (.name
    N.«FRep») (.name N.«Ops»)), N.«value»)], (.name N.«std::size_t»), (.ret (.call2
    N.«hash_combine» (.functor (.app1 N.«std::hash» (.name N.«WRep»)) (.meth (.var N.«value»)
    N.«whole»)) (.call1 N.«hash» (.meth (.var N.«value») N.«fractional»))))⟩

def F.hash_combine : Func :=
  ⟨[], none, N.«hash_combine», [((.name N.«std::size_t»), N.«left»), ((.name N.«std::size_t»),
    N.«right»)], (.name N.«std::size_t»), (.ret (.bin .xor (.var N.«left») (.bin .shl (.var
    N.«right») (.num 1))))⟩

def F.std_hash_raw : Func :=
  ⟨[N.«Rep»], (some (.app1 N.«hash» (.app1 N.«raw_fraction» (.name N.«Rep»)))), N.«operator()»,
    [((.app1 N.«raw_fraction» (.name N.«Rep»)), N.«value»)], (.name N.«size_t»), (.ret (.call1
    N.«hash» (.var N.«value»)))⟩

def F.std_hash_fraction : Func :=
  ⟨[N.«Rep», N.«Ops»], (some (.app1 N.«hash» (.app2 N.«fraction» (.name N.«Rep») (.name
    N.«Ops»)))), N.«operator()», [((.app2 N.«fraction» (.name N.«Rep») (.name N.«Ops»)),
    N.«value»)], (.name N.«size_t»), (.ret (.call1 N.«hash» (.var N.«value»)))⟩

def F.std_hash_mixed : Func :=
  ⟨[N.«WRep», N.«FRep», N.«Ops»], (some (.app1 N.«hash» (.app3 N.«mixed_number» (.name N.«WRep»)
    (.name N.«FRep») (.name N.«Ops»)))), N.«operator()», [((.app3 N.«mixed_number» (.name N.«WRep»)
    (.name N.«FRep») (.name N.«Ops»)), N.«value»)], (.name N.«size_t»), (.ret (.call1 N.«hash»
    (.var N.«value»)))⟩

/-! ## `/repo/include/ieme/limits.hpp` -/

def C.limits : Cls :=
  ⟨[N.«Rep», N.«Ops»], N.«limits», (some (.app2 N.«fraction» (.name N.«Rep») (.name N.«Ops»))),
    [(N.«rep_type», (.name N.«Rep»)), (N.«ops_type», (.name N.«Ops»)), (N.«fraction_type», (.app2
    N.«fraction» (.name N.«Rep») (.name N.«Ops»)))], [], []⟩

def C.limits_mixed : Cls :=
  ⟨[N.«Rep», N.«Ops»], N.«limits», (some (.app2 N.«mixed_number» (.name N.«Rep») (.name N.«Ops»))),
    [(N.«rep_type», (.name N.«Rep»)), (N.«ops_type», (.name N.«Ops»)), (N.«mixed_number_type»,
    (.app2 N.«mixed_number» (.name N.«Rep») (.name N.«Ops»))), (N.«fraction_type», (.mem (.name
    N.«mixed_number_type») N.«fraction_type»))], [], []⟩

def C.std : Cls :=
  ⟨[N.«Rep», N.«Ops»], N.«numeric_limits», (some (.app2 N.«fraction» (.name N.«Rep») (.name
    N.«Ops»))), [(N.«fraction_type», (.app2 N.«fraction» (.name N.«Rep») (.name N.«Ops»))),
    (N.«rep_limits_type», (.app1 N.«numeric_limits» (.name N.«Rep»)))], [(N.«is_specialized», (.var
    N.«true»)), (N.«is_signed», (.const (.name N.«rep_limits_type») N.«is_signed»)),
    (N.«is_integer», (.var N.«false»)), (N.«is_exact», (.var N.«true»)), (N.«has_infinity», (.var
    N.«false»)), (N.«has_quiet_NaN», (.var N.«true»)), (N.«has_signaling_NaN», (.var N.«false»)),
    (N.«has_denorm», (.var N.«denorm_indeterminate»)), (N.«has_denorm_loss», (.var N.«false»)),
    (N.«round_style», (.var N.«round_indeterminate»)), (N.«is_iec559», (.var N.«false»)),
    (N.«is_bounded», (.const (.name N.«rep_limits_type») N.«is_bounded»)), (N.«is_modulo», (.const
    (.name N.«rep_limits_type») N.«is_modulo»)), (N.«digits», (.const (.name N.«rep_limits_type»)
    N.«digits»)), (N.«digits10», (.const (.name N.«rep_limits_type») N.«digits10»)),
    (N.«max_digits10», (.const (.name N.«rep_limits_type») N.«max_digits10»)), (N.«radix», (.const
    (.name N.«rep_limits_type») N.«radix»)), (N.«min_exponent», (.const (.name N.«rep_limits_type»)
    N.«min_exponent»)), (N.«min_exponent10», (.const (.name N.«rep_limits_type»)
    N.«min_exponent10»)), (N.«max_exponent», (.const (.name N.«rep_limits_type»)
    N.«max_exponent»)), (N.«max_exponent10», (.const (.name N.«rep_limits_type»)
    N.«max_exponent10»)), (N.«traps», (.var N.«false»)), (N.«tinyness_before», (.const (.name
    N.«rep_limits_type») N.«tinyness_before»))], []⟩

def C.std_mixed : Cls :=
  ⟨[N.«Rep», N.«Ops»], N.«numeric_limits», (some (.app2 N.«mixed_number» (.name N.«Rep») (.name
    N.«Ops»))), [(N.«mixed_number_type», (.app2 N.«mixed_number» (.name N.«Rep») (.name N.«Ops»))),
    (N.«fraction_type», (.mem (.name N.«mixed_number_type») N.«fraction_type»)),
    (N.«fraction_limits_type», (.app1 N.«numeric_limits» (.name N.«fraction_type»)))],
    [(N.«is_specialized», (.const (.name N.«fraction_limits_type») N.«is_specialized»)),
    (N.«is_signed», (.const (.name N.«fraction_limits_type») N.«is_signed»)), (N.«is_integer»,
    (.const (.name N.«fraction_limits_type») N.«is_integer»)), (N.«is_exact», (.const (.name
    N.«fraction_limits_type») N.«is_exact»)), (N.«has_infinity», (.const (.name
    N.«fraction_limits_type») N.«has_infinity»)), (N.«has_quiet_», (.const (.name
    N.«fraction_limits_type») N.«has_quiet_»)), (N.«has_signaling_», (.const (.name
    N.«fraction_limits_type») N.«has_signaling_»)), (N.«has_denorm», (.const (.name
    N.«fraction_limits_type») N.«has_denorm»)), (N.«has_denorm_loss», (.const (.name
    N.«fraction_limits_type») N.«has_denorm_loss»)), (N.«round_style», (.const (.name
    N.«fraction_limits_type») N.«round_style»)), (N.«is_iec559», (.const (.name
    N.«fraction_limits_type») N.«is_iec559»)), (N.«is_bounded», (.const (.name
    N.«fraction_limits_type») N.«is_bounded»)), (N.«is_modulo», (.const (.name
    N.«fraction_limits_type») N.«is_modulo»)), (N.«digits», (.const (.name
    N.«fraction_limits_type») N.«digits»)), (N.«digits10», (.const (.name N.«fraction_limits_type»)
    N.«digits10»)), (N.«max_digits10», (.const (.name N.«fraction_limits_type») N.«max_digits10»)),
    (N.«radix», (.const (.name N.«fraction_limits_type») N.«radix»)), (N.«min_exponent», (.const
    (.name N.«fraction_limits_type») N.«min_exponent»)), (N.«min_exponent10», (.const (.name
    N.«fraction_limits_type») N.«min_exponent10»)), (N.«max_exponent», (.const (.name
    N.«fraction_limits_type») N.«max_exponent»)), (N.«max_exponent10», (.const (.name
    N.«fraction_limits_type») N.«max_exponent10»)), (N.«traps», (.const (.name
    N.«fraction_limits_type») N.«traps»)), (N.«tinyness_before», (.const (.name
    N.«fraction_limits_type») N.«tinyness_before»))], []⟩

def F.max : Func :=
  ⟨[N.«Rep», N.«Ops»], (some (.app1 N.«limits» (.app2 N.«fraction» (.name N.«Rep») (.name
    N.«Ops»)))), N.«max», [], (.name N.«fraction_type»), (.ret (.stat (.app1
    N.«std::numeric_limits» (.name N.«Rep»)) N.«max»))⟩

def F.min : Func :=
  ⟨[N.«Rep», N.«Ops»], (some (.app1 N.«limits» (.app2 N.«fraction» (.name N.«Rep») (.name
    N.«Ops»)))), N.«min», [], (.name N.«fraction_type»), (.ret (.stat (.app1
    N.«std::numeric_limits» (.name N.«Rep»)) N.«min»))⟩

def F.smallest : Func :=
  ⟨[N.«Rep», N.«Ops»], (some (.app1 N.«limits» (.app2 N.«fraction» (.name N.«Rep») (.name
    N.«Ops»)))), N.«smallest», [], (.name N.«fraction_type»), (.brace (.tmpl N.«_1» (.name
    N.«Rep»)) (.stat (.app1 N.«std::numeric_limits» (.name N.«Rep»)) N.«max»))⟩

def F.undefined : Func :=
  ⟨[N.«Rep», N.«Ops»], (some (.app1 N.«limits» (.app2 N.«fraction» (.name N.«Rep») (.name
    N.«Ops»)))), N.«undefined», [], (.name N.«fraction_type»), (.brace (.tmpl N.«_0» (.name
    N.«Rep»)) (.tmpl N.«_0» (.name N.«Rep»)))⟩

def F.mixed_max : Func :=
  ⟨[N.«Rep», N.«Ops»], (some (.app1 N.«limits» (.app2 N.«mixed_number» (.name N.«Rep») (.name
    N.«Ops»)))), N.«max», [], (.name N.«mixed_number_type»), (.ret (.stat (.app1 N.«limits» (.name
    N.«fraction_type»)) N.«max»))⟩

def F.mixed_min : Func :=
  ⟨[N.«Rep», N.«Ops»], (some (.app1 N.«limits» (.app2 N.«mixed_number» (.name N.«Rep») (.name
    N.«Ops»)))), N.«min», [], (.name N.«mixed_number_type»), (.ret (.stat (.app1 N.«limits» (.name
    N.«fraction_type»)) N.«min»))⟩

def F.mixed_smallest : Func :=
  ⟨[N.«Rep», N.«Ops»], (some (.app1 N.«limits» (.app2 N.«mixed_number» (.name N.«Rep») (.name
    N.«Ops»)))), N.«smallest», [], (.name N.«mixed_number_type»), (.ret (.stat (.app1 N.«limits»
    (.name N.«fraction_type»)) N.«smallest»))⟩

def F.mixed_undefined : Func :=
  ⟨[N.«Rep», N.«Ops»], (some (.app1 N.«limits» (.app2 N.«mixed_number» (.name N.«Rep») (.name
    N.«Ops»)))), N.«undefined», [], (.name N.«mixed_number_type»), (.ret (.stat (.app1 N.«limits»
    (.name N.«fraction_type»)) N.«undefined»))⟩

def F.std_min : Func :=
  ⟨[N.«Rep», N.«Ops»], (some (.app1 N.«numeric_limits» (.app2 N.«fraction» (.name N.«Rep») (.name
    N.«Ops»)))), N.«min», [], (.app2 N.«fraction» (.name N.«Rep») (.name N.«Ops»)), (.ret (.stat
    (.app1 N.«limits» (.app2 N.«fraction» (.name N.«Rep») (.name N.«Ops»))) N.«min»))⟩

def F.std_lowest : Func :=
  ⟨[N.«Rep», N.«Ops»], (some (.app1 N.«numeric_limits» (.app2 N.«fraction» (.name N.«Rep») (.name
    N.«Ops»)))), N.«lowest», [], (.app2 N.«fraction» (.name N.«Rep») (.name N.«Ops»)), (.ret (.stat
    (.app1 N.«limits» (.app2 N.«fraction» (.name N.«Rep») (.name N.«Ops»))) N.«min»))⟩

def F.std_max : Func :=
  ⟨[N.«Rep», N.«Ops»], (some (.app1 N.«numeric_limits» (.app2 N.«fraction» (.name N.«Rep») (.name
    N.«Ops»)))), N.«max», [], (.app2 N.«fraction» (.name N.«Rep») (.name N.«Ops»)), (.ret (.stat
    (.app1 N.«limits» (.app2 N.«fraction» (.name N.«Rep») (.name N.«Ops»))) N.«max»))⟩

def F.std_epsilon : Func :=
  ⟨[N.«Rep», N.«Ops»], (some (.app1 N.«numeric_limits» (.app2 N.«fraction» (.name N.«Rep») (.name
    N.«Ops»)))), N.«epsilon», [], (.app2 N.«fraction» (.name N.«Rep») (.name N.«Ops»)), (.ret
    (.stat (.app1 N.«limits» (.app2 N.«fraction» (.name N.«Rep») (.name N.«Ops»))) N.«smallest»))⟩

def F.std_round_error : Func :=
  ⟨[N.«Rep», N.«Ops»], (some (.app1 N.«numeric_limits» (.app2 N.«fraction» (.name N.«Rep») (.name
    N.«Ops»)))), N.«round_error», [], (.app2 N.«fraction» (.name N.«Rep») (.name N.«Ops»)), (.ret
    (.stat (.name N.«rep_limits_type») N.«round_error»))⟩

def F.std_infinity : Func :=
  ⟨[N.«Rep», N.«Ops»], (some (.app1 N.«numeric_limits» (.app2 N.«fraction» (.name N.«Rep») (.name
    N.«Ops»)))), N.«infinity», [], (.app2 N.«fraction» (.name N.«Rep») (.name N.«Ops»)), (.ret
    (.stat (.name N.«rep_limits_type») N.«infinity»))⟩

def F.std_quiet_NaN : Func :=
  ⟨[N.«Rep», N.«Ops»], (some (.app1 N.«numeric_limits» (.app2 N.«fraction» (.name N.«Rep») (.name
    N.«Ops»)))), N.«quiet_NaN», [], (.app2 N.«fraction» (.name N.«Rep») (.name N.«Ops»)), (.ret
    (.stat (.app1 N.«limits» (.app2 N.«fraction» (.name N.«Rep») (.name N.«Ops»))) N.«undefined»))⟩

def F.std_signaling_NaN : Func :=
  ⟨[N.«Rep», N.«Ops»], (some (.app1 N.«numeric_limits» (.app2 N.«fraction» (.name N.«Rep») (.name
    N.«Ops»)))), N.«signaling_NaN», [], (.app2 N.«fraction» (.name N.«Rep») (.name N.«Ops»)), (.ret
    (.stat (.name N.«rep_limits_type») N.«signaling_NaN»))⟩

def F.std_denorm_min : Func :=
  ⟨[N.«Rep», N.«Ops»], (some (.app1 N.«numeric_limits» (.app2 N.«fraction» (.name N.«Rep») (.name
    N.«Ops»)))), N.«denorm_min», [], (.app2 N.«fraction» (.name N.«Rep») (.name N.«Ops»)), (.ret
    (.stat (.name N.«rep_limits_type») N.«denorm_min»))⟩

def F.std_mixed_min : Func :=
  ⟨[N.«Rep», N.«Ops»], (some (.app1 N.«numeric_limits» (.app2 N.«mixed_number» (.name N.«Rep»)
    (.name N.«Ops»)))), N.«min», [], (.app2 N.«mixed_number» (.name N.«Rep») (.name N.«Ops»)),
    (.ret (.stat (.app1 N.«limits» (.app2 N.«mixed_number» (.name N.«Rep») (.name N.«Ops»)))
    N.«min»))⟩

def F.std_mixed_lowest : Func :=
  ⟨[N.«Rep», N.«Ops»], (some (.app1 N.«numeric_limits» (.app2 N.«mixed_number» (.name N.«Rep»)
    (.name N.«Ops»)))), N.«lowest», [], (.app2 N.«mixed_number» (.name N.«Rep») (.name N.«Ops»)),
    (.ret (.stat (.app1 N.«limits» (.app2 N.«mixed_number» (.name N.«Rep») (.name N.«Ops»)))
    N.«min»))⟩

def F.std_mixed_max : Func :=
  ⟨[N.«Rep», N.«Ops»], (some (.app1 N.«numeric_limits» (.app2 N.«mixed_number» (.name N.«Rep»)
    (.name N.«Ops»)))), N.«max», [], (.app2 N.«mixed_number» (.name N.«Rep») (.name N.«Ops»)),
    (.ret (.stat (.app1 N.«limits» (.app2 N.«mixed_number» (.name N.«Rep») (.name N.«Ops»)))
    N.«max»))⟩

def F.std_mixed_epsilon : Func :=
  ⟨[N.«Rep», N.«Ops»], (some (.app1 N.«numeric_limits» (.app2 N.«mixed_number» (.name N.«Rep»)
    (.name N.«Ops»)))), N.«epsilon», [], (.app2 N.«mixed_number» (.name N.«Rep») (.name N.«Ops»)),
    (.ret (.stat (.app1 N.«limits» (.app2 N.«mixed_number» (.name N.«Rep») (.name N.«Ops»)))
    N.«smallest»))⟩

def F.std_mixed_round_error : Func :=
  ⟨[N.«Rep», N.«Ops»], (some (.app1 N.«numeric_limits» (.app2 N.«mixed_number» (.name N.«Rep»)
    (.name N.«Ops»)))), N.«round_error», [], (.app2 N.«mixed_number» (.name N.«Rep») (.name
    N.«Ops»)), (.ret (.stat (.name N.«fraction_limits_type») N.«round_error»))⟩

def F.std_mixed_infinity : Func :=
  ⟨[N.«Rep», N.«Ops»], (some (.app1 N.«numeric_limits» (.app2 N.«mixed_number» (.name N.«Rep»)
    (.name N.«Ops»)))), N.«infinity», [], (.app2 N.«mixed_number» (.name N.«Rep») (.name N.«Ops»)),
    (.ret (.stat (.name N.«fraction_limits_type») N.«infinity»))⟩

def F.std_mixed_quiet_NaN : Func :=
  ⟨[N.«Rep», N.«Ops»], (some (.app1 N.«numeric_limits» (.app2 N.«mixed_number» (.name N.«Rep»)
    (.name N.«Ops»)))), N.«quiet_NaN», [], (.app2 N.«mixed_number» (.name N.«Rep») (.name
    N.«Ops»)), (.ret (.stat (.app1 N.«limits» (.app2 N.«mixed_number» (.name N.«Rep») (.name
    N.«Ops»))) N.«undefined»))⟩

def F.std_mixed_signaling_NaN : Func :=
  ⟨[N.«Rep», N.«Ops»], (some (.app1 N.«numeric_limits» (.app2 N.«mixed_number» (.name N.«Rep»)
    (.name N.«Ops»)))), N.«signaling_NaN», [], (.app2 N.«mixed_number» (.name N.«Rep») (.name
    N.«Ops»)), (.ret (.stat (.name N.«fraction_limits_type») N.«signaling_NaN»))⟩

def F.std_mixed_denorm_min : Func :=
  ⟨[N.«Rep», N.«Ops»], (some (.app1 N.«numeric_limits» (.app2 N.«mixed_number» (.name N.«Rep»)
    (.name N.«Ops»)))), N.«denorm_min», [], (.app2 N.«mixed_number» (.name N.«Rep») (.name
    N.«Ops»)), (.ret (.stat (.name N.«fraction_limits_type») N.«denorm_min»))⟩

/-! ## `/repo/include/ieme/fraction_literals.hpp:16-53` -/

def C.literal : Cls :=
  ⟨[N.«IsSigned», N.«Ops»], N.«denominator_literal», none, [(N.«value_type», (.app3
    N.«std::conditional_t» (.name N.«IsSigned») (.name N.«long::long::int») (.name
    N.«unsigned::long::long::int»))), (N.«ops_type», (.name N.«Ops»))], [(N.«is_signed», (.var
    N.«IsSigned»))], [(N.«value_», (.name N.«value_type»))]⟩

def F.literal_value : Func :=
  ⟨[N.«IsSigned», N.«Ops»], (some (.app2 N.«denominator_literal» (.name N.«IsSigned») (.name
    N.«Ops»))), N.«value», [], (.name N.«value_type»), (.ret (.var N.«value_»))⟩

/-! ## `/repo/include/ieme/fraction_literals.hpp:63-104` -/

def F.literal : Func :=
  ⟨[N.«IsSigned», N.«Ops»], (some (.app2 N.«denominator_literal» (.name N.«IsSigned») (.name
    N.«Ops»))), N.«denominator_literal», [((.name N.«value_type»), N.«value»)], (.app2
    N.«denominator_literal» (.name N.«IsSigned») (.name N.«Ops»)), (.init N.«value_» (.var
    N.«value»))⟩

def F.fr : Func :=
  ⟨[], none, N.«_fr», [((.name N.«unsigned::long::long::int»), N.«value»)], (.app1
    N.«denominator_literal» (.name N.«false»)), (.ret (.var N.«value»))⟩

def F.literal_pos : Func :=
  ⟨[N.«IsSigned», N.«Ops»], none, N.«operator+», [((.app2 N.«denominator_literal» (.name
    N.«IsSigned») (.name N.«Ops»)), N.«value»)], (.app2 N.«denominator_literal» (.name
    N.«IsSigned») (.name N.«Ops»)), (.ret (.var N.«value»))⟩

def F.literal_neg : Func :=
  ⟨[N.«IsSigned», N.«Ops»], none, N.«operator-», [((.app2 N.«denominator_literal» (.name
    N.«IsSigned») (.name N.«Ops»)), N.«value»)], (.app2 N.«denominator_literal» (.name N.«true»)
    (.name N.«Ops»)), (.ret (.neg (.cast (.mem (.app2 N.«denominator_literal» (.name N.«true»)
    (.name N.«Ops»)) N.«value_type») (.meth (.var N.«value») N.«value»))))⟩

def F.div_fraction : Func :=
  ⟨[N.«IsSigned», N.«Rep», N.«Ops»], none, N.«operator/», [((.app2 N.«fraction» (.name N.«Rep»)
    (.name N.«Ops»)), N.«left»), ((.app2 N.«denominator_literal» (.name N.«IsSigned») (.name
    N.«Ops»)), N.«right»)], (.app2 N.«fraction» (.name N.«Rep») (.name N.«Ops»)), (.ret (.bin .div
    (.var N.«left») (.cast (.name N.«Rep») (.meth (.var N.«right») N.«value»))))⟩

def F.div_rep : Func :=
  ⟨[N.«IsSigned», N.«Rep», N.«Ops»], none, N.«operator/», [((.name N.«Rep»), N.«left»), ((.app2
    N.«denominator_literal» (.name N.«IsSigned») (.name N.«Ops»)), N.«right»)], (.app2 N.«fraction»
    (.name N.«Rep») (.name N.«Ops»)), (.brace (.var N.«left») (.cast (.name N.«Rep») (.meth (.var
    N.«right») N.«value»)))⟩

/-! ## The programs -/

/-- What `/repo/include/ieme/hash.hpp` parses to. -/
def Prog.hash : Program :=
  ⟨[C.hash_raw, C.hash_fraction, C.hash_mixed], [F.hash_raw, F.hash_fraction, F.hash_mixed,
    F.hash_combine, F.std_hash_raw, F.std_hash_fraction, F.std_hash_mixed]⟩

/-- What `/repo/include/ieme/limits.hpp` parses to. -/
def Prog.limits : Program :=
  ⟨[C.limits, C.limits_mixed, C.std, C.std_mixed], [F.max, F.min, F.smallest, F.undefined,
    F.mixed_max, F.mixed_min, F.mixed_smallest, F.mixed_undefined, F.std_min, F.std_lowest,
    F.std_max, F.std_epsilon, F.std_round_error, F.std_infinity, F.std_quiet_NaN,
    F.std_signaling_NaN, F.std_denorm_min, F.std_mixed_min, F.std_mixed_lowest, F.std_mixed_max,
    F.std_mixed_epsilon, F.std_mixed_round_error, F.std_mixed_infinity, F.std_mixed_quiet_NaN,
    F.std_mixed_signaling_NaN, F.std_mixed_denorm_min]⟩

/-- What `/repo/include/ieme/fraction_literals.hpp:16-53` parses to. -/
def Prog.literalNames : Program :=
  ⟨[C.literal], [F.literal_value]⟩

/-- What `/repo/include/ieme/fraction_literals.hpp:63-104` parses to. -/
def Prog.literals : Program :=
  ⟨[], [F.literal, F.fr, F.literal_pos, F.literal_neg, F.div_fraction, F.div_rep]⟩

/-- The three headers. -/
def leaf : Program :=
  ((Prog.hash.append Prog.limits).append Prog.literalNames).append Prog.literals

end Ieme.Leaf
