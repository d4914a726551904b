import Verif.Lemmas.LeafText
import Verif.Spec.LeafText
import Verif.Props.ExactThird
import Verif.Props.Hash
import Verif.Props.Limits

/-!
# C148: the models of hashing, limits and denominator literals compute what their text says

`Leaf.Text` in `Verif/Model/LeafText.lean` is the text of `/repo/include/ieme/hash.hpp`, of
`/repo/include/ieme/limits.hpp`, and of `/repo/include/ieme/fraction_literals.hpp` without `_dec`
(for which see C146).
-/

namespace Ieme

open Leaf
open Header hiding Ty Func Cls Program Env Expr eval run invoke applyTy builtinTy memberTy selfTy
  binary choose fit parse

variable {z : ℕ} {h : IntTy → ℤ → BitVec z} {T W F : IntTy} {o : Ops}

/-- **C148** Parsing the text gives the program that the other theorems are about. -/
theorem C148_text :
    Leaf.parse Leaf.Text.hash = some Leaf.Prog.hash ∧
    Leaf.parse Leaf.Text.limits = some Leaf.Prog.limits ∧
    Leaf.parse Leaf.Text.literalNames = some Leaf.Prog.literalNames ∧
    Leaf.parse Leaf.Text.literals = some Leaf.Prog.literals ∧
    leaf.classes = Leaf.Prog.hash.classes ++ Leaf.Prog.limits.classes ++
      Leaf.Prog.literalNames.classes ++ Leaf.Prog.literals.classes ∧
    leaf.funcs = Leaf.Prog.hash.funcs ++ Leaf.Prog.limits.funcs ++
      Leaf.Prog.literalNames.funcs ++ Leaf.Prog.literals.funcs := by
  refine ⟨?_, ?_, ?_, ?_, ?_, ?_⟩ <;> decide +kernel

/-- Another text gives another program. -/
example : Leaf.parse ["template <typename Rep>", "constexpr std::size_t",
      "f(Rep const& value) noexcept", "{", "  return (value << 2) ^ value;", "}"] =
    some ⟨[], [⟨[N.«Rep»], none, 102, [(.name N.«Rep», N.«value»)], .name N.«std::size_t»,
      .ret (.bin .xor (.bin .shl (.var N.«value») (.num 2)) (.var N.«value»))⟩]⟩ := by
  decide +kernel

/-- **C148** `hash_combine`, `hash` and the specialisations of `std::hash`. -/
theorem C148_hash (hz : 2 ≤ z) (x y : BitVec z) (f : Raw) (m : Mixed) :
    Gives h (.free N.«hash_combine» [.size x, .size y]) (pure (.size (Hash.combine x y))) ∧
    (∀ v ∈ [.raw T f, .frac T o f], Gives h (hashOf v) (pure (.size (Hash.fraction (h T) f))) ∧
      Gives h (stdHashOf v) (pure (.size (Hash.fraction (h T) f)))) ∧
    Gives h (hashOf (.mixed W F o m)) (pure (.size (Hash.mixed (h W) (h F) m))) ∧
    Gives h (stdHashOf (.mixed W F o m)) (pure (.size (Hash.mixed (h W) (h F) m))) := by
  refine ⟨⟨_, fun n hn => combine_ok hz hn x y⟩, ?_, ⟨_, fun n hn => hash_mixed_ok hz hn W F o m⟩,
    ⟨_, fun n hn => std_hash_mixed_ok hz hn W F o m⟩⟩
  simp only [List.forall_mem_cons, List.not_mem_nil, IsEmpty.forall_iff, implies_true, and_true]
  exact ⟨⟨⟨_, fun n hn => hash_raw_ok hz hn T f⟩, ⟨_, fun n hn => std_hash_raw_ok hz hn T f⟩⟩,
    ⟨_, fun n hn => hash_fraction_ok hz hn T o f⟩, ⟨_, fun n hn => std_hash_fraction_ok hz hn T o f⟩⟩

/-- The hash of 7 5/3 where `std::hash` is the identity: 7 ^ ((5 ^ (3 << 1)) << 1). -/
example : Leaf.invoke leaf (fun _ => Hash.stdHash 64) 20
    (hashOf (.mixed i32 i64 .fast ⟨7, ⟨5, 3⟩⟩)) = pure (.size 1) := by decide +kernel

/-- **C148** The functions of `ieme::limits` and of `std::numeric_limits` of a fraction. -/
theorem C148_limits :
    (∀ e ∈ limitTable T, Gives h (limitOf (.frac T o) e.1) (pure (Leaf.fractionValue T o e.2))) ∧
    (∀ e ∈ stdLimitTable T,
      Gives h (stdLimitOf (.frac T o) e.1) (pure (Leaf.fractionValue T o e.2))) := by
  simp only [limitTable, stdLimitTable, List.forall_mem_cons, List.not_mem_nil, IsEmpty.forall_iff,
    implies_true, and_true]
  exact ⟨⟨⟨_, fun n hn => max_ok hn T o⟩, ⟨_, fun n hn => min_ok hn T o⟩,
      ⟨_, fun n hn => smallest_ok hn T o⟩, ⟨_, fun n hn => undefined_ok hn T o⟩⟩,
    ⟨_, fun n hn => std_min_ok hn T o⟩, ⟨_, fun n hn => std_lowest_ok hn T o⟩,
    ⟨_, fun n hn => std_max_ok hn T o⟩, ⟨_, fun n hn => std_epsilon_ok hn T o⟩,
    ⟨_, fun n hn => std_round_error_ok hn T o⟩, ⟨_, fun n hn => std_infinity_ok hn T o⟩,
    ⟨_, fun n hn => std_quiet_NaN_ok hn T o⟩, ⟨_, fun n hn => std_signaling_NaN_ok hn T o⟩,
    ⟨_, fun n hn => std_denorm_min_ok hn T o⟩⟩

/-- `limits<fraction<int, fast>>::smallest()` and `numeric_limits<fraction<unsigned>>::lowest()` -/
example : Leaf.invoke leaf (fun _ => Hash.stdHash 64) 20 (limitOf (.frac i32 .fast) N.«smallest») =
      pure (Leaf.fractionValue i32 .fast ⟨1, 2147483647⟩) ∧
    Leaf.invoke leaf (fun _ => Hash.stdHash 64) 20 (stdLimitOf (.frac u32 .safe) N.«lowest») =
      pure (Leaf.fractionValue u32 .safe ⟨0, 1⟩) := by decide +kernel

/-- **C148** The constants of `std::numeric_limits` of a fraction. -/
theorem C148_constants :
    (∀ e ∈ traitTable (Limits.traits T), Gives h (stdConstOf (.frac T o) e.1) (pure e.2)) ∧
    (∀ e ∈ otherTable, Gives h (stdConstOf (.frac T o) e.1) (pure e.2)) := by
  simp only [traitTable, otherTable, List.forall_mem_cons, List.not_mem_nil, IsEmpty.forall_iff,
    implies_true, and_true]
  have a {x y : ℕ} {t : Leaf.Ty} {v : LV z} (h1 h2 h3) : Gives h (stdConstOf (.frac T o) x) (pure v) :=
    ⟨1, fun n hn => std_const_ok (h := h) hn T o (x := x) (t := t) (y := y) (v := v) h1 h2 h3⟩
  have b {x y : ℕ} {v : LV z} (h1 h2) : Gives h (stdConstOf (.frac T o) x) (pure v) :=
    ⟨1, fun n hn => std_const_var_ok (h := h) hn T o (x := x) (y := y) (v := v) h1 h2⟩
  exact ⟨⟨a rfl rfl rfl, b rfl rfl, b rfl rfl, a rfl rfl rfl, a rfl rfl rfl, b rfl rfl, b rfl rfl,
      b rfl rfl, a rfl rfl rfl, a rfl rfl rfl, a rfl rfl rfl⟩,
    b rfl rfl, b rfl rfl, b rfl rfl, b rfl rfl, b rfl rfl, b rfl rfl, a rfl rfl rfl, a rfl rfl rfl,
    a rfl rfl rfl, a rfl rfl rfl, a rfl rfl rfl, a rfl rfl rfl⟩

/-- `numeric_limits<fraction<int>>::digits10` is 9. -/
example : Leaf.invoke leaf (fun _ => Hash.stdHash 64) 20 (stdConstOf (.frac i32 .safe) N.«digits10») =
    pure (intValue 9) := by decide +kernel

/-- **C148** Denominator literals: construction, `value`, `_fr`, the signs and division by a
literal. -/
theorem C148_literals (l : DenLit) (f : Raw) (k : ℤ) :
    Gives h (.member (.lit l.signed o) none N.«denominator_literal» [.val (.int l.ty l.value)])
      (pure (literalValue o l)) ∧
    Gives h (.member (.lit l.signed o) (some (literalValue o l)) N.«value» [])
      (pure (.val (.int l.ty l.value))) ∧
    Gives h (.free N.«_fr» [.val (.int u64 k)]) (pure (literalValue .defaults (DenLit.fr k))) ∧
    Gives h (.free N.«operator+» [literalValue o l]) (pure (literalValue o l.pos)) ∧
    Gives h (.free N.«operator-» [literalValue o l]) (literalValue o <$> l.neg) ∧
    Gives h (.free N.«operator/» [Leaf.fractionValue T o f, literalValue o l])
      (Leaf.fractionValue T o <$> DenLit.divFraction T o f l) ∧
    Gives h (.free N.«operator/» [.val (.int T k), literalValue o l])
      (Leaf.fractionValue T o <$> DenLit.divRep T k l) :=
  ⟨⟨_, fun n hn => literal_ok hn l.signed o l.value⟩, ⟨_, fun n hn => value_ok hn l.signed o l.value⟩,
    ⟨_, fun n hn => fr_ok hn k⟩, ⟨_, fun n hn => pos_ok hn l.signed o l.value⟩,
    ⟨_, fun n hn => neg_ok hn l.signed o l.value⟩,
    ⟨_, fun n hn => div_fraction_ok T l.signed o f l.value hn⟩,
    ⟨_, fun n hn => div_rep_ok T l.signed o k l.value hn⟩⟩

/-- `-7_fr`, and `3 / 7_fr` as a fraction of `int` -/
example : Leaf.invoke leaf (fun _ => Hash.stdHash 64) 20
      (.free N.«operator-» [literalValue .defaults (DenLit.fr 7)]) =
      pure (literalValue .defaults ⟨true, -7⟩) ∧
    Leaf.invoke leaf (fun _ => Hash.stdHash 64) 20
      (.free N.«operator/» [.val (.int i32 3), literalValue .defaults (DenLit.fr 7)]) =
      pure (Leaf.fractionValue i32 .defaults ⟨3, 7⟩) := by decide +kernel

/-! ### Consequences for the text -/

/-- **C148** Evaluated from the text, two fractions have the same hash for every `std::hash` only if
they have the same parts. -/
theorem C148_equal_hashes_iff (hz : 3 ≤ z) (f g : Raw) :
    (∀ h : IntTy → ℤ → BitVec z, ∀ r, Gives h (hashOf (.frac T o f)) r →
      Gives h (hashOf (.frac T o g)) r) ↔ f = g := by
  refine ⟨fun H => (C64_all_hashes_iff hz).1 fun k => ?_, fun e => by subst e; simp⟩
  have a (f : Raw) := ((C148_hash (h := fun _ => k) (T := T) (o := o) (W := T) (F := T)
    (by omega) 0 0 f ⟨0, ⟨0, 1⟩⟩).2.1 (.frac T o f) (by simp)).1
  have := (H _ _ (a f)).unique (a g)
  simpa using Res.ok.inj this

/-- **C148** Evaluated from the text, with the `std::hash` of libstdc++ the hashes of `1/2` and
`2/4` differ. -/
theorem C148_half_hashes (hz : 2 ≤ z) : ∃ x y,
    Gives (fun _ => Hash.stdHash z) (hashOf (.frac i32 .defaults ⟨1, 2⟩)) (pure (.size x)) ∧
    Gives (fun _ => Hash.stdHash z) (hashOf (.frac i32 .defaults ⟨2, 4⟩)) (pure (.size y)) ∧
    x ≠ y :=
  ⟨_, _, ((C148_hash (h := fun _ => Hash.stdHash z) (T := i32) (o := .defaults) (W := i32)
      (F := i32) hz 0 0 ⟨1, 2⟩ ⟨0, ⟨0, 1⟩⟩).2.1 (.frac i32 .defaults ⟨1, 2⟩) (by simp)).1,
    ((C148_hash (h := fun _ => Hash.stdHash z) (T := i32) (o := .defaults) (W := i32)
      (F := i32) hz 0 0 ⟨2, 4⟩ ⟨0, ⟨0, 1⟩⟩).2.1 (.frac i32 .defaults ⟨2, 4⟩) (by simp)).1,
    (C64_equal_hash_differently hz).2.1⟩

/-- **C148** Evaluated from the text, `max()` returns a fraction with the value of the greatest
integer of the type, `min()` one with the value of the least. -/
theorem C148_limit_values (r s : Raw)
    (hr : Gives h (limitOf (.frac T o) N.«max») (pure (Leaf.fractionValue T o r)))
    (hs : Gives h (limitOf (.frac T o) N.«min») (pure (Leaf.fractionValue T o s))) :
    Denotes r T.max ∧ Denotes s T.min := by
  have a := hr.unique ((C148_limits (h := h) (T := T) (o := o)).1 (N.«max», Limits.max T)
    (by simp [limitTable]))
  have b := hs.unique ((C148_limits (h := h) (T := T) (o := o)).1 (N.«min», Limits.min T)
    (by simp [limitTable]))
  simp only [pure, Leaf.fractionValue] at a b
  cases a
  cases b
  exact ⟨(C66_limit_values (T := T)).1, (C66_limit_values (T := T)).2.1⟩

example : Gives (fun _ => Hash.stdHash 64) (limitOf (.frac i32 .safe) N.«max»)
      (pure (Leaf.fractionValue i32 .safe ⟨2147483647, 1⟩)) ∧
    Gives (fun _ => Hash.stdHash 64) (limitOf (.frac i32 .safe) N.«min»)
      (pure (Leaf.fractionValue i32 .safe ⟨-2147483648, 1⟩)) :=
  ⟨C148_limits.1 (N.«max», Limits.max i32) (by simp [limitTable]),
    C148_limits.1 (N.«min», Limits.min i32) (by simp [limitTable])⟩

/-! ### The numbers of names -/

example : ∀ p ∈ [("IsSigned", N.«IsSigned»), ("_fr", N.«_fr»),
    ("conditional_t", N.«conditional_t»), ("denominator_literal", N.«denominator_literal»),
    ("denorm_indeterminate", N.«denorm_indeterminate»), ("denorm_min", N.«denorm_min»),
    ("digits", N.«digits»), ("digits10", N.«digits10»), ("epsilon", N.«epsilon»),
    ("float_denorm_style", N.«float_denorm_style»), ("float_round_style", N.«float_round_style»),
    ("fraction_limits_type", N.«fraction_limits_type»), ("fraction_type", N.«fraction_type»),
    ("has_denorm", N.«has_denorm»), ("has_denorm_loss", N.«has_denorm_loss»),
    ("has_infinity", N.«has_infinity»), ("has_quiet_", N.«has_quiet_»),
    ("has_quiet_NaN", N.«has_quiet_NaN»), ("has_signaling_", N.«has_signaling_»),
    ("has_signaling_NaN", N.«has_signaling_NaN»), ("hash", N.«hash»),
    ("hash_combine", N.«hash_combine»), ("infinity", N.«infinity»), ("is_bounded", N.«is_bounded»),
    ("is_exact", N.«is_exact»), ("is_modulo", N.«is_modulo»), ("is_signed", N.«is_signed»),
    ("is_specialized", N.«is_specialized»), ("long::long::int", N.«long::long::int»),
    ("lowest", N.«lowest»), ("max_digits10", N.«max_digits10»), ("max_exponent", N.«max_exponent»),
    ("max_exponent10", N.«max_exponent10»), ("min", N.«min»), ("min_exponent", N.«min_exponent»),
    ("min_exponent10", N.«min_exponent10»), ("mixed_number_type", N.«mixed_number_type»),
    ("operator()", N.«operator()»), ("quiet_NaN", N.«quiet_NaN»), ("radix", N.«radix»),
    ("rep_limits_type", N.«rep_limits_type»), ("round_error", N.«round_error»),
    ("round_indeterminate", N.«round_indeterminate»), ("round_style", N.«round_style»),
    ("signaling_NaN", N.«signaling_NaN»), ("size_t", N.«size_t»), ("smallest", N.«smallest»),
    ("std::conditional_t", N.«std::conditional_t»), ("std::hash", N.«std::hash»),
    ("std::numeric_limits", N.«std::numeric_limits»), ("std::size_t", N.«std::size_t»),
    ("tinyness_before", N.«tinyness_before»), ("traps", N.«traps»),
    ("unsigned::long::long::int", N.«unsigned::long::long::int»), ("value_", N.«value_»),
    ("value_type", N.«value_type»)],
    nameCode p.1 = p.2 := by decide +kernel

end Ieme
