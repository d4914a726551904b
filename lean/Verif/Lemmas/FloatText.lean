import Verif.Lemmas.ScanConvert
import Verif.Model.FloatProgram

/-!
# The conversions of `floating_point.hpp`, from the text
-/

namespace Ieme.Script

open Header

attribute [exec_scan] N.«Float» N.«NumExponentBits» N.«NumMantissaBits» N.«UintRep»
  N.«as_uint_rep» N.«big» N.«bitfield_offsets» N.«count» N.«den» N.«double» N.«exponent_bias»
  N.«exponent_bits» N.«exponent_part» N.«extract_bit_field» N.«floating_point_to_fraction» N.«float»
  N.«fraction_to_floating_point» N.«is_NaN» N.«little» N.«long::double» N.«make_repeating_1s»
  N.«mantissa_bits» N.«mantissa_fraction_denominator» N.«mantissa_fraction_numerator»
  N.«mantissa_fraction» N.«mantissa_part» N.«mantissa» N.«math_utilities::pow2» N.«native»
  N.«num_exponent_bits» N.«num_mantissa_bits» N.«num_sign_bits» N.«number» N.«num» N.«offsets»
  N.«offset» N.«pow2» N.«reduced» N.«reduce» N.«sign_bit» N.«sign_part» N.«std::endian::big»
  N.«std::endian::little» N.«std::endian::native» N.«std::endian» N.«std::make_tuple»
  N.«to_double» N.«to_float» N.«to_fraction» N.«to_long_double» N.«uint32_t» N.«uint64_t»

attribute [exec_scan] Header.binary_shl List.map_cons List.map_nil List.cons_append List.nil_append

/-! ### Names -/

section Names

variable (E : FloatingPoint.Endian) (L : Nat)

@[exec_scan] theorem floats_ofBits :
    (floats E L).func? N.«floating_point_to_fraction» = some F.ofBits := by rfl
@[exec_scan] theorem floats_toBits :
    (floats E L).func? N.«fraction_to_floating_point» = some F.toBits := by rfl
@[exec_scan] theorem floats_make_tuple :
    (floats E L).func? N.«std::make_tuple» = none := by rfl
@[exec_scan] theorem floats_undefined :
    (floats E L).func? N.«limits::undefined» = none := by rfl
@[exec_scan] theorem floats_math_pow2 :
    (floats E L).func? N.«math_utilities::pow2» = none := by rfl
@[exec_scan] theorem floats_zero :
    (floats E L).func? N.«_0» = none := by rfl
@[exec_scan] theorem floats_one :
    (floats E L).func? N.«_1» = none := by rfl
@[exec_scan] theorem floats_number :
    (floats E L).func? N.«number» = none := by rfl
@[exec_scan] theorem floats_pow2 :
    (floats E L).func? N.«pow2» = none := by rfl
@[exec_scan] theorem floats_fraction :
    (floats E L).func? N.«fraction» = none := by rfl
@[exec_scan] theorem floats_reduce :
    (floats E L).func? N.«reduce» = none := by rfl
@[exec_scan] theorem floats_ones :
    (floats E L).func? N.«make_repeating_1s» = none := by rfl
@[exec_scan] theorem floats_field :
    (floats E L).func? N.«extract_bit_field» = none := by rfl
@[exec_scan] theorem floats_little :
    constant (floats E L) N.«std::endian::little» = some (.enum N.«std::endian» N.«little») := by rfl
@[exec_scan] theorem floats_big :
    constant (floats E L) N.«std::endian::big» = some (.enum N.«std::endian» N.«big») := by rfl
@[exec_scan] theorem floats_expBits :
    constant (floats E L) N.«NumExponentBits» = none := by rfl
@[exec_scan] theorem floats_native_little :
    constant (floats .little L) N.«std::endian::native» =
      some (.enum N.«std::endian» N.«little») := by rfl
@[exec_scan] theorem floats_native_big :
    constant (floats .big L) N.«std::endian::native» =
      some (.enum N.«std::endian» N.«big») := by rfl
@[exec_scan] theorem floats_native_mixed :
    constant (floats .mixed L) N.«std::endian::native» =
      some (.enum N.«std::endian» N.«native») := by rfl

end Names

/-! ### Rules -/

section Rules

variable {prog : Program} {tys : List (Nat × TVal)} {lib : Invoke}
  {cl : Nat → List TVal → List V → Res V} {rn : Stm → Env → Res V} {fu : Nat} {env : Env}

local notation "ctx" => Ctx.mk prog tys lib cl rn fu

attribute [exec_scan] templateValue

@[exec_scan] theorem construct_zero (T : IntTy) :
    construct lib (.int T) [] = pure (.int T 0) := rfl

@[exec_scan] theorem library_tuple (ts : List TVal) (vs : List V) :
    library? ctx N.«std::make_tuple» ts vs = pure (.tuple vs) := by simp [library?]
@[exec_scan] theorem library_mathPow2 (T : IntTy) (m : Int) :
    library? ctx N.«math_utilities::pow2» [] [integer T m] =
      V.val <$> value (lib ⟨N.«math_utilities», []⟩ none N.«pow2» [] [.int T m]) := by
  simp [library?, plainValues, integer, orIll]
@[exec_scan] theorem library_number (T : IntTy) (k : Nat) :
    library? ctx N.«number» [.num k, .int T] [] =
      V.val <$> value (lib .global none N.«number» [.num k, .int T] []) := by
  simp [library?, plainValues, orIll, Header.call, calledType, applyTy, find_26]; rfl
@[exec_scan] theorem library_pow2 (T A : IntTy) (o : Ops) (e : Int) :
    library? ctx N.«pow2» [.int T, .ops o] [integer A e] =
      V.val <$> value (lib .global none N.«pow2» [.int T, .ops o] [.int A e]) := by
  simp [library?, plainValues, integer, orIll, Header.call, calledType, applyTy]
  exact fun _ => rfl
theorem library_reduce (T : IntTy) (o : Ops) (r : Raw)
    (h : tys.lookup N.«reduce» = none) :
    library? ctx N.«reduce» [] [.val (.frac T o r)] =
      V.val <$> value (lib .global none N.«reduce» [] [.frac T o r]) := by
  simp [library?, plainValues, orIll, Header.call, calledType]
  rw [h]
  simp
  exact fun _ => rfl

@[exec_scan] theorem method_frac (T : IntTy) (o : Ops) (r : Raw) (f : Nat) :
    method lib (.val (.frac T o r)) f [] =
      V.val <$> value (lib ⟨N.«fraction», [.int T, .ops o]⟩ (some (.frac T o r)) f [] []) := rfl

@[exec_scan] theorem shiftRight_integer (U S : IntTy) (bits : Nat) (n : Int)
    (h : U.signed = false) : shiftRight (integer U bits) (integer S n) =
      if 0 ≤ n ∧ n < U.bits then pure (integer U (bits >>> n.toNat : Nat))
      else .fault .shiftRange := by
  simp [shiftRight, integer, h]
@[exec_scan] theorem bitAnd_integer (U : IntTy) (bits : Nat) (n : Int)
    (h : U.signed = false) : bitAnd (integer U bits) (integer U n) =
      pure (integer U (bits &&& n.toNat : Nat)) := by
  simp [bitAnd, integer, h]
@[exec_scan] theorem copyBytes_flt (U : IntTy) (k bits : Nat) (n : Int)
    (h : U.signed = false) (h' : U.bits = 8 * k) :
    copyBytes (.num k) (integer U n) (.flt k bits) = pure (integer U bits) := by
  simp [copyBytes, integer, h, h']

@[exec_scan] theorem convertTo_flt (k : Nat) (T : IntTy) (n : Int) :
    convertTo lib (.num k) (integer T n) =
      seq (orIll (format k)) fun F => pure (.flt k (F.ofInt n)) := rfl
@[exec_scan] theorem binaryOp_flt (k x y : Nat) : binaryOp lib .div (.flt k x) (.flt k y) =
    seq (orIll (format k)) fun F => pure (.flt k (F.div x y)) := by
  simp [binaryOp, seq]

@[exec_scan] theorem bindParam_flt (t : Ty) (k bits : Nat) : bindParam ctx t (.flt k bits) =
    seq (orIll (evalTy tys t)) fun t =>
      if t = .num k then pure (.flt k bits) else illFormed := rfl
@[exec_scan] theorem bindParam_frac (t : Ty) (T : IntTy) (o : Ops) (r : Raw) :
    bindParam ctx t (.val (.frac T o r)) = seq (orIll (evalTy tys t)) fun t =>
      seq (construct lib t [.frac T o r]) fun v => pure (.val v) := by
  simp [bindParam, seq]
@[exec_scan] theorem returned_flt (t : Ty) (k bits : Nat) : returned ctx t (.flt k bits) =
    seq (orIll (evalTy tys t)) fun t =>
      if t = .num k then pure (.flt k bits) else illFormed := rfl
@[exec_scan] theorem lambdaResult_none (v : V) : lambdaResult ctx none v = pure v := rfl
@[exec_scan] theorem lambdaResult_some (t : Ty) (v : V) :
    lambdaResult ctx (some t) v = bindParam ctx t v := rfl

/-- Aggregate initialisation of what a name means. -/
def aggregateAs (c : Ctx) (n : Nat) (vs : List V) : Option V → Res V
  | some (.cls ps) => V.obj n <$> bindParams c ps vs
  | _ => illFormed

@[exec_scan] theorem aggregate_tuple (n : Nat) (vs : List V) :
    aggregate ctx env (.name n) (.tuple vs) = aggregateAs ctx n vs (env.lookup n) := by
  unfold aggregate aggregateAs
  dsimp only
  split <;> split <;> simp_all
@[exec_scan] theorem aggregateAs_cls (n : Nat) (vs : List V) (ps : List Param) :
    aggregateAs ctx n vs (some (.cls ps)) = V.obj n <$> bindParams ctx ps vs := rfl

section Statements

variable {x : Exits} {k : Env → Res V} (e : Exp) (next : Stm) (y z u : Nat) (v : V) (args : Exps)

/-- Goes on with the parts of a tuple. -/
def untuple (v : V) (f : V → V → V → Res V) : Res V :=
  match v with
  | .tuple [a, b, c] => f a b c
  | _ => illFormed

@[exec_scan, exec_scan ↓] theorem untuple_tuple (a b c : V) (f : V → V → V → Res V) :
    untuple (.tuple [a, b, c]) f = f a b c := rfl

@[exec_scan, exec_scan ↓] theorem exec_decl3 : exec ctx x (.decl3 y z u e next) none env k =
    seq (eval ctx env e) fun v => untuple v fun a b c =>
    exec ctx x next none ((y, a) :: (z, b) :: (u, c) :: env) k := by
  simp only [exec, seq]; rfl
@[exec_scan, exec_scan ↓] theorem exec_zero : exec ctx x (.zero z y next) none env k =
    seq (orIll (evalTy tys (.name z))) fun t => seq (construct lib t []) fun v =>
    exec ctx x next none ((y, .val v) :: env) k := by simp [exec, seq]
@[exec_scan, exec_scan ↓] theorem exec_constant : exec ctx x (.constant y e next) none env k =
    exec ctx x next none env k := by simp [exec]
@[exec_scan, exec_scan ↓] theorem exec_strct (ps : List Param) :
    exec ctx x (.strct y ps next) none env k = exec ctx x next none env k := by simp [exec]
@[exec_scan, exec_scan ↓] theorem exec_retBrace : exec ctx x (.retBrace args next) none env k =
    seq (evalArgs ctx env args) fun vs => x.ret (.tuple vs) := by simp [exec, seq]
@[exec_scan, exec_scan ↓] theorem exec_retBrace_seek :
    exec ctx x (.retBrace args next) (some v) env k = exec ctx x next (some v) env k := by
  simp [exec]
@[exec_scan, exec_scan ↓] theorem exec_copy : exec ctx x (.copy y z u next) none env k =
    seq (orIll (evalTy tys (.name u))) fun t => seq (orIll (env.lookup y)) fun o =>
    seq (orIll (env.lookup z)) fun v => seq (copyBytes t o v) fun w =>
    seq (settled (assignVar y w env)) fun env => exec ctx x next none env k := by
  simp [exec, seq, settled]

end Statements

end Rules

/-! ### To floating point -/

/-- The types known throughout. -/
def floatTypes (L : Nat) : List (Nat × TVal) :=
  knownTypes ++ [(N.«float», .num 4), (N.«double», .num 8), (N.«long::double», .num L),
      (N.«uint32_t», .int u32), (N.«uint64_t», .int u64)]

theorem toBits_ok {E : FloatingPoint.Endian} {L n : Nat} (hn : 10 ≤ n) (k : Nat) (fmt : Fmt)
    (hF : format k = some fmt) (T : IntTy) (o : Ops) (f : Raw) :
    callFunc (floats E L) (mkCtx (floats E L) n) N.«fraction_to_floating_point» [.num k]
      [.val (.frac T o f)] = V.flt k <$> FloatingPoint.ofFraction fmt T f := by
  obtain ⟨n, rfl⟩ : ∃ m, n = m + 1 := ⟨n - 1, by omega⟩
  rw [callFunc_pick (g := F.toBits) rfl (tys' := (N.«Rep», .int T) :: (N.«Ops», .ops o) ::
    (N.«Float», .num k) :: floatTypes L) rfl rfl]
  have hr := fun lib cl rn fu r => library_reduce (prog := floats E L) (tys := (N.«Rep», .int T) :: (N.«Ops», .ops o) ::
    (N.«Float», .num k) :: floatTypes L) (lib := lib) (cl := cl)
    (rn := rn) (fu := fu) T o r rfl
  simp only [exec_scan, knownTypes, floatTypes] at hr
  run [mkCtx, F.toBits, B.toBits_0, B.toBits_1, floatTypes, knownTypes, hF, hr, fraction_reduceDefault_ok,
    fraction_num_ok, fraction_den_ok, FloatingPoint.ofFraction]

/-! ### From floating point -/

/-- The body of `make_repeating_1s`. -/
def onesBody : Stm :=
  .ret (.bin .sub (.bin .shl (.call N.«_1» [(.name N.«UintRep»)] .nil) (.var N.«count»))
    (.call N.«_1» [(.name N.«UintRep»)] .nil)) .nil

/-- `make_repeating_1s` -/
def onesLam : V := .lamP [⟨(.name N.«UintRep»), N.«count»⟩] none onesBody

/-- The body of `extract_bit_field`. -/
def fieldBody : Stm :=
  .ret (.band (.shr (.var N.«as_uint_rep») (.var N.«offset»)) (.call N.«make_repeating_1s» []
    (.cons (.var N.«size») .nil))) .nil

/-- `extract_bit_field` -/
def fieldLam : V := .lamP [⟨(.name N.«UintRep»), N.«offset»⟩, ⟨(.name N.«UintRep»), N.«size»⟩]
  (some (.name N.«UintRep»)) fieldBody

section

variable {E : FloatingPoint.Endian} {L k m e n : Nat} {T U : IntTy} {o : Ops} {fu : Nat}
  {cl : Nat → List TVal → List V → Res V} {rn : Stm → Env → Res V}

local notation "types" => [(N.«Rep», TVal.int T), (N.«Ops», TVal.ops o), (N.«Float», TVal.num k),
  (N.«UintRep», TVal.int U), (N.«NumMantissaBits», TVal.num m), (N.«NumExponentBits», TVal.num e),
  (N.«std::intmax_t», TVal.int i64), (N.«ops::defaults», TVal.ops Ops.defaults),
  (N.«float», TVal.num 4), (N.«double», TVal.num 8), (N.«long::double», TVal.num L),
  (N.«uint32_t», TVal.int u32), (N.«uint64_t», TVal.int u64)]

local notation "ctx" => Ctx.mk (floats E L) types (Header.invoke library n) cl rn fu

theorem ones_ok (hn : 2 ≤ n) (c : Int) (x : Exits) (hx : x.ret = pure) (env : Env)
    (he : env.lookup N.«_1» = none) (kk : Env → Res V) :
    exec ctx x onesBody none ((N.«count», integer U c) :: env) kk =
      integer U <$> FloatingPoint.repeatingOnes U c := by
  have he' := he
  simp only [exec_scan] at he'
  run [onesBody, hx, he', one_ok, FloatingPoint.repeatingOnes]

theorem field_ok (hU : U.signed = false)
    (hr : ∀ c env, env.lookup N.«_1» = none → rn onesBody ((N.«count», integer U c) :: env) =
      integer U <$> FloatingPoint.repeatingOnes U c)
    (bits : Nat) (off size : Int) (x : Exits) (hx : x.ret = pure)
    (v₁ v₂ v₃ v₄ v₅ v₆ v₇ v₈ v₉ : V) (kk : Env → Res V) :
    exec ctx x fieldBody none ((N.«offset», integer U off) :: (N.«size», integer U size) ::
      [(N.«extract_bit_field», v₁), (N.«as_uint_rep», integer U bits), (N.«offsets», v₂),
      (N.«bitfield_offsets», v₃), (N.«num_mantissa_bits», v₄), (N.«num_exponent_bits», v₅),
      (N.«num_sign_bits», v₆), (N.«make_repeating_1s», onesLam),
      (N.«mantissa_fraction_denominator», v₇), (N.«exponent_bias», v₈), (N.«value», v₉)]) kk =
      (fun r : Nat => integer U r) <$> FloatingPoint.bitField U bits off size := by
  have hr' := fun c => hr c ((N.«offset», integer U off) :: (N.«size», integer U size) ::
      [(N.«extract_bit_field», v₁), (N.«as_uint_rep», integer U bits), (N.«offsets», v₂),
      (N.«bitfield_offsets», v₃), (N.«num_mantissa_bits», v₄), (N.«num_exponent_bits», v₅),
      (N.«num_sign_bits», v₆), (N.«make_repeating_1s», onesLam),
      (N.«mantissa_fraction_denominator», v₇), (N.«exponent_bias», v₈), (N.«value», v₉)]) rfl
  simp only [exec_scan, onesLam] at hr'
  run [fieldBody, hx, hU, onesLam, hr', FloatingPoint.bitField]
  split
  · run [hU, hr']
  · rfl

theorem fields_ok (hn : 2 ≤ n) (hU : U.signed = false) (hk : U.bits = 8 * k)
    (hm : U.conv m = pure (m : Int)) (he : U.conv e = pure (e : Int)) (bits : Nat) (v₁ v₂ : V)
    (hr : ∀ off size w₁ w₂ w₃ w₄ w₅ w₆, rn fieldBody ((N.«offset», integer U off) ::
      (N.«size», integer U size) ::
      [(N.«extract_bit_field», w₁), (N.«as_uint_rep», integer U bits), (N.«offsets», w₂),
      (N.«bitfield_offsets», w₃), (N.«num_mantissa_bits», w₄), (N.«num_exponent_bits», w₅),
      (N.«num_sign_bits», w₆), (N.«make_repeating_1s», onesLam),
      (N.«mantissa_fraction_denominator», v₁), (N.«exponent_bias», v₂), (N.«value», .flt k bits)]) =
      (fun r : Nat => integer U r) <$> FloatingPoint.bitField U bits off size)
    (s p q : Int)
    (ho : (E = .little ∧ U.add m e = pure s ∧ p = m ∧ q = 0) ∨
      (E = .big ∧ s = 0 ∧ p = 1 ∧ U.add 1 e = pure q)) :
    eval ctx [(N.«make_repeating_1s», onesLam), (N.«mantissa_fraction_denominator», v₁),
      (N.«exponent_bias», v₂), (N.«value», .flt k bits)] (.now B.fields_0) = (do
        let s ← FloatingPoint.bitField U bits s 1
        let p ← FloatingPoint.bitField U bits p e
        let q ← FloatingPoint.bitField U bits q m
        pure (.tuple [integer U s, integer U p, integer U q])) := by
  have hr' := hr
  simp only [exec_scan, onesLam, fieldBody] at hr'
  rcases ho with ⟨rfl, hs, rfl, rfl⟩ | ⟨rfl, rfl, rfl, hq⟩
  · run [B.fields_0, B.fields_1, B.fields_2, B.fields_3, B.fields_4, B.fields_5, B.fields_6,
      B.fields_7, zero_ok, one_ok, number_ok, hm, he, hs, onesLam, hU, hk, hr']
  · run [B.fields_0, B.fields_1, B.fields_2, B.fields_3, B.fields_4, B.fields_5, B.fields_6,
      B.fields_7, zero_ok, one_ok, number_ok, hm, he, hq, onesLam, hU, hk, hr']

theorem fields_mixed (hn : 2 ≤ n) (hm : U.conv m = pure (m : Int))
    (he : U.conv e = pure (e : Int)) (bits : Nat) (v₁ v₂ : V) (hE : E = .mixed) :
    eval ctx [(N.«make_repeating_1s», onesLam), (N.«mantissa_fraction_denominator», v₁),
      (N.«exponent_bias», v₂), (N.«value», .flt k bits)] (.now B.fields_0) = illFormed := by
  subst hE
  run [B.fields_0, B.fields_1, B.fields_2, B.fields_3, B.fields_4, B.fields_5, B.fields_6,
      B.fields_7, zero_ok, one_ok, number_ok, hm, he]
  rfl

theorem toTy_eq {S : IntTy} {x : Int} (h : S.conv x = pure x) (R : IntTy) :
    toTy S R x = pure x := by
  unfold toTy; split
  · rfl
  · exact h

theorem parts_ok (hn : opsDepth o + 7 ≤ n) (he : U.conv e = pure (e : Int))
    (hr : ∀ c env, env.lookup N.«_1» = none → rn onesBody ((N.«count», integer U c) :: env) =
      integer U <$> FloatingPoint.repeatingOnes U c)
    (s p q : Nat) (den bias : Int) (v : V) (x : Exits)
    (hx : ∀ f, x.ret (.val (.frac T o f)) = pure (.val (.frac T o f))) (kk : Env → Res V) :
    exec ctx x B.ofBits_2 none [(N.«sign_part», integer U s), (N.«exponent_part», integer U p),
      (N.«mantissa_part», integer U q), (N.«make_repeating_1s», onesLam),
      (N.«mantissa_fraction_denominator», integer T den), (N.«exponent_bias», integer i32 bias),
      (N.«value», v)] kk =
    (fun f => V.val (.frac T o f)) <$> (do
      let ones ← FloatingPoint.repeatingOnes U e
      if (p : Int) = ones ∧ q ≠ 0 then return Limits.undefined
      else FloatingPoint.assemble T o bias den s p q) := by
  have := opsDepth_ge o
  have hr' := fun c => hr c [(N.«sign_part», integer U s), (N.«exponent_part», integer U p),
      (N.«mantissa_part», integer U q), (N.«make_repeating_1s», onesLam),
      (N.«mantissa_fraction_denominator», integer T den), (N.«exponent_bias», integer i32 bias),
      (N.«value», v)] rfl
  simp only [exec_scan, onesLam] at hr'
  run [B.ofBits_2, B.ofBits_3, B.ofBits_4, B.ofBits_5, B.ofBits_6, B.ofBits_7, B.ofBits_8,
    B.ofBits_9, B.ofBits_10, onesLam, hr', hx, toTy_eq he, zero_ok, one_ok, fraction_mk_ok,
    fraction_plusRF_ok, fraction_multipliesRF_ok, fraction_multipliesFF_ok, fraction_pow2_ok,
    FloatingPoint.assemble, FloatingPoint.signFactor, Limits.undefined]
  refine bind_congr fun a => ?_
  by_cases h : (p : Int) = a ∧ q ≠ 0
  · simp [h, Fraction.mk]
  · have h' : ¬ (decide ((p : Int) = a) && decide ((q : Int) ≠ 0)) = true := by
      simpa [-not_and] using h
    rw [if_neg h, if_neg h']
    by_cases hs : s = 0
    · simp [hs]
    · simp [hs]

end

/-! ### The whole function -/

theorem constant_map {α β : Type} (g : α → β) (r : Res α) :
    FloatingPoint.constant (g <$> r) = g <$> FloatingPoint.constant r := by
  cases r <;> rfl

theorem constant_fault {α : Type} (r : Res α) :
    (∃ v w, FloatingPoint.constant r = .ok v w) ∨ FloatingPoint.constant r = illFormed := by
  cases r with
  | ok v w => exact .inl ⟨v, w, rfl⟩
  | fault => exact .inr rfl

section

variable {E : FloatingPoint.Endian} {L k n fu : Nat} {cl : Nat → List TVal → List V → Res V}
  {rn : Stm → Env → Res V} {T : IntTy} {o : Ops} {fmt : Fmt}

local notation "types" => [(N.«Rep», TVal.int T), (N.«Ops», TVal.ops o), (N.«Float», TVal.num k),
  (N.«UintRep», TVal.int fmt.uint), (N.«NumMantissaBits», TVal.num fmt.mant),
  (N.«NumExponentBits», TVal.num fmt.exp),
  (N.«std::intmax_t», TVal.int i64), (N.«ops::defaults», TVal.ops Ops.defaults),
  (N.«float», TVal.num 4), (N.«double», TVal.num 8), (N.«long::double», TVal.num L),
  (N.«uint32_t», TVal.int u32), (N.«uint64_t», TVal.int u64)]

local notation "ctx" => Ctx.mk (floats E L) types (Header.invoke library n) cl rn fu

theorem constants_ok (hn : 3 ≤ n) (he' : i32.conv fmt.exp = pure (fmt.exp : Int)) (bits : Nat)
    (G : Env → Res V) :
    (seq (bindParams ctx F.ofBits.params [.flt k bits]) fun env =>
      seq (hoisted ctx env F.ofBits.body) G) = (do
        let bias ← FloatingPoint.exponentBias fmt
        let den ← FloatingPoint.mantissaDenominator T fmt
        G [(N.«mantissa_fraction_denominator», integer T den),
          (N.«exponent_bias», integer i32 bias), (N.«value», .flt k bits)]) := by
  have hb : FloatingPoint.constant (do
        let a ← i32.sub fmt.exp 1
        let a ← mathPow2 i32 a
        let x ← i32.sub a 1
        pure (integer i32 x)) = (do
      let b ← FloatingPoint.exponentBias fmt
      pure (integer i32 b)) := by
    have h := constant_map (integer i32) (do
      let e ← i32.sub fmt.exp 1
      let p ← mathPow2 i32 e
      i32.sub p 1)
    simp only [map_eq_pure_bind, bind_assoc] at h
    exact h
  have hd : FloatingPoint.constant (do
        let a ← T.conv fmt.mant
        let x ← mathPow2 T a
        pure (integer T x)) = (do
      let b ← FloatingPoint.mantissaDenominator T fmt
      pure (integer T b)) := by
    have h := constant_map (integer T) (do
      let m ← T.conv fmt.mant
      mathPow2 T m)
    simp only [map_eq_pure_bind, bind_assoc] at h
    exact h
  run [F.ofBits, B.ofBits_0, B.ofBits_1, B.ofBits_2, B.ofBits_3, B.ofBits_4, B.ofBits_5,
    B.ofBits_6, B.ofBits_7, B.ofBits_8, B.ofBits_9, B.ofBits_10, number_ok, pow2_ok, he', hb,
    hd]

theorem ofBits_ok (hn : opsDepth o + 10 ≤ n) (hk : fmt.uint.bits = 8 * k)
    (hm : fmt.uint.conv fmt.mant = pure (fmt.mant : Int))
    (he : fmt.uint.conv fmt.exp = pure (fmt.exp : Int))
    (he' : i32.conv fmt.exp = pure (fmt.exp : Int))
    (hs : fmt.uint.add fmt.mant fmt.exp = pure ((fmt.mant + fmt.exp : Nat) : Int))
    (hq : fmt.uint.add 1 fmt.exp = pure ((1 + fmt.exp : Nat) : Int)) (bits : Nat) :
    callFunc (floats E L) (mkCtx (floats E L) n) N.«floating_point_to_fraction»
      [.int T, .ops o, .num k, .int fmt.uint, .num fmt.mant, .num fmt.exp] [.flt k bits] =
      (fun f => V.val (.frac T o f)) <$> FloatingPoint.toFraction E fmt T o bits := by
  have hd := opsDepth_ge o
  obtain ⟨n, rfl⟩ : ∃ m, n = m + 3 := ⟨n - 3, by omega⟩
  rw [callFunc_pick (g := F.ofBits) rfl (tys' := types) rfl rfl]
  have hones : ∀ c env, env.lookup N.«_1» = none → ∀ n, 4 ≤ n →
      (mkCtx (floats E L) n types).run onesBody ((N.«count», integer fmt.uint c) :: env) =
      integer fmt.uint <$> FloatingPoint.repeatingOnes fmt.uint c := by
    intro c env h n hn
    obtain ⟨n, rfl⟩ : ∃ m, n = m + 2 := ⟨n - 2, by omega⟩
    exact ones_ok (by omega) c _ rfl env h (fun _ => illFormed)
  have hfield : ∀ (off size : Int) (w₁ w₂ w₃ w₄ w₅ w₆ w₇ w₈ : V),
      (mkCtx (floats E L) (n + 3) types).run fieldBody ((N.«offset», integer fmt.uint off) ::
      (N.«size», integer fmt.uint size) ::
      [(N.«extract_bit_field», w₁), (N.«as_uint_rep», integer fmt.uint bits), (N.«offsets», w₂),
      (N.«bitfield_offsets», w₃), (N.«num_mantissa_bits», w₄), (N.«num_exponent_bits», w₅),
      (N.«num_sign_bits», w₆), (N.«make_repeating_1s», onesLam),
      (N.«mantissa_fraction_denominator», w₇), (N.«exponent_bias», w₈),
      (N.«value», .flt k bits)]) =
      (fun r : Nat => integer fmt.uint r) <$> FloatingPoint.bitField fmt.uint bits off size := by
    intro off size w₁ w₂ w₃ w₄ w₅ w₆ w₇ w₈
    exact field_ok rfl (fun c env h => hones c env h (n + 2) (by omega)) bits off size _ rfl _ _ _ _ _ _ _
      _ _ (fun _ => illFormed)
  have hones' := fun c env h => hones c env h (n + 3) (by omega)
  have hc : mkCtx (floats E L) (n + 3) types = ⟨floats E L, types, Header.invoke library (n + 2),
      callFunc (floats E L) (mkCtx (floats E L) (n + 2)),
      (mkCtx (floats E L) (n + 3) types).run, n + 2⟩ := rfl
  rw [hc]
  generalize (mkCtx (floats E L) (n + 3) types).run = rn at hones' hfield ⊢
  generalize callFunc (floats E L) (mkCtx (floats E L) (n + 2)) = cl
  rw [constants_ok (by omega) he']
  have hx : ∀ f, returned (⟨floats E L, types, Header.invoke library (n + 2), cl, rn, n + 2⟩ : Ctx)
      F.ofBits.ret (.val (.frac T o f)) = pure (.val (.frac T o f)) := by
    intro f
    run [F.ofBits]
  generalize returned (⟨floats E L, types, Header.invoke library (n + 2), cl, rn, n + 2⟩ : Ctx)
      F.ofBits.ret = ret at hx ⊢
  have hbody : ∀ bias den : Int,
      exec ⟨floats E L, types, Header.invoke library (n + 2), cl, rn, n + 2⟩
        ⟨ret, fun _ => illFormed, fun _ => illFormed⟩ F.ofBits.body none
        [(N.«mantissa_fraction_denominator», integer T den),
          (N.«exponent_bias», integer i32 bias), (N.«value», .flt k bits)] (fun _ => illFormed) =
      seq (eval ⟨floats E L, types, Header.invoke library (n + 2), cl, rn, n + 2⟩
        [(N.«make_repeating_1s», onesLam), (N.«mantissa_fraction_denominator», integer T den),
          (N.«exponent_bias», integer i32 bias), (N.«value», .flt k bits)] (.now B.fields_0))
        fun v => untuple v fun a b c =>
        exec ⟨floats E L, types, Header.invoke library (n + 2), cl, rn, n + 2⟩
          ⟨ret, fun _ => illFormed, fun _ => illFormed⟩ B.ofBits_2 none
          [(N.«sign_part», a), (N.«exponent_part», b), (N.«mantissa_part», c),
          (N.«make_repeating_1s», onesLam), (N.«mantissa_fraction_denominator», integer T den),
          (N.«exponent_bias», integer i32 bias), (N.«value», .flt k bits)] (fun _ => illFormed) := by
    intro bias den
    change exec _ _ B.ofBits_0 _ _ _ = _
    unfold B.ofBits_0
    rw [exec_decl, eval_lamP]
    simp only [Stm.confined, reduceIte, seq, pure_bind]
    unfold B.ofBits_1
    rw [exec_decl3]
    rfl
  simp only [hbody]
  have hparts := fun s p q den bias => parts_ok (E := E) (L := L) (k := k) (m := fmt.mant)
    (n := n + 2) (cl := cl) (rn := rn) (fu := n + 2) (by omega) he hones' s p q den bias
    (.flt k bits) ⟨ret, fun _ => illFormed, fun _ => illFormed⟩ hx (fun _ => illFormed)
  cases E with
  | mixed =>
    simp only [fields_mixed (n := n + 2) (by omega) hm he bits _ _ rfl]
    have hl : (illFormed : Res V) =
        (fun f => V.val (.frac T o f)) <$> FloatingPoint.toFraction .mixed fmt T o bits := rfl
    rw [← hl]
    rcases constant_fault (do
      let e ← i32.sub fmt.exp 1
      let p ← mathPow2 i32 e
      i32.sub p 1) with ⟨v, w, h⟩ | h
    · rcases constant_fault (do
        let m ← T.conv fmt.mant
        mathPow2 T m) with ⟨v', w', h'⟩ | h'
      · rw [show FloatingPoint.exponentBias fmt = _ from h,
          show FloatingPoint.mantissaDenominator T fmt = _ from h']
        rfl
      · rw [show FloatingPoint.exponentBias fmt = _ from h,
          show FloatingPoint.mantissaDenominator T fmt = _ from h']
        rfl
    · rw [show FloatingPoint.exponentBias fmt = _ from h]
      rfl
  | little =>
    simp only [fields_ok (n := n + 2) (by omega) rfl hk hm he bits _ _ (fun _ _ _ _ _ _ _ _ => hfield _ _ _ _ _ _ _ _ _ _) _
      _ _ (.inl ⟨rfl, hs, rfl, rfl⟩)]
    simp only [seq, bind_assoc, pure_bind, untuple_tuple, hparts, FloatingPoint.toFraction,
      FloatingPoint.offsets, hs, hq, constant_pure, map_eq_pure_bind]
  | big =>
    simp only [fields_ok (n := n + 2) (by omega) rfl hk hm he bits _ _ (fun _ _ _ _ _ _ _ _ => hfield _ _ _ _ _ _ _ _ _ _) _
      _ _ (.inr ⟨rfl, rfl, rfl, hq⟩)]
    simp only [seq, bind_assoc, pure_bind, untuple_tuple, hparts, FloatingPoint.toFraction,
      FloatingPoint.offsets, hs, hq, constant_pure, map_eq_pure_bind]

end

/-! ### The functions that have names -/

section

variable {E : FloatingPoint.Endian} {L n : Nat} {T : IntTy} {o : Ops}

theorem ofFloat_ok (hn : opsDepth o + 11 ≤ n) (bits : Nat) :
    callFunc (floats E L) (mkCtx (floats E L) n) N.«to_fraction» [.int T, .ops o] [.flt 4 bits] =
      (fun f => V.val (.frac T o f)) <$> FloatingPoint.toFraction E binary32 T o bits := by
  have hd := opsDepth_ge o
  obtain ⟨n, rfl⟩ : ∃ m, n = m + 1 := ⟨n - 1, by omega⟩
  have h := ofBits_ok (E := E) (L := L) (k := 4) (n := n) (T := T) (o := o) (fmt := binary32)
    (by omega) rfl rfl rfl rfl rfl rfl bits
  change callFunc _ _ _ [.int T, .ops o, .num 4, .int u32, .num 23, .num 8] _ = _ at h
  rw [callFunc_pick (g := F.toFraction32) rfl (tys' := (N.«Rep», .int T) :: (N.«Ops», .ops o) ::
    floatTypes L) rfl rfl]
  simp only [exec_scan] at h
  run [mkCtx, F.toFraction32, B.toFraction32_0, floatTypes, knownTypes, h]

theorem ofDouble_ok (hn : opsDepth o + 11 ≤ n) (bits : Nat) :
    callFunc (floats E L) (mkCtx (floats E L) n) N.«to_fraction» [.int T, .ops o] [.flt 8 bits] =
      (fun f => V.val (.frac T o f)) <$> FloatingPoint.toFraction E binary64 T o bits := by
  have hd := opsDepth_ge o
  obtain ⟨n, rfl⟩ : ∃ m, n = m + 1 := ⟨n - 1, by omega⟩
  have h := ofBits_ok (E := E) (L := L) (k := 8) (n := n) (T := T) (o := o) (fmt := binary64)
    (by omega) rfl rfl rfl rfl rfl rfl bits
  change callFunc _ _ _ [.int T, .ops o, .num 8, .int u64, .num 52, .num 11] _ = _ at h
  rw [callFunc_pick (g := F.toFraction64) rfl (tys' := (N.«Rep», .int T) :: (N.«Ops», .ops o) ::
    floatTypes L) rfl rfl]
  simp only [exec_scan] at h
  run [mkCtx, F.toFraction64, B.toFraction64_0, floatTypes, knownTypes, h]

theorem toFloat_ok (hn : 11 ≤ n) (f : Raw) :
    callFunc (floats E L) (mkCtx (floats E L) n) N.«to_float» [] [.val (.frac T o f)] =
      V.flt 4 <$> FloatingPoint.ofFraction binary32 T f := by
  obtain ⟨n, rfl⟩ : ∃ m, n = m + 1 := ⟨n - 1, by omega⟩
  have h := toBits_ok (E := E) (L := L) (n := n) (by omega) 4 binary32 rfl T o f
  rw [callFunc_pick (g := F.toFloat) rfl (tys' := (N.«Rep», .int T) :: (N.«Ops», .ops o) ::
    floatTypes L) rfl rfl]
  simp only [exec_scan] at h
  run [mkCtx, F.toFloat, B.toFloat_0, floatTypes, knownTypes, h]

theorem toDouble_ok (hn : 11 ≤ n) (f : Raw) :
    callFunc (floats E L) (mkCtx (floats E L) n) N.«to_double» [] [.val (.frac T o f)] =
      V.flt 8 <$> FloatingPoint.ofFraction binary64 T f := by
  obtain ⟨n, rfl⟩ : ∃ m, n = m + 1 := ⟨n - 1, by omega⟩
  have h := toBits_ok (E := E) (L := L) (n := n) (by omega) 8 binary64 rfl T o f
  rw [callFunc_pick (g := F.toDouble) rfl (tys' := (N.«Rep», .int T) :: (N.«Ops», .ops o) ::
    floatTypes L) rfl rfl]
  simp only [exec_scan] at h
  run [mkCtx, F.toDouble, B.toDouble_0, floatTypes, knownTypes, h]

theorem toLongDouble_ok (hn : 11 ≤ n) (fmt : Fmt) (hF : format L = some fmt) (f : Raw) :
    callFunc (floats E L) (mkCtx (floats E L) n) N.«to_long_double» [] [.val (.frac T o f)] =
      V.flt L <$> FloatingPoint.ofFraction fmt T f := by
  obtain ⟨n, rfl⟩ : ∃ m, n = m + 1 := ⟨n - 1, by omega⟩
  have h := toBits_ok (E := E) (L := L) (n := n) (by omega) L fmt hF T o f
  rw [callFunc_pick (g := F.toLongDouble) rfl (tys' := (N.«Rep», .int T) :: (N.«Ops», .ops o) ::
    floatTypes L) rfl rfl]
  simp only [exec_scan] at h
  run [mkCtx, F.toLongDouble, B.toLongDouble_0, floatTypes, knownTypes, h]

end

end Ieme.Script
