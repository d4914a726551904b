import Verif.Lemmas.ScanAttr
import Verif.Lemmas.HeaderEval
import Verif.Model.ScanEval
import Verif.Model.ScanProgram
import Verif.Model.FloatingPoint

/-!
# Evaluating the functions of the parser

The rules `exec_scan` run the body of a function of `Verif/Model/ScanProgram.lean`; see
`Verif/Lemmas/HeaderEval.lean` for `seq`.
-/

namespace Ieme.Script

open Header

attribute [exec_scan] N.«Int» N.«Ops» N.«Rep» N.«U» N.«_0» N.«_1» N.«_10» N.«_2» N.«_dec» N.«base»
  N.«base_as_rep» N.«base_power» N.«bool» N.«break» N.«c» N.«char» N.«continue» N.«digit»
  N.«digit_as_int» N.«digit_preceeded» N.«digit_sequence_to_int» N.«empty» N.«exponent»
  N.«exponent_base» N.«exponent_separator_pos» N.«exponent_sign» N.«exponent_sign_multiplier»
  N.«fallthrough» N.«false» N.«find» N.«first_two» N.«floating_point_string_scan_results»
  N.«floating_point_string_to_fraction» N.«for» N.«fraction» N.«fractional» N.«fractional_den»
  N.«fractional_num» N.«fractional_precision» N.«front» N.«has_value» N.«int» N.«is_defined»
  N.«is_valid_digit_sequence» N.«it» N.«last_pos» N.«limits» N.«limits::undefined» N.«lower»
  N.«lower_pos» N.«make_pair» N.«math_utilities::pow» N.«maybe_scan_results» N.«negative»
  N.«no_exponent_separator» N.«no_fractional» N.«no_radix_separator» N.«no_whole» N.«npos»
  N.«nullopt» N.«ops::defaults» N.«optional» N.«parse_utilities» N.«positive» N.«pow»
  N.«radix_separator_pos» N.«rbegin» N.«remaining_string» N.«remove_prefix» N.«rend» N.«result»
  N.«results» N.«scan_floating_point_string» N.«scan_results» N.«sequence» N.«sign»
  N.«sign::negative» N.«sign::positive» N.«size» N.«std::intmax_t» N.«std::make_pair»
  N.«std::nullopt» N.«std::optional» N.«std::string_view» N.«std::string_view::npos» N.«string»
  N.«string_view» N.«substr» N.«throw» N.«true» N.«undefined» N.«upper» N.«value» N.«whole»

attribute [exec_scan] List.lookup_cons List.lookup_nil Header.evalTy Header.evalTys Header.applyTy
  Header.builtinTy Header.orIll_some Option.bind_eq_bind Option.bind_some Option.pure_def
  Header.value_pure map_eq_pure_bind pure_bind bind_assoc Bool.false_eq_true Bool.not_true
  Bool.not_false decide_eq_true_eq Bool.decide_eq_true Header.toTy_self IntTy.common_self Header.binary_add
  Header.binary_sub Header.binary_mul Header.binary_eq Header.binary_ne Header.binary_lt
  Header.binary_le Header.binary_gt Header.binary_ge Header.unary_not Header.unary_int_neg
  Header.unary_int_pos Header.castTo_int Header.construct_int Header.construct_bool Header.Val.type

/-! ### Names -/

@[exec_scan] theorem func_scan : parser.func? N.«scan_floating_point_string» = some F.scan := by rfl
@[exec_scan] theorem func_valid : parser.func? N.«is_valid_digit_sequence» = some F.valid := by rfl
@[exec_scan] theorem func_digits : parser.func? N.«digit_sequence_to_int» = some F.digits := by rfl
@[exec_scan] theorem func_convert : parser.func? N.«floating_point_string_to_fraction» = some F.convert := by rfl
@[exec_scan] theorem func_dec : parser.func? N.«_dec» = some F.dec := by rfl
@[exec_scan] theorem func_std_make_pair : parser.func? N.«std::make_pair» = none := by decide +kernel
@[exec_scan] theorem func_limits_undefined : parser.func? N.«limits::undefined» = none := by decide +kernel
@[exec_scan] theorem func_math_utilities_pow : parser.func? N.«math_utilities::pow» = none := by decide +kernel
@[exec_scan] theorem func_0 : parser.func? N.«_0» = none := by decide +kernel
@[exec_scan] theorem func_1 : parser.func? N.«_1» = none := by decide +kernel
@[exec_scan] theorem func_2 : parser.func? N.«_2» = none := by decide +kernel
@[exec_scan] theorem func_10 : parser.func? N.«_10» = none := by decide +kernel
@[exec_scan] theorem func_pow : parser.func? N.«pow» = none := by decide +kernel
@[exec_scan] theorem func_fraction : parser.func? N.«fraction» = none := by decide +kernel
@[exec_scan] theorem func_is_defined : parser.func? N.«is_defined» = none := by decide +kernel
@[exec_scan] theorem func_last_pos : parser.func? N.«last_pos» = none := by decide +kernel
@[exec_scan] theorem func_results :
    parser.func? N.«floating_point_string_scan_results» = none := by decide +kernel
@[exec_scan] theorem struct_results : parser.structs.lookup N.«floating_point_string_scan_results» =
    some [⟨.name N.«int», N.«base», .cons (.num 10) .nil⟩,
      ⟨.name N.«std::string_view», N.«whole», .nil⟩,
      ⟨.name N.«std::string_view», N.«fractional», .nil⟩,
      ⟨.name N.«int», N.«fractional_precision», .cons (.num 0) .nil⟩,
      ⟨.name N.«sign», N.«exponent_sign», .cons (.var N.«sign::positive») .nil⟩,
      ⟨.name N.«std::string_view», N.«exponent», .nil⟩] := by rfl

@[exec_scan] theorem constant_std_nullopt : constant parser N.«std::nullopt» = some .none := by rfl
@[exec_scan] theorem constant_std_string_view_npos : constant parser N.«std::string_view::npos» = some (integer u64 npos) := by rfl
@[exec_scan] theorem constant_true : constant parser N.«true» = some (truth true) := by rfl
@[exec_scan] theorem constant_false : constant parser N.«false» = some (truth false) := by rfl
@[exec_scan] theorem constant_sign_negative : constant parser N.«sign::negative» = some (.enum N.«sign» N.«negative») := by rfl
@[exec_scan] theorem constant_sign_positive : constant parser N.«sign::positive» = some (.enum N.«sign» N.«positive») := by rfl

section Rules

variable {prog : Program} {tys : List (Nat × TVal)} {lib : Invoke} {cl : Nat → List TVal → List V → Res V}
  {rn : Stm → Env → Res V} {fu : Nat} {env : Env}

/-- What a call needs to know, member by member. -/
local notation "ctx" => Ctx.mk prog tys lib cl rn fu

@[exec_scan] theorem evalVar_eq (x : Nat) : evalVar prog tys env x =
    match env.lookup x with
    | some v => some v
    | none =>
      match constant prog x with
      | some v => some v
      | none => templateValue tys x := rfl

@[exec_scan] theorem member_obj (t x : Nat) (fs : List (Nat × V)) :
    member (.obj t fs) x = fs.lookup x := rfl

section Methods

variable (s : List Char)

@[exec_scan] theorem method_size : method lib (.str s) N.«size» [] = pure (integer u64 s.length) := by
  simp [method]
@[exec_scan] theorem method_empty : method lib (.str s) N.«empty» [] = pure (truth s.isEmpty) := by
  simp [method]
@[exec_scan] theorem method_front : method lib (.str s) N.«front» [] = V.chr <$> View.front s := by
  simp [method]
@[exec_scan] theorem method_rbegin : method lib (.str s) N.«rbegin» [] = pure (.iter s.reverse) := by
  simp [method]
@[exec_scan] theorem method_rend : method lib (.str s) N.«rend» [] = pure (.iter []) := by
  simp [method]
@[exec_scan] theorem method_find (c : Char) :
    method lib (.str s) N.«find» [.chr c] = pure (position (View.find c s)) := by simp [method]
@[exec_scan] theorem method_substr (T S : IntTy) (n : Int) :
    method lib (.str s) N.«substr» [integer T 0, integer S n] = pure (.str (s.take n.toNat)) := by
  simp [method, integer]
@[exec_scan] theorem method_none : method lib .none N.«has_value» [] = pure (truth false) := by
  simp [method]
@[exec_scan] theorem method_some (v : V) : method lib (.some v) N.«has_value» [] = pure (truth true) := by
  simp [method]
@[exec_scan] theorem method_value (v : V) : method lib (.some v) N.«value» [] = pure v := by
  simp [method]
@[exec_scan] theorem action_removePrefix (T : IntTy) (n : Int) :
    action (.str s) N.«remove_prefix» [integer T n] = V.str <$> View.removePrefix s n.toNat := by
  simp [action, integer]

end Methods

section Operators

variable (op : BinOp) (T S : IntTy) (m n : Int) (a b : Char) (s t : List Char)

@[exec_scan] theorem binaryOp_val (x y : Val) :
    binaryOp lib op (.val x) (.val y) = V.val <$> binary lib op x y := rfl
@[exec_scan] theorem binaryOp_integer :
    binaryOp lib op (integer T m) (integer S n) = V.val <$> binary lib op (.int T m) (.int S n) := rfl
@[exec_scan] theorem binaryOp_integer_val (x : Val) :
    binaryOp lib op (integer T m) (.val x) = V.val <$> binary lib op (.int T m) x := rfl
@[exec_scan] theorem binaryOp_val_integer (x : Val) :
    binaryOp lib op (.val x) (integer T m) = V.val <$> binary lib op x (.int T m) := rfl
@[exec_scan] theorem binaryOp_chr : binaryOp lib op (.chr a) (.chr b) =
    V.val <$> binary lib op (.int i32 a.toNat) (.int i32 b.toNat) := rfl
@[exec_scan] theorem binaryOp_chr_integer : binaryOp lib op (.chr a) (integer T m) =
    V.val <$> binary lib op (.int i32 a.toNat) (.int T m) := rfl
@[exec_scan] theorem binaryOp_str_eq :
    binaryOp lib .eq (.str s) (.str t) = pure (truth (decide (s = t))) := rfl
@[exec_scan] theorem binaryOp_iter_nil :
    binaryOp lib .ne (.iter []) (.iter []) = pure (truth false) := rfl
@[exec_scan] theorem binaryOp_iter_cons :
    binaryOp lib .ne (.iter (a :: s)) (.iter []) = pure (truth true) := rfl
@[exec_scan] theorem unaryOp_truth (x : Bool) : unaryOp lib .not (truth x) = pure (truth !x) := rfl
@[exec_scan] theorem unaryOp_neg : unaryOp lib .neg (integer T m) = integer T <$> T.neg m := by
  change V.val <$> (Val.int T <$> T.neg m) = _
  rw [← comp_map]; rfl
@[exec_scan] theorem unaryOp_pos : unaryOp lib .pos (integer T m) = pure (integer T m) := rfl
@[exec_scan] theorem dereference_cons : dereference (.iter (a :: s)) = pure (.chr a) := rfl
@[exec_scan] theorem advance_cons : advance lib (.iter (a :: s)) = pure (.iter s) := rfl
@[exec_scan] theorem advance_integer : advance lib (integer T m) =
    seq (binary lib .add (.int T m) (.int i32 1)) fun w =>
    seq (construct lib (.int T) [w]) fun w => pure (.val w) := by
  simp [advance, integer, seq]
@[exec_scan] theorem val_int : V.val (.int T m) = integer T m := rfl
@[exec_scan] theorem val_bool (x : Bool) : V.val (.bool x) = truth x := rfl
@[exec_scan] theorem convertLike_integer (v : Val) :
    convertLike lib (integer T m) (.val v) = V.val <$> construct lib (.int T) [v] := rfl
@[exec_scan] theorem convertLike_integers :
    convertLike lib (integer T m) (integer S n) = integer T <$> toTy T S n := by
  change V.val <$> construct lib (.int T) [.int S n] = _
  rw [construct_int, ← comp_map]; rfl
@[exec_scan] theorem convertLike_truth (x y : Bool) :
    convertLike lib (truth x) (truth y) = pure (truth y) := rfl
@[exec_scan] theorem convertLike_str : convertLike lib (.str s) (.str t) = pure (.str t) := rfl
@[exec_scan] theorem convertLike_enum (e x y : Nat) :
    convertLike lib (.enum e x) (.enum e y) = pure (.enum e y) := if_pos rfl
@[exec_scan] theorem convertTo_integer :
    convertTo lib (.int T) (integer S n) = integer T <$> T.conv n := by
  change V.val <$> castTo lib (.int T) (.int S n) = _
  rw [castTo_int, ← comp_map]; rfl
@[exec_scan] theorem sameAs_chr : sameAs (.chr a) (.chr b) = decide (a = b) := rfl
@[exec_scan] theorem sameAs_enum (e x y : Nat) :
    sameAs (.enum e x) (.enum e y) = decide (x = y) := by simp [sameAs]

end Operators

@[exec_scan, exec_scan ↓] theorem branch_truth {α : Type} (x : Bool) (a b : Res α) :
    branch (truth x) a b = if x then a else b := rfl

@[exec_scan] theorem ite_and {c : Prop} [Decidable c] (b : Bool) :
    (if c then pure (truth b) else pure (truth false) : Res V) = pure (truth (decide c && b)) := by
  by_cases h : c <;> simp [h]

@[exec_scan] theorem ite_or {c : Prop} [Decidable c] (b : Bool) :
    (if c then pure (truth true) else pure (truth b) : Res V) = pure (truth (decide c || b)) := by
  by_cases h : c <;> simp [h]

@[exec_scan] theorem assignVar_hit (y : Nat) (v w : V) (rest : Env) :
    assignVar y v ((y, w) :: rest) = (y, v) :: rest := by simp [assignVar]
@[exec_scan] theorem assignVar_miss (x y : Nat) (v w : V) (rest : Env) (h : y ≠ x) :
    assignVar x v ((y, w) :: rest) = (y, w) :: assignVar x v rest := by
  simp [assignVar, h]

attribute [exec_scan] leave List.length_cons List.length_nil List.drop_succ_cons
  List.drop_zero Stm.confined List.contains_cons List.contains_nil Bool.and_true Bool.or_true
  Bool.true_or Bool.and_self Bool.true_and Bool.or_false Bool.false_or

/-! ### Expressions -/

section Expressions

variable (a b e : Exp) (x n : Nat) (t : Ty) (args rest : Exps)

@[exec_scan, exec_scan ↓] theorem eval_num : eval ctx env (.num n) = pure (integer i32 n) := by
  simp [eval]
@[exec_scan, exec_scan ↓] theorem eval_unum : eval ctx env (.unum n) = pure (integer u32 n) := by
  simp [eval]
@[exec_scan, exec_scan ↓] theorem eval_chr : eval ctx env (.chr n) = pure (.chr (Char.ofNat n)) := by
  simp [eval]
@[exec_scan, exec_scan ↓] theorem eval_str (s : List Nat) :
    eval ctx env (.str s) = pure (.str (s.map Char.ofNat)) := by simp [eval]
@[exec_scan, exec_scan ↓] theorem eval_var :
    eval ctx env (.var x) = orIll (evalVar prog tys env x) := by simp [eval]
@[exec_scan, exec_scan ↓] theorem eval_fld : eval ctx env (.fld e x) =
    seq (eval ctx env e) fun v => orIll (member v x) := by simp [eval, seq]
@[exec_scan, exec_scan ↓] theorem eval_meth (f : Nat) : eval ctx env (.meth e f args) =
    seq (eval ctx env e) fun v => seq (evalArgs ctx env args) fun vs => method lib v f vs := by
  simp [eval, seq]
@[exec_scan, exec_scan ↓] theorem eval_call (f : Nat) (ts : List Ty) :
    eval ctx env (.call f ts args) =
      seq (orIll (evalTys tys ts)) fun ts =>
      seq (evalArgs ctx env args) fun vs => callName ctx env f ts vs := by
  simp [eval, seq]
@[exec_scan, exec_scan ↓] theorem eval_cast : eval ctx env (.cast t e) =
    seq (orIll (evalTy tys t)) fun t => seq (eval ctx env e) fun v => convertTo lib t v := by
  simp [eval, seq]
@[exec_scan, exec_scan ↓] theorem eval_deref : eval ctx env (.deref e) =
    seq (eval ctx env e) fun v => dereference v := by simp [eval, seq]
@[exec_scan, exec_scan ↓] theorem eval_un (op : UnOp) : eval ctx env (.un op e) =
    seq (eval ctx env e) fun v => unaryOp lib op v := by simp [eval, seq]
@[exec_scan, exec_scan ↓] theorem eval_and : eval ctx env (.bin .and a b) =
    seq (eval ctx env a) fun x => branch x (eval ctx env b) (pure (truth false)) := by
  simp [eval, seq]
@[exec_scan, exec_scan ↓] theorem eval_or : eval ctx env (.bin .or a b) =
    seq (eval ctx env a) fun x => branch x (pure (truth true)) (eval ctx env b) := by
  simp [eval, seq]
@[exec_scan, exec_scan ↓] theorem eval_add : eval ctx env (.bin .add a b) =
    seq (eval ctx env a) fun x => seq (eval ctx env b) fun y => binaryOp lib .add x y := by
  simp [eval, seq]
@[exec_scan, exec_scan ↓] theorem eval_sub : eval ctx env (.bin .sub a b) =
    seq (eval ctx env a) fun x => seq (eval ctx env b) fun y => binaryOp lib .sub x y := by
  simp [eval, seq]
@[exec_scan, exec_scan ↓] theorem eval_mul : eval ctx env (.bin .mul a b) =
    seq (eval ctx env a) fun x => seq (eval ctx env b) fun y => binaryOp lib .mul x y := by
  simp [eval, seq]
@[exec_scan, exec_scan ↓] theorem eval_eq : eval ctx env (.bin .eq a b) =
    seq (eval ctx env a) fun x => seq (eval ctx env b) fun y => binaryOp lib .eq x y := by
  simp [eval, seq]
@[exec_scan, exec_scan ↓] theorem eval_ne : eval ctx env (.bin .ne a b) =
    seq (eval ctx env a) fun x => seq (eval ctx env b) fun y => binaryOp lib .ne x y := by
  simp [eval, seq]
@[exec_scan, exec_scan ↓] theorem eval_lt : eval ctx env (.bin .lt a b) =
    seq (eval ctx env a) fun x => seq (eval ctx env b) fun y => binaryOp lib .lt x y := by
  simp [eval, seq]
@[exec_scan, exec_scan ↓] theorem eval_le : eval ctx env (.bin .le a b) =
    seq (eval ctx env a) fun x => seq (eval ctx env b) fun y => binaryOp lib .le x y := by
  simp [eval, seq]
@[exec_scan, exec_scan ↓] theorem eval_gt : eval ctx env (.bin .gt a b) =
    seq (eval ctx env a) fun x => seq (eval ctx env b) fun y => binaryOp lib .gt x y := by
  simp [eval, seq]
@[exec_scan, exec_scan ↓] theorem eval_ge : eval ctx env (.bin .ge a b) =
    seq (eval ctx env a) fun x => seq (eval ctx env b) fun y => binaryOp lib .ge x y := by
  simp [eval, seq]
@[exec_scan, exec_scan ↓] theorem eval_cond : eval ctx env (.cond e a b) =
    seq (eval ctx env e) fun x => branch x (eval ctx env a) (eval ctx env b) := by
  simp [eval, seq]
@[exec_scan, exec_scan ↓] theorem eval_lam (body : Stm) : eval ctx env (.lam body) =
    if body.confined [] then pure (.lam body) else illFormed := by simp [eval]
@[exec_scan, exec_scan ↓] theorem eval_now (body : Stm) : eval ctx env (.now body) =
    if body.confined [] then
      seq (hoisted ctx env body) fun env =>
      exec ctx ⟨pure, fun _ => illFormed, fun _ => illFormed⟩ body none env (fun _ => illFormed)
    else illFormed := by simp [eval, seq]
@[exec_scan, exec_scan ↓] theorem eval_lamP (ps : List Param) (t : Option Ty) (body : Stm) :
    eval ctx env (.lamP ps t body) =
      if body.confined (ps.map Param.name) then pure (.lamP ps t body) else illFormed := by
  simp [eval]
@[exec_scan, exec_scan ↓] theorem eval_nowR (t : Ty) (body : Stm) : eval ctx env (.nowR t body) =
    if body.confined [] then
      exec ctx ⟨aggregate ctx env t, fun _ => illFormed, fun _ => illFormed⟩ body none env
        (fun _ => illFormed)
    else illFormed := by simp [eval]
@[exec_scan, exec_scan ↓] theorem eval_shl : eval ctx env (.bin .shl a b) =
    seq (eval ctx env a) fun x => seq (eval ctx env b) fun y => binaryOp lib .shl x y := by
  simp [eval, seq]
@[exec_scan, exec_scan ↓] theorem eval_div : eval ctx env (.bin .div a b) =
    seq (eval ctx env a) fun x => seq (eval ctx env b) fun y => binaryOp lib .div x y := by
  simp [eval, seq]
@[exec_scan, exec_scan ↓] theorem eval_shr : eval ctx env (.shr a b) =
    seq (eval ctx env a) fun x => seq (eval ctx env b) fun y => shiftRight x y := by
  simp [eval, seq]
@[exec_scan, exec_scan ↓] theorem eval_band : eval ctx env (.band a b) =
    seq (eval ctx env a) fun x => seq (eval ctx env b) fun y => bitAnd x y := by
  simp [eval, seq]
@[exec_scan, exec_scan ↓] theorem eval_throw : eval ctx env .throw = .fault .thrown := by simp [eval]

@[exec_scan, exec_scan ↓] theorem evalArgs_nil : evalArgs ctx env .nil = pure [] := by simp [evalArgs]
@[exec_scan, exec_scan ↓] theorem evalArgs_cons : evalArgs ctx env (.cons e rest) =
    seq (eval ctx env e) fun v => seq (evalArgs ctx env rest) fun vs => pure (v :: vs) := by
  simp [evalArgs, seq]

end Expressions

/-- A call of what a name means as a variable and as a function. -/
def callAs (c : Ctx) (env : Env) (f : Nat) (ts : List TVal) (args : List V) :
    Option V → Option Func → Res V
  | some (.lam body), _ => c.run body env
  | some (.lamP ps t body), _ =>
    seq (bindParams c ps args) fun own =>
    seq (c.run body (own ++ env)) fun v => lambdaResult c t v
  | _, some _ => c.call f ts args
  | _, none => library? c f ts args

@[congr] theorem callAs_congr {c : Ctx} {f : Nat} {ts : List TVal} {args : List V}
    {v v' : Option V} {g g' : Option Func} (h : v = v') (h' : g = g') :
    callAs c env f ts args v g = callAs c env f ts args v' g' := by rw [h, h']

@[exec_scan, exec_scan ↓] theorem callName_eq (f : Nat) (ts : List TVal) (args : List V) :
    callName ctx env f ts args = callAs ctx env f ts args (env.lookup f) (prog.func? f) := by
  unfold callName callAs; split <;> split <;> simp_all [seq]

@[exec_scan] theorem callAs_lam (f : Nat) (ts : List TVal) (args : List V) (body : Stm) :
    callAs ctx env f ts args (some (.lam body)) none = rn body env := rfl
@[exec_scan] theorem callAs_lamP (f : Nat) (ts : List TVal) (args : List V) (ps : List Param)
    (t : Option Ty) (body : Stm) :
    callAs ctx env f ts args (some (.lamP ps t body)) none =
      seq (bindParams ctx ps args) fun own =>
      seq (rn body (own ++ env)) fun v => lambdaResult ctx t v := rfl
@[exec_scan] theorem callAs_func (f : Nat) (ts : List TVal) (args : List V) (g : Func) :
    callAs ctx env f ts args none (some g) = cl f ts args := rfl
@[exec_scan] theorem callAs_none (f : Nat) (ts : List TVal) (args : List V) :
    callAs ctx env f ts args none none = library? ctx f ts args := rfl

@[exec_scan] theorem library_pair (ts : List TVal) (a b : V) :
    library? ctx N.«std::make_pair» ts [a, b] = pure (.pair a b) := by simp [library?]
@[exec_scan] theorem library_undefined (T : IntTy) (o : Ops) :
    library? ctx N.«limits::undefined» [.frac T o] [] = pure (.val (.frac T o ⟨0, 0⟩)) := by
  simp [library?]
@[exec_scan] theorem library_pow (T S : IntTy) (m n : Int) :
    library? ctx N.«math_utilities::pow» [] [integer T m, integer S n] =
      V.val <$> value (lib ⟨N.«math_utilities», []⟩ none N.«pow» [] [.int T m, .int S n]) := by
  simp [library?, plainValues, integer, orIll]

@[exec_scan] theorem library_zero (T : IntTy) :
    library? ctx N.«_0» [.int T] [] = V.val <$> value (lib .global none N.«_0» [.int T] []) := by
  simp [library?, plainValues, orIll, Header.call, calledType, applyTy, find_1]; rfl
@[exec_scan] theorem library_one (T : IntTy) :
    library? ctx N.«_1» [.int T] [] = V.val <$> value (lib .global none N.«_1» [.int T] []) := by
  simp [library?, plainValues, orIll, Header.call, calledType, applyTy, find_2]; rfl
@[exec_scan] theorem library_ten (T : IntTy) :
    library? ctx N.«_10» [.int T] [] = V.val <$> value (lib .global none N.«_10» [.int T] []) := by
  simp [library?, plainValues, orIll, Header.call, calledType, applyTy, find_3]; rfl
@[exec_scan] theorem library_two (T : IntTy) :
    library? ctx N.«_2» [.int T] [] = V.val <$> value (lib .global none N.«_2» [.int T] []) := by
  simp [library?, plainValues, orIll, Header.call, calledType, applyTy, find_4]; rfl

@[exec_scan] theorem library_fraction (T A B : IntTy) (o : Ops) (m n : Int) :
    library? ctx N.«fraction» [.int T, .ops o] [integer A m, integer B n] =
      V.val <$> value (lib ⟨N.«fraction», [.int T, .ops o]⟩ none N.«fraction» []
        [.int A m, .int B n]) := by
  simp [library?, plainValues, integer, orIll, Header.call, calledType, applyTy, construct,
    TVal.scope]
@[exec_scan] theorem library_power (T A B : IntTy) (o : Ops) (m n : Int) :
    library? ctx N.«pow» [.int T, .ops o] [integer A m, integer B n] =
      V.val <$> value (lib .global none N.«pow» [.int T, .ops o] [.int A m, .int B n]) := by
  simp [library?, plainValues, integer, orIll, Header.call, calledType, applyTy]
  exact fun _ => rfl
theorem library_isDefined (T : IntTy) (o : Ops) (r : Raw)
    (h : tys.lookup N.«is_defined» = none) :
    library? ctx N.«is_defined» [] [.val (.frac T o r)] =
      V.val <$> value (lib .global none N.«is_defined» [] [.frac T o r]) := by
  simp [library?, plainValues, orIll, Header.call, calledType]
  rw [h]
  simp
  exact fun _ => rfl

/-! ### Statements -/

section Statements

variable {x : Exits} {k : Env → Res V} (e i : Exp) (a b body next : Stm) (y f : Nat) (v : V)
  (args : Exps)

@[congr] theorem exec_congr {c : Ctx} {s : Stm} {seek seek' : Option V} {env env' : Env}
    (h : seek = seek') (h' : env = env') : exec c x s seek env k = exec c x s seek' env' k := by
  rw [h, h']

@[exec_scan, exec_scan ↓] theorem exec_nil (seek : Option V) :
    exec ctx x .nil seek env k = k env := by simp [exec]
@[exec_scan, exec_scan ↓] theorem exec_case_some : exec ctx x (.case e next) (some v) env k =
    seq (eval ctx env e) fun l =>
    exec ctx x next (if sameAs l v then none else some v) env k := by simp [exec, seq]
@[exec_scan, exec_scan ↓] theorem exec_case_none : exec ctx x (.case e next) none env k =
    exec ctx x next none env k := by simp [exec]
@[exec_scan, exec_scan ↓] theorem exec_dflt (seek : Option V) : exec ctx x (.dflt next) seek env k =
    exec ctx x next none env k := by simp [exec]
@[exec_scan, exec_scan ↓] theorem exec_ret : exec ctx x (.ret e next) none env k =
    seq (eval ctx env e) x.ret := by simp [exec, seq]
@[exec_scan, exec_scan ↓] theorem exec_decl : exec ctx x (.decl y e next) none env k =
    seq (eval ctx env e) fun v => exec ctx x next none ((y, v) :: env) k := by simp [exec, seq]

/-- Goes on with the parts of a pair. -/
def unpair (v : V) (f : V → V → Res V) : Res V :=
  match v with
  | .pair a b => f a b
  | _ => illFormed

@[exec_scan, exec_scan ↓] theorem unpair_pair (a b : V) (f : V → V → Res V) :
    unpair (.pair a b) f = f a b := rfl

@[exec_scan, exec_scan ↓] theorem exec_decl2 (z : Nat) : exec ctx x (.decl2 y z e next) none env k =
    seq (eval ctx env e) fun v => unpair v fun a b =>
    exec ctx x next none ((y, a) :: (z, b) :: env) k := by
  simp only [exec, seq]; rfl
@[exec_scan, exec_scan ↓] theorem exec_obj : exec ctx x (.obj f y next) none env k =
    seq (cl f [] []) fun v => exec ctx x next none ((y, v) :: env) k := by simp [exec, seq]
@[exec_scan, exec_scan ↓] theorem exec_assign : exec ctx x (.assign y e next) none env k =
    seq (eval ctx env e) fun v => seq (orIll (env.lookup y)) fun o =>
    seq (convertLike lib o v) fun w => seq (settled (assignVar y w env)) fun env =>
    exec ctx x next none env k := by simp [exec, seq, settled]

/-- The object with another value of a data member. -/
def withMember (lib : Invoke) (o : V) (f : Nat) (v : V) : Res V :=
  match o with
  | .obj t fs => do
    let old ← orIll (fs.lookup f)
    let w ← convertLike lib old v
    pure (.obj t (assignVar f w fs))
  | _ => illFormed

@[exec_scan] theorem withMember_obj (t : Nat) (fs : List (Nat × V)) :
    withMember lib (.obj t fs) f v =
      seq (orIll (fs.lookup f)) fun old => seq (convertLike lib old v) fun w =>
      seq (settled (assignVar f w fs)) fun fs => pure (.obj t fs) := by
  simp [withMember, seq, settled]

@[exec_scan, exec_scan ↓] theorem exec_set : exec ctx x (.set y f e next) none env k =
    seq (eval ctx env e) fun v => seq (orIll (env.lookup y)) fun o =>
    seq (withMember lib o f v) fun w => seq (settled (assignVar y w env)) fun env =>
    exec ctx x next none env k := by
  simp only [exec, seq, settled, pure_bind]
  congr 1; funext v; congr 1; funext o
  cases o <;> simp only [withMember, bind_assoc, pure_bind] <;> rfl
@[exec_scan, exec_scan ↓] theorem exec_update (op : BinOp) :
    exec ctx x (.update y op e next) none env k =
    seq (eval ctx env e) fun v => seq (orIll (env.lookup y)) fun o =>
    seq (binaryOp lib op o v) fun w => seq (convertLike lib o w) fun w =>
    seq (settled (assignVar y w env)) fun env => exec ctx x next none env k := by
  simp [exec, seq, settled]
@[exec_scan, exec_scan ↓] theorem exec_incr : exec ctx x (.incr y next) none env k =
    seq (orIll (env.lookup y)) fun o => seq (advance lib o) fun w =>
    seq (settled (assignVar y w env)) fun env => exec ctx x next none env k := by
  simp [exec, seq, settled]
@[exec_scan, exec_scan ↓] theorem exec_act : exec ctx x (.act y f args next) none env k =
    seq (evalArgs ctx env args) fun vs => seq (orIll (env.lookup y)) fun o =>
    seq (action o f vs) fun w => seq (settled (assignVar y w env)) fun env =>
    exec ctx x next none env k := by simp [exec, seq, settled]
@[exec_scan, exec_scan ↓] theorem exec_ite : exec ctx x (.ite e a b next) none env k =
    seq (eval ctx env e) fun v => branch v
      (exec ctx x a none env fun env' => exec ctx x next none (leave env env') k)
      (exec ctx x b none env fun env' => exec ctx x next none (leave env env') k) := by
  simp [exec, seq]
@[exec_scan, exec_scan ↓] theorem exec_iteInit : exec ctx x (.iteInit y i e a next) none env k =
    seq (eval ctx env i) fun w => seq (eval ctx ((y, w) :: env) e) fun v => branch v
      (exec ctx x a none ((y, w) :: env) fun env' => exec ctx x next none (leave env env') k)
      (exec ctx x next none env k) := by
  simp [exec, seq]

/-- The range-based `for` over a string. -/
def each (c : Ctx) (x : Exits) (y : Nat) (body next : Stm) (outer : Env) (k : Env → Res V)
    (env : Env) (v : V) : Res V :=
  match v with
  | .str s =>
    s.foldr
      (fun ch more env' =>
        exec c ⟨x.ret, fun env'' => exec c x next none (leave outer env'') k,
            fun env'' => more (leave outer env'')⟩
          body none ((y, .chr ch) :: env') fun env'' => more (leave outer env''))
      (fun env' => exec c x next none env' k) env
  | _ => illFormed

@[exec_scan, exec_scan ↓] theorem exec_each : exec ctx x (.each y e body next) none env k =
    seq (eval ctx env e) fun v => each ctx x y body next env k env v := by
  simp only [exec, seq, each]; rfl

theorem each_nil {outer : Env} : each ctx x y body next outer k env (.str []) =
    exec ctx x next none env k := rfl

theorem each_cons {outer : Env} (ch : Char) (s : List Char) :
    each ctx x y body next outer k env (.str (ch :: s)) =
      exec ctx ⟨x.ret, fun env' => exec ctx x next none (leave outer env') k,
          fun env' => each ctx x y body next outer k (leave outer env') (.str s)⟩
        body none ((y, .chr ch) :: env)
        fun env' => each ctx x y body next outer k (leave outer env') (.str s) := rfl

/-- The `for` statement with an iterator. -/
def loopFrom (c : Ctx) (x : Exits) (y : Nat) (t : Exp) (body next : Stm) (outer : Env)
    (k : Env → Res V) (n : Nat) (env : Env) : Res V :=
  iterate n
    (fun again env' => do
      let v ← eval c env' t
      let onwards := fun env'' => do
        let o ← orIll (List.lookup y env'')
        let w ← advance c.lib o
        again (assignVar y w env'')
      branch v
        (exec c ⟨x.ret, fun env'' => exec c x next none (leave outer env'') k,
            fun env'' => onwards (leave env' env'')⟩
          body none env' fun env'' => onwards (leave env' env''))
        (exec c x next none (leave outer env') k))
    env

@[exec_scan, exec_scan ↓] theorem exec_loop (t : Exp) : exec ctx x (.loop y e t body next) none env k =
    seq (eval ctx env e) fun v => loopFrom ctx x y t body next env k fu ((y, v) :: env) := by
  simp only [exec, seq, loopFrom]

theorem loopFrom_succ {outer : Env} (t : Exp) (n : Nat) :
    loopFrom ctx x y t body next outer k (n + 1) env =
      seq (eval ctx env t) fun v => branch v
        (exec ctx ⟨x.ret, fun env'' => exec ctx x next none (leave outer env'') k,
            fun env'' => seq (orIll (List.lookup y (leave env env''))) fun o =>
              seq (advance lib o) fun w =>
              loopFrom ctx x y t body next outer k n (assignVar y w (leave env env''))⟩
          body none env fun env'' => seq (orIll (List.lookup y (leave env env''))) fun o =>
              seq (advance lib o) fun w =>
              loopFrom ctx x y t body next outer k n (assignVar y w (leave env env'')))
        (exec ctx x next none (leave outer env) k) := rfl

@[exec_scan, exec_scan ↓] theorem exec_switch : exec ctx x (.switch e body next) none env k =
    seq (eval ctx env e) fun v =>
    exec ctx ⟨x.ret, fun env' => exec ctx x next none (leave env env') k, x.cont⟩ body (some v) env
      fun env' => exec ctx x next none (leave env env') k := by simp [exec, seq]
@[exec_scan, exec_scan ↓] theorem exec_brk : exec ctx x (.brk next) none env k = x.brk env := by
  simp [exec]
@[exec_scan, exec_scan ↓] theorem exec_cont : exec ctx x (.cont next) none env k = x.cont env := by
  simp [exec]
@[exec_scan, exec_scan ↓] theorem exec_ret_seek : exec ctx x (.ret e next) (some v) env k =
    exec ctx x next (some v) env k := by simp [exec]
@[exec_scan, exec_scan ↓] theorem exec_set_seek : exec ctx x (.set y f e next) (some v) env k =
    exec ctx x next (some v) env k := by simp [exec]
@[exec_scan, exec_scan ↓] theorem exec_act_seek : exec ctx x (.act y f args next) (some v) env k =
    exec ctx x next (some v) env k := by simp [exec]
@[exec_scan, exec_scan ↓] theorem exec_brk_seek : exec ctx x (.brk next) (some v) env k =
    exec ctx x next (some v) env k := by simp [exec]

end Statements

/-- Contains no local structures and constants. -/
def Stm.plain : Stm → Bool
  | .constant _ _ _ => false
  | .strct _ _ _ => false
  | .nil => true
  | .ret _ next => next.plain
  | .decl _ _ next => next.plain
  | .decl2 _ _ _ next => next.plain
  | .decl3 _ _ _ _ next => next.plain
  | .obj _ _ next => next.plain
  | .zero _ _ next => next.plain
  | .retBrace _ next => next.plain
  | .copy _ _ _ next => next.plain
  | .assign _ _ next => next.plain
  | .set _ _ _ next => next.plain
  | .update _ _ _ next => next.plain
  | .incr _ next => next.plain
  | .act _ _ _ next => next.plain
  | .ite _ _ _ next => next.plain
  | .iteInit _ _ _ _ next => next.plain
  | .each _ _ _ next => next.plain
  | .loop _ _ _ _ next => next.plain
  | .switch _ _ next => next.plain
  | .case _ next => next.plain
  | .dflt next => next.plain
  | .brk next => next.plain
  | .cont next => next.plain

theorem hoisted_plain {c : Ctx} : ∀ (s : Stm), s.plain = true → hoisted c env s = pure env
  | .constant _ _ _, h => by simp [Stm.plain] at h
  | .strct _ _ _, h => by simp [Stm.plain] at h
  | .nil, _ => by simp [hoisted]
  | .ret _ next, h => by rw [hoisted]; exact hoisted_plain next h
  | .decl _ _ next, h => by rw [hoisted]; exact hoisted_plain next h
  | .decl2 _ _ _ next, h => by rw [hoisted]; exact hoisted_plain next h
  | .decl3 _ _ _ _ next, h => by rw [hoisted]; exact hoisted_plain next h
  | .obj _ _ next, h => by rw [hoisted]; exact hoisted_plain next h
  | .zero _ _ next, h => by rw [hoisted]; exact hoisted_plain next h
  | .retBrace _ next, h => by rw [hoisted]; exact hoisted_plain next h
  | .copy _ _ _ next, h => by rw [hoisted]; exact hoisted_plain next h
  | .assign _ _ next, h => by rw [hoisted]; exact hoisted_plain next h
  | .set _ _ _ next, h => by rw [hoisted]; exact hoisted_plain next h
  | .update _ _ _ next, h => by rw [hoisted]; exact hoisted_plain next h
  | .incr _ next, h => by rw [hoisted]; exact hoisted_plain next h
  | .act _ _ _ next, h => by rw [hoisted]; exact hoisted_plain next h
  | .ite _ _ _ next, h => by rw [hoisted]; exact hoisted_plain next h
  | .iteInit _ _ _ _ next, h => by rw [hoisted]; exact hoisted_plain next h
  | .each _ _ _ next, h => by rw [hoisted]; exact hoisted_plain next h
  | .loop _ _ _ _ next, h => by rw [hoisted]; exact hoisted_plain next h
  | .switch _ _ next, h => by rw [hoisted]; exact hoisted_plain next h
  | .case _ next, h => by rw [hoisted]; exact hoisted_plain next h
  | .dflt next, h => by rw [hoisted]; exact hoisted_plain next h
  | .brk next, h => by rw [hoisted]; exact hoisted_plain next h
  | .cont next, h => by rw [hoisted]; exact hoisted_plain next h

section Hoisting

variable (e i : Exp) (a b next : Stm) (y z u : Nat) (args : Exps) (op : BinOp) (ps : List Param)

@[exec_scan, exec_scan ↓] theorem hoisted_nil : hoisted ctx env .nil = pure env := by simp [hoisted]
@[exec_scan, exec_scan ↓] theorem hoisted_ret : hoisted ctx env (.ret e next) =
    hoisted ctx env next := by simp [hoisted]
@[exec_scan, exec_scan ↓] theorem hoisted_decl : hoisted ctx env (.decl y e next) =
    hoisted ctx env next := by simp [hoisted]
@[exec_scan, exec_scan ↓] theorem hoisted_decl2 : hoisted ctx env (.decl2 y z e next) =
    hoisted ctx env next := by simp [hoisted]
@[exec_scan, exec_scan ↓] theorem hoisted_decl3 : hoisted ctx env (.decl3 y z u e next) =
    hoisted ctx env next := by simp [hoisted]
@[exec_scan, exec_scan ↓] theorem hoisted_obj : hoisted ctx env (.obj y z next) =
    hoisted ctx env next := by simp [hoisted]
@[exec_scan, exec_scan ↓] theorem hoisted_zero : hoisted ctx env (.zero y z next) =
    hoisted ctx env next := by simp [hoisted]
@[exec_scan, exec_scan ↓] theorem hoisted_retBrace : hoisted ctx env (.retBrace args next) =
    hoisted ctx env next := by simp [hoisted]
@[exec_scan, exec_scan ↓] theorem hoisted_copy : hoisted ctx env (.copy y z u next) =
    hoisted ctx env next := by simp [hoisted]
@[exec_scan, exec_scan ↓] theorem hoisted_assign : hoisted ctx env (.assign y e next) =
    hoisted ctx env next := by simp [hoisted]
@[exec_scan, exec_scan ↓] theorem hoisted_set : hoisted ctx env (.set y z e next) =
    hoisted ctx env next := by simp [hoisted]
@[exec_scan, exec_scan ↓] theorem hoisted_update : hoisted ctx env (.update y op e next) =
    hoisted ctx env next := by simp [hoisted]
@[exec_scan, exec_scan ↓] theorem hoisted_incr : hoisted ctx env (.incr y next) =
    hoisted ctx env next := by simp [hoisted]
@[exec_scan, exec_scan ↓] theorem hoisted_act : hoisted ctx env (.act y z args next) =
    hoisted ctx env next := by simp [hoisted]
@[exec_scan, exec_scan ↓] theorem hoisted_ite : hoisted ctx env (.ite e a b next) =
    hoisted ctx env next := by simp [hoisted]
@[exec_scan, exec_scan ↓] theorem hoisted_iteInit : hoisted ctx env (.iteInit y i e a next) =
    hoisted ctx env next := by simp [hoisted]
@[exec_scan, exec_scan ↓] theorem hoisted_each : hoisted ctx env (.each y e a next) =
    hoisted ctx env next := by simp [hoisted]
@[exec_scan, exec_scan ↓] theorem hoisted_loop : hoisted ctx env (.loop y i e a next) =
    hoisted ctx env next := by simp [hoisted]
@[exec_scan, exec_scan ↓] theorem hoisted_switch : hoisted ctx env (.switch e a next) =
    hoisted ctx env next := by simp [hoisted]
@[exec_scan, exec_scan ↓] theorem hoisted_case : hoisted ctx env (.case e next) =
    hoisted ctx env next := by simp [hoisted]
@[exec_scan, exec_scan ↓] theorem hoisted_dflt : hoisted ctx env (.dflt next) =
    hoisted ctx env next := by simp [hoisted]
@[exec_scan, exec_scan ↓] theorem hoisted_brk : hoisted ctx env (.brk next) =
    hoisted ctx env next := by simp [hoisted]
@[exec_scan, exec_scan ↓] theorem hoisted_cont : hoisted ctx env (.cont next) =
    hoisted ctx env next := by simp [hoisted]
@[exec_scan, exec_scan ↓] theorem hoisted_strct : hoisted ctx env (.strct y ps next) =
    hoisted ctx ((y, .cls ps) :: env) next := by simp [hoisted]
@[exec_scan, exec_scan ↓] theorem hoisted_constant : hoisted ctx env (.constant y e next) =
    seq (FloatingPoint.constant (eval ctx env e)) fun v => hoisted ctx ((y, v) :: env) next := by
  rw [hoisted]
  cases eval ctx env e <;> rfl

@[exec_scan] theorem constant_pure {α : Type} (v : α) :
    FloatingPoint.constant (pure v) = pure v := rfl

end Hoisting

/-! ### Calls -/

theorem callFunc_pick {ctxOf : List (Nat × TVal) → Ctx} {c : Ctx} {f : Nat} {ts : List TVal}
    {args : List V} {g : Func} {tys' : List (Nat × TVal)} (hf : prog.pick f args = some g)
    (hd : deduce g.tparams (g.tparams.zip ts ++ (knownTypes ++ prog.types)) g.params args = tys')
    (hc : ctxOf tys' = c) :
    callFunc prog ctxOf f ts args =
      seq (bindParams c g.params args) fun env => seq (hoisted c env g.body) fun env =>
      exec c ⟨returned c g.ret, fun _ => illFormed, fun _ => illFormed⟩ g.body none env
        (fun _ => illFormed) := by
  subst hd hc
  simp only [callFunc, hf]
  rfl

theorem pick_func {f : Nat} {args : List V} {g : Func}
    (hf : parser.funcs.filter (fun g => g.name == f) = [g]) : parser.pick f args = some g := by
  simp only [Program.pick, hf]

theorem callFunc_eq {ctxOf : List (Nat × TVal) → Ctx} {c : Ctx} {f : Nat} {ts : List TVal}
    {args : List V} {g : Func} {tys' : List (Nat × TVal)}
    (hf : parser.funcs.filter (fun g => g.name == f) = [g])
    (hp : g.body.plain = true)
    (hd : deduce g.tparams (g.tparams.zip ts ++ knownTypes) g.params args = tys')
    (hc : ctxOf tys' = c) :
    callFunc parser ctxOf f ts args =
      seq (bindParams c g.params args) fun env =>
      exec c ⟨returned c g.ret, fun _ => illFormed, fun _ => illFormed⟩ g.body none env
        (fun _ => illFormed) := by
  have hd' : deduce g.tparams (g.tparams.zip ts ++ (knownTypes ++ parser.types)) g.params args =
      tys' := hd
  rw [callFunc_pick (pick_func hf) hd' hc]
  simp only [hoisted_plain _ hp, seq, pure_bind]

section Params

variable (t : Ty) (y : Nat) (ps : List Param) (vs : List V) (s : List Char) (T : IntTy) (n : Int)

@[exec_scan] theorem bindParams_nil : bindParams ctx [] [] = pure [] := rfl
@[exec_scan] theorem bindParams_cons (v : V) : bindParams ctx (⟨t, y⟩ :: ps) (v :: vs) =
    seq (bindParam ctx t v) fun v => seq (bindParams ctx ps vs) fun rest =>
    pure ((y, v) :: rest) := rfl
@[exec_scan] theorem bindParam_str :
    bindParam ctx (.name N.«std::string_view») (.str s) = pure (.str s) := by
  simp [bindParam]
@[exec_scan] theorem bindParam_char :
    bindParam ctx (.name N.«char») (.str s) = pure (.str s) := by
  simp [bindParam]
@[exec_scan] theorem bindParam_integer : bindParam ctx t (integer T n) =
    seq (orIll (evalTy tys t)) fun t => seq (construct lib t [.int T n]) fun v => pure (.val v) := by
  simp [bindParam, integer, seq]

@[exec_scan] theorem returned_integer : returned ctx t (integer T n) =
    seq (orIll (evalTy tys t)) fun t => seq (construct lib t [.int T n]) fun v => pure (.val v) := by
  simp [returned, integer, seq]
@[exec_scan] theorem returned_truth (b : Bool) : returned ctx t (truth b) =
    seq (orIll (evalTy tys t)) fun t => seq (construct lib t [.bool b]) fun v => pure (.val v) := by
  simp [returned, truth, seq]
@[exec_scan] theorem returned_frac (o : Ops) (r : Raw) : returned ctx t (.val (.frac T o r)) =
    seq (orIll (evalTy tys t)) fun t =>
    seq (construct lib t [.frac T o r]) fun v => pure (.val v) := by
  simp [returned, seq]
@[exec_scan] theorem returned_none : returned ctx
    (.app1 N.«std::optional» (.name N.«floating_point_string_scan_results»)) .none = pure .none := by
  simp [returned]
@[exec_scan] theorem returned_obj (u : Nat) (fs : List (Nat × V)) :
    returned ctx (.app1 N.«std::optional» (.name u)) (.obj u fs) = pure (.some (.obj u fs)) :=
  if_pos rfl

end Params

end Rules

/-! ### Characters -/

theorem char_eq (a b : Char) : a = b ↔ (a.toNat : Int) = b.toNat := by
  rw [Int.ofNat_inj]
  exact ⟨fun h => h ▸ rfl, fun h => Char.ext (UInt32.toNat.inj h)⟩

theorem char_lt (a b : Char) : a < b ↔ (a.toNat : Int) < b.toNat := by
  rw [Int.ofNat_lt]; rfl

theorem char_le (a b : Char) : a ≤ b ↔ (a.toNat : Int) ≤ b.toNat := by
  rw [Int.ofNat_le]; rfl

/-- Runs the body of a function; the rules given unfold the model. -/
macro "run" "[" ls:Lean.Parser.Tactic.simpLemma,* "]" : tactic =>
  `(tactic| simp (disch := omega) only [exec_scan, ↓Header.stepSeq, Header.settled_eq,
    Nat.reduceBEq, Nat.reduceEqDiff, Nat.reduceSub, Nat.reduceAdd,
    reduceIte, reduceCtorEq, Int.reduceEq, decide_true, decide_false, Nat.cast_ofNat, Nat.cast_zero, Nat.cast_one, $ls,*])

end Ieme.Script
