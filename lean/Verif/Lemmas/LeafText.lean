import Verif.Spec.LeafText
import Verif.Lemmas.HeaderMixed
import Verif.Model.Hash
import Verif.Model.Literals
import Verif.Model.LeafEval

/-!
# Evaluating the functions of `hash.hpp`, `limits.hpp` and `fraction_literals.hpp`
-/

namespace Ieme.Leaf

open Header hiding Ty Func Cls Program Env Expr eval run invoke applyTy builtinTy memberTy selfTy
  binary choose fit

variable {z : Nat} {h : IntTy → Int → BitVec z} {lib : Invoke} {inv : Callee z → Res (LV z)}
  {n : Nat}

local notation "ctx" => (Ctx.mk leaf h lib inv)

/-! ### Entering a function -/

theorem enter_free {c : Ctx z} {f : Nat} {args : List (LV z)} {ts : List LT} {g : Func}
    {names : Names} {ret : LT} {vars : List (Nat × LV z)} {b : Body}
    (h1 : args.mapM LV.type = some ts)
    (h2 : choose (candidates ts (c.prog.free f)) = some (g, names))
    (h3 : resolve c.prog.memberTy names g.ret = some ret)
    (h4 : (g.params.map Prod.snd).zip args = vars) (h5 : g.body = b) :
    enter c (.free f args) = run c ⟨names, vars⟩ ret b := by
  subst h4 h5
  simp [enter, callFree, h1, h2, h3, orIll_some]

theorem enter_member {c : Ctx z} {t : LT} {f : Nat} {self : Option (LV z)} {args : List (LV z)}
    {k : Cls} {names own all : Names} {g : Func} {ret : LT} {b : Body}
    {fields vars ents : List (Nat × LV z)}
    (h0 : isPrimary c.prog t = none)
    (h1 : c.prog.instance? Leaf.memberTy t = some (k, names))
    (h2 : findMember t (c.prog.members f) = some (g, own))
    (h3 : fieldsOf k names self = pure fields) (h : own ++ names = all)
    (h4 : bind c all g.params args = pure vars)
    (h5 : resolve c.prog.memberTy all g.ret = some ret) (h6 : vars ++ fields = ents)
    (h7 : g.body = b) :
    enter c (.member t self f args) = run c ⟨all, ents⟩ ret b := by
  subst h h6 h7
  simp [enter, callMember, h0, h1, h2, h3, h4, h5, orIll_some]

theorem enter_const {c : Ctx z} {t : LT} {x : Nat} {k : Cls} {names : Names} {e : Exp}
    (h0 : isPrimary c.prog t = none)
    (h1 : c.prog.instance? Leaf.memberTy t = some (k, names)) (h2 : k.consts.lookup x = some e) :
    enter c (.const t x) = eval c ⟨names, []⟩ e := by
  simp [enter, h0, h1, h2, orIll_some]

theorem bind_one {c : Ctx z} {names : Names} {t : Ty} {x : Nat} {v w : LV z} {u : LT}
    (h1 : resolve c.prog.memberTy names t = some u) (h2 : convert c u v = pure w) :
    bind c names [(t, x)] [v] = pure [(x, w)] := by
  simp [bind, h1, h2, orIll_some]

theorem convert_int (T : IntTy) (n : Int) :
    convert ctx (.ty (.int T)) (.val (.int T n)) = pure (.val (.int T n)) := by
  simp [convert, construct]
theorem convert_raw (T : IntTy) (r : Raw) :
    convert ctx (.ty (.raw T)) (.val (.raw T r)) = pure (.val (.raw T r)) := by
  simp [convert, construct, Val.type]
theorem convert_frac (T : IntTy) (o : Ops) (r : Raw) :
    convert ctx (.ty (.frac T o)) (.val (.frac T o r)) = pure (.val (.frac T o r)) := by
  simp [convert, construct, Val.type]
theorem convert_mixed (W G : IntTy) (o : Ops) (m : Mixed) :
    convert ctx (.ty (.mixed W G o)) (.val (.mixed W G o m)) = pure (.val (.mixed W G o m)) := by
  simp [convert, construct, Val.type]

/-- What the names mean in a function template of a fraction. -/
abbrev ofFraction (T : IntTy) (o : Ops) : Names := [(N.«Ops», .ty (.ops o)), (N.«Rep», .ty (.int T))]

/-- What the names mean in a function template of a mixed number. -/
abbrev ofMixed (W F : IntTy) (o : Ops) : Names :=
  [(N.«Ops», .ty (.ops o)), (N.«FRep», .ty (.int F)), (N.«WRep», .ty (.int W))]

/-- What the names mean in `limits<fraction<T, o>>`. -/
abbrev inLimits (T : IntTy) (o : Ops) : Names :=
  [(N.«Ops», .ty (.ops o)), (N.«Rep», .ty (.int T)), (N.«fraction_type», .ty (.frac T o)),
    (N.«ops_type», .ty (.ops o)), (N.«rep_type», .ty (.int T)), (N.«Ops», .ty (.ops o)),
    (N.«Rep», .ty (.int T))]

/-- What the names mean in the class `std::numeric_limits<fraction<T, o>>`. -/
abbrev inStdClass (T : IntTy) (o : Ops) : Names :=
  [(N.«rep_limits_type», .stdLimits (.int T)), (N.«fraction_type», .ty (.frac T o)),
    (N.«Ops», .ty (.ops o)), (N.«Rep», .ty (.int T))]

/-- What the names mean in the functions of `std::numeric_limits<fraction<T, o>>`. -/
abbrev inStd (T : IntTy) (o : Ops) : Names := ofFraction T o ++ inStdClass T o

/-- The type of the value of a literal. -/
abbrev litTy (s : Bool) : IntTy := if s then i64 else u64

/-- What the names mean in a function template of a literal. -/
abbrev ofLit (s : Bool) (o : Ops) : Names := [(N.«Ops», .ty (.ops o)), (N.«IsSigned», .flag s)]

/-- What the names mean in `denominator_literal<s, o>`. -/
abbrev inLit (s : Bool) (o : Ops) : Names :=
  [(N.«Ops», .ty (.ops o)), (N.«IsSigned», .flag s), (N.«ops_type», .ty (.ops o)),
    (N.«value_type», .ty (.int (litTy s))), (N.«Ops», .ty (.ops o)), (N.«IsSigned», .flag s)]

theorem enter_hash_raw (T : IntTy) (r : Raw) :
    enter ctx (.free N.«hash» [.val (.raw T r)]) =
      run ctx ⟨[(N.«Rep», .ty (.int T))], [(N.«value», .val (.raw T r))]⟩ .size F.hash_raw.body :=
  enter_free rfl rfl rfl rfl rfl

theorem enter_hash_fraction (T : IntTy) (o : Ops) (r : Raw) :
    enter ctx (.free N.«hash» [.val (.frac T o r)]) =
      run ctx ⟨ofFraction T o, [(N.«value», .val (.frac T o r))]⟩ .size F.hash_fraction.body :=
  enter_free rfl rfl rfl rfl rfl

theorem enter_hash_mixed (W G : IntTy) (o : Ops) (m : Mixed) :
    enter ctx (.free N.«hash» [.val (.mixed W G o m)]) =
      run ctx ⟨ofMixed W G o, [(N.«value», .val (.mixed W G o m))]⟩ .size F.hash_mixed.body :=
  enter_free rfl rfl rfl rfl rfl

theorem enter_hash_combine (x y : BitVec z) :
    enter ctx (.free N.«hash_combine» [.size x, .size y]) =
      run ctx ⟨[], [(N.«left», .size x), (N.«right», .size y)]⟩ .size F.hash_combine.body :=
  enter_free rfl rfl rfl rfl rfl

theorem enter_fr (n : Int) :
    enter ctx (.free N.«_fr» [.val (.int u64 n)]) =
      run ctx ⟨[], [(N.«value», .val (.int u64 n))]⟩ (.lit false .defaults) F.fr.body :=
  enter_free rfl rfl rfl rfl rfl

theorem enter_literal_pos (s : Bool) (o : Ops) (n : Int) :
    enter ctx (.free N.«operator+» [.lit s o n]) =
      run ctx ⟨ofLit s o, [(N.«value», .lit s o n)]⟩ (.lit s o) F.literal_pos.body :=
  enter_free rfl rfl rfl rfl rfl

theorem enter_literal_neg (s : Bool) (o : Ops) (n : Int) :
    enter ctx (.free N.«operator-» [.lit s o n]) =
      run ctx ⟨ofLit s o, [(N.«value», .lit s o n)]⟩ (.lit true o) F.literal_neg.body :=
  enter_free rfl rfl rfl rfl rfl

theorem enter_div_rep (T : IntTy) (s : Bool) (o : Ops) (l n : Int) :
    enter ctx (.free N.«operator/» [.val (.int T l), .lit s o n]) =
      run ctx ⟨[(N.«Ops», .ty (.ops o)), (N.«IsSigned», .flag s), (N.«Rep», .ty (.int T))], [(N.«left», .val (.int T l)), (N.«right», .lit s o n)]⟩ (.ty (.frac T o)) F.div_rep.body :=
  enter_free rfl rfl rfl rfl rfl

theorem enter_max (T : IntTy) (o : Ops) :
    enter ctx (.member (.limits (.frac T o)) none N.«max» []) =
      run ctx ⟨inLimits T o, []⟩ (.ty (.frac T o)) F.max.body :=
  enter_member rfl rfl rfl rfl rfl rfl rfl rfl rfl

theorem enter_min (T : IntTy) (o : Ops) :
    enter ctx (.member (.limits (.frac T o)) none N.«min» []) =
      run ctx ⟨inLimits T o, []⟩ (.ty (.frac T o)) F.min.body :=
  enter_member rfl rfl rfl rfl rfl rfl rfl rfl rfl

theorem enter_smallest (T : IntTy) (o : Ops) :
    enter ctx (.member (.limits (.frac T o)) none N.«smallest» []) =
      run ctx ⟨inLimits T o, []⟩ (.ty (.frac T o)) F.smallest.body :=
  enter_member rfl rfl rfl rfl rfl rfl rfl rfl rfl

theorem enter_undefined (T : IntTy) (o : Ops) :
    enter ctx (.member (.limits (.frac T o)) none N.«undefined» []) =
      run ctx ⟨inLimits T o, []⟩ (.ty (.frac T o)) F.undefined.body :=
  enter_member rfl rfl rfl rfl rfl rfl rfl rfl rfl

theorem enter_std_min (T : IntTy) (o : Ops) :
    enter ctx (.member (.stdLimits (.frac T o)) none N.«min» []) =
      run ctx ⟨inStd T o, []⟩ (.ty (.frac T o)) F.std_min.body :=
  enter_member rfl rfl rfl rfl rfl rfl rfl rfl rfl

theorem enter_std_lowest (T : IntTy) (o : Ops) :
    enter ctx (.member (.stdLimits (.frac T o)) none N.«lowest» []) =
      run ctx ⟨inStd T o, []⟩ (.ty (.frac T o)) F.std_lowest.body :=
  enter_member rfl rfl rfl rfl rfl rfl rfl rfl rfl

theorem enter_std_max (T : IntTy) (o : Ops) :
    enter ctx (.member (.stdLimits (.frac T o)) none N.«max» []) =
      run ctx ⟨inStd T o, []⟩ (.ty (.frac T o)) F.std_max.body :=
  enter_member rfl rfl rfl rfl rfl rfl rfl rfl rfl

theorem enter_std_epsilon (T : IntTy) (o : Ops) :
    enter ctx (.member (.stdLimits (.frac T o)) none N.«epsilon» []) =
      run ctx ⟨inStd T o, []⟩ (.ty (.frac T o)) F.std_epsilon.body :=
  enter_member rfl rfl rfl rfl rfl rfl rfl rfl rfl

theorem enter_std_round_error (T : IntTy) (o : Ops) :
    enter ctx (.member (.stdLimits (.frac T o)) none N.«round_error» []) =
      run ctx ⟨inStd T o, []⟩ (.ty (.frac T o)) F.std_round_error.body :=
  enter_member rfl rfl rfl rfl rfl rfl rfl rfl rfl

theorem enter_std_infinity (T : IntTy) (o : Ops) :
    enter ctx (.member (.stdLimits (.frac T o)) none N.«infinity» []) =
      run ctx ⟨inStd T o, []⟩ (.ty (.frac T o)) F.std_infinity.body :=
  enter_member rfl rfl rfl rfl rfl rfl rfl rfl rfl

theorem enter_std_quiet_NaN (T : IntTy) (o : Ops) :
    enter ctx (.member (.stdLimits (.frac T o)) none N.«quiet_NaN» []) =
      run ctx ⟨inStd T o, []⟩ (.ty (.frac T o)) F.std_quiet_NaN.body :=
  enter_member rfl rfl rfl rfl rfl rfl rfl rfl rfl

theorem enter_std_signaling_NaN (T : IntTy) (o : Ops) :
    enter ctx (.member (.stdLimits (.frac T o)) none N.«signaling_NaN» []) =
      run ctx ⟨inStd T o, []⟩ (.ty (.frac T o)) F.std_signaling_NaN.body :=
  enter_member rfl rfl rfl rfl rfl rfl rfl rfl rfl

theorem enter_std_denorm_min (T : IntTy) (o : Ops) :
    enter ctx (.member (.stdLimits (.frac T o)) none N.«denorm_min» []) =
      run ctx ⟨inStd T o, []⟩ (.ty (.frac T o)) F.std_denorm_min.body :=
  enter_member rfl rfl rfl rfl rfl rfl rfl rfl rfl

theorem enter_std_hash_raw (T : IntTy) (r : Raw) :
    enter ctx (.member (.stdHash (.raw T)) none N.«operator()» [.val (.raw T r)]) =
      run ctx ⟨[(N.«Rep», .ty (.int T)), (N.«Rep», .ty (.int T))], [(N.«value», .val (.raw T r))]⟩ .size F.std_hash_raw.body :=
  enter_member rfl rfl rfl rfl rfl (bind_one rfl (convert_raw T r)) rfl rfl rfl

theorem enter_std_hash_fraction (T : IntTy) (o : Ops) (r : Raw) :
    enter ctx (.member (.stdHash (.frac T o)) none N.«operator()» [.val (.frac T o r)]) =
      run ctx ⟨ofFraction T o ++ ofFraction T o, [(N.«value», .val (.frac T o r))]⟩ .size F.std_hash_fraction.body :=
  enter_member rfl rfl rfl rfl rfl (bind_one rfl (convert_frac T o r)) rfl rfl rfl

theorem enter_std_hash_mixed (W G : IntTy) (o : Ops) (m : Mixed) :
    enter ctx (.member (.stdHash (.mixed W G o)) none N.«operator()» [.val (.mixed W G o m)]) =
      run ctx ⟨ofMixed W G o ++ ofMixed W G o, [(N.«value», .val (.mixed W G o m))]⟩ .size F.std_hash_mixed.body :=
  enter_member rfl rfl rfl rfl rfl (bind_one rfl (convert_mixed W G o m)) rfl rfl rfl

theorem enter_div_fraction (T : IntTy) (s : Bool) (o : Ops) (l : Raw) (n : Int) :
    enter ctx (.free N.«operator/» [.val (.frac T o l), .lit s o n]) =
      run ctx ⟨[(N.«IsSigned», .flag s), (N.«Ops», .ty (.ops o)), (N.«Rep», .ty (.int T))],
        [(N.«left», .val (.frac T o l)), (N.«right», .lit s o n)]⟩ (.ty (.frac T o))
        F.div_fraction.body := by
  refine enter_free rfl ?_ rfl rfl rfl
  have e : leaf.free N.«operator/» = [F.div_fraction, F.div_rep] := by decide +kernel
  simp [e, candidates, F.div_fraction, F.div_rep, fit, unify, choose, Func.bare, Val.type,
    List.lookup]

theorem enter_literal (s : Bool) (o : Ops) (n : Int) :
    enter ctx (.member (.lit s o) none N.«denominator_literal» [.val (.int (litTy s) n)]) =
      run ctx ⟨inLit s o, [(N.«value», .val (.int (litTy s) n))]⟩ (.lit s o) F.literal.body := by
  cases s
  · exact enter_member rfl rfl rfl rfl rfl (bind_one rfl (convert_int _ _)) rfl rfl rfl
  · exact enter_member rfl rfl rfl rfl rfl (bind_one rfl (convert_int _ _)) rfl rfl rfl

theorem enter_value (s : Bool) (o : Ops) (n : Int) :
    enter ctx (.member (.lit s o) (some (.lit s o n)) N.«value» []) =
      run ctx ⟨inLit s o, [(N.«value_», .val (.int (litTy s) n))]⟩ (.ty (.int (litTy s)))
        F.literal_value.body := by
  cases s
  · exact enter_member rfl rfl rfl (by simp [C.literal, fieldsOf, resolve]; rfl)
      rfl rfl rfl rfl rfl
  · exact enter_member rfl rfl rfl (by simp [C.literal, fieldsOf, resolve]; rfl)
      rfl rfl rfl rfl rfl

/-! ### Expressions -/

section Expressions

variable {names : Names} {vars : List (Nat × LV z)} {t : Ty} {e a b : Exp} {f x : Nat} {v w : LV z}
  {u u' : Val} {r : Res (LV z)}

local notation "env" => (Env.mk names vars)

theorem eval_var (h1 : nameValue env x = some v) : eval ctx env (.var x) = pure v := by
  simp [eval, h1, orIll_some]
theorem eval_fld (h1 : eval ctx env e = pure (.val u)) (h2 : u.fields.lookup x = some u') :
    eval ctx env (.fld e x) = pure (.val u') := by
  simp [eval, h1, h2, plain, orIll_some]
theorem eval_meth (h1 : eval ctx env e = pure (.val u))
    (h2 : value (lib u.type.scope (some u) f [] []) = pure u') :
    eval ctx env (.meth e f) = pure (.val u') := by
  simp [eval, h1, method, h2]
theorem eval_meth_lit {s : Bool} {o : Ops} {n : Int} (h1 : eval ctx env e = pure (.lit s o n)) :
    eval ctx env (.meth e f) = inv (.member (.lit s o) (some (.lit s o n)) f []) := by
  simp [eval, h1, method]
theorem eval_call1 (h1 : eval ctx env a = pure v) :
    eval ctx env (.call1 f a) = inv (.free f [v]) := by
  simp [eval, h1]
theorem eval_call2 (h1 : eval ctx env a = pure v) (h2 : eval ctx env b = pure w) :
    eval ctx env (.call2 f a b) = inv (.free f [v, w]) := by
  simp [eval, h1, h2]
theorem eval_stat {T : IntTy} {k : Int}
    (h1 : resolve leaf.memberTy names t = some (.stdLimits (.int T)))
    (h2 : intLimit T f = some k) : eval ctx env (.stat t f) = pure (.val (.int T k)) := by
  simp [eval, h1, h2, static, orIll_some]
theorem eval_stat_call {l : LT} (h1 : resolve leaf.memberTy names t = some l)
    (h2 : static ctx l f = inv (.member l none f [])) :
    eval ctx env (.stat t f) = inv (.member l none f []) := by
  simp [eval, h1, h2, orIll_some]
theorem eval_const {T : IntTy} (h1 : resolve leaf.memberTy names t = some (.stdLimits (.int T)))
    (h2 : intConst T x = some v) : eval ctx env (.const t x) = pure v := by
  simp [eval, h1, h2, constant, orIll_some]
theorem eval_functor {T : IntTy} {k : Int}
    (h1 : resolve leaf.memberTy names t = some (.stdHash (.int T)))
    (h2 : eval ctx env e = pure (.val (.int T k))) :
    eval ctx env (.functor t e) = pure (.size (h T k)) := by
  simp [eval, h1, h2, functor, construct, orIll_some]
theorem eval_cast {T S : IntTy} {k : Int} (h1 : eval ctx env e = pure (.val (.int S k)))
    (h2 : resolve leaf.memberTy names t = some (.ty (.int T))) :
    eval ctx env (.cast t e) = (fun k => .val (.int T k)) <$> T.conv k := by
  simp [eval, h1, h2, plain, castTo, orIll_some]
theorem eval_zero {T : IntTy} (h1 : resolve leaf.memberTy names t = some (.ty (.int T)))
    (h2 : value (lib .global none N.«_0» [.int T] []) = pure (.int T 0)) :
    eval ctx env (.tmpl N.«_0» t) = pure (.val (.int T 0)) := by
  have : call library lib ⟨.global, [], []⟩ 0 N.«_0» [.int T] [] =
      value (lib .global none N.«_0» [.int T] []) := rfl
  simp only [eval, h1, orIll_some, pure_bind, this, h2, map_pure]
theorem eval_one {T : IntTy} (h1 : resolve leaf.memberTy names t = some (.ty (.int T)))
    (h2 : value (lib .global none N.«_1» [.int T] []) = pure (.int T 1)) :
    eval ctx env (.tmpl N.«_1» t) = pure (.val (.int T 1)) := by
  have : call library lib ⟨.global, [], []⟩ 0 N.«_1» [.int T] [] =
      value (lib .global none N.«_1» [.int T] []) := rfl
  simp only [eval, h1, orIll_some, pure_bind, this, h2, map_pure]

theorem run_ret {ret : LT} (h1 : eval ctx env e = pure v) :
    run ctx env ret (.ret e) = convert ctx ret v := by
  simp [run, h1]
theorem run_size {x : BitVec z} (h1 : eval ctx env e = pure (.size x)) :
    run ctx env .size (.ret e) = pure (.size x) := by
  simp [run, h1, convert]
theorem run_brace {T : TVal} {p q : Val} (h1 : eval ctx env a = pure (.val p))
    (h2 : eval ctx env b = pure (.val q)) :
    run ctx env (.ty T) (.brace a b) = LV.val <$> construct lib T [p, q] := by
  simp [run, h1, h2, plain]

end Expressions

/-! ### Hashing -/

/-- One step of a call. -/
theorem invoke_succ (n : Nat) (x : Callee z) :
    invoke leaf h (n + 1) x = enter ⟨leaf, h, Header.invoke library n, invoke leaf h n⟩ x := rfl

theorem combine_ok (hz : 2 ≤ z) (hn : 1 ≤ n) (x y : BitVec z) :
    invoke leaf h n (.free N.«hash_combine» [.size x, .size y]) =
      pure (.size (Hash.combine x y)) := by
  obtain ⟨n, rfl⟩ := Nat.exists_eq_add_of_le' hn
  rw [invoke_succ, enter_hash_combine]
  refine run_size ?_
  have : (1 : Int) < z := by omega
  simp [eval, nameValue, List.lookup, orIll_some, binary, Hash.combine, this]

theorem hash_raw_ok (hz : 2 ≤ z) (hn : 2 ≤ n) (T : IntTy) (r : Raw) :
    invoke leaf h n (.free N.«hash» [.val (.raw T r)]) =
      pure (.size (Hash.fraction (h T) r)) := by
  obtain ⟨n, rfl⟩ := Nat.exists_eq_add_of_le' (show 1 ≤ n by omega)
  rw [invoke_succ, enter_hash_raw]
  refine run_size ?_
  rw [eval_call2 (eval_functor rfl (eval_fld (eval_var rfl) rfl))
    (eval_functor rfl (eval_fld (eval_var rfl) rfl))]
  exact combine_ok hz (by omega) _ _

theorem hash_fraction_ok (hz : 2 ≤ z) (hn : 3 ≤ n) (T : IntTy) (o : Ops) (r : Raw) :
    invoke leaf h n (.free N.«hash» [.val (.frac T o r)]) =
      pure (.size (Hash.fraction (h T) r)) := by
  obtain ⟨n, rfl⟩ := Nat.exists_eq_add_of_le' (show 1 ≤ n by omega)
  rw [invoke_succ, enter_hash_fraction]
  refine run_size ?_
  rw [eval_call1 (eval_meth (eval_var rfl) (fraction_raw_ok (by omega) T o r))]
  exact hash_raw_ok hz (by omega) T r

theorem hash_mixed_ok (hz : 2 ≤ z) (hn : 5 ≤ n) (W G : IntTy) (o : Ops) (m : Mixed) :
    invoke leaf h n (.free N.«hash» [.val (.mixed W G o m)]) =
      pure (.size (Hash.mixed (h W) (h G) m)) := by
  obtain ⟨n, rfl⟩ := Nat.exists_eq_add_of_le' (show 1 ≤ n by omega)
  rw [invoke_succ, enter_hash_mixed]
  refine run_size ?_
  rw [eval_call2 (eval_functor rfl (eval_meth (eval_var rfl) (mixed_whole_ok W G o m (by omega))))
    ((eval_call1 (eval_meth (eval_var rfl) (mixed_fractional_ok W G o m (by omega)))).trans
      (hash_fraction_ok hz (by omega) G o m.frac))]
  exact combine_ok hz (by omega) _ _

theorem std_hash_raw_ok (hz : 2 ≤ z) (hn : 6 ≤ n) (T : IntTy) (r : Raw) :
    invoke leaf h n (.member (.stdHash (.raw T)) none N.«operator()» [.val (.raw T r)]) =
      pure (.size (Hash.fraction (h T) r)) := by
  obtain ⟨n, rfl⟩ := Nat.exists_eq_add_of_le' (show 1 ≤ n by omega)
  rw [invoke_succ, enter_std_hash_raw]
  exact run_size ((eval_call1 (eval_var rfl)).trans (hash_raw_ok hz (by omega) T r))

theorem std_hash_fraction_ok (hz : 2 ≤ z) (hn : 6 ≤ n) (T : IntTy) (o : Ops) (r : Raw) :
    invoke leaf h n (.member (.stdHash (.frac T o)) none N.«operator()» [.val (.frac T o r)]) =
      pure (.size (Hash.fraction (h T) r)) := by
  obtain ⟨n, rfl⟩ := Nat.exists_eq_add_of_le' (show 1 ≤ n by omega)
  rw [invoke_succ, enter_std_hash_fraction]
  exact run_size ((eval_call1 (eval_var rfl)).trans (hash_fraction_ok hz (by omega) T o r))

theorem std_hash_mixed_ok (hz : 2 ≤ z) (hn : 6 ≤ n) (W G : IntTy) (o : Ops) (m : Mixed) :
    invoke leaf h n (.member (.stdHash (.mixed W G o)) none N.«operator()»
      [.val (.mixed W G o m)]) = pure (.size (Hash.mixed (h W) (h G) m)) := by
  obtain ⟨n, rfl⟩ := Nat.exists_eq_add_of_le' (show 1 ≤ n by omega)
  rw [invoke_succ, enter_std_hash_mixed]
  exact run_size ((eval_call1 (eval_var rfl)).trans (hash_mixed_ok hz (by omega) W G o m))

/-! ### Limits -/

theorem convert_one {n : Nat} (hn : 4 ≤ n) (T : IntTy) (o : Ops) (k : Int) :
    convert (Ctx.mk leaf h (Header.invoke library n) inv) (.ty (.frac T o)) (.val (.int T k)) =
      pure (.val (.frac T o (Fraction.mk k))) := by
  simp [convert, construct_frac, Val.type, fraction_mk_one_ok (show 2 ≤ n by omega),
    toTy_self]

theorem limit_ok {hh : IntTy → Int → BitVec z} {n : Nat} (hn : 4 ≤ n) {T : IntTy} {o : Ops}
    {names : Names} {t : Ty} {f : Nat} {k : Int}
    (h1 : resolve leaf.memberTy names t = some (.stdLimits (.int T)))
    (h2 : intLimit T f = some k) :
    run (Ctx.mk leaf hh (Header.invoke library n) inv) ⟨names, []⟩ (.ty (.frac T o))
      (.ret (.stat t f)) = pure (.val (.frac T o (Fraction.mk k))) :=
  (run_ret (eval_stat h1 h2)).trans (convert_one hn T o k)

theorem max_ok (hn : 5 ≤ n) (T : IntTy) (o : Ops) :
    invoke leaf h n (.member (.limits (.frac T o)) none N.«max» []) =
      pure (.val (.frac T o (Limits.max T))) := by
  obtain ⟨n, rfl⟩ := Nat.exists_eq_add_of_le' (show 1 ≤ n by omega)
  rw [invoke_succ, enter_max]
  exact limit_ok (by omega) rfl rfl

theorem min_ok (hn : 5 ≤ n) (T : IntTy) (o : Ops) :
    invoke leaf h n (.member (.limits (.frac T o)) none N.«min» []) =
      pure (.val (.frac T o (Limits.min T))) := by
  obtain ⟨n, rfl⟩ := Nat.exists_eq_add_of_le' (show 1 ≤ n by omega)
  rw [invoke_succ, enter_min]
  exact limit_ok (by omega) rfl rfl

theorem construct_two {n : Nat} (hn : 2 ≤ n) (T : IntTy) (o : Ops) (k l : Int) :
    construct (Header.invoke library n) (.frac T o) [.int T k, .int T l] =
      pure (.frac T o (Fraction.mk k l)) := by
  simp [construct_frac_two, fraction_mk_ok hn, toTy_self]

theorem smallest_ok (hn : 5 ≤ n) (T : IntTy) (o : Ops) :
    invoke leaf h n (.member (.limits (.frac T o)) none N.«smallest» []) =
      pure (.val (.frac T o (Limits.smallest T))) := by
  obtain ⟨n, rfl⟩ := Nat.exists_eq_add_of_le' (show 1 ≤ n by omega)
  rw [invoke_succ, enter_smallest]
  refine (run_brace (eval_one rfl (one_ok (by omega) T)) (eval_stat rfl rfl)).trans ?_
  rw [construct_two (by omega)]
  rfl

theorem undefined_ok (hn : 5 ≤ n) (T : IntTy) (o : Ops) :
    invoke leaf h n (.member (.limits (.frac T o)) none N.«undefined» []) =
      pure (.val (.frac T o Limits.undefined)) := by
  obtain ⟨n, rfl⟩ := Nat.exists_eq_add_of_le' (show 1 ≤ n by omega)
  rw [invoke_succ, enter_undefined]
  refine (run_brace (eval_zero rfl (zero_ok (by omega) T)) (eval_zero rfl (zero_ok (by omega) T))).trans ?_
  rw [construct_two (by omega)]
  rfl

theorem forward_ok {hh : IntTy → Int → BitVec z} {n : Nat} {T : IntTy} {o : Ops}
    {names : Names} {t : Ty} {f : Nat} {r : Raw}
    (h1 : resolve leaf.memberTy names t = some (.limits (.frac T o)))
    (h2 : inv (.member (.limits (.frac T o)) none f []) = pure (.val (.frac T o r))) :
    run (Ctx.mk leaf hh (Header.invoke library n) inv) ⟨names, []⟩ (.ty (.frac T o))
      (.ret (.stat t f)) = pure (.val (.frac T o r)) :=
  (run_ret ((eval_stat_call h1 rfl).trans h2)).trans (convert_frac T o r)

theorem std_min_ok (hn : 6 ≤ n) (T : IntTy) (o : Ops) :
    invoke leaf h n (.member (.stdLimits (.frac T o)) none N.«min» []) =
      pure (.val (.frac T o (Limits.stdMin T))) := by
  obtain ⟨n, rfl⟩ := Nat.exists_eq_add_of_le' (show 1 ≤ n by omega)
  rw [invoke_succ, enter_std_min]
  exact forward_ok rfl (min_ok (by omega) T o)

theorem std_lowest_ok (hn : 6 ≤ n) (T : IntTy) (o : Ops) :
    invoke leaf h n (.member (.stdLimits (.frac T o)) none N.«lowest» []) =
      pure (.val (.frac T o (Limits.stdLowest T))) := by
  obtain ⟨n, rfl⟩ := Nat.exists_eq_add_of_le' (show 1 ≤ n by omega)
  rw [invoke_succ, enter_std_lowest]
  exact forward_ok rfl (min_ok (by omega) T o)

theorem std_max_ok (hn : 6 ≤ n) (T : IntTy) (o : Ops) :
    invoke leaf h n (.member (.stdLimits (.frac T o)) none N.«max» []) =
      pure (.val (.frac T o (Limits.stdMax T))) := by
  obtain ⟨n, rfl⟩ := Nat.exists_eq_add_of_le' (show 1 ≤ n by omega)
  rw [invoke_succ, enter_std_max]
  exact forward_ok rfl (max_ok (by omega) T o)

theorem std_epsilon_ok (hn : 6 ≤ n) (T : IntTy) (o : Ops) :
    invoke leaf h n (.member (.stdLimits (.frac T o)) none N.«epsilon» []) =
      pure (.val (.frac T o (Limits.stdEpsilon T))) := by
  obtain ⟨n, rfl⟩ := Nat.exists_eq_add_of_le' (show 1 ≤ n by omega)
  rw [invoke_succ, enter_std_epsilon]
  exact forward_ok rfl (smallest_ok (by omega) T o)

theorem std_quiet_NaN_ok (hn : 6 ≤ n) (T : IntTy) (o : Ops) :
    invoke leaf h n (.member (.stdLimits (.frac T o)) none N.«quiet_NaN» []) =
      pure (.val (.frac T o Limits.stdQuietNaN)) := by
  obtain ⟨n, rfl⟩ := Nat.exists_eq_add_of_le' (show 1 ≤ n by omega)
  rw [invoke_succ, enter_std_quiet_NaN]
  exact forward_ok rfl (undefined_ok (by omega) T o)

theorem std_round_error_ok (hn : 6 ≤ n) (T : IntTy) (o : Ops) :
    invoke leaf h n (.member (.stdLimits (.frac T o)) none N.«round_error» []) =
      pure (.val (.frac T o Limits.stdRoundError)) := by
  obtain ⟨n, rfl⟩ := Nat.exists_eq_add_of_le' (show 1 ≤ n by omega)
  rw [invoke_succ, enter_std_round_error]
  exact limit_ok (by omega) rfl rfl

theorem std_infinity_ok (hn : 6 ≤ n) (T : IntTy) (o : Ops) :
    invoke leaf h n (.member (.stdLimits (.frac T o)) none N.«infinity» []) =
      pure (.val (.frac T o Limits.stdInfinity)) := by
  obtain ⟨n, rfl⟩ := Nat.exists_eq_add_of_le' (show 1 ≤ n by omega)
  rw [invoke_succ, enter_std_infinity]
  exact limit_ok (by omega) rfl rfl

theorem std_signaling_NaN_ok (hn : 6 ≤ n) (T : IntTy) (o : Ops) :
    invoke leaf h n (.member (.stdLimits (.frac T o)) none N.«signaling_NaN» []) =
      pure (.val (.frac T o Limits.stdSignalingNaN)) := by
  obtain ⟨n, rfl⟩ := Nat.exists_eq_add_of_le' (show 1 ≤ n by omega)
  rw [invoke_succ, enter_std_signaling_NaN]
  exact limit_ok (by omega) rfl rfl

theorem std_denorm_min_ok (hn : 6 ≤ n) (T : IntTy) (o : Ops) :
    invoke leaf h n (.member (.stdLimits (.frac T o)) none N.«denorm_min» []) =
      pure (.val (.frac T o Limits.stdDenormMin)) := by
  obtain ⟨n, rfl⟩ := Nat.exists_eq_add_of_le' (show 1 ≤ n by omega)
  rw [invoke_succ, enter_std_denorm_min]
  exact limit_ok (by omega) rfl rfl

theorem std_const_ok (hn : 1 ≤ n) (T : IntTy) (o : Ops) {x : Nat} {t : Ty} {y : Nat} {v : LV z}
    (h1 : C.std.consts.lookup x = some (.const t y))
    (h2 : resolve leaf.memberTy (inStdClass T o) t = some (.stdLimits (.int T)))
    (h3 : intConst T y = some v) :
    invoke leaf h n (.const (.stdLimits (.frac T o)) x) = pure v := by
  obtain ⟨n, rfl⟩ := Nat.exists_eq_add_of_le' hn
  rw [invoke_succ, enter_const (names := inStdClass T o) rfl rfl h1]
  exact eval_const h2 h3

theorem std_const_var_ok (hn : 1 ≤ n) (T : IntTy) (o : Ops) {x y : Nat} {v : LV z}
    (h1 : C.std.consts.lookup x = some (.var y))
    (h2 : nameValue ⟨inStdClass T o, []⟩ y = some v) :
    invoke leaf h n (.const (.stdLimits (.frac T o)) x) = pure v := by
  obtain ⟨n, rfl⟩ := Nat.exists_eq_add_of_le' hn
  rw [invoke_succ, enter_const (names := inStdClass T o) rfl rfl h1]
  exact eval_var h2

/-! ### Limits of mixed numbers -/

theorem limits_mixed_none (W G : IntTy) (o : Ops) :
    leaf.instance? Leaf.memberTy (.limits (.mixed W G o)) = none := by
  by_cases ho : o = .defaults
  · subst ho
    rfl
  · simp [Program.instance?, leaf, Program.append, Prog.hash, Prog.limits, Prog.literalNames,
      Prog.literals, C.hash_raw, C.hash_fraction, C.hash_mixed, C.limits, C.limits_mixed, C.std,
      C.std_mixed, C.literal, findCls, unify, selfTy, ho]

theorem limits_mixed_ok (W G : IntTy) (o : Ops) (f : Nat) (hn : 1 ≤ n) :
    invoke leaf h n (.member (.limits (.mixed W G o)) none f []) = .fault .illFormed := by
  obtain ⟨n, rfl⟩ := Nat.exists_eq_add_of_le' hn
  rw [invoke_succ]
  simp [enter, isPrimary, callMember, limits_mixed_none, orIll, illFormed]

theorem std_mixed_member_ok (W G : IntTy) (f : Nat) (hn : 1 ≤ n) :
    invoke leaf h n (.member (.stdLimits (.mixed W G .defaults)) none f []) =
      .fault .illFormed := by
  obtain ⟨n, rfl⟩ := Nat.exists_eq_add_of_le' hn
  have h0 : isPrimary leaf (.stdLimits (.mixed W G .defaults)) = none := rfl
  have h1 : leaf.instance? Leaf.memberTy (.stdLimits (.mixed W G .defaults)) = none := rfl
  rw [invoke_succ]
  simp [enter, h0, callMember, h1, orIll, illFormed]

theorem std_mixed_const_ok (W G : IntTy) (x : Nat) (hn : 1 ≤ n) :
    invoke leaf h n (.const (.stdLimits (.mixed W G .defaults)) x) = .fault .illFormed := by
  obtain ⟨n, rfl⟩ := Nat.exists_eq_add_of_le' hn
  have h0 : isPrimary leaf (.stdLimits (.mixed W G .defaults)) = none := rfl
  have h1 : leaf.instance? Leaf.memberTy (.stdLimits (.mixed W G .defaults)) = none := rfl
  rw [invoke_succ]
  simp [enter, h0, h1, orIll, illFormed]

theorem isPrimary_mixed (W G : IntTy) {o : Ops} (ho : o ≠ .defaults) :
    isPrimary leaf (.stdLimits (.mixed W G o)) = some (.mixed W G o) := by
  simp [isPrimary, leaf, Program.append, Prog.hash, Prog.limits, Prog.literalNames,
    Prog.literals, C.hash_raw, C.hash_fraction, C.hash_mixed, C.limits, C.limits_mixed, C.std,
    C.std_mixed, C.literal, findCls, unify, selfTy, isLimits, ho]

theorem primary_member_ok (W G : IntTy) {o : Ops} (ho : o ≠ .defaults) {f : Nat}
    (hf : (intLimit i32 f).isSome) (hn : 7 ≤ n) :
    invoke leaf h n (.member (.stdLimits (.mixed W G o)) none f []) =
      pure (.val (.mixed W G o Mixed.default)) := by
  obtain ⟨n, rfl⟩ := Nat.exists_eq_add_of_le' (show 1 ≤ n by omega)
  rw [invoke_succ]
  simp [enter, isPrimary_mixed W G ho, primary, hf, construct_mixed_nil,
    mixed_default_ok W G o (show 6 ≤ n by omega)]

theorem primary_const_ok (W G : IntTy) {o : Ops} (ho : o ≠ .defaults) {x : Nat} {v : LV z}
    (hx : primaryConst x = some v) (hn : 1 ≤ n) :
    invoke leaf h n (.const (.stdLimits (.mixed W G o)) x) = pure v := by
  obtain ⟨n, rfl⟩ := Nat.exists_eq_add_of_le' hn
  rw [invoke_succ]
  simp [enter, isPrimary_mixed W G ho, primary, hx, orIll_some]

/-! ### Literals -/

theorem literal_ok (hn : 1 ≤ n) (s : Bool) (o : Ops) (k : Int) :
    invoke leaf h n (.member (.lit s o) none N.«denominator_literal» [.val (.int (litTy s) k)]) =
      pure (.lit s o k) := by
  obtain ⟨n, rfl⟩ := Nat.exists_eq_add_of_le' hn
  have h1 : leaf.instance? Leaf.memberTy (.lit s o) = some (C.literal, (inLit s o).drop 2) := by
    cases s <;> rfl
  have h2 : resolve Leaf.memberTy ((inLit s o).drop 2) (.name N.«value_type») =
      some (.ty (.int (litTy s))) := rfl
  rw [invoke_succ, enter_literal]
  simp only [F.literal, run]
  rw [eval_var (v := .val (.int (litTy s) k)) rfl]
  have h3 : C.literal.fields.lookup N.«value_» = some (.name N.«value_type») := rfl
  simp only [h1, h3, h2, orIll_some, convert_int, pure_bind]

theorem value_ok (hn : 1 ≤ n) (s : Bool) (o : Ops) (k : Int) :
    invoke leaf h n (.member (.lit s o) (some (.lit s o k)) N.«value» []) =
      pure (.val (.int (litTy s) k)) := by
  obtain ⟨n, rfl⟩ := Nat.exists_eq_add_of_le' hn
  rw [invoke_succ, enter_value]
  exact (run_ret (eval_var rfl)).trans (convert_int _ _)

theorem fr_ok (hn : 2 ≤ n) (k : Int) :
    invoke leaf h n (.free N.«_fr» [.val (.int u64 k)]) = pure (.lit false .defaults k) := by
  obtain ⟨n, rfl⟩ := Nat.exists_eq_add_of_le' (show 1 ≤ n by omega)
  rw [invoke_succ, enter_fr]
  refine (run_ret (eval_var rfl)).trans ?_
  exact literal_ok (by omega) false .defaults k

theorem pos_ok (hn : 1 ≤ n) (s : Bool) (o : Ops) (k : Int) :
    invoke leaf h n (.free N.«operator+» [.lit s o k]) = pure (.lit s o k) := by
  obtain ⟨n, rfl⟩ := Nat.exists_eq_add_of_le' hn
  rw [invoke_succ, enter_literal_pos]
  refine (run_ret (eval_var rfl)).trans ?_
  simp [convert]

theorem eval_value {hh : IntTy → Int → BitVec z} {n : Nat} (hn : 1 ≤ n) {names : Names}
    {vars : List (Nat × LV z)} {x : Nat} {s : Bool} {o : Ops} {k : Int}
    (h1 : nameValue ⟨names, vars⟩ x = some (.lit s o k)) :
    eval (Ctx.mk leaf hh lib (invoke leaf hh n)) ⟨names, vars⟩ (.meth (.var x) N.«value») =
      pure (.val (.int (litTy s) k)) :=
  (eval_meth_lit (eval_var h1)).trans (value_ok hn s o k)

theorem neg_ok (hn : 2 ≤ n) (s : Bool) (o : Ops) (k : Int) :
    invoke leaf h n (.free N.«operator-» [.lit s o k]) =
      (fun l : DenLit => .lit l.signed o l.value) <$> DenLit.neg ⟨s, k⟩ := by
  obtain ⟨n, rfl⟩ := Nat.exists_eq_add_of_le' (show 1 ≤ n by omega)
  rw [invoke_succ, enter_literal_neg]
  have h1 : resolve leaf.memberTy (ofLit s o)
      (.mem (.app2 N.«denominator_literal» (.name N.«true») (.name N.«Ops»)) N.«value_type») =
      some (.ty (.int i64)) := rfl
  have h2 := literal_ok (h := h) (show 1 ≤ n by omega) true o
  simp only [F.literal_neg, run]
  rw [eval, eval_cast (eval_value (by omega) rfl) h1]
  simp only [litTy, if_true] at h2
  simp [plain, unary, convert, h2, DenLit.neg]

theorem div_fraction_ok (T : IntTy) (s : Bool) (o : Ops) (l : Raw) (k : Int)
    (hn : opsDepth o + 2 ≤ n) :
    invoke leaf h n (.free N.«operator/» [.val (.frac T o l), .lit s o k]) =
      (fun r => .val (.frac T o r)) <$> DenLit.divFraction T o l ⟨s, k⟩ := by
  obtain ⟨n, rfl⟩ := Nat.exists_eq_add_of_le' (show 1 ≤ n by omega)
  have := opsDepth_ge o
  rw [invoke_succ, enter_div_fraction]
  simp only [F.div_fraction, run]
  rw [eval, eval_var (v := .val (.frac T o l)) rfl, eval_cast (eval_value (by omega) rfl) rfl]
  simp [binary, binary_frac, opName, fraction_dividesFR_ok T T o l _ (show opsDepth o + 1 ≤ n by omega),
    DenLit.divFraction, convert_frac]

theorem div_rep_ok (T : IntTy) (s : Bool) (o : Ops) (l k : Int) (hn : 4 ≤ n) :
    invoke leaf h n (.free N.«operator/» [.val (.int T l), .lit s o k]) =
      (fun r => .val (.frac T o r)) <$> DenLit.divRep T l ⟨s, k⟩ := by
  obtain ⟨n, rfl⟩ := Nat.exists_eq_add_of_le' (show 1 ≤ n by omega)
  rw [invoke_succ, enter_div_rep]
  simp only [F.div_rep, run]
  rw [eval_var (v := .val (.int T l)) rfl, eval_cast (eval_value (by omega) rfl) rfl]
  simp [plain, construct_two (show 2 ≤ n by omega), DenLit.divRep]

theorem Gives.unique {x : Callee z} {r s : Res (LV z)} (hr : Gives h x r) (hs : Gives h x s) :
    r = s := by
  obtain ⟨a, ha⟩ := hr
  obtain ⟨b, hb⟩ := hs
  exact (ha (max a b) (le_max_left ..)).symm.trans (hb (max a b) (le_max_right ..))

end Ieme.Leaf
