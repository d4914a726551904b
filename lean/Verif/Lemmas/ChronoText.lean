import Verif.Spec.ChronoText
import Verif.Lemmas.HeaderFraction
import Verif.Lemmas.HeaderMixed

/-! # Lemmas about evaluating the text of `chrono.hpp` -/

namespace Ieme.ChronoText

open Header hiding Ty Func Cls Program Env eval run invoke builtinTy memberTy fit
open Chrono (Period ratioDivide)

variable {n : Nat} {T S : IntTy} {o : Ops} {p q : Period} {c : Clock} {x : Int} {f : Raw}

theorem floating_frac : program.floating (.frac T o) = true := rfl

theorem floating_int : program.floating (.int T) = false := rfl

theorem duration_alias : program.alias 5 N.«duration» [.ty (.int T), .period q, .ty (.ops o)] =
    some (.dur (.frac T o) q) := rfl

theorem time_point_alias :
    program.alias 5 N.«time_point» [.clock c, .ty (.int T), .period q, .ty (.ops o)] =
      some (.tp c (.frac T o) q) := rfl

theorem factor_ok (h : 2 ≤ n) (hx : S.InRange x) :
    construct (Header.invoke library n) (.frac T o) [.int S x] =
      Val.frac T o <$> Chrono.factor T x := by
  have := fraction_mk_one_ok h T S o x
  rw [toTy_eq T hx] at this
  exact this

theorem copy_ok (inv : Invoke) : construct inv (.frac T o) [.frac T o f] = pure (.frac T o f) := by
  simp [construct, Val.type]

theorem mul_ok (l r : Raw) (h : opsDepth o + 1 ≤ n) :
    binary (Header.invoke library n) .mul (.frac T o l) (.frac T o r) =
      Val.frac T o <$> Fraction.arith T T o .multiplies (.ff l r) := by
  rw [binary_frac]
  have := fraction_multipliesFF_ok T T o l r h
  rw [IntTy.common_self] at this
  exact this

theorem div_ok (l r : Raw) (h : opsDepth o + 1 ≤ n) :
    binary (Header.invoke library n) .div (.frac T o l) (.frac T o r) =
      Val.frac T o <$> Fraction.arith T T o .divides (.ff l r) := by
  rw [binary_frac]
  have := fraction_dividesFF_ok T T o l r h
  rw [IntTy.common_self] at this
  exact this

theorem castCount_ok {v : Val} {k : Chrono.Count} (h : Shows T o v k)
    (hn : opsDepth o + 1 ≤ n) {a b : Int}
    (ha : i64.InRange a) (hb : i64.InRange b) :
    castCount (Header.invoke library n) T o a b v =
      Val.frac T o <$> (do
        let x ← k.cast T
        if a = 1 ∧ b = 1 then return x
        else if b = 1 then
          let n' ← Chrono.factor T a
          Fraction.arith T T o .multiplies (.ff x n')
        else if a = 1 then
          let d' ← Chrono.factor T b
          Fraction.arith T T o .divides (.ff x d')
        else
          let n' ← Chrono.factor T a
          let y ← Fraction.arith T T o .multiplies (.ff x n')
          let d' ← Chrono.factor T b
          Fraction.arith T T o .divides (.ff y d')) := by
  have h2 := opsDepth_ge o
  have hx : construct (Header.invoke library n) (.frac T o) [v] = Val.frac T o <$> k.cast T := by
    cases h with
    | int hx => exact factor_ok (by omega) hx
    | frac f => simp [copy_ok, Chrono.Count.cast]
  unfold castCount
  rw [hx, factor_ok (by omega) ha, factor_ok (by omega) hb]
  simp only [map_eq_pure_bind, bind_assoc, pure_bind]
  congr 1; funext x
  split
  · simp only [pure_bind]
  split
  · simp only [mul_ok _ _ hn, map_eq_pure_bind, bind_assoc]
  split
  · simp only [div_ok _ _ hn, map_eq_pure_bind, bind_assoc]
  · simp only [mul_ok _ _ hn, div_ok _ _ hn, map_eq_pure_bind, bind_assoc, pure_bind]

theorem convertCount_ok {v : Val} {k : Chrono.Count} (h : Shows T o v k) (hn : opsDepth o + 1 ≤ n) :
    convertCount program (Header.invoke library n) (.frac T o) p q v =
      Val.frac T o <$> Chrono.convert T o p q k := by
  have hc : comparable T o v = true := by cases h <;> simp [comparable]
  simp only [convertCount, Chrono.convert, Chrono.durationCast, hc, floating_frac,
    Chrono.treatAsFloatingPoint]
  cases hr : ratioDivide p q with
  | none => rfl
  | some r =>
    obtain ⟨a, b⟩ := r
    have hab : i64.InRange a ∧ i64.InRange b := by
      simp only [ratioDivide] at hr
      split at hr
      · next h => cases hr; exact h
      · cases hr
    simp only [true_or, and_self, if_true, castCount_ok h hn hab.1 hab.2]

/-- A duration converts to itself. -/
theorem convert_self (f : Raw) : Chrono.convert T o p p (.frac f) = pure f := by
  have h1 : (p.num * p.den) / (Int.gcd (p.num * p.den) (p.den * p.num) : Int) = 1 := by
    rw [Int.mul_comm p.den]
    have : 0 < p.num * p.den := Int.mul_pos p.num_pos p.den_pos
    rw [Int.gcd_self, Int.natAbs_of_nonneg (by omega), Int.ediv_self (by omega)]
  have h2 : (p.den * p.num) / (Int.gcd (p.num * p.den) (p.den * p.num) : Int) = 1 := by
    rw [← h1, Int.mul_comm p.den]
  have h : ratioDivide p p = some (1, 1) := by
    unfold ratioDivide
    simp only [h1, h2]
    rw [if_pos (by decide)]
  simp [Chrono.convert, Chrono.durationCast, h, Chrono.treatAsFloatingPoint, Chrono.Count.cast]

theorem convert_dur {v : Val} {k : Chrono.Count} (h : Shows T o v k) (hn : opsDepth o + 1 ≤ n) :
    convert program (Header.invoke library n) (.dur (.frac T o) q) (.dur p v) =
      fractional T o q <$> Chrono.convert T o p q k := by
  unfold convert
  split
  · next he =>
    simp only [CV.type, CT.dur.injEq] at he
    cases h with
    | int => exact absurd he.1 (by simp [Val.type])
    | frac f => rw [he.2, convert_self]; rfl
  · simp only [convertCount_ok h hn, ← comp_map]; rfl

theorem convert_tp {v : Val} {k : Chrono.Count} (h : Shows T o v k) (hn : opsDepth o + 1 ≤ n) :
    convert program (Header.invoke library n) (.tp c (.frac T o) q) (.tp c p v) =
      fractionalAt c T o q <$> Chrono.convert T o p q k := by
  unfold convert
  split
  · next he =>
    simp only [CV.type, CT.tp.injEq] at he
    cases h with
    | int => exact absurd he.2.1 (by simp [Val.type])
    | frac f => rw [he.2.2, convert_self]; rfl
  · simp only [if_true, convertCount_ok h hn, ← comp_map]; rfl

theorem convert_done (lib : Invoke) (v : CV) : convert program lib v.type v = pure v := by
  simp [convert]

/-! ## Entering the functions of the header -/

theorem enter_duration (lib : Invoke) (v : CV) :
    enter program lib (.cast N.«duration» [.ty (.int T), .period q, .ty (.ops o)] v) =
      convert program lib (.dur (.frac T o) q) v := by
  simp only [enter, duration_alias, orIll, pure_bind]

theorem enter_time_point (lib : Invoke) (v : CV) :
    enter program lib (.cast N.«time_point» [.clock c, .ty (.int T), .period q, .ty (.ops o)] v) =
      convert program lib (.tp c (.frac T o) q) v := by
  simp only [enter, time_point_alias, orIll, pure_bind]

theorem run_eq {lib : Invoke} {names : Names} {vars : List (Nat × CV)} {g : Func} {e : Exp} {t : CT}
    {r : Res CV} (hb : g.body = some e) (he : eval program lib names vars e = r)
    (ht : program.resolve names g.ret = some t) :
    run program lib names vars g = r >>= convert program lib t := by
  simp only [run, hb, ht, he, orIll, pure_bind]

theorem eval_cast_var {lib : Invoke} {names : Names} {vars : List (Nat × CV)} {x : Nat} {t : Ty}
    {t' : CT} {v : CV} (hv : vars.lookup x = some v) (ht : program.resolve names t = some t') :
    eval program lib names vars (.cast t (.var x)) = convert program lib t' v := by
  simp only [eval, hv, ht, orIll, pure_bind]

/-- The definition at lines 92-97. -/
def F.dur : Func := program.funcs[2]

/-- The definition at lines 99-106. -/
def F.tp : Func := program.funcs[3]

theorem enter_one {lib : Invoke} {g : Func} {names : Names} {f : Nat} {given : List CT}
    {args : List CV}
    (h : candidates program given args
      (program.funcs.filter fun g => g.name == f && g.body.isSome) = [(g, names)]) :
    enter program lib (.call f given args) =
      run program lib names ((g.params.map Prod.snd).zip args) g := by
  simp only [enter, h]

theorem candidates_dur (x : Int) : candidates program [] [.dur p (.int T x)]
    (program.funcs.filter fun g => g.name == N.«to_fractional» && g.body.isSome) =
      [(F.dur, [(N.«Ops», .ty (.ops .defaults)), (N.«Period», .period p), (N.«Rep», .ty (.int T))])] :=
  rfl

theorem candidates_tp (x : Int) : candidates program [] [.tp c p (.int T x)]
    (program.funcs.filter fun g => g.name == N.«to_fractional» && g.body.isSome) =
      [(F.tp, [(N.«Ops», .ty (.ops .defaults)), (N.«Duration», .dur (.int T) p),
        (N.«Clock», .clock c)])] :=
  rfl

theorem functions :
    (program.funcs.filter fun g => g.name == N.«to_fractional» && g.body.isSome) = [F.dur, F.tp] :=
  rfl

theorem deduce_dur_dur (x : Int) :
    program.deduce [.ty (.int T), .period p, .ty (.ops o)] [.dur p (.int T x)] F.dur =
      some [(N.«Rep», .ty (.int T)), (N.«Period», .period p), (N.«Ops», .ty (.ops o))] := by
  have h : fit (F.dur.tparams.map TParam.name) ((F.dur.tparams.map TParam.name).zip
      [.ty (.int T), .period p, .ty (.ops o)]) F.dur.params [.dur p (.int T x)] =
      some [(N.«Rep», .ty (.int T)), (N.«Period», .period p), (N.«Ops», .ty (.ops o))] := by
    change (if N.«std::chrono::duration» = N.«std::chrono::duration» then (do
      let names ← (if CT.ty (.int T) = .ty (.int T) then some _ else none)
      unify _ names (.name false N.«Period») (.period p)) else none) >>= _ = _
    simp only [if_true]
    change (if CT.period p = .period p then some _ else none) >>= _ = _
    simp only [if_true]
    rfl
  simp only [Program.deduce]
  rw [h]
  rfl

theorem deduce_dur_tp (x : Int) :
    program.deduce [.ty (.int T), .period p, .ty (.ops o)] [.dur p (.int T x)] F.tp = none := rfl

theorem deduce_tp_tp (x : Int) :
    program.deduce [.clock c, .dur (.int T) p, .ty (.ops o)] [.tp c p (.int T x)] F.tp =
      some [(N.«Clock», .clock c), (N.«Duration», .dur (.int T) p), (N.«Ops», .ty (.ops o))] := by
  have h : fit (F.tp.tparams.map TParam.name) ((F.tp.tparams.map TParam.name).zip
      [.clock c, .dur (.int T) p, .ty (.ops o)]) F.tp.params [.tp c p (.int T x)] =
      some [(N.«Clock», .clock c), (N.«Duration», .dur (.int T) p), (N.«Ops», .ty (.ops o))] := by
    change (if N.«std::chrono::time_point» = N.«std::chrono::time_point» then (do
      let names ← (if CT.clock c = .clock c then some _ else none)
      unify _ names (.name false N.«Duration») (.dur (.int T) p)) else none) >>= _ = _
    simp only [if_true]
    change (if CT.dur (.int T) p = .dur (.int T) p then some _ else none) >>= _ = _
    simp only [if_true]
    rfl
  simp only [Program.deduce]
  rw [h]
  rfl

theorem deduce_tp_dur (x : Int) :
    program.deduce [.clock c, .dur (.int T) p, .ty (.ops o)] [.tp c p (.int T x)] F.dur = none := rfl

theorem candidates_dur_given (x : Int) :
    candidates program [.ty (.int T), .period p, .ty (.ops o)] [.dur p (.int T x)]
      (program.funcs.filter fun g => g.name == N.«to_fractional» && g.body.isSome) =
      [(F.dur, [(N.«Rep», .ty (.int T)), (N.«Period», .period p), (N.«Ops», .ty (.ops o))])] := by
  rw [functions]
  simp only [candidates, deduce_dur_dur, deduce_dur_tp]

theorem candidates_tp_given (x : Int) :
    candidates program [.clock c, .dur (.int T) p, .ty (.ops o)] [.tp c p (.int T x)]
      (program.funcs.filter fun g => g.name == N.«to_fractional» && g.body.isSome) =
      [(F.tp, [(N.«Clock», .clock c), (N.«Duration», .dur (.int T) p), (N.«Ops», .ty (.ops o))])] := by
  rw [functions]
  simp only [candidates, deduce_tp_tp, deduce_tp_dur]

theorem enter_dur (lib : Invoke) (x : Int) :
    enter program lib (.call N.«to_fractional» [] [.dur p (.int T x)]) =
      convert program lib (.dur (.frac T .defaults) p) (.dur p (.int T x)) >>=
        convert program lib (.dur (.frac T .defaults) p) := by
  rw [enter_one (candidates_dur x)]
  exact run_eq rfl (eval_cast_var rfl rfl) rfl

theorem enter_tp (lib : Invoke) (x : Int) :
    enter program lib (.call N.«to_fractional» [] [.tp c p (.int T x)]) =
      convert program lib (.tp c (.frac T .defaults) p) (.tp c p (.int T x)) >>=
        convert program lib (.tp c (.frac T .defaults) p) := by
  rw [enter_one (candidates_tp x)]
  exact run_eq rfl (eval_cast_var rfl rfl) rfl

theorem enter_dur_given (lib : Invoke) (x : Int) :
    enter program lib (.call N.«to_fractional» [.ty (.int T), .period p, .ty (.ops o)]
      [.dur p (.int T x)]) =
      convert program lib (.dur (.frac T o) p) (.dur p (.int T x)) >>=
        convert program lib (.dur (.frac T o) p) := by
  rw [enter_one (candidates_dur_given x)]
  exact run_eq rfl (eval_cast_var rfl rfl) rfl

theorem enter_tp_given (lib : Invoke) (x : Int) :
    enter program lib (.call N.«to_fractional» [.clock c, .dur (.int T) p, .ty (.ops o)]
      [.tp c p (.int T x)]) =
      convert program lib (.tp c (.frac T o) p) (.tp c p (.int T x)) >>=
        convert program lib (.tp c (.frac T o) p) := by
  rw [enter_one (candidates_tp_given x)]
  exact run_eq rfl (eval_cast_var rfl rfl) rfl

/-- The class at lines 67-86. -/
def F.wrapper : Cls := program.classes[0]

def wrapperNames (c : Clock) (q : Period) (o : Ops) : Names :=
  (memberTypes program [(N.«Ops», .ty (.ops o)), (N.«Period», .period q), (N.«Clock», .clock c)]
    F.wrapper.uses).getD []

theorem instance_ok : program.instance? N.«clock_wrapper» [.clock c, .period q, .ty (.ops o)] =
    some (F.wrapper, wrapperNames c q o) := rfl

theorem enter_now (lib : Invoke) :
    enter program lib (.stat N.«clock_wrapper» [.clock c, .period q, .ty (.ops o)] N.«now») =
      convert program lib (.tp c (.frac c.rep o) q) (.tp c c.period (.int c.rep c.reading)) := by
  have h : F.wrapper.funcs.find? (fun g => g.name == N.«now») = some F.wrapper.funcs[0] := rfl
  have h' : program.resolve (wrapperNames c q o) (.name false N.«clock_type») = some (.clock c) := rfl
  simp only [enter, instance_ok, orIll, pure_bind, h]
  rw [run_eq (e := .stat (.name false N.«clock_type») N.«now») (r := pure (.tp c c.period (.int c.rep c.reading))) rfl
    (by simp only [eval, h', orIll, pure_bind, if_true]) (t := .tp c (.frac c.rep o) q) rfl]
  simp only [pure_bind]

theorem enter_steady (lib : Invoke) :
    enter program lib (.const N.«clock_wrapper» [.clock c, .period q, .ty (.ops o)] N.«is_steady») =
      pure (.bool c.steady) := by
  have h : F.wrapper.consts.lookup N.«is_steady» =
    some (.const (.name false N.«clock_type») N.«is_steady») := rfl
  have h' : program.resolve (wrapperNames c q o) (.name false N.«clock_type») = some (.clock c) := rfl
  simp only [enter, instance_ok, orIll, pure_bind, h, eval, h', if_true]

/-- The period and the policy of a clock wrapper have defaults. -/
theorem instance_default : program.instance? N.«clock_wrapper» [.clock c] =
    program.instance? N.«clock_wrapper» [.clock c, .period c.period, .ty (.ops .defaults)] := rfl

theorem instance_default_policy : program.instance? N.«clock_wrapper» [.clock c, .period q] =
    program.instance? N.«clock_wrapper» [.clock c, .period q, .ty (.ops .defaults)] := rfl

end Ieme.ChronoText
