import Verif.Lemmas.EnoughBits
import Verif.Props.ProgramBounds
import Verif.Props.Bounds
import Verif.Props.RoundExact
import Verif.Props.Finish
import Verif.Props.Pow
import Verif.Props.Parse
import Verif.Props.FloatingPoint
import Verif.Props.FloatRounding
import Verif.Props.Chrono

/-!
# Enough bits: property C122

`Settles f v` says that from some width of signed types on, `f` finishes without overflow or
wrap-around and with the result `v`.
-/

namespace Ieme

open Res IntTy

variable {o : Ops} {f : Raw} {x y : ℚ}

/-- **C122** Every expression with a value settles, under every policy, and to that value. -/
theorem C122_expressions {e : Expr} (hv : e.value = some x) :
    ∃ r, Settles (fun T => e.eval T o) r ∧ Denotes r x := by
  obtain ⟨K, hK⟩ := e.exists_bounded
  refine Settles.of_sim K (fun T hs h => ?_) fun T T' _ h => Expr.eval_sim h o e
  obtain ⟨r, hr, hd, -⟩ := C106_bounded_finishes o hv (hK _ h) (.inl hs)
  exact ⟨r, hr, hd⟩

/-- The expression of C11; and `40000 * 40000 - 1/65537`, too large for `int`. -/
example : exampleExpr.value = some (-1 / 2) ∧
    (Expr.ff .minus (.fr .multiplies (.lit ⟨40000, 1⟩) 40000) (.lit ⟨1, 65537⟩)).eval i32 .defaults =
      .fault .overflow ∧
    (Expr.ff .minus (.fr .multiplies (.lit ⟨40000, 1⟩) 40000) (.lit ⟨1, 65537⟩)).eval i64 .defaults ⇓
      ⟨104859199999999, 65537⟩ := by decide +kernel

/-- **C122** Every comparison settles, and to the truth wherever the policy orders correctly. -/
theorem C122_comparisons {op : CmpOp} {a : Args} (ha : a.Denote x y) :
    ∃ b, Settles (fun T => Fraction.cmp T T o op a) b ∧
      (o.OrderSafe a ∨ ¬ op.IsOrder → (b = true ↔ op.Holds x y)) := by
  obtain ⟨b, hb, T, hs, h⟩ := Settles.cmp o op a
  refine ⟨b, hb, fun ho => ?_⟩
  rcases ho with ho | ho
  · exact (Ops.cmp_form ha h).order_good ho
  · cases op <;> first | exact (ho trivial).elim | skip
    · exact C13_eq_exact ha h
    · have := C13_eq_exact ha (C14_ne_not_eq.1 h)
      cases b <;> simp_all [CmpOp.Holds]

example : Ops.defaults.OrderSafe (.ff ⟨1, 65536⟩ ⟨-1, -65537⟩) ∧
    (Args.ff ⟨1, 65536⟩ ⟨-1, -65537⟩).Denote (1 / 65536) (1 / 65537) ∧
    Fraction.cmp i32 i32 .defaults .less (.ff ⟨1, 65536⟩ ⟨-1, -65537⟩) = .fault .lcmPrecond ∧
    Fraction.cmp i64 i64 .defaults .less (.ff ⟨1, 65536⟩ ⟨-1, -65537⟩) ⇓ false :=
  ⟨trivial, by norm_num [Args.Denote, Denotes], by decide +kernel, by decide +kernel⟩

/-- **C122** Every program that terminates over the rational numbers completes in all wide enough
signed types, given enough steps, with the same exact results; how many steps are enough does not
depend on the type. -/
theorem C122_programs {c : Cmd} {s s' : ℕ → ℚ} {m : Mem} (hr : Runs c s s') (hm : m.Holds s)
    (ho : o.SafeBased ∨ c.OnlyEquality) :
    ∃ (n N : ℕ) (m' : Mem), m'.Holds s' ∧ ∀ T : IntTy, T.signed = true → N ≤ T.bits →
      ∀ k ≥ n, c.exec T o k m ⇓ some m' := by
  obtain ⟨n, hn⟩ := C110_terminates hr
  let A : Bounds := fun x => (m x).bound
  obtain ⟨K, R, hK⟩ := Cmd.exists_check n c A
  have key : ∃ r, Settles (fun T => c.exec T o n m) r ∧ ∃ m', r = some m' ∧ m'.Holds s' := by
    refine Settles.of_sim K (fun T hs h => ?_) fun T T' _ h => Cmd.exec_sim h o n c m
    have hw : m.Within T A := fun x =>
      ⟨le_rfl, le_rfl, fun h' => by rw [hs] at h'; cases h'⟩
    rcases C114_checked_program (o := o) hr hm hw ho (.inl hs) (hK _ h) with
      h | ⟨m', -, -, h1, h2, -⟩
    · exact absurd h (hn T o m hm ho n le_rfl)
    · exact ⟨some m', h1, m', rfl, h2⟩
  obtain ⟨_, ⟨N, hN⟩, m', rfl, hm'⟩ := key
  exact ⟨n, N, m', hm', fun T hs hb k hk => Cmd.exec_ge hk (hN T hs hb)⟩

/-- `x = x * x;` twice on `100001/3`, which overflows `int` and `long long`, but not 128 bits. -/
example :
    let c : Cmd := .seq (.assign 0 (.ff .multiplies (.var 0) (.var 0)))
      (.assign 0 (.ff .multiplies (.var 0) (.var 0)))
    let m : Mem := fun _ => ⟨100001, 3⟩
    (∃ s', Runs c (fun _ => 100001 / 3) s') ∧ m.Holds (fun _ => 100001 / 3) ∧
    Ops.defaults.SafeBased ∧ (c.exec i64 .defaults 2 m).bind (fun r => pure (r.map fun m => m 0)) = .fault .overflow ∧
    (c.exec ⟨true, 128, by decide⟩ .defaults 2 m).bind (fun r => pure (r.map fun m => m 0)) ⇓
      some ⟨100004000060000400001, 81⟩ := by
  refine ⟨⟨_, .seq (.assign (q := (100001 / 3) ^ 2) ?_) (.assign (q := (100001 / 3) ^ 4) ?_)⟩,
    fun _ => ?_, trivial, by decide +kernel, by decide +kernel⟩ <;>
  norm_num [PExpr.value, litValue, ArithOp.value, Denotes]

/-- **C122** `reduce`, `abs` and unary minus settle. -/
theorem C122_unary (hx : Denotes f x) :
    Settles (fun T => f.reduce T .normalizeSigns) ⟨x.num, x.den⟩ ∧
    (∃ r, Settles (fun T => f.reduce T .ignoreSigns) r ∧ Denotes r x) ∧
    (∃ r, Settles (fun T => Fraction.neg T o f) r ∧ Denotes r (-x)) ∧
    ∃ r, Settles (fun T => Fraction.abs T o f) r ∧ Denotes r |x| := by
  obtain ⟨K, key⟩ : ∃ K : ℤ, ∀ T : IntTy, T.signed = true → K ≤ T.max →
      f.InRange T ∧ T.InRange f.num.natAbs ∧ T.InRange f.den.natAbs :=
    ⟨(f.num.natAbs + f.den.natAbs : ℕ), fun T hs h =>
      ⟨⟨inRange_of_natAbs hs (by omega), inRange_of_natAbs hs (by omega)⟩,
      inRange_of_natAbs hs (by omega), inRange_of_natAbs hs (by omega)⟩⟩
  refine ⟨.of_max K fun T hs h => ?_, ?_, Settles.negate o hx, ?_⟩
  · obtain ⟨h1, h2, h3⟩ := key T hs h
    obtain ⟨r, hr, -⟩ := Raw.reduce_progress .normalizeSigns h1 h2 h3
    rw [hr, reduce_parts hx hr]
  · refine Settles.of_sim K (fun T hs h => ?_) fun T T' _ h => Raw.reduce_sim h .ignoreSigns f
    obtain ⟨h1, h2, h3⟩ := key T hs h
    obtain ⟨r, hr, -⟩ := Raw.reduce_progress .ignoreSigns h1 h2 h3
    exact ⟨r, hr, Raw.reduce_denotes hx hr⟩
  · refine Settles.of_sim K (fun T hs h => ?_) fun T T' _ h => Fraction.abs_sim h o f
    obtain ⟨h1, h2, h3⟩ := key T hs h
    have e := min_signed hs
    have a := h2.2
    have b := h3.2
    obtain ⟨r, hr⟩ := C27_abs_finishes (o := o) h1 (fun _ => by omega) hx.1
    exact ⟨r, hr, (C27_abs_exact hx hr).1⟩

example : Denotes ⟨-6, -4⟩ (3 / 2) ∧ Raw.reduce i32 .normalizeSigns ⟨-6, -4⟩ ⇓ ⟨3, 2⟩ ∧
    Raw.reduce i32 .normalizeSigns ⟨1, -2147483648⟩ = .fault .gcdPrecond ∧
    Raw.reduce i64 .normalizeSigns ⟨1, -2147483648⟩ ⇓ ⟨-1, 2147483648⟩ :=
  ⟨by norm_num [Denotes], by decide +kernel, by decide +kernel, by decide +kernel⟩

/-- **C122** The rounding functions settle, to the answers of C92. -/
theorem C122_rounding (hx : Denotes f x) :
    Settles (fun T => Fraction.trunc T f) (ratTrunc x) ∧
    Settles (fun T => Fraction.floor T f) (floorAnswer x) ∧
    Settles (fun T => Fraction.ceil T f) (ceilAnswer x) ∧
    ∃ n, Settles (fun T => Fraction.round T o f) n ∧ RoundAnswer (o.RoundsProperly f) x n := by
  have key : ∀ T : IntTy, T.signed = true → ((f.num.natAbs + f.den.natAbs : ℕ) : ℤ) ≤ T.max →
      f.InRange T ∧ ¬ f.MinOverMinusOne T := fun T hs h => by
    have := min_signed hs
    refine ⟨⟨inRange_of_natAbs hs (by omega), inRange_of_natAbs hs (by omega)⟩, fun hm => ?_⟩
    have := hm.1
    omega
  refine ⟨.of_max _ fun T hs h => (C92_trunc_iff (key T hs h).1 hx).2 ⟨(key T hs h).2, rfl⟩,
    .of_max _ fun T hs h => (C92_floor_iff (key T hs h).1 hx).2 ⟨(key T hs h).2, rfl⟩,
    .of_max _ fun T hs h => (C92_ceil_iff (key T hs h).1 hx).2 ⟨(key T hs h).2, rfl⟩, ?_⟩
  refine Settles.of_sim (2 * ((f.num.natAbs + f.den.natAbs : ℕ) : ℤ)) (fun T hs h => ?_)
    fun T T' _ h => Fraction.round_sim h o f
  obtain ⟨n, hn⟩ := C32_round_finishes (o := o) hs h f.absLe_self hx.1
  exact ⟨n, hn, ((C92_round_iff (key T hs (by omega)).1 hx).1 hn).2.2.2⟩

example : Denotes ⟨-2147483648, -1⟩ 2147483648 ∧
    Fraction.round i32 .defaults ⟨-2147483648, -1⟩ = .fault .overflow ∧
    Fraction.round i64 .defaults ⟨-2147483648, -1⟩ ⇓ 2147483648 :=
  ⟨by norm_num [Denotes], by decide +kernel, by decide +kernel⟩

/-- **C122** So do the functions that change the denominator. -/
theorem C122_redenominate {d : ℤ} (hx : Denotes f x) (hd : d ≠ 0) :
    Settles (fun T => Fraction.redenominate T o f d .trunc) ⟨ratTrunc (x * d), d⟩ ∧
    Settles (fun T => Fraction.redenominate T o f d .floor)
      ⟨d.sign * floorAnswer (x * |(d : ℚ)|), d⟩ ∧
    Settles (fun T => Fraction.redenominate T o f d .ceil)
      ⟨d.sign * ceilAnswer (x * |(d : ℚ)|), d⟩ ∧
    ∃ n, Settles (fun T => Fraction.redenominate T o f d .round) ⟨n, d⟩ ∧
      RoundAnswer (o.RoundsProperly f) (x * d) n := by
  obtain ⟨K, key⟩ : ∃ K : ℤ, ∀ T : IntTy, T.signed = true → K ≤ T.max →
      f.InRange T ∧ T.InRange d ∧ ∀ mode, ∃ r, Fraction.redenominate T o f d mode ⇓ r := by
    refine ⟨2 * (((f.num.natAbs + f.den.natAbs) * (d.natAbs + 1) + d.natAbs : ℕ) : ℤ),
      fun T hs h => ?_⟩
    have h1 : f.num.natAbs + f.den.natAbs ≤ (f.num.natAbs + f.den.natAbs) * (d.natAbs + 1) :=
      Nat.le_mul_of_pos_right _ (by omega)
    have h2 : f.num.natAbs * d.natAbs ≤ (f.num.natAbs + f.den.natAbs) * (d.natAbs + 1) :=
      Nat.mul_le_mul (by omega) (by omega)
    refine ⟨⟨inRange_of_natAbs hs (by omega), inRange_of_natAbs hs (by omega)⟩,
      inRange_of_natAbs hs (by omega), fun mode => ?_⟩
    exact C34_redenominate_finishes hs h ⟨by omega, by omega⟩ hx.1 hd (by omega) (by omega) mode
  refine ⟨.of_max K fun T hs h => ?_, .of_max K fun T hs h => ?_, .of_max K fun T hs h => ?_, ?_⟩
  · obtain ⟨h1, h2, h3⟩ := key T hs h
    obtain ⟨r, hr⟩ := h3 .trunc
    rw [hr, ((C92_trunc_redenominate_iff h1 hx h2).1 hr).2]
  · obtain ⟨h1, h2, h3⟩ := key T hs h
    obtain ⟨r, hr⟩ := h3 .floor
    rw [hr, ((C92_floor_ceil_redenominate_iff h1 hx h2).1.1 hr).2.2.2]
  · obtain ⟨h1, h2, h3⟩ := key T hs h
    obtain ⟨r, hr⟩ := h3 .ceil
    rw [hr, ((C92_floor_ceil_redenominate_iff h1 hx h2).2.1 hr).2.2.2]
  · obtain ⟨⟨n, d'⟩, hr, rfl, hn⟩ := Settles.of_sim (P := fun r : Raw =>
        r.den = d ∧ RoundAnswer (o.RoundsProperly f) (x * d) r.num) K (fun T hs h => by
        obtain ⟨h1, h2, h3⟩ := key T hs h
        obtain ⟨r, hr⟩ := h3 .round
        have := (C92_round_redenominate_iff h1 hx h2).1 hr
        exact ⟨r, hr, this.1, this.2.2.1⟩) fun T T' _ h => Fraction.redenominate_sim h o f d .round
    exact ⟨n, hr, hn⟩

example : Denotes ⟨100000, 7⟩ (100000 / 7) ∧
    Fraction.redenominate i32 .defaults ⟨100000, 7⟩ 1000000 .round = .fault .overflow ∧
    Fraction.redenominate i64 .defaults ⟨100000, 7⟩ 1000000 .round ⇓ ⟨14285714286, 1000000⟩ :=
  ⟨by norm_num [Denotes], by decide +kernel, by decide +kernel⟩

/-- **C122** Powers with an exponent other than the minimum of `int` settle. -/
theorem C122_pow {e : ℤ} (he : i32.InRange e) (hm : e ≠ -2147483648) (b : ℤ) :
    (∃ r, Settles (fun T => Fraction.pow2 T e) r ∧ Denotes r ((2 : ℚ) ^ e)) ∧
    ∃ r, Settles (fun T => Fraction.pow T b e) r ∧
      (¬ (b = 0 ∧ e < 0) → Denotes r ((b : ℚ) ^ e)) ∧ (r.den = 0 ↔ b = 0 ∧ e < 0) := by
  constructor
  · refine Settles.of_sim ((2 : ℤ) ^ e.natAbs) (fun T hs h => ?_) fun T T' _ h => Fraction.pow2_sim h e
    obtain ⟨r, hr⟩ := (C35_pow2_finishes_iff (T := T) he hm).2
      (inRange_of_natAbs hs (by rw [Int.natAbs_pow]; push_cast; exact h))
    exact ⟨r, hr, C35_pow2_exact he hr⟩
  · refine Settles.of_sim (max b.natAbs (b ^ e.natAbs).natAbs) (fun T hs h => ?_)
      fun T T' _ h => Fraction.pow_sim h b e
    have hb : T.InRange b := inRange_of_natAbs hs (by omega)
    obtain ⟨r, hr⟩ := (C36_pow_clean_iff hb he hm).2 (inRange_of_natAbs hs (by omega))
    exact ⟨r, hr, C36_pow_exact hb he hr⟩

example : i32.InRange (-40) ∧ Fraction.pow i32 3 (-40) = .fault .overflow ∧
    Fraction.pow i64 3 (-39) ⇓ ⟨1, 4052555153018976267⟩ := by decide +kernel

/-- **C122** Every expression over mixed numbers with a value settles, evaluated with one type
throughout, and so does the conversion of a mixed number to a fraction. -/
theorem C122_mixed_numbers :
    (∀ (e : MExpr) {q : ℚ}, e.value = some q →
      ∃ m, Settles (fun T => (e.retype T).eval o) m ∧ m.Denotes q) ∧
    ∀ (m : Mixed) {q : ℚ}, m.Denotes q → ∃ r, Settles (fun T => m.asFraction T T o) r ∧ Denotes r q :=
  ⟨fun e _ h => Settles.mexpr o e h, fun _ _ h => Settles.mixedAsFraction o h⟩

/-- `-(2147483647 1/2) + 7/3 + (-5)`. -/
example :
    let e : MExpr := .addWhole (.addFraction (.neg (.mk i32 i32 2147483647 ⟨1, 2⟩)) i32 ⟨7, 3⟩) i32 (-5)
    e.value = some (-12884901901 / 6) ∧ e.eval .defaults = .fault .overflow ∧
    (e.retype i64).eval .defaults ⇓ ⟨-2147483650, ⟨-1, 6⟩⟩ ∧
    (⟨-2147483650, ⟨-1, 6⟩⟩ : Mixed).asFraction i64 i64 .defaults ⇓ ⟨-12884901901, 6⟩ := by
  decide +kernel

/-- **C122** Literals with a point settle if the exponent is written with at most nine digits. -/
theorem C122_literals {l : FloatLit} (hv : l.Valid) (hp : l.point = true)
    (he : ∀ e ∈ l.exp, (Lit.digits e.digits).length ≤ 9)
    (hfl : (Lit.digits l.frac).length ≤ 2147483647) :
    ∃ r, Settles (fun T => Parse.toFraction T o l.render) r ∧ Denotes r l.value :=
  Settles.of_sim ((l.base ^ ((Lit.digits l.whole).length + (Lit.digits l.frac).length) *
      l.expBase ^ l.expValue.natAbs : ℕ) : ℤ) (fun _ hs h => C53_finishes hs hv hp he hfl h) fun _ _ _ h =>
    Parse.toFraction_sim h o _

/-- The literal of C53; and one with many digits. -/
example : exampleLit.Valid ∧ exampleLit.point = true ∧
    (∀ e ∈ exampleLit.exp, (Lit.digits e.digits).length ≤ 9) ∧
    Parse.toFraction i32 .defaults "12345.678901".toList = .fault .overflow ∧
    Parse.toFraction i64 .defaults "12345.678901".toList ⇓ ⟨12345678901, 1000000⟩ :=
  ⟨exampleLit_valid, rfl, by simp [exampleLit]; decide, by decide +kernel, by decide +kernel⟩

/-- **C122** The conversion of a normal floating-point number settles, and so does the conversion
of a fraction to floating point. -/
theorem C122_floating_point {G : Fmt} :
    (∀ b, G.Normal b → ∃ r, Settles (fun T => FloatingPoint.toFraction .little G T o b) r ∧
      Denotes r (G.value b)) ∧
    ∀ {f : Raw} {x : ℚ}, Denotes f x → ∃ b, Settles (fun T => FloatingPoint.ofFraction G T f) b ∧
      (G.Representable x.num → G.Representable x.den → G.Rounded x b) := by
  constructor
  · intro b hb
    refine Settles.of_sim ((2 ^ (G.mant + 1 + ((G.expField b : ℤ) - G.bias).natAbs) : ℕ) : ℤ)
      (fun T hs h => ?_) fun T T' _ h => FloatingPoint.toFraction_sim h .little G o b
    obtain ⟨r, hr⟩ := C58_normal_finishes (o := o) hs hb h
    exact ⟨r, hr, C58_normal_exact hb hr⟩
  · intro f x hx
    refine Settles.of_sim (f.num.natAbs + f.den.natAbs : ℕ) (fun T hs h => ?_) fun T T' _ h =>
      FloatingPoint.ofFraction_sim h G f
    obtain ⟨b, hb⟩ := C61_finishes (F := G) (T := T) (f := f)
      ⟨inRange_of_natAbs hs (by omega), inRange_of_natAbs hs (by omega)⟩
      (inRange_of_natAbs hs (by omega)) (inRange_of_natAbs hs (by omega))
    exact ⟨b, hb, fun h1 h2 => C61_correctly_rounded hx h1 h2 hb⟩

/-- `2^-40` as a `float`. -/
example : binary32.Normal 0x2B800000 ∧
    FloatingPoint.toFraction .little binary32 i32 .defaults 0x2B800000 = .fault .shiftRange ∧
    FloatingPoint.toFraction .little binary32 ⟨true, 128, by decide⟩ .defaults 0x2B800000 ⇓
      ⟨1, 1099511627776⟩ ∧
    FloatingPoint.ofFraction binary32 ⟨true, 128, by decide⟩ ⟨1, 1099511627776⟩ ⇓ 0x2B800000 := by
  decide +kernel

/-- **C122** The conversion of durations settles when the factor between the periods fits
`std::intmax_t`, without which it does not compile. -/
theorem C122_durations {p q : Chrono.Period} {c : Chrono.Count} (hc : c.Is x)
    (hq : Chrono.FitsParts i64 (Chrono.conversionFactor p q)) :
    ∃ r, Settles (fun T => Chrono.convert T o p q c) r ∧ Denotes r (x * p.seconds / q.seconds) := by
  obtain ⟨K, hK, hcK⟩ : ∃ K : ℕ, 1 ≤ K ∧ c.AbsLe K := by
    cases c with
    | int n => exact ⟨n.natAbs + 1, by omega, Nat.le_succ _⟩
    | frac g =>
      exact ⟨g.num.natAbs + g.den.natAbs + 1, by omega, ⟨by omega, by omega⟩, (show Denotes g x from hc).1⟩
  refine Settles.of_sim (2 * ((K * (Chrono.conversionFactor p q).num.natAbs +
    (Chrono.conversionFactor p q).den : ℕ) * (K * (Chrono.conversionFactor p q).num.natAbs +
    (Chrono.conversionFactor p q).den : ℕ))) (fun T hs h => ?_)
    fun T T' _ h => Chrono.convert_sim h o p q c
  obtain ⟨r, hr⟩ := C67_finishes (o := o) (B := K * (Chrono.conversionFactor p q).num.natAbs +
    (Chrono.conversionFactor p q).den) hs hq hcK hK (by omega) (by omega) h
  exact ⟨r, hr, C67_duration_cast_exact hc hr⟩

example :
    let ns : Chrono.Period := ⟨1, 1000000000, by decide, by decide, by decide⟩
    let h : Chrono.Period := ⟨3600, 1, by decide, by decide, by decide⟩
    Chrono.FitsParts i64 (Chrono.conversionFactor h ns) ∧ (Chrono.Count.int 2).Is 2 ∧
    Chrono.convert i32 .defaults h ns (.int 2) = .ok ⟨1634811904, 1⟩ true ∧
    Chrono.convert i64 .defaults h ns (.int 2) ⇓ ⟨7200000000000, 1⟩ := by
  refine ⟨?_, by norm_num [Chrono.Count.Is], by decide +kernel, by decide +kernel⟩
  norm_num [Chrono.FitsParts, Chrono.conversionFactor, Chrono.Period.seconds, i64, IntTy.InRange,
    IntTy.min, IntTy.max]

/-- **C122** (limits) What no width changes: powers with the smallest exponent and remainders by zero
never finish; `floor` and `ceil` settle to wrong answers between -1 and 0; and `fast` settles to the
wrong order for a negative denominator. -/
theorem C122_never (hx : Denotes f x) (b : ℤ) :
    (∀ T, Fraction.pow T b (-2147483648) = .fault .overflow ∧
      Fraction.pow2 T (-2147483648) = .fault .overflow) ∧
    (∀ r, ¬ Settles (fun T => Fraction.arith T T o .modulus (.fr f 0)) r) ∧
    (-1 < x → x < 0 → Settles (fun T => Fraction.floor T f) 0 ∧
      Settles (fun T => Fraction.ceil T f) 1) ∧
    Settles (fun T => Fraction.cmp T T .fast .less (.ff ⟨1, -2⟩ ⟨0, 1⟩)) false := by
  refine ⟨fun T => ⟨C36_pow_int_min, ?_⟩, ?_, fun h1 h2 => ?_, ?_⟩
  · rw [Fraction.pow2, if_neg (by decide), show i32.neg (-2147483648) = .fault .overflow by decide,
      fault_bind]
  · rintro r ⟨N, h⟩
    have h := h ⟨true, max N 32, le_max_right _ _⟩ rfl (le_max_left _ _)
    simp only [Fraction.arith_self] at h
    exact (Ops.arith_exact (a := .fr f 0) (y := 0) ⟨hx, by simp⟩ h).1 rfl
  · have := C122_rounding (o := o) hx
    rw [floorAnswer, ceilAnswer, if_pos ⟨h1, h2⟩, if_pos ⟨h1, h2⟩] at this
    exact ⟨this.2.1, this.2.2.1⟩
  · exact ⟨32, fun T hs hb => Fraction.cmp_self_sim (T := i32)
      (C100_within_iff.2 (.inl ⟨hs.symm, hb⟩)) _ _ _ _ (by decide)⟩

example : Denotes ⟨-1, 2⟩ (-1 / 2) ∧ Fraction.floor i64 ⟨-1, 2⟩ ⇓ 0 ∧
    Fraction.arith i64 i64 .defaults .modulus (.fr ⟨-1, 2⟩ 0) = .fault .divByZero :=
  ⟨by norm_num [Denotes], by decide +kernel, by decide +kernel⟩

end Ieme
