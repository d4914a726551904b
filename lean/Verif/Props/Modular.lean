import Verif.Lemmas.Modular

/-!
# C132: unsigned fractions that wrap around

Over an unsigned type differences below zero and parts that are too large wrap around silently.
Under `fast` that makes no difference to what is computed afterwards, as long as `%` is not used;
under `safe` it does not for sums and products.
-/

namespace Ieme
open Res

variable {T U : IntTy} {f g r : Raw} {q : ℚ}

/-- **C132** Over an unsigned type every expression without `%` finishes under `fast`, and the parts
of its result are the schoolbook parts, computed with unbounded integers, modulo `2^bits`. -/
theorem C132_expressions (hs : T.signed = false) {e : Expr} (he : e.Plain T) :
    ∃ w, e.eval T .fast = .ok (e.formal.residue T.bits) w :=
  Expr.eval_residue hs he

/-- `1/3 - 2/3 + 1`: the difference wraps. -/
example : (Expr.fr .plus (.ff .minus (.lit ⟨1, 3⟩) (.lit ⟨2, 3⟩)) 1).eval u32 .fast =
      .ok ⟨6, 9⟩ true ∧
    (Expr.fr .plus (.ff .minus (.lit ⟨1, 3⟩) (.lit ⟨2, 3⟩)) 1).formal = ⟨6, 9⟩ ∧
    (Expr.ff .minus (.lit ⟨1, 3⟩) (.lit ⟨2, 3⟩)).formal = ⟨-3, 9⟩ := by decide +kernel

/-- **C132** So wrap-around on the way is harmless: the result has the schoolbook parts exactly when
they fit, whatever the intermediate results were, and then it has the value of the expression. -/
theorem C132_transient (hs : T.signed = false) {e : Expr} (he : e.Plain T) :
    ((∃ w, e.eval T .fast = .ok e.formal w) ↔ e.formal.InRange T) ∧
    (e.value = some q → Denotes e.formal q) := by
  refine ⟨⟨?_, fun h => ?_⟩, Expr.formal_denotes he⟩
  · rintro ⟨w, h⟩
    obtain ⟨w', h'⟩ := Expr.eval_residue hs he
    rw [h] at h'
    injection h' with h' _
    rw [h']
    exact Raw.residue_inRange hs _
  · obtain ⟨w, h'⟩ := Expr.eval_residue hs he
    exact ⟨w, by rw [h', h.residue hs]⟩

/-- A difference below zero, and a sum whose parts do not fit. -/
example : (Expr.fr .plus (.ff .minus (.lit ⟨1, 3⟩) (.lit ⟨2, 3⟩)) 1).formal.InRange u32 ∧
    (Expr.fr .plus (.ff .minus (.lit ⟨1, 3⟩) (.lit ⟨2, 3⟩)) 1).value = some (2/3) ∧
    ¬ (Expr.ff .multiplies (.lit ⟨65536, 1⟩) (.lit ⟨65536, 1⟩)).formal.InRange u32 := by
  refine ⟨by decide, ?_, by decide⟩
  norm_num [Expr.value, litValue, ArithOp.value]

/-- **C132** Computing in a wider unsigned type and converting the result gives what computing in
the narrower one gives. -/
theorem C132_truncation (hT : T.signed = false) (hU : U.signed = false) (hb : T.bits ≤ U.bits)
    {e : Expr} (he : e.Plain T) {w : Bool} (h : e.eval U .fast = .ok r w) :
    ∃ s w1 w2, Fraction.ofOther T r = .ok s w1 ∧ e.eval T .fast = .ok s w2 := by
  have mono {e : Expr} (he : e.Plain T) : e.Plain U := by
    have wi : ∀ n, T.InRange n → U.InRange n := by
      intro n hn
      have hp : (2 : ℤ) ^ T.bits ≤ 2 ^ U.bits := pow_le_pow_right₀ (by norm_num) hb
      simp only [IntTy.InRange, IntTy.min, IntTy.max, hT, hU, Bool.false_eq_true, if_false] at hn ⊢
      push_cast at hn ⊢
      omega
    induction e with
    | lit f => exact ⟨wi _ he.1, wi _ he.2⟩
    | neg e ih => exact ih he
    | pos e ih => exact ih he
    | ff op e1 e2 ih1 ih2 => exact ⟨he.1, ih1 he.2.1, ih2 he.2.2⟩
    | fr op e n ih => exact ⟨he.1, ih he.2⟩
    | rf op n e ih => exact ⟨he.1, ih he.2⟩
  obtain ⟨w1, h1⟩ := Expr.eval_residue hU (mono he)
  obtain ⟨w2, h2⟩ := Expr.eval_residue hT he
  rw [h] at h1
  injection h1 with h1 _
  subst h1
  have conv (x : ℤ) : ∃ w, T.conv x = .ok (x % 2 ^ T.bits) w := by
    by_cases hx : T.InRange x
    · exact ⟨false, by rw [IntTy.conv, if_pos hx, hx.residue hT]⟩
    · exact ⟨true, by rw [IntTy.conv, if_neg hx, IntTy.wrap, hT]; simp⟩
  obtain ⟨wn, hn⟩ := conv (e.formal.residue U.bits).num
  obtain ⟨wd, hd⟩ := conv (e.formal.residue U.bits).den
  have hdvd : (2 : ℤ) ^ T.bits ∣ 2 ^ U.bits := pow_dvd_pow 2 hb
  refine ⟨e.formal.residue T.bits, wn || (wd || false), w2, ?_, h2⟩
  simp only [Fraction.ofOther, Raw.conv, hn, hd, bind_def, Res.bind, pure_def]
  simp only [Raw.residue, Int.emod_emod_of_dvd _ hdvd]

/-- `65537/1 * 65537/1` in `unsigned long long` and in `unsigned`. -/
example : (Expr.ff .multiplies (.lit ⟨65537, 1⟩) (.lit ⟨65537, 1⟩)).eval u64 .fast ⇓
      ⟨4295098369, 1⟩ ∧
    Fraction.ofOther u32 ⟨4295098369, 1⟩ = .ok ⟨131073, 1⟩ true ∧
    (Expr.ff .multiplies (.lit ⟨65537, 1⟩) (.lit ⟨65537, 1⟩)).eval u32 .fast =
      .ok ⟨131073, 1⟩ true := by decide +kernel

/-- **C132** Comparisons do not recover: under `fast` they compare the residues of the cross
products.  So `==` holds exactly when the cross products differ by a multiple of `2^bits`. -/
theorem C132_comparisons (hs : T.signed = false) (hf : f.InRange T) (hg : g.InRange T) :
    (∀ op : CmpOp, ∃ w, Fraction.cmp T T .fast op (.ff f g) = .ok (op.holdsMod T.bits f g) w) ∧
    (f.den ≠ 0 → g.den ≠ 0 → ((∃ w, Fraction.cmp T T .fast .equalTo (.ff f g) = .ok true w) ↔
      (2 : ℤ) ^ T.bits ∣ f.num * g.den - g.num * f.den)) := by
  have key (op : CmpOp) :
      ∃ w, Fraction.cmp T T .fast op (.ff f g) = .ok (op.holdsMod T.bits f g) w := by
    have := Fast.cmp_residue hs op f g
    rwa [hf.residue hs, hg.residue hs, ← Fraction.cmp_self] at this
  refine ⟨key, fun h1 h2 => ?_⟩
  obtain ⟨w, h⟩ := key .equalTo
  rw [h]
  have e : CmpOp.equalTo.holdsMod T.bits f g = true ↔
      (2 : ℤ) ^ T.bits ∣ f.num * g.den - g.num * f.den := by
    rw [CmpOp.holdsMod, hf.2.residue hs, hg.2.residue hs, if_neg (by tauto)]
    simp only [CmpOp.decideInt, decide_eq_true_eq]
    exact Int.modEq_comm.trans Int.modEq_iff_dvd
  rw [← e]
  simp

/-- `65536 == 0/65536` over `unsigned`. -/
example : Fraction.cmp u32 u32 .fast .equalTo (.ff ⟨65536, 1⟩ ⟨0, 65536⟩) = .ok true true ∧
    Fraction.cmp u32 u32 .fast .less (.ff ⟨65536, 1⟩ ⟨1, 65535⟩) = .ok false false ∧
    Fraction.cmp u32 u32 .fast .equalTo (.ff ⟨1, 2⟩ ⟨2, 4⟩) ⇓ true := by decide +kernel

/-- **C132** A whole program under `fast`, with branches and loops but without `%`, behaves as if
its variables were unbounded and only comparisons looked at residues: same branches, same number
of steps, and at the end the residues of the same parts.  It never fails. -/
theorem C132_programs (hs : T.signed = false) {c : Cmd} (hc : c.Plain T) (n : ℕ) (m : Mem) :
    ∃ w, c.exec T .fast n (fun x => (m x).residue T.bits) =
      .ok ((c.formalExec T.bits n m).map fun m' x => (m' x).residue T.bits) w :=
  Cmd.exec_residue hs hc n m

/-- `x = 1/3 - 2/3; while (x != 1/3) x = x + 1/3;` needs two rounds, the first from below zero. -/
example :
    let c : Cmd := .seq (.assign 0 (.ff .minus (.lit ⟨1, 3⟩) (.lit ⟨2, 3⟩)))
      (.loop .notEqualTo (.var 0) (.lit ⟨1, 3⟩) (.assign 0 (.ff .plus (.var 0) (.lit ⟨1, 3⟩))))
    c.Plain u32 ∧
    (c.exec u32 .fast 6 fun _ => ⟨0, 1⟩).bind (fun r => pure (r.map fun m => m 0)) =
      .ok (some ⟨27, 81⟩) true ∧
    (c.formalExec 32 6 fun _ => ⟨0, 1⟩).map (fun m => m 0) = some ⟨27, 81⟩ := by
  refine ⟨?_, by decide +kernel, by decide +kernel⟩
  simp only [Cmd.Plain, PExpr.Plain]
  decide

/-- **C132** Under `safe` the same holds for sums, differences, products and quotients by positive
integers: if the denominator without cancelling fits, the expression finishes with that denominator,
and the numerator is right modulo `2^bits`. -/
theorem C132_safe (hs : T.signed = false) {e : Expr} (he : e.Polynomial)
    (hl : e.LeavesInRange T) (hd : T.InRange e.commonDen) :
    ∃ (p : ℤ) (w : Bool), e.eval T .safe = .ok ⟨p % 2 ^ T.bits, e.commonDen⟩ w ∧
      e.value = some ((p : ℚ) / e.commonDen) :=
  Expr.eval_safe_residue hs he hl hd

/-- **C132** So it is exact when the value of the whole fits, over that denominator. -/
theorem C132_safe_transient (hs : T.signed = false) {e : Expr} (he : e.Polynomial)
    (hl : e.LeavesInRange T) (hd : T.InRange e.commonDen) (hq : e.value = some q) (h0 : 0 ≤ q)
    (h1 : q * e.commonDen ≤ T.max) :
    ∃ r w, e.eval T .safe = .ok r w ∧ Denotes r q ∧ r.den = e.commonDen := by
  obtain ⟨p, w, h, hv⟩ := Expr.eval_safe_residue hs he hl hd
  rw [hq, Option.some.injEq] at hv
  have hp := Expr.commonDen_pos he
  have hp' : (0 : ℚ) < e.commonDen := by exact_mod_cast hp
  have hpq : (p : ℚ) = q * e.commonDen := by rw [hv]; field_simp
  have hr : T.InRange p := by
    constructor
    · simp only [IntTy.min, hs, Bool.false_eq_true, if_false]
      have : (0 : ℚ) ≤ p := by rw [hpq]; positivity
      exact_mod_cast this
    · rw [← hpq] at h1
      exact_mod_cast h1
  rw [hr.residue hs] at h
  exact ⟨_, w, h, ⟨by simpa using hp.ne', by rw [hv]; push_cast; rfl⟩, rfl⟩

/-- `(1/3 - 2/3) * 5 + 2` over `unsigned`. -/
example :
    let e : Expr := .fr .plus (.fr .multiplies (.ff .minus (.lit ⟨1, 3⟩) (.lit ⟨2, 3⟩)) 5) 2
    e.Polynomial ∧ e.LeavesInRange u32 ∧ e.commonDen = 3 ∧
    e.eval u32 .safe = .ok ⟨1, 3⟩ true ∧ e.value = some (1/3) := by
  refine ⟨?_, ?_, rfl, by decide +kernel, ?_⟩
  · simp [Expr.Polynomial]
  · simp only [Expr.LeavesInRange]
    decide
  · norm_num [Expr.value, litValue, ArithOp.value]

/-- **C132** (negation) Under the default policy wrap-around is not harmless, since it cancels
factors of what has wrapped: `1/3 - 2/3 + 1` over `unsigned` is `1431655766`, where `fast` and `safe`
give two thirds.  Nor is it under `safe` when a wrapped numerator becomes a denominator: with
`d = 1/3 - 2/3`, `(1 / d + 1/2) / d` is `15/2`, which `fast` computes; under `safe` it is undefined
behaviour in `std::lcm`. -/
theorem C132_wrong :
    let d : Expr := .ff .minus (.lit ⟨1, 3⟩) (.lit ⟨2, 3⟩)
    let e : Expr := .ff .divides (.ff .plus (.rf .divides 1 d) (.lit ⟨1, 2⟩)) d
    (Expr.fr .plus d 1).eval u32 .fast = .ok ⟨6, 9⟩ true ∧
    (Expr.fr .plus d 1).eval u32 .safe = .ok ⟨2, 3⟩ true ∧
    (Expr.fr .plus d 1).eval u32 .defaults = .ok ⟨1431655766, 1⟩ true ∧
    e.value = some (15/2) ∧ e.eval u32 .fast = .ok ⟨135, 18⟩ true ∧
    e.eval u32 .safe = .fault .lcmPrecond := by
  intro d e
  refine ⟨by decide +kernel, by decide +kernel, by decide +kernel, ?_, by decide +kernel,
    by decide +kernel⟩
  norm_num [d, e, Expr.value, litValue, ArithOp.value]

end Ieme
