import Verif.Lemmas.TypedBounds
import Verif.Props.TypedProgram

/-!
# A static check excludes overflow in programs with variables of different types: property C138
-/

namespace Ieme

open Res IntTy Overload

variable {Γ : Decls} {P : Stmt} {s s' : ℕ → ℚ} {m : Vars} {A : Sizes} {n : ℕ}

/-- **C138** If a program terminates over the rational numbers and the static check accepts it for
`n` steps, then running it for `n` steps causes no overflow, no wrap-around, and no lossy conversion:
either it needs more steps, or it ends with exactly the rational results, within the sizes that the
check computed.  Nothing is assumed of the policies, nor that the program compiles. -/
theorem C138_checked_program {R : After} (hr : Meaning Γ P s s') (hm : m.Holds s)
    (hw : m.Within Γ A) (hp : P.All VExpr.Proper) (hk : P.check Γ n A = some R) :
    P.exec Γ n m ⇓ none ∨ ∃ m' B, R = .within B ∧ P.exec Γ n m ⇓ some m' ∧ m'.Holds s' ∧
      m'.Within Γ B := by
  obtain ⟨N, hN⟩ := Stmt.exec_size hr
  rcases hN n m A R hm hw hp hk with ⟨-, h⟩ | ⟨m', h1, h2, h3⟩
  · exact .inl h
  · cases R with
    | unreached => exact h3.elim
    | within B => exact .inr ⟨m', B, rfl, h1, h2, h3⟩

/-- **C138** From some number of steps on, whenever the check accepts that number, the program
completes with the exact results. -/
theorem C138_checked_completes (hr : Meaning Γ P s s') (hp : P.All VExpr.Proper) :
    ∃ N, ∀ n ≥ N, ∀ m A, m.Holds s → m.Within Γ A → P.check Γ n A ≠ none →
      ∃ m', P.exec Γ n m ⇓ some m' ∧ m'.Holds s' := by
  obtain ⟨N, hN⟩ := Stmt.exec_size hr
  refine ⟨N, fun n hn m A hm hw hk => ?_⟩
  obtain ⟨R, hR⟩ := Option.ne_none_iff_exists'.1 hk
  rcases hN n m A R hm hw hp hR with ⟨h, -⟩ | ⟨m', h1, h2, -⟩
  · omega
  · exact ⟨m', h1, h2⟩

/-- **C138** A program without loops that passes the check at its own depth completes, with the exact
results, within the sizes that the check computed. -/
theorem C138_loop_free {R : After} (hl : P.LoopFree) (hr : Meaning Γ P s s') (hm : m.Holds s)
    (hw : m.Within Γ A) (hp : P.All VExpr.Proper) (hk : P.check Γ P.depth A = some R) :
    ∃ m' B, R = .within B ∧ P.exec Γ P.depth m ⇓ some m' ∧ m'.Holds s' ∧ m'.Within Γ B :=
  (C138_checked_program hr hm hw hp hk).resolve_left (hl.completes le_rfl)

/-- **C138** An expression that passes the check is evaluated without overflow, to its value over the
rational numbers, within the size that the check computed. -/
theorem C138_expression {e : VExpr} {q : ℚ} {c : Size} {t : Ty} (hm : m.Holds s) (hw : m.Within Γ A)
    (he : e.Proper) (hq : e.value Γ s = some q) (hc : e.size Γ A = some c) (ht : e.ty Γ = some t) :
    ∃ v, (e.inst Γ m).eval ⇓ v ∧ v.Denotes q ∧ c.Admits t v := by
  obtain ⟨v, h1, h2, -, h3⟩ := VExpr.eval_size hm hw he hq hc ht
  exact ⟨v, h1, h2, h3⟩

/-- **C138** A condition that passes the check is decided without overflow, and correctly. -/
theorem C138_condition {op : CmpOp} {e1 e2 : VExpr} {p q : ℚ} (hm : m.Holds s) (hw : m.Within Γ A)
    (p1 : e1.Proper) (p2 : e2.Proper) (h1 : e1.value Γ s = some p) (h2 : e2.value Γ s = some q)
    (hc : VExpr.checks Γ A op e1 e2 = true) :
    ∃ b, Stmt.test Γ m op e1 e2 ⇓ b ∧ (b = true ↔ op.Holds p q) :=
  Stmt.test_size hm hw p1 p2 h1 h2 hc

/-- `n = 7; x = n; x /= 2; n = trunc(x);` with `int n` and `fraction<long long> x` is accepted at its
depth; afterwards `n` is known to be at most 7, and it is 3. -/
example :
    let P : Stmt := .seq (.assign 0 (.obj (.int i32) (.int 7)))
      (.seq (.assign 1 (.var 0)) (.seq (.compound .divides 1 (.obj (.int i32) (.int 2)))
        (.call .trunc 0 (.var 1))))
    P.LoopFree ∧ P.depth = 4 ∧ P.All VExpr.Proper ∧
    (∃ B, P.check exampleDecls 4 (fun _ => { whole := 0, num := 0, den := 1, neg := false }) =
      some (.within B) ∧ B 0 = { whole := 7, neg := false }) ∧
    (∃ s', Meaning exampleDecls P (fun _ => 0) s' ∧ s' 0 = 3) ∧
    (P.exec exampleDecls 4 exampleVars).bind (fun r => pure (r.map fun m => m 0)) ⇓
      some (.int 3) := by
  refine ⟨⟨trivial, trivial, trivial, trivial⟩, by decide, ⟨trivial, trivial, trivial, trivial⟩,
    ⟨_, rfl, by decide +kernel⟩, ⟨_, .seq (.assign (q := 7) ?_) (.seq (.assign (q := 7) ?_)
    (.seq (.compound (p := 2) (q := 7 / 2) rfl ?_ ?_) (.call (p := 7 / 2) (q := 3) ?_ ?_))), ?_⟩,
    by decide +kernel⟩
  all_goals norm_num [VExpr.value, Val.value, put, binValue, ArithOp.value, Call.value, ratTrunc,
    exampleDecls]
  all_goals decide +kernel

/-- `x < 1 / y` for a `fraction<unsigned>` and an `unsigned`, and the sum `x + 1 / y`, both up to 100;
with parts that may be negative the comparison of a fraction with an integer is refused. -/
example :
    let Γ : Decls := fun x => if x = 0 then .frac u32 .fast else .int u32
    let one : VExpr := .obj (.frac u32 .fast) (.frac ⟨1, 1⟩)
    let A : Sizes := fun _ => { whole := 100, num := 100, den := 100, neg := false }
    let B : Sizes := fun _ => { whole := 100, num := 100, den := 100, neg := true }
    VExpr.checks Γ A .less (.var 0) (.bin .divides one (.var 1)) = true ∧
    (VExpr.bin .plus (.var 0) (.bin .divides one (.var 1))).size Γ A =
      some { num := 10100, den := 10000, neg := false } ∧
    (VExpr.bin .plus (.var 0) (.bin .divides one (.var 1))).ty Γ = some (.frac u32 .fast) ∧
    VExpr.checks (fun x => if x = 0 then .frac i32 .safe else .int i32) A .less (.var 0) (.var 1) =
      true ∧
    VExpr.checks (fun x => if x = 0 then .frac i32 .safe else .int i32) B .less (.var 0) (.var 1) =
      false ∧
    Overload.compare .less (.frac i32 .safe) (.int i32) (.frac ⟨1, -2⟩) (.int 0) ⇓ false := by
  decide +kernel

/-- **C138** The compiler accepts a program that the check accepts for at least as many steps as its
statements are nested. -/
theorem C138_compiles {R : After} (hk : P.check Γ n A = some R) (hn : P.depth ≤ n) : P.Compiles Γ :=
  (Stmt.check_compiles hk hn).1

/-- **C138** For a sum or a product of two integers that are not negative, of any types, assigned to an
integer of any type, the check is exact: it accepts just if no contents within the sizes make the
statement overflow, wrap around or lose a value. -/
theorem C138_integers_tight {op : ArithOp} {x y z : ℕ} {S T U : IntTy} {a b : ℕ}
    (ho : op = .plus ∨ op = .multiplies) (hx : Γ x = .int S) (hy : Γ y = .int T)
    (hz : Γ z = .int U) (ha : A x = { whole := a, neg := false })
    (hb : A y = { whole := b, neg := false }) (hxy : x ≠ y) :
    (Stmt.assign z (.bin op (.var x) (.var y))).check Γ 1 A ≠ none ↔
      ∀ m : Vars, (A x).Admits (Γ x) (m x) → (A y).Admits (Γ y) (m y) →
        ∃ m', (Stmt.assign z (.bin op (.var x) (.var y))).exec Γ 1 m ⇓ some m' := by
  have key : (Stmt.assign z (.bin op (.var x) (.var y))).check Γ 1 A ≠ none ↔
      (IntTy.common S T).InRange a ∧ (IntTy.common S T).InRange b ∧
        (IntTy.common S T).InRange (intSize op a b) ∧ U.InRange (intSize op a b) := by
    have hm : (decide (op = .minus)) = false := by rcases ho with rfl | rfl <;> rfl
    simp only [Stmt.check, VExpr.ty, VExpr.size, hx, hy, Option.bind_some, Ty.bin, ha, hb, hz,
      Size.bin, hm, Bool.or_false, Size.builtin, room_iff]
    split_ifs with h
    · simp only [Option.bind_some, Size.convert, room_iff]
      split_ifs with h'
      · simp [h, h']
      · simp [h']
    · simp only [Option.bind_none, ne_eq, not_true_eq_false, false_iff]
      exact fun h' => h ⟨h'.1, h'.2.1, h'.2.2.1⟩
  rw [key]
  have exec : ∀ {m : Vars} {i j : ℤ}, m x = .int i → m y = .int j →
      ((∃ m', (Stmt.assign z (.bin op (.var x) (.var y))).exec Γ 1 m ⇓ some m') ↔
        ∃ k, builtin S T op i j ⇓ k ∧ U.InRange k) := by
    intro m i j hi hj
    simp only [Stmt.exec, VExpr.ty, VExpr.inst, TExpr.eval, TExpr.ty, hx, hy, hz, Option.bind_some,
      Ty.bin, hi, hj, pure_def, ok_bind_false, apply, bind_eq_clean]
    constructor
    · rintro ⟨m', v, ⟨k, hk, hv⟩, w, hw, -⟩
      cases hv
      simp only [convert, bind_eq_clean, conv_clean] at hw
      obtain ⟨k', ⟨hk', -⟩, -⟩ := hw
      exact ⟨k, hk, hk'⟩
    · rintro ⟨k, hk, hk'⟩
      exact ⟨_, _, ⟨k, hk, rfl⟩, _, by
        simp only [convert, conv_clean.2 ⟨hk', rfl⟩, ok_bind_false, pure_def]; rfl, rfl⟩
  have bi : ∀ {i j : ℕ}, (∃ k, builtin S T op i j ⇓ k ∧ U.InRange k) ↔
      (IntTy.common S T).InRange i ∧ (IntTy.common S T).InRange j ∧
        (IntTy.common S T).InRange (intSize op i j) ∧ U.InRange (intSize op i j) := by
    intro i j
    rcases ho with rfl | rfl
    · simp only [builtin, bind_eq_clean, conv_clean, add_clean, intSize]
      push_cast
      tauto
    · simp only [builtin, bind_eq_clean, conv_clean, mul_clean, intSize]
      push_cast
      tauto
  have mono : ∀ {V : IntTy} {i k : ℕ}, i ≤ k → V.InRange k → V.InRange i := by
    intro V i k h1 h2
    rw [← room_iff] at h2 ⊢
    exact ⟨by have := h2.1; omega, h2.2⟩
  rw [hx, hy, ha, hb]
  constructor
  · rintro ⟨h1, h2, h3, h4⟩ m hi hj
    cases ei : m x with
    | int i =>
      cases ej : m y with
      | int j =>
        rw [ei] at hi
        rw [ej] at hj
        obtain ⟨i, rfl⟩ := Int.eq_ofNat_of_zero_le (hi.2 rfl)
        obtain ⟨j, rfl⟩ := Int.eq_ofNat_of_zero_le (hj.2 rfl)
        have li : i ≤ a := hi.1
        have lj : j ≤ b := hj.1
        have lk : intSize op i j ≤ intSize op a b := by
          rcases ho with rfl | rfl
          · exact Nat.add_le_add li lj
          · exact Nat.mul_le_mul li lj
        exact (exec ei ej).2 (bi.2 ⟨mono li h1, mono lj h2, mono lk h3, mono lk h4⟩)
      | _ => rw [ej] at hj; exact hj.elim
    | _ => rw [ei] at hi; exact hi.elim
  · intro h
    refine bi.1 ((exec (m := fun w => if w = x then .int a else .int b) (i := a) (j := b)
      (if_pos rfl) (if_neg (Ne.symm hxy))).1 (h _ ?_ ?_))
    · simp [Size.Admits, Part]
    · simp [Size.Admits, Part, Ne.symm hxy]

/-- **C138** Beyond the sizes that the check accepts programs do overflow: squaring an `int` is
accepted up to 46340 and overflows at 46341; squaring an `unsigned` is accepted up to 65535 and wraps
around at 65536; a sum of two `mixed_number<int>` of whole parts up to 1073741823 and denominators up
to 32767 is accepted. -/
theorem C138_limits :
    let P : Stmt := .assign 0 (.bin .multiplies (.var 0) (.var 0))
    let Q : Stmt := .assign 0 (.bin .plus (.var 0) (.var 0))
    let M : Ty := .mixed i32 i32 .defaults
    (P.check (fun _ => .int i32) 1 (fun _ => { whole := 46340, neg := true })).isSome ∧
    (P.check (fun _ => .int i32) 1 (fun _ => { whole := 46341, neg := true })).isNone ∧
    (P.exec (fun _ => .int i32) 1 (fun _ => .int 46341)).bind
      (fun r => pure (r.map fun m => m 0)) = .fault .overflow ∧
    (P.check (fun _ => .int u32) 1 (fun _ => { whole := 65535, neg := false })).isSome ∧
    (P.check (fun _ => .int u32) 1 (fun _ => { whole := 65536, neg := false })).isNone ∧
    (P.exec (fun _ => .int u32) 1 (fun _ => .int 65536)).bind
      (fun r => pure (r.map fun m => m 0)) = .ok (some (.int 0)) true ∧
    (Q.check (fun _ => M) 1
      (fun _ => { whole := 1073741823, num := 32767, den := 32767, neg := true })).isSome ∧
    (Q.check (fun _ => M) 1
      (fun _ => { whole := 1073741824, num := 32767, den := 32767, neg := true })).isNone ∧
    (Q.exec (fun _ => M) 1 (fun _ => .mixed ⟨1073741824, ⟨0, 1⟩⟩)).bind
      (fun r => pure (r.map fun m => m 0)) = .fault .overflow := by
  decide +kernel

/-- The program of C125, a loop with variables of three types, is accepted for the nine steps it
needs, from variables that are all zero. -/
example : (exampleStmt.check exampleDecls 9
      (fun _ => { whole := 0, num := 0, den := 1, neg := false })).isSome ∧
    exampleVars.Within exampleDecls (fun _ => { whole := 0, num := 0, den := 1, neg := false }) ∧
    exampleVars.Holds (fun _ => 0) ∧ exampleStmt.All VExpr.Proper := by
  refine ⟨by decide +kernel, fun x => ?_, fun x => ?_, ?_⟩
  · match x with
    | 0 => simp [exampleVars, exampleDecls, Size.Admits, Part]
    | 1 => simp [exampleVars, exampleDecls, Size.Admits, Part]
    | x + 2 => simp [exampleVars, exampleDecls, Size.Admits, Part]
  · match x with
    | 0 => exact ⟨by simp [exampleVars, Val.Denotes], trivial⟩
    | 1 => exact ⟨by norm_num [exampleVars, Val.Denotes, Denotes], trivial⟩
    | x + 2 =>
      exact ⟨⟨0, by norm_num [Denotes], by simp⟩, 0, by norm_num [Denotes], by simp, by simp, by simp⟩
  · simp [exampleStmt, Stmt.All, VExpr.Proper, Val.Proper]

end Ieme
