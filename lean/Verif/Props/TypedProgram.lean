import Verif.Lemmas.TypedProgram
import Verif.Props.Program
import Verif.Props.Overload

/-!
# C125: programs with variables of different types
-/

namespace Ieme

open Res IntTy Overload

variable {Γ : Decls} {m m' : Vars} {s s' : ℕ → ℚ} {c : Stmt} {n k : ℕ} {w : Bool}

/-- **C125** A program over integers, fractions and mixed numbers of any representations and policies
that terminates over the rational numbers, and whose run is free of overflow and of conversions that
change a value, computes exactly the rational results, whatever conversions its assignments make
and whatever overloads its operators call. -/
theorem C125_exact (hr : Meaning Γ c s s') (hm : m.Holds s) (hc : c.Reliable Γ)
    (hp : c.All VExpr.Proper) (h : c.exec Γ n m ⇓ some m') : m'.Holds s' := by
  induction hr generalizing m m' n with
  | skip =>
    cases n with
    | zero => simp [Stmt.exec, pure_def] at h
    | succ n => simp only [Stmt.exec, pure_eq_ok, Option.some.injEq, and_true] at h; exact h ▸ hm
  | assign he =>
    cases n with
    | zero => simp [Stmt.exec, pure_def] at h
    | succ n =>
      rw [Stmt.exec] at h
      split at h
      · simp only [bind_eq_clean, pure_eq_ok, Option.some.injEq, and_true] at h
        obtain ⟨v, hv, v', hv', rfl⟩ := h
        exact set_holds hm (convert_exact hv' (inst_exact hm hp hv he))
      · cases h
  | compound ht he hq =>
    cases n with
    | zero => simp [Stmt.exec, pure_def] at h
    | succ n =>
      simp only [Stmt.exec, ht, bind_eq_clean, pure_eq_ok, Option.some.injEq, and_true] at h
      obtain ⟨v, hv, v', hv', rfl⟩ := h
      exact set_holds hm (compoundAssign_exact hv' (hm _).1 (inst_exact hm hp hv he).1 hq)
  | call he hq =>
    cases n with
    | zero => simp [Stmt.exec, pure_def] at h
    | succ n =>
      rw [Stmt.exec] at h
      split at h <;> [skip; cases h]
      split at h <;> [skip; cases h]
      simp only [bind_eq_clean, pure_eq_ok, Option.some.injEq, and_true] at h
      obtain ⟨v, hv, r, hr, v', hv', rfl⟩ := h
      exact set_holds hm (convert_exact hv' (callRun_exact hr (inst_exact hm hp hv he) hq))
  | seq _ _ ihc ihd =>
    cases n with
    | zero => simp [Stmt.exec, pure_def] at h
    | succ n =>
      simp only [Stmt.exec, bind_eq_clean] at h
      obtain ⟨r, h1, h2⟩ := h
      cases r with
      | none => simp [pure_def] at h2
      | some m1 => exact ihd (ihc hm hc.1 hp.1 h1) hc.2 hp.2 h2
  | iteTrue h1 h2 hb _ ih =>
    cases n with
    | zero => simp [Stmt.exec, pure_def] at h
    | succ n =>
      simp only [Stmt.exec, bind_eq_clean] at h
      obtain ⟨b, ht, h⟩ := h
      have := (test_exact hm hp.1 hp.2.1 hc.1 h1 h2 ht).2 hb
      rw [this, if_pos rfl] at h
      exact ih hm hc.2.1 hp.2.2.1 h
  | iteFalse h1 h2 hb _ ih =>
    cases n with
    | zero => simp [Stmt.exec, pure_def] at h
    | succ n =>
      simp only [Stmt.exec, bind_eq_clean] at h
      obtain ⟨b, ht, h⟩ := h
      have := mt (test_exact hm hp.1 hp.2.1 hc.1 h1 h2 ht).1 hb
      rw [if_neg this] at h
      exact ih hm hc.2.2 hp.2.2.2 h
  | loopTrue h1 h2 hb _ _ ihc ihl =>
    cases n with
    | zero => simp [Stmt.exec, pure_def] at h
    | succ n =>
      simp only [Stmt.exec, bind_eq_clean] at h
      obtain ⟨b, ht, h⟩ := h
      have := (test_exact hm hp.1 hp.2.1 hc.1 h1 h2 ht).2 hb
      rw [this, if_pos rfl] at h
      simp only [bind_eq_clean] at h
      obtain ⟨r, g1, g2⟩ := h
      cases r with
      | none => simp [pure_def] at g2
      | some m1 => exact ihl (ihc hm hc.2 hp.2.2 g1) hc hp g2
  | loopFalse h1 h2 hb =>
    cases n with
    | zero => simp [Stmt.exec, pure_def] at h
    | succ n =>
      simp only [Stmt.exec, bind_eq_clean] at h
      obtain ⟨b, ht, h⟩ := h
      have := mt (test_exact hm hp.1 hp.2.1 hc.1 h1 h2 ht).1 hb
      rw [if_neg this] at h
      simp only [pure_eq_ok, Option.some.injEq, and_true] at h
      exact h ▸ hm

/-- **C125** If the program terminates over the rational numbers, a run free of overflow does not
go on forever; the number of steps depends on the rational run only, not on the objects in the variables. -/
theorem C125_terminates (hr : Meaning Γ c s s') :
    ∃ N, ∀ m : Vars, m.Holds s → c.Reliable Γ → c.All VExpr.Proper →
      ∀ n ≥ N, ¬ (c.exec Γ n m ⇓ none) := by
  induction hr with
  | skip =>
    refine ⟨1, fun m _ _ _ n hn h => ?_⟩
    obtain ⟨n, rfl⟩ : ∃ k, n = k + 1 := ⟨n - 1, by omega⟩
    simp [Stmt.exec, pure_def] at h
  | assign he =>
    refine ⟨1, fun m _ _ _ n hn h => ?_⟩
    obtain ⟨n, rfl⟩ : ∃ k, n = k + 1 := ⟨n - 1, by omega⟩
    rw [Stmt.exec] at h
    split at h <;> [skip; cases h]
    simp only [bind_eq_clean, pure_eq_ok, reduceCtorEq, false_and, and_false, exists_false] at h
  | compound ht he hq =>
    refine ⟨1, fun m _ _ _ n hn h => ?_⟩
    obtain ⟨n, rfl⟩ : ∃ k, n = k + 1 := ⟨n - 1, by omega⟩
    rw [Stmt.exec] at h
    split at h <;> [skip; cases h]
    simp only [bind_eq_clean, pure_eq_ok, reduceCtorEq, false_and, and_false, exists_false] at h
  | call he hq =>
    refine ⟨1, fun m _ _ _ n hn h => ?_⟩
    obtain ⟨n, rfl⟩ : ∃ k, n = k + 1 := ⟨n - 1, by omega⟩
    rw [Stmt.exec] at h
    split at h <;> [skip; cases h]
    split at h <;> [skip; cases h]
    simp only [bind_eq_clean, pure_eq_ok, reduceCtorEq, false_and, and_false, exists_false] at h
  | seq hc _ ihc ihd =>
    obtain ⟨N1, g1⟩ := ihc
    obtain ⟨N2, g2⟩ := ihd
    refine ⟨max N1 N2 + 1, fun m hm ho hp n hn h => ?_⟩
    obtain ⟨n, rfl⟩ : ∃ k, n = k + 1 := ⟨n - 1, by omega⟩
    simp only [Stmt.exec, bind_eq_clean] at h
    obtain ⟨r, h1, h2⟩ := h
    cases r with
    | none => exact g1 m hm ho.1 hp.1 n (by omega) h1
    | some m1 => exact g2 m1 (C125_exact hc hm ho.1 hp.1 h1) ho.2 hp.2 n (by omega) h2
  | iteTrue h1 h2 hb _ ih =>
    obtain ⟨N, g⟩ := ih
    refine ⟨N + 1, fun m hm ho hp n hn h => ?_⟩
    obtain ⟨n, rfl⟩ : ∃ k, n = k + 1 := ⟨n - 1, by omega⟩
    simp only [Stmt.exec, bind_eq_clean] at h
    obtain ⟨b, ht, h⟩ := h
    have := (test_exact hm hp.1 hp.2.1 ho.1 h1 h2 ht).2 hb
    rw [this, if_pos rfl] at h
    exact g m hm ho.2.1 hp.2.2.1 n (by omega) h
  | iteFalse h1 h2 hb _ ih =>
    obtain ⟨N, g⟩ := ih
    refine ⟨N + 1, fun m hm ho hp n hn h => ?_⟩
    obtain ⟨n, rfl⟩ : ∃ k, n = k + 1 := ⟨n - 1, by omega⟩
    simp only [Stmt.exec, bind_eq_clean] at h
    obtain ⟨b, ht, h⟩ := h
    have := mt (test_exact hm hp.1 hp.2.1 ho.1 h1 h2 ht).1 hb
    rw [if_neg this] at h
    exact g m hm ho.2.2 hp.2.2.2 n (by omega) h
  | loopTrue h1 h2 hb hc _ ihc ihl =>
    obtain ⟨N1, g1⟩ := ihc
    obtain ⟨N2, g2⟩ := ihl
    refine ⟨max N1 N2 + 1, fun m hm ho hp n hn h => ?_⟩
    obtain ⟨n, rfl⟩ : ∃ k, n = k + 1 := ⟨n - 1, by omega⟩
    simp only [Stmt.exec, bind_eq_clean] at h
    obtain ⟨b, ht, h⟩ := h
    have := (test_exact hm hp.1 hp.2.1 ho.1 h1 h2 ht).2 hb
    rw [this, if_pos rfl] at h
    simp only [bind_eq_clean] at h
    obtain ⟨r, e1, e2⟩ := h
    cases r with
    | none => exact g1 m hm ho.2 hp.2.2 n (by omega) e1
    | some m1 => exact g2 m1 (C125_exact hc hm ho.2 hp.2.2 e1) ho hp n (by omega) e2
  | loopFalse h1 h2 hb =>
    refine ⟨1, fun m hm ho hp n hn h => ?_⟩
    obtain ⟨n, rfl⟩ : ∃ k, n = k + 1 := ⟨n - 1, by omega⟩
    simp only [Stmt.exec, bind_eq_clean] at h
    obtain ⟨b, ht, h⟩ := h
    have := mt (test_exact hm hp.1 hp.2.1 ho.1 h1 h2 ht).1 hb
    rw [if_neg this] at h
    simp [pure_eq_ok] at h

/-- An `int n` (0), a `fraction<long long>` (1) and a `mixed_number<int>` (2):
`n = 1; x = 0; while (n <= 3) { x += 1 / (x0 * n); n += 1; } m = x; n = m.whole();`
where `x0` is the object `1/1` of type `fraction<int>`. -/
def exampleDecls : Decls
  | 0 => .int i32
  | 1 => .frac i64 .defaults
  | _ => .mixed i32 i32 .defaults

def exampleStmt : Stmt :=
  .seq (.assign 0 (.obj (.int i64) (.int 1))) (.seq (.assign 1 (.obj (.int i32) (.int 0)))
    (.seq (.loop .lessEqual (.var 0) (.obj (.int i32) (.int 3))
      (.seq (.compound .plus 1 (.bin .divides (.obj (.int i32) (.int 1))
          (.bin .multiplies (.obj (.frac i32 .defaults) (.frac ⟨1, 1⟩)) (.var 0))))
        (.compound .plus 0 (.obj (.int i32) (.int 1)))))
      (.seq (.assign 2 (.var 1)) (.call .whole 0 (.var 2)))))

def exampleVars : Vars
  | 0 => .int 0
  | 1 => .frac ⟨0, 1⟩
  | _ => .mixed ⟨0, ⟨0, 1⟩⟩

/-- The run of the example ends with `n = 1`, `x = 11/6` and `m = 1 5/6`. -/
example : exampleStmt.Reliable exampleDecls ∧ exampleStmt.All VExpr.Proper ∧
    exampleStmt.Compiles exampleDecls ∧ exampleStmt.All VExpr.Objects ∧
    exampleVars.HasTy exampleDecls ∧ exampleVars.Holds (fun _ => 0) ∧
    (exampleStmt.exec exampleDecls 9 exampleVars).bind
      (fun r => pure (r.map fun m => (m 0, m 1, m 2))) ⇓
      some (.int 1, .frac ⟨11, 6⟩, .mixed ⟨1, ⟨5, 6⟩⟩) := by
  refine ⟨?_, ?_, ?_, ?_, ?_, ?_, by decide +kernel⟩
  · simp [exampleStmt, Stmt.Reliable, Overload.Reliable, VExpr.ty, exampleDecls]
  · simp [exampleStmt, Stmt.All, VExpr.Proper, Val.Proper]
  · refine ⟨⟨_, rfl, rfl⟩, ⟨_, rfl, rfl⟩, ⟨⟨_, _, rfl, rfl, rfl⟩, ⟨_, rfl, by decide⟩, ⟨_, rfl, rfl⟩⟩,
      ⟨_, rfl, by decide⟩, ⟨_, _, rfl, rfl, rfl⟩⟩
  · simp only [exampleStmt, Stmt.All, VExpr.Objects, Val.HasTy]; decide
  · intro x
    match x with
    | 0 => exact ⟨by decide, by decide⟩
    | 1 => exact ⟨⟨by decide, by decide⟩, ⟨by decide, by decide⟩⟩
    | x + 2 => exact ⟨⟨by decide, by decide⟩, ⟨⟨by decide, by decide⟩, ⟨by decide, by decide⟩⟩⟩
  · intro x
    match x with
    | 0 => exact ⟨by simp [exampleVars, Val.Denotes], trivial⟩
    | 1 => exact ⟨by norm_num [exampleVars, Val.Denotes, Denotes], trivial⟩
    | x + 2 =>
      exact ⟨⟨0, by norm_num [Denotes], by simp⟩, 0, by norm_num [Denotes], by simp, by simp, by simp⟩

/-- **C125** A correctness proof over the rational numbers carries over. -/
theorem C125_correctness {P Q : (ℕ → ℚ) → Prop} (hc : ∀ s, P s → ∃ s', Meaning Γ c s s' ∧ Q s')
    (ho : c.Reliable Γ) (hp : c.All VExpr.Proper) (hm : m.Holds s) (hP : P s)
    (h : c.exec Γ n m ⇓ some m') : ∃ s', m'.Holds s' ∧ Q s' :=
  have ⟨s', hr, hq⟩ := hc s hP
  ⟨s', C125_exact hr hm ho hp h, hq⟩

/-- The rational meaning of a small program with all kinds of statements: `n = 7; x = n; x /= 2;
n = trunc(x);` ends with `n = 3`. -/
example : ∃ s', Meaning exampleDecls (.seq (.assign 0 (.obj (.int i32) (.int 7)))
    (.seq (.assign 1 (.var 0)) (.seq (.compound .divides 1 (.obj (.int i32) (.int 2)))
      (.call .trunc 0 (.var 1))))) (fun _ => 0) s' ∧ s' 0 = 3 := by
  refine ⟨_, .seq (.assign (q := 7) ?_) (.seq (.assign (q := 7) ?_)
    (.seq (.compound (p := 2) (q := 7 / 2) rfl ?_ ?_) (.call (p := 7 / 2) (q := 3) ?_ ?_))), ?_⟩
  all_goals norm_num [VExpr.value, Val.value, put, binValue, ArithOp.value, Call.value, ratTrunc,
    exampleDecls]
  all_goals decide +kernel

/-- **C125** A program that compiles keeps the types of its variables, with or without overflow. -/
theorem C125_type_sound (hc : c.Compiles Γ) (ho : c.All VExpr.Objects) (hm : m.HasTy Γ)
    (h : c.exec Γ n m = .ok (some m') w) : m'.HasTy Γ :=
  (exec_fine hc ho hm n).1 _ _ h m' rfl

/-- **C125** A run of a program that compiles never meets an expression, a conversion or a comparison
that the compiler rejects, and never throws. -/
theorem C125_never_rejected (hc : c.Compiles Γ) (ho : c.All VExpr.Objects) (hm : m.HasTy Γ)
    {k : Fault} (h : c.exec Γ n m = .fault k) : k ≠ .illFormed ∧ k ≠ .thrown :=
  ((exec_fine hc ho hm n).2 k h).symm

/-- **C125** An assignment, compound assignment or call that does not compile never completes. -/
theorem C125_rejected {x : ℕ} {e : VExpr} {op : ArithOp} {f : Call}
    (hc : c = .assign x e ∨ c = .compound op x e ∨ c = .call f x e) (hn : ¬ c.Compiles Γ) :
    c.exec Γ (n + 1) m ≠ .ok (some m') w := by
  suffices h : (c.exec Γ (n + 1) m).All fun _ => False from fun he => h _ _ he
  rcases hc with rfl | rfl | rfl
  · rw [Stmt.exec]
    split
    · rename_i t ht
      refine .bind' fun _ => .bind (convert_none ?_) fun _ h => h.elim
      rw [← Bool.not_eq_true]
      exact fun h => hn ⟨t, ht, h⟩
    · exact .fault
  · rw [Stmt.exec]
    split
    · rename_i t ht
      refine .bind' fun _ => .bind (compoundAssign_none ?_) fun _ h => h.elim
      rw [← Bool.not_eq_true]
      exact fun h => hn ⟨t, ht, h⟩
    · exact .fault
  · rw [Stmt.exec]
    split
    · rename_i t ht
      split
      · rename_i t' ht'
        refine .bind' fun _ => .bind' fun _ => .bind (convert_none ?_) fun _ h => h.elim
        rw [← Bool.not_eq_true]
        exact fun h => hn ⟨t, t', ht, ht', h⟩
      · exact .fault
    · exact .fault

example : ¬ (Stmt.assign 0 (.var 1)).Compiles exampleDecls ∧
    ¬ (Stmt.compound .plus 2 (.var 0)).Compiles exampleDecls ∧
    (Stmt.assign 1 (.var 0)).Compiles exampleDecls := by
  refine ⟨?_, ?_, _, rfl, rfl⟩ <;> rintro ⟨t, h, h'⟩ <;> cases h <;> revert h' <;> decide

/-- **C125** When integers take part: a comparison of two integers finishes cleanly exactly when both
fit the common type, and an assignment of an integer to an integer or a fraction exactly when it fits
the type of the variable or the representation. -/
theorem C125_integers (op : CmpOp) (A B T : IntTy) (o : Ops) (a b : ℤ) :
    ((∃ r, Overload.compare op (.int A) (.int B) (.int a) (.int b) ⇓ r) ↔
      (IntTy.common A B).InRange a ∧ (IntTy.common A B).InRange b) ∧
    ((∃ v, convert (.int A) (.int T) (.int a) ⇓ v) ↔ T.InRange a) ∧
    ((∃ v, convert (.int A) (.frac T o) (.int a) ⇓ v) ↔ T.InRange a) := by
  refine ⟨?_, ?_, ?_⟩
  · simp only [Overload.compare, bind_eq_clean, conv_clean, pure_eq_ok, and_true]
    constructor
    · rintro ⟨r, a', ⟨ha, rfl⟩, b', ⟨hb, rfl⟩, -⟩; exact ⟨ha, hb⟩
    · rintro ⟨ha, hb⟩; exact ⟨_, a, ⟨ha, rfl⟩, b, ⟨hb, rfl⟩, rfl⟩
  · simp only [convert, bind_eq_clean, conv_clean, pure_eq_ok, and_true]
    exact ⟨fun ⟨_, _, h, _⟩ => h.1, fun h => ⟨_, a, ⟨h, rfl⟩, rfl⟩⟩
  · simp only [convert, bind_eq_clean, conv_clean, pure_eq_ok, and_true]
    exact ⟨fun ⟨_, _, h, _⟩ => h.1, fun h => ⟨_, a, ⟨h, rfl⟩, rfl⟩⟩

/-- `4000000000u > 1`, and `-1 < 1u`, which is false. -/
example : Overload.compare .greater (.int u32) (.int i32) (.int 4000000000) (.int 1) ⇓ true ∧
    Overload.compare .less (.int i32) (.int u32) (.int (-1)) (.int 1) = .ok false true := by
  decide

/-- **C125** Over one representation and policy these are the programs of C110. -/
theorem C125_homogeneous (c : Cmd) (T : IntTy) (o : Ops) (m : Mem) (n : ℕ) :
    (c.typed T o).exec (fun _ => .frac T o) n (fun x => .frac (m x)) =
      (do return (← c.exec T o n m).map fun m' x => .frac (m' x)) := typed_exec c T o m n

/-- **C125** (negation) The condition on comparisons is needed, with the default policy too:
`x = 1 / -2_fr; if (x < 0) n = 1;` leaves `n` alone, because the fraction is compared with an
integer and its denominator is negative. -/
theorem C125_order_wrong :
    let c : Stmt := .seq (.assign 1 (.bin .divides (.obj (.int i64) (.int 1))
        (.neg (.obj (.lit false .defaults) (.lit 2)))))
      (.ite .less (.var 1) (.obj (.int i32) (.int 0)) (.assign 0 (.obj (.int i32) (.int 1))) .skip)
    c.Compiles exampleDecls ∧
    (∀ s', Meaning exampleDecls c (fun _ => 0) s' → s' 0 = 1) ∧
    (c.exec exampleDecls 4 exampleVars).bind (fun r => pure (r.map fun m => (m 0, m 1))) ⇓
      some (.int 0, .frac ⟨1, -2⟩) := by
  refine ⟨⟨⟨_, rfl, by decide⟩, ⟨_, _, rfl, rfl, rfl⟩, ⟨_, rfl, rfl⟩, trivial⟩, ?_, by decide +kernel⟩
  intro s' h
  cases h with
  | seq h1 h2 =>
    cases h1 with
    | assign he =>
      have : VExpr.value exampleDecls (fun _ => 0) (.bin .divides (.obj (.int i64) (.int 1))
          (.neg (.obj (.lit false .defaults) (.lit 2)))) = some (-1 / 2) := by
        norm_num [VExpr.value, VExpr.ty, Val.value, binValue, ArithOp.value, Ty.neg]
      rw [this] at he
      cases he
      cases h2 with
      | iteTrue a b hlt hc =>
        cases hc with
        | assign he' =>
          norm_num [VExpr.value, Val.value] at he'
          simp [put, ← he']
      | iteFalse a b hlt hc =>
        norm_num [VExpr.value, Val.value, put] at a b
        subst a; subst b
        norm_num [CmpOp.Holds] at hlt

end Ieme
