import Verif.Lemmas.ProgramBounds

/-!
# A static check excludes overflow in whole programs: property C114
-/

namespace Ieme

open Res IntTy

variable {T : IntTy} {o : Ops} {c : Cmd} {s s' : ℕ → ℚ} {m : Mem} {A : Bounds} {n : ℕ}

/-- **C114** If a program terminates over the rational numbers and the static check accepts it for
`n` steps, then running it for `n` steps causes no overflow or wrap-around under any policy built
on `safe` (any policy at all if it only tests for equality): either it needs more steps, or it
ends with exactly the rational results, within the bounds that the check computed. -/
theorem C114_checked_program {R : Outcome} (hr : Runs c s s') (hm : m.Holds s)
    (hw : m.Within T A) (ho : o.SafeBased ∨ c.OnlyEquality)
    (hn : T.signed = true ∨ c.All PExpr.StaysNonneg) (hk : c.check T.max n A = some R) :
    c.exec T o n m ⇓ none ∨ ∃ m' B, R = .within B ∧ c.exec T o n m ⇓ some m' ∧ m'.Holds s' ∧
      m'.Within T B := by
  rcases Cmd.exec_within (o := o) hr hm hw ho hn hk with h | ⟨m', h1, h2, h3⟩
  · exact .inl h
  · cases R with
    | unreached => exact h3.elim
    | within B => exact .inr ⟨m', B, rfl, h1, h2, h3⟩

/-- **C114** From some number of steps on, whenever the check accepts that number, the program
completes with the exact results. -/
theorem C114_checked_completes (hr : Runs c s s') (hm : m.Holds s)
    (hw : m.Within T A) (ho : o.SafeBased ∨ c.OnlyEquality)
    (hn : T.signed = true ∨ c.All PExpr.StaysNonneg) :
    ∃ N, ∀ n ≥ N, c.check T.max n A ≠ none → ∃ m', c.exec T o n m ⇓ some m' ∧ m'.Holds s' := by
  obtain ⟨N, hN⟩ := C110_terminates hr
  refine ⟨N, fun n hge hk => ?_⟩
  obtain ⟨R, hR⟩ := Option.ne_none_iff_exists'.1 hk
  rcases C114_checked_program (o := o) hr hm hw ho hn hR with h | ⟨m', -, -, h1, h2, -⟩
  · exact absurd h (hN T o m hm ho n hge)
  · exact ⟨m', h1, h2⟩

/-- **C114** If the rational run needs at most `n` nested steps and the check accepts that number, the
program completes in them with the exact results, within the bounds that the check computed. -/
theorem C114_checked_steps {R : Outcome} (hr : RunsIn n c s s') (hm : m.Holds s)
    (hw : m.Within T A) (ho : o.SafeBased ∨ c.OnlyEquality)
    (hn : T.signed = true ∨ c.All PExpr.StaysNonneg) (hk : c.check T.max n A = some R) :
    ∃ m' B, R = .within B ∧ c.exec T o n m ⇓ some m' ∧ m'.Holds s' ∧ m'.Within T B :=
  (C114_checked_program (o := o) hr.runs hm hw ho hn hk).resolve_left (hr.completes hm ho)

/-- **C114** A program without loops that passes the check at its own depth completes, with the
exact results, within the bounds that the check computed. -/
theorem C114_loop_free {B : Bounds} (hl : c.LoopFree) (hr : Runs c s s') (hm : m.Holds s)
    (hw : m.Within T A) (ho : o.SafeBased ∨ c.OnlyEquality)
    (hn : T.signed = true ∨ c.All PExpr.StaysNonneg)
    (hk : c.check T.max c.depth A = some (.within B)) :
    ∃ m', c.exec T o c.depth m ⇓ some m' ∧ m'.Holds s' ∧ m'.Within T B := by
  rcases C114_checked_program (o := o) hr hm hw ho hn hk with h | ⟨m', B', hB, h1, h2, h3⟩
  · exact absurd h (hl.completes le_rfl)
  · cases hB
    exact ⟨m', h1, h2, h3⟩

/-- **C114** A condition whose two sides pass the check is decided without overflow, and
correctly, from every contents within the bounds. -/
theorem C114_condition {op : CmpOp} {e1 e2 : PExpr} {p q : ℚ} (hm : m.Holds s)
    (hw : m.Within T A) (hb : e1.CondBounded T.max A e2)
    (hn : T.signed = true ∨ e1.StaysNonneg ∧ e2.StaysNonneg) (ho : o.SafeBased ∨ ¬ op.IsOrder)
    (h1 : e1.value s = some p) (h2 : e2.value s = some q) :
    ∃ b, Cmd.test T o m op e1 e2 ⇓ b ∧ (b = true ↔ op.Holds p q) := by
  obtain ⟨b, ht⟩ := Cmd.test_within (o := o) (op := op) hm hw hb hn h1 h2
  exact ⟨b, ht, Cmd.test_exact hm ho h1 h2 ht⟩

/-- `if (x < y) x = y; z = x * x + 1/2;`: the square of the larger of two variables. -/
def exampleLoopFree : Cmd :=
  .seq (.ite .less (.var 0) (.var 1) (.assign 0 (.var 1)) .skip)
    (.assign 2 (.ff .plus (.ff .multiplies (.var 0) (.var 0)) (.lit ⟨1, 2⟩)))

/-- With parts up to 100 the check accepts it for `int`, and computes that the numerator of the
result is at most 30000; with parts up to 40000 it does not.  The harmonic sum of C110 is accepted
for nine steps. -/
example : exampleLoopFree.LoopFree ∧ exampleLoopFree.depth = 3 ∧
    (∃ B, exampleLoopFree.check i32.max 3 (fun _ => ⟨100, 100⟩) = some (.within B) ∧
      B 2 = ⟨30000, 20000⟩) ∧
    (exampleLoopFree.check i32.max 3 (fun _ => ⟨40000, 40000⟩)).isNone ∧
    (exampleProgram.check i32.max 9 (fun _ => ⟨0, 1⟩)).isSome ∧
    Mem.Within i32 (fun _ => ⟨0, 1⟩) (fun _ => ⟨0, 1⟩) :=
  ⟨⟨⟨trivial, trivial⟩, trivial⟩, by decide, ⟨_, rfl, by decide⟩, by decide +kernel,
    by decide +kernel, fun x => by simp⟩

/-- All hypotheses together: from `-7/3` and 5 over minus 4 the program stores `-5/4` and `33/16`. -/
example :
    let m : Mem := fun x => if x = 0 then ⟨-7, 3⟩ else if x = 1 then ⟨5, -4⟩ else ⟨0, 1⟩
    let s : ℕ → ℚ := fun x => if x = 0 then -7 / 3 else if x = 1 then -5 / 4 else 0
    m.Holds s ∧ m.Within i32 (fun _ => ⟨100, 100⟩) ∧
    (∃ s', Runs exampleLoopFree s s' ∧ s' 0 = -5 / 4 ∧ s' 2 = 33 / 16) ∧
    (exampleLoopFree.exec i32 .defaults 3 m).bind (fun r => pure (r.map fun m => m 2)) ⇓
      some ⟨33, 16⟩ := by
  refine ⟨fun x => ?_, fun x => ?_, ⟨_, .seq (.iteTrue (p := -7 / 3) (q := -5 / 4) ?_ ?_ ?_
    (.assign (q := -5 / 4) ?_)) (.assign (q := 33 / 16) ?_), ?_⟩, by decide +kernel⟩
  · by_cases h0 : x = 0
    · subst h0; norm_num [Denotes]
    by_cases h1 : x = 1
    · subst h1; norm_num [Denotes]
    · norm_num [Denotes, h0, h1]
  · by_cases h0 : x = 0
    · subst h0; simp [i32]
    by_cases h1 : x = 1
    · subst h1; simp [i32]
    · simp [h0, h1]
  all_goals norm_num [PExpr.value, litValue, ArithOp.value, CmpOp.Holds]

/-- `while (x < y) x = x + z;` from 0, 2 and 1 needs four nested steps; the check accepts them. -/
example :
    let c : Cmd := .loop .less (.var 0) (.var 1) (.assign 0 (.ff .plus (.var 0) (.var 2)))
    let s : ℕ → ℚ := fun x => if x = 0 then 0 else if x = 1 then 2 else 1
    (∃ s', RunsIn 4 c s s' ∧ s' 0 = 2) ∧ (c.check i32.max 4 (fun _ => ⟨10, 10⟩)).isSome := by
  refine ⟨⟨_, .loopTrue (p := 0) (q := 2) ?_ ?_ ?_ (.assign (q := 1) ?_) (.loopTrue (p := 1) (q := 2) ?_ ?_ ?_
    (.assign (q := 2) ?_) (.loopFalse (p := 2) (q := 2) ?_ ?_ ?_)), ?_⟩, by decide +kernel⟩
  all_goals norm_num [PExpr.value, ArithOp.value, CmpOp.Holds]

end Ieme
