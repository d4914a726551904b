import Verif.Lemmas.UserProgram

/-!
# C153: programs that pass the static check, in code of users

The static check of C114 for whole programs, for the text that a user writes.
-/

namespace Ieme

open Header User

variable {o : Ops} {tys : Types} {n : ℕ} {ents : List (ℕ × Val)} {T : IntTy} {V : List ℕ} {m : Ieme.Mem}
  {code : Code} {c : Cmd} {s s' : ℕ → ℚ} {A : Bounds}

/-- **C153** Code of a user with assignments, conditionals and loops over fractions of one type, with the
text of the headers: if the run over the rationals needs at most `k` nested steps and the static check
accepts that number, then the code completes without overflow or wrap-around, every variable has the exact
value, and its parts are within the bounds that the check computed. -/
theorem C153_checked_program {k : ℕ} {R : Outcome} (hn : policyDepth o ≤ n) (hs : ReadsCode T V code c)
    (hc : Contents T o V ents m) (hr : RunsIn k c s s') (hm : m.Holds s) (hw : m.Within T A)
    (ho : o.SafeBased ∨ c.OnlyEquality) (hp : T.signed = true ∨ c.All PExpr.StaysNonneg)
    (hk : c.check T.max k A = some R) :
    ∃ ents' m' B, R = .within B ∧ User.Runs n tys code ents (.next ents') ∧ Contents T o V ents' m' ∧
      m'.Holds s' ∧ m'.Within T B := by
  obtain ⟨m', B, hB, h1, h2, h3⟩ := C114_checked_steps (o := o) hr hm hw ho hp hk
  obtain ⟨ents', hc', hrun⟩ := run_program (tys := tys) hn hs hc h1
  exact ⟨ents', m', B, hB, hrun, hc', h2, h3⟩

/-- `while (x < y) x = x + 1;` from 1/2 and 2 ends with a fraction of the value 5/2 in `x`. -/
example :
    let ents : List (ℕ × Val) := [(0, .frac i32 .defaults ⟨1, 2⟩), (1, .frac i32 .defaults ⟨2, 1⟩)]
    ∃ ents' r, User.Runs 40 [] (.while (.bin .lt (.var 0 0) (.var 0 1))
        (.stmt (.assign 0 (.bin .add (.var 0 0) (.num 1)) .nil))) ents (.next ents') ∧
      ents'.lookup 0 = some (.frac i32 .defaults r) ∧ Denotes r (5 / 2) := by
  intro ents
  let m : Ieme.Mem := fun x => if x = 0 then ⟨1, 2⟩ else ⟨2, 1⟩
  let s : ℕ → ℚ := fun x => if x = 0 then 1 / 2 else 2
  let c : Cmd := .loop .less (.var 0) (.var 1) (.seq (.assign 0 (.fr .plus (.var 0) (1 : ℕ))) .skip)
  have hs : ReadsCode i32 [0, 1] (.while (.bin .lt (.var 0 0) (.var 0 1))
      (.stmt (.assign 0 (.bin .add (.var 0 0) (.num 1)) .nil))) c :=
    .loop (op := .less) (.var (by decide)) (.var (by decide))
      (.stmt (.assign (by decide) (.fr (op := .plus) rfl (.var (by decide))) .nil))
  have hc : Contents i32 .defaults [0, 1] ents m := by
    intro x hx
    simp only [List.mem_cons, List.not_mem_nil, or_false] at hx
    rcases hx with rfl | rfl <;> rfl
  have hm : m.Holds s := by
    intro x
    by_cases h0 : x = 0
    · subst h0; norm_num [Denotes, m, s]
    · norm_num [Denotes, m, s, h0]
  have hw : m.Within i32 (fun _ => ⟨10, 10⟩) := by
    intro x
    by_cases h0 : x = 0
    · subst h0; simp [m]
    · simp [m, h0]
  have hr : ∃ s', RunsIn 4 c s s' ∧ s' 0 = 5 / 2 := by
    refine ⟨_, .loopTrue (p := 1 / 2) (q := 2) ?_ ?_ ?_ (.seq (.assign (q := 3 / 2) ?_) .skip)
      (.loopTrue (p := 3 / 2) (q := 2) ?_ ?_ ?_ (.seq (.assign (q := 5 / 2) ?_) .skip)
      (.loopFalse (p := 5 / 2) (q := 2) ?_ ?_ ?_)), ?_⟩
    all_goals norm_num [PExpr.value, ArithOp.value, CmpOp.Holds, s]
  obtain ⟨s', hr, hx⟩ := hr
  obtain ⟨R, hR⟩ : ∃ R, c.check i32.max 4 (fun _ => ⟨10, 10⟩) = some R :=
    Option.isSome_iff_exists.1 (by decide +kernel)
  obtain ⟨ents', m', -, -, hrun, hc', hh, -⟩ := C153_checked_program (tys := []) (n := 40) (by decide) hs hc hr
    hm hw (.inl trivial) (.inl rfl) hR
  exact ⟨ents', m' 0, hrun, hc' 0 (by decide), hx ▸ hh 0⟩

/-- **C153** Code without loops that the static check accepts completes with the exact values, and the
parts of every variable are within the bounds that the check computed. -/
theorem C153_checked_loop_free {B : Bounds} (hn : policyDepth o ≤ n) (hs : ReadsCode T V code c)
    (hl : c.LoopFree) (hc : Contents T o V ents m) (hr : Ieme.Runs c s s') (hm : m.Holds s)
    (hw : m.Within T A) (ho : o.SafeBased ∨ c.OnlyEquality)
    (hp : T.signed = true ∨ c.All PExpr.StaysNonneg)
    (hk : c.check T.max c.depth A = some (.within B)) :
    ∃ ents' m', User.Runs n tys code ents (.next ents') ∧ Contents T o V ents' m' ∧ m'.Holds s' ∧
      m'.Within T B := by
  obtain ⟨m', h1, h2, h3⟩ := C114_loop_free (o := o) hl hr hm hw ho hp hk
  obtain ⟨ents', hc', hrun⟩ := run_program (tys := tys) hn hs hc h1
  exact ⟨ents', m', hrun, hc', h2, h3⟩

/-- `if (x < y) x = y; else { } z = x * x + 1;` -/
def exampleUserCode : Code :=
  .stmt (.ite (.bin .lt (.var 0 0) (.var 0 1)) (.assign 0 (.var 0 1) .nil) .nil
    (.assign 2 (.bin .add (.bin .mul (.var 0 0) (.var 0 0)) (.num 1)) .nil))

/-- The same as a program of the model. -/
def exampleUserProgram : Cmd :=
  .seq (.ite .less (.var 0) (.var 1) (.seq (.assign 0 (.var 1)) .skip) .skip)
    (.seq (.assign 2 (.fr .plus (.ff .multiplies (.var 0) (.var 0)) (1 : ℕ))) .skip)

/-- From -7/3 and 5 over minus 4 the code stores a fraction of the value 41/16 in `z`. -/
example :
    let ents : List (ℕ × Val) := [(0, .frac i32 .defaults ⟨-7, 3⟩), (1, .frac i32 .defaults ⟨5, -4⟩),
      (2, .frac i32 .defaults ⟨0, 1⟩)]
    ∃ ents' r, User.Runs 40 [] exampleUserCode ents (.next ents') ∧
      ents'.lookup 2 = some (.frac i32 .defaults r) ∧ Denotes r (41 / 16) := by
  intro ents
  let m : Ieme.Mem := fun x => if x = 0 then ⟨-7, 3⟩ else if x = 1 then ⟨5, -4⟩ else ⟨0, 1⟩
  let s : ℕ → ℚ := fun x => if x = 0 then -7 / 3 else if x = 1 then -5 / 4 else 0
  have hs : ReadsCode i32 [0, 1, 2] exampleUserCode exampleUserProgram :=
    .stmt (.ite (op := .less) (.var (by decide)) (.var (by decide))
      (.assign (by decide) (.var (by decide)) .nil) .nil
      (.assign (by decide) (.fr (op := .plus) rfl (.ff (op := .multiplies) (.var (by decide))
        (.var (by decide)))) .nil))
  have hc : Contents i32 .defaults [0, 1, 2] ents m := by
    intro x hx
    simp only [List.mem_cons, List.not_mem_nil, or_false] at hx
    rcases hx with rfl | rfl | rfl <;> rfl
  have hm : m.Holds s := by
    intro x
    by_cases h0 : x = 0
    · subst h0; norm_num [Denotes, m, s]
    by_cases h1 : x = 1
    · subst h1; norm_num [Denotes, m, s]
    · norm_num [Denotes, m, s, h0, h1]
  have hw : m.Within i32 (fun _ => ⟨100, 100⟩) := by
    intro x
    by_cases h0 : x = 0
    · subst h0; simp [m, i32]
    by_cases h1 : x = 1
    · subst h1; simp [m, i32]
    · simp [m, h0, h1]
  have hr : Ieme.Runs exampleUserProgram s
      (fun y => if y = 2 then 41 / 16 else (fun y => if y = 0 then -5 / 4 else s y) y) := by
    refine .seq (.iteTrue (p := -7 / 3) (q := -5 / 4) ?_ ?_ ?_ (.seq (.assign (q := -5 / 4) ?_) .skip))
      (.seq (.assign (q := 41 / 16) ?_) .skip)
    all_goals norm_num [PExpr.value, litValue, ArithOp.value, CmpOp.Holds, s]
  obtain ⟨ents', m', hrun, hc', hh, -⟩ := C153_checked_loop_free (tys := []) (n := 40) (by decide) hs
    ⟨⟨⟨trivial, trivial⟩, trivial⟩, trivial, trivial⟩ hc hr hm hw (.inl trivial) (.inl rfl) rfl
  exact ⟨ents', m' 2, hrun, hc' 2 (by decide), hh 2⟩

end Ieme
