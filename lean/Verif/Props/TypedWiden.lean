import Verif.Lemmas.TypedSettles
import Verif.Props.TypedProgram

/-!
# C126: the same program with wider types
-/

namespace Ieme

open Res IntTy Overload

variable {Γ : Decls} {m m' : Vars} {s s' : ℕ → ℚ} {c : Stmt} {n k : ℕ} {φ : IntTy → IntTy}

/-- **C126** If every integer type and representation of a program is replaced by a wider one, so
that common types become common types, a run that was clean gives the same objects. -/
theorem C126_wider (h : Widening φ) (hc : c.Compiles Γ) (ho : c.All VExpr.Objects) (hm : m.HasTy Γ)
    {r : Option Vars} (hr : c.exec Γ n m ⇓ r) : (c.retype φ).exec (Γ.retype φ) n m ⇓ r :=
  exec_sim h n c m hc ho hm r hr

/-- Twice as many bits. -/
def doubled (T : IntTy) : IntTy := ⟨T.signed, 2 * T.bits, by have := T.wide; omega⟩

/-- Doubling is such a replacement; the example of C125, whose run is clean, with doubled types. -/
example : Widening doubled ∧
    ((exampleStmt.retype doubled).exec (exampleDecls.retype doubled) 9 exampleVars).bind
      (fun r => pure (r.map fun m => (m 0, m 1, m 2))) ⇓
      some (.int 1, .frac ⟨11, 6⟩, .mixed ⟨1, ⟨5, 6⟩⟩) := by
  refine ⟨⟨fun T => C100_within_iff.2 (.inl ⟨rfl, by simp only [doubled]; omega⟩), fun T U => ?_⟩,
    by decide +kernel⟩
  have e1 : 2 * T.bits < 2 * U.bits ↔ T.bits < U.bits := by omega
  have e2 : 2 * T.bits ≤ 2 * U.bits ↔ T.bits ≤ U.bits := by omega
  have e3 : 2 * U.bits ≤ 2 * T.bits ↔ U.bits ≤ T.bits := by omega
  simp only [IntTy.common, doubled, e1, e2, e3]
  split_ifs <;> rfl

/-- **C126** (negation) The condition on common types is needed: `if (x < u) y = 1;` with
`unsigned u = 1` and `long long x = -1` sets `y`; with `unsigned long long u` it does not. -/
theorem C126_wider_wrong :
    let Γ : Decls := fun | 0 => .int u32 | _ => .int i64
    let φ : IntTy → IntTy := fun T => if T.bits < 64 then ⟨T.signed, 64, by decide⟩ else T
    let c : Stmt := .ite .less (.var 1) (.var 0) (.assign 2 (.obj (.int i32) (.int 1))) .skip
    let m : Vars := fun | 0 => .int 1 | 1 => .int (-1) | _ => .int 0
    (∀ T : IntTy, T.Within (φ T)) ∧ c.Compiles Γ ∧ c.All VExpr.Objects ∧ m.HasTy Γ ∧
    (c.exec Γ 2 m).bind (fun r => pure (r.map fun m => m 2)) ⇓ some (.int 1) ∧
    ((c.retype φ).exec (Γ.retype φ) 2 m).bind (fun r => pure (r.map fun m => m 2)) =
      .ok (some (.int 0)) true := by
  refine ⟨fun T => ?_, ⟨⟨_, _, rfl, rfl, rfl⟩, ⟨_, rfl, rfl⟩, trivial⟩,
    ⟨trivial, trivial, by simp only [Stmt.All, VExpr.Objects, Val.HasTy]; decide⟩, fun x => ?_,
    by decide +kernel, by decide +kernel⟩
  · rw [C100_within_iff]
    dsimp only
    split_ifs with hb
    · exact .inl ⟨rfl, hb.le⟩
    · exact .inl ⟨rfl, le_rfl⟩
  · match x with
    | 0 => exact ⟨by decide, by decide⟩
    | 1 => exact ⟨by decide, by decide⟩
    | x + 2 => exact ⟨by decide, by decide⟩

/-- **C126** Every expression over variables and objects of different types that has a value settles,
with one type for everything, on an object with exactly this value; denominator literals have to be
ones that can be negated. -/
theorem C126_expressions {e : VExpr} {t : Ty} {q : ℚ} (ht : e.ty Γ = some t)
    (hq : e.value Γ s = some q) (hm : m.Holds s) (hT : m.HasTy Γ) (hΓ : Γ.NoLiterals)
    (ho : e.Objects) (hl : e.SmallLiterals) (hp : e.Proper) :
    ∃ v, Settles (fun T => ((e.retype fun _ => T).inst (Γ.retype fun _ => T) m).eval) v ∧
      v.Denotes q := by
  obtain ⟨v, hv, -, hd, -⟩ := settles_inst hm (like_of_hasTy hT hΓ) e ht hq ho hl hp
  exact ⟨v, hv, hd⟩

/-- `(40000 1/3) + 100000 / x` with `int x = 1000000007` overflows with `int`, and settles on
`40000 1000300007/3000000021`. -/
example :
    let e : VExpr := .bin .plus (.obj (.mixed i32 i32 .defaults) (.mixed ⟨40000, ⟨1, 3⟩⟩))
      (.bin .divides (.obj (.frac i32 .defaults) (.frac ⟨100000, 1⟩)) (.var 0))
    let m : Vars := fun _ => .int 1000000007
    (∀ v, ¬ ((e.inst exampleDecls m).eval ⇓ v)) ∧
    ((e.retype fun _ => i64).inst (exampleDecls.retype fun _ => i64) m).eval ⇓
      .mixed ⟨40000, ⟨1000300007, 3000000021⟩⟩ := by
  refine ⟨?_, by decide +kernel⟩
  have : (((VExpr.bin .plus (.obj (.mixed i32 i32 .defaults) (.mixed ⟨40000, ⟨1, 3⟩⟩))
      (.bin .divides (.obj (.frac i32 .defaults) (.frac ⟨100000, 1⟩)) (.var 0))).inst exampleDecls
        fun _ => .int 1000000007).eval) = .fault .lcmPrecond := by decide +kernel
  intro v h
  rw [this] at h
  cases h

/-- **C126** Every program over variables of different types that compiles and terminates over the
rational numbers completes, when all its integer types and representations are replaced by one wide
enough signed type, with the same exact results; how many steps are enough does not depend on the type. -/
theorem C126_programs (hr : Meaning Γ c s s') (hm : m.Holds s) (hT : m.HasTy Γ) (hΓ : Γ.NoLiterals)
    (hc : c.Compiles Γ) (hrel : c.Reliable Γ) (ho : c.All VExpr.Objects)
    (hl : c.All VExpr.SmallLiterals) (hp : c.All VExpr.Proper) :
    ∃ (n N : ℕ) (m' : Vars), m'.Holds s' ∧ ∀ T : IntTy, T.signed = true → N ≤ T.bits →
      ∀ k ≥ n, (c.retype fun _ => T).exec (Γ.retype fun _ => T) k m ⇓ some m' := by
  obtain ⟨n, N, m', h, -, h'⟩ := settles_exec hr hm (like_of_hasTy hT hΓ) hΓ hc hrel ho hl hp
  exact ⟨n, N, m', h, h'⟩

/-- The example of C125 over a type of 64 bits. -/
example : exampleDecls.NoLiterals ∧ exampleStmt.All VExpr.SmallLiterals ∧
    ((exampleStmt.retype fun _ => i64).exec (exampleDecls.retype fun _ => i64) 9 exampleVars).bind
      (fun r => pure (r.map fun m => (m 0, m 1, m 2))) ⇓
      some (.int 1, .frac ⟨11, 6⟩, .mixed ⟨1, ⟨5, 6⟩⟩) := by
  refine ⟨fun x s o => ?_, by simp [exampleStmt, Stmt.All, VExpr.SmallLiterals], by decide +kernel⟩
  match x with
  | 0 => exact Ty.noConfusion
  | 1 => exact Ty.noConfusion
  | x + 2 => exact Ty.noConfusion

/-- **C126** Programs have one meaning. -/
theorem C126_deterministic {s₁ s₂ : ℕ → ℚ} (h1 : Meaning Γ c s s₁) (h2 : Meaning Γ c s s₂) :
    s₁ = s₂ := meaning_unique h1 h2

end Ieme
