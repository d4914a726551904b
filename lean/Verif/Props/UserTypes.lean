import Verif.Lemmas.UserTypes

/-!
# C154: well-typed code that uses fractions can only fail by arithmetic

The types of the code of users (`Verif/Spec/UserTypes.lean`) are decided without regard to values.
Run with the text of the headers, well-typed code has results of the types it should have, in the range
of their integer types, and the only failures are the four kinds of undefined behaviour of
arithmetic.  In particular overload resolution, template argument deduction and the conversions in
the text of the headers always succeed.
-/

namespace Ieme

open Header User Res

set_option maxRecDepth 100000

variable {o : Ops} {tys : Types} {n : ℕ} {ents : List (ℕ × Val)} {Γ : Ctx}

/-- **C154** The value of an expression has the type of the expression and is in range; the evaluation
fails only by overflow, division by zero, or the preconditions of `std::gcd` and `std::lcm`. -/
theorem C154_expression {e : Header.Expr} {t : UTy} (hn : policyDepth o ≤ n)
    (hΓ : Holds o ents Γ) (he : ExprTy o tys Γ e t) :
    (∀ v w, userEval n tys ents e = .ok v w → HasTy o v t) ∧
    (∀ k, userEval n tys ents e = .fault k → k ∈ arithFaults) :=
  ⟨fun _ _ h => (expr_ty hn hΓ he).ok h, fun _ h => ((expr_ty hn hΓ he).fault h).mem⟩

/-- `left % right` of `int` and `long` has the type `fraction<long>`, and divides by zero if `right` is. -/
example : ExprTy .safe [] [(N.«left», .frac i32), (N.«right», .frac i64)]
      (.bin .mod (.var 0 N.«left») (.var 0 N.«right»)) (.frac i64) ∧
    Holds .safe [(N.«left», .frac i32 .safe ⟨7, 2⟩), (N.«right», .frac i64 .safe ⟨0, 3⟩)]
      [(N.«left», .frac i32), (N.«right», .frac i64)] ∧
    userEval 30 [] [(N.«left», .frac i32 .safe ⟨7, 2⟩), (N.«right», .frac i64 .safe ⟨0, 3⟩)]
      (.bin .mod (.var 0 N.«left») (.var 0 N.«right»)) = .fault .divByZero ∧
    userEval 30 [] [(N.«left», .frac i32 .safe ⟨7, 2⟩), (N.«right», .frac i64 .safe ⟨2, 3⟩)]
      (.bin .mod (.var 0 N.«left») (.var 0 N.«right»)) ⇓ .frac i64 .safe ⟨1, 6⟩ := by
  refine ⟨.bin (.var rfl) (.var rfl) rfl, ?_, by decide +kernel, by decide +kernel⟩
  intro x t h
  simp only [List.lookup_cons, List.lookup_nil] at h ⊢
  split at h
  · cases h; exact ⟨_, rfl, rfl, rfl, by decide, by decide⟩
  · split at h
    · cases h; exact ⟨_, rfl, rfl, rfl, by decide, by decide⟩
    · cases h

/-- `value + left` of `mixed_number<int, long>` and `fraction<int>` has the type
`mixed_number<int, long>`; the whole part of `-1 1/2 + 7/2` is 2, and adding 7/0 divides by zero. -/
example : ExprTy .safe [] [(N.«value», .mixed i32 i64), (N.«left», .frac i32)]
      (.method (.bin .add (.var 0 N.«value») (.var 0 N.«left»)) N.«whole») (.int i32) ∧
    Holds .safe [(N.«value», .mixed i32 i64 .safe ⟨-1, ⟨-1, 2⟩⟩), (N.«left», .frac i32 .safe ⟨7, 2⟩)]
      [(N.«value», .mixed i32 i64), (N.«left», .frac i32)] ∧
    userEval 30 [] [(N.«value», .mixed i32 i64 .safe ⟨-1, ⟨-1, 2⟩⟩),
        (N.«left», .frac i32 .safe ⟨7, 2⟩)]
      (.method (.bin .add (.var 0 N.«value») (.var 0 N.«left»)) N.«whole») ⇓ .int i32 2 ∧
    userEval 30 [] [(N.«value», .mixed i32 i64 .safe ⟨-1, ⟨-1, 2⟩⟩),
        (N.«left», .frac i32 .safe ⟨7, 0⟩)]
      (.method (.bin .add (.var 0 N.«value») (.var 0 N.«left»)) N.«whole») = .fault .divByZero := by
  refine ⟨.method (.bin (.var rfl) (.var rfl) rfl) rfl, ?_, by decide +kernel, by decide +kernel⟩
  intro x t h
  simp only [List.lookup_cons, List.lookup_nil] at h ⊢
  split at h
  · cases h; exact ⟨_, rfl, rfl, rfl, rfl, by decide, by decide⟩
  · split at h
    · cases h; exact ⟨_, rfl, rfl, rfl, by decide, by decide⟩
    · cases h

/-- **C154** Statements keep the types of the variables and return objects of the right type. -/
theorem C154_statements {s : Stmt} {ret : UTy} (hn : policyDepth o ≤ n) (hΓ : Holds o ents Γ)
    (hs : StmtTy o tys ret Γ s) :
    (∀ r w, userExec n tys ents s = .ok r w → OutcomeTy o ret Γ (some r)) ∧
    (∀ k, userExec n tys ents s = .fault k → k ∈ arithFaults) :=
  ⟨fun _ _ h => (stmt_ty hn hs hΓ).ok h, fun _ h => ((stmt_ty hn hs hΓ).fault h).mem⟩

/-- `auto const difference = left - right; if (is_negative(difference)) return -difference;
return difference;` is well typed and returns a `fraction<long>`. -/
example : StmtTy .defaults [] (.frac i64) [(N.«left», .frac i32), (N.«right», .frac i64)]
    (.decl N.«value» (.bin .sub (.var 0 N.«left») (.var 0 N.«right»))
      (.ite (.call 0 N.«is_negative» [] (.cons (.var 0 N.«value») .nil))
        (.ret (.un .neg (.var 0 N.«value»)) .nil) .nil (.ret (.var 0 N.«value») .nil))) :=
  .decl (.bin (.var rfl) (.var rfl) rfl) rfl (.ite (.call rfl (.var rfl) rfl)
    (.ret (.neg (.var rfl) (by simp))) .nil (.ret (.var rfl)))

/-- **C154** So does code with loops, however many rounds they take. -/
theorem C154_code {c : Code} {ret : UTy} (hn : policyDepth o ≤ n) (hΓ : Holds o ents Γ)
    (hc : CodeTy o tys ret Γ c) (fuel : ℕ) :
    (∀ r w, runCode n tys fuel c ents = .ok r w → OutcomeTy o ret Γ r) ∧
    (∀ k, runCode n tys fuel c ents = .fault k → k ∈ arithFaults) :=
  ⟨fun _ _ h => (code_ty hn fuel hc hΓ).ok h, fun _ h => ((code_ty hn fuel hc hΓ).fault h).mem⟩

/-- The loop of `C153_harmonic` is well typed, for every integer type of the fractions and of `k`. -/
example (T K : IntTy) (o : Ops) (ret : UTy) : CodeTy o [(3, .frac T o)] ret
    [(1, .frac T), (2, .int K)] (harmonicLoop 1 2 3) :=
  .while (.bin (s := .int K) (t := .int i32) (.var rfl) (.num (by decide)) rfl)
    (.stmt (.update (t := .frac T) (u := .frac T) (.make rfl (.num (by decide)) (.var rfl)) rfl
      trivial trivial (by simp [arithOps]) (.update (t := .int K) (u := .int i32)
        (.num (by decide)) rfl trivial trivial (by simp [arithOps]) .nil)))

/-- So is the loop of `C153_total` on mixed numbers, if the common types are those of the mixed number. -/
example (W F T K : IntTy) (o : Ops) (ret : UTy) (hW : W.common T = W) (hF : F.common T = F) :
    CodeTy o [] ret [(1, .mixed W F), (4, .frac T), (2, .int K)] (totalLoop 1 4 2) :=
  .while (.bin (s := .int K) (t := .int i32) (.var rfl) (.num (by decide)) rfl)
    (.stmt (.assign (t := .mixed W F) (u := .mixed (W.common T) (F.common T))
      (.bin (.var rfl) (.var rfl) rfl) rfl ⟨hW.symm, hF.symm⟩ (.update (t := .int K) (u := .int i32)
        (.num (by decide)) rfl trivial trivial (by simp [arithOps]) .nil)))

/-- Over `int` the loop computes the 22nd harmonic number under `safe`, and violates the precondition
of `std::lcm` for the 23rd; under `fast` it computes the 12th and overflows for the 13th. -/
example : ((runCode 30 [(3, .frac i32 .safe)] 30 (harmonicLoop 1 2 3)
      [(2, .int i32 22), (1, .frac i32 .safe ⟨0, 1⟩)]) >>= fun r => match r with
        | some (.next ents) => orIll (ents.lookup 1)
        | _ => illFormed) ⇓ .frac i32 .safe ⟨859193865, 232792560⟩ ∧
    runCode 30 [(3, .frac i32 .safe)] 30 (harmonicLoop 1 2 3)
      [(2, .int i32 23), (1, .frac i32 .safe ⟨0, 1⟩)] = .fault .lcmPrecond ∧
    ((runCode 30 [(3, .frac i32 .fast)] 30 (harmonicLoop 1 2 3)
      [(2, .int i32 12), (1, .frac i32 .fast ⟨0, 1⟩)]) >>= fun r => match r with
        | some (.next ents) => orIll (ents.lookup 1)
        | _ => illFormed) ⇓ .frac i32 .fast ⟨1486442880, 479001600⟩ ∧
    runCode 30 [(3, .frac i32 .fast)] 30 (harmonicLoop 1 2 3)
      [(2, .int i32 13), (1, .frac i32 .fast ⟨0, 1⟩)] = .fault .overflow := by
  decide +kernel

/-- **C154** The runs of C153 are the limited runs that end without wrap-around. -/
theorem C154_runs_iff {c : Code} {out : Ends Val (List (ℕ × Val))} :
    Runs n tys c ents out ↔ ∃ fuel, runCode n tys fuel c ents ⇓ some out :=
  ⟨runCode_of_runs, fun ⟨_, h⟩ => runs_of_runCode h⟩

/-- **C154** With C153: an expression that is well typed and has a meaning evaluates to its meaning,
or wraps around, or fails by arithmetic; there is no fourth possibility. -/
theorem C154_trichotomy {e : Header.Expr} {t : UTy} {M : Mem} {m : Meaning}
    (hn : policyDepth o ≤ n) (hΓ : Holds o ents Γ) (he : ExprTy o tys Γ e t)
    (hM : MeansAll o ents M) (hs : Sem o tys M e m) :
    (∃ v, userEval n tys ents e ⇓ v ∧ HasTy o v t ∧ Means o v m) ∨
    (∃ v, userEval n tys ents e = .ok v true ∧ HasTy o v t) ∨
    ∃ k ∈ arithFaults, userEval n tys ents e = .fault k := by
  have h1 := C154_expression hn hΓ he
  cases h : userEval n tys ents e with
  | fault k => exact Or.inr (Or.inr ⟨k, h1.2 k h, rfl⟩)
  | ok v w =>
    cases w
    · exact Or.inl ⟨v, rfl, h1.1 v _ h, sem_sound hn hM hs h⟩
    · exact Or.inr (Or.inl ⟨v, rfl, h1.1 v _ h⟩)

/-- **C154** Code that is well typed and means something ends: after sufficiently many rounds of its
loops it has ended as it means, or it has wrapped around, or it has failed by arithmetic. -/
theorem C154_ends {c : Code} {ret : UTy} {M : Mem} {out : Ends Meaning Mem}
    (hn : policyDepth o ≤ n) (hΓ : Holds o ents Γ) (hc : CodeTy o tys ret Γ c)
    (hM : MeansAll o ents M) (hd : Does o tys c M out) :
    ∃ k, ∀ fuel, k ≤ fuel →
      (∃ out', runCode n tys fuel c ents ⇓ some out' ∧ OutcomeTy o ret Γ (some out') ∧
        SameEnd o out' out) ∨
      (∃ r, runCode n tys fuel c ents = .ok r true) ∨
      ∃ k ∈ arithFaults, runCode n tys fuel c ents = .fault k := by
  obtain ⟨k, hk⟩ := does_ends hn hd
  refine ⟨k, fun fuel hf => ?_⟩
  have h1 := C154_code hn hΓ hc fuel
  cases h : runCode n tys fuel c ents with
  | fault k => exact Or.inr (Or.inr ⟨k, h1.2 k h, rfl⟩)
  | ok r w =>
    cases w
    · obtain ⟨out', rfl⟩ := (hk ents fuel hM hf).1 r h
      exact Or.inl ⟨out', rfl, h1.1 _ _ h, code_sound hn hd hM (runs_of_runCode h)⟩
    · exact Or.inr (Or.inl ⟨r, rfl⟩)

/-- The three ends of the loop that multiplies k times by 2: 2³¹ over `long`, an overflow over `int`, and
0 over `unsigned`, where it wraps around. -/
example : ((runCode 30 [] 40 (powerLoop 1 2 3) [(3, .int i32 31), (1, .frac i64 .safe ⟨1, 1⟩),
      (2, .frac i32 .safe ⟨2, 1⟩)]) >>= fun r => match r with
        | some (.next ents) => orIll (ents.lookup 1)
        | _ => illFormed) ⇓ .frac i64 .safe ⟨2147483648, 1⟩ ∧
    runCode 30 [] 40 (powerLoop 1 2 3) [(3, .int i32 31), (1, .frac i32 .safe ⟨1, 1⟩),
      (2, .frac i32 .safe ⟨2, 1⟩)] = .fault .overflow ∧
    ((runCode 30 [] 40 (powerLoop 1 2 3) [(3, .int i32 32), (1, .frac u32 .safe ⟨1, 1⟩),
      (2, .frac u32 .safe ⟨2, 1⟩)]) >>= fun r => match r with
        | some (.next ents) => orIll (ents.lookup 1)
        | _ => illFormed) = .ok (.frac u32 .safe ⟨0, 1⟩) true := by
  decide +kernel

end Ieme
