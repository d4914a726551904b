import Verif.Lemmas.UserTypes
import Mathlib.NumberTheory.Harmonic.Defs

/-!
# C153: code that uses fractions, run with the text of the headers, means what it says

Code of users is read by the parser of the headers and run by their interpreter, so every operator,
constructor and function of the library that it uses is evaluated from the text of the headers.
What the code means is said over the integers and the rational numbers alone
(`Verif/Spec/UserCode.lean`).  If the code ends without undefined behaviour and without wrap-around,
it ends as it means.

Left out: order comparisons between fractions and integers, and all order comparisons under a policy
built on `fast`, because the library gets those wrong (C15; `C153_order_with_integer_wrong` below);
the roundings that are wrong (C30, C31, C32, C34); and code that reads the numerators and denominators of
fractions that are not reduced.  A name declared in a block stays in use after the block, which is the meaning of C++ only if the names are distinct.
-/

namespace Ieme

open Header User Res

set_option maxRecDepth 100000

variable {o : Ops} {tys : Types} {n : ℕ} {ents : List (ℕ × Val)} {M : Mem}

/-- **C153** Every expression has the value it means, whatever the integer types of the fractions in
it. -/
theorem C153_expression {e : Header.Expr} {m : Meaning} {v : Val} (hn : policyDepth o ≤ n)
    (hM : MeansAll o ents M) (hs : Sem o tys M e m) (h : userEval n tys ents e ⇓ v) :
    Means o v m :=
  sem_sound hn hM hs h

/-- `trunc(-rational(7, k))` with `k` = 2, as parsed from its text and run with the text of the headers,
is -3. -/
example : ∃ e, ((parse ["template <typename T>", "auto f(T k)", "{",
      "  return trunc(-rational(7, k));", "}"]).map fun p => p.funcs.map (·.body)) =
      some [some (.ret e .nil)] ∧
    userEval 30 [(nameCode "rational", .frac i32 .safe)] [(nameCode "k", .int i64 2)] e ⇓
      .int i32 (-3) ∧
    Sem .safe [(nameCode "rational", .frac i32 .safe)] [(nameCode "k", .int 2)] e (.int (-3)) := by
  refine ⟨.call 0 (nameCode "trunc") [] (.cons (.un .neg (.call 0 (nameCode "rational") []
    (.cons (.num 7) (.cons (.var 0 (nameCode "k")) .nil)))) .nil), by decide +kernel,
    by decide +kernel, ?_⟩
  have hf : nameCode "trunc" = N.«trunc» := by decide +kernel
  refine .call (q := -((7 : ℤ) / (2 : ℤ))) (by decide +kernel)
    (.negRat (.make rfl (.num 7) (.var rfl) (by decide))) ?_
  rw [hf]
  have ht : ratTrunc (-(7 / 2)) = -3 := by decide +kernel
  norm_num [ratFun, ht]

/-- `round(x)` of `x` = 7 over -3 is -2, `floor(x)` is -3, and `is_unit_fraction(reduce(y))` of `y` = -2
over 6 is true. -/
example : userEval 30 [] [(N.«value», .frac i32 .safe ⟨7, -3⟩)]
      (.call 0 N.«round» [] (.cons (.var 0 N.«value») .nil)) ⇓ .int i32 (-2) ∧
    Sem .safe [] [(N.«value», .rat (-7 / 3))] (.call 0 N.«round» [] (.cons (.var 0 N.«value») .nil))
      (.int (-2)) ∧
    userEval 30 [] [(N.«value», .frac i32 .safe ⟨7, -3⟩)]
      (.call 0 N.«floor» [] (.cons (.var 0 N.«value») .nil)) ⇓ .int i32 (-3) ∧
    ratFun N.«floor» (-7 / 3) = some (.int (-3)) ∧
    userEval 30 [] [(N.«value», .frac i32 .safe ⟨-2, 6⟩)]
      (.call 0 N.«is_unit_fraction» [] (.cons (.call 0 N.«reduce» [] (.cons (.var 0 N.«value») .nil))
        .nil)) ⇓ .bool true ∧ ratFun N.«is_unit_fraction» (-1 / 3) = some (.bool true) := by
  have hr : ⌊(-7 / 3 : ℚ) + 1 / 2⌋ = -2 := by decide +kernel
  have hf : ⌊(-7 / 3 : ℚ)⌋ = -3 := by decide +kernel
  refine ⟨by decide +kernel, hr ▸ .round rfl (.var rfl) (Or.inl (by simp [Ops.SafeBased]))
    (by norm_num), by decide +kernel, ?_, by decide +kernel, ?_⟩
  · simp [ratFun, hf]
    norm_num
  · have : (-1 / 3 : ℚ).num = -1 := by decide +kernel
    simp [ratFun, ratQuery, this]

/-- `floor_redenominate(x, -4)` of `x` = 7/3 is -9 over -4, `redenominate(x, 4)` is 9/4 and `is_proper(x)`
is false. -/
example : userEval 30 [] [(1, .frac i32 .safe ⟨7, 3⟩)]
      (.call 0 N.«floor_redenominate» [] (.cons (.var 0 1) (.cons (.un .neg (.num 4)) .nil))) ⇓
      .frac i32 .safe ⟨-9, -4⟩ ∧
    Sem .safe [] [(1, .rat (7 / 3))]
      (.call 0 N.«floor_redenominate» [] (.cons (.var 0 1) (.cons (.un .neg (.num 4)) .nil)))
      (.rat (9 / 4)) ∧
    userEval 30 [] [(1, .frac i32 .safe ⟨7, 3⟩)]
      (.call 0 N.«redenominate» [] (.cons (.var 0 1) (.cons (.num 4) .nil))) ⇓
      .frac i32 .safe ⟨9, 4⟩ ∧
    userEval 30 [] [(1, .frac i32 .safe ⟨7, 3⟩)]
      (.call 0 N.«is_proper» [] (.cons (.var 0 1) .nil)) ⇓ .bool false ∧
    ratFun N.«is_proper» (7 / 3) = some (.bool false) := by
  have hf : ⌊(7 / 3 : ℚ) * 4⌋ = 9 := by decide +kernel
  refine ⟨by decide +kernel, .redenominate (q := 7 / 3) (d := -4) rfl (.var rfl) (.negInt (.num 4))
    (by decide) ?_, by decide +kernel, by decide +kernel, ?_⟩
  · norm_num [ratRedenominate, hf]
  · norm_num [ratFun, ratQuery, ratSize, abs_of_pos]

/-- `reduce(x).numerator()` of `x` = 6 over -4, from its text, is -3. -/
example : ∃ e, ((parse ["template <typename T>", "auto f(fraction<T> x)", "{",
      "  return reduce(x).numerator();", "}"]).map fun p => p.funcs.map (·.body)) =
      some [some (.ret e .nil)] ∧
    userEval 30 [] [(nameCode "x", .frac i32 .fast ⟨6, -4⟩)] e ⇓ .int i32 (-3) ∧
    Sem .fast [] [(nameCode "x", .rat (-3 / 2))] e (.int (-3)) := by
  refine ⟨.method (.call 0 (nameCode "reduce") [] (.cons (.var 0 (nameCode "x")) .nil))
    (nameCode "numerator"), by decide +kernel, by decide +kernel, ?_⟩
  have h1 : nameCode "reduce" = N.«reduce» := by decide +kernel
  have h2 : nameCode "numerator" = N.«numerator» := by decide +kernel
  have h3 : (-3 / 2 : ℚ).num = -3 := by decide +kernel
  rw [h1, h2, ← h3]
  exact .reducedNum (by simp) rfl (.var rfl)

/-- **C153** Every block of declarations, assignments, compound assignments, `if` and `return` does
what it means. -/
theorem C153_statements {s : Stmt} {out : Ends Meaning Mem} {out' : Ends Val (List (ℕ × Val))}
    (hn : policyDepth o ≤ n) (hM : MeansAll o ents M) (hs : DoesStmt o tys s M out)
    (h : userExec n tys ents s ⇓ out') : SameEnd o out' out :=
  stmt_sound hn hs hM h

/-- **C153** Code with loops does what it means. -/
theorem C153_code {c : Code} {out : Ends Meaning Mem} {out' : Ends Val (List (ℕ × Val))}
    (hn : policyDepth o ≤ n) (hM : MeansAll o ents M) (hd : Does o tys c M out)
    (h : Runs n tys c ents out') : SameEnd o out' out :=
  code_sound hn hd hM h

/-- **C153** The policy and the integer types make no difference: two runs of the same code from the
same numbers, that mean the same under both policies, return the same number. -/
theorem C153_policy_irrelevant {c : Code} {o' : Ops} {tys' : Types} {ents' : List (ℕ × Val)}
    {n' : ℕ} {v v' : Val} {m : Meaning} (hn : policyDepth o ≤ n) (hn' : policyDepth o' ≤ n')
    (hM : MeansAll o ents M) (hM' : MeansAll o' ents' M) (hd : Does o tys c M (.ret m))
    (hd' : Does o' tys' c M (.ret m)) (h : Runs n tys c ents (.ret v))
    (h' : Runs n' tys' c ents' (.ret v')) : Means o v m ∧ Means o' v' m :=
  ⟨code_sound hn hd hM h, code_sound hn' hd' hM' h'⟩

/-- **C153** Equations in code: `a == b` is true exactly if both sides mean the same number, however
they are computed. -/
theorem C153_equations {a b : Header.Expr} {x y : ℚ} {v : Val} (hn : policyDepth o ≤ n)
    (hM : MeansAll o ents M) (ha : Sem o tys M a (.rat x)) (hb : Sem o tys M b (.rat y))
    (h : userEval n tys ents (.bin .eq a b) ⇓ v) : v = .bool (decide (x = y)) :=
  (sem_sound hn hM (.rats ha hb rfl) h).bool

/-- **C153** For instance the distributive law, for all fractions over any three integer types. -/
theorem C153_distributive {f g h : ℕ} {x y z : ℚ} {v : Val} (hn : policyDepth o ≤ n)
    (hM : MeansAll o ents M) (hx : M.lookup f = some (.rat x)) (hy : M.lookup g = some (.rat y))
    (hz : M.lookup h = some (.rat z))
    (hv : userEval n tys ents (.bin .eq (.bin .mul (.bin .add (.var 0 f) (.var 0 g)) (.var 0 h))
      (.bin .add (.bin .mul (.var 0 f) (.var 0 h)) (.bin .mul (.var 0 g) (.var 0 h)))) ⇓ v) :
    v = .bool true := by
  have := C153_equations hn hM (.rats (.rats (.var hx) (.var hy) rfl) (.var hz) rfl)
    (.rats (.rats (.var hx) (.var hz) rfl) (.rats (.var hy) (.var hz) rfl) rfl) hv
  rw [this, decide_eq_true (by ring)]

/-- The distributive law at 1/2 over `int`, and 2 over -3 and 5/7 over `long`. -/
example : userEval 30 [] [(1, .frac i32 .safe ⟨1, 2⟩), (2, .frac i64 .safe ⟨2, -3⟩),
      (3, .frac i64 .safe ⟨5, 7⟩)]
      (.bin .eq (.bin .mul (.bin .add (.var 0 1) (.var 0 2)) (.var 0 3))
      (.bin .add (.bin .mul (.var 0 1) (.var 0 3)) (.bin .mul (.var 0 2) (.var 0 3)))) ⇓
    .bool true ∧
    MeansAll .safe [(1, .frac i32 .safe ⟨1, 2⟩), (2, .frac i64 .safe ⟨2, -3⟩),
      (3, .frac i64 .safe ⟨5, 7⟩)] [(1, .rat (1 / 2)), (2, .rat (-2 / 3)), (3, .rat (5 / 7))] := by
  refine ⟨by decide +kernel, .cons ⟨rfl, rfl, ?_⟩ (.cons ⟨rfl, rfl, ?_⟩ (.cons ⟨rfl, rfl, ?_⟩ .nil))⟩
    <;> norm_num [Denotes]

/-! ## Loops, for all inputs -/

/-- The body of the loop, from its text. -/
example : ((parse ["template <typename T>", "void step(fraction<T> sum, int k)", "{",
    "  sum += rational(1, k);", "  k -= 1;", "}"]).map fun p => p.funcs.map (·.body)) =
    some [some (.update (nameCode "sum") .add (.call 0 (nameCode "rational") []
      (.cons (.num 1) (.cons (.var 0 (nameCode "k")) .nil)))
      (.update (nameCode "k") .sub (.num 1) .nil))] := by decide +kernel

/-- **C153** The loop that sums 1/k, 1/(k-1), …, 1 adds the harmonic number, for every k, every policy
and every integer type of the fractions. -/
theorem C153_harmonic {sum k rational : ℕ} {T : IntTy} (hne : sum ≠ k)
    (htys : tys.lookup rational = some (.frac T o)) (hn : policyDepth o ≤ n)
    (hM : MeansAll o ents M) {count : ℕ} {x : ℚ} (hk : M.lookup k = some (.int count))
    (hs : M.lookup sum = some (.rat x)) {out : Ends Val (List (ℕ × Val))}
    (h : Runs n tys (harmonicLoop sum k rational) ents out) :
    ∃ ents' A r, out = .next ents' ∧ ents'.lookup sum = some (.frac A o r) ∧
      Denotes r (x + harmonic count) := by
  have key : ∀ (count : ℕ) (M : Mem) (x : ℚ), M.lookup k = some (.int count) →
      M.lookup sum = some (.rat x) → ∃ M', Does o tys (harmonicLoop sum k rational) M (.next M') ∧
        M'.lookup sum = some (.rat (x + harmonic count)) := by
    intro count
    induction count with
    | zero =>
      intro M x hk hs
      exact ⟨M, .done (.ints (.var hk) (.num 0) rfl), by simpa using hs⟩
    | succ c ih =>
      intro M x hk hs
      have hne' : k ≠ sum := Ne.symm hne
      obtain ⟨M', hd, hM'⟩ := ih ((k, .int c) :: (sum, .rat (x + 1 / ((c + 1 : ℕ) : ℤ))) :: M)
        (x + 1 / ((c + 1 : ℕ) : ℤ)) (by simp)
        (by rw [lookup_ne hne, List.lookup_cons_self])
      refine ⟨M', .again (M' := (k, .int c) :: (sum, .rat (x + 1 / ((c + 1 : ℕ) : ℤ))) :: M)
        ?_ (.stmt (.update (.make htys (.num 1) (.var hk) (by omega)) hs (new :=
          .rat (x + 1 / ((c + 1 : ℕ) : ℤ))) ?_ (.update (.num 1) (old := .int (c + 1 : ℕ)) ?_
            (new := .int c) ?_ .nil))) hd, ?_⟩
      · refine .ints (.var hk) (.num 0) ?_
        simp only [intOp, Option.some.injEq, Meaning.bool.injEq, decide_eq_true_eq]
        push_cast
        omega
      · simp [User.updated, ratOp]
      · rwa [lookup_ne hne']
      · simp [User.updated, intOp, assigned]
      · rw [hM', harmonic_succ]
        push_cast
        congr 2
        ring
  obtain ⟨M', hd, hM'⟩ := key count M x hk hs
  have hsame := C153_code hn hM hd h
  cases out with
  | ret v => exact hsame.elim
  | next ents' =>
    obtain ⟨v, hv, hm⟩ := MeansAll.lookup hsame hM'
    obtain ⟨A, r, rfl, hr⟩ := hm.rat
    exact ⟨ents', A, r, rfl, hv, hr⟩

/-- The loop from `k = 2`, `sum = 0/1`, run with the text of the headers: `sum` is 3/2, of `int`. -/
example : ∃ ents', Runs 30 [(nameCode "rational", .frac i32 .safe)]
    (harmonicLoop (nameCode "sum") (nameCode "k") (nameCode "rational"))
    [(nameCode "k", .int i32 2), (nameCode "sum", .frac i32 .safe ⟨0, 1⟩)] (.next ents') ∧
    ents'.lookup (nameCode "sum") = some (.frac i32 .safe ⟨3, 2⟩) ∧
    MeansAll .safe [(nameCode "k", .int i32 2), (nameCode "sum", .frac i32 .safe ⟨0, 1⟩)]
      [(nameCode "k", .int 2), (nameCode "sum", .rat 0)] ∧ policyDepth .safe ≤ 30 ∧
    (0 + harmonic 2 : ℚ) = 3 / 2 := by
  refine ⟨_, .again (ents' := [(nameCode "k", .int i32 1), (nameCode "sum", .frac i32 .safe ⟨1, 2⟩),
      (nameCode "k", .int i32 2), (nameCode "sum", .frac i32 .safe ⟨0, 1⟩)]) ?_ (.stmt ?_)
    (.again (ents' := [(nameCode "k", .int i32 0), (nameCode "sum", .frac i32 .safe ⟨3, 2⟩),
      (nameCode "k", .int i32 1), (nameCode "sum", .frac i32 .safe ⟨1, 2⟩),
      (nameCode "k", .int i32 2), (nameCode "sum", .frac i32 .safe ⟨0, 1⟩)]) ?_ (.stmt ?_)
      (.done ?_)), ?_, ?_, ?_, ?_⟩
  · decide +kernel
  · decide +kernel
  · decide +kernel
  · decide +kernel
  · decide +kernel
  · decide +kernel
  · exact .cons ⟨rfl, rfl⟩ (.cons ⟨rfl, rfl, by simp [Denotes]⟩ .nil)
  · decide
  · norm_num [harmonic, Finset.sum_range_succ]

/-- **C153** The loop that multiplies k times by the base multiplies by its k-th power. -/
theorem C153_power {product base k : ℕ} (hpb : product ≠ base) (hpk : product ≠ k) (hbk : base ≠ k)
    (hn : policyDepth o ≤ n) (hM : MeansAll o ents M) {count : ℕ} {x b : ℚ}
    (hk : M.lookup k = some (.int count)) (hp : M.lookup product = some (.rat x))
    (hb : M.lookup base = some (.rat b)) {out : Ends Val (List (ℕ × Val))}
    (h : Runs n tys (powerLoop product base k) ents out) :
    ∃ ents' A r, out = .next ents' ∧ ents'.lookup product = some (.frac A o r) ∧
      Denotes r (x * b ^ count) := by
  have key : ∀ (count : ℕ) (M : Mem) (x : ℚ), M.lookup k = some (.int count) →
      M.lookup product = some (.rat x) → M.lookup base = some (.rat b) →
      ∃ M', Does o tys (powerLoop product base k) M (.next M') ∧
        M'.lookup product = some (.rat (x * b ^ count)) := by
    intro count
    induction count with
    | zero =>
      intro M x hk hp hb
      exact ⟨M, .done (.ints (.var hk) (.num 0) rfl), by simpa using hp⟩
    | succ c ih =>
      intro M x hk hp hb
      obtain ⟨M', hd, hM'⟩ := ih ((k, .int c) :: (product, .rat (x * b)) :: M) (x * b) (by simp)
        (by rw [lookup_ne hpk, List.lookup_cons_self]) (by rwa [lookup_ne hbk, lookup_ne hpb.symm])
      refine ⟨M', .again (M' := (k, .int c) :: (product, .rat (x * b)) :: M) ?_
        (.stmt (.update (.var hb) hp (new := .rat (x * b)) ?_ (.update (.num 1)
          (old := .int (c + 1 : ℕ)) ?_ (new := .int c) ?_ .nil))) hd, ?_⟩
      · refine .ints (.var hk) (.num 0) ?_
        simp only [intOp, Option.some.injEq, Meaning.bool.injEq, decide_eq_true_eq]
        push_cast
        omega
      · simp [User.updated, ratOp]
      · rwa [lookup_ne hpk.symm]
      · simp [User.updated, intOp, assigned]
      · rw [hM', pow_succ]
        congr 2
        ring
  obtain ⟨M', hd, hM'⟩ := key count M x hk hp hb
  have hsame := C153_code hn hM hd h
  cases out with
  | ret v => exact hsame.elim
  | next ents' =>
    obtain ⟨v, hv, hm⟩ := MeansAll.lookup hsame hM'
    obtain ⟨A, r, rfl, hr⟩ := hm.rat
    exact ⟨ents', A, r, rfl, hv, hr⟩

/-- The product 3 · (-2/3)² over `long`, with the base over `int` and the policy with reduced output,
run with the text of the headers. -/
example : ∃ ents', Runs 30 [] (powerLoop (nameCode "product") (nameCode "base") (nameCode "k"))
    [(nameCode "k", .int i32 2),
      (nameCode "product", .frac i64 (.reducedOutput .safe .normalizeSigns) ⟨3, 1⟩),
      (nameCode "base", .frac i32 (.reducedOutput .safe .normalizeSigns) ⟨2, -3⟩)] (.next ents') ∧
    ents'.lookup (nameCode "product") =
      some (.frac i64 (.reducedOutput .safe .normalizeSigns) ⟨4, 3⟩) := by
  refine ⟨_, .again (ents' := [(nameCode "k", .int i32 1),
      (nameCode "product", .frac i64 (.reducedOutput .safe .normalizeSigns) ⟨-2, 1⟩),
      (nameCode "k", .int i32 2),
      (nameCode "product", .frac i64 (.reducedOutput .safe .normalizeSigns) ⟨3, 1⟩),
      (nameCode "base", .frac i32 (.reducedOutput .safe .normalizeSigns) ⟨2, -3⟩)]) ?_ (.stmt ?_)
    (.again (ents' := [(nameCode "k", .int i32 0),
      (nameCode "product", .frac i64 (.reducedOutput .safe .normalizeSigns) ⟨4, 3⟩),
      (nameCode "k", .int i32 1),
      (nameCode "product", .frac i64 (.reducedOutput .safe .normalizeSigns) ⟨-2, 1⟩),
      (nameCode "k", .int i32 2),
      (nameCode "product", .frac i64 (.reducedOutput .safe .normalizeSigns) ⟨3, 1⟩),
      (nameCode "base", .frac i32 (.reducedOutput .safe .normalizeSigns) ⟨2, -3⟩)]) ?_ (.stmt ?_)
      (.done ?_)), ?_⟩ <;> decide +kernel

/-- **C153** The loop that adds a part k times to a mixed number adds k times the part; the whole part
of the result is the truncated value and the fractional part is the rest. -/
theorem C153_total {total part k : ℕ} (htp : total ≠ part) (htk : total ≠ k) (hpk : part ≠ k)
    (hn : policyDepth o ≤ n) (hM : MeansAll o ents M) {count : ℕ} {x b : ℚ}
    (hk : M.lookup k = some (.int count)) (ht : M.lookup total = some (.mix x))
    (hp : M.lookup part = some (.rat b)) {out : Ends Val (List (ℕ × Val))}
    (h : Runs n tys (totalLoop total part k) ents out) :
    ∃ ents' W F m, out = .next ents' ∧ ents'.lookup total = some (.mixed W F o m) ∧
      m.whole = ratTrunc (x + count * b) ∧
      Denotes m.frac (x + count * b - ratTrunc (x + count * b)) := by
  have key : ∀ (count : ℕ) (M : Mem) (x : ℚ), M.lookup k = some (.int count) →
      M.lookup total = some (.mix x) → M.lookup part = some (.rat b) →
      ∃ M', Does o tys (totalLoop total part k) M (.next M') ∧
        M'.lookup total = some (.mix (x + count * b)) := by
    intro count
    induction count with
    | zero =>
      intro M x hk ht hp
      exact ⟨M, .done (.ints (.var hk) (.num 0) rfl), by simpa using ht⟩
    | succ c ih =>
      intro M x hk ht hp
      obtain ⟨M', hd, hM'⟩ := ih ((k, .int c) :: (total, .mix (x + b)) :: M) (x + b) (by simp)
        (by rw [lookup_ne htk, List.lookup_cons_self]) (by rwa [lookup_ne hpk, lookup_ne htp.symm])
      refine ⟨M', .again (M' := (k, .int c) :: (total, .mix (x + b)) :: M) ?_
        (.stmt (.assign (.mixRat (.var ht) (.var hp) rfl) ht (new := .mix (x + b)) rfl
          (.update (.num 1) (old := .int (c + 1 : ℕ)) ?_ (new := .int c) ?_ .nil))) hd, ?_⟩
      · refine .ints (.var hk) (.num 0) ?_
        simp only [intOp, Option.some.injEq, Meaning.bool.injEq, decide_eq_true_eq]
        push_cast
        omega
      · rwa [lookup_ne htk.symm]
      · simp [User.updated, intOp, assigned]
      · rw [hM']
        push_cast
        congr 2
        ring
  obtain ⟨M', hd, hM'⟩ := key count M x hk ht hp
  have hsame := C153_code hn hM hd h
  cases out with
  | ret v => exact hsame.elim
  | next ents' =>
    obtain ⟨v, hv, hm⟩ := MeansAll.lookup hsame hM'
    obtain ⟨W, F, m, rfl, hi, hq⟩ := hm.mix
    exact ⟨ents', W, F, m, rfl, hv, mixed_parts hi hq⟩

/-- From 1 1/2, two times -5/4 over `int`, run with the text of the headers: -1. -/
example : ∃ ents', Runs 30 [] (totalLoop 1 2 3) [(3, .int i32 2),
      (1, .mixed i32 i32 .safe ⟨1, ⟨1, 2⟩⟩), (2, .frac i32 .safe ⟨-5, 4⟩)] (.next ents') ∧
    ents'.lookup 1 = some (.mixed i32 i32 .safe ⟨-1, ⟨0, 4⟩⟩) ∧
    MeansAll .safe [(3, .int i32 2), (1, .mixed i32 i32 .safe ⟨1, ⟨1, 2⟩⟩),
      (2, .frac i32 .safe ⟨-5, 4⟩)] [(3, .int 2), (1, .mix (3 / 2)), (2, .rat (-5 / 4))] := by
  refine ⟨_, .again (ents' := [(3, .int i32 1), (1, .mixed i32 i32 .safe ⟨0, ⟨1, 4⟩⟩), (3, .int i32 2),
      (1, .mixed i32 i32 .safe ⟨1, ⟨1, 2⟩⟩), (2, .frac i32 .safe ⟨-5, 4⟩)]) ?_ (.stmt ?_)
    (.again (ents' := [(3, .int i32 0), (1, .mixed i32 i32 .safe ⟨-1, ⟨0, 4⟩⟩), (3, .int i32 1),
      (1, .mixed i32 i32 .safe ⟨0, ⟨1, 4⟩⟩), (3, .int i32 2),
      (1, .mixed i32 i32 .safe ⟨1, ⟨1, 2⟩⟩), (2, .frac i32 .safe ⟨-5, 4⟩)]) ?_ (.stmt ?_)
      (.done ?_)), ?_, ?_⟩
  · decide +kernel
  · decide +kernel
  · decide +kernel
  · decide +kernel
  · decide +kernel
  · decide +kernel
  · refine .cons ⟨rfl, rfl⟩ (.cons ⟨rfl, rfl, ⟨1 / 2, ?_, ?_, ?_, ?_⟩, 1 / 2, ?_, ?_⟩
      (.cons ⟨rfl, rfl, ?_⟩ .nil)) <;> norm_num [Denotes, abs_lt]

/-- The body of the loop, from its text. -/
example : ((parse ["template <typename T>", "void step(fraction<T> a, fraction<T> b)", "{",
    "  auto const rest = a % b;", "  a = b;", "  b = rest;", "}"]).map
      fun p => p.funcs.map (·.body)) =
    some [some (.decl (nameCode "rest") (.bin .mod (.var 0 (nameCode "a")) (.var 0 (nameCode "b")))
      (.assign (nameCode "a") (.var 0 (nameCode "b"))
        (.assign (nameCode "b") (.var 0 (nameCode "rest")) .nil)))] := by decide +kernel

/-- **C153** Euclid's algorithm on fractions: `a` ends as a greatest common divisor of the two numbers,
that is, both are integer multiples of it, and it is an integer combination of both. -/
theorem C153_euclid {a b rest : ℕ} (hab : a ≠ b) (har : a ≠ rest) (hbr : b ≠ rest)
    (htys : tys.lookup N.«is_zero» = none) (hn : policyDepth o ≤ n) (hM : MeansAll o ents M)
    {x y : ℚ} (ha : M.lookup a = some (.rat x)) (hb : M.lookup b = some (.rat y))
    {out : Ends Val (List (ℕ × Val))} (h : Runs n tys (euclidLoop a b rest) ents out) :
    ∃ ents' A r g, out = .next ents' ∧ ents'.lookup a = some (.frac A o r) ∧ Denotes r g ∧
      (∃ i : ℤ, x = i * g) ∧ (∃ j : ℤ, y = j * g) ∧ ∃ s t : ℤ, g = s * x + t * y := by
  have key : ∀ (D : ℚ), 0 < D → ∀ (k : ℕ) (M : Mem) (x y : ℚ) (X Y : ℤ), x * D = X → y * D = Y →
      Y.natAbs ≤ k → M.lookup a = some (.rat x) → M.lookup b = some (.rat y) →
      ∃ M' g, Does o tys (euclidLoop a b rest) M (.next M') ∧ M'.lookup a = some (.rat g) ∧
        (∃ i : ℤ, x = i * g) ∧ (∃ j : ℤ, y = j * g) ∧ ∃ s t : ℤ, g = s * x + t * y := by
    intro D hD k
    have zero : ∀ {M : Mem} {y : ℚ}, M.lookup b = some (.rat y) → ∀ {z : Bool},
        z = !decide (y = 0) →
        Sem o tys M (.un .not (.call 0 N.«is_zero» [] (.cons (.var 0 b) .nil))) (.bool z) := by
      rintro M y hb z rfl
      exact .not (.call htys (.var hb) (by simp [ratFun, ratQuery]))
    have stop : ∀ (M : Mem) (x y : ℚ), y = 0 → M.lookup a = some (.rat x) →
        M.lookup b = some (.rat y) →
        ∃ M' g, Does o tys (euclidLoop a b rest) M (.next M') ∧ M'.lookup a = some (.rat g) ∧
          (∃ i : ℤ, x = i * g) ∧ (∃ j : ℤ, y = j * g) ∧ ∃ s t : ℤ, g = s * x + t * y := by
      rintro M x y rfl ha hb
      exact ⟨M, x, .done (zero hb (by simp)), ha, ⟨1, by simp⟩, ⟨0, by simp⟩, 1, 0, by simp⟩
    induction k with
    | zero =>
      intro M x y X Y _ hY hk ha hb
      have hY0 : Y = 0 := by omega
      refine stop M x y ?_ ha hb
      rw [hY0] at hY
      simpa [hD.ne'] using hY
    | succ k ih =>
      intro M x y X Y hX hY hk ha hb
      by_cases hy : y = 0
      · exact stop M x y hy ha hb
      have hz : x - y * ratTrunc (x / y) = y * (x / y - ratTrunc (x / y)) := by
        field_simp
      have hlt : |x - y * ratTrunc (x / y)| < |y| := by
        rw [hz, abs_mul]
        have h1 := (sub_ratTrunc (x / y)).1
        have h2 : 0 < |y| := abs_pos.2 hy
        nlinarith
      obtain ⟨M', g, hd, hg, ⟨i, hi⟩, ⟨j, hj⟩, s, t, hst⟩ := ih
        ((b, .rat (x - y * ratTrunc (x / y))) :: (a, .rat y) ::
          (rest, .rat (x - y * ratTrunc (x / y))) :: M) y (x - y * ratTrunc (x / y)) Y
        (X - Y * ratTrunc (x / y)) hY (by push_cast; rw [← hX, ← hY]; ring) (by
          have : ((X - Y * ratTrunc (x / y)).natAbs : ℚ) < Y.natAbs := by
            rw [Nat.cast_natAbs, Nat.cast_natAbs]
            push_cast
            rw [← hX, ← hY]
            have : x * D - y * D * ratTrunc (x / y) = (x - y * ratTrunc (x / y)) * D := by ring
            rw [this, abs_mul, abs_mul]
            exact mul_lt_mul_of_pos_right hlt (abs_pos.2 hD.ne')
          have := Nat.cast_lt.1 this
          omega) (by rw [lookup_ne hab, List.lookup_cons_self]) List.lookup_cons_self
      refine ⟨M', g, .again (zero hb (by simp [hy])) (.stmt (.decl (.rats (.var ha) (.var hb)
        (by simp only [ratOp, if_neg hy])) (.assign (.var (m := .rat y) ?_) (old := .rat x) ?_ rfl
          (.assign (.var (m := .rat (x - y * ratTrunc (x / y))) ?_) (old := .rat y) ?_ rfl .nil)))) hd,
        hg, ⟨ratTrunc (x / y) * i + j, ?_⟩, ⟨i, hi⟩, t, s - t * ratTrunc (x / y), ?_⟩
      · rwa [lookup_ne hbr]
      · rwa [lookup_ne har]
      · rw [lookup_ne har.symm, List.lookup_cons_self]
      · rwa [lookup_ne hab.symm, lookup_ne hbr]
      · push_cast
        linear_combination hj + (ratTrunc (x / y) : ℚ) * hi
      · rw [hst]
        push_cast
        ring
  obtain ⟨M', g, hd, hg, h1, h2, h3⟩ := key (x.den * y.den) (by positivity) _ M x y (x.num * y.den)
    (y.num * x.den) (by push_cast; rw [← mul_assoc, Rat.mul_den_eq_num])
    (by push_cast; rw [mul_comm (x.den : ℚ), ← mul_assoc, Rat.mul_den_eq_num]) le_rfl ha hb
  have hsame := C153_code hn hM hd h
  cases out with
  | ret v => exact hsame.elim
  | next ents' =>
    obtain ⟨v, hv, hm⟩ := MeansAll.lookup hsame hg
    obtain ⟨A, r, rfl, hr⟩ := hm.rat
    exact ⟨ents', A, r, g, rfl, hv, hr, h1, h2, h3⟩

/-- From 3/2 over `int` and 5 over -4 over `long`, run with the text of the headers: `a` ends as
1/4. -/
example : ∃ ents', Runs 30 [] (euclidLoop 1 2 3) [(1, .frac i32 .safe ⟨3, 2⟩),
      (2, .frac i64 .safe ⟨5, -4⟩)] (.next ents') ∧
    ents'.lookup 1 = some (.frac i32 .safe ⟨1, 4⟩) ∧
    MeansAll .safe [(1, .frac i32 .safe ⟨3, 2⟩), (2, .frac i64 .safe ⟨5, -4⟩)]
      [(1, .rat (3 / 2)), (2, .rat (-5 / 4))] := by
  have h : ((runCode 30 [] 9 (euclidLoop 1 2 3) [(1, .frac i32 .safe ⟨3, 2⟩),
      (2, .frac i64 .safe ⟨5, -4⟩)]) >>= fun r => match r with
        | some (.next ents) => orIll (ents.lookup 1)
        | _ => illFormed) ⇓ .frac i32 .safe ⟨1, 4⟩ := by decide +kernel
  obtain ⟨r, hr, h⟩ := bind_eq_clean.1 h
  match r, hr, h with
  | some (.next ents), hr, h =>
    refine ⟨ents, runs_of_runCode hr, ?_,
      .cons ⟨rfl, rfl, by norm_num [Denotes]⟩ (.cons ⟨rfl, rfl, by norm_num [Denotes]⟩ .nil)⟩
    dsimp only at h
    cases e : ents.lookup 1 with
    | none => rw [e] at h; cases h
    | some v => rw [e] at h; cases h; rfl
  | some (.ret v), _, h => cases h
  | none, _, h => cases h

/-- The body of the next loop, from its text. -/
example : ((parse ["template <typename T>", "void step(fraction<T> x, int terms)", "{",
    "  auto const d = ceil(reciprocal(x));", "  x -= rational(1, d);", "  terms += 1;", "}"]).map
      fun p => p.funcs.map (·.body)) =
    some [some (.decl (nameCode "d") (.call 0 (nameCode "ceil") [] (.cons
        (.call 0 (nameCode "reciprocal") [] (.cons (.var 0 (nameCode "x")) .nil)) .nil))
      (.update (nameCode "x") .sub (.call 0 (nameCode "rational") [] (.cons (.num 1)
          (.cons (.var 0 (nameCode "d")) .nil)))
        (.update (nameCode "terms") .add (.num 1) .nil)))] := by decide +kernel

/-- **C153** The greedy algorithm for Egyptian fractions: it takes from a non-negative number unit
fractions of which it is the sum until nothing is left, at most as many as its numerator, and counts
them. -/
theorem C153_greedy {x d terms rational : ℕ} {T : IntTy} (hxd : x ≠ d) (hxt : x ≠ terms)
    (hdt : d ≠ terms) (hz : tys.lookup N.«is_zero» = none) (hc : tys.lookup N.«ceil» = none)
    (hr : tys.lookup N.«reciprocal» = none) (htys : tys.lookup rational = some (.frac T o))
    (hn : policyDepth o ≤ n) (hM : MeansAll o ents M) {q : ℚ} {t : ℤ} (hq : 0 ≤ q)
    (hx : M.lookup x = some (.rat q)) (ht : M.lookup terms = some (.int t))
    {out : Ends Val (List (ℕ × Val))} (h : Runs n tys (greedyLoop x d terms rational) ents out) :
    ∃ ents' A B r, ∃ ds : List ℕ, out = .next ents' ∧ ents'.lookup x = some (.frac A o r) ∧
      Denotes r 0 ∧ ents'.lookup terms = some (.int B (t + ds.length)) ∧ (∀ d ∈ ds, 0 < d) ∧
      (ds.map fun d : ℕ => (1 / d : ℚ)).sum = q ∧ (ds.length : ℤ) ≤ q.num := by
  have key : ∀ (k : ℕ) (M : Mem) (q : ℚ) (t N D : ℤ), 0 < D → 0 ≤ N → N ≤ k → q = N / D →
      M.lookup x = some (.rat q) → M.lookup terms = some (.int t) →
      ∃ M', ∃ ds : List ℕ, Does o tys (greedyLoop x d terms rational) M (.next M') ∧
        M'.lookup x = some (.rat 0) ∧ M'.lookup terms = some (.int (t + ds.length)) ∧
        (∀ d ∈ ds, 0 < d) ∧ (ds.map fun d : ℕ => (1 / d : ℚ)).sum = q ∧ (ds.length : ℤ) ≤ N := by
    have zero : ∀ {M : Mem} {q : ℚ}, M.lookup x = some (.rat q) → ∀ {z : Bool},
        z = !decide (q = 0) →
        Sem o tys M (.un .not (.call 0 N.«is_zero» [] (.cons (.var 0 x) .nil))) (.bool z) := by
      rintro M q hx z rfl
      exact .not (.call hz (.var hx) (by simp [ratFun, ratQuery]))
    have stop : ∀ (M : Mem) (t N : ℤ), 0 ≤ N → M.lookup x = some (.rat 0) →
        M.lookup terms = some (.int t) →
        ∃ M', ∃ ds : List ℕ, Does o tys (greedyLoop x d terms rational) M (.next M') ∧
          M'.lookup x = some (.rat 0) ∧ M'.lookup terms = some (.int (t + ds.length)) ∧
          (∀ d ∈ ds, 0 < d) ∧ (ds.map fun d : ℕ => (1 / d : ℚ)).sum = 0 ∧ (ds.length : ℤ) ≤ N := by
      intro M t N hN hx ht
      exact ⟨M, [], .done (zero hx (by simp)), hx, by simpa using ht, by simp, by simp, by simpa using hN⟩
    intro k
    induction k with
    | zero =>
      intro M q t N D _ h0 hk hq hx ht
      have hN : N = 0 := by push_cast at hk; omega
      have hq0 : q = 0 := by rw [hq, hN]; simp
      subst hq0
      exact stop M t N h0 hx ht
    | succ k ih =>
      intro M q t N D hD h0 hk hq hx ht
      by_cases hq0 : q = 0
      · subst hq0
        exact stop M t N h0 hx ht
      have hN : 0 < N := by
        rcases h0.lt_or_eq with h | h
        · exact h
        · exact absurd (by rw [hq, ← h]; simp) hq0
      have hNq : (0 : ℚ) < N := by exact_mod_cast hN
      have hDq : (0 : ℚ) < D := by exact_mod_cast hD
      have hpos : 0 < q := by rw [hq]; positivity
      have hinv : q⁻¹ = D / N := by rw [hq, inv_div]
      obtain ⟨c, hceil⟩ : ∃ c : ℤ, c = ⌈q⁻¹⌉ := ⟨_, rfl⟩
      have hcpos : 0 < c := by rw [hceil]; exact Int.ceil_pos.2 (by positivity)
      have hcq : (0 : ℚ) < c := by exact_mod_cast hcpos
      have hle : D ≤ N * c := by
        have := Int.le_ceil q⁻¹
        rw [← hceil, hinv, div_le_iff₀ hNq] at this
        have : D ≤ c * N := by exact_mod_cast this
        linarith
      have hlt : N * c < D + N := by
        have := Int.ceil_lt_add_one q⁻¹
        rw [← hceil, hinv, ← sub_lt_iff_lt_add, lt_div_iff₀ hNq] at this
        have : (c - 1) * N < D := by exact_mod_cast this
        linarith
      obtain ⟨M', ds, hd, h1, h2, h3, h4, h5⟩ := ih
        ((terms, .int (t + 1)) :: (x, .rat (q - (1 : ℤ) / c)) :: (d, .int c) :: M) (q - (1 : ℤ) / c)
        (t + 1) (N * c - D) (D * c) (by positivity) (by omega) (by push_cast at hk; omega)
        (by rw [hq]; push_cast; field_simp) (by rw [lookup_ne hxt, List.lookup_cons_self])
        List.lookup_cons_self
      obtain ⟨j, rfl⟩ : ∃ j : ℕ, c = j := ⟨c.toNat, by omega⟩
      refine ⟨M', j :: ds, .again (zero hx (by simp [hq0])) (.stmt (.decl (m := .int j)
        (.call hc (.call (m := .rat q⁻¹) hr (.var hx) ?_) ?_) (.update
          (.make htys (.num 1) (.var (m := .int j) List.lookup_cons_self) (by omega)) (old := .rat q)
          ?_ (new := .rat (q - (1 : ℤ) / (j : ℤ))) ?_ (.update (.num 1) (old := .int t) ?_
            (new := .int (t + 1)) ?_ .nil)))) hd, h1, ?_, ?_, ?_, ?_⟩
      · simp [ratFun, hq0]
      · have : ¬ q⁻¹ < 0 := by simpa using hpos.le
        simp [ratFun, this, hceil]
      · rwa [lookup_ne hxd]
      · simp [User.updated, ratOp]
      · rwa [lookup_ne hxt.symm, lookup_ne hdt.symm]
      · simp [User.updated, intOp, assigned]
      · rw [h2]
        push_cast [List.length_cons]
        congr 2
        ring
      · intro e he
        rcases List.mem_cons.1 he with rfl | he
        · omega
        · exact h3 e he
      · rw [List.map_cons, List.sum_cons, h4]
        push_cast
        ring
      · push_cast [List.length_cons]
        omega
  have hnum : 0 ≤ q.num := Rat.num_nonneg.2 hq
  obtain ⟨M', ds, hd, h1, h2, h3, h4, h5⟩ := key q.num.toNat M q t q.num q.den
    (by exact_mod_cast q.den_pos) hnum (by omega) (by exact_mod_cast (Rat.num_div_den q).symm) hx ht
  have hsame := C153_code hn hM hd h
  cases out with
  | ret v => exact hsame.elim
  | next ents' =>
    obtain ⟨v, hv, hm⟩ := MeansAll.lookup hsame h1
    obtain ⟨A, r, rfl, hr⟩ := hm.rat
    obtain ⟨w, hw, hm⟩ := MeansAll.lookup hsame h2
    obtain ⟨B, rfl⟩ := hm.int
    exact ⟨ents', A, B, r, ds, rfl, hv, hr, hw, h3, h4, h5⟩

/-- 5/6 = 1/2 + 1/3: from 5/6 over `int`, run with the text of the headers, two unit fractions are
taken. -/
example : ∃ ents', Runs 30 [(5, .frac i32 .safe)] (greedyLoop 1 2 3 5) [(1, .frac i32 .safe ⟨5, 6⟩),
      (3, .int i32 0)] (.next ents') ∧ ents'.lookup 3 = some (.int i32 2) ∧
    MeansAll .safe [(1, .frac i32 .safe ⟨5, 6⟩), (3, .int i32 0)] [(1, .rat (5 / 6)), (3, .int 0)] ∧
    (0 : ℚ) ≤ 5 / 6 := by
  have h : ((runCode 30 [(5, .frac i32 .safe)] 9 (greedyLoop 1 2 3 5) [(1, .frac i32 .safe ⟨5, 6⟩),
      (3, .int i32 0)]) >>= fun r => match r with
        | some (.next ents) => orIll (ents.lookup 3)
        | _ => illFormed) ⇓ .int i32 2 := by decide +kernel
  obtain ⟨r, hr, h⟩ := bind_eq_clean.1 h
  match r, hr, h with
  | some (.next ents), hr, h =>
    refine ⟨ents, runs_of_runCode hr, ?_,
      .cons ⟨rfl, rfl, by norm_num [Denotes]⟩ (.cons ⟨rfl, rfl⟩ .nil), by norm_num⟩
    dsimp only at h
    cases e : ents.lookup 3 with
    | none => rw [e] at h; cases h
    | some v => rw [e] at h; cases h; rfl
  | some (.ret v), _, h => cases h
  | none, _, h => cases h

/-- The body of the next loop, from its text. -/
example : ((parse ["template <typename T>", "void step(fraction<T> lo, fraction<T> hi, fraction<T> target, int k)",
    "{", "  auto const mid = (lo + hi) / 2;", "  if (mid * mid < target)", "    lo = mid;", "  else",
    "    hi = mid;", "  k -= 1;", "}"]).map
      fun p => p.funcs.map (·.body)) =
    some [some (.decl (nameCode "mid") (.bin .div (.bin .add (.var 0 (nameCode "lo"))
        (.var 0 (nameCode "hi"))) (.num 2))
      (.ite (.bin .lt (.bin .mul (.var 0 (nameCode "mid")) (.var 0 (nameCode "mid")))
          (.var 0 (nameCode "target")))
        (.assign (nameCode "lo") (.var 0 (nameCode "mid")) .nil)
        (.assign (nameCode "hi") (.var 0 (nameCode "mid")) .nil)
        (.update (nameCode "k") .sub (.num 1) .nil)))] := by decide +kernel

/-- **C153** Square roots by bisection, under every policy built on `safe`: after k steps the bounds are
closer by the factor 2 to the k, and the root is still between them. -/
theorem C153_bisection {lo hi mid target k : ℕ} (hd : [lo, hi, mid, target, k].Nodup)
    (ho : o.SafeBased) (hn : policyDepth o ≤ n) (hM : MeansAll o ents M) {count : ℕ} {x y t : ℚ}
    (hl : M.lookup lo = some (.rat x)) (hh : M.lookup hi = some (.rat y))
    (ht : M.lookup target = some (.rat t)) (hk : M.lookup k = some (.int count))
    (hx : x ^ 2 < t) (hy : t ≤ y ^ 2) {out : Ends Val (List (ℕ × Val))}
    (h : Runs n tys (rootLoop lo hi mid target k) ents out) :
    ∃ ents' A B r s a b, out = .next ents' ∧ ents'.lookup lo = some (.frac A o r) ∧
      ents'.lookup hi = some (.frac B o s) ∧ Denotes r a ∧ Denotes s b ∧ a ^ 2 < t ∧ t ≤ b ^ 2 ∧
      b - a = (y - x) / 2 ^ count := by
  simp only [List.nodup_cons, List.mem_cons, List.not_mem_nil, or_false, not_or, not_false_eq_true,
    List.nodup_nil, and_true] at hd
  obtain ⟨⟨hlh, hlm, hlt, hlk⟩, ⟨hhm, hht, hhk⟩, ⟨hmt, hmk⟩, htk⟩ := hd
  have key : ∀ (count : ℕ) (M : Mem) (x y : ℚ), M.lookup lo = some (.rat x) →
      M.lookup hi = some (.rat y) → M.lookup target = some (.rat t) →
      M.lookup k = some (.int count) → x ^ 2 < t → t ≤ y ^ 2 →
      ∃ M' a b, Does o tys (rootLoop lo hi mid target k) M (.next M') ∧
        M'.lookup lo = some (.rat a) ∧ M'.lookup hi = some (.rat b) ∧ a ^ 2 < t ∧ t ≤ b ^ 2 ∧
        b - a = (y - x) / 2 ^ count := by
    intro count
    induction count with
    | zero =>
      intro M x y hl hh ht hk hx hy
      exact ⟨M, x, y, .done (.ints (.var hk) (.num 0) rfl), hl, hh, hx, hy, by simp⟩
    | succ c ih =>
      intro M x y hl hh ht hk hx hy
      have hgo : Sem o tys M (.bin .ne (.var 0 k) (.num 0)) (.bool true) := by
        refine .ints (.var hk) (.num 0) ?_
        simp only [intOp, Option.some.injEq, Meaning.bool.injEq, decide_eq_true_eq]
        push_cast
        omega
      have hmid : Sem o tys M (.bin .div (.bin .add (.var 0 lo) (.var 0 hi)) (.num 2))
          (.rat ((x + y) / (2 : ℤ))) :=
        .ratInt (.rats (.var hl) (.var hh) rfl) (.num 2) (by simp [ratOp])
      have hcmp : ∀ {z : Bool}, z = decide ((x + y) / (2 : ℤ) * ((x + y) / (2 : ℤ)) < t) →
          Sem o tys ((mid, .rat ((x + y) / (2 : ℤ))) :: M)
            (.bin .lt (.bin .mul (.var 0 mid) (.var 0 mid)) (.var 0 target)) (.bool z) := by
        rintro z rfl
        exact .order ho (.rats (.var List.lookup_cons_self) (.var List.lookup_cons_self) rfl)
          (.var (by rwa [lookup_ne (Ne.symm hmt)])) rfl
      by_cases hlt' : (x + y) / (2 : ℤ) * ((x + y) / (2 : ℤ)) < t
      · obtain ⟨M', a, b, hd, h1, h2, h3, h4, h5⟩ := ih ((k, .int c) :: (lo, .rat ((x + y) / (2 : ℤ))) ::
          (mid, .rat ((x + y) / (2 : ℤ))) :: M) ((x + y) / (2 : ℤ)) y
          (by rw [lookup_ne hlk, List.lookup_cons_self])
          (by rwa [lookup_ne hhk, lookup_ne (Ne.symm hlh), lookup_ne hhm])
          (by rwa [lookup_ne htk, lookup_ne (Ne.symm hlt), lookup_ne (Ne.symm hmt)])
          List.lookup_cons_self (by rwa [pow_two]) hy
        refine ⟨M', a, b, .again hgo (.stmt (.decl hmid (.thenNext (hcmp (by simp only [hlt', decide_true]))
          (.assign (.var List.lookup_cons_self) (old := .rat x) (by rwa [lookup_ne hlm]) rfl .nil)
          (.update (.num 1) (old := .int (c + 1 : ℕ)) (by
            rwa [lookup_ne (Ne.symm hlk), lookup_ne (Ne.symm hmk)]) (new := .int c) (by
              simp [User.updated, intOp, assigned]) .nil)))) hd, h1, h2, h3, h4, ?_⟩
        rw [h5, pow_succ]
        push_cast
        field_simp
        ring
      · obtain ⟨M', a, b, hd, h1, h2, h3, h4, h5⟩ := ih ((k, .int c) :: (hi, .rat ((x + y) / (2 : ℤ))) ::
          (mid, .rat ((x + y) / (2 : ℤ))) :: M) x ((x + y) / (2 : ℤ))
          (by rwa [lookup_ne hlk, lookup_ne hlh, lookup_ne hlm])
          (by rw [lookup_ne hhk, List.lookup_cons_self])
          (by rwa [lookup_ne htk, lookup_ne (Ne.symm hht), lookup_ne (Ne.symm hmt)])
          List.lookup_cons_self hx (by rw [pow_two]; exact not_lt.1 hlt')
        refine ⟨M', a, b, .again hgo (.stmt (.decl hmid (.elseNext (hcmp (by simp only [hlt', decide_false]))
          (.assign (.var List.lookup_cons_self) (old := .rat y) (by rwa [lookup_ne hhm]) rfl .nil)
          (.update (.num 1) (old := .int (c + 1 : ℕ)) (by
            rwa [lookup_ne (Ne.symm hhk), lookup_ne (Ne.symm hmk)]) (new := .int c) (by
              simp [User.updated, intOp, assigned]) .nil)))) hd, h1, h2, h3, h4, ?_⟩
        rw [h5, pow_succ]
        push_cast
        field_simp
        ring
  obtain ⟨M', a, b, hd, h1, h2, h3, h4, h5⟩ := key count M x y hl hh ht hk hx hy
  have hsame := C153_code hn hM hd h
  cases out with
  | ret v => exact hsame.elim
  | next ents' =>
    obtain ⟨v, hv, hm⟩ := MeansAll.lookup hsame h1
    obtain ⟨A, r, rfl, hr⟩ := hm.rat
    obtain ⟨w, hw, hm⟩ := MeansAll.lookup hsame h2
    obtain ⟨B, s, rfl, hs⟩ := hm.rat
    exact ⟨ents', A, B, r, s, a, b, rfl, hv, hw, hr, hs, h3, h4, h5⟩

/-- The square root of 2 between 1 and 2, run for two steps with the text of the headers: it is greater
than 5/4. -/
example : ∃ ents', Runs 30 [] (rootLoop 1 2 3 4 5) [(1, .frac i32 .safe ⟨1, 1⟩),
      (2, .frac i32 .safe ⟨2, 1⟩), (4, .frac i32 .safe ⟨2, 1⟩), (5, .int i32 2)] (.next ents') ∧
    ents'.lookup 1 = some (.frac i32 .safe ⟨5, 4⟩) ∧
    MeansAll .safe [(1, .frac i32 .safe ⟨1, 1⟩), (2, .frac i32 .safe ⟨2, 1⟩), (4, .frac i32 .safe ⟨2, 1⟩),
      (5, .int i32 2)] [(1, .rat 1), (2, .rat 2), (4, .rat 2), (5, .int 2)] ∧
    (1 : ℚ) ^ 2 < 2 ∧ (2 : ℚ) ≤ 2 ^ 2 := by
  have h : ((runCode 30 [] 9 (rootLoop 1 2 3 4 5) [(1, .frac i32 .safe ⟨1, 1⟩),
      (2, .frac i32 .safe ⟨2, 1⟩), (4, .frac i32 .safe ⟨2, 1⟩), (5, .int i32 2)]) >>= fun r => match r with
        | some (.next ents) => orIll (ents.lookup 1)
        | _ => illFormed) ⇓ .frac i32 .safe ⟨5, 4⟩ := by decide +kernel
  obtain ⟨r, hr, h⟩ := bind_eq_clean.1 h
  match r, hr, h with
  | some (.next ents), hr, h =>
    refine ⟨ents, runs_of_runCode hr, ?_, .cons ⟨rfl, rfl, by norm_num [Denotes]⟩
      (.cons ⟨rfl, rfl, by norm_num [Denotes]⟩ (.cons ⟨rfl, rfl, by norm_num [Denotes]⟩
        (.cons ⟨rfl, rfl⟩ .nil))), by norm_num⟩
    dsimp only at h
    cases e : ents.lookup 1 with
    | none => rw [e] at h; cases h
    | some v => rw [e] at h; cases h; rfl
  | some (.ret v), _, h => cases h
  | none, _, h => cases h

/-- `-mixed(rational(-9, 4))` is 2 1/4 and its `whole()` is 2. -/
example : userEval 30 [(1, .frac i32 .safe), (2, .mixed i64 i32 .safe)] []
      (.method (.un .neg (.call 0 2 [] (.cons (.call 0 1 [] (.cons (.un .neg (.num 9))
        (.cons (.num 4) .nil))) .nil))) N.«whole») ⇓ .int i64 2 := by decide +kernel

/-! ## Expressions and statements -/

/-- The body of a function of a user, from its text; `left` and `right` are 5/6 over `int` and
-3/4 (as 3 over -4) over `long`.  It returns |5/6 - (-3/4)| = 19/12. -/
example : ∃ s v, ((parse ["template <typename T, typename U>",
      "auto distance(fraction<T> left, fraction<U> right)", "{",
      "  auto const difference = left - right;", "  if (is_negative(difference))", "    return -difference;",
      "  return difference;", "}"]).map fun p => p.funcs.map (·.body)) = some [some s] ∧
    userExec 30 [] [(nameCode "left", .frac i32 .safe ⟨5, 6⟩),
      (nameCode "right", .frac i64 .safe ⟨3, -4⟩)] s ⇓ .ret v ∧
    DoesStmt .safe [] s [(nameCode "left", .rat (5 / 6)), (nameCode "right", .rat (-3 / 4))]
      (.ret (.rat (19 / 12))) ∧ Means .safe v (.rat (19 / 12)) := by
  refine ⟨.decl (nameCode "difference")
      (.bin .sub (.var 0 (nameCode "left")) (.var 0 (nameCode "right")))
      (.ite (.call 0 (nameCode "is_negative") [] (.cons (.var 0 (nameCode "difference")) .nil))
        (.ret (.un .neg (.var 0 (nameCode "difference"))) .nil) .nil
        (.ret (.var 0 (nameCode "difference")) .nil)), .frac i64 .safe ⟨19, 12⟩, by decide +kernel,
    by decide +kernel, ?_, ⟨rfl, by norm_num [Denotes]⟩⟩
  have hf : nameCode "is_negative" = N.«is_negative» := by decide +kernel
  refine .decl (m := .rat (19 / 12)) (.rats (.var (m := .rat (5 / 6)) rfl)
    (.var (m := .rat (-3 / 4)) (by rw [lookup_ne (by decide +kernel)]; rfl)) ?_) (.elseNext (M' := _) ?_ .nil (.ret (.var rfl)))
  · norm_num [ratOp]
  · rw [hf]
    refine .call rfl (.var rfl) ?_
    simp [ratFun, ratQuery]
    norm_num

/-- **C153** Why comparisons with integers are left out: in the code of a user, `x < 0` is false for
`x` = 1 over -2, although -1/2 < 0. -/
theorem C153_order_with_integer_wrong :
    userEval 30 [] [(nameCode "x", .frac i32 .safe ⟨1, -2⟩)]
      (.bin .lt (.var 0 (nameCode "x")) (.num 0)) ⇓ .bool false ∧
    Means .safe (.frac i32 .safe ⟨1, -2⟩) (.rat (-1 / 2)) ∧ (-1 / 2 : ℚ) < 0 := by
  refine ⟨by decide +kernel, ⟨rfl, by norm_num [Denotes]⟩, by norm_num⟩

end Ieme
