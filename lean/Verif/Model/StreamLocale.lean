import Verif.Model.Stream

/-!
# Stream input and output in a locale that groups digits

The stream operators of `/repo/include/ieme/raw_fraction.hpp:57-71` leave the conversion of the two
integers to the stream, and this to the facets `num_put`, `num_get` and `numpunct` of the stream's
locale.  `Verif/Model/Stream.lean` has the classic locale, which does not group digits; here
`numpunct` is arbitrary.

* `num_put` inserts separators as [facet.num.put.virtuals] and [facet.numpunct.virtuals] say.
* `num_get` remembers and drops separators, and checks their positions at the end
  ([facet.num.get.virtuals]); an empty group ends the number, and the positions are compared
  from the right, where the leftmost group may be short, as libstdc++ does it (`_M_extract_int`,
  `__verify_grouping`).  A number without separators is accepted.

The formatting flags are the default ones and the character classification is the classic one.  The
decimal point, which ends a number, is taken to be neither a digit nor a sign.  The sizes of
groups in the input are not cut to a `char`.
-/

namespace Ieme.Stream

/-- `std::numpunct<char>`: the values of the characters of `grouping()`, and `thousands_sep()`. -/
structure Punct where
  grouping : List Int
  sep : Char
deriving DecidableEq, Repr

/-- The value is the size of a group; others mean that the group has no bound. -/
def limited (c : Int) : Bool := 0 < c ∧ c ≠ 127

/-- What follows in `grouping()`: the last value is repeated. -/
def next : List Int → List Int
  | [] => []
  | [c] => [c]
  | _ :: c :: cs => c :: cs

/-- Does the locale group digits? -/
def Punct.groups (L : Punct) : Bool :=
  match L.grouping with
  | [] => false
  | c :: _ => limited c

/-- Digits, from the right, cut into groups, from the right. -/
def cut : List Int → List Char → List (List Char)
  | [], ds => [ds]
  | c :: cs, ds =>
    if _h : limited c = true ∧ c.toNat < ds.length then
      ds.take c.toNat :: cut (next (c :: cs)) (ds.drop c.toNat)
    else [ds]
termination_by _ ds => ds.length
decreasing_by
  simp only [List.length_drop]
  have : 0 < c := by
    have := _h.1
    simp only [limited, decide_eq_true_eq] at this
    exact this.1
  omega

/-- Groups with the separator between them. -/
def joinSep (sep : Char) : List (List Char) → List Char
  | [] => []
  | [p] => p
  | p :: q :: ps => p ++ sep :: joinSep sep (q :: ps)

/-- `num_put`: the digits with separators. -/
def Punct.group (L : Punct) (ds : List Char) : List Char :=
  joinSep L.sep (((cut L.grouping ds.reverse).map List.reverse).reverse)

/-- `stream << value` for an integer: the characters written. -/
def Punct.showInt (L : Punct) (v : Int) : List Char :=
  if v < 0 then '-' :: L.group (digits v.natAbs) else L.group (digits v.natAbs)

/-- `operator<<`, `/repo/include/ieme/raw_fraction.hpp:57-62`: the characters written. -/
def Punct.write (L : Punct) (value : Raw) : List Char :=
  L.showInt value.num ++ '/' :: L.showInt value.den

/-- What `num_get` collects: digits, sizes of the groups from the left, whether it met an empty
group, and the rest of the text. -/
structure Scan where
  digits : List Char
  sizes : List Nat
  bad : Bool
  rest : List Char
deriving DecidableEq, Repr

/-- The loop of `num_get`; `k` digits of the current group have been read. -/
def Punct.scan (L : Punct) (k : Nat) : List Char → Scan
  | [] => ⟨[], [k], false, []⟩
  | c :: t =>
    if L.groups && c = L.sep then
      if k = 0 then ⟨[], [], true, c :: t⟩
      else
        let r := L.scan 0 t
        ⟨r.digits, k :: r.sizes, r.bad, r.rest⟩
    else if isDigit c then
      let r := L.scan (k + 1) t
      ⟨c :: r.digits, r.sizes, r.bad, r.rest⟩
    else ⟨[], [k], false, c :: t⟩

/-- Are the sizes of the groups, from the right, those that `grouping()` asks for? -/
def verify : List Int → List Nat → Bool
  | [], _ => true
  | _, [] => true
  | c :: _, [k] => !limited c || decide ((k : Int) ≤ c)
  | c :: cs, k :: k' :: ks => decide ((k : Int) = c) && verify (next (c :: cs)) (k' :: ks)
termination_by _ ks => ks.length

/-- `stream >> value` for an integer: new value and stream. -/
def Punct.getInt (L : Punct) (T : IntTy) (s : IStream) (old : Int) : Int × IStream :=
  if s.eof || s.fail then (old, { s with fail := true })
  else
    let r := s.rest.dropWhile isSpace
    if r.isEmpty then (old, ⟨[], true, true⟩)
    else
      let sign := (splitSign r).1
      let n := L.scan 0 (splitSign r).2
      if n.digits.isEmpty || n.bad then (0, ⟨n.rest, n.rest.isEmpty, true⟩)
      else
        let v := store T sign (decimal n.digits)
        let consistent := n.sizes.length ≤ 1 || verify L.grouping n.sizes.reverse
        (v.1, ⟨n.rest, n.rest.isEmpty, v.2 || !consistent⟩)

/-- `operator>>`, `/repo/include/ieme/raw_fraction.hpp:64-71`: new value and stream. -/
def Punct.read (L : Punct) (T : IntTy) (s : IStream) (value : Raw) : Raw × IStream :=
  let n := L.getInt T s value.num
  let s' := ignore n.2 '/'
  let d := L.getInt T s' value.den
  (⟨n.1, d.1⟩, d.2)

end Ieme.Stream
