import Verif.Model.Algorithms
import Verif.Model.Hash

/-!
# Standard containers with fractions as keys

`std::map<fraction, V>` and `std::unordered_map<fraction, V>` as far as insertion and lookup go
([associative.reqmts], [unord.req]).  Of the library they use `operator<`
and `operator==` (`/repo/include/ieme/fraction.hpp:690-718`) and `std::hash`
(`/repo/include/ieme/hash.hpp:67-71` and `99-104`).  Values are integers.  The search tree is the
one of the usual implementations without its rebalancing, which compares no keys.
-/

namespace Ieme.Std

variable (T : IntTy) (o : Ops)

/-- A search tree. -/
inductive Tree where
  | leaf
  | node (l : Tree) (key : Raw) (val : Int) (r : Tree)
deriving DecidableEq, Repr

/-- The entries in order. -/
def Tree.entries : Tree → List (Raw × Int)
  | .leaf => []
  | .node l k v r => l.entries ++ (k, v) :: r.entries

/-- `map::insert`: goes left if the key is less, right if it is greater, and leaves the tree alone
otherwise. -/
def Tree.insert (k : Raw) (v : Int) : Tree → Res Tree
  | .leaf => pure (.node .leaf k v .leaf)
  | .node l x w r => do
    if ← lt T o k x then
      let l' ← l.insert k v
      return .node l' x w r
    else if ← lt T o x k then
      let r' ← r.insert k v
      return .node l x w r'
    else return .node l x w r

/-- The first entry whose key is not less than `k`, `best` if there is none in the tree. -/
def Tree.lowerBound (k : Raw) (best : Option (Raw × Int)) : Tree → Res (Option (Raw × Int))
  | .leaf => pure best
  | .node l x w r => do
    if ← lt T o x k then r.lowerBound k best else l.lowerBound k (some (x, w))

/-- `map::find`: the lower bound, unless `k` is less. -/
def Tree.find (k : Raw) (t : Tree) : Res (Option Int) := do
  match ← t.lowerBound T o k none with
  | none => return none
  | some (x, w) => if ← lt T o k x then return none else return some w

/-- A user program that inserts one entry after the other. -/
def Tree.insertAll (t : Tree) : List (Raw × Int) → Res Tree
  | [] => pure t
  | (k, v) :: kvs => do
    let t' ← t.insert T o k v
    t'.insertAll kvs

/-- `x == y` for two fractions of the same type, `/repo/include/ieme/fraction.hpp:690-713`. -/
def eq (x y : Raw) : Res Bool := Fraction.cmp T T o .equalTo (.ff x y)

/-- The bucket of a key, of `n`. -/
def bucket {z : Nat} (h : Int → BitVec z) (n : Nat) (k : Raw) : Nat := (Hash.fraction h k).toNat % n

/-- Search in a bucket. -/
def findIn (k : Raw) : List (Raw × Int) → Res (Option Int)
  | [] => pure none
  | (x, w) :: rest => do if ← eq T o x k then return some w else findIn k rest

/-- `unordered_map::find` in a table with `n` buckets; the table is the list of its entries. -/
def tableFind {z : Nat} (h : Int → BitVec z) (n : Nat) (k : Raw) (t : List (Raw × Int)) :
    Res (Option Int) :=
  findIn T o k (t.filter fun e => bucket h n e.1 = bucket h n k)

/-- `unordered_map::insert`. -/
def tableInsert {z : Nat} (h : Int → BitVec z) (n : Nat) (k : Raw) (v : Int) (t : List (Raw × Int)) :
    Res (List (Raw × Int)) := do
  match ← tableFind T o h n k t with
  | none => return t ++ [(k, v)]
  | some _ => return t

/-- A user program that inserts one entry after the other. -/
def tableInsertAll {z : Nat} (h : Int → BitVec z) (n : Nat) (t : List (Raw × Int)) :
    List (Raw × Int) → Res (List (Raw × Int))
  | [] => pure t
  | (k, v) :: kvs => do
    let t' ← tableInsert T o h n k v t
    tableInsertAll h n t' kvs

end Ieme.Std
