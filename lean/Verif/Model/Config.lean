import Verif.Model.Parse

/-!
# The configured default policy

Models the preprocessor conditions of `/repo/include/ieme/ops.hpp:518-536`, by which a user
chooses the policy `ops::defaults`, and the functions that use it by name.  Elsewhere the model
has `Ops.defaults`, the choice when no macro is defined.
-/

namespace Ieme

/-- Which of the macros `IEME_DEFAULT_OPS_…` are defined. -/
structure Config where
  safe : Bool := false
  safeReducedI : Bool := false
  safeReducedO : Bool := false
  safeReducedIO : Bool := false
  fast : Bool := false
  fastReducedI : Bool := false
  fastReducedO : Bool := false
  fastReducedIO : Bool := false
deriving DecidableEq, Repr

/-- `ops::defaults`, `/repo/include/ieme/ops.hpp:518-536`, with `IEME_DEFAULT_OPS_FALLBACK`
(line 8) at the end. -/
def Config.defaults (c : Config) : Ops :=
  if c.safe then .safe
  else if c.safeReducedI then .safeReducedI
  else if c.safeReducedO then .safeReducedO
  else if c.safeReducedIO then .safeReducedIO
  else if c.fast then .fast
  else if c.fastReducedI then .fastReducedI
  else if c.fastReducedO then .fastReducedO
  else if c.fastReducedIO then .fastReducedIO
  else .safeReducedIO

/-- `operator""_dec` under a configuration,
`/repo/include/ieme/fraction_literals.hpp:106-113`. -/
def Config.dec (c : Config) (string : List Char) : Res Raw := do
  let r ← Parse.toFraction i64 c.defaults string
  if r.isDefined then return r else .fault .thrown

end Ieme
