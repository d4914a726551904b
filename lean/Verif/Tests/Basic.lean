import Verif.Model.Machine

/-!
# The test suite of the library, run on the model

Each file of `Verif/Tests` evaluates the assertions of one file of `/repo/src/ieme` on the
model, inside the kernel.  Nothing depends on these files; they are evidence that the model
computes what the library's authors observed the code to compute.
-/

namespace Ieme.Tests

/-- `REQUIRE(e)`: `e` finishes and is true. -/
def Passes : Res Bool → Bool
  | .ok b _ => b
  | .fault _ => false

/-- `REQUIRE_FALSE(e)`: `e` finishes and is false. -/
def Fails : Res Bool → Bool
  | .ok b _ => !b
  | .fault _ => false

end Ieme.Tests
