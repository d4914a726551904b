import Verif.Model.HeaderText
import Verif.Model.HeaderProgram

/-!
# What the text of the headers parses to

The kernel runs the parser of `Verif/Model/HeaderSyntax.lean` on each header.
-/

set_option maxRecDepth 100000

namespace Ieme.Header

theorem parse_numbers : parse Text.numbers = some Prog.numbers := by decide +kernel

theorem parse_reduceMode : parse Text.reduceMode = some Prog.reduceMode := by decide +kernel

theorem parse_mathUtilities : parse Text.mathUtilities = some Prog.mathUtilities := by
  decide +kernel

theorem parse_rawFraction : parse Text.rawFraction = some Prog.rawFraction := by decide +kernel

theorem parse_rawFractionQueries :
    parse Text.rawFractionQueries = some Prog.rawFractionQueries := by decide +kernel

theorem parse_rawFractionMath : parse Text.rawFractionMath = some Prog.rawFractionMath := by
  decide +kernel

theorem parse_ops : parse Text.ops = some Prog.ops := by decide +kernel

theorem parse_fraction : parse Text.fraction = some Prog.fraction := by decide +kernel

theorem parse_fractionQueries : parse Text.fractionQueries = some Prog.fractionQueries := by
  decide +kernel

theorem parse_fractionMath : parse Text.fractionMath = some Prog.fractionMath := by decide +kernel

theorem parse_mixedNumber : parse Text.mixedNumber = some Prog.mixedNumber := by decide +kernel

end Ieme.Header
