import Verif.Model.Translation
import Verif.Model.TextRegisters
import Verif.Model.Main
/-!
# The Go functions of `pkg` that return a text, translated mechanically

Written by `tools/go2lean/texts.py` from the text of /repo; not edited by hand. `fmt.Sprintf` is the concatenation of the parts of its
format and of the texts of its arguments; `%v` is `dec`, `decInt`, `boolText`, `asciiText` or a member of `F : FloatTexts` by the type
of the argument, `%02X` is `hex02`. `common.PrefixMultiLine` is `prefixMultiLine` of Model/Main. A pointer is an `Option`.
Not translated, but taken from the model: the computed speed and track of a velocity message (`GroundSpeedVelocity.speedText`,
`GroundSpeedVelocity.trackText`) and `DTESubAddressStatuses.ToString` (`dteText`): Model/TranslationVelocity has their translation.
-/
set_option linter.unusedVariables false
namespace Modes

noncomputable section

