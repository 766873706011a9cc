import Verif.SystemsLoad
import Verif.SystemsCheck

/-!
# The checks of the tables, evaluated by the kernel

One after the other, to limit the use of memory.
-/

namespace Verif.Systems

set_option Elab.async false
set_option maxRecDepth 100000

theorem checkUnits_ok : checkUnits unitTable = true := by decide +kernel
theorem checkRatios_ok : checkRatios unitTable = true := by decide +kernel
theorem checkMisdefined_ok : checkMisdefined = true := by decide +kernel
theorem checkUnconvertible_ok : checkUnconvertible = true := by decide +kernel
theorem checkWF_ok : checkWF unitTable = true := by decide +kernel
theorem checkDims_ok : checkDims dimTable = true := by decide +kernel
theorem checkEquivalent_ok : checkEquivalent dimTable = true := by decide +kernel
theorem checkRejectedPairs_ok : checkRejectedPairs = true := by decide +kernel
theorem checkCoherent_ok : checkCoherent dimTable = true := by decide +kernel
theorem checkDimensions_ok : checkDimensions dimTable = true := by decide +kernel
theorem checkPrefixes_ok : checkPrefixes prefixTable = true := by decide +kernel
theorem checkNames_ok : checkNames = true := by decide +kernel
theorem checkPrefixedNames_ok : checkPrefixedNames prefixTable = true := by decide +kernel
theorem checkTwins_ok : checkTwins = true := by decide +kernel
theorem checkTwinHeaders_ok : checkTwinHeaders shipped = true := by decide +kernel
theorem checkTags_ok : checkTags = true := by decide +kernel

end Verif.Systems
