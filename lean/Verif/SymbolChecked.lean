import Verif.SymbolCheck

/-!
# What is printed for shipped units and dimensions: evaluated in the kernel
-/

namespace Verif.Systems

set_option Elab.async false
set_option maxRecDepth 100000

theorem checkIndexed_ok : checkIndexed = true := by decide +kernel

theorem checkPrefixValues_ok : checkPrefixValues = true := by decide +kernel

theorem checkDimTexts0 : dimTable0.all (checkDimText prefixTable) = true := by decide +kernel
theorem checkDimTexts1 : dimTable1.all (checkDimText prefixTable) = true := by decide +kernel
theorem checkDimTexts2 : dimTable2.all (checkDimText prefixTable) = true := by decide +kernel

theorem checkDimTexts_ok : dimTable.all (checkDimText prefixTable) = true := by
  unfold dimTable
  simp only [List.all_append, checkDimTexts0, checkDimTexts1, checkDimTexts2, Bool.and_self]

theorem checkSymbols0 : unitTable0.all checkSymbol = true := by decide +kernel
theorem checkSymbols1 : unitTable1.all checkSymbol = true := by decide +kernel
theorem checkSymbols2 : unitTable2.all checkSymbol = true := by decide +kernel
theorem checkSymbols3 : unitTable3.all checkSymbol = true := by decide +kernel
theorem checkSymbols4 : unitTable4.all checkSymbol = true := by decide +kernel
theorem checkSymbols5 : unitTable5.all checkSymbol = true := by decide +kernel
theorem checkSymbols6 : unitTable6.all checkSymbol = true := by decide +kernel
theorem checkSymbols7 : unitTable7.all checkSymbol = true := by decide +kernel
theorem checkSymbols8 : unitTable8.all checkSymbol = true := by decide +kernel
theorem checkSymbols9 : unitTable9.all checkSymbol = true := by decide +kernel
theorem checkSymbols10 : unitTable10.all checkSymbol = true := by decide +kernel
theorem checkSymbols11 : unitTable11.all checkSymbol = true := by decide +kernel
theorem checkSymbols12 : unitTable12.all checkSymbol = true := by decide +kernel
theorem checkSymbols13 : unitTable13.all checkSymbol = true := by decide +kernel
theorem checkSymbols14 : unitTable14.all checkSymbol = true := by decide +kernel
theorem checkSymbols15 : unitTable15.all checkSymbol = true := by decide +kernel

theorem checkSymbols_ok : unitTable.all checkSymbol = true := by
  unfold unitTable
  simp only [List.all_append, checkSymbols0, checkSymbols1, checkSymbols2, checkSymbols3, checkSymbols4, checkSymbols5, checkSymbols6, checkSymbols7, checkSymbols8, checkSymbols9, checkSymbols10, checkSymbols11, checkSymbols12, checkSymbols13, checkSymbols14, checkSymbols15, Bool.and_self]

theorem checkWrongTexts_ok : checkWrongTexts = true := by decide +kernel

theorem checkDoublePrefixes_ok : checkDoublePrefixes = true := by decide +kernel

theorem checkWrongSymbols_ok : checkWrongSymbols = true := by decide +kernel

theorem checkBaseSymbols_ok : checkBaseSymbols = true := by decide +kernel

theorem checkOneSymbol_ok : checkOneSymbol = true := by decide +kernel

theorem checkNaturalArea_ok : checkNaturalArea = true := by decide +kernel

theorem checkNautical_ok : checkNautical = true := by decide +kernel

theorem checkMass_ok : checkMass = true := by decide +kernel

theorem checkShown_ok : checkShown = true := by decide +kernel

end Verif.Systems
