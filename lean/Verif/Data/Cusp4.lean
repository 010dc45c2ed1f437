import Verif.Lemmas.CuspScan
import Verif.Data.Part11
import Verif.Data.Part12
import Verif.Data.Part13
import Verif.Data.Part14

/-! Evaluation of the check of the cusps for the bundled data files. -/

namespace BFit.Data

theorem part11_cusp : part11.all DataFile.cuspOk = true := by decide +kernel

theorem part12_cusp : part12.all DataFile.cuspOk = true := by decide +kernel

theorem part13_cusp : part13.all DataFile.cuspOk = true := by decide +kernel

theorem part14_cusp : part14.all DataFile.cuspOk = true := by decide +kernel

end BFit.Data
