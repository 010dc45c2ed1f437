import Verif.Lemmas.CuspScan
import Verif.Data.Part5
import Verif.Data.Part6
import Verif.Data.Part7

/-! Evaluation of the check of the cusps for the bundled data files. -/

namespace BFit.Data

theorem part5_cusp : part5.all DataFile.cuspOk = true := by decide +kernel

theorem part6_cusp : part6.all DataFile.cuspOk = true := by decide +kernel

theorem part7_cusp : part7.all DataFile.cuspOk = true := by decide +kernel

end BFit.Data
