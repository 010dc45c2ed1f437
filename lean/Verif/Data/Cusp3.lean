import Verif.Lemmas.CuspScan
import Verif.Data.Part8
import Verif.Data.Part9
import Verif.Data.Part10

/-! Evaluation of the check of the cusps for the bundled data files. -/

namespace BFit.Data

theorem part8_cusp : part8.all DataFile.cuspOk = true := by decide +kernel

theorem part9_cusp : part9.all DataFile.cuspOk = true := by decide +kernel

theorem part10_cusp : part10.all DataFile.cuspOk = true := by decide +kernel

end BFit.Data
