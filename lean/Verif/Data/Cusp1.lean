import Verif.Lemmas.CuspScan
import Verif.Data.Part1
import Verif.Data.Part2
import Verif.Data.Part3
import Verif.Data.Part4

/-! Evaluation of the check of the cusps for the bundled data files. -/

namespace BFit.Data

theorem part1_cusp : part1.all DataFile.cuspOk = true := by decide +kernel

theorem part2_cusp : part2.all DataFile.cuspOk = true := by decide +kernel

theorem part3_cusp : part3.all DataFile.cuspOk = true := by decide +kernel

theorem part4_cusp : part4.all DataFile.cuspOk = true := by decide +kernel

end BFit.Data
