import Verif.Data.Fits1
import Verif.Data.Fits2
import Verif.Data.Fits3
import Verif.Data.Fits4

/-! Copy of /repo/bfit/data/kl_fpi_results.json and kl_slsqp_results.json, generated by tools/gendata.py. -/

namespace BFit.Data

/-- The data of the neutral atoms, the FPI results and the SLSQP results in the order of the files. -/
noncomputable def fits : List (DataFile × JEntry × JEntry) := fits1 ++ fits2 ++ fits3 ++ fits4

/-- The text of `data/kl_fpi_results.json`. -/
noncomputable def fpiText : Str := fitsText (fits.map fun p => p.2.1)

/-- The text of `data/kl_slsqp_results.json`. -/
noncomputable def slsqpText : Str := fitsText (fits.map fun p => p.2.2)

theorem fits_ok : ∀ p ∈ fits, fitsOk p.1 p.2.1 p.2.2 = true := by
  intro p hp
  unfold fits at hp
  simp only [List.mem_append, or_assoc] at hp
  rcases hp with h | h | h | h
  · exact fits1_ok p h
  · exact fits2_ok p h
  · exact fits3_ok p h
  · exact fits4_ok p h

end BFit.Data
