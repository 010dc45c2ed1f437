import Verif.Data.FitsAll
import Verif.Data.Npz1
import Verif.Data.Npz2
import Verif.Data.Npz3
import Verif.Data.Npz4

/-! Copy of /repo/bfit/data/kl_fpi_results.npz and kl_slsqp_results.npz, generated by tools/gendata.py. -/

namespace BFit.Data

/-- The results in the texts and in the archives. -/
noncomputable def npz : List ((JEntry × JEntry) × NEntry × NEntry) := npz1 ++ npz2 ++ npz3 ++ npz4

/-- The archive `data/kl_fpi_results.npz`. -/
noncomputable def fpiNpz : List (Str × List ℕ) := npzMembers (npz.map fun p => p.2.1)

/-- The archive `data/kl_slsqp_results.npz`. -/
noncomputable def slsqpNpz : List (Str × List ℕ) := npzMembers (npz.map fun p => p.2.2)

theorem npz_ok : ∀ p ∈ npz, (npzOk p.1.1 p.2.1 && npzOk p.1.2 p.2.2) = true := by
  intro p hp
  unfold npz at hp
  simp only [List.mem_append, or_assoc] at hp
  rcases hp with h | h | h | h
  · exact npz1_ok p h
  · exact npz2_ok p h
  · exact npz3_ok p h
  · exact npz4_ok p h

end BFit.Data
