import Verif.Data.Ugbs1
import Verif.Data.Ugbs2
import Verif.Data.Ugbs3
import Verif.Data.Ugbs4
import Verif.Data.Ugbs5

/-! Copy of /repo/bfit/data/ygbs, generated by tools/gendata.py. -/

namespace BFit.Data

/-- The lines before the first element. -/
noncomputable def ugbsHead : List Str := [
  chars! "# Elements                             References\n",
  chars! "# --------                             ----------\n",
  chars! "# H He Li Be B C N O F Ne Na Mg Al Si P S Cl Ar K Ca Sc Ti V Cr Mn Fe Co Ni Cu Zn Ga Ge As Se Br Kr Rb Sr Y Zr Nb Mo Tc Ru Rh Pd Ag Cd In Sn Sb Te I Xe Cs Ba La Ce Pr Nd Pm Sm Eu Gd Tb Dy Ho Er Tm Yb Lu Hf Ta W Re Os Ir Pt Au Hg Tl Pb Bi Po At Rn Fr Ra Ac Th Pu Am Cf Es Fm Md No Lr: E. V. R. de Castro and F. E. Jorge, Accurate universal Gaussian basis set for all atoms of the Periodic Table, Journal of Chemical Physics 108, 5225 (1998).\n",
  chars! "#\n",
  chars! "\n",
  chars! "\n",
  chars! "\n",
  chars! "BASIS \"ao basis\" PRINT\n"]

/-- The lines after the last element. -/
noncomputable def ugbsEnd : List Str := [
  chars! "END\n",
  chars! "\n"]

/-- The elements in the file. -/
noncomputable def ugbsBlocks : List UBlock := ugbs1 ++ ugbs2 ++ ugbs3 ++ ugbs4 ++ ugbs5

/-- The lines of `data/ygbs`. -/
noncomputable def ugbsLines : List Str :=
  ugbsHead ++ (ugbsBlocks.flatMap UBlock.lines ++ ugbsEnd)

theorem ugbsBlocks_ok : ∀ b ∈ ugbsBlocks, b.ok = true := by
  intro b hb
  unfold ugbsBlocks at hb
  simp only [List.mem_append, or_assoc] at hb
  rcases hb with h | h | h | h | h
  · exact ugbs1_ok b h
  · exact ugbs2_ok b h
  · exact ugbs3_ok b h
  · exact ugbs4_ok b h
  · exact ugbs5_ok b h

end BFit.Data
