import Verif.Data.Part1
import Verif.Data.Part2
import Verif.Data.Part3
import Verif.Data.Part4
import Verif.Data.Part5
import Verif.Data.Part6
import Verif.Data.Part7
import Verif.Data.Part8
import Verif.Data.Part9
import Verif.Data.Part10
import Verif.Data.Part11
import Verif.Data.Part12
import Verif.Data.Part13
import Verif.Data.Part14

/-! Copy of files in /repo/bfit/data/data.tar, generated by tools/gendata.py. -/

namespace BFit.Data

/-- `data/cation/cs`. -/
noncomputable def cation_cs : DataFile := ⟨55, .cation, [
  chars! "      CESIUM+   K(2)L(8)M(18)4S(2)4P(6)5S(2)4D(10)5P(6), 1S                           \n",
  chars! "\n",
  chars! "\n",
  chars! "\n",
  chars! "   E = -7553.810323574\n",
  chars! "   T =  7553.810329869     V =-15107.620653443     V/T =    -1.999999999\n",
  chars! "\n",
  chars! "  ORBITAL ENERGIES AND EXPANSION COEFFICIENTS\n",
  chars! "        S                    1S             2S             3S             4S             5S \n",
  chars! "  BASIS/ORB.ENERGY    -1272.9467262   -198.3214933    -42.8705864     -8.8725658     -1.4064401\n",
  chars! "              CUSP        1.0002156      1.0000507      1.0001706      1.0003830      1.0003582\n",
  chars! "  1S       98.760139      0.0127353      0.0210118     -0.0106856      0.0055711     -0.0021201\n",
  chars! "  3S       71.824236     -0.0176875     -0.0256382      0.0133728     -0.0071571      0.0027273\n",
  chars! "  1S       57.130662     -0.9643319     -0.3522735      0.1609797     -0.0756851      0.0282372\n",
  chars! "  4S       31.411644     -0.1117595     -0.3727260      0.1248807     -0.0210519      0.0041219\n",
  chars! "  2S       28.748821     -0.1237700      0.2029496     -0.1731432      0.2312167     -0.1084769\n",
  chars! "  3S       27.667844      0.2209796      1.1470456     -0.6767602      0.4029282     -0.1641440\n",
  chars! "  2S       16.313940     -0.0321712      0.0966066      0.1738886     -1.0778497      0.5572977\n",
  chars! "  4S       16.020450      0.0046796     -0.0055871      0.6608274     -0.9007986      0.4263402\n",
  chars! "  4S       12.359898     -0.0061963      0.0028660      0.2483130     -1.0666519      0.5489866\n",
  chars! "  2S        8.751007      0.0087384     -0.0040269      0.1811678      1.8929460     -1.0472196\n",
  chars! "  4S        6.827559     -0.0003724     -0.0000648      0.0029887      0.7467415     -0.2238858\n",
  chars! "  3S        4.670227      0.0001595      0.0000061      0.0001595      0.3311710     -0.8046702\n",
  chars! "  2S        1.743863     -0.0000140      0.0000084     -0.0001856      0.0024973      1.4473516\n",
  chars! "  3S        1.310537      0.0000039     -0.0000007      0.0000210     -0.0000358      0.0099417\n",
  chars! "        P                    2P             3P             4P             5P \n",
  chars! "  BASIS/ORB.ENERGY     -186.4940221    -37.7736975     -6.9459925     -0.8587533\n",
  chars! "              CUSP        1.0002597      0.9999972      1.0000865      1.0008178\n",
  chars! "  2P       89.587844     -0.0019651      0.0015983     -0.0005714      0.0001344\n",
  chars! "  4P       60.762602      0.0117891     -0.0098880      0.0035758     -0.0008716\n",
  chars! "  2P       44.632235      0.2684349     -0.1653215      0.0593224     -0.0147578\n",
  chars! "  4P       32.717276     -0.3530912      0.1725410     -0.0659873      0.0187958\n",
  chars! "  3P       28.914700      1.0968942     -0.8177270      0.2345462     -0.0349235\n",
  chars! "  4P       22.760208      0.0615528     -0.2615864     -0.1014696      0.0977127\n",
  chars! "  4P       14.746605      0.0140965     -0.0517109     -0.5028797      0.3047860\n",
  chars! "  4P       11.067846      0.0078162     -0.2759307     -0.1767917      0.0919619\n",
  chars! "  2P        9.339325     -0.0320333      1.7888014     -0.1007483     -0.2203229\n",
  chars! "  3P        5.716234      0.0000228      0.0008140      1.0180497     -0.3582361\n",
  chars! "  3P        4.236659     -0.0000508      0.0007020      0.2967616     -0.5463788\n",
  chars! "  2P        1.497491      0.0000081     -0.0001295      0.0043581      1.2368035\n",
  chars! "  3P        1.310537     -0.0000033      0.0000448     -0.0010177      0.0902897\n",
  chars! "        D                    3D             4D \n",
  chars! "  BASIS/ORB.ENERGY      -28.4040078     -3.5568926\n",
  chars! "              CUSP        1.0009045      1.0001958\n",
  chars! "  3D       62.237359      0.0016275     -0.0003861\n",
  chars! "  4D       49.445122      0.0065757     -0.0015589\n",
  chars! "  4D       29.983739      0.0275788     -0.0042058\n",
  chars! "  3D       17.544157      0.4399587     -0.2291863\n",
  chars! "  4D       15.225789      0.1679309      0.0584164\n",
  chars! "  4D       13.771764      0.2940341     -0.3433722\n",
  chars! "  4D       10.241594      0.1512742     -0.0197732\n",
  chars! "  3D        5.162639      0.0034013      0.7327068\n",
  chars! "  3D        3.558811     -0.0006479      0.3992681\n",
  chars! "  3D        2.159440      0.0000369      0.0190564\n",
  chars! "  3D        1.310537     -0.0000126     -0.0003744\n",
  chars! "\n"]⟩

/-- All files except the anion of silver (no text) and the cation of caesium (another format). -/
noncomputable def bundled : List DataFile :=
  part1 ++ part2 ++ part3 ++ part4 ++ part5 ++ part6 ++ part7 ++ part8 ++ part9 ++ part10 ++ part11 ++ part12 ++ part13 ++ part14

theorem bundled_ok : ∀ d ∈ bundled, d.ok = true := by
  intro d hd
  unfold bundled at hd
  simp only [List.mem_append, or_assoc] at hd
  rcases hd with h | h | h | h | h | h | h | h | h | h | h | h | h | h
  · exact part1_ok d h
  · exact part2_ok d h
  · exact part3_ok d h
  · exact part4_ok d h
  · exact part5_ok d h
  · exact part6_ok d h
  · exact part7_ok d h
  · exact part8_ok d h
  · exact part9_ok d h
  · exact part10_ok d h
  · exact part11_ok d h
  · exact part12_ok d h
  · exact part13_ok d h
  · exact part14_ok d h

end BFit.Data
