import Verif.Lemmas.DataNum

/-! Copy of files in /repo/bfit/data/data.tar, generated by tools/gendata.py. -/

namespace BFit.Data

/-- `data/anion/al`. -/
noncomputable def anion_al : DataFile := ⟨13, .anion, [
  chars! "      ALUMINUM-   K(2)L(8)3S(2)3P(2), 3P                                              \n",
  chars! "   E =  -241.878265202\n",
  chars! "   T =   241.878265187     V =  -483.756530389     V/T =    -2.000000000\n",
  chars! "   ORBITAL ENERGIES AND EXPANSION COEFFICIENTS\n",
  chars! "        S                    1S             2S             3S \n",
  chars! "  BASIS/ORB.ENERGY      -58.3080991     -4.7169180     -0.2091064\n",
  chars! "              CUSP        1.0000670      1.0000219      1.0001668\n",
  chars! "  2S       36.399566     -0.0005862     -0.0001532      0.0000359\n",
  chars! "  1S       20.293399     -0.2745534      0.0179503      0.0004280\n",
  chars! "  2S       17.130849     -0.1936497      0.0252617     -0.0016231\n",
  chars! "  2S        9.373457      0.3281195      0.1929742     -0.0113958\n",
  chars! "  1S        8.282543     -0.8498816     -0.5672029      0.1869008\n",
  chars! "  2S        5.554571      0.0026152      0.3768408      0.0277493\n",
  chars! "  2S        3.854464     -0.0014977      0.7095238      0.0122557\n",
  chars! "  1S        2.087410      0.0003879      0.0306829     -0.9429818\n",
  chars! "  1S        0.811882     -0.0000525     -0.0008124      1.1632146\n",
  chars! "  1S        0.524197      0.0000287      0.0005450      0.2733734\n",
  chars! "  1S        0.200917     -0.0000032     -0.0000422      0.0024096\n",
  chars! "        P                    2P             3P \n",
  chars! "  BASIS/ORB.ENERGY       -3.0257893     -0.0201837\n",
  chars! "              CUSP        1.0003122      0.9996203\n",
  chars! "  2P       35.478457     -0.0000463      0.0000070\n",
  chars! "  3P       15.221279     -0.0044618      0.0006386\n",
  chars! "  2P        9.147023      0.1384590     -0.0202861\n",
  chars! "  3P        7.667927      0.0994466     -0.0172449\n",
  chars! "  2P        4.286887      0.4739996     -0.0580203\n",
  chars! "  3P        2.732141     -0.2294286      0.0051942\n",
  chars! "  2P        2.504351      0.5686738     -0.1354115\n",
  chars! "  2P        1.009121      0.0010362      0.3306397\n",
  chars! "  2P        0.590791     -0.0000047      0.4862200\n",
  chars! "  2P        0.334303      0.0000596      0.3060346\n",
  chars! "  2P        0.200917     -0.0000031      0.0249529\n"]⟩

theorem anion_al_ok : anion_al.ok = true := by decide +kernel

/-- `data/anion/si`. -/
noncomputable def anion_si : DataFile := ⟨14, .anion, [
  chars! "      SILICON-   K(2)L(8)3S(2)3P(3), 4S                                               \n",
  chars! "   E =  -288.889660201\n",
  chars! "   T =   288.889660102     V =  -577.779320303     V/T =    -2.000000000\n",
  chars! "  ORBITAL ENERGIES AND EXPANSION COEFFICIENTS\n",
  chars! "        S                    1S             2S             3S \n",
  chars! "  BASIS/ORB.ENERGY      -68.5532631     -5.8970500     -0.3018732\n",
  chars! "              CUSP        1.0000361      0.9999758      1.0001089\n",
  chars! "  2S       39.830960     -0.0005203     -0.0001399      0.0000377\n",
  chars! "  1S       22.047483     -0.2524369      0.0201415      0.0018499\n",
  chars! "  2S       18.652077     -0.1770929      0.0259300     -0.0003553\n",
  chars! "  2S       10.310938      0.3352238      0.1782044      0.0002560\n",
  chars! "  1S        9.137493     -0.8924653     -0.5717747      0.2240457\n",
  chars! "  2S        6.065377      0.0030277      0.3405770      0.0840205\n",
  chars! "  2S        4.354530     -0.0019611      0.7307786      0.0130346\n",
  chars! "  1S        2.503308      0.0006791      0.0494446     -1.1052918\n",
  chars! "  1S        1.029187     -0.0000922     -0.0006235      0.9374986\n",
  chars! "  1S        0.720996      0.0000595      0.0008560      0.5429274\n",
  chars! "  1S        0.351588     -0.0000069     -0.0000617      0.0040359\n",
  chars! "        P                    2P             3P \n",
  chars! "  BASIS/ORB.ENERGY       -3.9982000     -0.0618071\n",
  chars! "              CUSP        1.0003159      1.0005105\n",
  chars! "  2P       37.700775     -0.0000505      0.0000094\n",
  chars! "  3P       16.610892     -0.0041598      0.0007747\n",
  chars! "  2P        9.943042      0.1334780     -0.0258912\n",
  chars! "  3P        8.449657      0.0858841     -0.0204900\n",
  chars! "  2P        4.852901      0.4492469     -0.0733688\n",
  chars! "  3P        3.316241     -0.1889698     -0.0130529\n",
  chars! "  2P        3.064639      0.5666789     -0.1668297\n",
  chars! "  2P        1.259502      0.0015587      0.3874979\n",
  chars! "  2P        0.787892     -0.0002711      0.4861129\n",
  chars! "  2P        0.501857      0.0001005      0.2499434\n",
  chars! "  2P        0.351588     -0.0000326      0.0152949\n",
  chars! "\n"]⟩

theorem anion_si_ok : anion_si.ok = true := by decide +kernel

/-- `data/anion/p`. -/
noncomputable def anion_p : DataFile := ⟨15, .anion, [
  chars! "      PHOSPHORUS-   K(2)L(8)3S(2)3P(4), 3P                                            \n",
  chars! "   E =  -340.698873531\n",
  chars! "   T =   340.698873552     V =  -681.397747083     V/T =    -2.000000000\n",
  chars! "  ORBITAL ENERGIES AND EXPANSION COEFFICIENTS\n",
  chars! "        S                    1S             2S             3S \n",
  chars! "  BASIS/ORB.ENERGY      -79.6929282     -7.2326396     -0.4367527\n",
  chars! "              CUSP        0.9999762      0.9999104      1.0000184\n",
  chars! "  2S       44.369160     -0.0004062     -0.0001141      0.0000350\n",
  chars! "  1S       23.598828     -0.2376169      0.0252154      0.0040189\n",
  chars! "  2S       20.043622     -0.1626515      0.0290864      0.0014586\n",
  chars! "  2S       11.349839      0.3146943      0.1588878      0.0147221\n",
  chars! "  1S       10.158832     -0.9009474     -0.5703849      0.2302141\n",
  chars! "  2S        6.412656      0.0018557      0.3484053      0.1347913\n",
  chars! "  2S        4.806833     -0.0018915      0.7156330     -0.0668189\n",
  chars! "  1S        2.815498      0.0007658      0.0557135     -1.1875647\n",
  chars! "  1S        1.215465     -0.0000962      0.0000245      1.0023276\n",
  chars! "  1S        0.851087      0.0000631      0.0008353      0.5477627\n",
  chars! "  1S        0.392984     -0.0000062     -0.0000317      0.0043351\n",
  chars! "        P                    2P             3P \n",
  chars! "  BASIS/ORB.ENERGY       -5.1239164     -0.0772184\n",
  chars! "              CUSP        1.0007288      0.9998215\n",
  chars! "  2P       40.124946     -0.0000494      0.0000117\n",
  chars! "  3P       17.826226     -0.0040312      0.0008909\n",
  chars! "  2P       10.634247      0.1317716     -0.0307934\n",
  chars! "  3P        9.184590      0.0712995     -0.0227698\n",
  chars! "  2P        5.316114      0.5023535     -0.0656931\n",
  chars! "  3P        3.626602     -0.1722291      0.0316790\n",
  chars! "  2P        3.365483      0.5077528     -0.2621823\n",
  chars! "  2P        1.602892      0.0018818      0.3662968\n",
  chars! "  2P        0.997613      0.0002122      0.4974518\n",
  chars! "  2P        0.605218      0.0002116      0.2886559\n",
  chars! "  2P        0.392984     -0.0000014      0.0210666\n",
  chars! "\n"]⟩

theorem anion_p_ok : anion_p.ok = true := by decide +kernel

/-- `data/anion/s`. -/
noncomputable def anion_s : DataFile := ⟨16, .anion, [
  chars! "      SULFUR-   K(2)L(8)3S(2)3P(5), 2P                                                \n",
  chars! "   E =  -397.538430165\n",
  chars! "   T =   397.538430032     V =  -795.076860197     V/T =    -2.000000000\n",
  chars! "  ORBITAL ENERGIES AND EXPANSION COEFFICIENTS\n",
  chars! "        S                    1S             2S             3S \n",
  chars! "  BASIS/ORB.ENERGY      -91.6764017     -8.6757286     -0.5798113\n",
  chars! "              CUSP        1.0000223      0.9999995      1.0000546\n",
  chars! "  2S       46.571054     -0.0004058     -0.0001090      0.0000369\n",
  chars! "  1S       25.187097     -0.2315967      0.0315749      0.0016898\n",
  chars! "  2S       21.415230     -0.1581716      0.0338849     -0.0006143\n",
  chars! "  2S       12.310795      0.2896646      0.1543413      0.0087481\n",
  chars! "  1S       11.127747     -0.8878870     -0.5744032      0.2140579\n",
  chars! "  2S        6.428186     -0.0000242      0.5464703      0.1463124\n",
  chars! "  2S        5.028365     -0.0007542      0.5390136     -0.2664403\n",
  chars! "  1S        2.996013      0.0003471      0.0269750     -1.0871038\n",
  chars! "  1S        1.443579     -0.0000039      0.0023661      0.9431339\n",
  chars! "  1S        1.005833      0.0000188      0.0002613      0.6835730\n",
  chars! "  1S        0.464283     -0.0000007      0.0000458      0.0052762\n",
  chars! "        P                    2P             3P \n",
  chars! "  BASIS/ORB.ENERGY       -6.3554919     -0.1077993\n",
  chars! "              CUSP        1.0006871      0.9997046\n",
  chars! "  2P       42.238912     -0.0000545      0.0000145\n",
  chars! "  3P       19.367238     -0.0036483      0.0009063\n",
  chars! "  2P       11.466335      0.1263526     -0.0334683\n",
  chars! "  3P        9.996813      0.0638382     -0.0242805\n",
  chars! "  2P        5.755231      0.5608588     -0.0623559\n",
  chars! "  3P        3.903857     -0.1521249      0.0883727\n",
  chars! "  2P        3.629279      0.4386121     -0.3493597\n",
  chars! "  2P        1.858377      0.0020050      0.3929020\n",
  chars! "  2P        1.154252      0.0006668      0.4980531\n",
  chars! "  2P        0.704989      0.0003443      0.2767924\n",
  chars! "  2P        0.464283      0.0000226      0.0193340\n",
  chars! "\n"]⟩

theorem anion_s_ok : anion_s.ok = true := by decide +kernel

/-- `data/anion/cl`. -/
noncomputable def anion_cl : DataFile := ⟨17, .anion, [
  chars! "      CHLORINE-    1S(2)2S(2)2P(6)3S(2)3P(6), 1S                                      \n",
  chars! "   E =  -459.576925241\n",
  chars! "   T =   459.576925415     V =  -919.153850656     V/T =    -2.000000000\n",
  chars! "  ORBITAL ENERGIES AND EXPANSION COEFFICIENTS\n",
  chars! "        S                    1S             2S             3S \n",
  chars! "  BASIS/ORB.ENERGY     -104.5057420    -10.2294589     -0.7333806\n",
  chars! "              CUSP        0.9999835      0.9999461      0.9998023\n",
  chars! "  2S       50.991930     -0.0003374     -0.0000959      0.0000349\n",
  chars! "  1S       26.778785     -0.2263593      0.0297587     -0.0041815\n",
  chars! "  2S       22.840430     -0.1528670      0.0312668     -0.0055535\n",
  chars! "  2S       13.082044      0.3063227      0.1553444     -0.0132051\n",
  chars! "  1S       11.776618     -0.9125854     -0.5781005      0.2216085\n",
  chars! "  2S        6.686253      0.0008836      0.7009737      0.1088838\n",
  chars! "  2S        5.259265     -0.0015484      0.3956730     -0.3961622\n",
  chars! "  1S        3.223617      0.0009407      0.0183368     -0.9564042\n",
  chars! "  1S        1.606335     -0.0001036      0.0033983      0.9640923\n",
  chars! "  1S        1.129735      0.0000673      0.0002212      0.6906989\n",
  chars! "  1S        0.548276     -0.0000051      0.0000582      0.0051699\n",
  chars! "        P                    2P             3P \n",
  chars! "  BASIS/ORB.ENERGY       -7.6958581     -0.1503032\n",
  chars! "              CUSP        1.0008518      0.9998417\n",
  chars! "  2P       44.014044     -0.0000596      0.0000173\n",
  chars! "  3P       20.735588     -0.0034904      0.0009464\n",
  chars! "  2P       12.212935      0.1197393     -0.0345178\n",
  chars! "  3P       10.853501      0.0486058     -0.0219891\n",
  chars! "  2P        6.290925      0.5956616     -0.0665949\n",
  chars! "  3P        4.135144     -0.1792224      0.1632088\n",
  chars! "  2P        3.807468      0.4467387     -0.4360400\n",
  chars! "  2P        2.067738      0.0008766      0.4274225\n",
  chars! "  2P        1.288075      0.0001823      0.4897304\n",
  chars! "  2P        0.805822     -0.0000258      0.2561310\n",
  chars! "  2P        0.548276      0.0000061      0.0169566\n"]⟩

theorem anion_cl_ok : anion_cl.ok = true := by decide +kernel

/-- `data/anion/k`. -/
noncomputable def anion_k : DataFile := ⟨19, .anion, [
  chars! "      POTASSIUM-   K(2)L(8)3S(2)3P(6)4S(2), 1S                                        \n",
  chars! "   E =  -599.161916516\n",
  chars! "   T =   599.161916638     V = -1198.323833153     V/T =    -2.000000000\n",
  chars! "  ORBITAL ENERGIES AND EXPANSION COEFFICIENTS\n",
  chars! "        S                    1S             2S             3S             4S \n",
  chars! "  BASIS/ORB.ENERGY     -133.4135083    -14.3703853     -1.6291547     -0.0103206\n",
  chars! "              CUSP        1.0002642      0.9994227      1.0002597      1.0007648\n",
  chars! "  1S       49.991524     -0.0018856      0.0015077      0.0004624      0.0000382\n",
  chars! "  3S       27.435790      0.0151693     -0.0090133     -0.0029780     -0.0002501\n",
  chars! "  1S       20.244148      0.8145563     -0.1592138     -0.0511508     -0.0068196\n",
  chars! "  3S       13.647317     -0.0871817      0.0959068      0.0398755      0.0067256\n",
  chars! "  2S        7.416191     -0.2673035      1.2653769      0.2452620      0.0223608\n",
  chars! "  2S        5.499569     -0.0999176      0.3342032      0.7481786      0.1311444\n",
  chars! "  1S        5.499062      0.5632550     -0.7131464     -0.0941254      0.0014498\n",
  chars! "  2S        2.240122     -0.0062089      0.0144756     -0.6296306     -0.0234439\n",
  chars! "  1S        1.788620      0.0103345     -0.0195052     -0.8065928     -0.0836240\n",
  chars! "  1S        0.934075     -0.0004410      0.0004432     -0.0137600     -0.4636688\n",
  chars! "  2S        0.304652     -0.0001566      0.0000610     -0.0032022     -0.4012869\n",
  chars! "  1S        0.236660      0.0002021     -0.0000898      0.0042643      1.4037720\n",
  chars! "  1S        0.143670      0.0000036      0.0000035      0.0000134      0.1847155\n",
  chars! "        P                    2P             3P \n",
  chars! "  BASIS/ORB.ENERGY      -11.3997090     -0.8347531\n",
  chars! "              CUSP        1.0007153      0.9992661\n",
  chars! "  2P       46.062507      0.0000984      0.0000377\n",
  chars! "  3P       24.192699      0.0030373      0.0010852\n",
  chars! "  2P       13.842159     -0.0674562     -0.0119085\n",
  chars! "  3P        9.350886      0.0899587      0.0672649\n",
  chars! "  2P        7.517371     -0.7690332     -0.2083988\n",
  chars! "  2P        5.428016     -0.2810664     -0.3423672\n",
  chars! "  3P        2.596674      0.0036192     -0.1433941\n",
  chars! "  2P        2.165503     -0.0070662      0.8844800\n",
  chars! "  2P        1.542162      0.0007138      0.4245646\n",
  chars! "  2P        0.604923     -0.0000165      0.0043768\n",
  chars! "  2P        0.143670      0.0000032      0.0001038\n",
  chars! "\n"]⟩

theorem anion_k_ok : anion_k.ok = true := by decide +kernel

/-- `data/anion/sc`. -/
noncomputable def anion_sc : DataFile := ⟨21, .anion, [
  chars! "      SCANDIUM-   K(2)L(8)3S(2)3P(6)4S(2)3D(2), 3F                                    \n",
  chars! "   E =  -759.688773345\n",
  chars! "   T =   759.688773319     V = -1519.377546664     V/T =    -2.000000000\n",
  chars! "  ORBITAL ENERGIES AND EXPANSION COEFFICIENTS\n",
  chars! "        S                    1S             2S             3S             4S \n",
  chars! "  BASIS/ORB.ENERGY     -165.6114878    -18.7701497     -2.2666629     -0.0160318\n",
  chars! "              CUSP        1.0002609      0.9994030      1.0002248      1.0004799\n",
  chars! "  1S       55.382936     -0.0016163      0.0014702      0.0004637      0.0000642\n",
  chars! "  3S       30.410195      0.0130154     -0.0088182     -0.0030016     -0.0004231\n",
  chars! "  1S       22.329140      0.8154310     -0.1506719     -0.0519367     -0.0081523\n",
  chars! "  3S       15.370662     -0.0802930      0.0736275      0.0363948      0.0064495\n",
  chars! "  2S        8.591628     -0.2398332      1.2038901      0.1831352      0.0157322\n",
  chars! "  2S        6.585295     -0.0730315      0.4034547      0.7943552      0.1524469\n",
  chars! "  1S        6.585295      0.5159588     -0.7256294     -0.1890894     -0.0185463\n",
  chars! "  2S        2.786635      0.0018106      0.0069953     -0.9101058     -0.1106486\n",
  chars! "  1S        1.829409     -0.0027779     -0.0061847     -0.4672033      0.1229455\n",
  chars! "  1S        1.328337      0.0007526      0.0016055      0.0151767     -0.5711140\n",
  chars! "  2S        0.364821      0.0000753      0.0001211      0.0008749     -0.4203956\n",
  chars! "  1S        0.286519     -0.0000973     -0.0001598     -0.0012958      1.4141094\n",
  chars! "  1S        0.179063     -0.0000028     -0.0000027      0.0000341      0.1663090\n",
  chars! "        P                    2P             3P \n",
  chars! "  BASIS/ORB.ENERGY      -15.3615756     -1.2886887\n",
  chars! "              CUSP        1.0000528      0.9992286\n",
  chars! "  2P       54.243471      0.0000671      0.0000265\n",
  chars! "  3P       26.893549      0.0026514      0.0010130\n",
  chars! "  2P       14.561742     -0.1105802     -0.0133089\n",
  chars! "  3P       10.907417     -0.0094599      0.0626505\n",
  chars! "  2P        8.549329     -0.5935204     -0.2116607\n",
  chars! "  2P        6.370362     -0.3183394     -0.3701283\n",
  chars! "  3P        2.639554      0.0048396     -0.3440426\n",
  chars! "  2P        2.283652     -0.0081039      1.4111325\n",
  chars! "  2P        1.549144      0.0001409      0.0930428\n",
  chars! "  2P        0.663979     -0.0000088      0.0030858\n",
  chars! "  2P        0.179063      0.0000012      0.0000485\n",
  chars! "        D                    3D \n",
  chars! "  BASIS/ORB.ENERGY       -0.0621712\n",
  chars! "              CUSP        0.9995830\n",
  chars! "  3D       17.759059      0.0012426\n",
  chars! "  4D       13.669684      0.0052912\n",
  chars! "  3D        6.574908      0.0309188\n",
  chars! "  3D        4.202261      0.1737675\n",
  chars! "  3D        2.616004      0.3041901\n",
  chars! "  3D        1.568423      0.3713852\n",
  chars! "  3D        0.934889      0.2712025\n",
  chars! "  3D        0.546028      0.0803053\n",
  chars! "  3D        0.179063      0.0005065\n",
  chars! "\n"]⟩

theorem anion_sc_ok : anion_sc.ok = true := by decide +kernel

/-- `data/anion/ti`. -/
noncomputable def anion_ti : DataFile := ⟨22, .anion, [
  chars! "      TITANIUM-   K(2)L(8)3S(2)3P(6)4S(2)3D(3), 4F                                    \n",
  chars! "   E =  -848.372549024\n",
  chars! "   T =   848.372548985     V = -1696.745098009     V/T =    -2.000000000\n",
  chars! "  ORBITAL ENERGIES AND EXPANSION COEFFICIENTS\n",
  chars! "        S                    1S             2S             3S             4S \n",
  chars! "  BASIS/ORB.ENERGY     -182.9572300    -21.0839912     -2.5466168     -0.0159223\n",
  chars! "              CUSP        1.0003380      0.9994026      0.9997336      0.9997433\n",
  chars! "  1S       53.362122      0.0025362      0.0028037      0.0010579      0.0001615\n",
  chars! "  3S       31.101929     -0.0154181     -0.0128454     -0.0050051     -0.0007656\n",
  chars! "  1S       23.254666     -0.8403807     -0.1622881     -0.0591901     -0.0090218\n",
  chars! "  3S       15.554931      0.0711103      0.0594676      0.0329751      0.0054373\n",
  chars! "  2S        9.215081      0.1304860      1.0769229      0.1275466      0.0078444\n",
  chars! "  1S        8.297459     -0.3228601     -0.5313497     -0.1253033     -0.0117579\n",
  chars! "  2S        7.042452     -0.0010891      0.3323238      0.8085384      0.1470180\n",
  chars! "  2S        2.986466      0.0014200      0.0113035     -0.8876738     -0.1168654\n",
  chars! "  1S        1.953684     -0.0020869     -0.0121618     -0.5006406      0.0983001\n",
  chars! "  1S        1.394125      0.0005397      0.0031173      0.0137533     -0.5034610\n",
  chars! "  2S        0.366573      0.0000524      0.0003056      0.0007829     -0.4297602\n",
  chars! "  1S        0.286915     -0.0000675     -0.0003865     -0.0011254      1.4078860\n",
  chars! "  1S        0.178451     -0.0000017     -0.0000133      0.0000226      0.1611872\n",
  chars! "        P                    2P             3P \n",
  chars! "  BASIS/ORB.ENERGY      -17.4563339     -1.4839805\n",
  chars! "              CUSP        1.0008568      0.9992826\n",
  chars! "  2P       49.052804     -0.0001807      0.0000824\n",
  chars! "  3P       29.000740     -0.0028710      0.0012308\n",
  chars! "  2P       15.647648      0.0963446     -0.0108845\n",
  chars! "  3P       11.743528      0.0012375      0.0613050\n",
  chars! "  2P        9.150376      0.6014700     -0.2136355\n",
  chars! "  2P        6.821285      0.3306640     -0.3799511\n",
  chars! "  3P        2.718281     -0.0063358     -0.5104482\n",
  chars! "  2P        2.335949      0.0099108      1.6427784\n",
  chars! "  2P        1.201431     -0.0000473      0.0210885\n",
  chars! "  2P        0.296940      0.0000049      0.0005568\n",
  chars! "  2P        0.178451     -0.0000030     -0.0001902\n",
  chars! "        D                    3D \n",
  chars! "  BASIS/ORB.ENERGY       -0.1182726\n",
  chars! "              CUSP        1.0002296\n",
  chars! "  3D       19.219515      0.0012719\n",
  chars! "  4D       14.720700      0.0057172\n",
  chars! "  3D        6.901584      0.0403062\n",
  chars! "  3D        4.483890      0.1974766\n",
  chars! "  3D        2.849417      0.3183531\n",
  chars! "  3D        1.773766      0.3551067\n",
  chars! "  3D        1.098544      0.2379290\n",
  chars! "  3D        0.670500      0.0567391\n",
  chars! "  3D        0.178451      0.0001999\n",
  chars! "\n"]⟩

theorem anion_ti_ok : anion_ti.ok = true := by decide +kernel

/-- `data/anion/v`. -/
noncomputable def anion_v : DataFile := ⟨23, .anion, [
  chars! "      VANADIUM-   K(2)L(8)3S(2)3P(6)4S(2)3D(4), 5D                                    \n",
  chars! "   E =  -942.863131519\n",
  chars! "   T =   942.863131342     V = -1885.726262861     V/T =    -2.000000000\n",
  chars! "  ORBITAL ENERGIES AND EXPANSION COEFFICIENTS\n",
  chars! "        S                    1S             2S             3S             4S \n",
  chars! "  BASIS/ORB.ENERGY     -201.1651598    -23.5130320     -2.8351836     -0.0163431\n",
  chars! "              CUSP        1.0003329      0.9995045      0.9998207      0.9998070\n",
  chars! "  1S       55.842918      0.0023893      0.0026404      0.0010204      0.0001552\n",
  chars! "  3S       32.594460     -0.0144058     -0.0120557     -0.0048235     -0.0007364\n",
  chars! "  1S       24.300504     -0.8395719     -0.1564619     -0.0578244     -0.0085395\n",
  chars! "  3S       16.433286      0.0688478      0.0529190      0.0300052      0.0046097\n",
  chars! "  2S        9.772722      0.1375056      1.0916335      0.1314529      0.0090042\n",
  chars! "  1S        8.674616     -0.3305081     -0.5671825     -0.1386110     -0.0148109\n",
  chars! "  2S        7.481430      0.0011118      0.3541262      0.8291183      0.1422670\n",
  chars! "  2S        3.187533      0.0009023      0.0106635     -0.8803316     -0.1244574\n",
  chars! "  1S        2.042488     -0.0013134     -0.0108602     -0.5224418      0.1052151\n",
  chars! "  1S        1.470520      0.0003736      0.0030206      0.0235315     -0.4770818\n",
  chars! "  2S        0.374680      0.0000385      0.0002920      0.0012842     -0.4257615\n",
  chars! "  1S        0.292746     -0.0000483     -0.0003638     -0.0017369      1.3910464\n",
  chars! "  1S        0.180793     -0.0000018     -0.0000145     -0.0000050      0.1621316\n",
  chars! "        P                    2P             3P \n",
  chars! "  BASIS/ORB.ENERGY      -19.6650822     -1.6872792\n",
  chars! "              CUSP        1.0007641      0.9994982\n",
  chars! "  2P       49.923386      0.0002218      0.0001000\n",
  chars! "  3P       30.468610      0.0029367      0.0012659\n",
  chars! "  2P       16.001986     -0.1335673     -0.0139067\n",
  chars! "  3P       12.393599     -0.0589027      0.0574579\n",
  chars! "  2P        9.431869     -0.5295888     -0.2338441\n",
  chars! "  2P        7.200978     -0.3113287     -0.3639014\n",
  chars! "  3P        2.914974      0.0067561     -0.5230709\n",
  chars! "  2P        2.500856     -0.0106945      1.6573337\n",
  chars! "  2P        1.337711      0.0000588      0.0243782\n",
  chars! "  2P        0.383619     -0.0000059      0.0005206\n",
  chars! "  2P        0.180793      0.0000026     -0.0000803\n",
  chars! "        D                    3D \n",
  chars! "  BASIS/ORB.ENERGY       -0.1624188\n",
  chars! "              CUSP        1.0001414\n",
  chars! "  3D       20.565465      0.0012751\n",
  chars! "  4D       15.711032      0.0059302\n",
  chars! "  3D        7.172226      0.0517129\n",
  chars! "  3D        4.685764      0.2233057\n",
  chars! "  3D        2.977741      0.3384978\n",
  chars! "  3D        1.864561      0.3429347\n",
  chars! "  3D        1.168592      0.2015450\n",
  chars! "  3D        0.727885      0.0379091\n",
  chars! "  3D        0.180793      0.0001053\n"]⟩

theorem anion_v_ok : anion_v.ok = true := by decide +kernel

/-- `data/anion/cr`. -/
noncomputable def anion_cr : DataFile := ⟨24, .anion, [
  chars! "      CHROMIUM-   K(2)L(8)3S(2)3P(6)4S(2)3D(5), 6S                                    \n",
  chars! "   E = -1043.337096348\n",
  chars! "   T =  1043.337096790     V = -2086.674193137     V/T =    -2.000000000\n",
  chars! "  ORBITAL ENERGIES AND EXPANSION COEFFICIENTS\n",
  chars! "        S                    1S             2S             3S             4S \n",
  chars! "  BASIS/ORB.ENERGY     -220.2255817    -26.0472445     -3.1246886     -0.0166367\n",
  chars! "              CUSP        1.0003223      0.9995249      0.9997540      0.9997209\n",
  chars! "  1S       58.382226      0.0022693      0.0025148      0.0010605      0.0001578\n",
  chars! "  3S       34.087668     -0.0136270     -0.0114460     -0.0050188     -0.0007501\n",
  chars! "  1S       25.333158     -0.8411367     -0.1534166     -0.0566354     -0.0080491\n",
  chars! "  3S       17.224734      0.0674976      0.0512647      0.0245196      0.0035125\n",
  chars! "  2S       10.248845      0.1387798      1.1326040      0.1725794      0.0151069\n",
  chars! "  1S        9.051773     -0.3300561     -0.5901103     -0.1329834     -0.0133734\n",
  chars! "  2S        7.805308      0.0019854      0.3346561      0.8441142      0.1389464\n",
  chars! "  2S        3.374424      0.0008220      0.0096691     -0.7922747     -0.1084656\n",
  chars! "  1S        2.250278     -0.0011009     -0.0086485     -0.6332073      0.0288549\n",
  chars! "  1S        1.494155      0.0002161      0.0016700      0.0074514     -0.4012830\n",
  chars! "  2S        0.380715      0.0000282      0.0002018      0.0008438     -0.4289528\n",
  chars! "  1S        0.296594     -0.0000351     -0.0002495     -0.0011308      1.3865670\n",
  chars! "  1S        0.182410     -0.0000013     -0.0000101     -0.0000042      0.1603936\n",
  chars! "        P                    2P             3P \n",
  chars! "  BASIS/ORB.ENERGY      -21.9778185     -1.8913690\n",
  chars! "              CUSP        1.0008698      1.0006533\n",
  chars! "  2P       51.154838      0.0002672      0.0001133\n",
  chars! "  3P       32.222325      0.0029329      0.0012387\n",
  chars! "  2P       16.599417     -0.1590536     -0.0172807\n",
  chars! "  3P       13.016410     -0.1021738      0.0510268\n",
  chars! "  2P        9.775073     -0.4606878     -0.2360597\n",
  chars! "  2P        7.649953     -0.3136037     -0.3576656\n",
  chars! "  3P        3.078973      0.0081783     -0.5557029\n",
  chars! "  2P        2.639500     -0.0127672      1.6917057\n",
  chars! "  2P        1.400075      0.0000571      0.0219550\n",
  chars! "  2P        0.473342     -0.0000045      0.0004462\n",
  chars! "  2P        0.182410      0.0000014     -0.0000064\n",
  chars! "        D                    3D \n",
  chars! "  BASIS/ORB.ENERGY       -0.2131044\n",
  chars! "              CUSP        1.0003221\n",
  chars! "  3D       21.492999      0.0013654\n",
  chars! "  4D       16.491301      0.0061977\n",
  chars! "  3D        7.450483      0.0623358\n",
  chars! "  3D        4.896508      0.2438060\n",
  chars! "  3D        3.106206      0.3547136\n",
  chars! "  3D        1.942927      0.3327021\n",
  chars! "  3D        1.224260      0.1708187\n",
  chars! "  3D        0.767462      0.0233789\n",
  chars! "  3D        0.182410      0.0000570\n",
  chars! "\n"]⟩

theorem anion_cr_ok : anion_cr.ok = true := by decide +kernel

/-- `data/anion/mn`. -/
noncomputable def anion_mn : DataFile := ⟨25, .anion, [
  chars! "      MANGANESE-   K(2)L(8)3S(2)3P(6)4S(2)3D(6), 5D                                   \n",
  chars! "   E = -1149.729109810\n",
  chars! "   T =  1149.729109808     V = -2299.458219618     V/T =    -2.000000000\n",
  chars! "   ORBITAL ENERGIES AND EXPANSION COEFFICIENTS\n",
  chars! "        S                    1S             2S             3S             4S \n",
  chars! "  BASIS/ORB.ENERGY     -240.1863762    -28.7403951     -3.4537643     -0.0179248\n",
  chars! "              CUSP        1.0002966      0.9995714      0.9997671      0.9996928\n",
  chars! "  1S       60.922088      0.0021852      0.0023823      0.0010296      0.0001587\n",
  chars! "  3S       35.578992     -0.0129756     -0.0108415     -0.0048743     -0.0007548\n",
  chars! "  1S       26.382693     -0.8404647     -0.1482076     -0.0551836     -0.0078539\n",
  chars! "  3S       18.099137      0.0655907      0.0462515      0.0220359      0.0029393\n",
  chars! "  2S       10.799060      0.1442246      1.1452386      0.1777468      0.0166110\n",
  chars! "  1S        9.428930     -0.3362495     -0.6213723     -0.1466705     -0.0164642\n",
  chars! "  2S        8.235703      0.0042306      0.3538115      0.8580661      0.1384264\n",
  chars! "  2S        3.569622      0.0004766      0.0097765     -0.7990482     -0.1171210\n",
  chars! "  1S        2.363017     -0.0006336     -0.0087452     -0.6291384      0.0495656\n",
  chars! "  1S        1.603296      0.0001352      0.0018265      0.0079291     -0.4042321\n",
  chars! "  2S        0.397321      0.0000160      0.0001945      0.0008665     -0.4305054\n",
  chars! "  1S        0.309012     -0.0000198     -0.0002392     -0.0011630      1.3831057\n",
  chars! "  1S        0.189340     -0.0000007     -0.0000098     -0.0000015      0.1599965\n",
  chars! "        P                    2P             3P \n",
  chars! "  BASIS/ORB.ENERGY      -24.4475196     -2.1311674\n",
  chars! "              CUSP        1.0009347      1.0005578\n",
  chars! "  2P       52.244623      0.0003161      0.0001374\n",
  chars! "  3P       33.796475      0.0029734      0.0012831\n",
  chars! "  2P       17.288171     -0.1732351     -0.0194840\n",
  chars! "  3P       13.672378     -0.1255228      0.0465182\n",
  chars! "  2P       10.035013     -0.4631670     -0.2716405\n",
  chars! "  2P        7.962215     -0.2747729     -0.3262070\n",
  chars! "  3P        3.288979      0.0079666     -0.5458110\n",
  chars! "  2P        2.819590     -0.0126882      1.6827274\n",
  chars! "  2P        1.562578      0.0000586      0.0282639\n",
  chars! "  2P        0.565981     -0.0000075      0.0005931\n",
  chars! "  2P        0.189340      0.0000018      0.0000008\n",
  chars! "        D                    3D \n",
  chars! "  BASIS/ORB.ENERGY       -0.2142470\n",
  chars! "              CUSP        1.0008263\n",
  chars! "  3D       22.548097      0.0013878\n",
  chars! "  4D       17.335339      0.0062469\n",
  chars! "  3D        7.728048      0.0734631\n",
  chars! "  3D        5.103472      0.2574239\n",
  chars! "  3D        3.241497      0.3561627\n",
  chars! "  3D        2.019729      0.3187309\n",
  chars! "  3D        1.263922      0.1633221\n",
  chars! "  3D        0.791292      0.0243887\n",
  chars! "  3D        0.189340      0.0000603\n",
  chars! "\n"]⟩

theorem anion_mn_ok : anion_mn.ok = true := by decide +kernel

/-- `data/anion/fe`. -/
noncomputable def anion_fe : DataFile := ⟨26, .anion, [
  chars! "      IRON-   K(2)L(8)3S(2)3P(6)4S(2)3D(7), 4F                                        \n",
  chars! "   E = -1262.367073348\n",
  chars! "   T =  1262.367073364     V = -2524.734146712     V/T =    -2.000000000\n",
  chars! "   ORBITAL ENERGIES AND EXPANSION COEFFICIENTS\n",
  chars! "        S                    1S             2S             3S             4S \n",
  chars! "  BASIS/ORB.ENERGY     -260.9989271    -31.5386281     -3.7830877     -0.0188609\n",
  chars! "              CUSP        1.0003015      0.9996212      0.9997286      0.9996327\n",
  chars! "  1S       63.375942      0.0020808      0.0022667      0.0010649      0.0001649\n",
  chars! "  3S       37.071868     -0.0122937     -0.0102322     -0.0050139     -0.0007803\n",
  chars! "  1S       27.408666     -0.8425080     -0.1455793     -0.0539250     -0.0075731\n",
  chars! "  3S       18.882781      0.0643160      0.0459403      0.0174006      0.0020915\n",
  chars! "  2S       11.270772      0.1442801      1.1801846      0.2163860      0.0224245\n",
  chars! "  1S        9.806087     -0.3340886     -0.6409644     -0.1430997     -0.0157770\n",
  chars! "  2S        8.556712      0.0048405      0.3361873      0.8668394      0.1375414\n",
  chars! "  2S        3.753679      0.0003360      0.0087937     -0.7345330     -0.1071365\n",
  chars! "  1S        2.551715     -0.0004300     -0.0072711     -0.7176191      0.0166856\n",
  chars! "  1S        1.669625      0.0000744      0.0012345     -0.0011431     -0.3757249\n",
  chars! "  2S        0.409589      0.0000094      0.0001299      0.0005083     -0.4361850\n",
  chars! "  1S        0.317716     -0.0000116     -0.0001597     -0.0006988      1.3853983\n",
  chars! "  1S        0.194221     -0.0000004     -0.0000062      0.0000081      0.1576999\n",
  chars! "        P                    2P             3P \n",
  chars! "  BASIS/ORB.ENERGY      -27.0209991     -2.3709688\n",
  chars! "              CUSP        1.0004600      1.0005048\n",
  chars! "  2P       54.334408      0.0003272      0.0001317\n",
  chars! "  3P       35.288558      0.0029407      0.0012041\n",
  chars! "  2P       17.824366     -0.2008667     -0.0243557\n",
  chars! "  3P       14.193502     -0.1663875      0.0393168\n",
  chars! "  2P       10.165385     -0.4400364     -0.3173177\n",
  chars! "  2P        8.274472     -0.2318938     -0.2751673\n",
  chars! "  3P        3.490356      0.0082595     -0.5339280\n",
  chars! "  2P        2.994543     -0.0132899      1.6666809\n",
  chars! "  2P        1.738636      0.0000526      0.0365913\n",
  chars! "  2P        0.651020     -0.0000084      0.0007781\n",
  chars! "  2P        0.194221      0.0000015      0.0000004\n",
  chars! "        D                    3D \n",
  chars! "  BASIS/ORB.ENERGY       -0.2308898\n",
  chars! "              CUSP        1.0004469\n",
  chars! "  3D       23.619037      0.0013969\n",
  chars! "  4D       18.190090      0.0062623\n",
  chars! "  3D        8.022500      0.0846688\n",
  chars! "  3D        5.298464      0.2711343\n",
  chars! "  3D        3.366204      0.3568111\n",
  chars! "  3D        2.098778      0.3052414\n",
  chars! "  3D        1.315008      0.1540352\n",
  chars! "  3D        0.824717      0.0232419\n",
  chars! "  3D        0.194221      0.0000582\n"]⟩

theorem anion_fe_ok : anion_fe.ok = true := by decide +kernel

/-- `data/anion/co`. -/
noncomputable def anion_co : DataFile := ⟨27, .anion, [
  chars! "      COBALT-   K(2)L(8)3S(2)3P(6)4S(2)3D(8), 3F                                      \n",
  chars! "   E = -1381.351808853\n",
  chars! "   T =  1381.351808754     V = -2762.703617607     V/T =    -2.000000000\n",
  chars! "  ORBITAL ENERGIES AND EXPANSION COEFFICIENTS\n",
  chars! "        S                    1S             2S             3S             4S \n",
  chars! "  BASIS/ORB.ENERGY     -282.6729336    -34.4531744     -4.1207854     -0.0197090\n",
  chars! "              CUSP        1.0002725      0.9996646      0.9997010      0.9995828\n",
  chars! "  1S       65.933940      0.0020523      0.0021337      0.0010735      0.0001676\n",
  chars! "  3S       38.602449     -0.0118902     -0.0095766     -0.0050393     -0.0007909\n",
  chars! "  1S       28.457199     -0.8430505     -0.1427437     -0.0522809     -0.0072314\n",
  chars! "  3S       19.680631      0.0639260      0.0467414      0.0135842      0.0013471\n",
  chars! "  2S       11.730375      0.1458467      1.2176181      0.2578680      0.0285847\n",
  chars! "  1S       10.183244     -0.3349229     -0.6597339     -0.1297285     -0.0136158\n",
  chars! "  2S        8.847546      0.0050553      0.3143338      0.8847775      0.1376758\n",
  chars! "  2S        3.908452      0.0003082      0.0078485     -0.6387890     -0.0919661\n",
  chars! "  1S        2.781132     -0.0003863     -0.0061489     -0.8508921     -0.0249661\n",
  chars! "  1S        1.720412      0.0000404      0.0007070     -0.0142082     -0.3472814\n",
  chars! "  2S        0.424477      0.0000031      0.0000646     -0.0004534     -0.4315754\n",
  chars! "  1S        0.328149     -0.0000044     -0.0000812      0.0005051      1.3746625\n",
  chars! "  1S        0.198540      0.0000001     -0.0000019      0.0000421      0.1611951\n",
  chars! "        P                    2P             3P \n",
  chars! "  BASIS/ORB.ENERGY      -29.7092708     -2.6179963\n",
  chars! "              CUSP        1.0006873      1.0004597\n",
  chars! "  2P       55.920505      0.0003695      0.0001621\n",
  chars! "  3P       37.164751      0.0028970      0.0012756\n",
  chars! "  2P       18.833573     -0.1807020     -0.0209455\n",
  chars! "  3P       15.033140     -0.1445929      0.0393582\n",
  chars! "  2P       10.752655     -0.4880568     -0.3234830\n",
  chars! "  2P        8.611029     -0.2231426     -0.2817259\n",
  chars! "  3P        3.713220      0.0082193     -0.5216942\n",
  chars! "  2P        3.180785     -0.0134304      1.6521114\n",
  chars! "  2P        1.908317      0.0000714      0.0466046\n",
  chars! "  2P        0.759136     -0.0000136      0.0009828\n",
  chars! "  2P        0.198540      0.0000018      0.0000134\n",
  chars! "        D                    3D \n",
  chars! "  BASIS/ORB.ENERGY       -0.2494591\n",
  chars! "              CUSP        0.9998764\n",
  chars! "  3D       24.534659      0.0014348\n",
  chars! "  4D       18.971063      0.0062919\n",
  chars! "  3D        8.326788      0.0951075\n",
  chars! "  3D        5.499398      0.2817124\n",
  chars! "  3D        3.497383      0.3561907\n",
  chars! "  3D        2.178992      0.2958872\n",
  chars! "  3D        1.360938      0.1462523\n",
  chars! "  3D        0.850361      0.0209828\n",
  chars! "  3D        0.198540      0.0000471\n",
  chars! "\n"]⟩

theorem anion_co_ok : anion_co.ok = true := by decide +kernel

/-- `data/anion/ni`. -/
noncomputable def anion_ni : DataFile := ⟨28, .anion, [
  chars! "      NICKEL-   K(2)L(8)3S(2)3P(6)4S(2)3D(9), 2D                                      \n",
  chars! "   E = -1506.821131919\n",
  chars! "   T =  1506.821131914     V = -3013.642263833     V/T =    -2.000000000\n",
  chars! "  ORBITAL ENERGIES AND EXPANSION COEFFICIENTS\n",
  chars! "        S                    1S             2S             3S             4S \n",
  chars! "  BASIS/ORB.ENERGY     -305.2089199    -37.4849533     -4.4675513     -0.0204937\n",
  chars! "              CUSP        1.0002576      0.9995851      0.9995125      0.9993036\n",
  chars! "  1S       69.286380      0.0017981      0.0019329     -0.0010108      0.0001617\n",
  chars! "  3S       40.172265     -0.0109793     -0.0090443      0.0049382     -0.0007940\n",
  chars! "  1S       29.477735     -0.8437800     -0.1386381      0.0506818     -0.0069246\n",
  chars! "  3S       20.544867      0.0624210      0.0439034     -0.0112288      0.0007890\n",
  chars! "  2S       12.255834      0.1479364      1.2322485     -0.2704584      0.0306498\n",
  chars! "  1S       10.580401     -0.3361237     -0.6822763      0.1359915     -0.0151180\n",
  chars! "  2S        9.238444      0.0060950      0.3213458     -0.8927781      0.1347255\n",
  chars! "  2S        4.090071      0.0001003      0.0073415      0.6203752     -0.0933801\n",
  chars! "  1S        2.913300     -0.0001061     -0.0053866      0.8766474     -0.0252236\n",
  chars! "  1S        1.790912      0.0000101      0.0006197      0.0154787     -0.3352612\n",
  chars! "  2S        0.438919     -0.0000002      0.0000573      0.0005438     -0.4209068\n",
  chars! "  1S        0.338644     -0.0000001     -0.0000712     -0.0006173      1.3553314\n",
  chars! "  1S        0.202453      0.0000002     -0.0000019     -0.0000437      0.1672362\n",
  chars! "        P                    2P             3P \n",
  chars! "  BASIS/ORB.ENERGY      -32.5131861     -2.8727813\n",
  chars! "              CUSP        1.0006983      0.9992242\n",
  chars! "  2P       57.424455      0.0004196      0.0002154\n",
  chars! "  3P       38.946411      0.0029000      0.0014428\n",
  chars! "  2P       19.986887     -0.1509101     -0.0185258\n",
  chars! "  3P       15.976360     -0.1091593      0.0361878\n",
  chars! "  2P       11.468575     -0.5430088     -0.3001871\n",
  chars! "  2P        8.982149     -0.2295189     -0.3188535\n",
  chars! "  3P        4.070111      0.0078118     -0.4237643\n",
  chars! "  2P        3.484407     -0.0133892      1.5100711\n",
  chars! "  2P        2.298962      0.0001131      0.1104014\n",
  chars! "  2P        0.965531     -0.0000263      0.0019398\n",
  chars! "  2P        0.202453      0.0000020      0.0000268\n",
  chars! "        D                    3D \n",
  chars! "  BASIS/ORB.ENERGY       -0.2691738\n",
  chars! "              CUSP        0.9999121\n",
  chars! "  3D       25.388665      0.0014816\n",
  chars! "  4D       19.711520      0.0063271\n",
  chars! "  3D        8.635589      0.1052036\n",
  chars! "  3D        5.694278      0.2915272\n",
  chars! "  3D        3.624230      0.3538071\n",
  chars! "  3D        2.264710      0.2847968\n",
  chars! "  3D        1.420470      0.1405086\n",
  chars! "  3D        0.891079      0.0209595\n",
  chars! "  3D        0.202453      0.0000489\n"]⟩

theorem anion_ni_ok : anion_ni.ok = true := by decide +kernel

/-- `data/anion/cu`. -/
noncomputable def anion_cu : DataFile := ⟨29, .anion, [
  chars! "      COPPER-   K(2)L(8)3S(2)3P(6)4S(2)3D(10), 1S                                     \n",
  chars! "   E = -1638.964144099\n",
  chars! "   T =  1638.964144144     V = -3277.928288243     V/T =    -2.000000000\n",
  chars! "  ORBITAL ENERGIES AND EXPANSION COEFFICIENTS\n",
  chars! "        S                    1S             2S             3S             4S \n",
  chars! "  BASIS/ORB.ENERGY     -328.5995978    -40.6264473     -4.8182965     -0.0210827\n",
  chars! "              CUSP        1.0002316      0.9996836      0.9995493      0.9993210\n",
  chars! "  1S       72.014363      0.0017678      0.0017646     -0.0009889      0.0001556\n",
  chars! "  3S       41.772406     -0.0105872     -0.0082616      0.0048386     -0.0007636\n",
  chars! "  1S       30.543805     -0.8421099     -0.1342454      0.0488660     -0.0065326\n",
  chars! "  3S       21.425299      0.0621223      0.0435913     -0.0087026      0.0004143\n",
  chars! "  2S       12.757196      0.1545816      1.2541381     -0.2906574      0.0329187\n",
  chars! "  1S       10.917885     -0.3452067     -0.7100510      0.1455132     -0.0165002\n",
  chars! "  2S        9.613085      0.0079966      0.3240586     -0.8925512      0.1312451\n",
  chars! "  2S        4.283572     -0.0001755      0.0063245      0.6042882     -0.0922375\n",
  chars! "  1S        3.026154      0.0002562     -0.0038509      0.9000576     -0.0264074\n",
  chars! "  1S        1.863101     -0.0000273      0.0004790      0.0134554     -0.3223327\n",
  chars! "  2S        0.444541     -0.0000040      0.0000366      0.0002633     -0.4289288\n",
  chars! "  1S        0.342667      0.0000048     -0.0000453     -0.0002741      1.3605195\n",
  chars! "  1S        0.205342      0.0000002     -0.0000013     -0.0000319      0.1630179\n",
  chars! "        P                    2P             3P \n",
  chars! "  BASIS/ORB.ENERGY      -35.4252359     -3.1304996\n",
  chars! "              CUSP        1.0004027      0.9999074\n",
  chars! "  2P       60.062765      0.0004068      0.0001927\n",
  chars! "  3P       40.706627      0.0027730      0.0013124\n",
  chars! "  2P       20.710188     -0.1571512     -0.0175659\n",
  chars! "  3P       16.615205     -0.1214073      0.0362728\n",
  chars! "  2P       11.849238     -0.5375809     -0.3247554\n",
  chars! "  2P        9.337764     -0.2166107     -0.2970315\n",
  chars! "  3P        4.216232      0.0083744     -0.4556855\n",
  chars! "  2P        3.608526     -0.0141787      1.5545330\n",
  chars! "  2P        2.348113      0.0000999      0.0956067\n",
  chars! "  2P        0.992864     -0.0000250      0.0017393\n",
  chars! "  2P        0.205342      0.0000019      0.0000250\n",
  chars! "        D                    3D \n",
  chars! "  BASIS/ORB.ENERGY       -0.2962149\n",
  chars! "              CUSP        0.9997199\n",
  chars! "  3D       26.128341      0.0015513\n",
  chars! "  4D       20.393292      0.0063905\n",
  chars! "  3D        8.948380      0.1145629\n",
  chars! "  3D        5.893469      0.2994371\n",
  chars! "  3D        3.754950      0.3521206\n",
  chars! "  3D        2.346669      0.2778605\n",
  chars! "  3D        1.470002      0.1337351\n",
  chars! "  3D        0.920877      0.0185435\n",
  chars! "  3D        0.205342      0.0000418\n"]⟩

theorem anion_cu_ok : anion_cu.ok = true := by decide +kernel

/-- `data/anion/ga`. -/
noncomputable def anion_ga : DataFile := ⟨31, .anion, [
  chars! "      GALLIUM-   K(2)L(8)M(18)4S(2)4P(2), 3P                                          \n",
  chars! "   E = -1923.260378638\n",
  chars! "   T =  1923.260378800     V = -3846.520757438     V/T =    -2.000000000\n",
  chars! "  ORBITAL ENERGIES AND EXPANSION COEFFICIENTS\n",
  chars! "        S                    1S             2S             3S             4S \n",
  chars! "  BASIS/ORB.ENERGY     -378.6255497    -47.9752238     -6.2011076     -0.2396711\n",
  chars! "              CUSP        1.0001844      0.9996144      0.9995434      0.9998256\n",
  chars! "  1S       77.246394      0.0016949      0.0017580      0.0008658      0.0001456\n",
  chars! "  3S       44.687244     -0.0101154     -0.0083853     -0.0042377     -0.0007059\n",
  chars! "  1S       32.588265     -0.8461626     -0.1174274     -0.0504926     -0.0126634\n",
  chars! "  3S       22.965766      0.0573561      0.0178202      0.0160458      0.0081243\n",
  chars! "  2S       14.682166      0.0575343      0.8250599      0.0076372     -0.0334700\n",
  chars! "  1S       14.657637     -0.2422388     -0.5835042     -0.3177262     -0.0521672\n",
  chars! "  2S       11.466970     -0.0061075      0.5551403      0.7089844      0.2273514\n",
  chars! "  1S        6.395287      0.0011999      0.0466384      1.4378066      0.2509371\n",
  chars! "  1S        3.763203     -0.0001216      0.0010812     -2.2780802     -0.1946874\n",
  chars! "  1S        2.189549      0.0000328      0.0005665     -0.0186189     -0.9308754\n",
  chars! "  2S        0.751315      0.0000074      0.0001285     -0.0005361     -0.6545178\n",
  chars! "  1S        0.649165     -0.0000112     -0.0001966      0.0007160      2.0211906\n",
  chars! "  1S        0.189877     -0.0000003     -0.0000054      0.0000122      0.0031324\n",
  chars! "        P                    2P             3P             4P \n",
  chars! "  BASIS/ORB.ENERGY      -42.3011389     -4.2895131     -0.0180267\n",
  chars! "              CUSP        0.9998009      1.0009354      0.9994408\n",
  chars! "  2P       48.751647      0.0046534      0.0014404     -0.0001581\n",
  chars! "  3P       38.849002      0.0119772      0.0038674     -0.0004214\n",
  chars! "  2P       22.797614     -0.2345141     -0.0503483      0.0055066\n",
  chars! "  3P       17.677399     -0.2684543     -0.0208644      0.0011513\n",
  chars! "  2P       11.175979     -0.5526942     -0.5392629      0.0743668\n",
  chars! "  2P        4.872316     -0.0088323      0.8743654     -0.0955657\n",
  chars! "  3P        4.147271      0.0032718      0.2438786      0.0156012\n",
  chars! "  2P        2.887329     -0.0021492      0.1213724     -0.1667349\n",
  chars! "  2P        1.002528      0.0001111      0.0019407      0.3475419\n",
  chars! "  2P        0.579895     -0.0000787     -0.0007387      0.4664435\n",
  chars! "  2P        0.325798      0.0000403      0.0003525      0.3096848\n",
  chars! "  2P        0.189877     -0.0000127     -0.0001016      0.0278590\n",
  chars! "        D                    3D \n",
  chars! "  BASIS/ORB.ENERGY       -1.0003068\n",
  chars! "              CUSP        0.9999149\n",
  chars! "  3D       27.726545      0.0017553\n",
  chars! "  4D       21.855074      0.0067472\n",
  chars! "  3D        9.651325      0.1380717\n",
  chars! "  3D        6.348006      0.3353792\n",
  chars! "  3D        4.046633      0.3846761\n",
  chars! "  3D        2.625580      0.2433383\n",
  chars! "  3D        1.710788      0.0417798\n",
  chars! "  3D        0.770866      0.0006191\n",
  chars! "  3D        0.189877      0.0000328\n",
  chars! "\n"]⟩

theorem anion_ga_ok : anion_ga.ok = true := by decide +kernel

/-- `data/anion/ge`. -/
noncomputable def anion_ge : DataFile := ⟨32, .anion, [
  chars! "      GERMANIUM-   K(2)L(8)M(18)4S(2)4P(3), 4S                                        \n",
  chars! "   E = -2075.394739699\n",
  chars! "   T =  2075.394740002     V = -4150.789479701     V/T =    -2.000000000\n",
  chars! "  ORBITAL ENERGIES AND EXPANSION COEFFICIENTS\n",
  chars! "        S                    1S             2S             3S             4S \n",
  chars! "  BASIS/ORB.ENERGY     -404.9923365    -51.8981715     -6.9384115     -0.3199568\n",
  chars! "              CUSP        1.0001048      0.9993745      0.9990957      0.9994029\n",
  chars! "  1S       79.613972      0.0017574      0.0018709     -0.0009778      0.0001840\n",
  chars! "  3S       45.818924     -0.0105069     -0.0090271      0.0047956     -0.0008848\n",
  chars! "  1S       33.572086     -0.8526563     -0.1123216      0.0514635     -0.0148718\n",
  chars! "  3S       23.611760      0.0528824      0.0066706     -0.0130737      0.0095067\n",
  chars! "  2S       15.443246      0.0466150      0.7862753      0.0072033     -0.0457659\n",
  chars! "  1S       15.440255     -0.2241071     -0.5875993      0.3139092     -0.0496572\n",
  chars! "  2S       11.983485     -0.0035038      0.6038437     -0.7168634      0.2625505\n",
  chars! "  1S        6.428350      0.0005826      0.0469915     -1.6809075      0.2651306\n",
  chars! "  1S        4.034480     -0.0000460     -0.0013647      2.5018795     -0.0462622\n",
  chars! "  1S        2.518672      0.0000172      0.0012179      0.0283244     -1.2042039\n",
  chars! "  2S        0.914403      0.0000040      0.0002602      0.0003050     -0.5018708\n",
  chars! "  1S        0.791321     -0.0000062     -0.0004013     -0.0001036      1.9558819\n",
  chars! "  1S        0.344495     -0.0000003     -0.0000166     -0.0000186      0.0042540\n",
  chars! "        P                    2P             3P             4P \n",
  chars! "  BASIS/ORB.ENERGY      -45.9843927     -4.9099816     -0.0593385\n",
  chars! "              CUSP        0.9995578      1.0009552      1.0003390\n",
  chars! "  2P       51.327548      0.0044823      0.0013748     -0.0002089\n",
  chars! "  3P       40.786772      0.0116359      0.0037326     -0.0005687\n",
  chars! "  2P       23.838958     -0.2242463     -0.0475567      0.0068204\n",
  chars! "  3P       18.479328     -0.2609266     -0.0196224      0.0008369\n",
  chars! "  2P       11.670561     -0.5680372     -0.5480380      0.1028912\n",
  chars! "  2P        5.013203     -0.0098169      0.8828678     -0.0988367\n",
  chars! "  3P        4.410244      0.0058178      0.1962189      0.0630848\n",
  chars! "  2P        3.203385     -0.0043946      0.1531944     -0.3141338\n",
  chars! "  2P        1.275961      0.0004199      0.0023050      0.2719311\n",
  chars! "  2P        0.899637     -0.0003352     -0.0007029      0.4497300\n",
  chars! "  2P        0.555655      0.0001247      0.0000929      0.3904679\n",
  chars! "  2P        0.344495     -0.0000306     -0.0000304      0.0339316\n",
  chars! "        D                    3D \n",
  chars! "  BASIS/ORB.ENERGY       -1.3829963\n",
  chars! "              CUSP        0.9999854\n",
  chars! "  3D       29.320580      0.0016417\n",
  chars! "  4D       22.954779      0.0066888\n",
  chars! "  3D       10.041271      0.1468737\n",
  chars! "  3D        6.615628      0.3437621\n",
  chars! "  3D        4.263649      0.3884478\n",
  chars! "  3D        2.969233      0.1768956\n",
  chars! "  3D        2.331130      0.0651775\n",
  chars! "  3D        1.493057      0.0081431\n",
  chars! "  3D        0.344495      0.0000998\n",
  chars! "\n"]⟩

theorem anion_ge_ok : anion_ge.ok = true := by decide +kernel

/-- `data/anion/as`. -/
noncomputable def anion_as : DataFile := ⟨33, .anion, [
  chars! "      ARSENIC-   K(2)L(8)M(18)4S(2)4P(4), 3P                                          \n",
  chars! "   E = -2234.222936911\n",
  chars! "   T =  2234.222945522     V = -4468.445882434     V/T =    -1.999999996\n",
  chars! "  ORBITAL ENERGIES AND EXPANSION COEFFICIENTS\n",
  chars! "        S                    1S             2S             3S             4S \n",
  chars! "  BASIS/ORB.ENERGY     -432.3229425    -56.0461496     -7.7652567     -0.4388616\n",
  chars! "              CUSP        1.0004906      1.0005452      1.0007522      1.0006366\n",
  chars! "  1S       54.379943     -0.0114407     -0.0464535     -0.0195849      0.0063761\n",
  chars! "  3S       40.312268      0.0205968      0.0502391      0.0215359     -0.0069607\n",
  chars! "  1S       33.668614      0.9791607      0.3937002      0.1581243     -0.0498408\n",
  chars! "  4S       22.964897     -0.0248538     -0.1034114     -0.0381069      0.0134196\n",
  chars! "  2S       13.839443      0.0637049     -0.8343164     -0.4212188      0.0844373\n",
  chars! "  3S       13.667421     -0.0270581     -0.1311350     -0.3198750      0.1125919\n",
  chars! "  3S        6.306807     -0.0117261      0.0674989      0.2082877      0.0476326\n",
  chars! "  2S        5.183466      0.0163492     -0.1061532      0.9440563     -0.4046830\n",
  chars! "  2S        3.465452     -0.0011458      0.0188074      0.2360044     -0.6373162\n",
  chars! "  2S        1.585163     -0.0002507      0.0189987      0.1766325      0.2844943\n",
  chars! "  2S        1.006385     -0.0003647      0.0204617      0.1905659     -0.2221690\n",
  chars! "  1S        0.884865      0.0007579     -0.0457405     -0.4253608      1.3331490\n",
  chars! "  1S        0.383821      0.0000044      0.0000530      0.0004741      0.0051822\n",
  chars! "        P                    2P             3P             4P \n",
  chars! "  BASIS/ORB.ENERGY      -49.8904540     -5.6171331     -0.0736592\n",
  chars! "              CUSP        1.0009872      0.9991366      1.0006720\n",
  chars! "  2P       50.139883     -0.0061472      0.0038580     -0.0008612\n",
  chars! "  3P       40.762467     -0.0140127      0.0086129     -0.0019383\n",
  chars! "  2P       23.845046      0.3531616     -0.1689808      0.0350403\n",
  chars! "  3P       18.871367      0.4428732     -0.2054690      0.0412265\n",
  chars! "  3P       13.517094      0.2960448     -0.3025554      0.0694743\n",
  chars! "  2P        6.273065      0.0167162      0.6102879     -0.1635560\n",
  chars! "  3P        5.431821     -0.0028990      0.5229978     -0.1015518\n",
  chars! "  3P        3.943193      0.0008938      0.1452139     -0.1768701\n",
  chars! "  3P        1.157275      0.0002287     -0.0018831     -0.5636044\n",
  chars! "  2P        0.967964     -0.0002736      0.0037339      1.4163594\n",
  chars! "  2P        0.560220     -0.0000170     -0.0004695      0.2463488\n",
  chars! "  2P        0.383821      0.0000077      0.0001902      0.0171069\n",
  chars! "        D                    3D \n",
  chars! "  BASIS/ORB.ENERGY       -1.8489532\n",
  chars! "              CUSP        1.0003812\n",
  chars! "  3D       32.077423      0.0012569\n",
  chars! "  4D       24.693333      0.0058336\n",
  chars! "  3D       10.836043      0.1209636\n",
  chars! "  3D        8.023980      0.1111971\n",
  chars! "  3D        6.771001      0.2610695\n",
  chars! "  3D        4.513535      0.4244801\n",
  chars! "  3D        2.963741      0.1916791\n",
  chars! "  3D        1.672180      0.0095066\n",
  chars! "  3D        0.383821      0.0000718\n",
  chars! "\n"]⟩

theorem anion_as_ok : anion_as.ok = true := by decide +kernel

/-- Part 9 of the files. -/
noncomputable def part9 : List DataFile := [
  anion_al, anion_si, anion_p, anion_s, anion_cl, anion_k, anion_sc, anion_ti, anion_v, anion_cr, anion_mn, anion_fe, anion_co, anion_ni, anion_cu, anion_ga, anion_ge, anion_as]

theorem part9_ok : ∀ d ∈ part9, d.ok = true := by
  intro d hd
  unfold part9 at hd
  simp only [List.mem_cons, List.not_mem_nil, or_false] at hd
  rcases hd with rfl | rfl | rfl | rfl | rfl | rfl | rfl | rfl | rfl | rfl | rfl | rfl | rfl | rfl | rfl | rfl | rfl | rfl
  · exact anion_al_ok
  · exact anion_si_ok
  · exact anion_p_ok
  · exact anion_s_ok
  · exact anion_cl_ok
  · exact anion_k_ok
  · exact anion_sc_ok
  · exact anion_ti_ok
  · exact anion_v_ok
  · exact anion_cr_ok
  · exact anion_mn_ok
  · exact anion_fe_ok
  · exact anion_co_ok
  · exact anion_ni_ok
  · exact anion_cu_ok
  · exact anion_ga_ok
  · exact anion_ge_ok
  · exact anion_as_ok

end BFit.Data
