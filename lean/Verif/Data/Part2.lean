import Verif.Lemmas.DataNum

/-! Copy of files in /repo/bfit/data/data.tar, generated by tools/gendata.py. -/

namespace BFit.Data

/-- `data/neutral/cu`. -/
noncomputable def neutral_cu : DataFile := ⟨29, .neutral, [
  chars! "      COPPER   K(2)L(8)3S(2)3P(6)4S(1)3D(10), 2S                                      \n",
  chars! "   E = -1638.963741190\n",
  chars! "   T =  1638.963741770     V = -3277.927482960     V/T =    -2.000000000\n",
  chars! "  ORBITAL ENERGIES AND EXPANSION COEFFICIENTS\n",
  chars! "        S                    1S             2S             3S             4S \n",
  chars! "  BASIS/ORB.ENERGY     -328.7929776    -40.8189561     -5.0119792     -0.2384929\n",
  chars! "              CUSP        1.0002595      0.9997478      0.9997358      0.9995025\n",
  chars! "  1S       70.189946      0.0020207      0.0021026      0.0010930      0.0002480\n",
  chars! "  3S       41.413051     -0.0112026     -0.0091215     -0.0049447     -0.0011285\n",
  chars! "  1S       30.509673     -0.8472089     -0.1358250     -0.0499657     -0.0090394\n",
  chars! "  3S       21.267318      0.0598742      0.0385834      0.0096176      0.0000444\n",
  chars! "  2S       12.847734      0.1357926      1.2088221      0.2570659      0.0411595\n",
  chars! "  1S       11.192606     -0.3188339     -0.6818951     -0.1516614     -0.0273862\n",
  chars! "  2S        9.712223      0.0046457      0.3440914      0.8899292      0.1693738\n",
  chars! "  2S        4.300548      0.0001248      0.0083590     -0.6585943     -0.1563653\n",
  chars! "  1S        2.962479     -0.0001392     -0.0064395     -0.8211081      0.0024820\n",
  chars! "  1S        1.808143      0.0000234      0.0010196     -0.0075510     -0.4028755\n",
  chars! "  2S        0.734806      0.0000022      0.0000782     -0.0003114      0.6643383\n",
  chars! "  1S        0.690642     -0.0000049     -0.0001733      0.0001435      0.5359542\n",
  chars! "        P                    2P             3P \n",
  chars! "  BASIS/ORB.ENERGY      -35.6179440     -3.3248203\n",
  chars! "              CUSP        1.0007605      1.0003104\n",
  chars! "  2P       60.062765      0.0003582      0.0001546\n",
  chars! "  3P       40.162787      0.0027114      0.0011697\n",
  chars! "  2P       19.924473     -0.2268487     -0.0311031\n",
  chars! "  3P       16.048602     -0.2115354      0.0242955\n",
  chars! "  2P       10.881331     -0.5151920     -0.4931547\n",
  chars! "  2P        8.741628     -0.0877481     -0.0861930\n",
  chars! "  3P        3.948760      0.0077786     -0.6165142\n",
  chars! "  2P        3.385906     -0.0127477      1.7582236\n",
  chars! "  2P        1.798822      0.0000192      0.0224578\n",
  chars! "  2P        0.690642     -0.0000084      0.0000878\n",
  chars! "        D                    3D \n",
  chars! "  BASIS/ORB.ENERGY       -0.4912314\n",
  chars! "              CUSP        1.0003681\n",
  chars! "  3D       26.287704      0.0015173\n",
  chars! "  4D       20.461389      0.0063705\n",
  chars! "  3D        8.922963      0.1178186\n",
  chars! "  3D        5.814383      0.3137382\n",
  chars! "  3D        3.626597      0.3693059\n",
  chars! "  3D        2.200138      0.2781690\n",
  chars! "  3D        1.349920      0.1120928\n",
  chars! "  3D        0.690642      0.0011723\n",
  chars! "\n"]⟩

theorem neutral_cu_ok : neutral_cu.ok = true := by decide +kernel

/-- `data/neutral/zn`. -/
noncomputable def neutral_zn : DataFile := ⟨30, .neutral, [
  chars! "      ZINC   K(2)L(8)3S(2)3P(6)4S(2)3D(10), 1S                                        \n",
  chars! "   E = -1777.848115134\n",
  chars! "   T =  1777.848115984     V = -3555.696231119     V/T =    -2.000000000\n",
  chars! "  ORBITAL ENERGIES AND EXPANSION COEFFICIENTS\n",
  chars! "        S                    1S             2S             3S             4S \n",
  chars! "  BASIS/ORB.ENERGY     -353.3045393    -44.3617197     -5.6378145     -0.2925066\n",
  chars! "              CUSP        1.0002636      0.9997949      0.9996953      0.9995278\n",
  chars! "  1S       72.171558      0.0019769      0.0020741     -0.0011753      0.0002886\n",
  chars! "  3S       42.777264     -0.0107609     -0.0088027      0.0052002     -0.0012828\n",
  chars! "  1S       31.527672     -0.8494586     -0.1335176      0.0488817     -0.0102453\n",
  chars! "  3S       22.081772      0.0580937      0.0372026     -0.0048718     -0.0001946\n",
  chars! "  2S       13.336452      0.1366863      1.2357655     -0.2951158      0.0510630\n",
  chars! "  1S       11.561129     -0.3167347     -0.6992431      0.1540240     -0.0240702\n",
  chars! "  2S       10.027114      0.0052139      0.3358924     -0.8917698      0.2096709\n",
  chars! "  2S        4.420748     -0.0001235      0.0096691      0.6694630     -0.1313166\n",
  chars! "  1S        3.230588      0.0002172     -0.0091453      0.8268842      0.0055122\n",
  chars! "  1S        2.015129     -0.0000261      0.0009479      0.0197176     -0.6356594\n",
  chars! "  2S        0.818486     -0.0000022      0.0000458      0.0009397      0.4198696\n",
  chars! "  1S        0.764862      0.0000046     -0.0001038     -0.0019831      0.8894478\n",
  chars! "        P                    2P             3P \n",
  chars! "  BASIS/ORB.ENERGY      -38.9248387     -3.8393723\n",
  chars! "              CUSP        1.0005363      1.0007244\n",
  chars! "  2P       62.133895      0.0003765      0.0001517\n",
  chars! "  3P       41.854760      0.0026902      0.0011128\n",
  chars! "  2P       20.683667     -0.2288154     -0.0313310\n",
  chars! "  3P       16.687144     -0.2182349      0.0220066\n",
  chars! "  2P       11.270401     -0.5142568     -0.5172974\n",
  chars! "  2P        9.043064     -0.0801772     -0.0634072\n",
  chars! "  3P        4.115574      0.0072552     -0.5877818\n",
  chars! "  2P        3.555618     -0.0121590      1.7359178\n",
  chars! "  2P        1.819362      0.0000238      0.0153842\n",
  chars! "  2P        0.764862     -0.0000025      0.0001286\n",
  chars! "        D                    3D \n",
  chars! "  BASIS/ORB.ENERGY       -0.7825362\n",
  chars! "              CUSP        0.9992137\n",
  chars! "  3D       26.840425      0.0016896\n",
  chars! "  4D       21.076327      0.0066854\n",
  chars! "  3D        9.261571      0.1293386\n",
  chars! "  3D        6.082216      0.3220073\n",
  chars! "  3D        3.860363      0.3716809\n",
  chars! "  3D        2.445106      0.2607110\n",
  chars! "  3D        1.590058      0.0802155\n",
  chars! "  3D        0.764862      0.0003242\n",
  chars! "\n"]⟩

theorem neutral_zn_ok : neutral_zn.ok = true := by decide +kernel

/-- `data/neutral/ga`. -/
noncomputable def neutral_ga : DataFile := ⟨31, .neutral, [
  chars! "      GALLIUM   K(2)L(8)M(18)4S(2)4P(1), 2P                                           \n",
  chars! "   E = -1923.261007857\n",
  chars! "   T =  1923.261007627     V = -3846.522015484     V/T =    -2.000000000\n",
  chars! "  ORBITAL ENERGIES AND EXPANSION COEFFICIENTS\n",
  chars! "        S                    1S             2S             3S             4S \n",
  chars! "  BASIS/ORB.ENERGY     -378.8184251    -48.1684272     -6.3946593     -0.4245903\n",
  chars! "              CUSP        1.0002520      0.9998342      0.9998090      0.9998711\n",
  chars! "  1S       74.163075     -0.0020125      0.0021379      0.0010632      0.0002349\n",
  chars! "  3S       44.111552      0.0107044     -0.0090307     -0.0046042     -0.0010139\n",
  chars! "  1S       32.554208      0.8493642     -0.1184356     -0.0506485     -0.0130995\n",
  chars! "  3S       22.941369     -0.0517435      0.0130268      0.0129238      0.0058638\n",
  chars! "  2S       14.638429     -0.1167559      0.9606464      0.0751663     -0.0157824\n",
  chars! "  2S       11.507175     -0.1089497      0.8388726      0.8689100      0.2528832\n",
  chars! "  1S       10.651417      0.3844733     -0.9434169     -0.5220104     -0.0984525\n",
  chars! "  1S        6.419062     -0.0000545      0.0481297      1.4389889      0.2874108\n",
  chars! "  1S        3.758419     -0.0001774      0.0014032     -2.2717431     -0.2434421\n",
  chars! "  1S        2.128908      0.0000409      0.0004214     -0.0160811     -0.9647349\n",
  chars! "  2S        0.715996      0.0000080      0.0000702     -0.0003620     -0.7955805\n",
  chars! "  1S        0.645754     -0.0000131     -0.0001202      0.0005797      2.1805188\n",
  chars! "        P                    2P             3P             4P \n",
  chars! "  BASIS/ORB.ENERGY      -42.4940323     -4.4823707     -0.2084987\n",
  chars! "              CUSP        1.0001757      0.9999700      1.0000254\n",
  chars! "  2P       65.541676     -0.0003531      0.0001678     -0.0000210\n",
  chars! "  3P       44.152054     -0.0024432      0.0011738     -0.0001513\n",
  chars! "  2P       22.005072      0.1795597     -0.0174948      0.0026151\n",
  chars! "  3P       17.824611      0.1551185      0.0378616     -0.0060864\n",
  chars! "  2P       12.176581      0.6582416     -0.4796254      0.0830719\n",
  chars! "  3P       10.192581      0.0485330      0.0568351     -0.0006801\n",
  chars! "  3P        6.855667      0.0027297      0.4257664     -0.0715253\n",
  chars! "  3P        4.730498      0.0008101      0.4598884     -0.0179081\n",
  chars! "  2P        3.006855      0.0002605      0.2161453     -0.2074242\n",
  chars! "  2P        0.905335      0.0000057      0.0015260      0.5634063\n",
  chars! "  2P        0.645754     -0.0000046     -0.0004680      0.5081831\n",
  chars! "        D                    3D \n",
  chars! "  BASIS/ORB.ENERGY       -1.1933737\n",
  chars! "              CUSP        1.0001330\n",
  chars! "  3D       28.295386      0.0016169\n",
  chars! "  4D       22.128835      0.0066219\n",
  chars! "  3D        9.633176      0.1418965\n",
  chars! "  3D        6.261006      0.3508943\n",
  chars! "  3D        3.907149      0.4053581\n",
  chars! "  3D        2.459171      0.2240315\n",
  chars! "  3D        1.565609      0.0213451\n",
  chars! "  3D        0.645754     -0.0000074\n",
  chars! "\n"]⟩

theorem neutral_ga_ok : neutral_ga.ok = true := by decide +kernel

/-- `data/neutral/ge`. -/
noncomputable def neutral_ge : DataFile := ⟨32, .neutral, [
  chars! "      GERMANIUM   K(2)L(8)M(18)4S(2)4P(2), 3P                                         \n",
  chars! "   E = -2075.359731251\n",
  chars! "   T =  2075.359730662     V = -4150.719461913     V/T =    -2.000000000\n",
  chars! "  ORBITAL ENERGIES AND EXPANSION COEFFICIENTS\n",
  chars! "        S                    1S             2S             3S             4S \n",
  chars! "  BASIS/ORB.ENERGY     -405.2444503    -52.1503390     -7.1910003     -0.5533671\n",
  chars! "              CUSP        1.0003164      1.0000588      1.0000983      1.0002776\n",
  chars! "  1S       76.555432     -0.0018078      0.0019448      0.0009669      0.0001918\n",
  chars! "  3S       45.858462      0.0095437     -0.0080920     -0.0041242     -0.0008175\n",
  chars! "  1S       33.610460      0.8454451     -0.1103075     -0.0487858     -0.0142534\n",
  chars! "  3S       23.935761     -0.0516573      0.0081985      0.0126617      0.0082456\n",
  chars! "  2S       15.346717     -0.1204391      0.9323112      0.0633297     -0.0296369\n",
  chars! "  2S       12.026209     -0.1111409      0.8888362      0.8844335      0.2942394\n",
  chars! "  1S       11.159105      0.3934758     -0.9655455     -0.5243957     -0.0975860\n",
  chars! "  1S        6.438987      0.0006752      0.0470433      1.6725097      0.3053093\n",
  chars! "  1S        4.028666     -0.0004116     -0.0004295     -2.4962937     -0.1116297\n",
  chars! "  1S        2.450056      0.0001034      0.0007647     -0.0241003     -1.2393662\n",
  chars! "  2S        0.836054      0.0000151      0.0001016     -0.0001309     -0.7723292\n",
  chars! "  1S        0.758093     -0.0000258     -0.0001848      0.0000402      2.2389290\n",
  chars! "        P                    2P             3P             4P \n",
  chars! "  BASIS/ORB.ENERGY      -46.2361639     -5.1616015     -0.2873527\n",
  chars! "              CUSP        1.0003013      0.9993901      0.9999647\n",
  chars! "  2P       69.491987     -0.0002894      0.0001467     -0.0000209\n",
  chars! "  3P       46.214210     -0.0021391      0.0010724     -0.0001602\n",
  chars! "  2P       22.646499      0.1874945     -0.0207694      0.0034417\n",
  chars! "  3P       18.407375      0.1674549      0.0316648     -0.0067488\n",
  chars! "  2P       12.503901      0.6453349     -0.4855325      0.1056609\n",
  chars! "  3P       10.373220      0.0412213      0.0727783      0.0000900\n",
  chars! "  3P        7.108357      0.0021424      0.3973735     -0.0749832\n",
  chars! "  3P        5.035482      0.0009650      0.4512341      0.0073854\n",
  chars! "  2P        3.291863      0.0001725      0.2423111     -0.3131488\n",
  chars! "  2P        1.061577      0.0000048      0.0017566      0.7111911\n",
  chars! "  2P        0.758093     -0.0000053     -0.0004771      0.3907760\n",
  chars! "        D                    3D \n",
  chars! "  BASIS/ORB.ENERGY       -1.6348997\n",
  chars! "              CUSP        0.9996475\n",
  chars! "  3D       28.893923      0.0017565\n",
  chars! "  4D       22.744772      0.0068668\n",
  chars! "  3D        9.975534      0.1520527\n",
  chars! "  3D        6.535857      0.3529406\n",
  chars! "  3D        4.150742      0.4126107\n",
  chars! "  3D        2.687443      0.1985465\n",
  chars! "  3D        1.649905      0.0121971\n",
  chars! "  3D        0.758093     -0.0000393\n",
  chars! "\n"]⟩

theorem neutral_ge_ok : neutral_ge.ok = true := by decide +kernel

/-- `data/neutral/as`. -/
noncomputable def neutral_as : DataFile := ⟨33, .neutral, [
  chars! "      ARSENIC   K(2)L(8)M(18)4S(2)4P(3), 4S                                           \n",
  chars! "   E = -2234.238652211\n",
  chars! "   T =  2234.238652211     V = -4468.477304422     V/T =    -2.000000000\n",
  chars! "  ORBITAL ENERGIES AND EXPANSION COEFFICIENTS\n",
  chars! "        S                    1S             2S             3S             4S \n",
  chars! "  BASIS/ORB.ENERGY     -432.5862026    -56.3098277     -8.0296221     -0.6858969\n",
  chars! "              CUSP        1.0004684      1.0002679      1.0003514      1.0004832\n",
  chars! "  1S       54.206035     -0.0097888      0.0472799      0.0196598      0.0054786\n",
  chars! "  3S       39.953981      0.0198534     -0.0526307     -0.0221499     -0.0062164\n",
  chars! "  1S       33.575117      0.9797520     -0.3963765     -0.1569388     -0.0436365\n",
  chars! "  4S       22.687547     -0.0227791      0.1035166      0.0387603      0.0098545\n",
  chars! "  2S       14.286912      0.0528492      0.7947179      0.4195814      0.1211463\n",
  chars! "  3S       13.481918     -0.0175215      0.1934033      0.3662879      0.1232891\n",
  chars! "  3S        6.115775     -0.0074662     -0.0413055     -0.1365817      0.0138823\n",
  chars! "  2S        5.148299      0.0102517      0.0681277     -1.0360940     -0.2530920\n",
  chars! "  2S        3.641403     -0.0001299     -0.0048316     -0.1315030     -0.5047831\n",
  chars! "  2S        1.809534     -0.0000951      0.0005478      0.0048884      0.4859887\n",
  chars! "  2S        1.278811      0.0001410     -0.0005699     -0.0050606      0.7161727\n",
  chars! "  1S        0.859631     -0.0001060      0.0003827      0.0031013      0.0695486\n",
  chars! "        P                    2P             3P             4P \n",
  chars! "  BASIS/ORB.ENERGY      -50.1537452     -5.8806934     -0.3694825\n",
  chars! "              CUSP        1.0009799      0.9990766      1.0002607\n",
  chars! "  2P       50.718595     -0.0061590      0.0037916     -0.0009478\n",
  chars! "  3P       41.198849     -0.0140545      0.0084961     -0.0021377\n",
  chars! "  2P       24.082973      0.3456543     -0.1640727      0.0382923\n",
  chars! "  3P       19.047410      0.4376157     -0.2006209      0.0453519\n",
  chars! "  3P       13.627410      0.3082380     -0.2996379      0.0772161\n",
  chars! "  2P        6.013469      0.0200905      0.6449960     -0.1889786\n",
  chars! "  3P        5.462364     -0.0059676      0.4353153     -0.0794897\n",
  chars! "  3P        4.087596      0.0015992      0.1816630     -0.1723025\n",
  chars! "  3P        1.841936     -0.0002968      0.0029471      0.2164620\n",
  chars! "  2P        1.059631      0.0003860     -0.0016209      0.6834376\n",
  chars! "  2P        0.859631     -0.0001796      0.0005881      0.1978196\n",
  chars! "        D                    3D \n",
  chars! "  BASIS/ORB.ENERGY       -2.1126572\n",
  chars! "              CUSP        0.9999990\n",
  chars! "  3D       31.332509      0.0014237\n",
  chars! "  4D       24.312793      0.0062462\n",
  chars! "  3D       10.554143      0.1460825\n",
  chars! "  3D        6.987846      0.3475138\n",
  chars! "  3D        4.485271      0.4309220\n",
  chars! "  3D        2.935044      0.1851549\n",
  chars! "  3D        1.733242      0.0082224\n",
  chars! "  3D        0.859631     -0.0000252\n",
  chars! " \n"]⟩

theorem neutral_as_ok : neutral_as.ok = true := by decide +kernel

/-- `data/neutral/se`. -/
noncomputable def neutral_se : DataFile := ⟨34, .neutral, [
  chars! "      SELENIUM   K(2)L(8)M(18)4S(2)4P(4), 3P                                          \n",
  chars! "   E = -2399.867609593\n",
  chars! "   T =  2399.867609725     V = -4799.735219318     V/T =    -2.000000000\n",
  chars! "  ORBITAL ENERGIES AND EXPANSION COEFFICIENTS\n",
  chars! "        S                    1S             2S             3S             4S \n",
  chars! "  BASIS/ORB.ENERGY     -460.8674045    -60.6688726     -8.9321018     -0.8373814\n",
  chars! "              CUSP        1.0004421      1.0001755      1.0002803      1.0004072\n",
  chars! "  1S       56.828412      0.0116221      0.0444538     -0.0185939      0.0054869\n",
  chars! "  3S       41.684096     -0.0210440     -0.0512570      0.0217226     -0.0064574\n",
  chars! "  1S       34.728365     -0.9787411     -0.3916991      0.1564411     -0.0461073\n",
  chars! "  4S       23.727323      0.0252435      0.1049385     -0.0392985      0.0105428\n",
  chars! "  2S       14.086853     -0.0666383      0.8671612     -0.4567798      0.1407371\n",
  chars! "  3S       14.072696      0.0299996      0.0972875     -0.3055537      0.1126788\n",
  chars! "  3S        6.512291      0.0120725     -0.0629209      0.2383658     -0.0101153\n",
  chars! "  2S        5.392830     -0.0170254      0.1028540      0.8959612     -0.1833988\n",
  chars! "  2S        3.949425      0.0009320     -0.0107288      0.1561662     -0.6121357\n",
  chars! "  2S        1.993854      0.0000644      0.0011542     -0.0044467      0.5140505\n",
  chars! "  2S        1.411000     -0.0001040     -0.0009378      0.0042356      0.7311799\n",
  chars! "  1S        0.897613      0.0000687      0.0005024     -0.0019600      0.0642519\n",
  chars! "        P                    2P             3P             4P \n",
  chars! "  BASIS/ORB.ENERGY      -54.2689002     -6.6615222     -0.4028543\n",
  chars! "              CUSP        1.0009560      0.9993304      0.9999292\n",
  chars! "  2P       52.491766     -0.0064723     -0.0039597     -0.0010594\n",
  chars! "  3P       42.761369     -0.0144032     -0.0086921     -0.0023336\n",
  chars! "  2P       25.120026      0.3393958      0.1630156      0.0412546\n",
  chars! "  3P       19.850208      0.4351493      0.2015918      0.0496825\n",
  chars! "  3P       14.194446      0.3162317      0.3039687      0.0849833\n",
  chars! "  2P        6.300767      0.0221612     -0.6238082     -0.2107925\n",
  chars! "  3P        5.743780     -0.0069670     -0.4717771     -0.0982097\n",
  chars! "  3P        4.284076      0.0019448     -0.1636869     -0.2430954\n",
  chars! "  3P        1.319656      0.0006140      0.0038219     -0.5070019\n",
  chars! "  2P        1.131217     -0.0006687     -0.0066164      1.5097405\n",
  chars! "  2P        0.897613     -0.0000971      0.0003477      0.1154106\n",
  chars! "        D                    3D \n",
  chars! "  BASIS/ORB.ENERGY       -2.6496262\n",
  chars! "              CUSP        0.9994320\n",
  chars! "  3D       31.897983      0.0015379\n",
  chars! "  4D       24.931347      0.0064220\n",
  chars! "  3D       10.860020      0.1590899\n",
  chars! "  3D        7.194093      0.3528155\n",
  chars! "  3D        4.709428      0.4300900\n",
  chars! "  3D        3.150997      0.1600225\n",
  chars! "  3D        1.826977      0.0063665\n",
  chars! "  3D        0.897613     -0.0000598\n",
  chars! " \n"]⟩

theorem neutral_se_ok : neutral_se.ok = true := by decide +kernel

/-- `data/neutral/br`. -/
noncomputable def neutral_br : DataFile := ⟨35, .neutral, [
  chars! "      BROMINE   K(2)L(8)M(18)4S(2)4P(5), 2P                                           \n",
  chars! "   E = -2572.441331380\n",
  chars! "   T =  2572.441331595     V = -5144.882662976     V/T =    -2.000000000\n",
  chars! "  ORBITAL ENERGIES AND EXPANSION COEFFICIENTS\n",
  chars! "        S                    1S             2S             3S             4S \n",
  chars! "  BASIS/ORB.ENERGY     -490.0603389    -65.1999591     -9.8718922     -0.9926803\n",
  chars! "              CUSP        1.0004209      1.0001798      1.0003448      1.0005232\n",
  chars! "  1S       58.508039      0.0132508      0.0450195     -0.0189118      0.0058177\n",
  chars! "  3S       43.044755     -0.0219336     -0.0507053      0.0216413     -0.0067230\n",
  chars! "  1S       35.835678     -0.9789724     -0.3924497      0.1581023     -0.0486811\n",
  chars! "  4S       24.607114      0.0253791      0.1059948     -0.0388122      0.0105546\n",
  chars! "  2S       14.767152     -0.0670808      0.8246160     -0.4284223      0.1395496\n",
  chars! "  3S       14.754419      0.0289285      0.1376069     -0.3156266      0.1221182\n",
  chars! "  3S        6.850776      0.0102296     -0.0663372      0.3531964     -0.0316647\n",
  chars! "  2S        5.703885     -0.0146305      0.1110553      0.6962321     -0.0508543\n",
  chars! "  2S        4.364524      0.0008038     -0.0121144      0.2248232     -0.7490550\n",
  chars! "  2S        2.073131      0.0000833      0.0007303     -0.0022267      0.6210919\n",
  chars! "  2S        1.496008     -0.0001113     -0.0006410      0.0032532      0.6569533\n",
  chars! "  1S        0.956123      0.0000698      0.0003342     -0.0014231      0.0420710\n",
  chars! "        P                    2P             3P             4P \n",
  chars! "  BASIS/ORB.ENERGY      -58.5542228     -7.4782081     -0.4570857\n",
  chars! "              CUSP        1.0009235      0.9993922      0.9998378\n",
  chars! "  2P       53.964914     -0.0063355     -0.0039510     -0.0011454\n",
  chars! "  3P       44.074427     -0.0138313     -0.0085171     -0.0024762\n",
  chars! "  2P       25.967586      0.3363151      0.1634189      0.0445753\n",
  chars! "  3P       20.612559      0.4266203      0.1987104      0.0526007\n",
  chars! "  3P       14.804998      0.3220530      0.3063350      0.0930826\n",
  chars! "  2P        7.130435      0.0256818     -0.4905817     -0.1864795\n",
  chars! "  3P        6.280038     -0.0057859     -0.5755623     -0.1379073\n",
  chars! "  3P        4.641256      0.0017227     -0.1975788     -0.2798173\n",
  chars! "  3P        1.483284      0.0005547      0.0055771     -0.5058575\n",
  chars! "  2P        1.265163     -0.0006631     -0.0096331      1.5077209\n",
  chars! "  2P        0.956123     -0.0000497      0.0002427      0.1395336\n",
  chars! "        D                    3D \n",
  chars! "  BASIS/ORB.ENERGY       -3.2201741\n",
  chars! "              CUSP        0.9992719\n",
  chars! "  3D       32.846999      0.0015744\n",
  chars! "  4D       25.721481      0.0065093\n",
  chars! "  3D       11.166998      0.1729358\n",
  chars! "  3D        7.375640      0.3589234\n",
  chars! "  3D        4.935945      0.4257609\n",
  chars! "  3D        3.345405      0.1382342\n",
  chars! "  3D        1.916340      0.0047765\n",
  chars! "  3D        0.956123     -0.0000021\n",
  chars! " \n"]⟩

theorem neutral_br_ok : neutral_br.ok = true := by decide +kernel

/-- `data/neutral/kr`. -/
noncomputable def neutral_kr : DataFile := ⟨36, .neutral, [
  chars! "      KRYPTON   K(2)L(8)M(18)4S(2)4P(6), 1S                                           \n",
  chars! "   E = -2752.054975504\n",
  chars! "   T =  2752.054976552     V = -5504.109952057     V/T =    -2.000000000\n",
  chars! "  ORBITAL ENERGIES AND EXPANSION COEFFICIENTS\n",
  chars! "        S                    1S             2S             3S             4S \n",
  chars! "  BASIS/ORB.ENERGY     -520.1654687    -69.9030823    -10.8494654     -1.1529352\n",
  chars! "              CUSP        1.0003694      0.9999338      1.0001213      1.0003202\n",
  chars! "  1S       60.777807      0.0148759      0.0439991     -0.0185648      0.0059175\n",
  chars! "  3S       44.499723     -0.0234416     -0.0508013      0.0218088     -0.0070282\n",
  chars! "  1S       36.979014     -0.9783877     -0.3906898      0.1586820     -0.0507087\n",
  chars! "  4S       25.529164      0.0259097      0.1062937     -0.0384550      0.0106434\n",
  chars! "  2S       15.429937     -0.0689468      0.7865245     -0.4023743      0.1369390\n",
  chars! "  3S       15.427470      0.0291144      0.1733641     -0.3230848      0.1300108\n",
  chars! "  3S        7.202997      0.0095501     -0.0684596      0.4573148     -0.0513369\n",
  chars! "  2S        6.034988     -0.0137021      0.1177337      0.4908703      0.0963564\n",
  chars! "  2S        4.750173      0.0006363     -0.0134150      0.3098497     -0.9038936\n",
  chars! "  2S        2.188877      0.0001085      0.0005485     -0.0005023      0.6794236\n",
  chars! "  2S        1.592153     -0.0001339     -0.0005428      0.0025103      0.6213645\n",
  chars! "  1S        1.023901      0.0000824      0.0002903     -0.0010443      0.0338756\n",
  chars! "        P                    2P             3P             4P \n",
  chars! "  BASIS/ORB.ENERGY      -63.0097850     -8.3315005     -0.5241866\n",
  chars! "              CUSP        1.0009666      0.9994347      0.9995559\n",
  chars! "  2P       55.423460     -0.0062132     -0.0039511     -0.0012127\n",
  chars! "  3P       45.348388     -0.0133944     -0.0084081     -0.0025837\n",
  chars! "  2P       26.746410      0.3355068      0.1656088      0.0478133\n",
  chars! "  3P       21.299661      0.4219443      0.1992198      0.0558041\n",
  chars! "  3P       15.365217      0.3213774      0.3102247      0.1007406\n",
  chars! "  2P        8.075067      0.0286895     -0.3970577     -0.1665597\n",
  chars! "  3P        6.762676     -0.0034907     -0.6549448     -0.1758964\n",
  chars! "  3P        4.956675      0.0012162     -0.2207516     -0.3108946\n",
  chars! "  3P        1.641161      0.0003760      0.0056800     -0.5032745\n",
  chars! "  2P        1.395473     -0.0004632     -0.0090577      1.5227627\n",
  chars! "  2P        1.023901     -0.0000170      0.0004744      0.1439485\n",
  chars! "        D                    3D \n",
  chars! "  BASIS/ORB.ENERGY       -3.8252344\n",
  chars! "              CUSP        0.9994429\n",
  chars! "  3D       33.868162      0.0015784\n",
  chars! "  4D       26.569736      0.0064515\n",
  chars! "  3D       11.514091      0.1841738\n",
  chars! "  3D        7.536640      0.3761312\n",
  chars! "  3D        5.124374      0.4160275\n",
  chars! "  3D        3.510570      0.1139990\n",
  chars! "  3D        2.025551      0.0039681\n",
  chars! "  3D        1.023901      0.0000090\n"]⟩

theorem neutral_kr_ok : neutral_kr.ok = true := by decide +kernel

/-- `data/neutral/rb`. -/
noncomputable def neutral_rb : DataFile := ⟨37, .neutral, [
  chars! "      RUBIDIUM   K(2)L(8)M(18)4S(2)4P(6)5S(1), 2S                                     \n",
  chars! "   E = -2938.357452181\n",
  chars! "   T =  2938.357452286     V = -5876.714904467     V/T =    -2.000000000\n",
  chars! "  ORBITAL ENERGIES AND EXPANSION COEFFICIENTS\n",
  chars! "        S                    1S             2S             3S             4S             5S \n",
  chars! "  BASIS/ORB.ENERGY     -551.4573370    -75.0493463    -12.1331981     -1.5235485     -0.1378663\n",
  chars! "              CUSP        1.0003960      1.0002198      1.0003872      1.0004269      0.9996370\n",
  chars! "  1S       61.238288     -0.0142902      0.0475276     -0.0202379      0.0068127     -0.0014356\n",
  chars! "  3S       45.419154      0.0216673     -0.0502724      0.0217619     -0.0073618      0.0015052\n",
  chars! "  1S       37.904166      0.9805321     -0.3976681      0.1630787     -0.0550419      0.0115905\n",
  chars! "  4S       26.159754     -0.0240895      0.1068233     -0.0391489      0.0118970     -0.0028838\n",
  chars! "  2S       15.837093      0.0647545      0.8075864     -0.4356763      0.1579985     -0.0332553\n",
  chars! "  3S       15.837028     -0.0266718      0.1603309     -0.3381059      0.1422714     -0.0294429\n",
  chars! "  4S        8.856530     -0.0043941     -0.0370828      0.1086089     -0.0495287      0.0140940\n",
  chars! "  4S        6.318787     -0.0024274     -0.0257528     -0.1943080     -0.1250338      0.0345714\n",
  chars! "  2S        5.309624      0.0089300      0.0887017      1.3331631     -0.7458905      0.1632246\n",
  chars! "  2S        2.093831     -0.0001051      0.0000388     -0.0023556      1.1888711     -0.2985853\n",
  chars! "  2S        1.544223      0.0001022     -0.0002100      0.0039761      0.1410895      0.0036943\n",
  chars! "  2S        1.011039     -0.0000457      0.0001280     -0.0016422     -0.0015651     -0.3644020\n",
  chars! "  2S        0.525141      0.0000215     -0.0000690      0.0007290      0.0001535      1.2376598\n",
  chars! "  3S        0.525102     -0.0000103      0.0000339     -0.0003476      0.0003460      0.0344657\n",
  chars! "        P                    2P             3P             4P \n",
  chars! "  BASIS/ORB.ENERGY      -67.9062306     -9.4876941     -0.8100702\n",
  chars! "              CUSP        1.0009232      0.9991827      0.9995428\n",
  chars! "  2P       58.153213     -0.0048819     -0.0033211     -0.0011752\n",
  chars! "  3P       47.226370     -0.0111043     -0.0074303     -0.0026368\n",
  chars! "  2P       27.305393      0.3350514      0.1692676      0.0549054\n",
  chars! "  3P       21.943275      0.4123617      0.1983483      0.0618273\n",
  chars! "  3P       15.955742      0.3165616      0.3170480      0.1180470\n",
  chars! "  2P        9.305393      0.0365816     -0.3207522     -0.1598011\n",
  chars! "  3P        7.290585     -0.0009949     -0.7038279     -0.2124898\n",
  chars! "  3P        5.311460      0.0006207     -0.2609028     -0.3598097\n",
  chars! "  3P        1.664002      0.0000967      0.0049228     -0.5908893\n",
  chars! "  2P        1.475167     -0.0001351     -0.0076509      1.7572623\n",
  chars! "  2P        0.525102     -0.0000017     -0.0000070      0.0024732\n",
  chars! "        D                    3D \n",
  chars! "  BASIS/ORB.ENERGY       -4.7322916\n",
  chars! "              CUSP        0.9992555\n",
  chars! "  3D       35.762583      0.0014099\n",
  chars! "  4D       27.863840      0.0061088\n",
  chars! "  3D       11.927910      0.1911086\n",
  chars! "  3D        7.697962      0.4082720\n",
  chars! "  3D        5.232765      0.4103741\n",
  chars! "  3D        3.513352      0.0783208\n",
  chars! "  3D        1.532313      0.0005687\n",
  chars! "  3D        0.525102     -0.0000269\n",
  chars! " \n"]⟩

theorem neutral_rb_ok : neutral_rb.ok = true := by decide +kernel

/-- `data/neutral/sr`. -/
noncomputable def neutral_sr : DataFile := ⟨38, .neutral, [
  chars! "      STRONTIUM   K(2)L(8)M(18)4S(2)4P(6)5S(2), 1S                                    \n",
  chars! "   E = -3131.545684546\n",
  chars! "   T =  3131.545683521     V = -6263.091368067     V/T =    -2.000000000\n",
  chars! "  ORBITAL ENERGIES AND EXPANSION COEFFICIENTS\n",
  chars! "        S                    1S             2S             3S             4S             5S \n",
  chars! "  BASIS/ORB.ENERGY     -583.6878839    -80.3907956    -13.4750284     -1.8968116     -0.1784561\n",
  chars! "              CUSP        1.0003648      1.0001540      1.0004466      1.0005762      1.0009344\n",
  chars! "  1S       63.847506     -0.0177545      0.0454456     -0.0193042      0.0068169     -0.0017508\n",
  chars! "  3S       47.274210      0.0243267     -0.0485781      0.0211161     -0.0075286      0.0019640\n",
  chars! "  1S       39.188703      0.9789460     -0.3924185      0.1618734     -0.0574662      0.0148069\n",
  chars! "  4S       27.364721     -0.0267645      0.1069584     -0.0368655      0.0111915     -0.0025055\n",
  chars! "  2S       16.734172      0.0722193      0.7269210     -0.3930822      0.1494970     -0.0395888\n",
  chars! "  3S       16.730882     -0.0286976      0.2349714     -0.3618884      0.1587752     -0.0435787\n",
  chars! "  4S        9.349486     -0.0039470     -0.0369796      0.2088815     -0.0741743      0.0155664\n",
  chars! "  4S        6.986214     -0.0016704     -0.0236862     -0.0521231     -0.1367121      0.0624252\n",
  chars! "  2S        5.834851      0.0084713      0.0963446      1.0964473     -0.5162326      0.1793129\n",
  chars! "  2S        4.333246     -0.0006574     -0.0034411      0.0018149     -0.3280181      0.0246532\n",
  chars! "  2S        2.286303      0.0000630      0.0000634      0.0038400      1.3829402     -0.2713697\n",
  chars! "  2S        1.569080     -0.0000224     -0.0000410     -0.0005635      0.0537518     -0.4127011\n",
  chars! "  2S        0.645727      0.0000044      0.0000070      0.0001016     -0.0011331      1.1372676\n",
  chars! "  3S        0.597422     -0.0000021     -0.0000033     -0.0000466      0.0004443      0.0845943\n",
  chars! "        P                    2P             3P             4P \n",
  chars! "  BASIS/ORB.ENERGY      -72.9960372    -10.6999756     -1.0981635\n",
  chars! "              CUSP        1.0009676      0.9998912      0.9991494\n",
  chars! "  2P       59.272426     -0.0052361     -0.0036550     -0.0013384\n",
  chars! "  3P       48.379341     -0.0114863     -0.0079301     -0.0028904\n",
  chars! "  2P       28.210855      0.3326967      0.1721273      0.0598089\n",
  chars! "  3P       22.663072      0.4104599      0.2006975      0.0680591\n",
  chars! "  3P       16.507289      0.3159546      0.3265554      0.1293009\n",
  chars! "  2P        9.969782      0.0409869     -0.3092982     -0.1659193\n",
  chars! "  3P        7.589743     -0.0002693     -0.7401578     -0.2553096\n",
  chars! "  3P        5.520342      0.0004197     -0.2459051     -0.3975636\n",
  chars! "  3P        1.729602      0.0000605      0.0038000     -0.8360604\n",
  chars! "  2P        1.558351     -0.0000878     -0.0059260      2.0197647\n",
  chars! "  2P        0.597422     -0.0000010     -0.0000245      0.0023142\n",
  chars! "        D                    3D \n",
  chars! "  BASIS/ORB.ENERGY       -5.6943953\n",
  chars! "              CUSP        0.9996495\n",
  chars! "  3D       36.575295      0.0014453\n",
  chars! "  4D       28.607388      0.0060802\n",
  chars! "  3D       12.288934      0.1996775\n",
  chars! "  3D        7.865863      0.4315563\n",
  chars! "  3D        5.425616      0.3845347\n",
  chars! "  3D        3.736432      0.0670549\n",
  chars! "  3D        1.567766      0.0003473\n",
  chars! "  3D        0.597422     -0.0000335\n"]⟩

theorem neutral_sr_ok : neutral_sr.ok = true := by decide +kernel

/-- `data/neutral/y`. -/
noncomputable def neutral_y : DataFile := ⟨39, .neutral, [
  chars! "      YTTRIUM   K(2)L(8)M(18)4S(2)4P(6)5S(2)4D(1), 2D                                 \n",
  chars! "   E = -3331.684167956\n",
  chars! "   T =  3331.684164641     V = -6663.368332598     V/T =    -2.000000001\n",
  chars! "  ORBITAL ENERGIES AND EXPANSION COEFFICIENTS\n",
  chars! "        S                    1S             2S             3S             4S             5S \n",
  chars! "  BASIS/ORB.ENERGY     -616.7493508    -85.8109444    -14.7589165     -2.1688776     -0.1961428\n",
  chars! "              CUSP        1.0003497      1.0001451      1.0004379      1.0005490      1.0008333\n",
  chars! "  1S       65.677600     -0.0188791      0.0453698     -0.0193666      0.0070679     -0.0018682\n",
  chars! "  3S       48.695568      0.0248794     -0.0479545      0.0209557     -0.0077182      0.0020667\n",
  chars! "  1S       40.299003      0.9788154     -0.3922181      0.1630000     -0.0598562      0.0158731\n",
  chars! "  4S       28.271256     -0.0273292      0.1072635     -0.0370227      0.0116053     -0.0027249\n",
  chars! "  3S       17.344941     -0.0299991      0.2467641     -0.3653089      0.1661307     -0.0467830\n",
  chars! "  2S       17.267598      0.0747949      0.7115893     -0.3870696      0.1528031     -0.0416298\n",
  chars! "  4S        9.716539     -0.0037693     -0.0382805      0.2406295     -0.0893118      0.0201208\n",
  chars! "  4S        7.333781     -0.0016007     -0.0242245     -0.0298301     -0.1670977      0.0726767\n",
  chars! "  2S        6.106382      0.0081482      0.1010985      1.0419102     -0.5332397      0.1845392\n",
  chars! "  2S        4.377257     -0.0005983     -0.0041977      0.0032733     -0.3651423      0.0391904\n",
  chars! "  2S        2.487865      0.0000820      0.0003139      0.0041410      1.4197921     -0.2630202\n",
  chars! "  2S        1.782123     -0.0000271     -0.0001298     -0.0005236      0.0917744     -0.4392445\n",
  chars! "  2S        0.696713      0.0000033      0.0000160      0.0000687     -0.0004815      1.1174216\n",
  chars! "  3S        0.626327     -0.0000015     -0.0000072     -0.0000299      0.0002070      0.0943850\n",
  chars! "        P                    2P             3P             4P \n",
  chars! "  BASIS/ORB.ENERGY      -78.1644715    -11.8541929     -1.3011877\n",
  chars! "              CUSP        1.0009028      0.9998498      0.9993952\n",
  chars! "  2P       59.900446     -0.0066340     -0.0044378     -0.0017263\n",
  chars! "  3P       49.386205     -0.0134569     -0.0089414     -0.0034703\n",
  chars! "  2P       29.527649      0.3241549      0.1684998      0.0619773\n",
  chars! "  3P       23.603873      0.4042563      0.1977728      0.0705726\n",
  chars! "  3P       17.192929      0.3246994      0.3242036      0.1366654\n",
  chars! "  2P       10.613393      0.0499760     -0.2691898     -0.1630263\n",
  chars! "  3P        7.969468     -0.0002788     -0.7553278     -0.2723236\n",
  chars! "  3P        5.813073      0.0004417     -0.2580804     -0.4426046\n",
  chars! "  3P        1.867462      0.0000805      0.0032600     -0.9067918\n",
  chars! "  2P        1.678620     -0.0001196     -0.0053319      2.1182057\n",
  chars! "  2P        0.626327     -0.0000015      0.0000100      0.0019785\n",
  chars! "        D                    3D             4D \n",
  chars! "  BASIS/ORB.ENERGY       -6.5994805     -0.2498489\n",
  chars! "              CUSP        1.0000295      1.0006818\n",
  chars! "  3D       40.810898      0.0009670     -0.0002091\n",
  chars! "  4D       31.088920      0.0049518     -0.0010717\n",
  chars! "  3D       13.030122      0.1870176     -0.0473405\n",
  chars! "  4D       11.548644      0.0116097     -0.0193085\n",
  chars! "  3D        8.178911      0.5443438     -0.0930002\n",
  chars! "  4D        6.740759      0.2038900     -0.0980748\n",
  chars! "  3D        4.532441      0.1435513      0.0071179\n",
  chars! "  3D        2.474758      0.0039834      0.2950860\n",
  chars! "  3D        1.534569     -0.0008202      0.4826028\n",
  chars! "  3D        0.951074      0.0003846      0.3356767\n",
  chars! "  3D        0.626327     -0.0001036      0.0166744\n",
  chars! " \n"]⟩

theorem neutral_y_ok : neutral_y.ok = true := by decide +kernel

/-- `data/neutral/zr`. -/
noncomputable def neutral_zr : DataFile := ⟨40, .neutral, [
  chars! "      ZIRCONIUM   K(2)L(8)M(18)4S(2)4P(6)5S(2)4D(2), 3F                               \n",
  chars! "   E = -3538.995062775\n",
  chars! "   T =  3538.995058001     V = -7077.990120775     V/T =    -2.000000001\n",
  chars! "  ORBITAL ENERGIES AND EXPANSION COEFFICIENTS\n",
  chars! "        S                    1S             2S             3S             4S             5S \n",
  chars! "  BASIS/ORB.ENERGY     -650.7049844    -91.3776877    -16.0550277     -2.4191936     -0.2072925\n",
  chars! "              CUSP        1.0003331      1.0001304      1.0004262      1.0004960      1.0007722\n",
  chars! "  1S       67.592359     -0.0200934      0.0451571     -0.0193800      0.0072585     -0.0019166\n",
  chars! "  3S       50.153491      0.0255938     -0.0474142      0.0208376     -0.0078637      0.0021032\n",
  chars! "  1S       41.425649      0.9785096     -0.3916837      0.1639511     -0.0618098      0.0163762\n",
  chars! "  4S       29.178763     -0.0282160      0.1080504     -0.0375782      0.0122299     -0.0028827\n",
  chars! "  3S       17.919326     -0.0300996      0.2710428     -0.3774636      0.1755691     -0.0493803\n",
  chars! "  2S       17.912024      0.0766117      0.6865250     -0.3754797      0.1525955     -0.0415791\n",
  chars! "  4S        9.994816     -0.0038354     -0.0379529      0.2634943     -0.1023089      0.0231827\n",
  chars! "  4S        7.642912     -0.0016429     -0.0251887     -0.0546856     -0.1785952      0.0778035\n",
  chars! "  2S        6.238086      0.0086180      0.1054057      1.0569892     -0.5801306      0.2025866\n",
  chars! "  2S        4.544157     -0.0009570     -0.0079323     -0.0150192     -0.3511833      0.0285603\n",
  chars! "  2S        2.661086      0.0001423      0.0008655      0.0058579      1.4278307     -0.2589845\n",
  chars! "  2S        1.940158     -0.0000464     -0.0003133     -0.0008924      0.1234594     -0.4372861\n",
  chars! "  2S        0.730087      0.0000045      0.0000312      0.0000901     -0.0002587      1.0982977\n",
  chars! "  3S        0.643883     -0.0000020     -0.0000140     -0.0000387      0.0001264      0.1000195\n",
  chars! "        P                    2P             3P             4P \n",
  chars! "  BASIS/ORB.ENERGY      -83.4785412    -13.0197673     -1.4875939\n",
  chars! "              CUSP        1.0005325      0.9996900      0.9993684\n",
  chars! "  2P       60.343183     -0.0087377     -0.0057480     -0.0023582\n",
  chars! "  3P       50.196004     -0.0164355     -0.0107973     -0.0044263\n",
  chars! "  2P       30.901959      0.3174449      0.1676956      0.0650633\n",
  chars! "  3P       24.531890      0.3978674      0.1957775      0.0732587\n",
  chars! "  3P       17.884138      0.3281361      0.3259147      0.1459484\n",
  chars! "  2P       11.439539      0.0633748     -0.2362467     -0.1616033\n",
  chars! "  3P        8.353774      0.0003157     -0.7669762     -0.2856684\n",
  chars! "  3P        6.122179      0.0002935     -0.2724428     -0.4814032\n",
  chars! "  3P        2.017179      0.0000553      0.0036571     -0.8960979\n",
  chars! "  2P        1.812481     -0.0000931     -0.0061078      2.1353732\n",
  chars! "  2P        0.643883     -0.0000001      0.0000090      0.0019542\n",
  chars! "        D                    3D             4D \n",
  chars! "  BASIS/ORB.ENERGY       -7.5158398     -0.3367585\n",
  chars! "              CUSP        1.0006313      0.9995394\n",
  chars! "  3D       42.479679      0.0009114     -0.0002287\n",
  chars! "  4D       32.217117      0.0048085     -0.0012234\n",
  chars! "  3D       13.438794      0.1898195     -0.0514088\n",
  chars! "  4D       12.539994      0.0069596     -0.0137274\n",
  chars! "  3D        8.374347      0.5779562     -0.1299196\n",
  chars! "  4D        6.870380      0.1954391     -0.1192217\n",
  chars! "  3D        4.690315      0.1162553      0.0397585\n",
  chars! "  3D        2.537352      0.0030268      0.3846543\n",
  chars! "  3D        1.602841     -0.0006565      0.4816006\n",
  chars! "  3D        1.043033      0.0003234      0.2414336\n",
  chars! "  3D        0.643884     -0.0000648      0.0043192\n",
  chars! " \n"]⟩

theorem neutral_zr_ok : neutral_zr.ok = true := by decide +kernel

/-- `data/neutral/nb`. -/
noncomputable def neutral_nb : DataFile := ⟨41, .neutral, [
  chars! "      NIOBIUM   K(2)L(8)M(18)4S(2)4P(6)5S(1)4D(4), 6D                                 \n",
  chars! "   E = -3753.597725705\n",
  chars! "   T =  3753.597720324     V = -7507.195446029     V/T =    -2.000000001\n",
  chars! "  ORBITAL ENERGIES AND EXPANSION COEFFICIENTS\n",
  chars! "        S                    1S             2S             3S             4S             5S \n",
  chars! "  BASIS/ORB.ENERGY     -685.4440236    -96.9748345    -17.2470696     -2.5374797     -0.2155954\n",
  chars! "              CUSP        1.0003231      1.0001349      1.0004230      1.0004552      1.0006442\n",
  chars! "  1S       69.224980     -0.0207875      0.0455627     -0.0196595      0.0074814     -0.0019209\n",
  chars! "  3S       51.473096      0.0257242     -0.0470486      0.0207850     -0.0079572      0.0020618\n",
  chars! "  1S       42.500584      0.9788028     -0.3925830      0.1654445     -0.0633958      0.0163216\n",
  chars! "  4S       30.023131     -0.0282611      0.1083254     -0.0379852      0.0126932     -0.0030020\n",
  chars! "  3S       18.478494     -0.0300606      0.2805837     -0.3826565      0.1809874     -0.0489758\n",
  chars! "  2S       18.468216      0.0769261      0.6753090     -0.3711814      0.1544191     -0.0406997\n",
  chars! "  4S       10.314928     -0.0038361     -0.0410331      0.2815037     -0.1235122      0.0299072\n",
  chars! "  4S        7.800341     -0.0016970     -0.0268361     -0.0644218     -0.2264745      0.0843253\n",
  chars! "  2S        6.414258      0.0084896      0.1100242      1.0496388     -0.6930958      0.2138689\n",
  chars! "  2S        4.657761     -0.0008054     -0.0068085     -0.0176980     -0.1515771      0.0093458\n",
  chars! "  2S        2.765297      0.0001100      0.0006478      0.0056489      1.4016765     -0.3456983\n",
  chars! "  2S        1.901811     -0.0000300     -0.0002029     -0.0005838      0.1174194     -0.3368801\n",
  chars! "  2S        0.740290      0.0000039      0.0000222      0.0000622     -0.0058731      1.1020828\n",
  chars! "  3S        0.656651     -0.0000017     -0.0000126     -0.0000399     -0.0000076      0.0845055\n",
  chars! "        P                    2P             3P             4P \n",
  chars! "  BASIS/ORB.ENERGY      -88.8231283    -14.0814308     -1.5569950\n",
  chars! "              CUSP        1.0005875      0.9998407      1.0001789\n",
  chars! "  2P       61.188113     -0.0095873     -0.0064429     -0.0028775\n",
  chars! "  3P       51.173261     -0.0172981     -0.0116229     -0.0052050\n",
  chars! "  2P       31.939090      0.3115825      0.1684661      0.0697544\n",
  chars! "  3P       25.360587      0.3837879      0.1909675      0.0749692\n",
  chars! "  3P       18.624521      0.3185574      0.3236150      0.1577560\n",
  chars! "  2P       12.519467      0.0914658     -0.1993589     -0.1638871\n",
  chars! "  3P        8.779237      0.0011490     -0.7640055     -0.2818878\n",
  chars! "  3P        6.486416      0.0001244     -0.3019044     -0.5174511\n",
  chars! "  3P        2.181603      0.0000384      0.0053615     -0.8453690\n",
  chars! "  2P        1.942735     -0.0000804     -0.0089047      2.1048178\n",
  chars! "  2P        0.656651      0.0000002     -0.0000132      0.0019857\n",
  chars! "        D                    3D             4D \n",
  chars! "  BASIS/ORB.ENERGY       -8.3292977     -0.3006474\n",
  chars! "              CUSP        0.9999997      1.0000017\n",
  chars! "  3D       43.214432      0.0009259     -0.0002370\n",
  chars! "  4D       33.016274      0.0046595     -0.0012064\n",
  chars! "  3D       14.004307      0.1845676     -0.0480327\n",
  chars! "  4D       13.637693      0.0117910     -0.0108282\n",
  chars! "  3D        8.606973      0.6092961     -0.1478087\n",
  chars! "  4D        6.975387      0.2100029     -0.1227696\n",
  chars! "  3D        4.590202      0.0698855      0.0663925\n",
  chars! "  3D        2.663261      0.0011129      0.4007115\n",
  chars! "  3D        1.622145      0.0000262      0.4558844\n",
  chars! "  3D        1.012512      0.0000696      0.2598285\n",
  chars! "  3D        0.656651     -0.0000116      0.0058349\n"]⟩

theorem neutral_nb_ok : neutral_nb.ok = true := by decide +kernel

/-- `data/neutral/mo`. -/
noncomputable def neutral_mo : DataFile := ⟨42, .neutral, [
  chars! "      MOLYBDENUM   K(2)L(8)M(18)4S(2)4P(6)5S(1)4D(5), 7S                              \n",
  chars! "   E = -3975.549497368\n",
  chars! "   T =  3975.549499110     V = -7951.098996477     V/T =    -2.000000000\n",
  chars! "  ORBITAL ENERGIES AND EXPANSION COEFFICIENTS\n",
  chars! "        S                    1S             2S             3S             4S             5S \n",
  chars! "  BASIS/ORB.ENERGY     -721.2021977   -102.8506007    -18.5845367     -2.7629140     -0.2227295\n",
  chars! "              CUSP        1.0003125      1.0001306      1.0004244      1.0004356      1.0007711\n",
  chars! "  1S       70.970218     -0.0215607      0.0455870     -0.0197491      0.0076467     -0.0019463\n",
  chars! "  3S       52.859118      0.0259515     -0.0464268      0.0206067     -0.0080211      0.0020747\n",
  chars! "  1S       43.594250      0.9787856     -0.3926623      0.1665049     -0.0649656      0.0166004\n",
  chars! "  4S       30.932320     -0.0285316      0.1078837     -0.0378021      0.0128633     -0.0028652\n",
  chars! "  3S       19.096160     -0.0308321      0.2926818     -0.3864484      0.1859491     -0.0506314\n",
  chars! "  2S       19.034201      0.0784890      0.6598986     -0.3646561      0.1546092     -0.0407134\n",
  chars! "  4S       10.703418     -0.0037055     -0.0427041      0.3122055     -0.1343980      0.0305835\n",
  chars! "  4S        8.196596     -0.0014479     -0.0252897     -0.0286266     -0.2460812      0.0933510\n",
  chars! "  2S        6.754842      0.0085161      0.1181144      0.9712118     -0.6113319      0.2025343\n",
  chars! "  2S        5.299063     -0.0011190     -0.0113283     -0.0014743     -0.2268674      0.0205952\n",
  chars! "  2S        2.917595      0.0000728      0.0005304      0.0042619      1.3814335     -0.3400054\n",
  chars! "  2S        2.061635     -0.0000201     -0.0001898     -0.0000973      0.1491612     -0.3285032\n",
  chars! "  2S        0.766969      0.0000019      0.0000139      0.0000020     -0.0057063      1.0755090\n",
  chars! "  3S        0.667426     -0.0000008     -0.0000101     -0.0000090     -0.0002989      0.0968801\n",
  chars! "        P                    2P             3P             4P \n",
  chars! "  BASIS/ORB.ENERGY      -94.4440911    -15.2865653     -1.7236325\n",
  chars! "              CUSP        1.0001760      0.9997048      1.0003013\n",
  chars! "  2P       67.532635     -0.0063586     -0.0042897     -0.0020197\n",
  chars! "  3P       55.500761     -0.0129245     -0.0087687     -0.0041490\n",
  chars! "  2P       33.311169      0.2871732      0.1502529      0.0639549\n",
  chars! "  3P       26.716574      0.3570015      0.1695017      0.0674084\n",
  chars! "  3P       19.618106      0.3400397      0.3047416      0.1527488\n",
  chars! "  2P       13.014445      0.1139194     -0.1282251     -0.1384363\n",
  chars! "  3P        9.180252     -0.0001065     -0.7567888     -0.2776544\n",
  chars! "  3P        6.831291      0.0005742     -0.3264058     -0.5533700\n",
  chars! "  3P        2.310849      0.0001843      0.0069826     -0.8546911\n",
  chars! "  2P        2.054575     -0.0002866     -0.0114316      2.1284585\n",
  chars! "  2P        0.667426     -0.0000029     -0.0000264      0.0017645\n",
  chars! "        D                    3D             4D \n",
  chars! "  BASIS/ORB.ENERGY       -9.2842255     -0.3579177\n",
  chars! "              CUSP        1.0003051      1.0007086\n",
  chars! "  3D       44.896919      0.0008596     -0.0002537\n",
  chars! "  4D       34.167168      0.0044399     -0.0013349\n",
  chars! "  3D       16.927667      0.0047783      0.0051453\n",
  chars! "  3D       14.083737      0.1969213     -0.0649623\n",
  chars! "  3D        8.794719      0.6297033     -0.1740255\n",
  chars! "  4D        7.132066      0.1950172     -0.1314272\n",
  chars! "  3D        4.695625      0.0548687      0.0936650\n",
  chars! "  3D        2.791184      0.0004897      0.4339458\n",
  chars! "  3D        1.721238      0.0001432      0.4488221\n",
  chars! "  3D        1.089989     -0.0000627      0.2219144\n",
  chars! "  3D        0.667426      0.0000124      0.0029497\n",
  chars! " \n"]⟩

theorem neutral_mo_ok : neutral_mo.ok = true := by decide +kernel

/-- `data/neutral/tc`. -/
noncomputable def neutral_tc : DataFile := ⟨43, .neutral, [
  chars! "      TECHNETIUM   K(2)L(8)M(18)4S(2)4P(6)5S(2)4D(5), 6S                              \n",
  chars! "   E = -4204.788734656\n",
  chars! "   T =  4204.788744213     V = -8409.577478869     V/T =    -1.999999998\n",
  chars! "  ORBITAL ENERGIES AND EXPANSION COEFFICIENTS\n",
  chars! "        S                    1S             2S             3S             4S             5S \n",
  chars! "  BASIS/ORB.ENERGY     -758.0430471   -109.0697862    -20.1318348     -3.1521904     -0.2312740\n",
  chars! "              CUSP        1.0002651      0.9999222      1.0003056      1.0004812      1.0008693\n",
  chars! "  1S       74.164305     -0.0219095      0.0415437     -0.0179065      0.0070424     -0.0017797\n",
  chars! "  3S       54.792743      0.0269516     -0.0445812      0.0198090     -0.0079018      0.0020377\n",
  chars! "  1S       44.805211      0.9754829     -0.3853652      0.1639985     -0.0652693      0.0166127\n",
  chars! "  4S       32.289572     -0.0300293      0.1009901     -0.0329439      0.0103547     -0.0020786\n",
  chars! "  3S       20.180572     -0.0320959      0.3592739     -0.3972245      0.1936762     -0.0534145\n",
  chars! "  2S       20.132338      0.0839449      0.5749670     -0.3158886      0.1347856     -0.0360144\n",
  chars! "  4S       11.529383     -0.0035569     -0.0582885      0.3800262     -0.1391842      0.0301671\n",
  chars! "  4S        8.882526     -0.0007969     -0.0219463      0.1675627     -0.2709719      0.1101126\n",
  chars! "  2S        7.851249      0.0074374      0.1449735      0.5712894     -0.1630909      0.0945927\n",
  chars! "  2S        5.980539     -0.0004738     -0.0036422      0.1294286     -0.6793490      0.1191161\n",
  chars! "  2S        3.063907      0.0000254      0.0000299      0.0043304      1.4442081     -0.3332448\n",
  chars! "  2S        2.193010     -0.0000069     -0.0000443     -0.0002813      0.1216703     -0.3433390\n",
  chars! "  2S        0.862897      0.0000008      0.0000065      0.0000825     -0.0008762      0.6036055\n",
  chars! "  2S        0.680109     -0.0000004     -0.0000038     -0.0000480      0.0004937      0.5643350\n",
  chars! "        P                    2P             3P             4P \n",
  chars! "  BASIS/ORB.ENERGY     -100.4060911    -16.6995775     -2.0412188\n",
  chars! "              CUSP        1.0006904      1.0003689      1.0009293\n",
  chars! "  2P       66.630255     -0.0074757     -0.0052891     -0.0027077\n",
  chars! "  3P       55.413772     -0.0140336     -0.0099752     -0.0051234\n",
  chars! "  2P       34.081682      0.2820514      0.1530758      0.0709520\n",
  chars! "  3P       27.355959      0.3351059      0.1606575      0.0689970\n",
  chars! "  3P       20.428471      0.2995358      0.2919110      0.1620222\n",
  chars! "  2P       14.321864      0.1766295     -0.0898887     -0.1394585\n",
  chars! "  3P        9.543653      0.0015497     -0.7672772     -0.2985973\n",
  chars! "  3P        7.107659      0.0001183     -0.3328028     -0.5791179\n",
  chars! "  3P        2.425902      0.0001046      0.0066631     -0.8629667\n",
  chars! "  2P        2.175861     -0.0001818     -0.0111822      2.1558945\n",
  chars! "  2P        0.680109     -0.0000009     -0.0000173      0.0016813\n",
  chars! "        D                    3D             4D \n",
  chars! "  BASIS/ORB.ENERGY      -10.4446387     -0.5439526\n",
  chars! "              CUSP        0.9991622      1.0001617\n",
  chars! "  3D       47.460462      0.0007022     -0.0002580\n",
  chars! "  4D       35.858566      0.0038386     -0.0014443\n",
  chars! "  3D       19.502703      0.0033116      0.0030540\n",
  chars! "  3D       14.581944      0.1955376     -0.0681994\n",
  chars! "  3D        9.140374      0.6302851     -0.1990100\n",
  chars! "  4D        7.498466      0.1826545     -0.1444734\n",
  chars! "  3D        5.110192      0.0660937      0.0882628\n",
  chars! "  3D        3.054737      0.0009246      0.4470187\n",
  chars! "  3D        1.987935      0.0001187      0.4725979\n",
  chars! "  3D        1.308653     -0.0000382      0.1798436\n",
  chars! "  3D        0.680109      0.0000065      0.0010160\n",
  chars! " \n"]⟩

theorem neutral_tc_ok : neutral_tc.ok = true := by decide +kernel

/-- Part 2 of the files. -/
noncomputable def part2 : List DataFile := [
  neutral_cu, neutral_zn, neutral_ga, neutral_ge, neutral_as, neutral_se, neutral_br, neutral_kr, neutral_rb, neutral_sr, neutral_y, neutral_zr, neutral_nb, neutral_mo, neutral_tc]

theorem part2_ok : ∀ d ∈ part2, d.ok = true := by
  intro d hd
  unfold part2 at hd
  simp only [List.mem_cons, List.not_mem_nil, or_false] at hd
  rcases hd with rfl | rfl | rfl | rfl | rfl | rfl | rfl | rfl | rfl | rfl | rfl | rfl | rfl | rfl | rfl
  · exact neutral_cu_ok
  · exact neutral_zn_ok
  · exact neutral_ga_ok
  · exact neutral_ge_ok
  · exact neutral_as_ok
  · exact neutral_se_ok
  · exact neutral_br_ok
  · exact neutral_kr_ok
  · exact neutral_rb_ok
  · exact neutral_sr_ok
  · exact neutral_y_ok
  · exact neutral_zr_ok
  · exact neutral_nb_ok
  · exact neutral_mo_ok
  · exact neutral_tc_ok

end BFit.Data
