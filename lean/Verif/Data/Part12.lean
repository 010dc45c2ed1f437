import Verif.Lemmas.DataNum

/-! Copy of files in /repo/bfit/data/data.tar, generated by tools/gendata.py. -/

namespace BFit.Data

/-- `data/cation/v`. -/
noncomputable def cation_v : DataFile := ⟨23, .cation, [
  chars! "      VANADIUM+   K(2)L(8)3S(2)3P(6)4S(0)3D(4), 5D                                    \n",
  chars! "\n",
  chars! "\n",
  chars! "\n",
  chars! "\n",
  chars! "   E =  -942.670783347\n",
  chars! "   T =   942.670783660     V = -1885.341567007     V/T =    -2.000000000\n",
  chars! "\n",
  chars! "  ORBITAL ENERGIES AND EXPANSION COEFFICIENTS\n",
  chars! "        S                    1S             2S             3S \n",
  chars! "  BASIS/ORB.ENERGY     -201.5777179    -23.9189623     -3.2444599\n",
  chars! "              CUSP        1.0000281      0.9999378      1.0002993\n",
  chars! "  2S       61.913739      0.0005695     -0.0001650      0.0000027\n",
  chars! "  4S       33.257642     -0.0068804     -0.0001257      0.0011416\n",
  chars! "  1S       29.218779      0.6843775     -0.3433807      0.1266037\n",
  chars! "  2S       25.396152      0.3303080     -0.2134003      0.0828371\n",
  chars! "  2S       19.166060      0.0466678     -0.2540462      0.0915173\n",
  chars! "  3S       11.604185      0.0015275      0.3954915     -0.1413273\n",
  chars! "  1S        9.324325     -0.0024708      0.7753106     -0.2984144\n",
  chars! "  3S        8.763737     -0.0002154      0.2743448     -0.2858991\n",
  chars! "  3S        5.579454     -0.0000188      0.0092108      0.3189353\n",
  chars! "  3S        3.914557     -0.0000356      0.0007623      0.6438019\n",
  chars! "  3S        2.854948      0.0000022      0.0004552      0.2557449\n",
  chars! "  2S        1.080967     -0.0000004     -0.0000003      0.0007283\n",
  chars! "        P                    2P             3P \n",
  chars! "  BASIS/ORB.ENERGY      -20.0727180     -2.1010571\n",
  chars! "              CUSP        1.0006611      0.9993630\n",
  chars! "  3P       41.659118      0.0005444     -0.0002166\n",
  chars! "  3P       33.163417     -0.0021447      0.0005476\n",
  chars! "  4P       25.266125     -0.0009795     -0.0011096\n",
  chars! "  2P       14.217441      0.4196007     -0.1723165\n",
  chars! "  3P       11.307604      0.5239693     -0.2966805\n",
  chars! "  4P        9.281456      0.1298068     -0.1777800\n",
  chars! "  2P        4.869342      0.0234317      0.3206809\n",
  chars! "  3P        3.729061     -0.0010367      0.3885839\n",
  chars! "  2P        2.218956      0.0009180      0.5646447\n",
  chars! "  3P        1.080967     -0.0000061      0.0010931\n",
  chars! "        D                    3D \n",
  chars! "  BASIS/ORB.ENERGY       -0.5842453\n",
  chars! "              CUSP        0.9997454\n",
  chars! "  3D       20.434420      0.0012879\n",
  chars! "  4D       15.682969      0.0057588\n",
  chars! "  3D        7.045584      0.1040543\n",
  chars! "  4D        5.769930      0.1155919\n",
  chars! "  3D        3.201405      0.4366822\n",
  chars! "  4D        2.409510      0.2133536\n",
  chars! "  3D        1.413679      0.2736247\n",
  chars! "  3D        1.080967      0.0479134\n",
  chars! "\n"]⟩

theorem cation_v_ok : cation_v.ok = true := by decide +kernel

/-- `data/cation/cr`. -/
noncomputable def cation_cr : DataFile := ⟨24, .cation, [
  chars! "      CHROMIUM+   K(2)L(8)3S(2)3P(6)4S(0)3D(5), 6S                                    \n",
  chars! "\n",
  chars! "\n",
  chars! "\n",
  chars! "\n",
  chars! "   E = -1043.139393011\n",
  chars! "   T =  1043.139393255     V = -2086.278786266     V/T =    -2.000000000\n",
  chars! "\n",
  chars! "  ORBITAL ENERGIES AND EXPANSION COEFFICIENTS\n",
  chars! "        S                    1S             2S             3S \n",
  chars! "  BASIS/ORB.ENERGY     -220.6544031    -26.4698390     -3.5506150\n",
  chars! "              CUSP        1.0000307      0.9999569      1.0003264\n",
  chars! "  2S       63.642624      0.0006238     -0.0001700     -0.0000104\n",
  chars! "  4S       34.903178     -0.0069634     -0.0002247      0.0013557\n",
  chars! "  1S       30.519477      0.6845380     -0.3660586      0.1339027\n",
  chars! "  2S       26.478029      0.3368015     -0.2370729      0.0920055\n",
  chars! "  2S       19.488185      0.0432390     -0.2957423      0.1004640\n",
  chars! "  3S       12.033340      0.0022752      0.4017948     -0.1571419\n",
  chars! "  1S        9.989731     -0.0059438      0.8608776     -0.3200947\n",
  chars! "  3S        9.138198     -0.0003459      0.2579397     -0.2812644\n",
  chars! "  3S        5.910062      0.0000153      0.0084314      0.3299124\n",
  chars! "  3S        4.127722     -0.0000489      0.0011197      0.6466228\n",
  chars! "  3S        2.997876      0.0000064      0.0003768      0.2503798\n",
  chars! "  2S        1.139500     -0.0000007      0.0000051      0.0007242\n",
  chars! "        P                    2P             3P \n",
  chars! "  BASIS/ORB.ENERGY      -22.4020498     -2.3214965\n",
  chars! "              CUSP        1.0005445      0.9996577\n",
  chars! "  3P       43.775129      0.0005164     -0.0002040\n",
  chars! "  3P       34.909328     -0.0019458      0.0004928\n",
  chars! "  4P       26.686822     -0.0006679     -0.0011245\n",
  chars! "  2P       14.945896      0.4174336     -0.1759278\n",
  chars! "  3P       11.935429      0.5234438     -0.3061616\n",
  chars! "  4P        9.815862      0.1287976     -0.1829794\n",
  chars! "  2P        5.244912      0.0253353      0.3313764\n",
  chars! "  3P        3.976645     -0.0007669      0.3975906\n",
  chars! "  2P        2.344857      0.0009423      0.5594122\n",
  chars! "  3P        1.139500     -0.0000036      0.0011658\n",
  chars! "        D                    3D \n",
  chars! "  BASIS/ORB.ENERGY       -0.6492303\n",
  chars! "              CUSP        0.9997159\n",
  chars! "  3D       21.704945      0.0012835\n",
  chars! "  4D       16.633117      0.0058799\n",
  chars! "  3D        7.338995      0.1186526\n",
  chars! "  4D        6.032009      0.1207461\n",
  chars! "  3D        3.400197      0.4425691\n",
  chars! "  4D        2.572565      0.2107620\n",
  chars! "  3D        1.509219      0.2574073\n",
  chars! "  3D        1.139500      0.0393307\n",
  chars! "\n"]⟩

theorem cation_cr_ok : cation_cr.ok = true := by decide +kernel

/-- `data/cation/mn`. -/
noncomputable def cation_mn : DataFile := ⟨25, .cation, [
  chars! "      MANGANESE+   K(2)L(8)3S(2)3P(6)4S(1)3D(5), 7S                                   \n",
  chars! "\n",
  chars! "\n",
  chars! "\n",
  chars! "\n",
  chars! "   E = -1149.649382169\n",
  chars! "   T =  1149.649382175     V = -2299.298764345     V/T =    -2.000000000\n",
  chars! "\n",
  chars! "  ORBITAL ENERGIES AND EXPANSION COEFFICIENTS\n",
  chars! "        S                    1S             2S             3S             4S \n",
  chars! "  BASIS/ORB.ENERGY     -240.8282476    -29.4013619     -4.1059729     -0.5443642\n",
  chars! "              CUSP        1.0001477      1.0002283      1.0004917      1.0006952\n",
  chars! "  2S       55.426379      0.0018335     -0.0004037     -0.0000380      0.0000195\n",
  chars! "  4S       33.872469     -0.0146756     -0.0000230      0.0019222     -0.0005682\n",
  chars! "  1S       30.579180      0.7238474     -0.4795200      0.1643789     -0.0427564\n",
  chars! "  2S       26.040186      0.3279908     -0.3728588      0.1360824     -0.0357546\n",
  chars! "  2S       16.959344     -0.0002503     -0.6488545      0.1792920     -0.0437066\n",
  chars! "  3S       10.591531     -0.0024215      0.0444345     -0.2122333      0.0634878\n",
  chars! "  1S        8.185599      0.0079989      1.8836813     -0.6070855      0.1520821\n",
  chars! "  3S        5.496562      0.0000186      0.0086000      0.5146860     -0.2050341\n",
  chars! "  3S        3.876864     -0.0001188     -0.0014916      0.6005767     -0.2179228\n",
  chars! "  3S        2.817217      0.0000718      0.0009599      0.0691700     -0.2460118\n",
  chars! "  3S        1.840470     -0.0000285     -0.0003117     -0.0018892     -0.1991513\n",
  chars! "  2S        1.043421      0.0000098      0.0004775      0.0028266      1.4028190\n",
  chars! "        P                    2P             3P \n",
  chars! "  BASIS/ORB.ENERGY      -25.1053281     -2.7705450\n",
  chars! "              CUSP        1.0009132      0.9999968\n",
  chars! "  3P       45.160487      0.0004671     -0.0002825\n",
  chars! "  3P       36.425345     -0.0015859      0.0009352\n",
  chars! "  4P       17.513833      0.0069050      0.0069608\n",
  chars! "  2P       15.333053      0.4403519     -0.1885147\n",
  chars! "  3P       12.171423      0.5234102     -0.3353237\n",
  chars! "  4P        9.925570      0.1084696     -0.1646224\n",
  chars! "  2P        4.884277      0.0121603      0.4647168\n",
  chars! "  3P        3.881362     -0.0004651      0.4223264\n",
  chars! "  2P        2.443865      0.0006119      0.4095522\n",
  chars! "  3P        1.043421     -0.0000042      0.0007356\n",
  chars! "        D                    3D \n",
  chars! "  BASIS/ORB.ENERGY       -0.9332036\n",
  chars! "              CUSP        0.9990343\n",
  chars! "  3D       22.909411      0.0013545\n",
  chars! "  4D       17.574256      0.0062423\n",
  chars! "  3D        7.648261      0.1420855\n",
  chars! "  4D        6.276301      0.1402108\n",
  chars! "  3D        3.533695      0.4865370\n",
  chars! "  4D        2.682042      0.2127448\n",
  chars! "  3D        1.626089      0.1846033\n",
  chars! "  3D        1.043421      0.0009371\n",
  chars! "\n"]⟩

theorem cation_mn_ok : cation_mn.ok = true := by decide +kernel

/-- `data/cation/fe`. -/
noncomputable def cation_fe : DataFile := ⟨26, .cation, [
  chars! "      IRON+   K(2)L(8)3S(2)3P(6)4S(1)3D(6), 6D                                        \n",
  chars! "\n",
  chars! "\n",
  chars! "\n",
  chars! "\n",
  chars! "   E = -1262.213011144\n",
  chars! "   T =  1262.213009361     V = -2524.426020505     V/T =    -2.000000001\n",
  chars! "\n",
  chars! "  ORBITAL ENERGIES AND EXPANSION COEFFICIENTS\n",
  chars! "        S                    1S             2S             3S             4S \n",
  chars! "  BASIS/ORB.ENERGY     -261.6772789    -32.2362827     -4.4687933     -0.5602967\n",
  chars! "              CUSP        1.0001230      1.0002035      1.0004776      1.0005168\n",
  chars! "  2S       58.921604      0.0016020     -0.0002968     -0.0000321      0.0000187\n",
  chars! "  4S       35.749977     -0.0130682     -0.0007217      0.0017648     -0.0005706\n",
  chars! "  1S       32.011180      0.7177788     -0.4819340      0.1713246     -0.0430477\n",
  chars! "  2S       27.362330      0.3321052     -0.3695623      0.1382057     -0.0352188\n",
  chars! "  2S       17.822536      0.0047755     -0.6659565      0.2065023     -0.0483298\n",
  chars! "  3S       10.925436     -0.0011592      0.0516262     -0.2102670      0.0631520\n",
  chars! "  1S        8.619044      0.0040129      1.8901577     -0.6492464      0.1570241\n",
  chars! "  3S        5.934390      0.0000309      0.0096256      0.4600864     -0.1761478\n",
  chars! "  3S        4.217590     -0.0001166     -0.0015131      0.6195035     -0.2063082\n",
  chars! "  3S        3.109311      0.0000647      0.0010640      0.1150377     -0.2131432\n",
  chars! "  3S        2.048759     -0.0000212     -0.0002515     -0.0018243     -0.1884242\n",
  chars! "  2S        1.058581      0.0000056      0.0003372      0.0023805      1.3333228\n",
  chars! "        P                    2P             3P \n",
  chars! "  BASIS/ORB.ENERGY      -27.7154819     -3.0436501\n",
  chars! "              CUSP        1.0006218      1.0000024\n",
  chars! "  3P       47.283708      0.0004594     -0.0002966\n",
  chars! "  3P       38.579601     -0.0014223      0.0009123\n",
  chars! "  4P       18.556459      0.0073434      0.0065632\n",
  chars! "  2P       15.945298      0.4456285     -0.1939462\n",
  chars! "  3P       12.683425      0.5227408     -0.3438206\n",
  chars! "  4P       10.333394      0.1026310     -0.1641472\n",
  chars! "  2P        5.047108      0.0111735      0.5093886\n",
  chars! "  3P        4.022037     -0.0004553      0.4238623\n",
  chars! "  2P        2.539719      0.0006780      0.3741202\n",
  chars! "  3P        1.058581     -0.0000039      0.0007074\n",
  chars! "        D                    3D \n",
  chars! "  BASIS/ORB.ENERGY       -0.9508756\n",
  chars! "              CUSP        0.9998306\n",
  chars! "  3D       24.151149      0.0013116\n",
  chars! "  4D       18.502081      0.0061287\n",
  chars! "  3D        7.967724      0.1549814\n",
  chars! "  4D        6.538034      0.1480021\n",
  chars! "  3D        3.668271      0.4812957\n",
  chars! "  4D        2.790752      0.1926513\n",
  chars! "  3D        1.708843      0.1913089\n",
  chars! "  3D        1.058581      0.0037473\n",
  chars! "\n"]⟩

theorem cation_fe_ok : cation_fe.ok = true := by decide +kernel

/-- `data/cation/co`. -/
noncomputable def cation_co : DataFile := ⟨27, .cation, [
  chars! "      COBALT+   K(2)L(8)3S(2)3P(6)4S(0)3D(8), 3F                                      \n",
  chars! "\n",
  chars! "\n",
  chars! "\n",
  chars! "\n",
  chars! "   E = -1381.128748962\n",
  chars! "   T =  1381.128748178     V = -2762.257497139     V/T =    -2.000000001\n",
  chars! "\n",
  chars! "  ORBITAL ENERGIES AND EXPANSION COEFFICIENTS\n",
  chars! "        S                    1S             2S             3S \n",
  chars! "  BASIS/ORB.ENERGY     -283.1520627    -34.9255046     -4.5978996\n",
  chars! "              CUSP        1.0000415      0.9999843      1.0003156\n",
  chars! "  2S       67.496474      0.0009036     -0.0002453     -0.0000038\n",
  chars! "  4S       39.155732     -0.0083420      0.0001878      0.0011829\n",
  chars! "  1S       34.186190      0.6899407     -0.3989003      0.1451680\n",
  chars! "  2S       29.520403      0.3436444     -0.2727763      0.1053719\n",
  chars! "  2S       21.144832      0.0288215     -0.3529380      0.1126571\n",
  chars! "  3S       13.631425      0.0012758      0.3721613     -0.1713230\n",
  chars! "  1S       11.183718     -0.0038379      1.0090924     -0.3605983\n",
  chars! "  3S       10.403162     -0.0000602      0.2361916     -0.2735667\n",
  chars! "  3S        6.817563     -0.0000705      0.0084847      0.3589734\n",
  chars! "  3S        4.747008     -0.0000050      0.0011514      0.6478970\n",
  chars! "  3S        3.434196     -0.0000058      0.0003798      0.2326551\n",
  chars! "  2S        1.212142      0.0000003      0.0000067      0.0009348\n",
  chars! "        P                    2P             3P \n",
  chars! "  BASIS/ORB.ENERGY      -30.1833764     -3.0996464\n",
  chars! "              CUSP        1.0009531      0.9998975\n",
  chars! "  3P       49.592869      0.0003689     -0.0002460\n",
  chars! "  3P       39.477482     -0.0013412      0.0008744\n",
  chars! "  4P       19.512676      0.0053602      0.0068328\n",
  chars! "  2P       16.673142      0.4426844     -0.1943389\n",
  chars! "  3P       13.333803      0.5234879     -0.3462100\n",
  chars! "  4P       10.878716      0.1047917     -0.1684569\n",
  chars! "  2P        5.415827      0.0124798      0.4961583\n",
  chars! "  3P        4.289946     -0.0003313      0.4076930\n",
  chars! "  2P        2.615652      0.0008585      0.4125209\n",
  chars! "  3P        1.212142      0.0000097      0.0008242\n",
  chars! "        D                    3D \n",
  chars! "  BASIS/ORB.ENERGY       -0.7346443\n",
  chars! "              CUSP        0.9999754\n",
  chars! "  3D       25.360930      0.0012034\n",
  chars! "  4D       19.431865      0.0056485\n",
  chars! "  3D        8.292261      0.1582785\n",
  chars! "  4D        6.786806      0.1458263\n",
  chars! "  3D        3.803809      0.4556616\n",
  chars! "  4D        2.832696      0.1997187\n",
  chars! "  3D        1.640045      0.2139434\n",
  chars! "  3D        1.212142      0.0289090\n",
  chars! "\n"]⟩

theorem cation_co_ok : cation_co.ok = true := by decide +kernel

/-- `data/cation/ni`. -/
noncomputable def cation_ni : DataFile := ⟨28, .cation, [
  chars! "      NICKEL+   K(2)L(8)3S(2)3P(6)4S(0)3D(9), 2D                                      \n",
  chars! "\n",
  chars! "\n",
  chars! "\n",
  chars! "\n",
  chars! "   E = -1506.591098366\n",
  chars! "   T =  1506.591100054     V = -3013.182198420     V/T =    -1.999999999\n",
  chars! "\n",
  chars! "  ORBITAL ENERGIES AND EXPANSION COEFFICIENTS\n",
  chars! "        S                    1S             2S             3S \n",
  chars! "  BASIS/ORB.ENERGY     -305.7032626    -37.9724749     -4.9601164\n",
  chars! "              CUSP        1.0000373      0.9999814      1.0003041\n",
  chars! "  2S       70.729443      0.0008182     -0.0002173     -0.0000318\n",
  chars! "  4S       40.874837     -0.0075894      0.0000112      0.0015597\n",
  chars! "  1S       35.511860      0.6894529     -0.4132680      0.1471125\n",
  chars! "  2S       30.743355      0.3431853     -0.2798549      0.1070675\n",
  chars! "  2S       21.856456      0.0333722     -0.3904624      0.1144908\n",
  chars! "  3S       14.088234      0.0024364      0.3717334     -0.1901565\n",
  chars! "  1S       11.708916     -0.0082845      1.0701416     -0.3632219\n",
  chars! "  3S       10.777461     -0.0002786      0.2251446     -0.2590979\n",
  chars! "  3S        7.085723     -0.0000068      0.0079933      0.3690958\n",
  chars! "  3S        4.926433     -0.0000304      0.0012267      0.6549290\n",
  chars! "  3S        3.540263      0.0000019      0.0003455      0.2164717\n",
  chars! "  2S        1.240388     -0.0000002      0.0000072      0.0006191\n",
  chars! "        P                    2P             3P \n",
  chars! "  BASIS/ORB.ENERGY      -33.0024940     -3.3698941\n",
  chars! "              CUSP        1.0006592      0.9996028\n",
  chars! "  3P       51.337479      0.0003800     -0.0002636\n",
  chars! "  3P       40.743217     -0.0013907      0.0009608\n",
  chars! "  4P       20.807337      0.0020599      0.0076670\n",
  chars! "  2P       17.513613      0.4329772     -0.1898102\n",
  chars! "  3P       14.089201      0.5281689     -0.3392048\n",
  chars! "  4P       11.498336      0.1136502     -0.1642985\n",
  chars! "  2P        5.414607      0.0131123      0.5236154\n",
  chars! "  3P        4.404412     -0.0011108      0.3871782\n",
  chars! "  2P        2.712694      0.0011030      0.3866437\n",
  chars! "  3P        1.240388      0.0000026      0.0008289\n",
  chars! "        D                    3D \n",
  chars! "  BASIS/ORB.ENERGY       -0.7692812\n",
  chars! "              CUSP        1.0005223\n",
  chars! "  3D       26.544851      0.0011811\n",
  chars! "  4D       20.330270      0.0055770\n",
  chars! "  3D        8.617473      0.1698116\n",
  chars! "  4D        7.032645      0.1531816\n",
  chars! "  3D        3.934168      0.4568968\n",
  chars! "  4D        2.920576      0.1967519\n",
  chars! "  3D        1.683692      0.2027129\n",
  chars! "  3D        1.240388      0.0253192\n",
  chars! "\n"]⟩

theorem cation_ni_ok : cation_ni.ok = true := by decide +kernel

/-- `data/cation/cu`. -/
noncomputable def cation_cu : DataFile := ⟨29, .cation, [
  chars! "      COPPER+   K(2)L(8)3S(2)3P(6)4S(0)3D(10), 1S                                     \n",
  chars! "\n",
  chars! "\n",
  chars! "\n",
  chars! "   E = -1638.728241711\n",
  chars! "   T =  1638.728242564     V = -3277.456484275     V/T =    -1.999999999\n",
  chars! "\n",
  chars! "  ORBITAL ENERGIES AND EXPANSION COEFFICIENTS\n",
  chars! "        S                    1S             2S             3S \n",
  chars! "  BASIS/ORB.ENERGY     -329.1080544    -41.1281635     -5.3251796\n",
  chars! "              CUSP        1.0000390      0.9999798      1.0003375\n",
  chars! "  2S       72.576390      0.0008468     -0.0002316     -0.0000355\n",
  chars! "  4S       42.161112     -0.0077985      0.0001291      0.0015642\n",
  chars! "  1S       36.610202      0.6943284     -0.4364068      0.1537632\n",
  chars! "  2S       31.708712      0.3405675     -0.2952454      0.1119098\n",
  chars! "  2S       22.469954      0.0288044     -0.4217387      0.1199788\n",
  chars! "  3S       14.638358      0.0017302      0.3763935     -0.2000861\n",
  chars! "  1S       12.456345     -0.0064270      1.1248907     -0.3734866\n",
  chars! "  3S       11.237667     -0.0001853      0.2298157     -0.2541269\n",
  chars! "  3S        7.315857     -0.0000383      0.0081142      0.3839052\n",
  chars! "  3S        5.096873     -0.0000152      0.0011001      0.6477049\n",
  chars! "  3S        3.664368     -0.0000018      0.0003541      0.2069560\n",
  chars! "  2S        1.272903      0.0000001      0.0000065      0.0006164\n",
  chars! "        P                    2P             3P \n",
  chars! "  BASIS/ORB.ENERGY      -35.9287257     -3.6418773\n",
  chars! "              CUSP        1.0008040      0.9992550\n",
  chars! "  3P       54.142279      0.0003173     -0.0002452\n",
  chars! "  3P       42.542133     -0.0012173      0.0009251\n",
  chars! "  4P       21.883549      0.0024285      0.0074957\n",
  chars! "  2P       18.160695      0.4356965     -0.1924747\n",
  chars! "  3P       14.647103      0.5270238     -0.3419074\n",
  chars! "  4P       11.953711      0.1113997     -0.1616307\n",
  chars! "  2P        5.504517      0.0125458      0.5693056\n",
  chars! "  3P        4.493556     -0.0013115      0.3815658\n",
  chars! "  2P        2.786438      0.0011886      0.3477180\n",
  chars! "  3P        1.272903     -0.0000017      0.0007246\n",
  chars! "        D                    3D \n",
  chars! "  BASIS/ORB.ENERGY       -0.8101413\n",
  chars! "              CUSP        1.0002911\n",
  chars! "  3D       27.700444      0.0011645\n",
  chars! "  4D       21.210460      0.0055366\n",
  chars! "  3D        8.945777      0.1802289\n",
  chars! "  4D        7.285798      0.1591255\n",
  chars! "  3D        4.067033      0.4583858\n",
  chars! "  4D        3.010777      0.1917747\n",
  chars! "  3D        1.741365      0.1924941\n",
  chars! "  3D        1.272903      0.0237763\n",
  chars! "\n"]⟩

theorem cation_cu_ok : cation_cu.ok = true := by decide +kernel

/-- `data/cation/zn`. -/
noncomputable def cation_zn : DataFile := ⟨30, .cation, [
  chars! "      ZINC+   K(2)L(8)3S(2)3P(6)4S(1)3D(10), 2S                                       \n",
  chars! "\n",
  chars! "\n",
  chars! "\n",
  chars! "\n",
  chars! "   E = -1777.567542549\n",
  chars! "   T =  1777.567544767     V = -3555.135087316     V/T =    -1.999999999\n",
  chars! "\n",
  chars! "  ORBITAL ENERGIES AND EXPANSION COEFFICIENTS\n",
  chars! "        S                    1S             2S             3S             4S \n",
  chars! "  BASIS/ORB.ENERGY     -353.6463669    -44.6986987     -5.9765527     -0.6117045\n",
  chars! "              CUSP        1.0000811      0.9999525      1.0000594      1.0007883\n",
  chars! "  2S       56.124784      0.0401607     -0.0124351      0.0027616     -0.0005329\n",
  chars! "  3S       48.111394      0.0535646     -0.0154241      0.0031872     -0.0006583\n",
  chars! "  3S       34.485953      0.1053009     -0.0371941      0.0091482     -0.0016591\n",
  chars! "  1S       33.388168      0.8376894     -0.2586573      0.0975879     -0.0225353\n",
  chars! "  3S       23.342782      0.0075995      0.3422737     -0.1653311      0.0393528\n",
  chars! "  4S       19.224010     -0.0004764      0.3342921     -0.1370100      0.0321109\n",
  chars! "  3S       12.474380      0.0002294      0.4271521     -0.4714750      0.1235116\n",
  chars! "  4S        5.031119      0.0000747     -0.0064731     -0.2009711      0.0386465\n",
  chars! "  2S        3.977448     -0.0001551      0.0153186      1.4344400     -0.4044626\n",
  chars! "  3S        1.663491     -0.0000087      0.0002046      0.0019475      0.5663940\n",
  chars! "  4S        1.107245     -0.0000072      0.0001739      0.0004520     -0.1282232\n",
  chars! "  3S        1.106078      0.0000133     -0.0003214     -0.0009017      0.6238430\n",
  chars! "        P                    2P             3P \n",
  chars! "  BASIS/ORB.ENERGY      -39.2632347     -4.1811775\n",
  chars! "              CUSP        1.0003050      0.9990665\n",
  chars! "  3P       56.718520      0.0003053     -0.0002517\n",
  chars! "  3P       44.589775     -0.0011084      0.0009351\n",
  chars! "  4P       23.080841      0.0025926      0.0075534\n",
  chars! "  2P       18.783225      0.4395912     -0.1973864\n",
  chars! "  3P       15.170932      0.5272539     -0.3500021\n",
  chars! "  4P       12.348433      0.1073302     -0.1608848\n",
  chars! "  2P        5.638567      0.0110555      0.6182304\n",
  chars! "  3P        4.583586     -0.0009628      0.4012290\n",
  chars! "  2P        2.907812      0.0009560      0.2856661\n",
  chars! "  3P        1.106078     -0.0000058      0.0005108\n",
  chars! "        D                    3D \n",
  chars! "  BASIS/ORB.ENERGY       -1.1247225\n",
  chars! "              CUSP        0.9994315\n",
  chars! "  3D       28.846191      0.0011930\n",
  chars! "  4D       22.109077      0.0056798\n",
  chars! "  3D        9.273020      0.1987342\n",
  chars! "  4D        7.528954      0.1730295\n",
  chars! "  3D        4.190940      0.4799928\n",
  chars! "  4D        3.116856      0.1915054\n",
  chars! "  3D        1.852033      0.1394555\n",
  chars! "  3D        1.106078      0.0005976\n",
  chars! "\n"]⟩

theorem cation_zn_ok : cation_zn.ok = true := by decide +kernel

/-- `data/cation/ga`. -/
noncomputable def cation_ga : DataFile := ⟨31, .cation, [
  chars! "      GALLIUM+   K(2)L(8)3S(2)3P(6)4S(2)3D(10), 1S                                    \n",
  chars! "\n",
  chars! "\n",
  chars! "\n",
  chars! "   E = -1923.059720564\n",
  chars! "   T =  1923.059717924     V = -3846.119438488     V/T =    -2.000000001\n",
  chars! "\n",
  chars! "  ORBITAL ENERGIES AND EXPANSION COEFFICIENTS\n",
  chars! "        S                    1S             2S             3S             4S \n",
  chars! "  BASIS/ORB.ENERGY     -379.1224398    -48.4706571     -6.6972221     -0.6880713\n",
  chars! "              CUSP        1.0000925      1.0001286      1.0000982      1.0005723\n",
  chars! "  2S       58.129217      0.0361110     -0.0111878      0.0042686     -0.0011289\n",
  chars! "  3S       49.800588      0.0483131     -0.0141601      0.0052733     -0.0014544\n",
  chars! "  3S       35.678566      0.0974941     -0.0328174      0.0137263     -0.0034416\n",
  chars! "  1S       34.165363      0.8504654     -0.2635809      0.1005355     -0.0249656\n",
  chars! "  3S       25.196439      0.0088048      0.1509324     -0.0673400      0.0158204\n",
  chars! "  4S       15.433431      0.0007574     -0.6084540      0.2053214     -0.0496686\n",
  chars! "  3S       13.795817     -0.0009580      1.4978661     -0.7155045      0.1795366\n",
  chars! "  3S        7.160881     -0.0000809      0.0117727      0.5315133     -0.1798279\n",
  chars! "  3S        5.016460      0.0000167     -0.0014358      0.6138889     -0.2078280\n",
  chars! "  3S        3.508628     -0.0000091      0.0006739      0.0490963     -0.1981349\n",
  chars! "  2S        1.226425      0.0000026     -0.0001311     -0.0013110      1.1426637\n",
  chars! "  3S        1.173091     -0.0000013      0.0000649      0.0005851      0.0353537\n",
  chars! "        P                    2P             3P \n",
  chars! "  BASIS/ORB.ENERGY      -42.7958359     -4.7834381\n",
  chars! "              CUSP        1.0000004      0.9999970\n",
  chars! "  3P       58.092383      0.0003180     -0.0002384\n",
  chars! "  3P       45.925977     -0.0011125      0.0009019\n",
  chars! "  4P       24.082133      0.0018940      0.0070895\n",
  chars! "  2P       19.494780      0.4380129     -0.2002867\n",
  chars! "  3P       15.815270      0.5255413     -0.3531502\n",
  chars! "  4P       12.915989      0.1095861     -0.1649863\n",
  chars! "  2P        5.949298      0.0125567      0.6228785\n",
  chars! "  3P        4.802193     -0.0011714      0.4563620\n",
  chars! "  2P        3.013120      0.0009135      0.2332295\n",
  chars! "  3P        1.173091     -0.0000166      0.0004673\n",
  chars! "        D                    3D \n",
  chars! "  BASIS/ORB.ENERGY       -1.4950928\n",
  chars! "              CUSP        1.0000564\n",
  chars! "  3D       30.050487      0.0012110\n",
  chars! "  4D       23.020612      0.0058046\n",
  chars! "  3D        9.585062      0.2166264\n",
  chars! "  4D        7.768024      0.1810669\n",
  chars! "  3D        4.351325      0.4945447\n",
  chars! "  4D        3.272083      0.1750008\n",
  chars! "  3D        2.044860      0.0978471\n",
  chars! "  3D        1.173091      0.0003371\n",
  chars! "\n"]⟩

theorem cation_ga_ok : cation_ga.ok = true := by decide +kernel

/-- `data/cation/ge`. -/
noncomputable def cation_ge : DataFile := ⟨32, .cation, [
  chars! "      GERMANIUM+   K(2)L(8)M(18)4S(2)4P(1), 2P                                        \n",
  chars! "\n",
  chars! "\n",
  chars! "\n",
  chars! "\n",
  chars! "   E = -2075.086490667\n",
  chars! "   T =  2075.086490249     V = -4150.172980916     V/T =    -2.000000000\n",
  chars! "\n",
  chars! "  ORBITAL ENERGIES AND EXPANSION COEFFICIENTS\n",
  chars! "        S                    1S             2S             3S             4S \n",
  chars! "  BASIS/ORB.ENERGY     -405.5835199    -52.4872334     -7.5274863     -0.8440512\n",
  chars! "              CUSP        1.0000845      1.0001045      1.0000524      1.0003790\n",
  chars! "  2S       60.410419      0.0338728     -0.0105318      0.0040614     -0.0011861\n",
  chars! "  3S       51.716755      0.0455735     -0.0133716      0.0050184     -0.0015145\n",
  chars! "  3S       36.938642      0.0946232     -0.0323635      0.0137474     -0.0038561\n",
  chars! "  1S       35.115585      0.8563626     -0.2663158      0.1026459     -0.0277350\n",
  chars! "  3S       26.208278      0.0094009      0.1448229     -0.0655693      0.0168392\n",
  chars! "  4S       16.069421      0.0010277     -0.6057028      0.2054160     -0.0530246\n",
  chars! "  3S       14.353675     -0.0013253      1.5006896     -0.7238517      0.1965087\n",
  chars! "  3S        7.503796     -0.0000882      0.0129623      0.4950984     -0.1915558\n",
  chars! "  3S        5.367691      0.0000251     -0.0020415      0.6280730     -0.2022455\n",
  chars! "  3S        3.949425     -0.0000122      0.0008293      0.0704931     -0.2592230\n",
  chars! "  2S        1.367639      0.0000020     -0.0000819     -0.0001046      1.1974781\n",
  chars! "  3S        1.062566     -0.0000007      0.0000257      0.0000935      0.0105930\n",
  chars! "        P                    2P             3P             4P \n",
  chars! "  BASIS/ORB.ENERGY      -46.5726601     -5.4964902     -0.5645231\n",
  chars! "              CUSP        1.0009700      0.9993110      1.0000233\n",
  chars! "  2P       48.105192     -0.0071455      0.0044105     -0.0010881\n",
  chars! "  3P       39.206452     -0.0159527      0.0096813     -0.0023969\n",
  chars! "  2P       23.258904      0.3504787     -0.1646899      0.0383415\n",
  chars! "  3P       18.357385      0.4317270     -0.1920360      0.0433376\n",
  chars! "  3P       13.225281      0.3045145     -0.2930492      0.0749122\n",
  chars! "  2P        6.763236      0.0253140      0.4248728     -0.1285215\n",
  chars! "  3P        5.752439     -0.0031426      0.6474510     -0.1896157\n",
  chars! "  4P        4.709079      0.0011554      0.1938902     -0.0992463\n",
  chars! "  3P        2.903905     -0.0002723      0.0226990     -0.1374114\n",
  chars! "  3P        1.082624     -0.0000506     -0.0000404     -0.0608055\n",
  chars! "  2P        1.062566      0.0000895      0.0005565      1.2118664\n",
  chars! "        D                    3D \n",
  chars! "  BASIS/ORB.ENERGY       -1.9703823\n",
  chars! "              CUSP        1.0000259\n",
  chars! "  3D       31.101705      0.0012432\n",
  chars! "  4D       23.869970      0.0059034\n",
  chars! "  3D        9.908675      0.2335686\n",
  chars! "  4D        8.007041      0.1913422\n",
  chars! "  3D        4.489476      0.5112354\n",
  chars! "  4D        3.394937      0.1607867\n",
  chars! "  3D        2.150520      0.0537465\n",
  chars! "  3D        1.062566      0.0000082\n",
  chars! "\n"]⟩

theorem cation_ge_ok : cation_ge.ok = true := by decide +kernel

/-- `data/cation/as`. -/
noncomputable def cation_as : DataFile := ⟨33, .cation, [
  chars! "      ARSENIC+   K(2)L(8)M(18)4S(2)4P(2), 3P                                          \n",
  chars! "\n",
  chars! "\n",
  chars! "\n",
  chars! "\n",
  chars! "   E = -2233.888333415\n",
  chars! "   T =  2233.888335161     V = -4467.776668575     V/T =    -1.999999999\n",
  chars! "\n",
  chars! "  ORBITAL ENERGIES AND EXPANSION COEFFICIENTS\n",
  chars! "        S                    1S             2S             3S             4S \n",
  chars! "  BASIS/ORB.ENERGY     -432.9592940    -56.6803612     -8.3989584     -1.0031201\n",
  chars! "              CUSP        1.0000760      1.0000900      1.0000210      1.0001840\n",
  chars! "  2S       62.722113      0.0318769     -0.0099435      0.0038758     -0.0012238\n",
  chars! "  3S       53.655034      0.0431382     -0.0126878      0.0048014     -0.0015489\n",
  chars! "  3S       38.205753      0.0919660     -0.0317799      0.0137016     -0.0042192\n",
  chars! "  1S       36.073902      0.8616716     -0.2688267      0.1047067     -0.0301507\n",
  chars! "  3S       27.199543      0.0099717      0.1393847     -0.0640536      0.0176691\n",
  chars! "  4S       16.710509      0.0013077     -0.6002070      0.2042364     -0.0549256\n",
  chars! "  3S       14.917489     -0.0017082      1.4998868     -0.7305630      0.2101857\n",
  chars! "  3S        7.870504     -0.0000966      0.0145794      0.4465399     -0.1958674\n",
  chars! "  3S        5.770042      0.0000352     -0.0029312      0.6404036     -0.1834757\n",
  chars! "  3S        4.382332     -0.0000165      0.0010880      0.1061444     -0.3277488\n",
  chars! "  2S        1.510080      0.0000025     -0.0000968      0.0005392      1.2201109\n",
  chars! "  3S        1.160525     -0.0000007      0.0000267     -0.0000095      0.0142554\n",
  chars! "        P                    2P             3P             4P \n",
  chars! "  BASIS/ORB.ENERGY      -50.5239072     -6.2483370     -0.6734093\n",
  chars! "              CUSP        1.0009361      0.9998070      1.0003663\n",
  chars! "  2P       50.112148     -0.0062944      0.0041245     -0.0011339\n",
  chars! "  3P       40.770702     -0.0142165      0.0091847     -0.0025319\n",
  chars! "  2P       24.029652      0.3461308     -0.1654166      0.0425792\n",
  chars! "  3P       19.126299      0.4181209     -0.1857325      0.0461048\n",
  chars! "  3P       13.878221      0.3116139     -0.2975515      0.0845920\n",
  chars! "  2P        7.349770      0.0336384      0.3726489     -0.1294308\n",
  chars! "  3P        6.171504     -0.0046123      0.6721012     -0.2124741\n",
  chars! "  4P        5.149749      0.0018872      0.1998072     -0.0962099\n",
  chars! "  3P        3.373262     -0.0006076      0.0413126     -0.1760212\n",
  chars! "  3P        1.219263     -0.0001012      0.0002096     -0.1942612\n",
  chars! "  2P        1.160525      0.0001653      0.0003082      1.3575238\n",
  chars! "        D                    3D \n",
  chars! "  BASIS/ORB.ENERGY       -2.4809459\n",
  chars! "              CUSP        1.0000030\n",
  chars! "  3D       32.338729      0.0012433\n",
  chars! "  4D       24.790487      0.0059792\n",
  chars! "  3D       10.232415      0.2488856\n",
  chars! "  4D        8.255651      0.1965482\n",
  chars! "  3D        4.658280      0.5260243\n",
  chars! "  4D        3.508330      0.1448670\n",
  chars! "  3D        2.126255      0.0226817\n",
  chars! "  3D        1.160525     -0.0001195\n",
  chars! "\n"]⟩

theorem cation_as_ok : cation_as.ok = true := by decide +kernel

/-- `data/cation/se`. -/
noncomputable def cation_se : DataFile := ⟨34, .cation, [
  chars! "      SELENIUM+   K(2)L(8)M(18)4S(2)4P(3), 4S                                         \n",
  chars! "\n",
  chars! "\n",
  chars! "\n",
  chars! "\n",
  chars! "   E = -2399.558572799\n",
  chars! "   T =  2399.558572004     V = -4799.117144803     V/T =    -2.000000000\n",
  chars! "\n",
  chars! "  ORBITAL ENERGIES AND EXPANSION COEFFICIENTS\n",
  chars! "        S                    1S             2S             3S             4S \n",
  chars! "  BASIS/ORB.ENERGY     -461.2494022    -61.0488113     -9.3108839     -1.1669789\n",
  chars! "              CUSP        1.0000615      1.0000644      1.0000039      1.0000332\n",
  chars! "  2S       65.377692      0.0294886     -0.0092274      0.0036336     -0.0012246\n",
  chars! "  3S       55.847293      0.0403444     -0.0119081      0.0045574     -0.0015533\n",
  chars! "  3S       39.559848      0.0894335     -0.0309538      0.0134410     -0.0044756\n",
  chars! "  1S       37.014548      0.8673363     -0.2714113      0.1068069     -0.0323426\n",
  chars! "  3S       28.120190      0.0109127      0.1359108     -0.0630390      0.0184134\n",
  chars! "  4S       17.319873      0.0019235     -0.5958107      0.2046381     -0.0566440\n",
  chars! "  3S       15.459741     -0.0025526      1.4979871     -0.7385055      0.2224561\n",
  chars! "  3S        8.280939     -0.0001148      0.0157863      0.3832245     -0.1915327\n",
  chars! "  3S        6.220585      0.0000556     -0.0033847      0.6571684     -0.1642356\n",
  chars! "  3S        4.790636     -0.0000245      0.0011473      0.1528048     -0.3969999\n",
  chars! "  2S        1.645411      0.0000036     -0.0001014      0.0012177      1.2400194\n",
  chars! "  3S        1.254113     -0.0000010      0.0000239     -0.0001026      0.0165309\n",
  chars! "        P                    2P             3P             4P \n",
  chars! "  BASIS/ORB.ENERGY      -54.6484785     -7.0388018     -0.7863995\n",
  chars! "              CUSP        1.0009920      0.9994884      1.0002007\n",
  chars! "  2P       51.128102     -0.0066788      0.0043265     -0.0012880\n",
  chars! "  3P       41.788098     -0.0146156      0.0093117     -0.0027829\n",
  chars! "  2P       24.775858      0.3490263     -0.1699996      0.0472054\n",
  chars! "  3P       19.694914      0.4255058     -0.1959305      0.0524476\n",
  chars! "  3P       14.273209      0.3045709     -0.3048252      0.0943158\n",
  chars! "  2P        7.647620      0.0296043      0.3968056     -0.1508313\n",
  chars! "  3P        6.289116     -0.0030929      0.7050527     -0.2437728\n",
  chars! "  4P        5.258312      0.0015606      0.1563336     -0.1027898\n",
  chars! "  3P        3.668718     -0.0006254      0.0361537     -0.1741987\n",
  chars! "  3P        1.334716     -0.0000733     -0.0007234     -0.3120666\n",
  chars! "  2P        1.254113      0.0001187      0.0015739      1.4884451\n",
  chars! "        D                    3D \n",
  chars! "  BASIS/ORB.ENERGY       -3.0274234\n",
  chars! "              CUSP        0.9999859\n",
  chars! "  3D       33.211161      0.0012980\n",
  chars! "  4D       25.555288      0.0060971\n",
  chars! "  3D       10.535250      0.2649436\n",
  chars! "  4D        8.471194      0.2015003\n",
  chars! "  3D        4.847360      0.5280554\n",
  chars! "  4D        3.668504      0.1202120\n",
  chars! "  3D        2.235460      0.0137631\n",
  chars! "  3D        1.254113      0.0001282\n",
  chars! "\n"]⟩

theorem cation_se_ok : cation_se.ok = true := by decide +kernel

/-- `data/cation/br`. -/
noncomputable def cation_br : DataFile := ⟨35, .cation, [
  chars! "      BROMINE+   K(2)L(8)M(18)4S(2)4P(4), 3P                                          \n",
  chars! "\n",
  chars! "\n",
  chars! "\n",
  chars! "\n",
  chars! "   E = -2572.045209144\n",
  chars! "   T =  2572.045208992     V = -5144.090418136     V/T =    -2.000000000\n",
  chars! "\n",
  chars! "  ORBITAL ENERGIES AND EXPANSION COEFFICIENTS\n",
  chars! "        S                    1S             2S             3S             4S \n",
  chars! "  BASIS/ORB.ENERGY     -490.4737573    -65.6108392    -10.2807912     -1.3467104\n",
  chars! "              CUSP        1.0000635      1.0000564      1.0000146      0.9998299\n",
  chars! "  2S       67.294844      0.0284514     -0.0089293      0.0035506     -0.0012681\n",
  chars! "  3S       57.492762      0.0388811     -0.0114683      0.0044332     -0.0015722\n",
  chars! "  3S       40.727731      0.0865955     -0.0306397      0.0134741     -0.0048615\n",
  chars! "  1S       37.992484      0.8714492     -0.2734770      0.1086981     -0.0343696\n",
  chars! "  3S       29.205536      0.0109695      0.1295447     -0.0608860      0.0189184\n",
  chars! "  4S       17.993320      0.0017623     -0.5897437      0.2036528     -0.0567483\n",
  chars! "  3S       16.047646     -0.0023266      1.4975680     -0.7445358      0.2325419\n",
  chars! "  3S        8.689741     -0.0001175      0.0181583      0.3091277     -0.1866279\n",
  chars! "  3S        6.726462      0.0000556     -0.0045596      0.6642492     -0.1282985\n",
  chars! "  3S        5.212538     -0.0000222      0.0013261      0.2179823     -0.4781425\n",
  chars! "  2S        1.777871      0.0000033     -0.0001139      0.0019710      1.2594980\n",
  chars! "  3S        1.294513     -0.0000008      0.0000221     -0.0001773      0.0167008\n",
  chars! "        P                    2P             3P             4P \n",
  chars! "  BASIS/ORB.ENERGY      -58.9647815     -7.8855309     -0.8378819\n",
  chars! "              CUSP        1.0009635      0.9994025      0.9991792\n",
  chars! "  2P       53.152376     -0.0070112     -0.0045240     -0.0013741\n",
  chars! "  3P       43.442647     -0.0152546     -0.0097033     -0.0029436\n",
  chars! "  2P       25.742380      0.3456798      0.1732765      0.0505046\n",
  chars! "  3P       20.365726      0.4334995      0.2079504      0.0594017\n",
  chars! "  3P       14.707322      0.3002518      0.3194869      0.1032941\n",
  chars! "  2P        8.473316      0.0276910     -0.3779156     -0.1447437\n",
  chars! "  3P        6.551399      0.0001093     -0.7849565     -0.3070457\n",
  chars! "  4P        5.251324      0.0002758     -0.1536839     -0.1866541\n",
  chars! "  3P        2.261388     -0.0001007     -0.0081695      0.1181508\n",
  chars! "  3P        1.369469     -0.0000646     -0.0037504     -0.2553266\n",
  chars! "  2P        1.294513      0.0001281      0.0077846      1.2729773\n",
  chars! "        D                    3D \n",
  chars! "  BASIS/ORB.ENERGY       -3.6281638\n",
  chars! "              CUSP        1.0009909\n",
  chars! "  3D       34.378207      0.0013031\n",
  chars! "  4D       26.422317      0.0061606\n",
  chars! "  3D       10.855664      0.2787546\n",
  chars! "  4D        8.697743      0.2050742\n",
  chars! "  3D        5.068949      0.5248900\n",
  chars! "  4D        3.854851      0.1031747\n",
  chars! "  3D        2.230536      0.0083185\n",
  chars! "  3D        1.294513     -0.0000042\n",
  chars! "\n"]⟩

theorem cation_br_ok : cation_br.ok = true := by decide +kernel

/-- `data/cation/kr`. -/
noncomputable def cation_kr : DataFile := ⟨36, .cation, [
  chars! "      KRYPTON+   K(2)L(8)M(18)4S(2)4P(5), 2P                                          \n",
  chars! "\n",
  chars! "\n",
  chars! "\n",
  chars! "\n",
  chars! "   E = -2751.567391694\n",
  chars! "   T =  2751.567392060     V = -5503.134783755     V/T =    -2.000000000\n",
  chars! "\n",
  chars! "  ORBITAL ENERGIES AND EXPANSION COEFFICIENTS\n",
  chars! "        S                    1S             2S             3S             4S \n",
  chars! "  BASIS/ORB.ENERGY     -520.6101576    -70.3447636    -11.2883315     -1.5313417\n",
  chars! "              CUSP        1.0000555      1.0000576      1.0001213      0.9997586\n",
  chars! "  2S       69.201790      0.0288245     -0.0090699      0.0036366     -0.0013574\n",
  chars! "  3S       59.177858      0.0391139     -0.0116240      0.0045913     -0.0016709\n",
  chars! "  3S       41.936246      0.0872321     -0.0304409      0.0132078     -0.0051250\n",
  chars! "  1S       39.115180      0.8705062     -0.2739195      0.1099202     -0.0360170\n",
  chars! "  3S       29.930317      0.0109084      0.1315698     -0.0614511      0.0201325\n",
  chars! "  4S       18.521771      0.0019955     -0.5852963      0.2068288     -0.0574341\n",
  chars! "  3S       16.538482     -0.0026601      1.4900622     -0.7539215      0.2429318\n",
  chars! "  3S        9.323638     -0.0001261      0.0177891      0.2018861     -0.1576341\n",
  chars! "  3S        7.278250      0.0000555     -0.0029199      0.7137320     -0.1358824\n",
  chars! "  3S        5.584657     -0.0000208      0.0008129      0.2770243     -0.5364476\n",
  chars! "  2S        1.906199      0.0000037     -0.0001035      0.0027137      1.2764697\n",
  chars! "  3S        1.353182     -0.0000008      0.0000145     -0.0002431      0.0170976\n",
  chars! "        P                    2P             3P             4P \n",
  chars! "  BASIS/ORB.ENERGY      -63.4511838     -8.7686973     -0.9155504\n",
  chars! "              CUSP        1.0009817      0.9996178      0.9995298\n",
  chars! "  2P       55.043824     -0.0061112     -0.0041445     -0.0013491\n",
  chars! "  3P       45.044477     -0.0131859     -0.0088261     -0.0028718\n",
  chars! "  2P       26.630231      0.3362880      0.1697586      0.0522544\n",
  chars! "  3P       21.305871      0.4090954      0.1932593      0.0577485\n",
  chars! "  3P       15.531247      0.3153418      0.3168204      0.1086826\n",
  chars! "  2P        9.261751      0.0428210     -0.3045881     -0.1287952\n",
  chars! "  3P        7.023782     -0.0006273     -0.8146714     -0.3301925\n",
  chars! "  4P        5.660143      0.0005201     -0.1769232     -0.2055060\n",
  chars! "  3P        2.584145     -0.0002398     -0.0081013      0.1274863\n",
  chars! "  3P        1.442330     -0.0001652     -0.0024515     -0.3305165\n",
  chars! "  2P        1.353182      0.0002999      0.0040180      1.3442564\n",
  chars! "        D                    3D \n",
  chars! "  BASIS/ORB.ENERGY       -4.2633016\n",
  chars! "              CUSP        0.9999987\n",
  chars! "  3D       35.500187      0.0012946\n",
  chars! "  4D       27.356628      0.0060604\n",
  chars! "  3D       11.193561      0.2919499\n",
  chars! "  4D        8.909671      0.2144848\n",
  chars! "  3D        5.278971      0.5141567\n",
  chars! "  4D        4.049296      0.0858503\n",
  chars! "  3D        2.357725      0.0070913\n",
  chars! "  3D        1.353182     -0.0000048\n",
  chars! "\n"]⟩

theorem cation_kr_ok : cation_kr.ok = true := by decide +kernel

/-- `data/cation/rb`. -/
noncomputable def cation_rb : DataFile := ⟨37, .cation, [
  chars! "      RUBIDIUM+   K(2)L(8)M(18)4S(2)4P(6), 1S                                         \n",
  chars! "\n",
  chars! "\n",
  chars! "\n",
  chars! "   E = -2938.219928092\n",
  chars! "   T =  2938.219927777     V = -5876.439855869     V/T =    -2.000000000\n",
  chars! "\n",
  chars! "  ORBITAL ENERGIES AND EXPANSION COEFFICIENTS\n",
  chars! "        S                    1S             2S             3S             4S \n",
  chars! "  BASIS/ORB.ENERGY     -551.6587051    -75.2503198    -12.3336561     -1.7214517\n",
  chars! "              CUSP        1.0000480      1.0000363      1.0002432      0.9997061\n",
  chars! "  2S       71.149733      0.0301744     -0.0095204      0.0038461     -0.0014846\n",
  chars! "  3S       60.975180      0.0402781     -0.0120499      0.0048780     -0.0018046\n",
  chars! "  3S       43.257856      0.0902435     -0.0310742      0.0131497     -0.0054340\n",
  chars! "  1S       40.353213      0.8658911     -0.2731646      0.1106211     -0.0373520\n",
  chars! "  3S       30.610069      0.0112408      0.1354983     -0.0622954      0.0213980\n",
  chars! "  4S       18.978653      0.0025044     -0.5904514      0.2167486     -0.0594532\n",
  chars! "  3S       16.972323     -0.0033597      1.4904807     -0.7704531      0.2552836\n",
  chars! "  3S       10.189589     -0.0001479      0.0146678      0.1105842     -0.1218866\n",
  chars! "  3S        7.792649      0.0000603      0.0009157      0.7610245     -0.1623305\n",
  chars! "  3S        5.929193     -0.0000231     -0.0000229      0.3237940     -0.5805648\n",
  chars! "  2S        2.031862      0.0000045     -0.0000823      0.0035388      1.2916377\n",
  chars! "  3S        1.420277     -0.0000009      0.0000044     -0.0003242      0.0177554\n",
  chars! "        P                    2P             3P             4P \n",
  chars! "  BASIS/ORB.ENERGY      -68.1074870     -9.6886678     -1.0085930\n",
  chars! "              CUSP        1.0008327      0.9999858      0.9993810\n",
  chars! "  2P       57.378975     -0.0060980     -0.0043035     -0.0014526\n",
  chars! "  3P       46.928310     -0.0131145     -0.0091957     -0.0030941\n",
  chars! "  2P       27.753521      0.3250767      0.1693817      0.0544761\n",
  chars! "  3P       22.214347      0.3966035      0.1902806      0.0595039\n",
  chars! "  3P       16.267955      0.3160838      0.3251698      0.1170630\n",
  chars! "  2P       10.403879      0.0632801     -0.2601739     -0.1192316\n",
  chars! "  3P        7.474201      0.0005540     -0.8435361     -0.3528318\n",
  chars! "  4P        6.039786      0.0003314     -0.1954845     -0.2200506\n",
  chars! "  3P        2.800968     -0.0001090     -0.0098797      0.1508235\n",
  chars! "  3P        1.521567     -0.0000731     -0.0039405     -0.3779373\n",
  chars! "  2P        1.420277      0.0001360      0.0075979      1.3744354\n",
  chars! "        D                    3D \n",
  chars! "  BASIS/ORB.ENERGY       -4.9332490\n",
  chars! "              CUSP        1.0000011\n",
  chars! "  3D       36.707772      0.0012620\n",
  chars! "  4D       28.320179      0.0058734\n",
  chars! "  3D       11.601158      0.2972293\n",
  chars! "  4D        9.232610      0.2175363\n",
  chars! "  3D        5.523683      0.5157255\n",
  chars! "  4D        4.174027      0.0744064\n",
  chars! "  3D        2.116605      0.0030585\n",
  chars! "  3D        1.420277     -0.0001323\n",
  chars! "\n"]⟩

theorem cation_rb_ok : cation_rb.ok = true := by decide +kernel

/-- `data/cation/sr`. -/
noncomputable def cation_sr : DataFile := ⟨38, .cation, [
  chars! "      STRONTIUM+   K(2)L(8)M(18)4S(2)4P(6)5S(1), 2S                                   \n",
  chars! "\n",
  chars! "\n",
  chars! "\n",
  chars! "\n",
  chars! "   E = -3131.373774334\n",
  chars! "   T =  3131.373773565     V = -6262.747547899     V/T =    -2.000000000\n",
  chars! "\n",
  chars! "  ORBITAL ENERGIES AND EXPANSION COEFFICIENTS\n",
  chars! "        S                    1S             2S             3S             4S             5S \n",
  chars! "  BASIS/ORB.ENERGY     -583.9091253    -80.6114947    -13.6950162     -2.1134144     -0.3788868\n",
  chars! "              CUSP        1.0003557      1.0002564      1.0003171      1.0004211      1.0004578\n",
  chars! "  2S       55.832561     -0.0227814     -0.0465249     -0.0229133     -0.0085312      0.0026139\n",
  chars! "  3S       47.667376     -0.0376329     -0.0678614     -0.0336902     -0.0126028      0.0038666\n",
  chars! "  1S       39.546125     -0.9292809     -0.2938839     -0.1200758     -0.0426714      0.0129467\n",
  chars! "  4S       27.408289      0.0344681      0.1360559      0.0798547      0.0303344     -0.0093209\n",
  chars! "  4S       19.326156      0.0204385      0.1105562      0.1844267      0.0850966     -0.0272066\n",
  chars! "  2S       16.505756     -0.0747146      0.7693705      0.4486027      0.1843671     -0.0582265\n",
  chars! "  2S       10.753302     -0.0003537      0.0992302     -0.1112054     -0.1152506      0.0433539\n",
  chars! "  3S        7.969094      0.0000066     -0.0042587     -0.9110756     -0.3672756      0.1109758\n",
  chars! "  3S        5.847222      0.0000602      0.0020136     -0.2219798     -0.5449302      0.2139755\n",
  chars! "  4S        2.227859      0.0000463      0.0004976     -0.0019591     -0.0201191     -0.1659523\n",
  chars! "  2S        2.221386     -0.0000540     -0.0007326      0.0002874      1.3925711     -0.7394497\n",
  chars! "  3S        1.397258     -0.0001193     -0.0010397      0.0041917      0.0276140     -0.6255936\n",
  chars! "  2S        0.872953      0.0001410      0.0011764     -0.0046894     -0.0225586      1.5277797\n",
  chars! "  3S        0.870502     -0.0000467     -0.0003833      0.0015364      0.0078800      0.3609472\n",
  chars! "        P                    2P             3P             4P \n",
  chars! "  BASIS/ORB.ENERGY      -73.2170576    -10.9205089     -1.3154208\n",
  chars! "              CUSP        1.0000000      0.9991266      1.0000000\n",
  chars! "  2P       62.275951     -0.0041086      0.0025912     -0.0009746\n",
  chars! "  3P       49.890204     -0.0100489      0.0063353     -0.0024031\n",
  chars! "  2P       28.352566      0.3278177     -0.1427271      0.0460990\n",
  chars! "  3P       22.968318      0.3928178     -0.1495711      0.0427462\n",
  chars! "  3P       16.945207      0.3361405     -0.2591225      0.0989934\n",
  chars! "  3P       12.578046      0.0431626      0.1256248     -0.0752467\n",
  chars! "  3P        7.939440      0.0018287      0.7116426     -0.2281066\n",
  chars! "  3P        5.763893      0.0001582      0.3392404     -0.3666722\n",
  chars! "  3P        2.759686     -0.0000027      0.0052204      0.2910393\n",
  chars! "  2P        1.753375     -0.0000069     -0.0020713      0.8969169\n",
  chars! "  2P        0.870502      0.0000017      0.0001151      0.0063026\n",
  chars! "        D                    3D \n",
  chars! "  BASIS/ORB.ENERGY       -5.9149463\n",
  chars! "              CUSP        1.0008644\n",
  chars! "  3D       37.420815      0.0013332\n",
  chars! "  4D       28.965002      0.0060384\n",
  chars! "  3D       11.860054      0.3194722\n",
  chars! "  4D        9.326124      0.2456156\n",
  chars! "  3D        5.605752      0.4865553\n",
  chars! "  4D        4.182849      0.0502173\n",
  chars! "  3D        1.987580      0.0004941\n",
  chars! "  3D        0.870502      0.0000263\n",
  chars! "\n"]⟩

theorem cation_sr_ok : cation_sr.ok = true := by decide +kernel

/-- `data/cation/y`. -/
noncomputable def cation_y : DataFile := ⟨39, .cation, [
  chars! "      YTTRIUM+   K(2)L(8)M(18)4S(2)4P(6)5S(2), 1S                                     \n",
  chars! "\n",
  chars! "\n",
  chars! "\n",
  chars! "   E = -3331.472879932\n",
  chars! "   T =  3331.472882755     V = -6662.945762687     V/T =    -1.999999999\n",
  chars! "\n",
  chars! "  ORBITAL ENERGIES AND EXPANSION COEFFICIENTS\n",
  chars! "        S                    1S             2S             3S             4S             5S \n",
  chars! "  BASIS/ORB.ENERGY     -617.1064976    -86.1757910    -15.1222817     -2.5193646     -0.4355506\n",
  chars! "              CUSP        1.0003550      1.0002691      1.0003539      1.0006135      1.0001865\n",
  chars! "  2S       56.850413     -0.0214884     -0.0477543     -0.0236554     -0.0093144      0.0030329\n",
  chars! "  3S       48.677772     -0.0352149     -0.0680503     -0.0340262     -0.0135219      0.0043603\n",
  chars! "  1S       40.477134     -0.9333391     -0.2958660     -0.1219242     -0.0453106      0.0147250\n",
  chars! "  4S       28.229729      0.0311292      0.1358306      0.0778374      0.0308867     -0.0104084\n",
  chars! "  4S       20.177540      0.0165528      0.1239226      0.1783849      0.0905461     -0.0296629\n",
  chars! "  2S       17.391445     -0.0680055      0.7123916      0.4007809      0.1833170     -0.0600751\n",
  chars! "  2S       11.900211      0.0005046      0.1465357     -0.0176739     -0.0893701      0.0326458\n",
  chars! "  3S        8.437033     -0.0002484     -0.0028644     -0.8804742     -0.3342446      0.1099516\n",
  chars! "  3S        6.331381      0.0001904      0.0017995     -0.2863184     -0.5835241      0.2325300\n",
  chars! "  4S        2.484842      0.0001119      0.0006201      0.0010634     -0.4790062      0.0354291\n",
  chars! "  2S        1.991798     -0.0001277     -0.0008343     -0.0038571      1.7897552     -1.0313357\n",
  chars! "  3S        1.509806     -0.0001698     -0.0007143      0.0006576     -0.0569498     -0.3966628\n",
  chars! "  2S        0.942943      0.0002001      0.0008217     -0.0007022      0.0252259      1.5611187\n",
  chars! "  3S        0.933328     -0.0000646     -0.0002622      0.0002222     -0.0060161      0.2140588\n",
  chars! "        P                    2P             3P             4P \n",
  chars! "  BASIS/ORB.ENERGY      -78.5280301    -12.2164968     -1.6361016\n",
  chars! "              CUSP        1.0009937      0.9998368      1.0000640\n",
  chars! "  2P       63.029145     -0.0035942      0.0024085     -0.0009643\n",
  chars! "  3P       50.693725     -0.0087501      0.0057996     -0.0023296\n",
  chars! "  2P       28.596183      0.3391940     -0.1491701      0.0510478\n",
  chars! "  3P       23.345978      0.3904208     -0.1479511      0.0443389\n",
  chars! "  3P       17.498579      0.3104795     -0.2619028      0.1097234\n",
  chars! "  3P       13.559960      0.0558290      0.1089825     -0.0731069\n",
  chars! "  3P        8.327672      0.0025633      0.7145623     -0.2422726\n",
  chars! "  3P        6.071610      0.0000103      0.3564577     -0.3924729\n",
  chars! "  3P        2.892623      0.0000012      0.0059664      0.4418484\n",
  chars! "  2P        1.902480     -0.0000070     -0.0030149      0.7611566\n",
  chars! "  2P        0.933328      0.0000019      0.0001170      0.0074626\n",
  chars! "        D                    3D \n",
  chars! "  BASIS/ORB.ENERGY       -6.9598776\n",
  chars! "              CUSP        0.9999996\n",
  chars! "  3D       38.369940      0.0013296\n",
  chars! "  4D       29.841335      0.0058586\n",
  chars! "  3D       12.267012      0.3227327\n",
  chars! "  4D        9.649812      0.2443064\n",
  chars! "  3D        5.936284      0.4775446\n",
  chars! "  4D        4.571744      0.0523989\n",
  chars! "  3D        2.228486      0.0007909\n",
  chars! "  3D        0.933328     -0.0000252\n",
  chars! "\n"]⟩

theorem cation_y_ok : cation_y.ok = true := by decide +kernel

/-- Part 12 of the files. -/
noncomputable def part12 : List DataFile := [
  cation_v, cation_cr, cation_mn, cation_fe, cation_co, cation_ni, cation_cu, cation_zn, cation_ga, cation_ge, cation_as, cation_se, cation_br, cation_kr, cation_rb, cation_sr, cation_y]

theorem part12_ok : ∀ d ∈ part12, d.ok = true := by
  intro d hd
  unfold part12 at hd
  simp only [List.mem_cons, List.not_mem_nil, or_false] at hd
  rcases hd with rfl | rfl | rfl | rfl | rfl | rfl | rfl | rfl | rfl | rfl | rfl | rfl | rfl | rfl | rfl | rfl | rfl
  · exact cation_v_ok
  · exact cation_cr_ok
  · exact cation_mn_ok
  · exact cation_fe_ok
  · exact cation_co_ok
  · exact cation_ni_ok
  · exact cation_cu_ok
  · exact cation_zn_ok
  · exact cation_ga_ok
  · exact cation_ge_ok
  · exact cation_as_ok
  · exact cation_se_ok
  · exact cation_br_ok
  · exact cation_kr_ok
  · exact cation_rb_ok
  · exact cation_sr_ok
  · exact cation_y_ok

end BFit.Data
