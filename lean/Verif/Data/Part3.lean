import Verif.Lemmas.DataNum

/-! Copy of files in /repo/bfit/data/data.tar, generated by tools/gendata.py. -/

namespace BFit.Data

/-- `data/neutral/ru`. -/
noncomputable def neutral_ru : DataFile := ⟨44, .neutral, [
  chars! "      RUTHENIUM   K(2)L(8)M(18)4S(2)4P(6)5S(1)4D(7), 5F                               \n",
  chars! "   E = -4441.539484252\n",
  chars! "   T =  4441.539473165     V = -8883.078957417     V/T =    -2.000000002\n",
  chars! "  ORBITAL ENERGIES AND EXPANSION COEFFICIENTS\n",
  chars! "        S                    1S             2S             3S             4S             5S \n",
  chars! "  BASIS/ORB.ENERGY     -795.5134720   -115.1587925    -21.4138861     -3.2571280     -0.2224272\n",
  chars! "              CUSP        1.0002653      0.9999861      1.0003357      1.0005126      1.0009571\n",
  chars! "  1S       75.587991      0.0232844      0.0427250     -0.0185471      0.0073663     -0.0017416\n",
  chars! "  3S       56.101603     -0.0274222     -0.0443646      0.0198170     -0.0079812      0.0019308\n",
  chars! "  1S       45.917485     -0.9760985     -0.3870782      0.1657759     -0.0665739      0.0158502\n",
  chars! "  4S       33.095826      0.0306301      0.1033482     -0.0349013      0.0113269     -0.0021273\n",
  chars! "  2S       20.646878     -0.0848102      0.5740429     -0.3173127      0.1366179     -0.0342669\n",
  chars! "  3S       20.626049      0.0322299      0.3630361     -0.4040189      0.1986110     -0.0513852\n",
  chars! "  4S       11.711121      0.0037650     -0.0543563      0.3882453     -0.1406479      0.0288306\n",
  chars! "  4S        9.098967      0.0006079     -0.0189611      0.0943775     -0.2616184      0.1029374\n",
  chars! "  2S        7.950497     -0.0089046      0.1460586      0.4532919      0.0937876      0.0526167\n",
  chars! "  2S        6.803507      0.0017707     -0.0155637      0.3080575     -0.9162615      0.1498782\n",
  chars! "  2S        3.167893     -0.0000240      0.0000402      0.0054792      1.3957461     -0.3527653\n",
  chars! "  2S        2.231223      0.0000059     -0.0000458     -0.0004548      0.1378832     -0.2507132\n",
  chars! "  2S        0.817674     -0.0000006      0.0000053      0.0001380     -0.0006417      0.5876874\n",
  chars! "  2S        0.666974      0.0000004     -0.0000074     -0.0000907     -0.0011817      0.5402123\n",
  chars! "        P                    2P             3P             4P \n",
  chars! "  BASIS/ORB.ENERGY     -106.2393929    -17.8487532     -2.1012483\n",
  chars! "              CUSP        1.0008391      0.9996397      0.9998091\n",
  chars! "  2P       68.619796     -0.0050486     -0.0041061     -0.0024685\n",
  chars! "  3P       56.514248     -0.0102848     -0.0083052     -0.0049999\n",
  chars! "  2P       33.820701      0.2701542      0.1518429      0.0792914\n",
  chars! "  3P       27.555949      0.2931985      0.1382257      0.0646754\n",
  chars! "  3P       21.389947      0.2132710      0.2520952      0.1652811\n",
  chars! "  2P       15.693563      0.2983828     -0.0182836     -0.1378165\n",
  chars! "  3P        9.931706      0.0029538     -0.7586737     -0.2946319\n",
  chars! "  3P        7.447787     -0.0002784     -0.3539394     -0.6032269\n",
  chars! "  3P        2.569516      0.0000480      0.0088514     -0.8681875\n",
  chars! "  2P        2.280173     -0.0001129     -0.0145826      2.1712717\n",
  chars! "  2P        0.666974     -0.0000001     -0.0000295      0.0015824\n",
  chars! "        D                    3D             4D \n",
  chars! "  BASIS/ORB.ENERGY      -11.3433439     -0.4127787\n",
  chars! "              CUSP        0.9997955      1.0004335\n",
  chars! "  3D       48.181841      0.0007669     -0.0002571\n",
  chars! "  4D       36.523583      0.0041056     -0.0014038\n",
  chars! "  3D       17.717806      0.1072652     -0.0318848\n",
  chars! "  4D       16.634643      0.0733546     -0.0289637\n",
  chars! "  3D        9.655157      0.6346140     -0.1961167\n",
  chars! "  4D        7.941762      0.1971960     -0.1545370\n",
  chars! "  3D        5.347505      0.0680989      0.1002518\n",
  chars! "  3D        3.199141      0.0010400      0.4581675\n",
  chars! "  3D        1.968988      0.0004065      0.4503422\n",
  chars! "  3D        1.217727      0.0000600      0.2095372\n",
  chars! "  3D        0.666974      0.0000119      0.0029183\n",
  chars! "\n"]⟩

theorem neutral_ru_ok : neutral_ru.ok = true := by decide +kernel

/-- `data/neutral/rh`. -/
noncomputable def neutral_rh : DataFile := ⟨45, .neutral, [
  chars! "      RHODIUM   K(2)L(8)M(18)4S(2)4P(6)5S(1)4D(8), 4F                                 \n",
  chars! "   E = -4685.881699827\n",
  chars! "   T =  4685.881694241     V = -9371.763394069     V/T =    -2.000000001\n",
  chars! "  ORBITAL ENERGIES AND EXPANSION COEFFICIENTS\n",
  chars! "        S                    1S             2S             3S             4S             5S \n",
  chars! "  BASIS/ORB.ENERGY     -834.0394739   -121.5636488    -22.8796140     -3.5038918     -0.2216190\n",
  chars! "              CUSP        1.0002780      1.0000799      1.0004171      1.0004844      1.0009046\n",
  chars! "  1S       77.024171     -0.0234303      0.0431745     -0.0188112      0.0075587     -0.0017153\n",
  chars! "  3S       57.422340      0.0267584     -0.0434916      0.0195000     -0.0079073      0.0018354\n",
  chars! "  1S       46.951633      0.9766496     -0.3882523      0.1671637     -0.0679417      0.0155290\n",
  chars! "  4S       33.967751     -0.0304873      0.1027462     -0.0348174      0.0117894     -0.0021563\n",
  chars! "  3S       21.231867     -0.0319308      0.3696220     -0.4058314      0.2013116     -0.0499831\n",
  chars! "  2S       21.219242      0.0847538      0.5639108     -0.3120984      0.1372687     -0.0331423\n",
  chars! "  4S       12.051536     -0.0034107     -0.0594986      0.4104920     -0.1665171      0.0342975\n",
  chars! "  4S        9.357721     -0.0008051     -0.0194587      0.0915771     -0.3036682      0.1120336\n",
  chars! "  2S        8.131190      0.0078500      0.1621138      0.4608221     -0.0619054      0.0985604\n",
  chars! "  2S        6.958132     -0.0010981     -0.0230732      0.2776354     -0.7187318      0.0833338\n",
  chars! "  2S        3.298265      0.0000027      0.0002728      0.0051626      1.4100085     -0.3540430\n",
  chars! "  2S        2.284775      0.0000026     -0.0001313     -0.0002238      0.1346605     -0.2201497\n",
  chars! "  2S        0.825117     -0.0000015      0.0000284      0.0000835     -0.0014940      0.5636576\n",
  chars! "  2S        0.665761      0.0000010     -0.0000215     -0.0000516      0.0002571      0.5515493\n",
  chars! "        P                    2P             3P             4P \n",
  chars! "  BASIS/ORB.ENERGY     -112.3861810    -19.1795957     -2.2911493\n",
  chars! "              CUSP        1.0008512      0.9994689      0.9991363\n",
  chars! "  2P       70.788924     -0.0045047     -0.0037801     -0.0025272\n",
  chars! "  3P       58.080359     -0.0094416     -0.0078492     -0.0052435\n",
  chars! "  2P       34.589353      0.2444900      0.1342656      0.0764002\n",
  chars! "  3P       28.182221      0.2515044      0.1026535      0.0481172\n",
  chars! "  3P       22.750752      0.1487164      0.1998676      0.1495745\n",
  chars! "  2P       16.701338      0.4188709      0.0917079     -0.0959767\n",
  chars! "  3P       10.300968      0.0037532     -0.7534710     -0.2973272\n",
  chars! "  3P        7.763781     -0.0005301     -0.3688023     -0.6254309\n",
  chars! "  3P        2.693156      0.0000232      0.0102028     -0.8709591\n",
  chars! "  2P        2.388176     -0.0000853     -0.0167588      2.1847584\n",
  chars! "  2P        0.665761      0.0000003     -0.0000343      0.0015338\n",
  chars! "        D                    3D             4D \n",
  chars! "  BASIS/ORB.ENERGY      -12.4212919     -0.4501939\n",
  chars! "              CUSP        0.9997218      1.0000414\n",
  chars! "  3D       48.021841      0.0009286     -0.0003408\n",
  chars! "  4D       36.790557      0.0046539     -0.0017507\n",
  chars! "  3D       19.119353      0.0855810     -0.0256817\n",
  chars! "  4D       17.773712      0.0822445     -0.0321380\n",
  chars! "  3D       10.020134      0.6544581     -0.2153404\n",
  chars! "  4D        8.170279      0.2038421     -0.1730314\n",
  chars! "  3D        5.403773      0.0524595      0.1507610\n",
  chars! "  3D        3.223903      0.0010945      0.4976056\n",
  chars! "  3D        1.964992      0.0004051      0.4298886\n",
  chars! "  3D        1.227727      0.0001290      0.1650297\n",
  chars! "  3D        0.665761      0.0000004      0.0007133\n",
  chars! " \n"]⟩

theorem neutral_rh_ok : neutral_rh.ok = true := by decide +kernel

/-- `data/neutral/pd`. -/
noncomputable def neutral_pd : DataFile := ⟨46, .neutral, [
  chars! "      PALLADIUM   K(2)L(8)M(18)4S(2)4P(6)5S(0)4D(10), 1S                              \n",
  chars! "   E = -4937.921019011\n",
  chars! "   T =  4937.921019835     V = -9875.842038846     V/T =    -2.000000000\n",
  chars! "  ORBITAL ENERGIES AND EXPANSION COEFFICIENTS\n",
  chars! "        S                    1S             2S             3S             4S \n",
  chars! "  BASIS/ORB.ENERGY     -873.3159338   -127.9665747    -24.2091057     -3.5873098\n",
  chars! "              CUSP        1.0002237      1.0000971      1.0001914      1.0001444\n",
  chars! "  1S       95.004581     -0.0065116     -0.0074969      0.0037378      0.0012466\n",
  chars! "  3S       65.455382      0.0128186      0.0134169     -0.0068092     -0.0021674\n",
  chars! "  1S       48.666335      0.9262564      0.3124149     -0.1361160     -0.0551328\n",
  chars! "  2S       36.523802      0.1171537      0.2167267     -0.1884784     -0.1745136\n",
  chars! "  3S       35.930115     -0.0385269     -0.0557486     -0.0723338     -0.1256310\n",
  chars! "  4S       32.224650      0.0085097     -0.0362660     -0.0650638     -0.1202308\n",
  chars! "  2S       19.506212     -0.0057155     -1.0991398      1.0491518      1.0316248\n",
  chars! "  4S       16.996951      0.0005375     -0.0248751      0.0402924      0.3689975\n",
  chars! "  4S       12.296306     -0.0006088      0.0013077     -0.3485029      0.2636284\n",
  chars! "  2S        7.791419      0.0006199     -0.0022260     -0.9579142     -2.0542967\n",
  chars! "  2S        3.447402     -0.0000306      0.0003207     -0.0061267      1.4490671\n",
  chars! "  3S        2.734925      0.0000568     -0.0002444      0.0007871      0.1039562\n",
  chars! "  2S        0.998788      0.0000839     -0.0003416      0.0010208     -0.0119308\n",
  chars! "  1S        0.819759     -0.0001308      0.0005348     -0.0016359      0.0201819\n",
  chars! "        P                    2P             3P             4P \n",
  chars! "  BASIS/ORB.ENERGY     -118.5311049    -20.3742869     -2.3300901\n",
  chars! "              CUSP        1.0007321      0.9997147      1.0007135\n",
  chars! "  2P       72.015150     -0.0054593     -0.0041170     -0.0029942\n",
  chars! "  3P       59.578992     -0.0106678     -0.0080445     -0.0058879\n",
  chars! "  2P       36.479116      0.2334683      0.1174424      0.0682619\n",
  chars! "  3P       30.006145      0.2187363      0.0776364      0.0311137\n",
  chars! "  3P       24.034672      0.2042107      0.1862776      0.1419942\n",
  chars! "  2P       17.033197      0.4113571      0.1565152     -0.0594948\n",
  chars! "  3P       10.715216      0.0029849     -0.7262872     -0.2709552\n",
  chars! "  3P        8.150158     -0.0002034     -0.4038500     -0.6594669\n",
  chars! "  3P        2.806387      0.0001552      0.0142393     -0.9139537\n",
  chars! "  2P        2.467078     -0.0002740     -0.0224917      2.2272338\n",
  chars! "  2P        0.819759     -0.0000024     -0.0000745      0.0024681\n",
  chars! "        D                    3D             4D \n",
  chars! "  BASIS/ORB.ENERGY      -13.3634422     -0.3360025\n",
  chars! "              CUSP        0.9998364      1.0002954\n",
  chars! "  3D       48.681034      0.0009741     -0.0003947\n",
  chars! "  4D       37.530522      0.0046706     -0.0019555\n",
  chars! "  3D       20.726814     -0.0137973      0.0125953\n",
  chars! "  3D       16.600467      0.1879478     -0.0744232\n",
  chars! "  3D       10.405856      0.5063660     -0.1043247\n",
  chars! "  3D        7.629025      0.3362414     -0.2573355\n",
  chars! "  3D        5.600123      0.0408972      0.1347941\n",
  chars! "  3D        3.476758      0.0011194      0.4653239\n",
  chars! "  3D        2.106938      0.0000858      0.4237954\n",
  chars! "  3D        1.250135     -0.0000127      0.2203384\n",
  chars! "  3D        0.819759      0.0000048      0.0191275\n",
  chars! "\n"]⟩

theorem neutral_pd_ok : neutral_pd.ok = true := by decide +kernel

/-- `data/neutral/ag`. -/
noncomputable def neutral_ag : DataFile := ⟨47, .neutral, [
  chars! "      SILVER   K(2)L(8)M(18)4S(2)4P(6)5S(1)4D(10), 2S\n",
  chars! "   E = -5197.698467674\n",
  chars! "   T =  5197.698468984     V =-10395.396936658     V/T =    -2.000000000\n",
  chars! "  ORBITAL ENERGIES AND EXPANSION COEFFICIENTS\n",
  chars! "        S                    1S             2S             3S             4S             5S\n",
  chars! "  BASIS/ORB.ENERGY     -913.8355964   -134.8784068    -25.9178242     -4.0014988     -0.2199797\n",
  chars! "              CUSP        1.0002457      1.0000318      1.0004188      1.0004755      1.0007044\n",
  chars! "  1S       81.922545     -0.0249463      0.0397871     -0.0173562      0.0070924     -0.0014801\n",
  chars! "  3S       60.961344      0.0279319     -0.0405433      0.0182861     -0.0075458      0.0015959\n",
  chars! "  1S       49.339744      0.9727086     -0.3810597      0.1654469     -0.0685857      0.0143847\n",
  chars! "  4S       36.344474     -0.0337753      0.0969467     -0.0318908      0.0107924     -0.0019778\n",
  chars! "  3S       22.846089     -0.0362467      0.4275905     -0.4139058      0.2086400     -0.0461251\n",
  chars! "  2S       22.824480      0.0960288      0.4841259     -0.2675541      0.1246272     -0.0271509\n",
  chars! "  4S       13.009377     -0.0042042     -0.0824896      0.4962657     -0.2527818      0.0525889\n",
  chars! "  4S        9.794366     -0.0009434     -0.0269850      0.2221040     -0.5035254      0.1374074\n",
  chars! "  2S        8.903696      0.0082152      0.1886970      0.4960442     -0.5095789      0.1320003\n",
  chars! "  2S        4.446178     -0.0001941     -0.0005026      0.0282383     -0.1083021     -0.0494609\n",
  chars! "  2S        3.589317      0.0001426      0.0004284     -0.0086790      1.4622619     -0.2588647\n",
  chars! "  2S        2.519920     -0.0000249     -0.0001368      0.0017522      0.1661500     -0.2187850\n",
  chars! "  2S        0.826013      0.0000029      0.0000216     -0.0001031     -0.0002104      0.5413805\n",
  chars! "  2S        0.663294     -0.0000019     -0.0000145      0.0000631      0.0004717      0.5502496\n",
  chars! "        P                    2P             3P             4P\n",
  chars! "  BASIS/ORB.ENERGY     -125.1815809    -21.9454343     -2.6768201\n",
  chars! "              CUSP        1.0008130      1.0008629      0.9998751\n",
  chars! "  2P       58.031368     -0.0119946      0.0277335     -0.0192415\n",
  chars! "  3P       51.182468     -0.0145273      0.0321879     -0.0221456\n",
  chars! "  3P       33.533569     -0.0910690      0.1548314     -0.1056304\n",
  chars! "  2P       23.909244      0.9163004     -0.6168692      0.3096237\n",
  chars! "  3P       19.551930      0.2254388     -0.0961471     -0.0107746\n",
  chars! "  3P       10.860119      0.0061803      0.7911584     -0.3417783\n",
  chars! "  3P        8.237653     -0.0019624      0.3369847     -0.6569599\n",
  chars! "  3P        3.358709     -0.0007372     -0.0138382     -0.3915365\n",
  chars! "  2P        2.956246      0.0008735      0.0238263      1.7235547\n",
  chars! "  2P        1.903964      0.0000515      0.0000646      0.0795092\n",
  chars! "  2P        0.663294     -0.0000051     -0.0000051      0.0004692\n",
  chars! "        D                    3D             4D\n",
  chars! "  BASIS/ORB.ENERGY      -14.6782003     -0.5374007\n",
  chars! "              CUSP        0.9991182      1.0009214\n",
  chars! "  3D       53.296212      0.0006646     -0.0002936\n",
  chars! "  4D       40.214567      0.0037211     -0.0016839\n",
  chars! "  3D       21.872645     -0.0072310      0.0092799\n",
  chars! "  3D       17.024065      0.1799224     -0.0743431\n",
  chars! "  3D       10.708021      0.5205360     -0.1179494\n",
  chars! "  3D        7.859216      0.3265622     -0.2809146\n",
  chars! "  3D        5.770205      0.0373867      0.1653040\n",
  chars! "  3D        3.610289      0.0007434      0.4851980\n",
  chars! "  3D        2.243262      0.0001743      0.4317110\n",
  chars! "  3D        1.397570     -0.0000474      0.1737644\n",
  chars! "  3D        0.663294      0.0000083      0.0013751\n",
  chars! "\n"]⟩

theorem neutral_ag_ok : neutral_ag.ok = true := by decide +kernel

/-- `data/neutral/cd`. -/
noncomputable def neutral_cd : DataFile := ⟨48, .neutral, [
  chars! "      CADMIUM   K(2)L(8)M(18)4S(2)4P(6)5S(2)4D(10), 1S                                \n",
  chars! "   E = -5465.133137188\n",
  chars! "   T =  5465.133128301     V =-10930.266265490     V/T =    -2.000000002\n",
  chars! "  ORBITAL ENERGIES AND EXPANSION COEFFICIENTS\n",
  chars! "        S                    1S             2S             3S             4S             5S \n",
  chars! "  BASIS/ORB.ENERGY     -955.3153555   -142.0068250    -27.7086267     -4.4505362     -0.2648549\n",
  chars! "              CUSP        1.0002744      1.0001851      1.0005560      1.0006439      1.0009862\n",
  chars! "  1S       83.516231     -0.0262527      0.0399346     -0.0174771      0.0072349     -0.0017034\n",
  chars! "  3S       62.584694      0.0278638     -0.0388316      0.0175762     -0.0073673      0.0017715\n",
  chars! "  1S       50.503156      0.9722572     -0.3803997      0.1659283     -0.0697793      0.0165520\n",
  chars! "  4S       37.421392     -0.0354335      0.0964796     -0.0321859      0.0108675     -0.0020934\n",
  chars! "  3S       23.543997     -0.0376474      0.4438033     -0.4146711      0.2127212     -0.0541342\n",
  chars! "  2S       23.541419      0.1006402      0.4577397     -0.2531795      0.1200659     -0.0300342\n",
  chars! "  4S       13.502173     -0.0040385     -0.0861852      0.5088309     -0.2482762      0.0562245\n",
  chars! "  4S       10.284092     -0.0009005     -0.0250434      0.2604848     -0.5139857      0.1660909\n",
  chars! "  2S        9.381965      0.0081164      0.2000684      0.4224946     -0.4422349      0.1423706\n",
  chars! "  2S        5.195588     -0.0000454     -0.0022550      0.0412859     -0.2974854     -0.0242428\n",
  chars! "  2S        3.843181      0.0000091      0.0013520     -0.0070211      1.5038237     -0.2301713\n",
  chars! "  2S        2.816065      0.0000032     -0.0004150      0.0024176      0.2473646     -0.3672162\n",
  chars! "  2S        0.968171     -0.0000011      0.0000415     -0.0001127     -0.0001749      0.6462728\n",
  chars! "  2S        0.727812      0.0000007     -0.0000243      0.0000644      0.0001399      0.4865533\n",
  chars! "        P                    2P             3P             4P \n",
  chars! "  BASIS/ORB.ENERGY     -132.0470183    -23.5972381     -3.0535056\n",
  chars! "              CUSP        1.0009850      1.0005665      0.9990412\n",
  chars! "  2P       60.437885     -0.0173275      0.0271937     -0.0177497\n",
  chars! "  3P       53.012348     -0.0215550      0.0329742     -0.0213434\n",
  chars! "  3P       34.580438     -0.1185046      0.1545282     -0.0998002\n",
  chars! "  2P       24.629908      0.9550080     -0.6144704      0.3005211\n",
  chars! "  3P       19.895718      0.2245251     -0.1078982     -0.0034551\n",
  chars! "  3P       11.175126      0.0034041      0.8022408     -0.3615306\n",
  chars! "  3P        8.476139     -0.0000009      0.3321057     -0.6836458\n",
  chars! "  2P        4.269777     -0.0006380      0.0110873      0.2962730\n",
  chars! "  2P        3.164214      0.0003332     -0.0000626      1.0626495\n",
  chars! "  2P        2.145405     -0.0001008      0.0002263      0.1176349\n",
  chars! "  2P        0.727812      0.0000051     -0.0000021      0.0008824\n",
  chars! "        D                    3D             4D \n",
  chars! "  BASIS/ORB.ENERGY      -16.0719750     -0.7636586\n",
  chars! "              CUSP        0.9992490      1.0007012\n",
  chars! "  3D       51.167417      0.0009064     -0.0003999\n",
  chars! "  4D       39.515824      0.0043120     -0.0019498\n",
  chars! "  3D       20.925917     -0.0232941      0.0209998\n",
  chars! "  3D       17.638488      0.1977432     -0.0922260\n",
  chars! "  3D       10.839796      0.5717083     -0.1242668\n",
  chars! "  3D        7.941688      0.2456392     -0.4311272\n",
  chars! "  3D        6.801382      0.0604243      0.2825314\n",
  chars! "  3D        3.849955      0.0036183      0.5211361\n",
  chars! "  3D        2.417483     -0.0005902      0.4469071\n",
  chars! "  3D        1.559278      0.0001645      0.1356698\n",
  chars! "  3D        0.727812     -0.0000215      0.0003908\n",
  chars! " \n"]⟩

theorem neutral_cd_ok : neutral_cd.ok = true := by decide +kernel

/-- `data/neutral/in`. -/
noncomputable def neutral_in : DataFile := ⟨49, .neutral, [
  chars! "      INDIUM   K(2)L(8)M(18)4S(2)4P(6)5S(2)4D(10)5P(1), 2P                            \n",
  chars! "   E = -5740.169150772\n",
  chars! "   T =  5740.169150632     V =-11480.338301403     V/T =    -2.000000000\n",
  chars! "  ORBITAL ENERGIES AND EXPANSION COEFFICIENTS\n",
  chars! "        S                    1S             2S             3S             4S             5S \n",
  chars! "  BASIS/ORB.ENERGY     -997.8004534   -149.3954383    -29.6246638     -4.9767023     -0.3726634\n",
  chars! "              CUSP        1.0003023      1.0001652      1.0004499      1.0006039      0.9999698\n",
  chars! "  1S       78.931670     -0.0142157      0.0546513     -0.0233526      0.0092950     -0.0025125\n",
  chars! "  3S       59.837425      0.0175006     -0.0480712      0.0211407     -0.0085762      0.0022335\n",
  chars! "  1S       50.067547      0.9859097     -0.4174548      0.1816464     -0.0764116      0.0206063\n",
  chars! "  4S       35.479347     -0.0178604      0.1080631     -0.0285980      0.0043357     -0.0019926\n",
  chars! "  3S       23.025101     -0.0139916      0.1899635     -0.5747991      0.4100931     -0.1127555\n",
  chars! "  2S       23.015102      0.0471222      0.5140674     -0.7205153      0.5401772     -0.1542355\n",
  chars! "  2S       17.915983      0.0004136      0.3007600      0.8087809     -0.8291304      0.2421598\n",
  chars! "  4S       13.827518      0.0002230      0.0030729      0.7432703     -0.5467518      0.1661975\n",
  chars! "  4S       10.265558     -0.0001413     -0.0004854      0.3022462     -0.6065028      0.1970415\n",
  chars! "  2S        3.763681      0.0000827     -0.0001266      0.0107650      1.5446567     -0.4929401\n",
  chars! "  2S        2.140831     -0.0001140     -0.0000454     -0.0045254      0.0499097     -0.6818490\n",
  chars! "  2S        1.711542      0.0000897      0.0000453      0.0030485     -0.0151329      0.6092617\n",
  chars! "  2S        0.959206     -0.0000197     -0.0000123     -0.0005282      0.0011629      0.9732952\n",
  chars! "  2S        0.628144      0.0000058      0.0000039      0.0001411     -0.0002013      0.0233062\n",
  chars! "        P                    2P             3P             4P             5P \n",
  chars! "  BASIS/ORB.ENERGY     -139.1719227    -25.3742820     -3.5072154     -0.1972823\n",
  chars! "              CUSP        1.0009453      1.0007350      0.9995884      0.9991119\n",
  chars! "  2P       60.501482      0.0173853     -0.0306241     -0.0202965      0.0044821\n",
  chars! "  3P       53.257212      0.0210311     -0.0359791     -0.0236607      0.0052172\n",
  chars! "  3P       34.960599      0.1171843     -0.1678469     -0.1100237      0.0242693\n",
  chars! "  2P       24.975942     -0.9663332      0.6518362      0.3308470     -0.0691407\n",
  chars! "  3P       20.116604     -0.2129668      0.1035377      0.0000548      0.0035886\n",
  chars! "  3P       11.258653      0.0028118     -0.8037595     -0.2157447      0.0363128\n",
  chars! "  3P        9.424572     -0.0098008     -0.1741340     -0.6283409      0.1606011\n",
  chars! "  3P        4.754638     -0.0171060      0.3782962      0.4313917     -0.0621297\n",
  chars! "  2P        3.625842      0.0347689     -0.8592254      0.0293450     -0.1555203\n",
  chars! "  3P        2.688752      0.0112176     -0.3153626     -0.5834057     -0.0742979\n",
  chars! "  2P        2.453862     -0.0230396      0.6354652      1.3763632     -0.1743228\n",
  chars! "  2P        0.824472      0.0000491     -0.0002946      0.0010460      0.5626616\n",
  chars! "  2P        0.628144     -0.0000274      0.0001312     -0.0001678      0.5436137\n",
  chars! "        D                    3D             4D \n",
  chars! "  BASIS/ORB.ENERGY      -17.5895624     -1.0631372\n",
  chars! "              CUSP        0.9991311      1.0005904\n",
  chars! "  3D       55.317221      0.0007438     -0.0003637\n",
  chars! "  4D       41.994493      0.0040391     -0.0020226\n",
  chars! "  3D       21.613292     -0.0598389      0.0428431\n",
  chars! "  3D       19.210472      0.2042584     -0.1058276\n",
  chars! "  3D       11.680393      0.5030443     -0.1202876\n",
  chars! "  3D        8.644928      0.3587071     -0.3285544\n",
  chars! "  3D        6.351845      0.0474870      0.1665113\n",
  chars! "  3D        3.983040      0.0001790      0.5253817\n",
  chars! "  3D        2.589850      0.0003136      0.4479958\n",
  chars! "  3D        1.716691     -0.0000944      0.1029379\n",
  chars! "  3D        0.628144      0.0000070      0.0003100\n",
  chars! "\n"]⟩

theorem neutral_in_ok : neutral_in.ok = true := by decide +kernel

/-- `data/neutral/sn`. -/
noncomputable def neutral_sn : DataFile := ⟨50, .neutral, [
  chars! "      TIN   K(2)L(8)M(18)4S(2)4P(6)5S(2)4D(10)5P(2), 3P                               \n",
  chars! "   E = -6022.931689355\n",
  chars! "   T =  6022.931688354     V =-12045.863377709     V/T =    -2.000000000\n",
  chars! "  ORBITAL ENERGIES AND EXPANSION COEFFICIENTS\n",
  chars! "        S                    1S             2S             3S             4S             5S \n",
  chars! "  BASIS/ORB.ENERGY    -1041.2233446   -156.9775752    -31.5989772     -5.5124997     -0.4764356\n",
  chars! "              CUSP        1.0002978      1.0001812      1.0004625      1.0005480      0.9997541\n",
  chars! "  1S       80.455846     -0.0144977      0.0553118     -0.0237180      0.0095810     -0.0028319\n",
  chars! "  3S       61.077522      0.0174734     -0.0481743      0.0212480     -0.0087058      0.0024527\n",
  chars! "  1S       51.100199      0.9862892     -0.4189688      0.1830855     -0.0780882      0.0228900\n",
  chars! "  4S       36.186771     -0.0179256      0.1106680     -0.0298278      0.0053864     -0.0029306\n",
  chars! "  3S       23.454426     -0.0137471      0.1716616     -0.6055901      0.4433990     -0.1291051\n",
  chars! "  2S       23.445269      0.0471833      0.4931897     -0.8110250      0.6352886     -0.1933617\n",
  chars! "  2S       18.620156      0.0000230      0.3362926      0.9229662     -0.9542441      0.2946869\n",
  chars! "  4S       14.151788      0.0002655      0.0034871      0.7575007     -0.5789994      0.1922979\n",
  chars! "  4S       10.492947     -0.0001719     -0.0006488      0.2915521     -0.6151320      0.2150205\n",
  chars! "  2S        3.907598      0.0001192     -0.0000670      0.0106519      1.5908849     -0.5092645\n",
  chars! "  2S        2.390486     -0.0001507     -0.0001212     -0.0038822      0.0157757     -0.7607948\n",
  chars! "  2S        1.849969      0.0001101      0.0001008      0.0022045      0.0041426      0.6259933\n",
  chars! "  2S        1.078565     -0.0000283     -0.0000276     -0.0004316     -0.0008121      0.9907551\n",
  chars! "  2S        0.728067      0.0000083      0.0000085      0.0001092      0.0002816      0.0244081\n",
  chars! "        P                    2P             3P             4P             5P \n",
  chars! "  BASIS/ORB.ENERGY     -146.4892623    -27.2090410     -3.9690540     -0.2650408\n",
  chars! "              CUSP        1.0009718      1.0009903      1.0002072      0.9992212\n",
  chars! "  2P       61.677788      0.0161149      0.0277049     -0.0192541      0.0051882\n",
  chars! "  3P       54.522439      0.0188180      0.0314146     -0.0216506      0.0058165\n",
  chars! "  3P       35.964661      0.1066856      0.1484704     -0.1019300      0.0274402\n",
  chars! "  2P       25.612520     -0.9448192     -0.6168577      0.3168417     -0.0789461\n",
  chars! "  3P       20.778057     -0.2201772     -0.1127965     -0.0001023      0.0056554\n",
  chars! "  3P       11.733191     -0.0014636      0.7761142     -0.2749161      0.0595664\n",
  chars! "  3P        9.474605     -0.0026237      0.2995494     -0.7029132      0.2133200\n",
  chars! "  3P        4.444605     -0.0051379     -0.1569917      0.1829855      0.0530090\n",
  chars! "  2P        3.619249      0.0069814      0.2401865      1.0783529     -0.3399077\n",
  chars! "  2P        2.253177     -0.0003514     -0.0343728      0.1739445     -0.3851452\n",
  chars! "  3P        2.247672     -0.0000026      0.0118788     -0.0369183      0.0776064\n",
  chars! "  2P        0.955341      0.0000494     -0.0006735      0.0027850      0.7346774\n",
  chars! "  2P        0.728067     -0.0000249      0.0002595     -0.0007700      0.4209948\n",
  chars! "        D                    3D             4D \n",
  chars! "  BASIS/ORB.ENERGY      -19.1633545     -1.3690439\n",
  chars! "              CUSP        0.9999257      1.0007180\n",
  chars! "  3D       55.746534      0.0007571     -0.0003966\n",
  chars! "  4D       42.546716      0.0039293     -0.0021240\n",
  chars! "  3D       22.054380     -0.0494597      0.0412734\n",
  chars! "  3D       19.421508      0.1996605     -0.1112105\n",
  chars! "  3D       11.855840      0.5218006     -0.1074823\n",
  chars! "  3D        9.048137      0.2844154     -0.3901734\n",
  chars! "  3D        7.315308      0.0938120      0.1673586\n",
  chars! "  3D        4.324680      0.0024575      0.5215272\n",
  chars! "  3D        2.880503     -0.0001862      0.4827935\n",
  chars! "  3D        1.913171      0.0000049      0.1040839\n",
  chars! "  3D        0.728067     -0.0000019      0.0004031\n",
  chars! "\n"]⟩

theorem neutral_sn_ok : neutral_sn.ok = true := by decide +kernel

/-- `data/neutral/sb`. -/
noncomputable def neutral_sb : DataFile := ⟨51, .neutral, [
  chars! "      ANTIMONY   K(2)L(8)M(18)4S(2)4P(6)5S(2)4D(10)5P(3), 4S                          \n",
  chars! "   E = -6313.485313640\n",
  chars! "   T =  6313.485313897     V =-12626.970627537     V/T =    -2.000000000\n",
  chars! "  ORBITAL ENERGIES AND EXPANSION COEFFICIENTS\n",
  chars! "        S                    1S             2S             3S             4S             5S \n",
  chars! "  BASIS/ORB.ENERGY    -1085.5890406   -164.7579521    -33.6362155     -6.0631831     -0.5817732\n",
  chars! "              CUSP        1.0002951      1.0001819      1.0004523      1.0005086      0.9995447\n",
  chars! "  1S       81.669053     -0.0134638     -0.0566828      0.0243091      0.0098924     -0.0031373\n",
  chars! "  3S       62.093595      0.0165381      0.0487504     -0.0214849     -0.0088482      0.0026430\n",
  chars! "  1S       52.030871      0.9868225      0.4224765     -0.1852130     -0.0799153      0.0249416\n",
  chars! "  4S       36.759376     -0.0172073     -0.1137046      0.0304473      0.0054239     -0.0037421\n",
  chars! "  3S       23.815342     -0.0124990     -0.1251989      0.6819661      0.5277022     -0.1585936\n",
  chars! "  2S       23.814678      0.0454536     -0.4273076      1.0660930      0.8994842     -0.2834488\n",
  chars! "  2S       19.636087     -0.0010285     -0.4438770     -1.2403659     -1.2924573      0.4094224\n",
  chars! "  4S       14.494462      0.0003053     -0.0042354     -0.7713220     -0.6111574      0.2166477\n",
  chars! "  4S       10.724371     -0.0002028      0.0009317     -0.2837013     -0.6259397      0.2298345\n",
  chars! "  2S        4.044819      0.0001734     -0.0001021     -0.0100942      1.6523122     -0.5054422\n",
  chars! "  3S        2.384963      0.0001234     -0.0001953     -0.0014736      0.0205380      0.4902574\n",
  chars! "  2S        2.360123     -0.0001884      0.0002811      0.0031291     -0.0288217     -0.7170314\n",
  chars! "  2S        1.204949     -0.0000311      0.0000509      0.0001909     -0.0021243      1.0659010\n",
  chars! "  2S        0.818182      0.0000093     -0.0000157     -0.0000390      0.0006083      0.0307137\n",
  chars! "        P                    2P             3P             4P             5P \n",
  chars! "  BASIS/ORB.ENERGY     -154.0037842    -29.1061440     -4.4447167     -0.3347111\n",
  chars! "              CUSP        1.0009109      1.0009247      1.0001425      0.9995527\n",
  chars! "  2P       62.951697      0.0155816      0.0262122     -0.0188221      0.0055849\n",
  chars! "  3P       55.728392      0.0179260      0.0293208     -0.0208711      0.0061790\n",
  chars! "  3P       36.852535      0.1020306      0.1389143     -0.0984827      0.0291815\n",
  chars! "  2P       26.182019     -0.9373856     -0.6041394      0.3167541     -0.0869754\n",
  chars! "  3P       21.277839     -0.2221459     -0.1217624      0.0062173      0.0044981\n",
  chars! "  3P       12.070084     -0.0005588      0.7411645     -0.2038949      0.0427736\n",
  chars! "  3P       10.015351     -0.0035681      0.3190643     -0.7393844      0.2494446\n",
  chars! "  3P        4.633217     -0.0058771     -0.1995954      0.3806189      0.0026424\n",
  chars! "  2P        3.778525      0.0079479      0.3036116      0.8480010     -0.2827206\n",
  chars! "  2P        2.345676     -0.0003433     -0.0416820      0.1816011     -0.5316514\n",
  chars! "  3P        2.323959     -0.0000411      0.0143907     -0.0429905      0.1536505\n",
  chars! "  2P        1.067563      0.0000746     -0.0010719      0.0036478      0.8387763\n",
  chars! "  2P        0.818182     -0.0000352      0.0003834     -0.0012729      0.3459677\n",
  chars! "        D                    3D             4D \n",
  chars! "  BASIS/ORB.ENERGY      -20.7980725     -1.6878644\n",
  chars! "              CUSP        1.0001673      1.0004110\n",
  chars! "  3D       56.325199      0.0007560     -0.0004604\n",
  chars! "  4D       43.270728      0.0037287     -0.0023689\n",
  chars! "  3D       23.861190     -0.0169674      0.0210008\n",
  chars! "  3D       19.352127      0.1735366     -0.0976386\n",
  chars! "  3D       12.040675      0.5423797     -0.0842374\n",
  chars! "  3D        9.494720      0.1962367     -0.4615684\n",
  chars! "  3D        7.952780      0.1532098      0.2037659\n",
  chars! "  3D        4.413147      0.0032512      0.5904422\n",
  chars! "  3D        2.960090     -0.0005976      0.4506657\n",
  chars! "  3D        1.974195      0.0000981      0.0669669\n",
  chars! "  3D        0.818182     -0.0000118      0.0004180\n",
  chars! " \n"]⟩

theorem neutral_sb_ok : neutral_sb.ok = true := by decide +kernel

/-- `data/neutral/te`. -/
noncomputable def neutral_te : DataFile := ⟨52, .neutral, [
  chars! "      TELLURIUM   K(2)L(8)M(18)4S(2)4P(6)5S(2)4D(10)5P(4), 3P                         \n",
  chars! "   E = -6611.784051172\n",
  chars! "   T =  6611.784057214     V =-13223.568108386     V/T =    -1.999999999\n",
  chars! "  ORBITAL ENERGIES AND EXPANSION COEFFICIENTS\n",
  chars! "        S                    1S             2S             3S             4S             5S \n",
  chars! "  BASIS/ORB.ENERGY    -1130.9169998   -172.7553989    -35.7548870     -6.6470174     -0.7005600\n",
  chars! "              CUSP        1.0002829      1.0000745      1.0003829      1.0006572      0.9997307\n",
  chars! "  1S       85.845242      0.0151999     -0.0498725      0.0216044      0.0088323     -0.0029369\n",
  chars! "  3S       64.575316     -0.0182834      0.0468219     -0.0208689     -0.0087541      0.0027536\n",
  chars! "  1S       53.318205     -0.9843584      0.4110387     -0.1813028     -0.0791650      0.0259641\n",
  chars! "  4S       38.055728      0.0214103     -0.1153153      0.0332073      0.0051485     -0.0036209\n",
  chars! "  4S       23.183837      0.0028794      0.0617102     -0.2361289     -0.2021387      0.0654362\n",
  chars! "  3S       23.181322      0.0440502      0.0052970      0.2336746      0.1344749     -0.0356080\n",
  chars! "  2S       20.472540     -0.0826967     -1.0339644      0.4473546      0.1497841     -0.0473504\n",
  chars! "  4S       14.954391      0.0000206     -0.0041994     -0.7750755     -0.6218167      0.2314581\n",
  chars! "  4S       11.061281      0.0001031      0.0010196     -0.2957747     -0.6458092      0.2493878\n",
  chars! "  2S        4.106440     -0.0001653     -0.0002770     -0.0117599      1.7987180     -0.5171862\n",
  chars! "  3S        2.453937     -0.0002593     -0.0006896     -0.0060266      0.2953830      1.0492647\n",
  chars! "  2S        2.078816      0.0003416      0.0008877      0.0091395     -0.4314743     -1.4033196\n",
  chars! "  2S        1.341043      0.0000063      0.0000223     -0.0003707      0.0156985      1.2109880\n",
  chars! "  2S        0.848330     -0.0000035     -0.0000109      0.0000523     -0.0013446      0.0337903\n",
  chars! "        P                    2P             3P             4P             5P \n",
  chars! "  BASIS/ORB.ENERGY     -161.7343697    -31.0840450     -4.9525675     -0.3598317\n",
  chars! "              CUSP        1.0008571      1.0007937      1.0000011      0.9999375\n",
  chars! "  2P       64.520612      0.0144891      0.0230789     -0.0170852      0.0053763\n",
  chars! "  3P       57.342579      0.0160548      0.0249203     -0.0182751      0.0057448\n",
  chars! "  3P       38.066026      0.0931224      0.1205088     -0.0880124      0.0276365\n",
  chars! "  2P       26.860842     -0.9171997     -0.5733180      0.3037345     -0.0884720\n",
  chars! "  3P       21.909185     -0.2316537     -0.1379155      0.0182506      0.0010960\n",
  chars! "  3P       12.422323     -0.0008947      0.7025233     -0.1358468      0.0235501\n",
  chars! "  3P       10.518869     -0.0035780      0.3468900     -0.7774381      0.2815596\n",
  chars! "  3P        4.865646     -0.0056813     -0.2234750      0.5680195     -0.0382135\n",
  chars! "  2P        3.990216      0.0078514      0.3492052      0.5397718     -0.1099874\n",
  chars! "  2P        2.979535     -0.0003409     -0.0398439      0.2374484     -0.6280083\n",
  chars! "  2P        1.573641     -0.0001520      0.0035158     -0.0016545      0.2602240\n",
  chars! "  2P        1.082552      0.0001445     -0.0019367      0.0031985      0.7459288\n",
  chars! "  2P        0.848330     -0.0000597      0.0006263     -0.0007358      0.2649131\n",
  chars! "        D                    3D             4D \n",
  chars! "  BASIS/ORB.ENERGY      -22.5123472     -2.0382872\n",
  chars! "              CUSP        0.9995050      1.0003476\n",
  chars! "  3D       57.659379      0.0007132     -0.0004389\n",
  chars! "  4D       44.352216      0.0034987     -0.0022355\n",
  chars! "  3D       24.129056     -0.0180595      0.0228285\n",
  chars! "  3D       19.832277      0.1743763     -0.1021000\n",
  chars! "  3D       12.290430      0.5675455     -0.0839308\n",
  chars! "  3D        9.774302      0.1497072     -0.5117118\n",
  chars! "  3D        8.292981      0.1740867      0.2449969\n",
  chars! "  3D        4.494608      0.0027133      0.6583887\n",
  chars! "  3D        3.020391     -0.0004911      0.4093601\n",
  chars! "  3D        1.937052      0.0000534      0.0350382\n",
  chars! "  3D        0.848330     -0.0000092      0.0001836\n",
  chars! " \n"]⟩

theorem neutral_te_ok : neutral_te.ok = true := by decide +kernel

/-- `data/neutral/i`. -/
noncomputable def neutral_i : DataFile := ⟨53, .neutral, [
  chars! "      IODINE   K(2)L(8)M(18)4S(2)4P(6)5S(2)4D(10)5P(5), 2P                            \n",
  chars! "   E = -6917.980888325\n",
  chars! "   T =  6917.980898267     V =-13835.961786593     V/T =    -1.999999999\n",
  chars! "  ORBITAL ENERGIES AND EXPANSION COEFFICIENTS\n",
  chars! "        S                    1S             2S             3S             4S             5S \n",
  chars! "  BASIS/ORB.ENERGY    -1177.1862929   -180.9492143    -37.9344629     -7.2443588     -0.8211154\n",
  chars! "              CUSP        1.0002349      1.0000153      1.0003255      1.0005513      0.9996646\n",
  chars! "  1S       90.775507      0.0210910     -0.0436467      0.0193995      0.0082873     -0.0028487\n",
  chars! "  3S       67.802436     -0.0235692      0.0433924     -0.0198191     -0.0086432      0.0028272\n",
  chars! "  1S       55.080861     -0.9790037      0.3957606     -0.1762111     -0.0784868      0.0267557\n",
  chars! "  4S       39.986811      0.0303279     -0.1135201      0.0386087      0.0108011     -0.0052902\n",
  chars! "  3S       23.497728      0.0794190     -0.0341450      0.2259894      0.1177502     -0.0327946\n",
  chars! "  4S       23.479689      0.0074855      0.1489421     -0.2644256     -0.2074903      0.0701377\n",
  chars! "  2S       19.940176     -0.1355617     -1.0627837      0.4732098      0.1630886     -0.0531779\n",
  chars! "  4S       15.302284      0.0014779      0.0002187     -0.7815536     -0.6407296      0.2479146\n",
  chars! "  4S       11.327208     -0.0005014     -0.0003227     -0.2920549     -0.6592307      0.2646822\n",
  chars! "  2S        4.191130      0.0004004      0.0007952     -0.0130934      1.9855630     -0.4921759\n",
  chars! "  3S        2.668132      0.0005376      0.0007992     -0.0072692      0.5181791      1.1406449\n",
  chars! "  2S        2.302372     -0.0007565     -0.0011659      0.0115033     -0.7992448     -1.5440675\n",
  chars! "  2S        1.436633     -0.0000101     -0.0000038     -0.0002506      0.0179623      1.2088763\n",
  chars! "  2S        0.897975      0.0000046      0.0000036      0.0000380     -0.0015257      0.0294759\n",
  chars! "        P                    2P             3P             4P             5P \n",
  chars! "  BASIS/ORB.ENERGY     -169.6603413    -33.1223069     -5.4733562     -0.4031799\n",
  chars! "              CUSP        1.0008014      1.0009610      1.0002136      0.9996176\n",
  chars! "  2P       65.960053      0.0140379      0.0235585     -0.0185441      0.0065216\n",
  chars! "  3P       58.378207      0.0161272      0.0264122     -0.0205994      0.0072266\n",
  chars! "  3P       38.587026      0.0932236      0.1255009     -0.0973088      0.0341602\n",
  chars! "  2P       27.259158     -0.9261995     -0.5899244      0.3299415     -0.1049812\n",
  chars! "  3P       22.203480     -0.2227614     -0.1360554      0.0185145      0.0039554\n",
  chars! "  3P       12.897653      0.0061060      0.4668668      0.2243914     -0.1161332\n",
  chars! "  3P       11.549105     -0.0098136      0.5427630     -1.0172720      0.4048012\n",
  chars! "  3P        5.203779     -0.0071616     -0.2971175      0.9310447     -0.1112487\n",
  chars! "  2P        4.277522      0.0104386      0.4925415     -0.2390633      0.2763217\n",
  chars! "  2P        3.458100     -0.0008598     -0.0721425      0.5531025     -0.9278147\n",
  chars! "  2P        1.408252     -0.0001304      0.0021008      0.0035396      0.6651689\n",
  chars! "  2P        0.963088      0.0003745     -0.0041354      0.0009474      0.7272596\n",
  chars! "  2P        0.897975     -0.0002868      0.0029821     -0.0003325     -0.1331586\n",
  chars! "        D                    3D             4D \n",
  chars! "  BASIS/ORB.ENERGY      -24.2856885     -2.4012044\n",
  chars! "              CUSP        0.9993134      1.0009349\n",
  chars! "  3D       58.400845      0.0007323     -0.0004544\n",
  chars! "  4D       45.117174      0.0034936     -0.0022398\n",
  chars! "  3D       24.132009     -0.0294994      0.0330601\n",
  chars! "  3D       20.588554      0.1804500     -0.1129370\n",
  chars! "  3D       12.624386      0.5807380     -0.0728984\n",
  chars! "  3D       10.217388      0.1086146     -0.5296807\n",
  chars! "  3D        8.680013      0.2060658      0.2335904\n",
  chars! "  3D        4.627159      0.0026186      0.7203740\n",
  chars! "  3D        3.093797     -0.0005043      0.3707250\n",
  chars! "  3D        1.795536      0.0000452      0.0165929\n",
  chars! "  3D        0.897975     -0.0000121     -0.0001881\n",
  chars! " \n"]⟩

theorem neutral_i_ok : neutral_i.ok = true := by decide +kernel

/-- `data/neutral/xe`. -/
noncomputable def neutral_xe : DataFile := ⟨54, .neutral, [
  chars! "      XENON   K(2)L(8)M(18)4S(2)4P(6)5S(2)4D(10)5P(6), 1S                             \n",
  chars! "   E = -7232.138355835\n",
  chars! "   T =  7232.138367196     V =-14464.276723031     V/T =    -1.999999998\n",
  chars! "  ORBITAL ENERGIES AND EXPANSION COEFFICIENTS\n",
  chars! "        S                    1S             2S             3S             4S             5S \n",
  chars! "  BASIS/ORB.ENERGY    -1224.3977738   -189.3401152    -40.1756603     -7.8563003     -0.9444127\n",
  chars! "              CUSP        1.0002286      1.0000408      1.0003451      1.0005828      0.9999155\n",
  chars! "  1S       91.946915      0.0218562     -0.0447262      0.0197549      0.0084225     -0.0029840\n",
  chars! "  3S       68.927732     -0.0236198      0.0431666     -0.0196116     -0.0085599      0.0029145\n",
  chars! "  1S       56.137679     -0.9799102      0.3974697     -0.1772367     -0.0796025      0.0280330\n",
  chars! "  4S       40.832514      0.0295929     -0.1107640      0.0360085      0.0087589     -0.0043887\n",
  chars! "  3S       24.369639      0.0726198     -0.0713156      0.2475037      0.1357616     -0.0415904\n",
  chars! "  4S       24.363016      0.0092328      0.1367843     -0.2446984     -0.2007813      0.0715999\n",
  chars! "  2S       20.633849     -0.1298499     -1.0203499      0.4503823      0.1534278     -0.0513284\n",
  chars! "  4S       15.760476      0.0012985     -0.0003519     -0.7781326     -0.6404184      0.2555913\n",
  chars! "  4S       11.686818     -0.0004369     -0.0002241     -0.3061714     -0.6740854      0.2829829\n",
  chars! "  2S        4.107994      0.0002222      0.0005977     -0.0127129      2.0103783     -0.9792225\n",
  chars! "  4S        3.311303      0.0002835      0.0005394     -0.0069935      0.6542573      0.4336087\n",
  chars! "  3S        2.975274     -0.0003757     -0.0007547      0.0106976     -0.9936253     -0.4596436\n",
  chars! "  2S        1.535005     -0.0000155     -0.0000196     -0.0000776      0.0135100      1.2135395\n",
  chars! "  2S        0.956336      0.0000042      0.0000048      0.0000216     -0.0012218      0.0296198\n",
  chars! "        P                    2P             3P             4P             5P \n",
  chars! "  BASIS/ORB.ENERGY     -177.7824424    -35.2216594     -6.0083372     -0.4572897\n",
  chars! "              CUSP        1.0009047      1.0009980      1.0001646      0.9996993\n",
  chars! "  2P       66.836641      0.0155163      0.0240227     -0.0197939      0.0072922\n",
  chars! "  3P       59.325786      0.0173178      0.0261933     -0.0213671      0.0078545\n",
  chars! "  3P       39.440533      0.0971647      0.1238201     -0.1005815      0.0369923\n",
  chars! "  2P       27.876421     -0.9311701     -0.5896106      0.3430395     -0.1142460\n",
  chars! "  3P       22.662415     -0.2248277     -0.1438403      0.0231298      0.0035536\n",
  chars! "  3P       13.533766      0.0118617      0.1837060      0.4811889     -0.2210272\n",
  chars! "  3P       12.290050     -0.0150066      0.8031539     -1.2011318      0.4958651\n",
  chars! "  3P        5.472844     -0.0081732     -0.3429838      1.1717591     -0.1864295\n",
  chars! "  2P        4.492251      0.0121570      0.5925902     -0.7564621      0.5966567\n",
  chars! "  2P        3.729958     -0.0012015     -0.1038175      0.7677233     -1.2028480\n",
  chars! "  2P        1.571562     -0.0001702      0.0022938      0.0029732      0.5911428\n",
  chars! "  2P        1.115472      0.0002467     -0.0022069      0.0001652      0.5878277\n",
  chars! "  2P        0.956336     -0.0001343      0.0010511     -0.0002639      0.1111431\n",
  chars! "        D                    3D             4D \n",
  chars! "  BASIS/ORB.ENERGY      -26.1188668     -2.7778799\n",
  chars! "              CUSP        0.9997529      1.0005315\n",
  chars! "  3D       59.845045      0.0008744     -0.0006386\n",
  chars! "  4D       46.464727      0.0040913     -0.0030974\n",
  chars! "  3D       25.986788     -0.0470460      0.0445101\n",
  chars! "  3D       22.364559      0.1677120     -0.1106186\n",
  chars! "  3D       13.517132      0.5130135     -0.0924762\n",
  chars! "  3D       10.630383      0.2378125     -0.4855794\n",
  chars! "  3D        8.943390      0.1716405      0.1699923\n",
  chars! "  3D        4.862982      0.0045670      0.7240230\n",
  chars! "  3D        3.343632     -0.0014159      0.3718553\n",
  chars! "  3D        2.100705      0.0002479      0.0251152\n",
  chars! "  3D        0.956336     -0.0000382      0.0001040\n",
  chars! " \n"]⟩

theorem neutral_xe_ok : neutral_xe.ok = true := by decide +kernel

/-- `data/neutral/cs`. -/
noncomputable def neutral_cs : DataFile := ⟨55, .neutral, [
  chars! "      CESIUM   [XE]6S(1), 2S\n",
  chars! "      CHARGE = 55.000000\n",
  chars! "      SYMMETRY SPECIES               S     P     D\n",
  chars! "      NUMBER OF BASIS FUNCTIONS     13    10     7\n",
  chars! "      NUMBER OF CLOSED SHELLS        5     4     2\n",
  chars! "      NUMBER OF OPEN SHELLS          1     0     0\n",
  chars! "      OPEN SHELL OCCUPATION NUMBER   1     0     5\n",
  chars! "   E = -7553.933536555\n",
  chars! "   T =  7553.933539793     V =-15107.867076348     V/T =    -2.000000000\n",
  chars! "  ORBITAL ENERGIES AND EXPANSION COEFFICIENTS\n",
  chars! "        S                    1S             2S             3S             4S             5S             6S \n",
  chars! "  BASIS/ORB.ENERGY    -1272.7688113   -198.1437597    -42.6930110     -8.6954702     -1.2315923     -0.1236387\n",
  chars! "  1S       72.432562      0.0377623      0.0103858     -0.0044410      0.0008170     -0.0005962     -0.0000189\n",
  chars! "  1S       54.152961      0.9551564     -0.3460218      0.1549825     -0.0695741      0.0263093     -0.0057221\n",
  chars! "  2S       44.781947      0.0098484     -0.2411602      0.1176682     -0.0581946      0.0209939     -0.0051315\n",
  chars! "  2S       26.827713      0.0016466      0.9740101     -0.4700583      0.2253993     -0.0827492      0.0194272\n",
  chars! "  3S       24.294310     -0.0009236      0.2843564     -0.3799401      0.1903026     -0.0742903      0.0158226\n",
  chars! "  3S       13.933326      0.0007609      0.0266942      0.4918863      0.1358413     -0.0825567      0.0253313\n",
  chars! "  3S       11.953711     -0.0006588     -0.0151287      0.7577563     -1.1867227      0.5211043     -0.1272332\n",
  chars! "  3S        5.980958      0.0002115      0.0018900      0.0371581      1.1149583     -0.4306240      0.1068061\n",
  chars! "  3S        4.692356     -0.0001554     -0.0013985     -0.0170224      0.2712921     -0.4760294      0.1109156\n",
  chars! "  3S        2.500713      0.0000453      0.0003806      0.0030623      0.0032891      0.7797928     -0.1899775\n",
  chars! "  3S        1.798027     -0.0000218     -0.0001726     -0.0013938      0.0004197      0.5114934     -0.1956432\n",
  chars! "  3S        0.588383      0.0000036      0.0000280      0.0002044     -0.0000297      0.0007642      1.0078373\n",
  chars! "  3S        0.390475     -0.0000021     -0.0000164     -0.0001189      0.0000144      0.0000802      0.0502065\n",
  chars! "        P                    2P             3P             4P             5P \n",
  chars! "  BASIS/ORB.ENERGY     -186.3161619    -37.5959207     -6.7685193     -0.6834638\n",
  chars! "  2P       45.866789      0.0210501     -0.0073758      0.0037098     -0.0015482\n",
  chars! "  2P       27.025862      0.8198700     -0.3941551      0.1755499     -0.0576959\n",
  chars! "  3P       23.215568      0.1878594     -0.3249796      0.2250350     -0.0958059\n",
  chars! "  4P       18.118816      0.0093039     -0.3910175      0.3933548     -0.1917067\n",
  chars! "  3P       14.399860     -0.0058215      1.3221003     -0.9500830      0.4178221\n",
  chars! "  3P       10.231415      0.0008863      0.3695076     -0.4769754      0.1571339\n",
  chars! "  3P        5.932205     -0.0003720      0.0035781      1.0868046     -0.4645357\n",
  chars! "  4P        4.962671      0.0000783      0.0003709      0.2793788     -0.2648592\n",
  chars! "  3P        2.159681     -0.0000195     -0.0001195      0.0095076      0.7363377\n",
  chars! "  3P        1.445617      0.0000078      0.0000376     -0.0019457      0.4728437\n",
  chars! "        D                    3D             4D \n",
  chars! "  BASIS/ORB.ENERGY      -28.2262125     -3.3795287\n",
  chars! "  3D       32.852137      0.0074132     -0.0025615\n",
  chars! "  3D       18.354403      0.4361883     -0.1930536\n",
  chars! "  4D       14.523221      0.4775524     -0.2057559\n",
  chars! "  4D       10.312620      0.1684697     -0.1179374\n",
  chars! "  4D        7.919345      0.0012654      0.4341816\n",
  chars! "  4D        5.157647      0.0011730      0.6417053\n",
  chars! "  4D        3.330606     -0.0002517      0.1309576\n"]⟩

theorem neutral_cs_ok : neutral_cs.ok = true := by decide +kernel

/-- `data/neutral/ba`. -/
noncomputable def neutral_ba : DataFile := ⟨56, .neutral, [
  chars! "      BARIUM   [XE]6S(2), 1S                                                          \n",
  chars! "      CHARGE = 56.000000\n",
  chars! "      SYMMETRY SPECIES               S     P     D \n",
  chars! "      NUMBER OF BASIS FUNCTIONS     13    10     7\n",
  chars! "      NUMBER OF CLOSED SHELLS        6     4     2\n",
  chars! "      NUMBER OF OPEN SHELLS          0     0     0\n",
  chars! "      OPEN SHELL OCCUPATION NUMBER   0     0     0\n",
  chars! "   E = -7883.543708638\n",
  chars! "   T =  7883.543713832     V =-15767.087422469     V/T =    -1.999999999\n",
  chars! "  ORBITAL ENERGIES AND EXPANSION COEFFICIENTS\n",
  chars! "        S                    1S             2S             3S             4S             5S             6S \n",
  chars! "  BASIS/ORB.ENERGY    -1322.0933598   -207.1544237    -45.2808094     -9.5563601     -1.5126808     -0.1575083\n",
  chars! "  1S       73.408386      0.0389526      0.0107795     -0.0045627      0.0008967     -0.0006995      0.0000743\n",
  chars! "  1S       55.121608      0.9543018     -0.3471179      0.1559313     -0.0707771      0.0281535     -0.0075747\n",
  chars! "  2S       45.589826      0.0093847     -0.2417351      0.1185820     -0.0591276      0.0223137     -0.0064325\n",
  chars! "  2S       27.288659      0.0017129      0.9799271     -0.4750104      0.2298952     -0.0884563      0.0248914\n",
  chars! "  3S       24.735741     -0.0009738      0.2791374     -0.3811963      0.1937714     -0.0798378      0.0212647\n",
  chars! "  3S       14.154755      0.0008856      0.0276330      0.5106202      0.1718973     -0.1036767      0.0352075\n",
  chars! "  3S       12.256065     -0.0007812     -0.0165055      0.7406760     -1.2473274      0.5754007     -0.1683729\n",
  chars! "  3S        6.196423      0.0002732      0.0022935      0.0433847      1.0716014     -0.3781625      0.1084627\n",
  chars! "  3S        5.035677     -0.0002040     -0.0017122     -0.0213837      0.3266426     -0.5843751      0.1781953\n",
  chars! "  3S        2.516335      0.0000567      0.0004395      0.0034288      0.0074697      1.0042665     -0.3055246\n",
  chars! "  3S        1.862701     -0.0000347     -0.0002562     -0.0019941     -0.0016966      0.3002312     -0.2247028\n",
  chars! "  3S        0.807625      0.0000098      0.0000700      0.0005034      0.0003105     -0.0031825      0.6849016\n",
  chars! "  3S        0.594012     -0.0000055     -0.0000390     -0.0002781     -0.0001590      0.0015204      0.4392419\n",
  chars! "        P                    2P             3P             4P             5P \n",
  chars! "  BASIS/ORB.ENERGY     -195.0559248    -40.0397552     -7.5492833     -0.9038245\n",
  chars! "  2P       46.966097      0.0199630     -0.0070187      0.0035009     -0.0015386\n",
  chars! "  2P       27.608616      0.8182538     -0.3947519      0.1783800     -0.0628028\n",
  chars! "  3P       23.743389      0.1904196     -0.3291007      0.2243391     -0.0999990\n",
  chars! "  4P       18.568484      0.0088858     -0.3918549      0.3801198     -0.1931070\n",
  chars! "  3P       14.716154     -0.0051839      1.3375133     -0.9427099      0.4335618\n",
  chars! "  3P       10.415319      0.0007757      0.3584581     -0.5023057      0.1814481\n",
  chars! "  3P        6.176644     -0.0003682      0.0017990      1.0980750     -0.5040309\n",
  chars! "  4P        5.202768      0.0000721      0.0008247      0.2931051     -0.3034165\n",
  chars! "  3P        2.231317     -0.0000163     -0.0002131      0.0099021      0.9052275\n",
  chars! "  3P        1.527034      0.0000067      0.0000801     -0.0025364      0.3249073\n",
  chars! "        D                    3D             4D \n",
  chars! "  BASIS/ORB.ENERGY      -30.4022785     -4.0014630\n",
  chars! "  3D       33.450500      0.0073496     -0.0025622\n",
  chars! "  3D       18.748779      0.4383067     -0.1985296\n",
  chars! "  4D       14.846820      0.4826192     -0.2122128\n",
  chars! "  4D       10.453672      0.1653351     -0.1491822\n",
  chars! "  4D        8.414827     -0.0045282      0.4345895\n",
  chars! "  4D        5.487808      0.0016290      0.6594324\n",
  chars! "  4D        3.614287     -0.0003184      0.1440156\n"]⟩

theorem neutral_ba_ok : neutral_ba.ok = true := by decide +kernel

/-- Part 3 of the files. -/
noncomputable def part3 : List DataFile := [
  neutral_ru, neutral_rh, neutral_pd, neutral_ag, neutral_cd, neutral_in, neutral_sn, neutral_sb, neutral_te, neutral_i, neutral_xe, neutral_cs, neutral_ba]

theorem part3_ok : ∀ d ∈ part3, d.ok = true := by
  intro d hd
  unfold part3 at hd
  simp only [List.mem_cons, List.not_mem_nil, or_false] at hd
  rcases hd with rfl | rfl | rfl | rfl | rfl | rfl | rfl | rfl | rfl | rfl | rfl | rfl | rfl
  · exact neutral_ru_ok
  · exact neutral_rh_ok
  · exact neutral_pd_ok
  · exact neutral_ag_ok
  · exact neutral_cd_ok
  · exact neutral_in_ok
  · exact neutral_sn_ok
  · exact neutral_sb_ok
  · exact neutral_te_ok
  · exact neutral_i_ok
  · exact neutral_xe_ok
  · exact neutral_cs_ok
  · exact neutral_ba_ok

end BFit.Data
