import Verif.Lemmas.DataNum

/-! Copy of files in /repo/bfit/data/data.tar, generated by tools/gendata.py. -/

namespace BFit.Data

/-- `data/anion/sn`. -/
noncomputable def anion_sn : DataFile := ⟨50, .anion, [
  chars! "      TIN-   K(2)L(8)M(18)4S(2)4P(6)5S(2)4D(10)5P(3), 4S                              \n",
  chars! "   E = -6022.972651014\n",
  chars! "   T =  6022.972630571     V =-12045.945281586     V/T =    -2.000000003\n",
  chars! "  ORBITAL ENERGIES AND EXPANSION COEFFICIENTS\n",
  chars! "        S                    1S             2S             3S             4S             5S \n",
  chars! "  BASIS/ORB.ENERGY    -1040.9933452   -156.7476992    -31.3690610     -5.2822290     -0.2655001\n",
  chars! "              CUSP        1.0001880      1.0000877      1.0002348      1.0003305      1.0007671\n",
  chars! "  1S       94.900535     -0.0138183     -0.0132508     -0.0068447      0.0033716     -0.0010673\n",
  chars! "  3S       68.137341      0.0198562      0.0175628      0.0094001     -0.0047286      0.0015475\n",
  chars! "  1S       52.948296      0.9410948      0.3254143      0.1455764     -0.0641719      0.0182540\n",
  chars! "  3S       34.761265     -0.1279953     -0.2638608     -0.0986014      0.0317580     -0.0057559\n",
  chars! "  3S       26.007709     -0.0749505     -0.5191222     -0.3136082      0.1690211     -0.0541201\n",
  chars! "  2S       25.949436      0.2451754      0.0125773      0.0779480     -0.0128240     -0.0043821\n",
  chars! "  2S       16.903961      0.0097245     -0.3041022     -0.4121925      0.1143258     -0.0086787\n",
  chars! "  3S       11.858400     -0.0023458      0.0293897      0.8990223     -0.0910092     -0.0217629\n",
  chars! "  3S       10.176580      0.0017831     -0.0262384      0.2807362     -1.0320301      0.4226436\n",
  chars! "  3S        4.868171      0.0009141     -0.0176844     -0.2110214      0.5271259      0.0160398\n",
  chars! "  2S        4.006024     -0.0013809      0.0263304      0.3343813      0.7176434     -0.2702319\n",
  chars! "  2S        3.039834      0.0001422     -0.0024133     -0.0364427      0.2118723     -0.5787906\n",
  chars! "  2S        1.301440     -0.0000059      0.0000485      0.0015625     -0.0032956      0.7888065\n",
  chars! "  2S        0.827032      0.0000029     -0.0000167     -0.0007899      0.0021796      0.4667013\n",
  chars! "  1S        0.348192     -0.0000008      0.0000031      0.0002104     -0.0005747      0.0108722\n",
  chars! "        P                    2P             3P             4P             5P \n",
  chars! "  BASIS/ORB.ENERGY     -146.2595603    -26.9794956     -3.7395494     -0.0606190\n",
  chars! "              CUSP        1.0008952      1.0008567      1.0000324      0.9992871\n",
  chars! "  2P       61.557331      0.0158245      0.0274683     -0.0191676      0.0044471\n",
  chars! "  3P       54.446852      0.0183766      0.0309618     -0.0214240      0.0049585\n",
  chars! "  3P       35.958273      0.1048576      0.1465037     -0.1009453      0.0233928\n",
  chars! "  2P       25.603693     -0.9423005     -0.6138386      0.3153120     -0.0680307\n",
  chars! "  3P       20.785282     -0.2202437     -0.1130942     -0.0001419      0.0045469\n",
  chars! "  3P       11.749263     -0.0016597      0.7732700     -0.2781282      0.0530937\n",
  chars! "  3P        9.457270     -0.0022566      0.3093412     -0.7070862      0.1847434\n",
  chars! "  3P        4.402498     -0.0043002     -0.1387519      0.1650614      0.0459218\n",
  chars! "  2P        3.621333      0.0058319      0.2084323      1.1062552     -0.2893138\n",
  chars! "  2P        2.448783     -0.0001775     -0.0168521      0.1389558     -0.2777657\n",
  chars! "  3P        1.797727     -0.0000665      0.0022398     -0.0039361      0.0281210\n",
  chars! "  2P        0.963211      0.0000615     -0.0008740      0.0027254      0.6083342\n",
  chars! "  2P        0.565190     -0.0000261      0.0002544     -0.0007383      0.4959805\n",
  chars! "  2P        0.348192      0.0000073     -0.0000603      0.0001407      0.0416434\n",
  chars! "        D                    3D             4D \n",
  chars! "  BASIS/ORB.ENERGY      -18.9337384     -1.1392392\n",
  chars! "              CUSP        0.9994001      1.0003274\n",
  chars! "  3D       55.822411      0.0006748     -0.0003516\n",
  chars! "  4D       42.711782      0.0034267     -0.0018448\n",
  chars! "  3D       22.202820     -0.0229624      0.0255010\n",
  chars! "  3D       18.939736      0.1790588     -0.0983034\n",
  chars! "  3D       11.836843      0.5136533     -0.1023303\n",
  chars! "  3D        9.058130      0.2881761     -0.3928070\n",
  chars! "  3D        7.334322      0.0922255      0.1654587\n",
  chars! "  3D        4.348937      0.0034229      0.5107462\n",
  chars! "  3D        2.914349     -0.0006622      0.4847946\n",
  chars! "  3D        1.946943      0.0001708      0.1134103\n",
  chars! "  3D        1.009402     -0.0000326      0.0030447\n",
  chars! "  3D        0.348192      0.0000041      0.0000335\n",
  chars! " \n"]⟩

theorem anion_sn_ok : anion_sn.ok = true := by decide +kernel

/-- `data/anion/sb`. -/
noncomputable def anion_sb : DataFile := ⟨51, .anion, [
  chars! "      ANTIMONY-   K(2)L(8)M(18)4S(2)4P(6)5S(2)4D(10)5P(4), 3P                         \n",
  chars! "   E = -6313.481511833\n",
  chars! "   T =  6313.481503701     V =-12626.963015534     V/T =    -2.000000001\n",
  chars! "  ORBITAL ENERGIES AND EXPANSION COEFFICIENTS\n",
  chars! "        S                    1S             2S             3S             4S             5S \n",
  chars! "  BASIS/ORB.ENERGY    -1085.3516648   -164.5205294    -33.3986527     -5.8250541     -0.3613207\n",
  chars! "              CUSP        1.0001788      1.0001050      1.0002453      1.0003464      1.0007016\n",
  chars! "  1S       96.798546     -0.0141928     -0.0131150     -0.0067904      0.0034078     -0.0011473\n",
  chars! "  3S       69.652001      0.0199444      0.0171203      0.0091802     -0.0047097      0.0016323\n",
  chars! "  1S       54.100312      0.9397293      0.3247224      0.1458471     -0.0651759      0.0198790\n",
  chars! "  3S       35.654960     -0.1306681     -0.2613933     -0.0987088      0.0320631     -0.0065341\n",
  chars! "  3S       26.659081     -0.0764538     -0.5284025     -0.3150808      0.1721080     -0.0588917\n",
  chars! "  2S       26.648000      0.2502062      0.0203516      0.0839064     -0.0157034     -0.0034135\n",
  chars! "  2S       17.135996      0.0106821     -0.3073575     -0.4307024      0.1309100     -0.0141908\n",
  chars! "  3S       12.212107     -0.0037390      0.0451257      0.8336697      0.1256863     -0.1177532\n",
  chars! "  3S       10.809756      0.0030187     -0.0392193      0.3368850     -1.1840399      0.5239394\n",
  chars! "  3S        5.084521      0.0012667     -0.0195442     -0.2495807      0.7808821     -0.0559575\n",
  chars! "  2S        4.177670     -0.0019415      0.0298046      0.4083330      0.3228149     -0.0485069\n",
  chars! "  2S        3.294303      0.0002286     -0.0033016     -0.0543641      0.2950699     -0.8008331\n",
  chars! "  2S        1.426771     -0.0000047      0.0000268      0.0016560     -0.0034688      0.8565773\n",
  chars! "  2S        0.923016      0.0000018     -0.0000027     -0.0007845      0.0024001      0.4478187\n",
  chars! "  1S        0.380412     -0.0000004     -0.0000013      0.0001823     -0.0005461      0.0095344\n",
  chars! "        P                    2P             3P             4P             5P \n",
  chars! "  BASIS/ORB.ENERGY     -153.7665316    -28.8689004     -4.2072215     -0.0723568\n",
  chars! "              CUSP        1.0009048      1.0009847      1.0002512      0.9996832\n",
  chars! "  2P       63.108478      0.0152445      0.0261096     -0.0188258      0.0050029\n",
  chars! "  3P       55.799187      0.0177389      0.0295452     -0.0211213      0.0056006\n",
  chars! "  3P       36.824657      0.1013657      0.1398144     -0.0994919      0.0264012\n",
  chars! "  2P       26.158874     -0.9372823     -0.6061088      0.3189534     -0.0783335\n",
  chars! "  3P       21.264468     -0.2210263     -0.1206951      0.0059632      0.0042643\n",
  chars! "  3P       12.079975     -0.0005558      0.7299127     -0.1863522      0.0335532\n",
  chars! "  3P       10.066493     -0.0034130      0.3275341     -0.7442138      0.2248847\n",
  chars! "  3P        4.665185     -0.0052029     -0.1989825      0.4156953      0.0048074\n",
  chars! "  2P        3.822874      0.0072537      0.3077075      0.7229491     -0.1874018\n",
  chars! "  2P        2.819023     -0.0004024     -0.0324281      0.2244747     -0.3902175\n",
  chars! "  3P        1.833682     -0.0000713      0.0022473     -0.0010878      0.1076938\n",
  chars! "  2P        1.026448      0.0000724     -0.0011699      0.0025321      0.6266632\n",
  chars! "  2P        0.607960     -0.0000300      0.0003343     -0.0003806      0.4263521\n",
  chars! "  2P        0.380412      0.0000083     -0.0000806      0.0001414      0.0338499\n",
  chars! "        D                    3D             4D \n",
  chars! "  BASIS/ORB.ENERGY      -20.5608071     -1.4501401\n",
  chars! "              CUSP        0.9992629      1.0006934\n",
  chars! "  3D       57.719626      0.0006751     -0.0003863\n",
  chars! "  4D       44.051548      0.0035203     -0.0020750\n",
  chars! "  3D       23.600649     -0.0240347      0.0241934\n",
  chars! "  3D       19.719256      0.1709648     -0.0946237\n",
  chars! "  3D       12.226480      0.5229215     -0.1144670\n",
  chars! "  3D        9.309346      0.2932485     -0.4164377\n",
  chars! "  3D        7.533815      0.0860199      0.1919972\n",
  chars! "  3D        4.424274      0.0027357      0.5592006\n",
  chars! "  3D        3.010951     -0.0005220      0.4649712\n",
  chars! "  3D        1.978292      0.0000965      0.0739717\n",
  chars! "  3D        1.023030     -0.0000228      0.0014905\n",
  chars! "  3D        0.380412      0.0000030      0.0001087\n",
  chars! " \n"]⟩

theorem anion_sb_ok : anion_sb.ok = true := by decide +kernel

/-- `data/anion/te`. -/
noncomputable def anion_te : DataFile := ⟨52, .anion, [
  chars! "      TELLURIUM-   K(2)L(8)M(18)4S(2)4P(6)5S(2)4D(10)5P(5), 2P                        \n",
  chars! "   E = -6611.827941644\n",
  chars! "   T =  6611.827930431     V =-13223.655872076     V/T =    -2.000000002\n",
  chars! "  ORBITAL ENERGIES AND EXPANSION COEFFICIENTS\n",
  chars! "        S                    1S             2S             3S             4S             5S \n",
  chars! "  BASIS/ORB.ENERGY    -1130.6505376   -172.4890891    -35.4885483     -6.3804062     -0.4574659\n",
  chars! "              CUSP        1.0001730      1.0001057      1.0002292      1.0002859      1.0006668\n",
  chars! "  1S       98.696557     -0.0143932     -0.0130455     -0.0067416      0.0033951     -0.0012193\n",
  chars! "  3S       71.109902      0.0199657      0.0168675      0.0090121     -0.0046249      0.0017158\n",
  chars! "  1S       55.203765      0.9392786      0.3246354      0.1463100     -0.0661231      0.0212964\n",
  chars! "  3S       36.413466     -0.1323231     -0.2635481     -0.1010178      0.0342491     -0.0072532\n",
  chars! "  3S       27.185358     -0.0782091     -0.5381882     -0.3224378      0.1775261     -0.0647529\n",
  chars! "  2S       27.176295      0.2537162      0.0167374      0.0817764     -0.0157055     -0.0046540\n",
  chars! "  2S       17.146329      0.0113479     -0.2978286     -0.4403559      0.1459397     -0.0151956\n",
  chars! "  3S       12.624989     -0.0058402      0.0749923      0.7030322      0.4593905     -0.2893801\n",
  chars! "  3S       11.500387      0.0047792     -0.0640411      0.4583352     -1.4349070      0.6897869\n",
  chars! "  3S        5.338931      0.0014140     -0.0224189     -0.3030897      1.0804712     -0.1251484\n",
  chars! "  2S        4.354008     -0.0023001      0.0361803      0.5285607     -0.2525433      0.3129503\n",
  chars! "  2S        3.598887      0.0003876     -0.0057986     -0.0986951      0.4958316     -1.1398850\n",
  chars! "  2S        1.543469     -0.0000054      0.0000280      0.0020354     -0.0043522      0.8986827\n",
  chars! "  2S        1.014789      0.0000022     -0.0000018     -0.0009962      0.0032828      0.4421499\n",
  chars! "  1S        0.439220     -0.0000005     -0.0000020      0.0002393     -0.0007839      0.0094548\n",
  chars! "        P                    2P             3P             4P             5P \n",
  chars! "  BASIS/ORB.ENERGY     -161.4682241    -30.8180575     -4.6866727     -0.0964573\n",
  chars! "              CUSP        1.0009163      1.0009650      1.0001662      0.9996142\n",
  chars! "  2P       64.685899      0.0151440      0.0250414     -0.0185982      0.0055130\n",
  chars! "  3P       57.184474      0.0176003      0.0283638     -0.0208815      0.0061761\n",
  chars! "  3P       37.739300      0.0998026      0.1341043     -0.0983022      0.0290949\n",
  chars! "  2P       26.741405     -0.9343140     -0.5997170      0.3235037     -0.0879742\n",
  chars! "  3P       21.741953     -0.2228118     -0.1289629      0.0130857      0.0035556\n",
  chars! "  3P       12.398140      0.0022257      0.6631113     -0.0273966     -0.0162770\n",
  chars! "  3P       10.781732     -0.0063711      0.3622625     -0.8355113      0.2836807\n",
  chars! "  3P        4.928817     -0.0073765     -0.2807217      0.6827556     -0.0520832\n",
  chars! "  2P        3.986007      0.0106251      0.4584277      0.2943408     -0.0174648\n",
  chars! "  2P        3.099862     -0.0010261     -0.0746964      0.3298143     -0.5822654\n",
  chars! "  3P        2.193439     -0.0001030      0.0043449     -0.0022837      0.0694874\n",
  chars! "  2P        1.200562      0.0000940     -0.0015193      0.0038092      0.6741054\n",
  chars! "  2P        0.704625     -0.0000374      0.0003748     -0.0000868      0.4590286\n",
  chars! "  2P        0.439220      0.0000102     -0.0000883      0.0001732      0.0362080\n",
  chars! "        D                    3D             4D \n",
  chars! "  BASIS/ORB.ENERGY      -22.2462869     -1.7722084\n",
  chars! "              CUSP        0.9991856      1.0009202\n",
  chars! "  3D       58.017463      0.0007250     -0.0004218\n",
  chars! "  4D       44.619250      0.0035918     -0.0021485\n",
  chars! "  3D       23.468745     -0.0485453      0.0429167\n",
  chars! "  3D       20.663265      0.1881888     -0.1128511\n",
  chars! "  3D       12.602923      0.5306449     -0.1185071\n",
  chars! "  3D        9.590733      0.2876293     -0.4534113\n",
  chars! "  3D        7.865781      0.0895323      0.2208888\n",
  chars! "  3D        4.505846      0.0030475      0.6263285\n",
  chars! "  3D        3.085856     -0.0008033      0.4220345\n",
  chars! "  3D        1.975996      0.0001623      0.0456469\n",
  chars! "  3D        1.029740     -0.0000402      0.0008071\n",
  chars! "  3D        0.439220      0.0000073      0.0001145\n",
  chars! " \n"]⟩

theorem anion_te_ok : anion_te.ok = true := by decide +kernel

/-- `data/anion/i`. -/
noncomputable def anion_i : DataFile := ⟨53, .anion, [
  chars! "      IODINE-   K(2)L(8)M(18)4S(2)4P(6)5S(2)4D(10)5P(6), 1S                           \n",
  chars! "   E = -6918.075874765\n",
  chars! "   T =  6918.075851667     V =-13836.151726432     V/T =    -2.000000003\n",
  chars! "  ORBITAL ENERGIES AND EXPANSION COEFFICIENTS\n",
  chars! "        S                    1S             2S             3S             4S             5S \n",
  chars! "  BASIS/ORB.ENERGY    -1176.8920583   -180.6553176    -37.6406721     -6.9506460     -0.5562936\n",
  chars! "              CUSP        1.0001713      1.0001405      1.0002501      1.0002888      1.0006713\n",
  chars! "  1S       99.544887     -0.0155173     -0.0137756     -0.0071152      0.0036292     -0.0013745\n",
  chars! "  3S       72.197354      0.0204136      0.0169859      0.0090567     -0.0047029      0.0018428\n",
  chars! "  1S       56.329742      0.9399270      0.3257493      0.1474089     -0.0674541      0.0227067\n",
  chars! "  3S       37.245551     -0.1302187     -0.2566192     -0.0988619      0.0334948     -0.0068857\n",
  chars! "  3S       27.923028     -0.0754311     -0.5308314     -0.3127303      0.1756113     -0.0680776\n",
  chars! "  2S       27.919883      0.2498953      0.0284192      0.0939526     -0.0209970     -0.0045298\n",
  chars! "  2S       17.738763      0.0106324     -0.3235624     -0.4704189      0.1733543     -0.0220064\n",
  chars! "  3S       12.821800     -0.0023242      0.0330144      1.0417484     -0.5273469      0.1975418\n",
  chars! "  4S       12.583482      0.0013565     -0.0221871      0.0968833     -0.3864838      0.1998568\n",
  chars! "  3S        5.587956      0.0010172     -0.0221393     -0.3641140      1.3693752     -0.2099566\n",
  chars! "  2S        4.521078     -0.0018215      0.0387951      0.6962698     -0.9461459      0.8604314\n",
  chars! "  2S        3.895939      0.0004409     -0.0087909     -0.1795455      0.8238781     -1.6350660\n",
  chars! "  2S        1.664154     -0.0000053      0.0000158      0.0024659     -0.0050630      0.9152105\n",
  chars! "  2S        1.112226      0.0000025      0.0000052     -0.0012446      0.0041826      0.4586327\n",
  chars! "  1S        0.508250     -0.0000006     -0.0000043      0.0003127     -0.0010541      0.0106418\n",
  chars! "        P                    2P             3P             4P             5P \n",
  chars! "  BASIS/ORB.ENERGY     -169.3666025    -32.8288953     -5.1804600     -0.1291592\n",
  chars! "              CUSP        1.0009482      1.0009370      1.0000462      0.9994919\n",
  chars! "  2P       66.299859      0.0152038      0.0240919     -0.0185268      0.0059575\n",
  chars! "  3P       58.616682      0.0176077      0.0272491     -0.0207655      0.0066626\n",
  chars! "  3P       38.696883      0.0987903      0.1287775     -0.0977567      0.0313864\n",
  chars! "  2P       27.346853     -0.9311461     -0.5933682      0.3294933     -0.0965045\n",
  chars! "  3P       22.234664     -0.2257140     -0.1375959      0.0204090      0.0025838\n",
  chars! "  3P       12.733619      0.0079736      0.5140604      0.3046644     -0.1395201\n",
  chars! "  3P       11.610025     -0.0120916      0.4803682     -1.0946434      0.4044950\n",
  chars! "  3P        5.190359     -0.0090579     -0.3568584      0.9550797     -0.1209106\n",
  chars! "  2P        4.147298      0.0139820      0.6411659     -0.2633789      0.2882797\n",
  chars! "  2P        3.429415     -0.0022583     -0.1545951      0.5543373     -0.8634674\n",
  chars! "  3P        2.407831     -0.0001386      0.0057791     -0.0024413      0.0656231\n",
  chars! "  2P        1.325387      0.0001258     -0.0018849      0.0036966      0.7009569\n",
  chars! "  2P        0.792179     -0.0000501      0.0004812     -0.0007063      0.4626981\n",
  chars! "  2P        0.508250      0.0000139     -0.0001093      0.0001654      0.0345341\n",
  chars! "        D                    3D             4D \n",
  chars! "  BASIS/ORB.ENERGY      -23.9921551     -2.1081278\n",
  chars! "              CUSP        0.9992250      1.0008870\n",
  chars! "  3D       58.715602      0.0007950     -0.0005190\n",
  chars! "  4D       45.423957      0.0037971     -0.0025554\n",
  chars! "  3D       25.126481     -0.0329864      0.0317327\n",
  chars! "  3D       21.192448      0.1667721     -0.1009594\n",
  chars! "  3D       13.004131      0.5247984     -0.1126362\n",
  chars! "  3D       10.015551      0.2793710     -0.4702185\n",
  chars! "  3D        8.247493      0.1079769      0.2106314\n",
  chars! "  3D        4.658977      0.0029290      0.6741838\n",
  chars! "  3D        3.214866     -0.0007920      0.3930051\n",
  chars! "  3D        1.994610      0.0001308      0.0339939\n",
  chars! "  3D        0.998746     -0.0000396      0.0001353\n",
  chars! "  3D        0.508250      0.0000103      0.0001844\n",
  chars! "\n"]⟩

theorem anion_i_ok : anion_i.ok = true := by decide +kernel

/-- `data/cation/li`. -/
noncomputable def cation_li : DataFile := ⟨3, .cation, [
  chars! "      LITHIUM+   1S(2), 1S                                                            \n",
  chars! "\n",
  chars! "\n",
  chars! "\n",
  chars! "   E =    -7.236415201\n",
  chars! "   T =     7.236415202     V =   -14.472830403     V/T =    -2.000000000\n",
  chars! "\n",
  chars! "  ORBITAL ENERGIES AND EXPANSION COEFFICIENTS\n",
  chars! "        S                    1S \n",
  chars! "  BASIS/ORB.ENERGY       -2.7923644\n",
  chars! "              CUSP        0.9999768\n",
  chars! "  1S       11.218455     -0.0008729\n",
  chars! "  1S        5.354960      0.0587322\n",
  chars! "  1S        3.261521      0.2907982\n",
  chars! "  2S        2.814254      0.0619097\n",
  chars! "  1S        2.363203      0.6128385\n",
  chars! "\n"]⟩

theorem cation_li_ok : cation_li.ok = true := by decide +kernel

/-- `data/cation/be`. -/
noncomputable def cation_be : DataFile := ⟨4, .cation, [
  chars! "      BERYLLIUM+   1S(2)2S(1), 2S                                                     \n",
  chars! "\n",
  chars! "\n",
  chars! "\n",
  chars! "\n",
  chars! "   E =   -14.277394812\n",
  chars! "   T =    14.277394812     V =   -28.554789624     V/T =    -2.000000000\n",
  chars! "\n",
  chars! "  ORBITAL ENERGIES AND EXPANSION COEFFICIENTS\n",
  chars! "        S                    1S             2S \n",
  chars! "  BASIS/ORB.ENERGY       -5.1383426     -0.6661462\n",
  chars! "              CUSP        1.0001008      0.9995006\n",
  chars! "  1S       12.893979     -0.0022254      0.0005419\n",
  chars! "  2S        7.512987     -0.0118931      0.0019158\n",
  chars! "  1S        5.403531      0.3875011     -0.0349763\n",
  chars! "  2S        4.422860      0.1991663      0.0066219\n",
  chars! "  1S        3.117200      0.4717797     -0.1099453\n",
  chars! "  2S        1.552788      0.0094101      0.2390992\n",
  chars! "  2S        1.181205      0.0045259      1.1745744\n",
  chars! "  1S        1.154250     -0.0194427     -0.4630159\n",
  chars! "\n"]⟩

theorem cation_be_ok : cation_be.ok = true := by decide +kernel

/-- `data/cation/b`. -/
noncomputable def cation_b : DataFile := ⟨5, .cation, [
  chars! "      BORON+   1S(2)2S(2), 1S                                                         \n",
  chars! "\n",
  chars! "\n",
  chars! "\n",
  chars! "   E =   -24.237575182\n",
  chars! "   T =    24.237575154     V =   -48.475150336     V/T =    -2.000000001\n",
  chars! "\n",
  chars! "  ORBITAL ENERGIES AND EXPANSION COEFFICIENTS\n",
  chars! "        S                    1S             2S \n",
  chars! "  BASIS/ORB.ENERGY       -8.1859220     -0.8738233\n",
  chars! "              CUSP        0.9998944      0.9996720\n",
  chars! "  1S       19.552542     -0.0005259      0.0001235\n",
  chars! "  1S        7.836769      0.2163033      0.0068743\n",
  chars! "  2S        6.239598      0.1451222      0.0322259\n",
  chars! "  1S        4.180846      0.6724596     -0.1893342\n",
  chars! "  1S        2.454754     -0.0030166     -0.9720114\n",
  chars! "  2S        1.925902      0.0040794     -0.4406588\n",
  chars! "  1S        1.356578     -0.0061783      1.8229831\n",
  chars! "  2S        1.321986      0.0009129      0.3672927\n",
  chars! "\n"]⟩

theorem cation_b_ok : cation_b.ok = true := by decide +kernel

/-- `data/cation/c`. -/
noncomputable def cation_c : DataFile := ⟨6, .cation, [
  chars! "      CARBON+   1S(2)2S(2)2P(1), 2P                                                   \n",
  chars! "\n",
  chars! "\n",
  chars! "\n",
  chars! "\n",
  chars! "   E =   -37.292223770\n",
  chars! "   T =    37.292223758     V =   -74.584447528     V/T =    -2.000000000\n",
  chars! "\n",
  chars! "  ORBITAL ENERGIES AND EXPANSION COEFFICIENTS\n",
  chars! "        S                    1S             2S \n",
  chars! "  BASIS/ORB.ENERGY      -11.8982615     -1.1537787\n",
  chars! "              CUSP        0.9999442      0.9997385\n",
  chars! "  1S       22.454541     -0.0005984      0.0001428\n",
  chars! "  1S        9.614463      0.1852569      0.0086694\n",
  chars! "  2S        7.721450      0.1243627      0.0286310\n",
  chars! "  1S        5.166228      0.7131840     -0.1798031\n",
  chars! "  1S        3.178746      0.0023454     -0.7995511\n",
  chars! "  2S        2.397569      0.0009096     -0.3147955\n",
  chars! "  1S        1.425365     -0.0001368      1.8811429\n",
  chars! "  2S        1.345184      0.0000628     -0.0340893\n",
  chars! "        P                    2P \n",
  chars! "  BASIS/ORB.ENERGY       -0.9047596\n",
  chars! "              CUSP        0.9991734\n",
  chars! "  3P       14.444276      0.0000857\n",
  chars! "  2P        6.956407      0.0092705\n",
  chars! "  2P        4.615855     -0.0120655\n",
  chars! "  2P        3.483233      0.0790120\n",
  chars! "  2P        2.220195      0.2559441\n",
  chars! "  2P        1.498940      0.6807658\n",
  chars! "  3P        1.345184      0.0323882\n",
  chars! "\n"]⟩

theorem cation_c_ok : cation_c.ok = true := by decide +kernel

/-- `data/cation/n`. -/
noncomputable def cation_n : DataFile := ⟨7, .cation, [
  chars! "      NITROGEN+    1S(2)2S(2)2P(2), 3P                                                \n",
  chars! "\n",
  chars! "\n",
  chars! "\n",
  chars! "\n",
  chars! "   E =   -53.888005011\n",
  chars! "   T =    53.888005010     V =  -107.776010021     V/T =    -2.000000000\n",
  chars! "\n",
  chars! "  ORBITAL ENERGIES AND EXPANSION COEFFICIENTS\n",
  chars! "        S                    1S             2S \n",
  chars! "  BASIS/ORB.ENERGY      -16.2845253     -1.4624768\n",
  chars! "              CUSP        0.9999971      0.9998347\n",
  chars! "  1S       24.925633      0.0007202      0.0001677\n",
  chars! "  1S       11.494691     -0.1576811      0.0095678\n",
  chars! "  2S        9.276068     -0.1069596      0.0254290\n",
  chars! "  1S        6.161493     -0.7483314     -0.1746595\n",
  chars! "  1S        3.876285     -0.0093307     -0.7005232\n",
  chars! "  2S        2.839197     -0.0006600     -0.2212778\n",
  chars! "  1S        1.638966     -0.0005458      1.6794828\n",
  chars! "  2S        1.490012      0.0000317     -0.0122038\n",
  chars! "        P                    2P \n",
  chars! "  BASIS/ORB.ENERGY       -1.1100685\n",
  chars! "              CUSP        1.0000003\n",
  chars! "  3P       16.238644      0.0000982\n",
  chars! "  2P        8.531627      0.0062827\n",
  chars! "  2P        4.960330      0.0044830\n",
  chars! "  2P        3.669059      0.1217127\n",
  chars! "  2P        2.412855      0.3138426\n",
  chars! "  2P        1.677083      0.5833163\n",
  chars! "  3P        1.490012      0.0223526\n",
  chars! "\n"]⟩

theorem cation_n_ok : cation_n.ok = true := by decide +kernel

/-- `data/cation/o`. -/
noncomputable def cation_o : DataFile := ⟨8, .cation, [
  chars! "      OXYGEN+   1S(2)2S(2)2P(3), 4S                                                   \n",
  chars! "\n",
  chars! "\n",
  chars! "\n",
  chars! "\n",
  chars! "   E =   -74.372605677\n",
  chars! "   T =    74.372605671     V =  -148.745211348     V/T =    -2.000000000\n",
  chars! "\n",
  chars! "  ORBITAL ENERGIES AND EXPANSION COEFFICIENTS\n",
  chars! "        S                    1S             2S \n",
  chars! "  BASIS/ORB.ENERGY      -21.3462798     -1.8007636\n",
  chars! "              CUSP        0.9999938      0.9998767\n",
  chars! "  1S       28.007046      0.0007370      0.0001693\n",
  chars! "  1S       13.302796     -0.1450721      0.0095572\n",
  chars! "  2S       10.792436     -0.0998973      0.0226110\n",
  chars! "  1S        7.133949     -0.7613866     -0.1669339\n",
  chars! "  1S        4.615700     -0.0144516     -0.6315700\n",
  chars! "  2S        3.338585     -0.0009627     -0.1518039\n",
  chars! "  1S        1.841282     -0.0006986      1.5407668\n",
  chars! "  2S        1.629055      0.0000368     -0.0064379\n",
  chars! "        P                    2P \n",
  chars! "  BASIS/ORB.ENERGY       -1.3269095\n",
  chars! "              CUSP        0.9999828\n",
  chars! "  3P       18.267737      0.0001036\n",
  chars! "  2P        9.989752      0.0051311\n",
  chars! "  2P        5.270533      0.0262024\n",
  chars! "  2P        3.934220      0.1472171\n",
  chars! "  2P        2.650524      0.3428229\n",
  chars! "  2P        1.853557      0.5188278\n",
  chars! "  3P        1.629055      0.0171613\n",
  chars! "\n"]⟩

theorem cation_o_ok : cation_o.ok = true := by decide +kernel

/-- `data/cation/f`. -/
noncomputable def cation_f : DataFile := ⟨9, .cation, [
  chars! "      FLUORINE+   1S(2)2S(2)2P(4), 3P                                                 \n",
  chars! "\n",
  chars! "\n",
  chars! "\n",
  chars! "\n",
  chars! "   E =   -98.831720195\n",
  chars! "   T =    98.831720181     V =  -197.663440376     V/T =    -2.000000000\n",
  chars! "\n",
  chars! "  ORBITAL ENERGIES AND EXPANSION COEFFICIENTS\n",
  chars! "        S                    1S             2S \n",
  chars! "  BASIS/ORB.ENERGY      -27.1412915     -2.1948497\n",
  chars! "              CUSP        0.9999797      0.9999156\n",
  chars! "  1S       31.450094      0.0006932      0.0001575\n",
  chars! "  1S       15.057760     -0.1374212      0.0099251\n",
  chars! "  2S       12.278272     -0.0955170      0.0209848\n",
  chars! "  1S        8.102550     -0.7683816     -0.1610834\n",
  chars! "  1S        5.356575     -0.0182997     -0.5929072\n",
  chars! "  2S        3.896304     -0.0011950     -0.0993401\n",
  chars! "  1S        2.053128     -0.0008885      1.4467923\n",
  chars! "  2S        1.699484      0.0000325     -0.0009581\n",
  chars! "        P                    2P \n",
  chars! "  BASIS/ORB.ENERGY       -1.4441222\n",
  chars! "              CUSP        0.9999373\n",
  chars! "  3P       20.487784      0.0001017\n",
  chars! "  2P       11.578430      0.0040208\n",
  chars! "  2P        5.669336      0.0541934\n",
  chars! "  2P        4.138776      0.1861459\n",
  chars! "  2P        2.810319      0.3445465\n",
  chars! "  2P        1.955380      0.4634053\n",
  chars! "  3P        1.699484      0.0154226\n",
  chars! "\n"]⟩

theorem cation_f_ok : cation_f.ok = true := by decide +kernel

/-- `data/cation/ne`. -/
noncomputable def cation_ne : DataFile := ⟨10, .cation, [
  chars! "      NEON+   1S(2)2S(2)2P(5), 2P                                                     \n",
  chars! "\n",
  chars! "\n",
  chars! "\n",
  chars! "\n",
  chars! "   E =  -127.817814121\n",
  chars! "   T =   127.817814176     V =  -255.635628296     V/T =    -2.000000000\n",
  chars! "\n",
  chars! "  ORBITAL ENERGIES AND EXPANSION COEFFICIENTS\n",
  chars! "        S                    1S             2S \n",
  chars! "  BASIS/ORB.ENERGY      -33.6122916     -2.6191339\n",
  chars! "              CUSP        0.9999691      1.0000185\n",
  chars! "  1S       34.921304      0.0006517      0.0001338\n",
  chars! "  1S       16.836113     -0.1300724      0.0145852\n",
  chars! "  2S       13.786492     -0.0911229      0.0240362\n",
  chars! "  1S        9.073331     -0.7765145     -0.1814771\n",
  chars! "  1S        5.971493     -0.0210099     -0.5609139\n",
  chars! "  2S        4.346384     -0.0012269     -0.0606112\n",
  chars! "  1S        2.266111     -0.0010239      1.3920991\n",
  chars! "  2S        1.792539      0.0000318      0.0016472\n",
  chars! "        P                    2P \n",
  chars! "  BASIS/ORB.ENERGY       -1.6065983\n",
  chars! "              CUSP        0.9992055\n",
  chars! "  3P       22.917554      0.0000994\n",
  chars! "  2P       13.143059      0.0033089\n",
  chars! "  2P        6.237158      0.0737967\n",
  chars! "  2P        4.379686      0.2239485\n",
  chars! "  2P        2.949963      0.3524439\n",
  chars! "  2P        2.064486      0.4087274\n",
  chars! "  3P        1.792539      0.0118909\n",
  chars! "\n"]⟩

theorem cation_ne_ok : cation_ne.ok = true := by decide +kernel

/-- `data/cation/na`. -/
noncomputable def cation_na : DataFile := ⟨11, .cation, [
  chars! "      SODIUM+   1S(2)2S(2)2P(6), 1S                                                   \n",
  chars! "\n",
  chars! "\n",
  chars! "\n",
  chars! "   E =  -161.676962609\n",
  chars! "   T =   161.676962476     V =  -323.353925085     V/T =    -2.000000001\n",
  chars! "\n",
  chars! "  ORBITAL ENERGIES AND EXPANSION COEFFICIENTS\n",
  chars! "        S                    1S             2S \n",
  chars! "  BASIS/ORB.ENERGY      -40.7597502     -3.0736875\n",
  chars! "              CUSP        0.9999638      1.0000883\n",
  chars! "  1S       38.286368     -0.0006231      0.0001173\n",
  chars! "  1S       18.558412      0.1289430      0.0176200\n",
  chars! "  2S       15.257782      0.0914534      0.0257231\n",
  chars! "  1S       10.016950      0.7763334     -0.1956336\n",
  chars! "  1S        6.613006      0.0215878     -0.5325836\n",
  chars! "  2S        4.947267      0.0015130     -0.0307722\n",
  chars! "  1S        2.474614      0.0011207      1.3468561\n",
  chars! "  2S        1.895886     -0.0000302      0.0026824\n",
  chars! "        P                    2P \n",
  chars! "  BASIS/ORB.ENERGY       -1.7971924\n",
  chars! "              CUSP        0.9999585\n",
  chars! "  3P       25.035874      0.0000918\n",
  chars! "  2P       14.553626      0.0029693\n",
  chars! "  2P        6.758888      0.0948327\n",
  chars! "  2P        4.571932      0.2647974\n",
  chars! "  2P        3.037726      0.3614230\n",
  chars! "  2P        2.162522      0.3465004\n",
  chars! "  3P        1.895886      0.0078852\n",
  chars! "\n"]⟩

theorem cation_na_ok : cation_na.ok = true := by decide +kernel

/-- `data/cation/mg`. -/
noncomputable def cation_mg : DataFile := ⟨12, .cation, [
  chars! "      MAGNESIUM+   K(2)L(8)3S(1), 2S                                                  \n",
  chars! "\n",
  chars! "\n",
  chars! "\n",
  chars! "\n",
  chars! "   E =  -199.371809657\n",
  chars! "   T =   199.371809657     V =  -398.743619314     V/T =    -2.000000000\n",
  chars! "\n",
  chars! "  ORBITAL ENERGIES AND EXPANSION COEFFICIENTS\n",
  chars! "        S                    1S             2S             3S \n",
  chars! "  BASIS/ORB.ENERGY      -49.3563633     -4.0856152     -0.5414396\n",
  chars! "              CUSP        1.0000584      0.9996814      1.0006132\n",
  chars! "  3S       30.489574      0.0006381      0.0002759     -0.0000503\n",
  chars! "  1S       16.928524     -0.3590905      0.0587311     -0.0150626\n",
  chars! "  2S       14.613007     -0.1990386      0.0551448     -0.0140141\n",
  chars! "  1S       10.060309     -0.4741561     -0.4445466      0.1003790\n",
  chars! "  2S        5.113615     -0.0023402      0.3903349     -0.1201024\n",
  chars! "  3S        3.040431      0.0004358     -0.5219190      0.0686226\n",
  chars! "  2S        2.740295     -0.0006306      1.2277256     -0.3378383\n",
  chars! "  3S        1.461943      0.0001132      0.0138485      0.4161351\n",
  chars! "  3S        1.120710      0.0000004      0.0023073      0.5688742\n",
  chars! "  1S        1.040615     -0.0002397     -0.0420458      0.1486247\n",
  chars! "        P                    2P \n",
  chars! "  BASIS/ORB.ENERGY       -2.6029379\n",
  chars! "              CUSP        0.9999219\n",
  chars! "  3P       27.569118      0.0000884\n",
  chars! "  2P       15.967731      0.0028602\n",
  chars! "  2P        7.248739      0.1231105\n",
  chars! "  2P        4.754054      0.3114869\n",
  chars! "  2P        3.082852      0.5050633\n",
  chars! "  2P        2.257316      0.1240642\n",
  chars! "  3P        1.040615      0.0002805\n",
  chars! "\n"]⟩

theorem cation_mg_ok : cation_mg.ok = true := by decide +kernel

/-- `data/cation/al`. -/
noncomputable def cation_al : DataFile := ⟨13, .cation, [
  chars! "      ALUMINUM+   K(2)L(8)3S(2), 1S                                                   \n",
  chars! "\n",
  chars! "\n",
  chars! "\n",
  chars! "   E =  -241.674670411\n",
  chars! "   T =   241.674670713     V =  -483.349341124     V/T =    -1.999999999\n",
  chars! "\n",
  chars! "  ORBITAL ENERGIES AND EXPANSION COEFFICIENTS\n",
  chars! "        S                    1S             2S             3S \n",
  chars! "  BASIS/ORB.ENERGY      -58.8122526     -5.2175817     -0.6522983\n",
  chars! "              CUSP        1.0001199      0.9997792      0.9993657\n",
  chars! "  3S       32.296386      0.0006361      0.0002728     -0.0000820\n",
  chars! "  1S       18.512920     -0.3440437      0.0623928     -0.0144223\n",
  chars! "  2S       15.998712     -0.1939113      0.0565499     -0.0131978\n",
  chars! "  1S       10.978117     -0.4935399     -0.4610859      0.1017995\n",
  chars! "  2S        5.628319     -0.0014659      0.3297871     -0.1589242\n",
  chars! "  3S        3.751762      0.0011555     -0.2665428     -0.0810561\n",
  chars! "  2S        3.500398     -0.0016352      1.0191844     -0.2726152\n",
  chars! "  3S        1.701856      0.0002794     -0.0014236      0.4002417\n",
  chars! "  3S        1.258305      0.0000213     -0.0001947      0.4901999\n",
  chars! "  1S        1.142189     -0.0006048      0.0034832      0.3115090\n",
  chars! "        P                    2P \n",
  chars! "  BASIS/ORB.ENERGY       -3.5226697\n",
  chars! "              CUSP        0.9991833\n",
  chars! "  3P       30.684557      0.0000824\n",
  chars! "  2P       17.454878      0.0026588\n",
  chars! "  2P        7.832108      0.1407670\n",
  chars! "  2P        5.026460      0.3392928\n",
  chars! "  2P        3.397058      0.5259332\n",
  chars! "  2P        2.323988      0.0502777\n",
  chars! "  3P        1.142189      0.0002970\n",
  chars! "\n"]⟩

theorem cation_al_ok : cation_al.ok = true := by decide +kernel

/-- `data/cation/si`. -/
noncomputable def cation_si : DataFile := ⟨14, .cation, [
  chars! "      SILICON+   K(2)L(8)3S(2)3P(1), 2P                                               \n",
  chars! "\n",
  chars! "\n",
  chars! "\n",
  chars! "\n",
  chars! "   E =  -288.573130997\n",
  chars! "   T =   288.573130976     V =  -577.146261973     V/T =    -2.000000000\n",
  chars! "\n",
  chars! "  ORBITAL ENERGIES AND EXPANSION COEFFICIENTS\n",
  chars! "        S                    1S             2S             3S \n",
  chars! "  BASIS/ORB.ENERGY      -69.1742358     -6.5124227     -0.8384282\n",
  chars! "              CUSP        1.0001142      0.9997760      0.9995492\n",
  chars! "  3S       34.793099      0.0005962      0.0002624     -0.0000838\n",
  chars! "  1S       19.983744     -0.3353354      0.0664880     -0.0181474\n",
  chars! "  2S       17.313530     -0.1880051      0.0578910     -0.0158254\n",
  chars! "  1S       11.902721     -0.5071434     -0.4740273      0.1180100\n",
  chars! "  2S        6.092679     -0.0013365      0.2908872     -0.1834909\n",
  chars! "  3S        4.310043      0.0010953     -0.2408478     -0.1359697\n",
  chars! "  2S        4.008864     -0.0017617      1.0346409     -0.2417828\n",
  chars! "  3S        2.050620      0.0001144      0.0002153      0.3547082\n",
  chars! "  3S        1.491987      0.0001330     -0.0006158      0.4507824\n",
  chars! "  1S        1.082471     -0.0003908      0.0018110      0.3954924\n",
  chars! "        P                    2P             3P \n",
  chars! "  BASIS/ORB.ENERGY       -4.6095092     -0.5858719\n",
  chars! "              CUSP        1.0008402      1.0000019\n",
  chars! "  2P       33.691090     -0.0001124      0.0000270\n",
  chars! "  2P       19.882253      0.0032217     -0.0007130\n",
  chars! "  4P       11.295611     -0.0078257      0.0008398\n",
  chars! "  2P        7.396430      0.4324713     -0.0841347\n",
  chars! "  3P        5.827720      0.3549870     -0.0194416\n",
  chars! "  4P        4.889860      0.0874609      0.0102279\n",
  chars! "  2P        3.362886      0.2180429     -0.2820027\n",
  chars! "  3P        2.617048      0.0069988     -0.0634605\n",
  chars! "  2P        1.153748      0.0009503      1.0631962\n",
  chars! "  3P        1.082471     -0.0000526      0.0867202\n",
  chars! "\n"]⟩

theorem cation_si_ok : cation_si.ok = true := by decide +kernel

/-- `data/cation/p`. -/
noncomputable def cation_p : DataFile := ⟨15, .cation, [
  chars! "      PHOSPHORUS+   K(2)L(8)3S(2)3P(2), 3P                                            \n",
  chars! "\n",
  chars! "\n",
  chars! "\n",
  chars! "\n",
  chars! "   E =  -340.349775833\n",
  chars! "   T =   340.349776116     V =  -680.699551949     V/T =    -1.999999999\n",
  chars! "\n",
  chars! "  ORBITAL ENERGIES AND EXPANSION COEFFICIENTS\n",
  chars! "        S                    1S             2S             3S \n",
  chars! "  BASIS/ORB.ENERGY      -80.3809433     -7.9148822     -1.0339281\n",
  chars! "              CUSP        1.0000634      0.9996166      0.9996297\n",
  chars! "  3S       38.181169      0.0005190      0.0002508     -0.0000802\n",
  chars! "  1S       21.205740     -0.3479806      0.0683033     -0.0208860\n",
  chars! "  2S       18.450969     -0.1896623      0.0571658     -0.0174677\n",
  chars! "  1S       12.744580     -0.4929711     -0.4834348      0.1297079\n",
  chars! "  2S        6.751577     -0.0003575      0.1955318     -0.1758223\n",
  chars! "  3S        4.865898      0.0018506     -0.3117828     -0.1453819\n",
  chars! "  2S        4.474991     -0.0031639      1.1968955     -0.2789016\n",
  chars! "  3S        2.361960      0.0000879      0.0009384      0.3554042\n",
  chars! "  3S        1.695251      0.0001357      0.0001069      0.4396081\n",
  chars! "  1S        1.199982     -0.0003388      0.0001748      0.4217097\n",
  chars! "        P                    2P             3P \n",
  chars! "  BASIS/ORB.ENERGY       -5.8024360     -0.7199780\n",
  chars! "              CUSP        1.0003396      0.9993597\n",
  chars! "  2P       36.179826     -0.0001255      0.0000334\n",
  chars! "  2P       22.490304      0.0023625     -0.0005530\n",
  chars! "  4P       12.983974     -0.0035419     -0.0002165\n",
  chars! "  2P        8.202715      0.4401183     -0.1031732\n",
  chars! "  3P        6.407117      0.4444320     -0.0742596\n",
  chars! "  4P        5.290358      0.1254342     -0.0141574\n",
  chars! "  2P        3.328350      0.0937758     -0.2588732\n",
  chars! "  3P        2.631487      0.0010757      0.0144892\n",
  chars! "  2P        1.329479      0.0012343      1.0531228\n",
  chars! "  3P        1.199982     -0.0000704      0.0780512\n",
  chars! "\n"]⟩

theorem cation_p_ok : cation_p.ok = true := by decide +kernel

/-- `data/cation/s`. -/
noncomputable def cation_s : DataFile := ⟨16, .cation, [
  chars! "      SULFUR+   K(2)L(8)3S(2)3P(3), 4S                                                \n",
  chars! "\n",
  chars! "\n",
  chars! "\n",
  chars! "\n",
  chars! "   E =  -397.173182672\n",
  chars! "   T =   397.173182902     V =  -794.346365573     V/T =    -1.999999999\n",
  chars! "\n",
  chars! "  ORBITAL ENERGIES AND EXPANSION COEFFICIENTS\n",
  chars! "        S                    1S             2S             3S \n",
  chars! "  BASIS/ORB.ENERGY      -92.4336816     -9.4276283     -1.2401949\n",
  chars! "              CUSP        1.0000427      0.9995923      0.9997585\n",
  chars! "  3S       41.218079      0.0004707      0.0002372     -0.0000763\n",
  chars! "  1S       22.586498     -0.3419043      0.0734009     -0.0244890\n",
  chars! "  2S       19.711791     -0.1831483      0.0589310     -0.0196349\n",
  chars! "  1S       13.683736     -0.5044034     -0.4954328      0.1418930\n",
  chars! "  2S        7.190680     -0.0004144      0.1178072     -0.2216397\n",
  chars! "  3S        5.486663      0.0017211     -0.3302621     -0.2198062\n",
  chars! "  2S        5.004489     -0.0030945      1.2894052     -0.1805025\n",
  chars! "  3S        2.655271      0.0000437      0.0015659      0.3695179\n",
  chars! "  3S        1.888789      0.0000568     -0.0005140      0.4332872\n",
  chars! "  1S        1.312850     -0.0001231      0.0016437      0.4167349\n",
  chars! "        P                    2P             3P \n",
  chars! "  BASIS/ORB.ENERGY       -7.1038916     -0.8617878\n",
  chars! "              CUSP        1.0001432      1.0009033\n",
  chars! "  2P       38.722620      0.0001197      0.0000274\n",
  chars! "  2P       23.967182     -0.0022504     -0.0004842\n",
  chars! "  4P       13.185059      0.0036841     -0.0010597\n",
  chars! "  2P        8.930078     -0.4329361     -0.1158339\n",
  chars! "  3P        7.068496     -0.4385415     -0.1060264\n",
  chars! "  4P        5.911151     -0.1217259     -0.0459839\n",
  chars! "  2P        3.720582     -0.1066655     -0.1760189\n",
  chars! "  3P        2.375635     -0.0002544      0.1048132\n",
  chars! "  2P        1.457182     -0.0009481      0.9709810\n",
  chars! "  3P        1.312850      0.0001319      0.0517472\n",
  chars! "\n"]⟩

theorem cation_s_ok : cation_s.ok = true := by decide +kernel

/-- `data/cation/cl`. -/
noncomputable def cation_cl : DataFile := ⟨17, .cation, [
  chars! "      CHLORINE+   K(2)L(8)3S(2)3P(4), 3P                                              \n",
  chars! "\n",
  chars! "\n",
  chars! "\n",
  chars! "\n",
  chars! "   E =  -459.048590564\n",
  chars! "   T =   459.048590546     V =  -918.097181110     V/T =    -2.000000000\n",
  chars! "\n",
  chars! "  ORBITAL ENERGIES AND EXPANSION COEFFICIENTS\n",
  chars! "        S                    1S             2S             3S \n",
  chars! "  BASIS/ORB.ENERGY     -105.3604922    -11.0759293     -1.4700820\n",
  chars! "              CUSP        1.0000296      0.9995560      0.9998629\n",
  chars! "  3S       44.031394     -0.0004405      0.0002289     -0.0000737\n",
  chars! "  1S       23.995962      0.3379044      0.0754831     -0.0286536\n",
  chars! "  2S       20.988580      0.1795108      0.0588621     -0.0222061\n",
  chars! "  1S       14.596904      0.5115036     -0.5022667      0.1580000\n",
  chars! "  2S        7.765414     -0.0010683     -0.0012269     -0.2024156\n",
  chars! "  3S        6.066785     -0.0030354     -0.4153756     -0.2135670\n",
  chars! "  2S        5.496206      0.0055606      1.4861077     -0.1863398\n",
  chars! "  3S        3.020085     -0.0000324      0.0023314      0.3954535\n",
  chars! "  3S        2.105889     -0.0000404      0.0001914      0.4715283\n",
  chars! "  1S        1.370245      0.0000592      0.0004336      0.3353559\n",
  chars! "        P                    2P             3P \n",
  chars! "  BASIS/ORB.ENERGY       -8.5388327     -0.9387849\n",
  chars! "              CUSP        1.0000355      0.9999871\n",
  chars! "  2P       40.716974     -0.0001465      0.0000382\n",
  chars! "  2P       27.023335      0.0016952     -0.0003804\n",
  chars! "  4P       15.098366     -0.0014493     -0.0013191\n",
  chars! "  2P        9.729816      0.4251351     -0.1241108\n",
  chars! "  3P        7.683095      0.4582471     -0.1394890\n",
  chars! "  4P        6.407885      0.1222902     -0.0678899\n",
  chars! "  2P        4.024439      0.0910895     -0.1175171\n",
  chars! "  3P        2.879577      0.0004342      0.1327532\n",
  chars! "  2P        1.576178      0.0016382      0.9389690\n",
  chars! "  3P        1.370245     -0.0000453      0.0567225\n",
  chars! "\n"]⟩

theorem cation_cl_ok : cation_cl.ok = true := by decide +kernel

/-- `data/cation/ar`. -/
noncomputable def cation_ar : DataFile := ⟨18, .cation, [
  chars! "      ARGON+   K(2)L(8)3S(2)3P(5), 2P                                                 \n",
  chars! "\n",
  chars! "\n",
  chars! "\n",
  chars! "\n",
  chars! "   E =  -526.274534168\n",
  chars! "   T =   526.274534125     V = -1052.549068293     V/T =    -2.000000000\n",
  chars! "\n",
  chars! "  ORBITAL ENERGIES AND EXPANSION COEFFICIENTS\n",
  chars! "        S                    1S             2S             3S \n",
  chars! "  BASIS/ORB.ENERGY     -119.1332739    -12.8358070     -1.7111647\n",
  chars! "              CUSP        1.0000326      0.9996197      0.9996451\n",
  chars! "  3S       46.331015     -0.0004309      0.0002188     -0.0000809\n",
  chars! "  1S       25.548587      0.3263347      0.0763964     -0.0310652\n",
  chars! "  2S       22.367307      0.1744946      0.0585132     -0.0235645\n",
  chars! "  1S       15.534609      0.5275146     -0.5064536      0.1691384\n",
  chars! "  2S        8.247562     -0.0052807     -0.1675905     -0.2090023\n",
  chars! "  3S        6.654266     -0.0069316     -0.5349609     -0.2310399\n",
  chars! "  2S        6.002988      0.0129751      1.7604617     -0.1489902\n",
  chars! "  3S        3.324836     -0.0000541      0.0029013      0.4387668\n",
  chars! "  3S        2.287129     -0.0000237      0.0004803      0.4888735\n",
  chars! "  1S        1.445917      0.0000293      0.0001777      0.2636181\n",
  chars! "        P                    2P             3P \n",
  chars! "  BASIS/ORB.ENERGY      -10.0833465     -1.0453382\n",
  chars! "              CUSP        1.0000189      1.0002639\n",
  chars! "  2P       43.087509     -0.0001504      0.0000384\n",
  chars! "  2P       29.402017      0.0014071     -0.0002968\n",
  chars! "  4P       16.361110     -0.0001129     -0.0018472\n",
  chars! "  2P       10.508043      0.4226293     -0.1404732\n",
  chars! "  3P        8.278760      0.4876776     -0.1982277\n",
  chars! "  4P        6.839373      0.1304970     -0.1157987\n",
  chars! "  2P        4.097471      0.0563709      0.0246171\n",
  chars! "  3P        2.976452      0.0002690      0.1924433\n",
  chars! "  2P        1.665758      0.0021016      0.8625749\n",
  chars! "  3P        1.445917     -0.0000024      0.0427211\n",
  chars! "\n"]⟩

theorem cation_ar_ok : cation_ar.ok = true := by decide +kernel

/-- `data/cation/k`. -/
noncomputable def cation_k : DataFile := ⟨19, .cation, [
  chars! "      POTASSIUM+   1S(2)2S(2)2P(6)3S(2)3P(6), 1S                                      \n",
  chars! "\n",
  chars! "\n",
  chars! "\n",
  chars! "   E =  -599.017579304\n",
  chars! "   T =   599.017579802     V = -1198.035159105     V/T =    -1.999999999\n",
  chars! "\n",
  chars! "  ORBITAL ENERGIES AND EXPANSION COEFFICIENTS\n",
  chars! "        S                    1S             2S             3S \n",
  chars! "  BASIS/ORB.ENERGY     -133.7523564    -14.7081247     -1.9638222\n",
  chars! "              CUSP        1.0000328      0.9996661      1.0001475\n",
  chars! "  3S       48.500215      0.0004340      0.0002126     -0.0000714\n",
  chars! "  1S       27.237366     -0.3115065      0.0734156     -0.0325158\n",
  chars! "  2S       23.845026     -0.1697595      0.0558916     -0.0246131\n",
  chars! "  1S       16.459968     -0.5470770     -0.5038839      0.1771697\n",
  chars! "  2S        8.677200      0.0313619     -0.5408956     -0.3627896\n",
  chars! "  3S        7.307612      0.0298369     -0.7710328     -0.3912260\n",
  chars! "  2S        6.587645     -0.0592319      2.3470171      0.1571758\n",
  chars! "  3S        3.570365      0.0001862      0.0038665      0.4708517\n",
  chars! "  3S        2.457086     -0.0001790      0.0000851      0.4800659\n",
  chars! "  1S        1.530063      0.0002412      0.0007546      0.2315453\n",
  chars! "        P                    2P             3P \n",
  chars! "  BASIS/ORB.ENERGY      -11.7382282     -1.1705465\n",
  chars! "              CUSP        0.9998379      1.0008160\n",
  chars! "  2P       45.464745     -0.0001615      0.0000385\n",
  chars! "  2P       32.055879      0.0011888     -0.0002331\n",
  chars! "  4P       17.643385      0.0005381     -0.0020344\n",
  chars! "  2P       11.285946      0.4155590     -0.1455431\n",
  chars! "  3P        8.917247      0.4909839     -0.2190036\n",
  chars! "  4P        7.386591      0.1268360     -0.1304272\n",
  chars! "  2P        4.520369      0.0614818      0.0688736\n",
  chars! "  3P        3.218533      0.0002853      0.2169543\n",
  chars! "  2P        1.789225      0.0003745      0.8336104\n",
  chars! "  3P        1.530063     -0.0000547      0.0395011\n",
  chars! "\n"]⟩

theorem cation_k_ok : cation_k.ok = true := by decide +kernel

/-- `data/cation/ca`. -/
noncomputable def cation_ca : DataFile := ⟨20, .cation, [
  chars! "      CALCIUM+   K(2)L(8)3S(2)3P(6)4S(1), 2S                                          \n",
  chars! "\n",
  chars! "\n",
  chars! "\n",
  chars! "\n",
  chars! "   E =  -676.570012133\n",
  chars! "   T =   676.570011413     V = -1353.140023546     V/T =    -2.000000001\n",
  chars! "\n",
  chars! "  ORBITAL ENERGIES AND EXPANSION COEFFICIENTS\n",
  chars! "        S                    1S             2S             3S             4S \n",
  chars! "  BASIS/ORB.ENERGY     -149.6093523    -17.0667838     -2.4851291     -0.4163176\n",
  chars! "              CUSP        1.0001660      1.0004027      1.0006912      1.0005946\n",
  chars! "  2S       46.826729      0.0013507     -0.0001507     -0.0000629      0.0000289\n",
  chars! "  4S       26.932592     -0.0146473     -0.0024068      0.0025099     -0.0009068\n",
  chars! "  1S       24.414308      0.7237433     -0.4466923      0.1515407     -0.0415726\n",
  chars! "  2S       20.740056      0.3277337     -0.3582898      0.1278590     -0.0357141\n",
  chars! "  2S       13.257979      0.0053740     -0.5918091      0.1789414     -0.0450552\n",
  chars! "  3S        7.629463     -0.0007797      0.1025515     -0.1922459      0.0669014\n",
  chars! "  1S        6.414563      0.0034271      1.7559194     -0.5872343      0.1571400\n",
  chars! "  3S        4.199025      0.0000430      0.0104057      0.4276799     -0.1569863\n",
  chars! "  3S        2.932248     -0.0001103     -0.0021200      0.6756945     -0.1788498\n",
  chars! "  3S        2.139810      0.0000488      0.0011472      0.0693289     -0.1578010\n",
  chars! "  3S        1.063151     -0.0000239     -0.0003739     -0.0012364      0.7445941\n",
  chars! "  3S        0.912488      0.0000161      0.0002265      0.0015668      0.3800610\n",
  chars! "        P                    2P             3P \n",
  chars! "  BASIS/ORB.ENERGY      -13.8741848     -1.5816550\n",
  chars! "              CUSP        1.0001298      0.9999410\n",
  chars! "  3P       36.709506      0.0005156     -0.0001618\n",
  chars! "  3P       27.615969     -0.0031550      0.0007140\n",
  chars! "  4P       20.512304     -0.0039888     -0.0005556\n",
  chars! "  2P       11.829735      0.4447597     -0.1741201\n",
  chars! "  3P        9.266923      0.5172994     -0.2906277\n",
  chars! "  4P        7.563502      0.1166037     -0.1787580\n",
  chars! "  2P        4.264903      0.0227334      0.2856854\n",
  chars! "  3P        3.023909     -0.0000313      0.3851140\n",
  chars! "  2P        1.893422      0.0000942      0.6061761\n",
  chars! "  3P        0.912488     -0.0000143      0.0013617\n",
  chars! "\n"]⟩

theorem cation_ca_ok : cation_ca.ok = true := by decide +kernel

/-- `data/cation/sc`. -/
noncomputable def cation_sc : DataFile := ⟨21, .cation, [
  chars! "      SCANDIUM+   K(2)L(8)3S(2)3P(6)4S(1)3D(1), 3D                                    \n",
  chars! "\n",
  chars! "\n",
  chars! "\n",
  chars! "\n",
  chars! "   E =  -759.539143556\n",
  chars! "   T =   759.539143095     V = -1519.078286651     V/T =    -2.000000001\n",
  chars! "\n",
  chars! "  ORBITAL ENERGIES AND EXPANSION COEFFICIENTS\n",
  chars! "        S                    1S             2S             3S             4S \n",
  chars! "  BASIS/ORB.ENERGY     -166.1548822    -19.3331659     -2.8167397     -0.4492771\n",
  chars! "              CUSP        1.0001497      1.0003508      1.0006364      1.0003054\n",
  chars! "  2S       49.059902      0.0013744     -0.0001741     -0.0000600      0.0000311\n",
  chars! "  4S       28.467031     -0.0141542     -0.0020292      0.0024021     -0.0009679\n",
  chars! "  1S       25.707095      0.7213858     -0.4525443      0.1558072     -0.0423202\n",
  chars! "  2S       21.871156      0.3295350     -0.3593745      0.1302830     -0.0362668\n",
  chars! "  2S       14.040385      0.0057999     -0.6049503      0.1839606     -0.0444049\n",
  chars! "  3S        8.185364     -0.0007828      0.0963132     -0.2004106      0.0714847\n",
  chars! "  1S        6.790907      0.0032755      1.7752813     -0.5992239      0.1571996\n",
  chars! "  3S        4.525666      0.0000419      0.0109895      0.4130271     -0.1547434\n",
  chars! "  3S        3.229604     -0.0001187     -0.0025258      0.6397958     -0.1612000\n",
  chars! "  3S        2.464173      0.0000513      0.0013380      0.1253641     -0.1637958\n",
  chars! "  3S        1.144467     -0.0000155     -0.0001981      0.0001155      0.7368654\n",
  chars! "  3S        0.947921      0.0000100      0.0001471      0.0004046      0.3750104\n",
  chars! "        P                    2P             3P \n",
  chars! "  BASIS/ORB.ENERGY      -15.9217724     -1.8256487\n",
  chars! "              CUSP        1.0004813      0.9997894\n",
  chars! "  3P       38.544981      0.0004909     -0.0001680\n",
  chars! "  3P       29.363523     -0.0027070      0.0006194\n",
  chars! "  4P       21.948177     -0.0026896     -0.0008905\n",
  chars! "  2P       12.643064      0.4335757     -0.1752494\n",
  chars! "  3P        9.964613      0.5194725     -0.2972561\n",
  chars! "  4P        8.157957      0.1222477     -0.1824344\n",
  chars! "  2P        4.538867      0.0240491      0.3005787\n",
  chars! "  3P        3.265690     -0.0001993      0.4172178\n",
  chars! "  2P        2.023922      0.0002814      0.5652231\n",
  chars! "  3P        0.947921     -0.0000107      0.0011792\n",
  chars! "        D                    3D \n",
  chars! "  BASIS/ORB.ENERGY       -0.5999367\n",
  chars! "              CUSP        0.9998460\n",
  chars! "  3D       18.357069      0.0012672\n",
  chars! "  4D       13.998989      0.0058217\n",
  chars! "  3D        6.408209      0.0797977\n",
  chars! "  4D        5.251401      0.0891597\n",
  chars! "  3D        2.999535      0.4127642\n",
  chars! "  4D        2.286812      0.2378400\n",
  chars! "  3D        1.324813      0.3368157\n",
  chars! "  3D        0.947921      0.0131812\n",
  chars! "\n"]⟩

theorem cation_sc_ok : cation_sc.ok = true := by decide +kernel

/-- `data/cation/ti`. -/
noncomputable def cation_ti : DataFile := ⟨22, .cation, [
  chars! "      TITANIUM+   K(2)L(8)3S(2)3P(6)4S(1)3D(2), 4F                                    \n",
  chars! "\n",
  chars! "\n",
  chars! "\n",
  chars! "\n",
  chars! "   E =  -848.203400164\n",
  chars! "   T =   848.203399259     V = -1696.406799423     V/T =    -2.000000001\n",
  chars! "\n",
  chars! "  ORBITAL ENERGIES AND EXPANSION COEFFICIENTS\n",
  chars! "        S                    1S             2S             3S             4S \n",
  chars! "  BASIS/ORB.ENERGY     -183.5383843    -21.6860132     -3.1337020     -0.4756648\n",
  chars! "              CUSP        1.0001375      1.0003059      1.0005849      1.0002988\n",
  chars! "  2S       51.054089      0.0014110     -0.0001994     -0.0000514      0.0000297\n",
  chars! "  4S       29.826418     -0.0140914     -0.0017324      0.0022513     -0.0009193\n",
  chars! "  1S       26.886993      0.7236904     -0.4683748      0.1638083     -0.0439876\n",
  chars! "  2S       22.903449      0.3272178     -0.3687321      0.1355344     -0.0373086\n",
  chars! "  2S       14.743954      0.0045472     -0.6343711      0.1978280     -0.0472941\n",
  chars! "  3S        8.626215     -0.0009743      0.0972926     -0.2125113      0.0755472\n",
  chars! "  1S        7.241417      0.0039199      1.8198863     -0.6250466      0.1620248\n",
  chars! "  3S        5.000569      0.0001146      0.0120534      0.3486921     -0.1312893\n",
  chars! "  3S        3.610119     -0.0001735     -0.0021755      0.6278751     -0.1650577\n",
  chars! "  3S        2.756584      0.0000670      0.0012404      0.2129895     -0.1690146\n",
  chars! "  3S        1.205403     -0.0000154     -0.0000666      0.0011519      0.7445441\n",
  chars! "  3S        0.975361      0.0000097      0.0001168     -0.0001114      0.3553040\n",
  chars! "        P                    2P             3P \n",
  chars! "  BASIS/ORB.ENERGY      -18.0552500     -2.0571135\n",
  chars! "              CUSP        1.0000002      0.9999998\n",
  chars! "  3P       40.380457      0.0005183     -0.0001725\n",
  chars! "  3P       31.345684     -0.0022986      0.0005191\n",
  chars! "  4P       23.398255     -0.0013068     -0.0011567\n",
  chars! "  2P       13.532375      0.4181733     -0.1696369\n",
  chars! "  3P       10.724850      0.5233268     -0.2896069\n",
  chars! "  4P        8.792957      0.1337181     -0.1758470\n",
  chars! "  2P        4.604777      0.0237843      0.2981797\n",
  chars! "  3P        3.480043     -0.0011755      0.4174306\n",
  chars! "  2P        2.151940      0.0007040      0.5448154\n",
  chars! "  3P        0.975361     -0.0000190      0.0010979\n",
  chars! "        D                    3D \n",
  chars! "  BASIS/ORB.ENERGY       -0.7068254\n",
  chars! "              CUSP        0.9999718\n",
  chars! "  3D       19.217589      0.0014156\n",
  chars! "  4D       14.756988      0.0062383\n",
  chars! "  3D        6.708481      0.0972491\n",
  chars! "  4D        5.510605      0.1069795\n",
  chars! "  3D        3.130957      0.4439239\n",
  chars! "  4D        2.406248      0.2311861\n",
  chars! "  3D        1.427287      0.2806244\n",
  chars! "  3D        0.975361      0.0051557\n",
  chars! "\n"]⟩

theorem cation_ti_ok : cation_ti.ok = true := by decide +kernel

/-- Part 11 of the files. -/
noncomputable def part11 : List DataFile := [
  anion_sn, anion_sb, anion_te, anion_i, cation_li, cation_be, cation_b, cation_c, cation_n, cation_o, cation_f, cation_ne, cation_na, cation_mg, cation_al, cation_si, cation_p, cation_s, cation_cl, cation_ar, cation_k, cation_ca, cation_sc, cation_ti]

theorem part11_ok : ∀ d ∈ part11, d.ok = true := by
  intro d hd
  unfold part11 at hd
  simp only [List.mem_cons, List.not_mem_nil, or_false] at hd
  rcases hd with rfl | rfl | rfl | rfl | rfl | rfl | rfl | rfl | rfl | rfl | rfl | rfl | rfl | rfl | rfl | rfl | rfl | rfl | rfl | rfl | rfl | rfl | rfl | rfl
  · exact anion_sn_ok
  · exact anion_sb_ok
  · exact anion_te_ok
  · exact anion_i_ok
  · exact cation_li_ok
  · exact cation_be_ok
  · exact cation_b_ok
  · exact cation_c_ok
  · exact cation_n_ok
  · exact cation_o_ok
  · exact cation_f_ok
  · exact cation_ne_ok
  · exact cation_na_ok
  · exact cation_mg_ok
  · exact cation_al_ok
  · exact cation_si_ok
  · exact cation_p_ok
  · exact cation_s_ok
  · exact cation_cl_ok
  · exact cation_ar_ok
  · exact cation_k_ok
  · exact cation_ca_ok
  · exact cation_sc_ok
  · exact cation_ti_ok

end BFit.Data
