import Verif.Lemmas.DataNum

/-! Copy of files in /repo/bfit/data/data.tar, generated by tools/gendata.py. -/

namespace BFit.Data

/-- `data/neutral/er`. -/
noncomputable def neutral_er : DataFile := ⟨68, .neutral, [
  chars! "      ERBIUM   [XE]6S(2)5D(0)4F(12), 3H                                               \n",
  chars! "      CHARGE = 68.000000\n",
  chars! "      SYMMETRY SPECIES               S     P     D     F \n",
  chars! "      NUMBER OF BASIS FUNCTIONS     13    10     7     6\n",
  chars! "      NUMBER OF CLOSED SHELLS        6     4     2     0\n",
  chars! "      NUMBER OF OPEN SHELLS          0     0     0     1\n",
  chars! "      OPEN SHELL OCCUPATION NUMBER   0     0     0    12\n",
  chars! "   E =-12498.152612131\n",
  chars! "   T = 12498.152587436     V =-24996.305199567     V/T =    -2.000000002\n",
  chars! "  ORBITAL ENERGIES AND EXPANSION COEFFICIENTS\n",
  chars! "        S                    1S             2S             3S             4S             5S             6S \n",
  chars! "  BASIS/ORB.ENERGY    -1981.7246166   -324.0935547    -73.9012419    -15.1272735     -2.0217199      -.1793521\n",
  chars! "  1S       85.931072       .0485327       .0148697      -.0053451       .0009742      -.0008132       .0000424\n",
  chars! "  1S       66.831633       .9473026      -.3578143       .1642338      -.0765923       .0290884      -.0068744\n",
  chars! "  2S       55.449578       .0058697      -.2448440       .1274811      -.0656094       .0235773      -.0060613\n",
  chars! "  2S       32.064174       .0020520      1.0938547      -.5556567       .2777018      -.1017614       .0254395\n",
  chars! "  3S       29.377976      -.0014402       .1634661      -.3991710       .2085325      -.0824307       .0190296\n",
  chars! "  3S       19.035249       .0011818       .0137503       .3885230       .1902680      -.1029788       .0305394\n",
  chars! "  3S       15.883516      -.0008654      -.0058781       .9384419     -1.3586755       .5916649      -.1521397\n",
  chars! "  3S        8.283918       .0002750       .0005687       .0416494       .9392049      -.3328291       .0861686\n",
  chars! "  3S        6.636024      -.0001851      -.0004488      -.0170165       .4924208      -.5615885       .1455416\n",
  chars! "  3S        3.191019       .0000437       .0001073       .0022935       .0076897       .8476603      -.2177604\n",
  chars! "  3S        2.316595      -.0000256      -.0000571      -.0012783      -.0016570       .4077025      -.2139872\n",
  chars! "  3S         .928801       .0000066       .0000144       .0002947       .0002905      -.0015197       .6387876\n",
  chars! "  3S         .654626      -.0000037      -.0000081      -.0001643      -.0001516       .0008116       .4611723\n",
  chars! "        P                    2P             3P             4P             5P \n",
  chars! "  BASIS/ORB.ENERGY     -308.8132967    -66.9369585    -12.2649240     -1.1691245\n",
  chars! "  2P       61.043988      -.0100085      -.0034223       .0020480      -.0007816\n",
  chars! "  2P       35.420505      -.7592956      -.3785849       .1772395      -.0586251\n",
  chars! "  3P       31.217644      -.2579810      -.2686831       .1892615      -.0692608\n",
  chars! "  4P       24.193456      -.0201252      -.1158590       .2303926      -.0947614\n",
  chars! "  3P       17.664179       .0124806      1.1102095      -.9471917       .3567340\n",
  chars! "  3P       12.614001      -.0032226       .2316312      -.3773797       .1459313\n",
  chars! "  3P        8.181173       .0010046      -.0035060      1.1517595      -.5129247\n",
  chars! "  4P        6.710377      -.0002378       .0017996       .2965331      -.2426016\n",
  chars! "  3P        2.843177       .0000490      -.0002289       .0083375       .7757857\n",
  chars! "  3P        1.891215      -.0000195       .0000850      -.0018204       .4197790\n",
  chars! "        D                    3D             4D \n",
  chars! "  BASIS/ORB.ENERGY      -54.1313581     -7.1203154\n",
  chars! "  3D       42.909407       .0043587      -.0015138\n",
  chars! "  3D       24.019173       .4330911      -.2097478\n",
  chars! "  4D       19.467034       .4827766      -.2446104\n",
  chars! "  4D       13.956931       .1599957      -.0905378\n",
  chars! "  4D       10.665832       .0005929       .4925467\n",
  chars! "  4D        7.079897       .0019566       .6084119\n",
  chars! "  4D        4.572507       .0000476       .1013647\n",
  chars! "        F                    4F \n",
  chars! "  BASIS/ORB.ENERGY        -.7116652\n",
  chars! "  4F       21.070163       .0209572\n",
  chars! "  4F       12.313465       .2040170\n",
  chars! "  4F        7.999007       .3705399\n",
  chars! "  4F        5.097240       .3674417\n",
  chars! "  4F        3.114795       .2081652\n",
  chars! "  4F        1.896657       .0511807\n"]⟩

theorem neutral_er_ok : neutral_er.ok = true := by decide +kernel

/-- `data/neutral/tm`. -/
noncomputable def neutral_tm : DataFile := ⟨69, .neutral, [
  chars! "      THULIUM   [XE]6S(2)5D(0)4F(13), 2F                                              \n",
  chars! "      CHARGE = 69.000000\n",
  chars! "      SYMMETRY SPECIES               S     P     D     F \n",
  chars! "      NUMBER OF BASIS FUNCTIONS     13    10     7     6\n",
  chars! "      NUMBER OF CLOSED SHELLS        6     4     2     0\n",
  chars! "      NUMBER OF OPEN SHELLS          0     0     0     1\n",
  chars! "      OPEN SHELL OCCUPATION NUMBER   0     0     0    13\n",
  chars! "   E =-12940.174228351\n",
  chars! "   T = 12940.174228651     V =-25880.348457002     V/T =    -2.000000000\n",
  chars! "  ORBITAL ENERGIES AND EXPANSION COEFFICIENTS\n",
  chars! "        S                    1S             2S             3S             4S             5S             6S \n",
  chars! "  BASIS/ORB.ENERGY    -2042.6987315   -334.9668088    -76.5288169    -15.6112009     -2.0608772     -0.1809131\n",
  chars! "  1S       86.510536      0.0525804      0.0160166     -0.0057355      0.0010537     -0.0008459      0.0000341\n",
  chars! "  1S       67.746514      0.9438281     -0.3600923      0.1654252     -0.0771179      0.0291599     -0.0068199\n",
  chars! "  2S       56.182403      0.0050971     -0.2454348      0.1283859     -0.0662482      0.0237378     -0.0060733\n",
  chars! "  2S       32.500079      0.0021914      1.1014411     -0.5613504      0.2810609     -0.1026282      0.0254939\n",
  chars! "  3S       29.732223     -0.0015530      0.1573033     -0.4044470      0.2107338     -0.0827698      0.0188759\n",
  chars! "  3S       19.530983      0.0012376      0.0122290      0.3848124      0.1755639     -0.0962917      0.0286524\n",
  chars! "  3S       16.170154     -0.0008732     -0.0048104      0.9515652     -1.3483489      0.5847885     -0.1492318\n",
  chars! "  3S        8.413489      0.0002784      0.0004004      0.0406966      0.9606634     -0.3483497      0.0898065\n",
  chars! "  3S        6.712172     -0.0001877     -0.0003404     -0.0165209      0.4708714     -0.5433794      0.1391390\n",
  chars! "  3S        3.262439      0.0000456      0.0000863      0.0023078      0.0072091      0.8214232     -0.2074243\n",
  chars! "  3S        2.366025     -0.0000262     -0.0000443     -0.0012604     -0.0013995      0.4339192     -0.2185653\n",
  chars! "  3S        0.935103      0.0000066      0.0000108      0.0002816      0.0002416     -0.0010068      0.6423859\n",
  chars! "  3S        0.657290     -0.0000037     -0.0000061     -0.0001578     -0.0001263      0.0005962      0.4555841\n",
  chars! "        P                    2P             3P             4P             5P \n",
  chars! "  BASIS/ORB.ENERGY     -319.4209325    -69.4177883    -12.6746101     -1.1879923\n",
  chars! "  2P       62.010689     -0.0098169     -0.0033363      0.0020084     -0.0007630\n",
  chars! "  2P       35.956011     -0.7605188     -0.3801560      0.1782536     -0.0586071\n",
  chars! "  3P       31.711451     -0.2567408     -0.2680982      0.1902134     -0.0690668\n",
  chars! "  4P       24.625796     -0.0194750     -0.1091917      0.2289664     -0.0931514\n",
  chars! "  3P       17.939410      0.0118209      1.1116932     -0.9612153      0.3587369\n",
  chars! "  3P       12.772710     -0.0030762      0.2243828     -0.3646879      0.1414263\n",
  chars! "  3P        8.329778      0.0009821     -0.0041181      1.1548834     -0.5123905\n",
  chars! "  4P        6.821091     -0.0002295      0.0018951      0.2942109     -0.2375736\n",
  chars! "  3P        2.888972      0.0000469     -0.0002376      0.0081770      0.7686428\n",
  chars! "  3P        1.916143     -0.0000186      0.0000881     -0.0017617      0.4247497\n",
  chars! "        D                    3D             4D \n",
  chars! "  BASIS/ORB.ENERGY      -56.3424687     -7.3915558\n",
  chars! "  3D       43.554777      0.0042963     -0.0014923\n",
  chars! "  3D       24.422389      0.4343149     -0.2109784\n",
  chars! "  4D       19.822464      0.4830166     -0.2465645\n",
  chars! "  4D       14.199502      0.1584186     -0.0872883\n",
  chars! "  4D       10.868032      0.0001377      0.4951290\n",
  chars! "  4D        7.213810      0.0020536      0.6061138\n",
  chars! "  4D        4.653229      0.0000566      0.1004010\n",
  chars! "        F                    4F \n",
  chars! "  BASIS/ORB.ENERGY       -0.7192092\n",
  chars! "  4F       21.379996      0.0215569\n",
  chars! "  4F       12.494944      0.2134226\n",
  chars! "  4F        8.057008      0.3801615\n",
  chars! "  4F        5.103958      0.3618109\n",
  chars! "  4F        3.112255      0.1988927\n",
  chars! "  4F        1.898043      0.0477029\n"]⟩

theorem neutral_tm_ok : neutral_tm.ok = true := by decide +kernel

/-- `data/neutral/yb`. -/
noncomputable def neutral_yb : DataFile := ⟨70, .neutral, [
  chars! "      YTTERBIUM   [XE]6S(2)5D(0)4F(14), 1S                                            \n",
  chars! "      CHARGE = 70.000000\n",
  chars! "      SYMMETRY SPECIES               S     P     D     F \n",
  chars! "      NUMBER OF BASIS FUNCTIONS     13    10     7     6\n",
  chars! "      NUMBER OF CLOSED SHELLS        6     4     2     1\n",
  chars! "      NUMBER OF OPEN SHELLS          0     0     0     0\n",
  chars! "      OPEN SHELL OCCUPATION NUMBER   0     0     0     0\n",
  chars! "   E =-13391.456011419\n",
  chars! "   T = 13391.456004461     V =-26782.912015881     V/T =    -2.000000001\n",
  chars! "  ORBITAL ENERGIES AND EXPANSION COEFFICIENTS\n",
  chars! "        S                    1S             2S             3S             4S             5S             6S \n",
  chars! "  BASIS/ORB.ENERGY    -2104.5923448   -346.0090678    -79.1894306    -16.0950183     -2.0987416     -0.1824185\n",
  chars! "  1S       87.352555      0.0549290      0.0167699     -0.0059576      0.0011190     -0.0008872      0.0000427\n",
  chars! "  1S       68.693248      0.9418238     -0.3616179      0.1662702     -0.0775525      0.0292132     -0.0067844\n",
  chars! "  2S       56.955480      0.0046308     -0.2459661      0.1291897     -0.0667207      0.0237863     -0.0060366\n",
  chars! "  2S       32.933882      0.0022641      1.1081762     -0.5664495      0.2838694     -0.1031639      0.0254316\n",
  chars! "  3S       30.102689     -0.0016239      0.1514344     -0.4090233      0.2131653     -0.0833987      0.0188934\n",
  chars! "  3S       19.971201      0.0012787      0.0112489      0.3872147      0.1647104     -0.0907385      0.0268814\n",
  chars! "  3S       16.452439     -0.0008808     -0.0041856      0.9572081     -1.3432210      0.5792017     -0.1465111\n",
  chars! "  3S        8.583422      0.0002803      0.0003093      0.0401699      0.9508381     -0.3444946      0.0879407\n",
  chars! "  3S        6.835797     -0.0001872     -0.0002793     -0.0159956      0.4818862     -0.5405242      0.1375085\n",
  chars! "  3S        3.307811      0.0000450      0.0000720      0.0022075      0.0071813      0.8180796     -0.2055766\n",
  chars! "  3S        2.392500     -0.0000259     -0.0000364     -0.0012057     -0.0014008      0.4334979     -0.2151780\n",
  chars! "  3S        0.943977      0.0000065      0.0000090      0.0002710      0.0002435     -0.0009986      0.6397761\n",
  chars! "  3S        0.661442     -0.0000037     -0.0000051     -0.0001517     -0.0001272      0.0005900      0.4572937\n",
  chars! "        P                    2P             3P             4P             5P \n",
  chars! "  BASIS/ORB.ENERGY     -330.1975649    -71.9311454    -13.0837156     -1.2057731\n",
  chars! "  2P       63.020058     -0.0095943     -0.0032402      0.0019622     -0.0007424\n",
  chars! "  2P       36.488320     -0.7619618     -0.3817906      0.1792671     -0.0585690\n",
  chars! "  3P       32.197498     -0.2553492     -0.2678048      0.1914424     -0.0689512\n",
  chars! "  4P       25.055410     -0.0186672     -0.1033437      0.2283450     -0.0917991\n",
  chars! "  3P       18.221343      0.0110206      1.1127560     -0.9749620      0.3604070\n",
  chars! "  3P       12.943284     -0.0028627      0.2185524     -0.3511139      0.1366692\n",
  chars! "  3P        8.468270      0.0009302     -0.0045317      1.1577139     -0.5118509\n",
  chars! "  4P        6.924058     -0.0002145      0.0019558      0.2899645     -0.2316146\n",
  chars! "  3P        2.933562      0.0000436     -0.0002431      0.0079605      0.7618048\n",
  chars! "  3P        1.939912     -0.0000172      0.0000900     -0.0016886      0.4294879\n",
  chars! "        D                    3D             4D \n",
  chars! "  BASIS/ORB.ENERGY      -58.5851326     -7.6613698\n",
  chars! "  3D       44.380596      0.0041230     -0.0014343\n",
  chars! "  3D       24.846977      0.4346080     -0.2116265\n",
  chars! "  4D       20.192372      0.4834056     -0.2488589\n",
  chars! "  4D       14.457411      0.1576035     -0.0811826\n",
  chars! "  4D       11.032791     -0.0000537      0.4992367\n",
  chars! "  4D        7.328845      0.0021169      0.6007440\n",
  chars! "  4D        4.721620      0.0000638      0.0979458\n",
  chars! "        F                    4F \n",
  chars! "  BASIS/ORB.ENERGY       -0.7323478\n",
  chars! "  4F       21.813503      0.0212805\n",
  chars! "  4F       12.812141      0.2118029\n",
  chars! "  4F        8.292375      0.3779314\n",
  chars! "  4F        5.253542      0.3633646\n",
  chars! "  4F        3.193592      0.2009939\n",
  chars! "  4F        1.935523      0.0489053\n"]⟩

theorem neutral_yb_ok : neutral_yb.ok = true := by decide +kernel

/-- `data/neutral/lu`. -/
noncomputable def neutral_lu : DataFile := ⟨71, .neutral, [
  chars! "      LUTECIUM   [XE]6S(2)5D(1)4F(14), 2D                                             \n",
  chars! "      CHARGE = 71.000000\n",
  chars! "      SYMMETRY SPECIES               S     P     D     F \n",
  chars! "      NUMBER OF BASIS FUNCTIONS     13    10     9     6\n",
  chars! "      NUMBER OF CLOSED SHELLS        6     4     2     1\n",
  chars! "      NUMBER OF OPEN SHELLS          0     0     1     0\n",
  chars! "      OPEN SHELL OCCUPATION NUMBER   0     0     1     0\n",
  chars! "   E =-13851.807781166\n",
  chars! "   T = 13851.807792702     V =-27703.615573867     V/T =    -1.999999999\n",
  chars! "  ORBITAL ENERGIES AND EXPANSION COEFFICIENTS\n",
  chars! "        S                    1S             2S             3S             4S             5S             6S \n",
  chars! "  BASIS/ORB.ENERGY    -2167.7313827   -357.5722232    -82.2686747    -16.9378029     -2.3169459     -0.1988028\n",
  chars! "  1S       88.158050      0.0576387      0.0175358     -0.0061864      0.0011281     -0.0008980      0.0001001\n",
  chars! "  1S       69.634798      0.9394633     -0.3631523      0.1671104     -0.0780593      0.0300289     -0.0074363\n",
  chars! "  2S       57.735491      0.0041575     -0.2462672      0.1298612     -0.0673942      0.0246178     -0.0064745\n",
  chars! "  2S       33.352021      0.0023438      1.1156124     -0.5718910      0.2877386     -0.1070141      0.0275966\n",
  chars! "  3S       30.451377     -0.0017115      0.1444666     -0.4147604      0.2154299     -0.0859171      0.0209398\n",
  chars! "  3S       20.515313      0.0013103      0.0103281      0.3794722      0.1527775     -0.0878742      0.0262656\n",
  chars! "  3S       16.747706     -0.0008633     -0.0035161      0.9751955     -1.3356485      0.5894331     -0.1556477\n",
  chars! "  3S        8.641112      0.0002871      0.0002214      0.0404550      1.0165279     -0.3795159      0.0986737\n",
  chars! "  3S        6.885200     -0.0001989     -0.0002304     -0.0170584      0.4144969     -0.5440145      0.1517480\n",
  chars! "  3S        3.414551      0.0000527      0.0000694      0.0026226      0.0065050      0.8646575     -0.2360099\n",
  chars! "  3S        2.490551     -0.0000308     -0.0000355     -0.0014475     -0.0011621      0.4084402     -0.2254036\n",
  chars! "  3S        1.042682      0.0000075      0.0000084      0.0003134      0.0001953     -0.0001496      0.5962871\n",
  chars! "  3S        0.714282     -0.0000039     -0.0000044     -0.0001612     -0.0000910      0.0002725      0.5160913\n",
  chars! "        P                    2P             3P             4P             5P \n",
  chars! "  BASIS/ORB.ENERGY     -341.4900455    -74.8602434    -13.8449925     -1.3757605\n",
  chars! "  2P       63.903538     -0.0095090     -0.0032247      0.0019176     -0.0007453\n",
  chars! "  2P       37.008976     -0.7636049     -0.3834107      0.1808822     -0.0609848\n",
  chars! "  3P       32.687216     -0.2534685     -0.2696530      0.1919663     -0.0719194\n",
  chars! "  4P       25.543805     -0.0182926     -0.1052442      0.2230951     -0.0950623\n",
  chars! "  3P       18.549954      0.0105918      1.1188188     -0.9702328      0.3755839\n",
  chars! "  3P       13.120080     -0.0028147      0.2181627     -0.3707397      0.1434042\n",
  chars! "  3P        8.701682      0.0009634     -0.0060900      1.1592111     -0.5233215\n",
  chars! "  4P        7.137705     -0.0002176      0.0022206      0.3057180     -0.2583804\n",
  chars! "  3P        3.013129      0.0000424     -0.0002813      0.0080667      0.8252859\n",
  chars! "  3P        2.003340     -0.0000170      0.0001016     -0.0017811      0.3776873\n",
  chars! "        D                    3D             4D             5D \n",
  chars! "  BASIS/ORB.ENERGY      -61.2363231     -8.2648215     -0.2433199\n",
  chars! "  3D       36.177588      0.0231651     -0.0098965      0.0018859\n",
  chars! "  3D       22.585179      0.5665592     -0.2801740      0.0567396\n",
  chars! "  4D       18.486867      0.4308225     -0.2340335      0.0477682\n",
  chars! "  4D       11.757966      0.0576575      0.3727748     -0.0887625\n",
  chars! "  4D        8.137374     -0.0106848      0.6030118     -0.1436141\n",
  chars! "  4D        5.658663      0.0040573      0.1974776     -0.0376242\n",
  chars! "  4D        3.305766     -0.0008520      0.0070434      0.3235841\n",
  chars! "  4D        1.885996      0.0003061     -0.0003280      0.5505619\n",
  chars! "  4D        1.068929     -0.0000919      0.0001115      0.3110526\n",
  chars! "        F                    4F \n",
  chars! "  BASIS/ORB.ENERGY       -1.0768125\n",
  chars! "  4F       22.312950      0.0210973\n",
  chars! "  4F       13.203800      0.2095382\n",
  chars! "  4F        8.660479      0.3716656\n",
  chars! "  4F        5.596255      0.3644870\n",
  chars! "  4F        3.496657      0.1974277\n",
  chars! "  4F        2.185855      0.0408131\n"]⟩

theorem neutral_lu_ok : neutral_lu.ok = true := by decide +kernel

/-- `data/neutral/hf`. -/
noncomputable def neutral_hf : DataFile := ⟨72, .neutral, [
  chars! "      HAFNIUM   [XE]4F(14)6S(2)5D(2), 3F                                              \n",
  chars! "      CHARGE = 72.000000\n",
  chars! "      SYMMETRY SPECIES               S     P     D     F \n",
  chars! "      NUMBER OF BASIS FUNCTIONS     13    10     9     6\n",
  chars! "      NUMBER OF CLOSED SHELLS        6     4     2     1\n",
  chars! "      NUMBER OF OPEN SHELLS          0     0     1     0\n",
  chars! "      OPEN SHELL OCCUPATION NUMBER   0     0     2     0\n",
  chars! "   E =-14321.249598927\n",
  chars! "   T = 14321.249546528     V =-28642.499145454     V/T =    -2.000000004\n",
  chars! "  ORBITAL ENERGIES AND EXPANSION COEFFICIENTS\n",
  chars! "        S                    1S             2S             3S             4S             5S             6S \n",
  chars! "  BASIS/ORB.ENERGY    -2231.8109979   -369.3297297    -85.4118907    -17.7976402     -2.5193441     -0.2089547\n",
  chars! "  1S       89.099347      0.0593139      0.0181258     -0.0062930      0.0011268     -0.0008874      0.0001295\n",
  chars! "  1S       70.595058      0.9380112     -0.3643254      0.1677130     -0.0785363      0.0307620     -0.0078179\n",
  chars! "  2S       58.530393      0.0038582     -0.2466302      0.1306699     -0.0680805      0.0254374     -0.0067590\n",
  chars! "  2S       33.759966      0.0023776      1.1234995     -0.5778613      0.2918173     -0.1108356      0.0290275\n",
  chars! "  3S       30.773278     -0.0017756      0.1369382     -0.4214634      0.2185992     -0.0885928      0.0222613\n",
  chars! "  3S       21.051322      0.0013330      0.0093819      0.3801780      0.1371865     -0.0834064      0.0249158\n",
  chars! "  3S       17.029709     -0.0008402     -0.0029128      0.9864267     -1.3270031      0.5983667     -0.1603694\n",
  chars! "  3S        8.701558      0.0002913      0.0001369      0.0402284      1.0890100     -0.4195729      0.1091008\n",
  chars! "  3S        6.910123     -0.0002098     -0.0001807     -0.0178359      0.3415474     -0.5495651      0.1614450\n",
  chars! "  3S        3.575255      0.0000614      0.0000647      0.0030870      0.0056986      0.8698370     -0.2485256\n",
  chars! "  3S        2.615632     -0.0000346     -0.0000315     -0.0016332     -0.0006965      0.4330566     -0.2348173\n",
  chars! "  3S        1.108804      0.0000078      0.0000069      0.0003241      0.0001214      0.0009648      0.5762309\n",
  chars! "  3S        0.745946     -0.0000039     -0.0000034     -0.0001592     -0.0000516     -0.0001201      0.5417487\n",
  chars! "        P                    2P             3P             4P             5P \n",
  chars! "  BASIS/ORB.ENERGY     -352.9759429    -77.8524269    -14.6219170     -1.5322866\n",
  chars! "  2P       64.972139     -0.0092422     -0.0031320      0.0018434     -0.0007320\n",
  chars! "  2P       37.551689     -0.7645456     -0.3846335      0.1823390     -0.0631584\n",
  chars! "  3P       33.182576     -0.2525927     -0.2710027      0.1923718     -0.0746601\n",
  chars! "  4P       26.023296     -0.0176393     -0.1042114      0.2172157     -0.0979404\n",
  chars! "  3P       18.862732      0.0098567      1.1221942     -0.9668551      0.3906723\n",
  chars! "  3P       13.291252     -0.0026615      0.2167617     -0.3884827      0.1478441\n",
  chars! "  3P        8.935252      0.0009600     -0.0076668      1.1618042     -0.5318386\n",
  chars! "  4P        7.356536     -0.0002111      0.0024633      0.3203760     -0.2871176\n",
  chars! "  3P        3.121242      0.0000389     -0.0003136      0.0082773      0.8638762\n",
  chars! "  3P        2.075235     -0.0000156      0.0001076     -0.0017903      0.3533917\n",
  chars! "        D                    3D             4D             5D \n",
  chars! "  BASIS/ORB.ENERGY      -63.9488088     -8.8809908     -0.3243898\n",
  chars! "  3D       37.087770      0.0211120     -0.0090204      0.0019523\n",
  chars! "  3D       23.120798      0.5594538     -0.2785030      0.0632842\n",
  chars! "  4D       18.932868      0.4371224     -0.2399802      0.0554542\n",
  chars! "  4D       12.064253      0.0616689      0.3585662     -0.0978792\n",
  chars! "  4D        8.406485     -0.0122587      0.6033008     -0.1583776\n",
  chars! "  4D        5.915269      0.0047823      0.2090239     -0.0579027\n",
  chars! "  4D        3.542840     -0.0010781      0.0081207      0.3372681\n",
  chars! "  4D        2.089406      0.0003847     -0.0004134      0.5642177\n",
  chars! "  4D        1.221170     -0.0001112      0.0001408      0.2764801\n",
  chars! "        F                    4F \n",
  chars! "  BASIS/ORB.ENERGY       -1.4302060\n",
  chars! "  4F       22.572535      0.0225000\n",
  chars! "  4F       13.324140      0.2288594\n",
  chars! "  4F        8.629242      0.3954364\n",
  chars! "  4F        5.567960      0.3557229\n",
  chars! "  4F        3.525177      0.1652271\n",
  chars! "  4F        2.245564      0.0229193\n"]⟩

theorem neutral_hf_ok : neutral_hf.ok = true := by decide +kernel

/-- `data/neutral/ta`. -/
noncomputable def neutral_ta : DataFile := ⟨73, .neutral, [
  chars! "      TANTALUM   [XE]4F(14)6S(2)5D(3), 4F                                             \n",
  chars! "      CHARGE = 73.000000\n",
  chars! "      SYMMETRY SPECIES               S     P     D     F \n",
  chars! "      NUMBER OF BASIS FUNCTIONS     13    10     9     6\n",
  chars! "      NUMBER OF CLOSED SHELLS        6     4     2     1\n",
  chars! "      NUMBER OF OPEN SHELLS          0     0     1     0\n",
  chars! "      OPEN SHELL OCCUPATION NUMBER   0     0     3     0\n",
  chars! "   E =-14799.812390171\n",
  chars! "   T = 14799.812372155     V =-29599.624762326     V/T =    -2.000000001\n",
  chars! "  ORBITAL ENERGIES AND EXPANSION COEFFICIENTS\n",
  chars! "        S                    1S             2S             3S             4S             5S             6S \n",
  chars! "  BASIS/ORB.ENERGY    -2296.8421067   -381.2922857    -88.6287394    -18.6843854     -2.7203222     -0.2174453\n",
  chars! "  1S       90.555103      0.0567981      0.0178020     -0.0061247      0.0011110     -0.0008554      0.0001409\n",
  chars! "  1S       71.629551      0.9403201     -0.3638414      0.1677265     -0.0788913      0.0313989     -0.0080830\n",
  chars! "  2S       59.404889      0.0041386     -0.2471379      0.1312004     -0.0684995      0.0261277     -0.0069715\n",
  chars! "  2S       34.177342      0.0022758      1.1291387     -0.5819079      0.2947295     -0.1141016      0.0300936\n",
  chars! "  3S       31.149791     -0.0017404      0.1308367     -0.4266372      0.2218121     -0.0912585      0.0232809\n",
  chars! "  3S       21.516317      0.0012991      0.0090526      0.3815128      0.1287125     -0.0819476      0.0244529\n",
  chars! "  3S       17.314435     -0.0007993     -0.0026854      0.9937583     -1.3260955      0.6100448     -0.1646856\n",
  chars! "  3S        8.785183      0.0002883      0.0001092      0.0405307      1.1468343     -0.4503988      0.1167050\n",
  chars! "  3S        6.954670     -0.0002159     -0.0001667     -0.0188737      0.2841795     -0.5680611      0.1729182\n",
  chars! "  3S        3.759950      0.0000681      0.0000666      0.0036098      0.0054914      0.8619316     -0.2544259\n",
  chars! "  3S        2.747928     -0.0000363     -0.0000304     -0.0017927     -0.0004315      0.4752824     -0.2455030\n",
  chars! "  3S        1.161882      0.0000075      0.0000062      0.0003258      0.0000951      0.0018234      0.5663814\n",
  chars! "  3S        0.770646     -0.0000037     -0.0000030     -0.0001556     -0.0000385     -0.0003877      0.5538834\n",
  chars! "        P                    2P             3P             4P             5P \n",
  chars! "  BASIS/ORB.ENERGY     -364.6660205    -80.9173974    -15.4245114     -1.6883189\n",
  chars! "  2P       65.874762     -0.0091316     -0.0031103      0.0018059     -0.0007296\n",
  chars! "  2P       38.086014     -0.7655184     -0.3858427      0.1838251     -0.0652326\n",
  chars! "  3P       33.684651     -0.2514418     -0.2728045      0.1931644     -0.0772562\n",
  chars! "  4P       26.517276     -0.0173825     -0.1056497      0.2130961     -0.1005102\n",
  chars! "  3P       19.188001      0.0095100      1.1275494     -0.9648948      0.4040978\n",
  chars! "  3P       13.458863     -0.0026350      0.2166180     -0.4084622      0.1537052\n",
  chars! "  3P        9.170764      0.0010025     -0.0096886      1.1666177     -0.5401288\n",
  chars! "  4P        7.578027     -0.0002177      0.0027781      0.3341146     -0.3158948\n",
  chars! "  3P        3.241023      0.0000384     -0.0003580      0.0086087      0.8898631\n",
  chars! "  3P        2.154956     -0.0000153      0.0001168     -0.0017971      0.3423313\n",
  chars! "        D                    3D             4D             5D \n",
  chars! "  BASIS/ORB.ENERGY      -66.7324123     -9.5204319     -0.3877358\n",
  chars! "  3D       37.575996      0.0211239     -0.0090616      0.0021282\n",
  chars! "  3D       23.498893      0.5597205     -0.2808052      0.0689308\n",
  chars! "  4D       19.288357      0.4353746     -0.2418178      0.0606280\n",
  chars! "  4D       12.337771      0.0629273      0.3538458     -0.1056734\n",
  chars! "  4D        8.617462     -0.0127969      0.6079660     -0.1711138\n",
  chars! "  4D        6.109997      0.0051271      0.2086217     -0.0713431\n",
  chars! "  4D        3.734351     -0.0012124      0.0082707      0.3548692\n",
  chars! "  4D        2.242696      0.0004205     -0.0003994      0.5700377\n",
  chars! "  4D        1.328980     -0.0001175      0.0001384      0.2540052\n",
  chars! "        F                    4F \n",
  chars! "  BASIS/ORB.ENERGY       -1.8046287\n",
  chars! "  4F       23.099473      0.0220510\n",
  chars! "  4F       13.699995      0.2279771\n",
  chars! "  4F        8.927752      0.3971811\n",
  chars! "  4F        5.810732      0.3598951\n",
  chars! "  4F        3.709864      0.1554254\n",
  chars! "  4F        2.355401      0.0165094\n"]⟩

theorem neutral_ta_ok : neutral_ta.ok = true := by decide +kernel

/-- `data/neutral/w`. -/
noncomputable def neutral_w : DataFile := ⟨74, .neutral, [
  chars! "      TUNGSTEN   [XE]4F(14)6S(2)5D(4), 5D                                             \n",
  chars! "      CHARGE = 74.000000\n",
  chars! "      SYMMETRY SPECIES               S     P     D     F \n",
  chars! "      NUMBER OF BASIS FUNCTIONS     13    10     9     6\n",
  chars! "      NUMBER OF CLOSED SHELLS        6     4     2     1\n",
  chars! "      NUMBER OF OPEN SHELLS          0     0     1     0\n",
  chars! "      OPEN SHELL OCCUPATION NUMBER   0     0     4     0\n",
  chars! "   E =-15287.546162469\n",
  chars! "   T = 15287.546102582     V =-30575.092265051     V/T =    -2.000000004\n",
  chars! "  ORBITAL ENERGIES AND EXPANSION COEFFICIENTS\n",
  chars! "        S                    1S             2S             3S             4S             5S             6S \n",
  chars! "  BASIS/ORB.ENERGY    -2362.8237604   -393.4586772    -91.9174516    -19.5962556     -2.9211564     -0.2247659\n",
  chars! "  1S       91.755953      0.0563746      0.0179315     -0.0060883      0.0011494     -0.0008679      0.0001551\n",
  chars! "  1S       72.626980      0.9407545     -0.3641739      0.1680118     -0.0793836      0.0320888     -0.0083004\n",
  chars! "  2S       60.237715      0.0041240     -0.2476125      0.1318742     -0.0689624      0.0267751     -0.0071409\n",
  chars! "  2S       34.604318      0.0022443      1.1346802     -0.5862267      0.2977056     -0.1172269      0.0309572\n",
  chars! "  3S       31.511899     -0.0017492      0.1254240     -0.4322737      0.2259587     -0.0944222      0.0242500\n",
  chars! "  3S       21.938006      0.0013089      0.0085821      0.3903929      0.1180749     -0.0790656      0.0235910\n",
  chars! "  3S       17.586218     -0.0007912     -0.0024650      0.9939518     -1.3257672      0.6209382     -0.1679155\n",
  chars! "  3S        8.892417      0.0002976      0.0000847      0.0408103      1.1897745     -0.4689246      0.1202830\n",
  chars! "  3S        7.033853     -0.0002311     -0.0001547     -0.0198406      0.2430628     -0.6005327      0.1874570\n",
  chars! "  3S        3.956290      0.0000761      0.0000671      0.0040284      0.0059449      0.8520441     -0.2581941\n",
  chars! "  3S        2.878493     -0.0000379     -0.0000283     -0.0018574     -0.0003658      0.5216925     -0.2551460\n",
  chars! "  3S        1.206903      0.0000073      0.0000055      0.0003118      0.0001010      0.0024821      0.5606967\n",
  chars! "  3S        0.791160     -0.0000035     -0.0000026     -0.0001464     -0.0000408     -0.0005842      0.5601529\n",
  chars! "        P                    2P             3P             4P             5P \n",
  chars! "  BASIS/ORB.ENERGY     -376.5591196    -84.0534222    -16.2511390     -1.8450175\n",
  chars! "  2P       66.950836     -0.0088709     -0.0030309      0.0017307     -0.0007074\n",
  chars! "  2P       38.643624     -0.7656930     -0.3865866      0.1851489     -0.0671632\n",
  chars! "  3P       34.200713     -0.2512816     -0.2747749      0.1931407     -0.0793745\n",
  chars! "  4P       27.033162     -0.0170537     -0.1065712      0.2057719     -0.1015169\n",
  chars! "  3P       19.511957      0.0090132      1.1323161     -0.9560905      0.4142291\n",
  chars! "  3P       13.606262     -0.0025931      0.2171661     -0.4433922      0.1641555\n",
  chars! "  3P        9.466379      0.0010549     -0.0127777      1.1720459     -0.5438365\n",
  chars! "  4P        7.833344     -0.0002184      0.0032033      0.3598858     -0.3508431\n",
  chars! "  3P        3.362330      0.0000360     -0.0004092      0.0092493      0.9098035\n",
  chars! "  3P        2.236298     -0.0000145      0.0001284     -0.0018751      0.3360113\n",
  chars! "        D                    3D             4D             5D \n",
  chars! "  BASIS/ORB.ENERGY      -69.5854916    -10.1819168     -0.4463079\n",
  chars! "  3D       38.504169      0.0192155     -0.0082510      0.0020672\n",
  chars! "  3D       24.042791      0.5523440     -0.2789670      0.0726445\n",
  chars! "  4D       19.742726      0.4415082     -0.2479188      0.0662618\n",
  chars! "  4D       12.667783      0.0672031      0.3360111     -0.1081430\n",
  chars! "  4D        8.915037     -0.0142263      0.6086477     -0.1802547\n",
  chars! "  4D        6.384653      0.0056715      0.2234136     -0.0888698\n",
  chars! "  4D        3.919845     -0.0013207      0.0094148      0.3701479\n",
  chars! "  4D        2.382645      0.0004539     -0.0005802      0.5737241\n",
  chars! "  4D        1.423574     -0.0001242      0.0001644      0.2386444\n",
  chars! "        F                    4F \n",
  chars! "  BASIS/ORB.ENERGY       -2.1996072\n",
  chars! "  4F       23.482851      0.0224768\n",
  chars! "  4F       13.966058      0.2342310\n",
  chars! "  4F        9.123084      0.4001271\n",
  chars! "  4F        6.021852      0.3529661\n",
  chars! "  4F        3.920505      0.1452384\n",
  chars! "  4F        2.515460      0.0142784\n"]⟩

theorem neutral_w_ok : neutral_w.ok = true := by decide +kernel

/-- `data/neutral/re`. -/
noncomputable def neutral_re : DataFile := ⟨75, .neutral, [
  chars! "      RHENIUM   [XE]4F(14)6S(2)5D(5), 6S                                              \n",
  chars! "      CHARGE = 75.000000\n",
  chars! "      SYMMETRY SPECIES               S     P     D     F \n",
  chars! "      NUMBER OF BASIS FUNCTIONS     13    10     9     6\n",
  chars! "      NUMBER OF CLOSED SHELLS        6     4     2     1\n",
  chars! "      NUMBER OF OPEN SHELLS          0     0     1     0\n",
  chars! "      OPEN SHELL OCCUPATION NUMBER   0     0     5     0\n",
  chars! "   E =-15784.532983147\n",
  chars! "   T = 15784.533014053     V =-31569.065997200     V/T =    -1.999999998\n",
  chars! "  ORBITAL ENERGIES AND EXPANSION COEFFICIENTS\n",
  chars! "        S                    1S             2S             3S             4S             5S             6S \n",
  chars! "  BASIS/ORB.ENERGY    -2429.7513948   -405.8241391    -95.2729560    -20.5282693     -3.1196791      -.2306295\n",
  chars! "  1S       92.339350       .0608749       .0192109      -.0064404       .0012762      -.0009445       .0001750\n",
  chars! "  1S       73.536027       .9367511      -.3665220       .1690527      -.0801299       .0328811      -.0084767\n",
  chars! "  2S       60.962814       .0034534      -.2481520       .1328665      -.0696831       .0274705      -.0072893\n",
  chars! "  2S       35.060807       .0023651      1.1399561      -.5909589       .3010568      -.1203448       .0316391\n",
  chars! "  3S       31.839262      -.0018646       .1219206      -.4403300       .2312138      -.0980775       .0251350\n",
  chars! "  3S       22.365935       .0014001       .0074216       .4040010       .1045431      -.0743190       .0222123\n",
  chars! "  3S       17.850392      -.0008264      -.0019718       .9915362     -1.3244010       .6301334      -.1697214\n",
  chars! "  3S        9.008373       .0003256      -.0000052       .0410669      1.2274202      -.4796200       .1209492\n",
  chars! "  3S        7.134456      -.0002623      -.0000924      -.0208435       .2074168      -.6433998       .2037938\n",
  chars! "  3S        4.172463       .0000883       .0000505       .0043834       .0071896       .8367429      -.2580699\n",
  chars! "  3S        3.011416      -.0000405      -.0000182      -.0018423      -.0004726       .5769620      -.2655703\n",
  chars! "  3S        1.244577       .0000073       .0000034       .0002864       .0001308       .0031160       .5556794\n",
  chars! "  3S         .807746      -.0000035      -.0000016      -.0001334      -.0000543      -.0007880       .5641748\n",
  chars! "        P                    2P             3P             4P             5P \n",
  chars! "  BASIS/ORB.ENERGY     -388.6505112    -87.2554538    -17.0969519     -2.0004651\n",
  chars! "  2P       67.926990       .0087133      -.0029910       .0016831      -.0006958\n",
  chars! "  2P       39.178277       .7667356      -.3877729       .1866740      -.0690519\n",
  chars! "  3P       34.698572       .2501406      -.2774777       .1943937      -.0817402\n",
  chars! "  4P       27.543233       .0167272      -.1104203       .2026724      -.1032476\n",
  chars! "  3P       19.862335      -.0086089      1.1371397      -.9504868       .4231178\n",
  chars! "  3P       13.806206       .0025370       .2211445      -.4736898       .1743824\n",
  chars! "  3P        9.729731      -.0010798      -.0152577      1.1779038      -.5488668\n",
  chars! "  4P        8.070798       .0002179       .0035462       .3778104      -.3813638\n",
  chars! "  3P        3.490619      -.0000341      -.0004565       .0098565       .9217272\n",
  chars! "  3P        2.324200       .0000138       .0001373      -.0019205       .3380931\n",
  chars! "        D                    3D             4D             5D \n",
  chars! "  BASIS/ORB.ENERGY      -72.5030657    -10.8609482      -.5142745\n",
  chars! "  3D       40.024199       .0154979      -.0066257       .0017658\n",
  chars! "  3D       24.780256       .5364331      -.2724478       .0744329\n",
  chars! "  4D       20.314071       .4555213      -.2581266       .0728879\n",
  chars! "  4D       13.074404       .0756556       .3004991      -.1042631\n",
  chars! "  4D        9.341177      -.0169360       .5999957      -.1833925\n",
  chars! "  4D        6.767067       .0064777       .2622232      -.1152684\n",
  chars! "  4D        4.115949      -.0014048       .0120350       .3770492\n",
  chars! "  4D        2.531393       .0004941      -.0011158       .5791345\n",
  chars! "  4D        1.525586      -.0001329       .0001970       .2292808\n",
  chars! "        F                    4F \n",
  chars! "  BASIS/ORB.ENERGY       -2.6110670\n",
  chars! "  4F       24.113043       .0212201\n",
  chars! "  4F       14.483275       .2202679\n",
  chars! "  4F        9.678188       .3761031\n",
  chars! "  4F        6.537670       .3647516\n",
  chars! "  4F        4.313282       .1610614\n",
  chars! "  4F        2.781860       .0176338\n"]⟩

theorem neutral_re_ok : neutral_re.ok = true := by decide +kernel

/-- `data/neutral/os`. -/
noncomputable def neutral_os : DataFile := ⟨76, .neutral, [
  chars! "      OSMIUM   [XE]4F(14)6S(2)5D(6), 5D                                               \n",
  chars! "      CHARGE = 76.000000\n",
  chars! "      SYMMETRY SPECIES               S     P     D     F \n",
  chars! "      NUMBER OF BASIS FUNCTIONS     13    10     9     6\n",
  chars! "      NUMBER OF CLOSED SHELLS        6     4     2     1\n",
  chars! "      NUMBER OF OPEN SHELLS          0     0     1     0\n",
  chars! "      OPEN SHELL OCCUPATION NUMBER   0     0     6     0\n",
  chars! "   E =-16290.648385123\n",
  chars! "   T = 16290.648421149     V =-32581.296806272     V/T =    -1.999999998\n",
  chars! "  ORBITAL ENERGIES AND EXPANSION COEFFICIENTS\n",
  chars! "        S                    1S             2S             3S             4S             5S             6S \n",
  chars! "  BASIS/ORB.ENERGY    -2497.6462136   -418.4098933    -98.7155282    -21.5003182     -3.3335715      -.2387238\n",
  chars! "  1S       94.092123       .0560322       .0182442      -.0061114       .0013047      -.0009591       .0001916\n",
  chars! "  1S       74.612868       .9411707      -.3649413       .1687129      -.0804974       .0334977      -.0086843\n",
  chars! "  2S       61.895874       .0040197      -.2485958       .1329852      -.0697031       .0278678      -.0074008\n",
  chars! "  2S       35.501252       .0022058      1.1423518      -.5923818       .3022726      -.1225459       .0322926\n",
  chars! "  3S       32.311264      -.0017615       .1183385      -.4409395       .2342012      -.1010020       .0260813\n",
  chars! "  3S       22.659050       .0013422       .0080215       .4082128       .1060591      -.0764847       .0227584\n",
  chars! "  3S       18.132147      -.0008061      -.0022939       .9886494     -1.3352689       .6450788      -.1742512\n",
  chars! "  3S        9.140779       .0003351       .0000781       .0431779      1.2510503      -.4725326       .1166296\n",
  chars! "  3S        7.303703      -.0002764      -.0001594      -.0230068       .1858637      -.6945430       .2249225\n",
  chars! "  3S        4.343471       .0000907       .0000716       .0047499       .0092924       .8479381      -.2687433\n",
  chars! "  3S        3.121391      -.0000397      -.0000260      -.0019029      -.0008707       .5964143      -.2689985\n",
  chars! "  3S        1.290204       .0000069       .0000047       .0002848       .0001859       .0033887       .5538469\n",
  chars! "  3S         .828961      -.0000033      -.0000022      -.0001303      -.0000771      -.0008317       .5677691\n",
  chars! "        P                    2P             3P             4P             5P \n",
  chars! "  BASIS/ORB.ENERGY     -400.9614500    -90.5438081    -17.9818379     -2.1703228\n",
  chars! "  2P       68.850122       .0085965      -.0029679       .0016421      -.0006856\n",
  chars! "  2P       39.720013       .7673270      -.3887157       .1881006      -.0709106\n",
  chars! "  3P       35.210952       .2493593      -.2799362       .1951698      -.0837720\n",
  chars! "  4P       28.070224       .0166413      -.1137471       .1984445      -.1039109\n",
  chars! "  3P       20.211146      -.0083861      1.1411105      -.9426703       .4298548\n",
  chars! "  3P       14.001487       .0025608       .2254400      -.5088358       .1874653\n",
  chars! "  3P       10.007660      -.0011390      -.0181768      1.1866300      -.5547657\n",
  chars! "  4P        8.311499       .0002232       .0039013       .3972597      -.4125104\n",
  chars! "  3P        3.613318      -.0000330      -.0005007       .0104369       .9402133\n",
  chars! "  3P        2.404538       .0000136       .0001449      -.0019585       .3331557\n",
  chars! "        D                    3D             4D             5D \n",
  chars! "  BASIS/ORB.ENERGY      -75.5055369    -11.5773876      -.5357318\n",
  chars! "  3D       40.756046       .0147734      -.0063355       .0017451\n",
  chars! "  3D       25.241086       .5332993      -.2727412       .0774501\n",
  chars! "  4D       20.717645       .4571810      -.2619103       .0768707\n",
  chars! "  4D       13.383221       .0779981       .2909107      -.1055065\n",
  chars! "  4D        9.576954      -.0174478       .6086471      -.1940807\n",
  chars! "  4D        6.964384       .0066873       .2626230      -.1257365\n",
  chars! "  4D        4.270338      -.0014442       .0118827       .4032371\n",
  chars! "  4D        2.617713       .0004824      -.0008396       .5725606\n",
  chars! "  4D        1.568701      -.0001297       .0002420       .2204363\n",
  chars! "        F                    4F \n",
  chars! "  BASIS/ORB.ENERGY       -3.0591965\n",
  chars! "  4F       24.530200       .0213856\n",
  chars! "  4F       14.751454       .2266958\n",
  chars! "  4F        9.837503       .3843619\n",
  chars! "  4F        6.692180       .3600703\n",
  chars! "  4F        4.453285       .1479496\n",
  chars! "  4F        2.851061       .0132543\n"]⟩

theorem neutral_os_ok : neutral_os.ok = true := by decide +kernel

/-- `data/neutral/ir`. -/
noncomputable def neutral_ir : DataFile := ⟨77, .neutral, [
  chars! "      IRIDIUM   [XE]4F(14)6S(2)5D(7), 4F                                              \n",
  chars! "      CHARGE = 77.000000\n",
  chars! "      SYMMETRY SPECIES               S     P     D     F \n",
  chars! "      NUMBER OF BASIS FUNCTIONS     13    10     9     6\n",
  chars! "      NUMBER OF CLOSED SHELLS        6     4     2     1\n",
  chars! "      NUMBER OF OPEN SHELLS          0     0     1     0\n",
  chars! "      OPEN SHELL OCCUPATION NUMBER   0     0     7     0\n",
  chars! "   E =-16806.112932370\n",
  chars! "   T = 16806.112983194     V =-33612.225915564     V/T =    -1.999999997\n",
  chars! "  ORBITAL ENERGIES AND EXPANSION COEFFICIENTS\n",
  chars! "        S                    1S             2S             3S             4S             5S             6S \n",
  chars! "  BASIS/ORB.ENERGY    -2566.4847291   -431.1921506   -102.2217331    -22.4893595     -3.5447397     -0.2453197\n",
  chars! "  1S       95.032583      0.0575478      0.0188356     -0.0062462      0.0014064     -0.0010843      0.0002313\n",
  chars! "  1S       75.575655      0.9398472     -0.3660565      0.1692949     -0.0811286      0.0342940     -0.0088831\n",
  chars! "  2S       62.684408      0.0037623     -0.2491259      0.1337239     -0.0702059      0.0283241     -0.0074879\n",
  chars! "  2S       35.958786      0.0022281      1.1461907     -0.5958096      0.3048080     -0.1249572      0.0328172\n",
  chars! "  3S       32.687170     -0.0017968      0.1154383     -0.4463345      0.2390473     -0.1051792      0.0271978\n",
  chars! "  3S       23.004698      0.0013880      0.0074219      0.4224641      0.0973735     -0.0719112      0.0213428\n",
  chars! "  3S       18.395302     -0.0008335     -0.0020932      0.9817089     -1.3393999      0.6537300     -0.1760109\n",
  chars! "  3S        9.285849      0.0003797      0.0000516      0.0456034      1.2621349     -0.4328908      0.1012082\n",
  chars! "  3S        7.566137     -0.0003174     -0.0001412     -0.0253761      0.1770200     -0.7636726      0.2503733\n",
  chars! "  3S        4.491834      0.0000943      0.0000634      0.0046183      0.0124722      0.8523744     -0.2752393\n",
  chars! "  3S        3.226227     -0.0000405     -0.0000219     -0.0018146     -0.0015888      0.6094617     -0.2685050\n",
  chars! "  3S        1.331963      0.0000069      0.0000038      0.0002607      0.0002723      0.0037408      0.5479532\n",
  chars! "  3S        0.847928     -0.0000032     -0.0000018     -0.0001175     -0.0001132     -0.0009311      0.5742112\n",
  chars! "        P                    2P             3P             4P             5P \n",
  chars! "  BASIS/ORB.ENERGY     -413.4681711    -93.8950542    -18.8829341     -2.3385448\n",
  chars! "  2P       70.152737      0.0081514     -0.0028196      0.0015418     -0.0006495\n",
  chars! "  2P       40.345105      0.7648176     -0.3879687      0.1886968     -0.0723548\n",
  chars! "  3P       35.784105      0.2521346     -0.2802834      0.1941492     -0.0845182\n",
  chars! "  4P       28.613630      0.0164528     -0.1084036      0.1892031     -0.1010856\n",
  chars! "  3P       20.480824     -0.0077627      1.1435486     -0.9405451      0.4359814\n",
  chars! "  3P       14.033605      0.0025114      0.2224297     -0.5539556      0.2049897\n",
  chars! "  3P       10.321772     -0.0012187     -0.0246838      1.2171566     -0.5678673\n",
  chars! "  4P        8.552420      0.0002196      0.0045298      0.4181399     -0.4443678\n",
  chars! "  3P        3.740117     -0.0000299     -0.0005710      0.0110103      0.9524221\n",
  chars! "  3P        2.489419      0.0000125      0.0001600     -0.0019747      0.3342233\n",
  chars! "        D                    3D             4D             5D \n",
  chars! "  BASIS/ORB.ENERGY      -78.5694975    -12.3088202     -0.5739344\n",
  chars! "  3D       41.611811      0.0138156     -0.0059367      0.0016946\n",
  chars! "  3D       25.711049      0.5303204     -0.2730441      0.0802993\n",
  chars! "  4D       21.115165      0.4595620     -0.2660764      0.0810360\n",
  chars! "  4D       13.665803      0.0795686      0.2879990     -0.1091198\n",
  chars! "  4D        9.750244     -0.0178901      0.6260528     -0.2059996\n",
  chars! "  4D        7.096141      0.0071068      0.2484066     -0.1372111\n",
  chars! "  4D        4.480287     -0.0016453      0.0110728      0.4154586\n",
  chars! "  4D        2.743124      0.0005016     -0.0003291      0.5746340\n",
  chars! "  4D        1.639544     -0.0001317      0.0002058      0.2194030\n",
  chars! "        F                    4F \n",
  chars! "  BASIS/ORB.ENERGY       -3.5216709\n",
  chars! "  4F       24.853136      0.0221288\n",
  chars! "  4F       14.911967      0.2421892\n",
  chars! "  4F        9.790906      0.4144238\n",
  chars! "  4F        6.623491      0.3445352\n",
  chars! "  4F        4.425274      0.1168838\n",
  chars! "  4F        2.775013      0.0071534\n"]⟩

theorem neutral_ir_ok : neutral_ir.ok = true := by decide +kernel

/-- `data/neutral/pt`. -/
noncomputable def neutral_pt : DataFile := ⟨78, .neutral, [
  chars! "      PLATINUM   [XE]4F(14)6S(1)5D(9), 3D                                             \n",
  chars! "      CHARGE = 78.000000\n",
  chars! "      SYMMETRY SPECIES               S     P     D     F \n",
  chars! "      NUMBER OF BASIS FUNCTIONS     13    10     9     6\n",
  chars! "      NUMBER OF CLOSED SHELLS        5     4     2     1\n",
  chars! "      NUMBER OF OPEN SHELLS          1     0     1     0\n",
  chars! "      OPEN SHELL OCCUPATION NUMBER   1     0     9     0\n",
  chars! "   E =-17331.069712924\n",
  chars! "   T = 17331.069666319     V =-34662.139379243     V/T =    -2.000000003\n",
  chars! "  ORBITAL ENERGIES AND EXPANSION COEFFICIENTS\n",
  chars! "        S                    1S             2S             3S             4S             5S             6S \n",
  chars! "  BASIS/ORB.ENERGY    -2636.1121116   -444.0126759   -105.6334064    -23.3364815     -3.6052190     -0.2227536\n",
  chars! "  1S       96.326260      0.0564219      0.0188347     -0.0061649      0.0015119     -0.0011155      0.0003141\n",
  chars! "  1S       76.585788      0.9409199     -0.3661319      0.1694500     -0.0816891      0.0347209     -0.0082844\n",
  chars! "  2S       63.520880      0.0038348     -0.2497546      0.1344304     -0.0705321      0.0286654     -0.0066957\n",
  chars! "  2S       36.406532      0.0021731      1.1499398     -0.5990768      0.3069318     -0.1266740      0.0297998\n",
  chars! "  3S       33.061689     -0.0017725      0.1121623     -0.4515767      0.2450292     -0.1085978      0.0262673\n",
  chars! "  3S       23.311950      0.0013857      0.0068843      0.4440276      0.0824652     -0.0658450      0.0156943\n",
  chars! "  3S       18.635661     -0.0008341     -0.0019294      0.9679411     -1.3398353      0.6587665     -0.1581776\n",
  chars! "  3S        9.434858      0.0004007      0.0000168      0.0461103      1.2784192     -0.4004553      0.0730283\n",
  chars! "  3S        7.795365     -0.0003332     -0.0001112     -0.0260532      0.1657517     -0.8189454      0.2559009\n",
  chars! "  3S        4.597687      0.0000854      0.0000508      0.0039709      0.0138817      0.9091481     -0.2880679\n",
  chars! "  3S        3.229778     -0.0000346     -0.0000154     -0.0014705     -0.0016521      0.5691530     -0.1989232\n",
  chars! "  3S        1.315052      0.0000060      0.0000028      0.0002134      0.0002897      0.0036314      0.4686110\n",
  chars! "  3S        0.814405     -0.0000027     -0.0000012     -0.0000959     -0.0001312     -0.0011112      0.6365237\n",
  chars! "        P                    2P             3P             4P             5P \n",
  chars! "  BASIS/ORB.ENERGY     -426.0131015    -97.1515440    -19.6426475     -2.3715259\n",
  chars! "  2P       71.132349      0.0080028     -0.0027812      0.0014955     -0.0006284\n",
  chars! "  2P       40.899509      0.7649351     -0.3886250      0.1899808     -0.0734491\n",
  chars! "  3P       36.308364      0.2518587     -0.2828016      0.1947511     -0.0855462\n",
  chars! "  4P       29.162881      0.0164634     -0.1118545      0.1846430     -0.1001655\n",
  chars! "  3P       20.835297     -0.0075913      1.1462945     -0.9299511      0.4365823\n",
  chars! "  3P       14.228098      0.0025906      0.2295579     -0.6060208      0.2217194\n",
  chars! "  3P       10.647981     -0.0013155     -0.0293458      1.2340786     -0.5672633\n",
  chars! "  4P        8.812642      0.0002246      0.0049111      0.4443816     -0.4753283\n",
  chars! "  3P        3.881013     -0.0000282     -0.0006004      0.0116953      0.9420593\n",
  chars! "  3P        2.545074      0.0000120      0.0001504     -0.0017708      0.3567214\n",
  chars! "        D                    3D             4D             5D \n",
  chars! "  BASIS/ORB.ENERGY      -81.5377355    -12.8991162     -0.4749640\n",
  chars! "  3D       42.292119      0.0132242     -0.0057286      0.0016021\n",
  chars! "  3D       26.205977      0.5249554     -0.2719710      0.0798355\n",
  chars! "  4D       21.565757      0.4609842     -0.2701972      0.0817939\n",
  chars! "  4D       14.108561      0.0839452      0.2564342     -0.0964965\n",
  chars! "  4D       10.150504     -0.0173010      0.6251140     -0.2107496\n",
  chars! "  4D        7.418553      0.0063002      0.2788872     -0.1374803\n",
  chars! "  4D        4.495700     -0.0012098      0.0119996      0.4537196\n",
  chars! "  4D        2.690771      0.0003620     -0.0002754      0.5480134\n",
  chars! "  4D        1.553534     -0.0001024      0.0004127      0.2178775\n",
  chars! "        F                    4F \n",
  chars! "  BASIS/ORB.ENERGY       -3.8420545\n",
  chars! "  4F       25.359777      0.0216615\n",
  chars! "  4F       15.274529      0.2402114\n",
  chars! "  4F       10.107702      0.4073683\n",
  chars! "  4F        6.937964      0.3475160\n",
  chars! "  4F        4.649549      0.1182301\n",
  chars! "  4F        2.821879      0.0072572\n"]⟩

theorem neutral_pt_ok : neutral_pt.ok = true := by decide +kernel

/-- Part 5 of the files. -/
noncomputable def part5 : List DataFile := [
  neutral_er, neutral_tm, neutral_yb, neutral_lu, neutral_hf, neutral_ta, neutral_w, neutral_re, neutral_os, neutral_ir, neutral_pt]

theorem part5_ok : ∀ d ∈ part5, d.ok = true := by
  intro d hd
  unfold part5 at hd
  simp only [List.mem_cons, List.not_mem_nil, or_false] at hd
  rcases hd with rfl | rfl | rfl | rfl | rfl | rfl | rfl | rfl | rfl | rfl | rfl
  · exact neutral_er_ok
  · exact neutral_tm_ok
  · exact neutral_yb_ok
  · exact neutral_lu_ok
  · exact neutral_hf_ok
  · exact neutral_ta_ok
  · exact neutral_w_ok
  · exact neutral_re_ok
  · exact neutral_os_ok
  · exact neutral_ir_ok
  · exact neutral_pt_ok

end BFit.Data
