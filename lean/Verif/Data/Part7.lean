import Verif.Lemmas.DataNum

/-! Copy of files in /repo/bfit/data/data.tar, generated by tools/gendata.py. -/

namespace BFit.Data

/-- `data/neutral/ac`. -/
noncomputable def neutral_ac : DataFile := ⟨89, .neutral, [
  chars! "      ACTINIUM   [RN]7S(2)6D(1), 2D                                                   \n",
  chars! "      CHARGE = 89.000000\n",
  chars! "      SYMMETRY SPECIES               S     P     D     F \n",
  chars! "      NUMBER OF BASIS FUNCTIONS     15    12    11     6\n",
  chars! "      NUMBER OF CLOSED SHELLS        7     5     3     1\n",
  chars! "      NUMBER OF OPEN SHELLS          0     0     1     0\n",
  chars! "      OPEN SHELL OCCUPATION NUMBER   0     0     1     0\n",
  chars! "   E =-23722.191878737\n",
  chars! "   T = 23722.191934245     V =-47444.383812982     V/T =    -1.999999998\n",
  chars! "  ORBITAL ENERGIES AND EXPANSION COEFFICIENTS\n",
  chars! "        S                    1S             2S             3S             4S             5S             6S             7S \n",
  chars! "  BASIS/ORB.ENERGY    -3469.6264841   -603.4075381   -152.6407512    -39.0238448     -8.8623216     -1.5355594      -.1609737\n",
  chars! "  1S      103.566421       .1148917       .0323053      -.0095859       .0044302      -.0034850       .0011511      -.0004716\n",
  chars! "  1S       86.497397       .8865817      -.3896553       .1793650      -.0914927       .0458017      -.0188380       .0056996\n",
  chars! "  2S       71.640446      -.0018084      -.2530307       .1419169      -.0746269       .0342622      -.0147892       .0041715\n",
  chars! "  2S       41.677547       .0032439      1.1779345      -.6291373       .3285305      -.1550819       .0659132      -.0190195\n",
  chars! "  3S       37.312088      -.0026644       .0992529      -.5028569       .3118424      -.1661853       .0687341      -.0209898\n",
  chars! "  3S       26.240073       .0024891       .0000240       .7302286      -.1115425       .0363420      -.0052828       .0037936\n",
  chars! "  3S       21.005341      -.0017243       .0004731       .7510667     -1.3488819       .7567324      -.3381737       .0966879\n",
  chars! "  4S       11.023570      -.0006456       .0003871      -.0143963      -.1443211      -.5036288       .2871040      -.0946630\n",
  chars! "  3S       11.019466       .0008148      -.0006495       .0290129      1.6772363     -1.0921824       .4984315      -.1439868\n",
  chars! "  3S        5.668415       .0003573      -.0001016       .0024219       .0384172      1.3679974      -.5123500       .1543836\n",
  chars! "  3S        4.601852      -.0002544       .0000785      -.0016462      -.0164785       .2659390      -.7947457       .2713632\n",
  chars! "  3S        2.470213       .0000691      -.0000225       .0003814       .0020801       .0049276      1.1273943      -.3765702\n",
  chars! "  3S        1.849037      -.0000388       .0000120      -.0001952      -.0010821      -.0002693       .3097277      -.2656102\n",
  chars! "  3S         .836903       .0000094      -.0000029       .0000437       .0002065       .0000138      -.0019019       .6435321\n",
  chars! "  3S         .612646      -.0000049       .0000015      -.0000225      -.0001037       .0000010       .0009616       .5053889\n",
  chars! "        P                    2P             3P             4P             5P             6P \n",
  chars! "  BASIS/ORB.ENERGY     -582.3229610   -142.4056470    -34.3088539     -6.9980006      -.9459290\n",
  chars! "  2P       83.950462      -.0055220      -.0017329       .0005520      -.0001655       .0001130\n",
  chars! "  2P       47.379407      -.7536588      -.3893565       .2007955      -.0938109       .0363717\n",
  chars! "  3P       42.317464      -.2575405      -.2508140       .1356290      -.0620236       .0251220\n",
  chars! "  3P       25.516598      -.0304560       .7317337      -.4419165       .2184743      -.0857424\n",
  chars! "  4P       25.513192       .0191390       .3265106      -.3769287       .2309898      -.0852562\n",
  chars! "  4P       14.143135       .0077302      -.1280490       .7119587      -.1251186       .0783937\n",
  chars! "  3P       14.143061      -.0093363       .2625049      -.3065927       .2879628      -.1451990\n",
  chars! "  3P       10.014047      -.0029682       .0272547       .7528573     -1.3685537       .5779824\n",
  chars! "  3P        5.578447       .0006455      -.0042495       .0176378       .8894145      -.1722212\n",
  chars! "  3P        4.528351      -.0003654       .0020572      -.0054979       .6333244      -.8379022\n",
  chars! "  3P        2.122176       .0000387      -.0001796       .0002368       .0098144      1.0861069\n",
  chars! "  3P        1.425686      -.0000150       .0000674      -.0000925      -.0022878       .2223175\n",
  chars! "        D                    3D             4D             5D             6D \n",
  chars! "  BASIS/ORB.ENERGY     -123.5347284    -25.6020286     -3.7189138      -.2514762\n",
  chars! "  3D       55.806211       .0035600      -.0013609       .0006601      -.0000872\n",
  chars! "  3D       32.318943       .4573200      -.2519913       .1071095      -.0304496\n",
  chars! "  4D       26.673684       .5003718      -.3116220       .1414353      -.0378562\n",
  chars! "  4D       17.487764       .1551280       .0870658      -.0895327       .0119581\n",
  chars! "  4D       13.909369      -.0630094       .4984930      -.1605303       .0804654\n",
  chars! "  4D       10.825716       .0223355       .5155794      -.4797120       .1018100\n",
  chars! "  4D        7.265443      -.0050780       .0527689       .3079551      -.0481489\n",
  chars! "  4D        5.033503       .0018910      -.0068970       .7812009      -.3603243\n",
  chars! "  4D        3.419505      -.0005589       .0014045       .1727998       .0330914\n",
  chars! "  4D        1.865952       .0001183      -.0003024       .0007864       .6591098\n",
  chars! "  4D        1.076193      -.0000338       .0000780       .0002087       .4462350\n",
  chars! "        F                    4F \n",
  chars! "  BASIS/ORB.ENERGY      -13.5625485\n",
  chars! "  4F       30.646406       .0180943\n",
  chars! "  4F       18.859879       .2493732\n",
  chars! "  4F       12.433128       .4997068\n",
  chars! "  5F        8.224069      -.2180428\n",
  chars! "  4F        7.677769       .5299271\n",
  chars! "  4F        5.545284       .0090766\n"]⟩

theorem neutral_ac_ok : neutral_ac.ok = true := by decide +kernel

/-- `data/neutral/th`. -/
noncomputable def neutral_th : DataFile := ⟨90, .neutral, [
  chars! "      THORIUM   [RN]7S(2)6D(2), 3F                                                    \n",
  chars! "      CHARGE = 90.000000\n",
  chars! "      SYMMETRY SPECIES               S     P     D     F \n",
  chars! "      NUMBER OF BASIS FUNCTIONS     15    12    11     6\n",
  chars! "      NUMBER OF CLOSED SHELLS        7     5     3     1\n",
  chars! "      NUMBER OF OPEN SHELLS          0     0     1     0\n",
  chars! "      OPEN SHELL OCCUPATION NUMBER   0     0     2     0\n",
  chars! "   E =-24359.622254112\n",
  chars! "   T = 24359.622040097     V =-48719.244294209     V/T =    -2.000000009\n",
  chars! "  ORBITAL ENERGIES AND EXPANSION COEFFICIENTS\n",
  chars! "        S                    1S             2S             3S             4S             5S             6S             7S \n",
  chars! "  BASIS/ORB.ENERGY    -3551.2639266   -619.2744593   -157.4776298    -40.7261123     -9.4683078     -1.6903190      -.1699638\n",
  chars! "  1S      104.360470       .1200990       .0333656      -.0098424       .0047034      -.0036651       .0012334      -.0004931\n",
  chars! "  1S       87.407443       .8815923      -.3914290       .1801121      -.0923276       .0466871      -.0196466       .0060044\n",
  chars! "  2S       72.395723      -.0021026      -.2532484       .1424387      -.0749325       .0347804      -.0153911       .0044220\n",
  chars! "  2S       42.152982       .0032826      1.1801209      -.6313994       .3302920      -.1575690       .0686177      -.0201109\n",
  chars! "  3S       37.702725      -.0027010       .0980253      -.5075807       .3178437      -.1711134       .0724514      -.0223145\n",
  chars! "  3S       26.525386       .0025422      -.0004182       .7558642      -.1333352       .0477342      -.0096437       .0049014\n",
  chars! "  3S       21.190267      -.0017801       .0006590       .7324852     -1.3489750       .7660402      -.3519518       .1024187\n",
  chars! "  4S       11.203617      -.0006966       .0004392      -.0128007      -.1490560      -.5294024       .3081223      -.1023554\n",
  chars! "  3S       11.206623       .0008697      -.0007177       .0262677      1.6945428     -1.1153291       .5224699      -.1534364\n",
  chars! "  3S        5.799329       .0004235      -.0001371       .0020856       .0410371      1.4135093      -.4789534       .1380332\n",
  chars! "  3S        4.767688      -.0003101       .0001062      -.0014616      -.0184517       .2480229      -.9213468       .3304689\n",
  chars! "  3S        2.619963       .0000798      -.0000284       .0003166       .0021163       .0062890      1.1468723      -.4054897\n",
  chars! "  3S        1.957576      -.0000428       .0000145      -.0001503      -.0010401      -.0005232       .3443889      -.2701008\n",
  chars! "  3S         .895730       .0000095      -.0000032       .0000305       .0001760       .0000586      -.0014594       .6070797\n",
  chars! "  3S         .642855      -.0000047       .0000016      -.0000148      -.0000830      -.0000191       .0007830       .5455172\n",
  chars! "        P                    2P             3P             4P             5P             6P \n",
  chars! "  BASIS/ORB.ENERGY     -597.9062952   -147.0800123    -35.9153333     -7.5429120     -1.0651446\n",
  chars! "  2P       85.220586      -.0053421      -.0016649       .0005270      -.0001661       .0001191\n",
  chars! "  2P       47.923019      -.7545122      -.3902926       .2019788      -.0955038       .0381249\n",
  chars! "  3P       42.810133      -.2569314      -.2512736       .1363338      -.0632900       .0264673\n",
  chars! "  3P       25.930725      -.0298021       .7224653      -.4364264       .2179909      -.0879567\n",
  chars! "  4P       25.894042       .0184939       .3352140      -.3831958       .2354721      -.0888839\n",
  chars! "  4P       14.310752       .0075874      -.1321109       .7435981      -.1474655       .0980544\n",
  chars! "  3P       14.333548      -.0089373       .2655522      -.3077817       .3066336      -.1582463\n",
  chars! "  3P       10.146515      -.0030917       .0303413       .7214663     -1.4038035       .5986024\n",
  chars! "  3P        5.791359       .0007417      -.0052866       .0181174       .8197282      -.0648631\n",
  chars! "  3P        4.757648      -.0004193       .0025897      -.0057524       .7336526     -1.0066944\n",
  chars! "  3P        2.238531       .0000391      -.0001975       .0001987       .0104700      1.1210335\n",
  chars! "  3P        1.497187      -.0000146       .0000719      -.0000825      -.0023044       .2164715\n",
  chars! "        D                    3D             4D             5D             6D \n",
  chars! "  BASIS/ORB.ENERGY     -127.9072706    -27.0254272     -4.1384466      -.3168688\n",
  chars! "  3D       56.959163       .0031826      -.0012188       .0006064      -.0001103\n",
  chars! "  3D       32.929578       .4492931      -.2486148       .1078376      -.0331678\n",
  chars! "  4D       27.232169       .4986926      -.3126712       .1446990      -.0427688\n",
  chars! "  4D       18.308145       .1529973       .0409978      -.0577246       .0095852\n",
  chars! "  4D       14.322241      -.0440481       .5472579      -.2208294       .0893049\n",
  chars! "  4D       10.902954       .0144247       .5212498      -.4623053       .1262592\n",
  chars! "  4D        6.981844      -.0034667       .0395267       .4241750      -.1102053\n",
  chars! "  4D        4.936825       .0015782      -.0078739       .7434343      -.3812704\n",
  chars! "  4D        3.242964      -.0005068       .0017235       .0967889       .0924581\n",
  chars! "  4D        1.958372       .0001523      -.0004956      -.0023281       .6905171\n",
  chars! "  4D        1.173942      -.0000396       .0001181       .0006631       .3858830\n",
  chars! "        F                    4F \n",
  chars! "  BASIS/ORB.ENERGY      -14.7135558\n",
  chars! "  4F       31.067912       .0180325\n",
  chars! "  4F       19.143075       .2523892\n",
  chars! "  4F       12.571937       .5188325\n",
  chars! "  5F        8.226585      -.1870913\n",
  chars! "  4F        7.787099       .4687865\n",
  chars! "  4F        6.101665       .0162251\n"]⟩

theorem neutral_th_ok : neutral_th.ok = true := by decide +kernel

/-- `data/neutral/pa`. -/
noncomputable def neutral_pa : DataFile := ⟨91, .neutral, [
  chars! "      PROTOACTINIUM   [RN]7S(2)6D(1)5F(2), 4J                                         \n",
  chars! "      CHARGE = 91.000000\n",
  chars! "      SYMMETRY SPECIES               S     P     D     F \n",
  chars! "      NUMBER OF BASIS FUNCTIONS     15    12    11     8\n",
  chars! "      NUMBER OF CLOSED SHELLS        7     5     3     1\n",
  chars! "      NUMBER OF OPEN SHELLS          0     0     1     1\n",
  chars! "      OPEN SHELL OCCUPATION NUMBER   0     0     1     2\n",
  chars! "   E =-25007.109683472\n",
  chars! "   T = 25007.109737912     V =-50014.219421383     V/T =    -1.999999998\n",
  chars! "  ORBITAL ENERGIES AND EXPANSION COEFFICIENTS\n",
  chars! "        S                    1S             2S             3S             4S             5S             6S             7S \n",
  chars! "  BASIS/ORB.ENERGY    -3633.4604907   -634.9240122   -161.9357772    -42.0112819     -9.6666731     -1.6337903      -.1637030\n",
  chars! "  1S      105.154520       .1256606       .0341863      -.0098148       .0049203      -.0039166       .0013294      -.0005253\n",
  chars! "  1S       88.309408       .8762828      -.3929341       .1805054      -.0930729       .0474400      -.0195784       .0057118\n",
  chars! "  2S       73.179755      -.0024453      -.2529999       .1429047      -.0750685       .0348917      -.0150876       .0040729\n",
  chars! "  2S       42.592913       .0033408      1.1836090      -.6347507       .3322846      -.1590664       .0677603      -.0187601\n",
  chars! "  3S       38.076008      -.0027538       .0944246      -.5110795       .3244885      -.1764763       .0734501      -.0215980\n",
  chars! "  3S       26.773490       .0026076      -.0001147       .7921960      -.1678046       .0697701      -.0196615       .0080482\n",
  chars! "  3S       21.322733      -.0018538       .0004194       .7040066     -1.3410496       .7603860      -.3410921       .0931346\n",
  chars! "  4S       11.450486      -.0007395       .0003408      -.0100891      -.1259436      -.5777359       .3305801      -.1048969\n",
  chars! "  3S       11.452736       .0009385      -.0006043       .0220511      1.6904088     -1.1024108       .5037307      -.1390012\n",
  chars! "  3S        6.017261       .0004092      -.0000678       .0010291       .0375163      1.3130828      -.4690024       .1375514\n",
  chars! "  3S        4.935803      -.0002786       .0000519      -.0007053      -.0146173       .3705680      -.8526638       .2741537\n",
  chars! "  3S        2.561338       .0000622      -.0000125       .0001281       .0012028       .0056215      1.1336456      -.3643954\n",
  chars! "  3S        1.895353      -.0000350       .0000064      -.0000581      -.0006289      -.0005017       .2850500      -.2421426\n",
  chars! "  3S         .856942       .0000089      -.0000016       .0000128       .0001158       .0000493      -.0027314       .6272943\n",
  chars! "  3S         .621841      -.0000046       .0000008      -.0000064      -.0000569      -.0000165       .0012535       .5138243\n",
  chars! "        P                    2P             3P             4P             5P             6P \n",
  chars! "  BASIS/ORB.ENERGY     -613.2774695   -151.3769463    -37.1047233     -7.6930866     -1.0056275\n",
  chars! "  2P       86.263329      -.0051917      -.0016486       .0005302      -.0001552       .0001053\n",
  chars! "  2P       48.638467      -.7487456      -.3876137       .2012140      -.0956927       .0371577\n",
  chars! "  3P       43.514489      -.2615860      -.2510255       .1363246      -.0632814       .0255950\n",
  chars! "  3P       26.497383      -.0325777       .6832306      -.4066721       .2041402      -.0801994\n",
  chars! "  4P       26.436470       .0201456       .3603350      -.3894187       .2414667      -.0900730\n",
  chars! "  4P       14.678283       .0085048      -.1465943       .7641091      -.1407530       .0800143\n",
  chars! "  3P       14.575967      -.0101368       .2908115      -.4015112       .3687073      -.1809388\n",
  chars! "  3P       10.410317      -.0032442       .0303849       .7711521     -1.4760476       .6372965\n",
  chars! "  3P        5.938724       .0007086      -.0048395       .0180593       .8613806      -.1791618\n",
  chars! "  3P        4.794282      -.0003815       .0022274      -.0049677       .7035924      -.8508784\n",
  chars! "  3P        2.231963       .0000397      -.0001929       .0002054       .0105120      1.0531476\n",
  chars! "  3P        1.512972      -.0000157       .0000739      -.0000829      -.0024280       .2499894\n",
  chars! "        D                    3D             4D             5D             6D \n",
  chars! "  BASIS/ORB.ENERGY     -131.9056191    -28.0317521     -4.2038931      -.2910774\n",
  chars! "  3D       58.112116       .0030067      -.0011295       .0005736      -.0000836\n",
  chars! "  3D       33.309553       .4513832      -.2510022       .1095359      -.0327833\n",
  chars! "  4D       27.538253       .5010479      -.3159392       .1473926      -.0419761\n",
  chars! "  4D       18.230484       .1583126       .0639931      -.0786231       .0115698\n",
  chars! "  4D       14.427148      -.0598390       .5186800      -.1771675       .0850987\n",
  chars! "  4D       11.238129       .0213613       .5189943      -.5061559       .1222370\n",
  chars! "  4D        7.505177      -.0049186       .0498426       .3506529      -.0697808\n",
  chars! "  4D        5.250125       .0018888      -.0071428       .7776464      -.3881995\n",
  chars! "  4D        3.548260      -.0005614       .0015206       .1516008       .0610383\n",
  chars! "  4D        1.994271       .0001250      -.0003411       .0000430       .6759252\n",
  chars! "  4D        1.159970      -.0000352       .0000775      -.0001011       .4204505\n",
  chars! "        F                    4F             5F \n",
  chars! "  BASIS/ORB.ENERGY      -15.4513412      -.6117146\n",
  chars! "  4F       31.632165       .0174072      -.0050467\n",
  chars! "  4F       19.500417       .2513461      -.0859573\n",
  chars! "  4F       12.787924       .5307624      -.1560222\n",
  chars! "  5F        8.093836      -.2857608       .2457048\n",
  chars! "  4F        7.520518       .5656323      -.2181933\n",
  chars! "  4F        4.364677       .0005997       .5327375\n",
  chars! "  4F        2.642847       .0000249       .4243645\n",
  chars! "  4F        1.592222       .0000194       .1168648\n"]⟩

theorem neutral_pa_ok : neutral_pa.ok = true := by decide +kernel

/-- `data/neutral/u`. -/
noncomputable def neutral_u : DataFile := ⟨92, .neutral, [
  chars! "      URANIUM   [RN]7S(2)6D(1)5F(3), 5L                                               \n",
  chars! "      CHARGE = 92.000000\n",
  chars! "      SYMMETRY SPECIES               S     P     D     F \n",
  chars! "      NUMBER OF BASIS FUNCTIONS     15    12    11     8\n",
  chars! "      NUMBER OF CLOSED SHELLS        7     5     3     1\n",
  chars! "      NUMBER OF OPEN SHELLS          0     0     1     1\n",
  chars! "      OPEN SHELL OCCUPATION NUMBER   0     0     1     3\n",
  chars! "   E =-25664.338075360\n",
  chars! "   T = 25664.338196191     V =-51328.676271551     V/T =    -1.999999995\n",
  chars! " \n",
  chars! "  ORBITAL ENERGIES AND EXPANSION COEFFICIENTS\n",
  chars! "        S                    1S             2S             3S             4S             5S             6S             7S \n",
  chars! "  BASIS/ORB.ENERGY    -3716.7814093   -650.9601909   -166.6549408    -43.5082580    -10.0497355     -1.6748761     -0.1651491\n",
  chars! "  1S      105.948569      0.1314908      0.0360605     -0.0104367      0.0054282     -0.0042967      0.0014728     -0.0005596\n",
  chars! "  1S       89.207514      0.8707000     -0.3958082      0.1817428     -0.0941977      0.0484274     -0.0199500      0.0057314\n",
  chars! "  2S       73.824657     -0.0027993     -0.2543688      0.1442157     -0.0757363      0.0353325     -0.0152640      0.0040598\n",
  chars! "  2S       43.135437      0.0034122      1.1844169     -0.6366599      0.3337270     -0.1605925      0.0683254     -0.0186350\n",
  chars! "  3S       38.435041     -0.0028187      0.0972836     -0.5195679      0.3331668     -0.1830407      0.0761320     -0.0220267\n",
  chars! "  3S       27.065952      0.0026946     -0.0023122      0.8245638     -0.1999833      0.0905686     -0.0284888      0.0104142\n",
  chars! "  3S       21.462052     -0.0019406      0.0016114      0.6819648     -1.3362989      0.7577003     -0.3396144      0.0911806\n",
  chars! "  4S       11.698336     -0.0008001      0.0007082     -0.0072509     -0.1067436     -0.6211925      0.3534489     -0.1100545\n",
  chars! "  3S       11.694677      0.0010272     -0.0011048      0.0174997      1.6897707     -1.0919565      0.4974137     -0.1348177\n",
  chars! "  3S        6.183263      0.0004334     -0.0002467      0.0000580      0.0368797      1.2764231     -0.4438245      0.1282830\n",
  chars! "  3S        5.092883     -0.0002902      0.0001694     -0.0000975     -0.0137299      0.4240410     -0.8753248      0.2754573\n",
  chars! "  3S        2.598643      0.0000596     -0.0000351      0.0000098      0.0009063      0.0062788      1.1316892     -0.3579043\n",
  chars! "  3S        1.915613     -0.0000337      0.0000192      0.0000061     -0.0004794     -0.0008014      0.2752913     -0.2339463\n",
  chars! "  3S        0.863923      0.0000087     -0.0000049     -0.0000029      0.0000846      0.0001061     -0.0028955      0.6309013\n",
  chars! "  3S        0.624455     -0.0000045      0.0000025      0.0000016     -0.0000410     -0.0000447      0.0013112      0.5074851\n",
  chars! "        P                    2P             3P             4P             5P             6P \n",
  chars! "  BASIS/ORB.ENERGY     -629.0327310   -155.9336912    -38.5053576     -8.0228296     -1.0294800\n",
  chars! "  2P       87.226042     -0.0051249     -0.0016296      0.0005308     -0.0001544      0.0001039\n",
  chars! "  2P       49.213004     -0.7482162     -0.3878068      0.2019396     -0.0967574      0.0374712\n",
  chars! "  3P       44.065058     -0.2616987     -0.2507736      0.1366214     -0.0637979      0.0257179\n",
  chars! "  3P       26.877372     -0.0334721      0.6725172     -0.3976681      0.2011532     -0.0788096\n",
  chars! "  4P       26.873584      0.0207619      0.3640839     -0.3881445      0.2432007     -0.0906799\n",
  chars! "  4P       14.962805      0.0084427     -0.1444753      0.7651783     -0.1247374      0.0696329\n",
  chars! "  3P       14.943929     -0.0101210      0.2942467     -0.4382001      0.3990900     -0.1936617\n",
  chars! "  3P       10.636528     -0.0033276      0.0315213      0.7935277     -1.5366656      0.6684159\n",
  chars! "  3P        6.102765      0.0007073     -0.0049035      0.0191574      0.8571387     -0.1924570\n",
  chars! "  3P        4.908426     -0.0003724      0.0021978     -0.0050914      0.7235066     -0.8406671\n",
  chars! "  3P        2.276364      0.0000387     -0.0001905      0.0002247      0.0105908      1.0397185\n",
  chars! "  3P        1.544958     -0.0000154      0.0000735     -0.0000905     -0.0024430      0.2585087\n",
  chars! "        D                    3D             4D             5D             6D \n",
  chars! "  BASIS/ORB.ENERGY     -136.1612075    -29.2484419     -4.4325509     -0.3003548\n",
  chars! "  3D       59.265068      0.0027152     -0.0010121      0.0005306     -0.0000765\n",
  chars! "  3D       33.881203      0.4452939     -0.2486259      0.1096356     -0.0328603\n",
  chars! "  4D       28.053792      0.5000852     -0.3169844      0.1495831     -0.0427889\n",
  chars! "  4D       18.841775      0.1598839      0.0339453     -0.0599203      0.0076067\n",
  chars! "  4D       14.814453     -0.0505788      0.5362811     -0.2012601      0.0873852\n",
  chars! "  4D       11.425834      0.0172429      0.5327484     -0.5089289      0.1303788\n",
  chars! "  4D        7.475720     -0.0040324      0.0445032      0.4056180     -0.0935432\n",
  chars! "  4D        5.271222      0.0016720     -0.0073936      0.7518230     -0.3848184\n",
  chars! "  4D        3.534011     -0.0005060      0.0016063      0.1266983      0.0913131\n",
  chars! "  4D        2.016503      0.0001200     -0.0003694     -0.0005318      0.6762321\n",
  chars! "  4D        1.175780     -0.0000336      0.0000865      0.0000319      0.4057067\n",
  chars! "        F                    4F             5F \n",
  chars! "  BASIS/ORB.ENERGY      -16.3975013     -0.7015121\n",
  chars! "  4F       32.058387      0.0173262     -0.0052546\n",
  chars! "  4F       19.789922      0.2535423     -0.0902488\n",
  chars! "  4F       12.960840      0.5411790     -0.1678375\n",
  chars! "  5F        8.199212     -0.2693791      0.2490057\n",
  chars! "  4F        7.637119      0.5353342     -0.2087695\n",
  chars! "  4F        4.494502      0.0007264      0.5444776\n",
  chars! "  4F        2.762193      0.0000012      0.4097294\n",
  chars! "  4F        1.697246      0.0000267      0.1029628\n",
  chars! " \n"]⟩

theorem neutral_u_ok : neutral_u.ok = true := by decide +kernel

/-- `data/neutral/np`. -/
noncomputable def neutral_np : DataFile := ⟨93, .neutral, [
  chars! "      NEPTUNIUM   [RN]7S(2)6D(1)5F(4), 6L                                             \n",
  chars! "      CHARGE = 93.000000\n",
  chars! "      SYMMETRY SPECIES               S     P     D     F \n",
  chars! "      NUMBER OF BASIS FUNCTIONS     15    12    11     8\n",
  chars! "      NUMBER OF CLOSED SHELLS        7     5     3     1\n",
  chars! "      NUMBER OF OPEN SHELLS          0     0     1     1\n",
  chars! "      OPEN SHELL OCCUPATION NUMBER   0     0     1     4\n",
  chars! "   E =-26331.454763705\n",
  chars! "   T = 26331.454764105     V =-52662.909527810     V/T =    -2.000000000\n",
  chars! " \n",
  chars! "  ORBITAL ENERGIES AND EXPANSION COEFFICIENTS\n",
  chars! "        S                    1S             2S             3S             4S             5S             6S             7S \n",
  chars! "  BASIS/ORB.ENERGY    -3801.0470433   -667.1911327   -171.4319946    -45.0172506    -10.4290838     -1.7138667     -0.1665417\n",
  chars! "  1S      106.891398      0.1343917      0.0368104     -0.0105433      0.0056178     -0.0045077      0.0015484     -0.0005747\n",
  chars! "  1S       90.150737      0.8678982     -0.3970082      0.1821941     -0.0948431      0.0491461     -0.0201991      0.0057232\n",
  chars! "  2S       74.606109     -0.0029337     -0.2546249      0.1447526     -0.0760545      0.0356050     -0.0153526      0.0040282\n",
  chars! "  2S       43.599769      0.0034179      1.1868140     -0.6390351      0.3355096     -0.1622336      0.0688821     -0.0185318\n",
  chars! "  3S       38.823091     -0.0028359      0.0953727     -0.5239401      0.3390005     -0.1880471      0.0781109     -0.0222755\n",
  chars! "  3S       27.355986      0.0027276     -0.0024525      0.8498045     -0.2242182      0.1070633     -0.0354662      0.0122246\n",
  chars! "  3S       21.621181     -0.0019933      0.0016558      0.6643896     -1.3368266      0.7571182     -0.3386774      0.0895205\n",
  chars! "  4S       11.948682     -0.0008405      0.0007142     -0.0048067     -0.0823746     -0.6676425      0.3774725     -0.1154583\n",
  chars! "  3S       11.945786      0.0010931     -0.0011328      0.0134876      1.6835920     -1.0760378      0.4880384     -0.1300636\n",
  chars! "  3S        6.351323      0.0004426     -0.0002366     -0.0007013      0.0359330      1.2369751     -0.4223888      0.1204914\n",
  chars! "  3S        5.241219     -0.0002907      0.0001595      0.0003561     -0.0125797      0.4790863     -0.8931137      0.2757327\n",
  chars! "  3S        2.630257      0.0000555     -0.0000307     -0.0000635      0.0006273      0.0066803      1.1379661     -0.3556423\n",
  chars! "  3S        1.923696     -0.0000317      0.0000168      0.0000461     -0.0003354     -0.0010071      0.2577664     -0.2247304\n",
  chars! "  3S        0.878188      0.0000086     -0.0000045     -0.0000133      0.0000551      0.0001516     -0.0033857      0.6115717\n",
  chars! "  3S        0.631665     -0.0000044      0.0000023      0.0000069     -0.0000255     -0.0000661      0.0014761      0.5262049\n",
  chars! "        P                    2P             3P             4P             5P             6P \n",
  chars! "  BASIS/ORB.ENERGY     -644.9826622   -160.5479185    -39.9176408     -8.3493011     -1.0517779\n",
  chars! "  2P       88.714203     -0.0048270     -0.0015541      0.0005013     -0.0001454      0.0001005\n",
  chars! "  2P       49.950385     -0.7422903     -0.3849882      0.2010913     -0.0969912      0.0374270\n",
  chars! "  3P       44.755714     -0.2670696     -0.2512748      0.1368927     -0.0643617      0.0258674\n",
  chars! "  3P       27.391391     -0.0356388      0.6418773     -0.3751215      0.1901189     -0.0742010\n",
  chars! "  4P       27.389735      0.0218842      0.3810820     -0.3935642      0.2457944     -0.0912397\n",
  chars! "  4P       15.204118      0.0108430     -0.2163944      0.8841048     -0.2175893      0.1119455\n",
  chars! "  3P       14.501265     -0.0126169      0.3756981     -0.5804887      0.5330546     -0.2553151\n",
  chars! "  3P       10.837432     -0.0033194      0.0286987      0.8061956     -1.5975648      0.6970016\n",
  chars! "  3P        6.297562      0.0007071     -0.0046485      0.0192812      0.8424604     -0.2006762\n",
  chars! "  3P        5.026719     -0.0003571      0.0019768     -0.0046104      0.7591643     -0.8345362\n",
  chars! "  3P        2.313627      0.0000371     -0.0001713      0.0002056      0.0104748      1.0321561\n",
  chars! "  3P        1.567881     -0.0000149      0.0000666     -0.0000843     -0.0024021      0.2596025\n",
  chars! "        D                    3D             4D             5D             6D \n",
  chars! "  BASIS/ORB.ENERGY     -140.4735436    -30.4761898     -4.6592654     -0.3099089\n",
  chars! "  3D       60.460372      0.0025074     -0.0009314      0.0004951     -0.0000702\n",
  chars! "  3D       34.353800      0.4434644     -0.2486235      0.1107118     -0.0331798\n",
  chars! "  4D       28.467124      0.4999990     -0.3190699      0.1520348     -0.0435882\n",
  chars! "  4D       19.209070      0.1592036      0.0322588     -0.0578188      0.0076451\n",
  chars! "  4D       14.954731     -0.0479455      0.5559391     -0.2141228      0.0909319\n",
  chars! "  4D       11.585351      0.0173030      0.5151074     -0.5171513      0.1329712\n",
  chars! "  4D        7.657167     -0.0040757      0.0429752      0.4253201     -0.1006215\n",
  chars! "  4D        5.376603      0.0016040     -0.0065541      0.7519919     -0.3868394\n",
  chars! "  4D        3.587342     -0.0004827      0.0014416      0.1204323      0.1015471\n",
  chars! "  4D        2.054373      0.0001158     -0.0003336     -0.0005976      0.6756351\n",
  chars! "  4D        1.197641     -0.0000325      0.0000803      0.0001207      0.4010019\n",
  chars! "        F                    4F             5F \n",
  chars! "  BASIS/ORB.ENERGY      -17.3544871     -0.7700333\n",
  chars! "  4F       32.467146      0.0173290     -0.0054495\n",
  chars! "  4F       20.059113      0.2570496     -0.0942117\n",
  chars! "  4F       13.102908      0.5549359     -0.1800340\n",
  chars! "  5F        8.251545     -0.2495822      0.2512498\n",
  chars! "  4F        7.711586      0.4970536     -0.1889442\n",
  chars! "  4F        4.587557      0.0010352      0.5524970\n",
  chars! "  4F        2.847582     -0.0000734      0.3919522\n",
  chars! "  4F        1.776473      0.0000457      0.0936136\n",
  chars! " \n"]⟩

theorem neutral_np_ok : neutral_np.ok = true := by decide +kernel

/-- `data/neutral/pu`. -/
noncomputable def neutral_pu : DataFile := ⟨94, .neutral, [
  chars! "      PLUTONIUM   [RN]7S(2)5F(6), 7F                                                  \n",
  chars! "      CHARGE = 94.000000\n",
  chars! "      SYMMETRY SPECIES               S     P     D     F \n",
  chars! "      NUMBER OF BASIS FUNCTIONS     15    12     9     8\n",
  chars! "      NUMBER OF CLOSED SHELLS        7     5     3     1\n",
  chars! "      NUMBER OF OPEN SHELLS          0     0     0     1\n",
  chars! "      OPEN SHELL OCCUPATION NUMBER   0     0     0     6\n",
  chars! "   E =-27008.719247227\n",
  chars! "   T = 27008.719238005     V =-54017.438485232     V/T =    -2.000000000\n",
  chars! "  ORBITAL ENERGIES AND EXPANSION COEFFICIENTS\n",
  chars! "        S                    1S             2S             3S             4S             5S             6S             7S \n",
  chars! "  BASIS/ORB.ENERGY    -3886.0482295   -683.3941126   -176.0323160    -46.3070943    -10.5877387     -1.6361177      -.1599112\n",
  chars! "  1S      107.536668       .1436556       .0384552      -.0108789       .0059652      -.0048504       .0016712      -.0006464\n",
  chars! "  1S       91.001119       .8589779      -.3997613       .1831559      -.0957899       .0499698      -.0200630       .0054881\n",
  chars! "  2S       75.300845      -.0034071      -.2548158       .1454995      -.0764420       .0357783      -.0150051       .0036628\n",
  chars! "  2S       44.082884       .0035098      1.1893240      -.6418875       .3374439      -.1634792       .0676024      -.0171369\n",
  chars! "  3S       39.184732      -.0029156       .0943748      -.5300659       .3462940      -.1936684       .0787458      -.0216858\n",
  chars! "  3S       27.656392       .0028110      -.0030589       .8780865      -.2544247       .1280517      -.0444394       .0151179\n",
  chars! "  3S       21.755071      -.0020805       .0019434       .6462112     -1.3344042       .7497862      -.3251499       .0796825\n",
  chars! "  4S       12.225155      -.0008883       .0007847      -.0016041      -.0464556      -.7227331       .4000135      -.1185972\n",
  chars! "  3S       12.224417       .0011832      -.0012633       .0081125      1.6681655     -1.0435061       .4580358      -.1133358\n",
  chars! "  3S        6.549731       .0004202      -.0002363      -.0015257       .0339193      1.1736051      -.4401745       .1304115\n",
  chars! "  3S        5.344848      -.0002610       .0001503       .0007922      -.0102222       .5539151      -.8160559       .2240666\n",
  chars! "  3S        2.619722       .0000493      -.0000283      -.0001330       .0004367       .0067195      1.0496782      -.2878553\n",
  chars! "  3S        1.934627      -.0000281       .0000155       .0000835      -.0002406      -.0011027       .3014185      -.2343831\n",
  chars! "  3S         .814951       .0000072      -.0000039      -.0000215       .0000318       .0001579      -.0032962       .7013616\n",
  chars! "  3S         .595810      -.0000040       .0000022       .0000122      -.0000159      -.0000788       .0016022       .4186423\n",
  chars! "        P                    2P             3P             4P             5P             6P \n",
  chars! "  BASIS/ORB.ENERGY     -660.9072378   -164.9858409    -41.1105969     -8.4614113      -.9756442\n",
  chars! "  2P       90.239526      -.0045190      -.0014786       .0004775      -.0001273       .0000794\n",
  chars! "  2P       50.777857      -.7333913      -.3805807       .1993453      -.0965141       .0360158\n",
  chars! "  3P       45.540763      -.2747242      -.2513376       .1368721      -.0643105       .0247544\n",
  chars! "  3P       27.998986      -.0394074       .5962364      -.3406972       .1726608      -.0651927\n",
  chars! "  4P       27.995154       .0240194       .4031346      -.3965095       .2481790      -.0908506\n",
  chars! "  4P       15.561206       .0129158      -.2722243       .9610987      -.2563021       .1102291\n",
  chars! "  3P       14.518508      -.0152814       .4555404      -.7647791       .6768772      -.3068832\n",
  chars! "  3P       11.137490      -.0031190       .0199546       .8869277     -1.6919159       .7386558\n",
  chars! "  3P        6.391201       .0006333      -.0034783       .0200532       .9001289      -.2889960\n",
  chars! "  3P        5.039168      -.0003160       .0014264      -.0044921       .7029094      -.6988913\n",
  chars! "  3P        2.307997       .0000366      -.0001393       .0002515       .0103642       .9491279\n",
  chars! "  3P        1.580052      -.0000152       .0000561      -.0000995      -.0024517       .3129415\n",
  chars! "        D                    3D             4D             5D \n",
  chars! "  BASIS/ORB.ENERGY     -144.6107841    -31.4843300     -4.6912457\n",
  chars! "  3D       61.400727       .0024160      -.0009037       .0004816\n",
  chars! "  3D       34.750009       .4446110      -.2502599       .1118385\n",
  chars! "  4D       28.815000       .4995353      -.3215019       .1538140\n",
  chars! "  4D       19.517891       .1537642       .0447868      -.0627262\n",
  chars! "  4D       14.876307      -.0435339       .6093909      -.2385776\n",
  chars! "  4D       11.601501       .0177018       .4518300      -.5273033\n",
  chars! "  4D        8.051959      -.0040757       .0390323       .4394790\n",
  chars! "  4D        5.509317       .0010280      -.0026048       .7687511\n",
  chars! "  4D        3.624359      -.0001972       .0003716       .1277065\n",
  chars! "        F                    4F             5F \n",
  chars! "  BASIS/ORB.ENERGY      -18.0933673      -.6543432\n",
  chars! "  4F       32.847883       .0174196      -.0054853\n",
  chars! "  4F       20.322362       .2605935      -.0953211\n",
  chars! "  4F       13.247147       .5671416      -.1850768\n",
  chars! "  5F        8.319856      -.2306420       .2536835\n",
  chars! "  4F        7.796263       .4611818      -.1667725\n",
  chars! "  4F        4.624658       .0013215       .5489358\n",
  chars! "  4F        2.844790      -.0001339       .3806911\n",
  chars! "  4F        1.765028       .0000602       .0989754\n"]⟩

theorem neutral_pu_ok : neutral_pu.ok = true := by decide +kernel

/-- `data/neutral/am`. -/
noncomputable def neutral_am : DataFile := ⟨95, .neutral, [
  chars! "      AMERICIUM   [RN]7S(2)5F(7), 8S                                                  \n",
  chars! "      CHARGE = 95.000000\n",
  chars! "      SYMMETRY SPECIES               S     P     D     F \n",
  chars! "      NUMBER OF BASIS FUNCTIONS     15    12     9     8\n",
  chars! "      NUMBER OF CLOSED SHELLS        7     5     3     1\n",
  chars! "      NUMBER OF OPEN SHELLS          0     0     0     1\n",
  chars! "      OPEN SHELL OCCUPATION NUMBER   0     0     0     7\n",
  chars! "   E =-27695.887018041\n",
  chars! "   T = 27695.887174718     V =-55391.774192759     V/T =    -1.999999994\n",
  chars! "  ORBITAL ENERGIES AND EXPANSION COEFFICIENTS\n",
  chars! "        S                    1S             2S             3S             4S             5S             6S             7S \n",
  chars! "  BASIS/ORB.ENERGY    -3972.1938631   -700.0047380   -180.9152733    -47.8309208    -10.9526017     -1.6681180      -.1612883\n",
  chars! "  1S      108.514351       .1460397       .0389136      -.0109858       .0061325      -.0050704       .0017815      -.0006775\n",
  chars! "  1S       91.949998       .8566752      -.4005491       .1835816      -.0963816       .0506518      -.0203065       .0055068\n",
  chars! "  2S       76.105473      -.0035220      -.2549536       .1457190      -.0766169       .0359256      -.0149782       .0036111\n",
  chars! "  2S       44.549019       .0035220      1.1910776      -.6433276       .3387576      -.1647040       .0678004      -.0170005\n",
  chars! "  3S       39.617958      -.0029320       .0926845      -.5322748       .3502018      -.1976515       .0803468      -.0219235\n",
  chars! "  3S       27.944494       .0028444      -.0028822       .8949320      -.2697073       .1406855      -.0503220       .0166608\n",
  chars! "  3S       21.936836      -.0021445       .0018647       .6340188     -1.3406216       .7482576      -.3218277       .0776063\n",
  chars! "  4S       12.509773      -.0009165       .0007543       .0003242      -.0062252      -.7762846       .4284102      -.1252341\n",
  chars! "  3S       12.508435       .0012523      -.0012500       .0046686      1.6462872     -1.0053026       .4361602      -.1058402\n",
  chars! "  3S        6.663735       .0004133      -.0002088      -.0019533       .0336752      1.1844968      -.4599069       .1351714\n",
  chars! "  3S        5.436424      -.0002568       .0001338       .0010268      -.0099841       .5469034      -.7938077       .2143545\n",
  chars! "  3S        2.662610       .0000482      -.0000252      -.0001673       .0003999       .0070352      1.0383038      -.2797509\n",
  chars! "  3S        1.961718      -.0000274       .0000137       .0001018      -.0002179      -.0012743       .3083097      -.2343521\n",
  chars! "  3S         .825118       .0000070      -.0000035      -.0000261       .0000266       .0002011      -.0034847       .6849676\n",
  chars! "  3S         .602749      -.0000040       .0000019       .0000147      -.0000130      -.0001031       .0017022       .4333643\n",
  chars! "        P                    2P             3P             4P             5P             6P \n",
  chars! "  BASIS/ORB.ENERGY     -677.2367483   -169.7051632    -42.5370001     -8.7743179      -.9924815\n",
  chars! "  2P       91.104106      -.0045020      -.0014705       .0004760      -.0001280       .0000820\n",
  chars! "  2P       51.359787      -.7326890      -.3806881       .1999900      -.0973701       .0361360\n",
  chars! "  3P       46.111052      -.2746159      -.2503600       .1365824      -.0644983       .0247506\n",
  chars! "  3P       28.473803      -.0406652       .5757745      -.3252391       .1652237      -.0620665\n",
  chars! "  4P       28.476350       .0247692       .4111776      -.3973227       .2491890      -.0904064\n",
  chars! "  4P       15.819973       .0141849      -.3105350      1.0201164      -.2906020       .1244550\n",
  chars! "  3P       14.584813      -.0168016       .5097992      -.8823064       .7910788      -.3558312\n",
  chars! "  3P       11.386274      -.0030283       .0126433       .9319989     -1.7800021       .7758419\n",
  chars! "  3P        6.553568       .0006250      -.0029013       .0214162       .8914003      -.2924829\n",
  chars! "  3P        5.147036      -.0003067       .0011482      -.0046461       .7233854      -.6929968\n",
  chars! "  3P        2.343903       .0000356      -.0001126       .0002754       .0103265       .9387166\n",
  chars! "  3P        1.602802      -.0000149       .0000456      -.0001096      -.0024473       .3181897\n",
  chars! "        D                    3D             4D             5D \n",
  chars! "  BASIS/ORB.ENERGY     -149.0267494    -32.7250208     -4.9070322\n",
  chars! "  3D       62.341082       .0023061      -.0008545       .0004640\n",
  chars! "  3D       35.192142       .4438410      -.2508651       .1130190\n",
  chars! "  4D       29.205796       .4994426      -.3231736       .1560230\n",
  chars! "  4D       19.795476       .1551124       .0433156      -.0635875\n",
  chars! "  4D       15.067734      -.0451968       .6163186      -.2359800\n",
  chars! "  4D       11.821831       .0190414       .4435902      -.5495609\n",
  chars! "  4D        8.312521      -.0043878       .0414950       .4427289\n",
  chars! "  4D        5.652153       .0010181      -.0023050       .7787461\n",
  chars! "  4D        3.713707      -.0001955       .0003646       .1300230\n",
  chars! "        F                    4F             5F \n",
  chars! "  BASIS/ORB.ENERGY      -19.0626502      -.7221538\n",
  chars! "  4F       33.485222       .0165266      -.0052732\n",
  chars! "  4F       20.732321       .2558343      -.0962791\n",
  chars! "  4F       13.553845       .5650694      -.1867930\n",
  chars! "  5F        8.696144      -.2009870       .2528636\n",
  chars! "  4F        8.184470       .4385830      -.1842378\n",
  chars! "  4F        4.844213       .0017356       .5515984\n",
  chars! "  4F        2.996931      -.0002246       .3850291\n",
  chars! "  4F        1.866870       .0000521       .1022711\n"]⟩

theorem neutral_am_ok : neutral_am.ok = true := by decide +kernel

/-- `data/neutral/cm`. -/
noncomputable def neutral_cm : DataFile := ⟨96, .neutral, [
  chars! "      CURIUM   [RN]7S(2)6D(1)5F(7), 9D                                                \n",
  chars! "      CHARGE = 96.000000\n",
  chars! "      SYMMETRY SPECIES               S     P     D     F \n",
  chars! "      NUMBER OF BASIS FUNCTIONS     15    12    11     8\n",
  chars! "      NUMBER OF CLOSED SHELLS        7     5     3     1\n",
  chars! "      NUMBER OF OPEN SHELLS          0     0     1     1\n",
  chars! "      OPEN SHELL OCCUPATION NUMBER   0     0     1     7\n",
  chars! "   E =-28392.770961608\n",
  chars! "   T = 28392.770991566     V =-56785.541953174     V/T =    -1.999999999\n",
  chars! " \n",
  chars! "  ORBITAL ENERGIES AND EXPANSION COEFFICIENTS\n",
  chars! "        S                    1S             2S             3S             4S             5S             6S             7S \n",
  chars! "  BASIS/ORB.ENERGY    -4059.5156306   -717.0558473   -186.1140586    -49.6212756    -11.5523061     -1.8242508     -0.1715415\n",
  chars! "  1S      109.612751      0.1457739      0.0389593     -0.0109770      0.0061165     -0.0051989      0.0018885     -0.0006867\n",
  chars! "  1S       92.936745      0.8569268     -0.4006377      0.1837645     -0.0966925      0.0512726     -0.0209909      0.0058217\n",
  chars! "  2S       76.950992     -0.0035053     -0.2550422      0.1458250     -0.0768871      0.0361854     -0.0153598      0.0038834\n",
  chars! "  2S       44.998600      0.0035054      1.1931275     -0.6448156      0.3404227     -0.1663909      0.0698018     -0.0181982\n",
  chars! "  3S       40.035230     -0.0029462      0.0902015     -0.5360095      0.3538549     -0.2019402      0.0839028     -0.0233991\n",
  chars! "  3S       28.287682      0.0028771     -0.0025719      0.9037776     -0.2769535      0.1495896     -0.0556004      0.0179369\n",
  chars! "  3S       22.155737     -0.0021975      0.0016864      0.6316244     -1.3521588      0.7495505     -0.3275466      0.0826867\n",
  chars! "  4S       12.809142     -0.0009325      0.0006859      0.0021603      0.0429812     -0.8321985      0.4675772     -0.1384611\n",
  chars! "  3S       12.807190      0.0013121     -0.0011829      0.0013414      1.6133999     -0.9563855      0.4193337     -0.1058510\n",
  chars! "  3S        6.672423      0.0004205     -0.0001750     -0.0024854      0.0351851      1.3017975     -0.5171379      0.1492857\n",
  chars! "  3S        5.474202     -0.0002780      0.0001203      0.0014269     -0.0119188      0.4252356     -0.7981327      0.2329953\n",
  chars! "  3S        2.789448      0.0000571     -0.0000250     -0.0002538      0.0006370      0.0073113      1.0595774     -0.3053938\n",
  chars! "  3S        2.064744     -0.0000317      0.0000132      0.0001472     -0.0003243     -0.0012961      0.3270210     -0.2457436\n",
  chars! "  3S        0.896377      0.0000075     -0.0000031     -0.0000345      0.0000416      0.0002062     -0.0022251      0.6229734\n",
  chars! "  3S        0.641591     -0.0000040      0.0000016      0.0000182     -0.0000195     -0.0000985      0.0010915      0.5052593\n",
  chars! "        P                    2P             3P             4P             5P             6P \n",
  chars! "  BASIS/ORB.ENERGY     -694.0038213   -174.7390595    -44.2293864     -9.3161166     -1.1142799\n",
  chars! "  2P       92.375643     -0.0043285     -0.0014223      0.0004718     -0.0001210      0.0000886\n",
  chars! "  2P       52.048311     -0.7287062     -0.3789511      0.1996065     -0.0979745      0.0373032\n",
  chars! "  3P       46.755479     -0.2779879     -0.2505372      0.1371473     -0.0650980      0.0257901\n",
  chars! "  3P       28.969843     -0.0422379      0.5540005     -0.3090416      0.1583838     -0.0610327\n",
  chars! "  4P       28.937060      0.0255911      0.4242144     -0.3994093      0.2534729     -0.0933263\n",
  chars! "  4P       16.155524      0.0141049     -0.2981920      1.0096628     -0.2676226      0.1231104\n",
  chars! "  3P       15.030526     -0.0167307      0.4990899     -0.9117542      0.8006235     -0.3704743\n",
  chars! "  3P       11.614807     -0.0033257      0.0193092      0.9549671     -1.8165633      0.8059597\n",
  chars! "  3P        6.659121      0.0006811     -0.0035789      0.0234032      0.8898696     -0.2668566\n",
  chars! "  3P        5.292248     -0.0003456      0.0015032     -0.0057131      0.7310071     -0.7651239\n",
  chars! "  3P        2.433730      0.0000377     -0.0001378      0.0003092      0.0100743      0.9962628\n",
  chars! "  3P        1.651093     -0.0000152      0.0000543     -0.0001223     -0.0022957      0.2836083\n",
  chars! "        D                    3D             4D             5D             6D \n",
  chars! "  BASIS/ORB.ENERGY     -153.7545557    -34.2307509     -5.3335313     -0.3006688\n",
  chars! "  3D       63.281438      0.0021388     -0.0007807      0.0004338     -0.0000442\n",
  chars! "  3D       35.762624      0.4379510     -0.2485072      0.1133748     -0.0322109\n",
  chars! "  4D       29.732643      0.4977560     -0.3228816      0.1577942     -0.0427339\n",
  chars! "  4D       20.338402      0.1624925      0.0128543     -0.0462592      0.0037513\n",
  chars! "  4D       15.629075     -0.0428277      0.5816735     -0.2330614      0.0927599\n",
  chars! "  4D       12.194421      0.0162799      0.5063575     -0.5502053      0.1356400\n",
  chars! "  4D        8.106496     -0.0037116      0.0412005      0.4864189     -0.1185316\n",
  chars! "  4D        5.645416      0.0013245     -0.0056060      0.7395945     -0.3624088\n",
  chars! "  4D        3.705816     -0.0003900      0.0012931      0.0996661      0.1315444\n",
  chars! "  4D        2.098537      0.0000942     -0.0002952     -0.0009050      0.6580025\n",
  chars! "  4D        1.201851     -0.0000268      0.0000756      0.0002808      0.4023585\n",
  chars! "        F                    4F             5F \n",
  chars! "  BASIS/ORB.ENERGY      -20.2948370     -0.9687882\n",
  chars! "  4F       33.822758      0.0167613     -0.0056270\n",
  chars! "  4F       20.974594      0.2600937     -0.1024179\n",
  chars! "  4F       13.682058      0.5789462     -0.2022137\n",
  chars! "  5F        8.829274     -0.1389546      0.2395839\n",
  chars! "  4F        8.445016      0.3587465     -0.1557370\n",
  chars! "  4F        4.983619      0.0028061      0.5680970\n",
  chars! "  4F        3.134988     -0.0004387      0.3696676\n",
  chars! "  4F        1.990129      0.0000925      0.0803504\n",
  chars! " \n"]⟩

theorem neutral_cm_ok : neutral_cm.ok = true := by decide +kernel

/-- Part 7 of the files. -/
noncomputable def part7 : List DataFile := [
  neutral_ac, neutral_th, neutral_pa, neutral_u, neutral_np, neutral_pu, neutral_am, neutral_cm]

theorem part7_ok : ∀ d ∈ part7, d.ok = true := by
  intro d hd
  unfold part7 at hd
  simp only [List.mem_cons, List.not_mem_nil, or_false] at hd
  rcases hd with rfl | rfl | rfl | rfl | rfl | rfl | rfl | rfl
  · exact neutral_ac_ok
  · exact neutral_th_ok
  · exact neutral_pa_ok
  · exact neutral_u_ok
  · exact neutral_np_ok
  · exact neutral_pu_ok
  · exact neutral_am_ok
  · exact neutral_cm_ok

end BFit.Data
