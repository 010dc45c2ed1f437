import Verif.Lemmas.DataNum

/-! Copy of files in /repo/bfit/data/data.tar, generated by tools/gendata.py. -/

namespace BFit.Data

/-- `data/neutral/la`. -/
noncomputable def neutral_la : DataFile := ⟨57, .neutral, [
  chars! "      LANTHANUM   [XE]6S(2)5D(1), 2D                                                  \n",
  chars! "      CHARGE = 57.000000\n",
  chars! "      SYMMETRY SPECIES               S     P     D \n",
  chars! "      NUMBER OF BASIS FUNCTIONS     13    10     9\n",
  chars! "      NUMBER OF CLOSED SHELLS        6     4     2\n",
  chars! "      NUMBER OF OPEN SHELLS          0     0     1\n",
  chars! "      OPEN SHELL OCCUPATION NUMBER   0     0     1\n",
  chars! "   E = -8221.066556283\n",
  chars! "   T =  8221.066541731     V =-16442.133098014     V/T =    -2.000000002\n",
  chars! "  ORBITAL ENERGIES AND EXPANSION COEFFICIENTS\n",
  chars! "        S                    1S             2S             3S             4S             5S             6S \n",
  chars! "  BASIS/ORB.ENERGY    -1372.2802254   -216.2769147    -47.8443276    -10.3454502     -1.7043427     -0.1703597\n",
  chars! "  1S       74.686053      0.0384678      0.0108460     -0.0044792      0.0009017     -0.0006996      0.0000873\n",
  chars! "  1S       56.122632      0.9548115     -0.3474916      0.1564427     -0.0717595      0.0293811     -0.0081334\n",
  chars! "  2S       46.442201      0.0093450     -0.2418844      0.1194892     -0.0600463      0.0234359     -0.0068875\n",
  chars! "  2S       27.670889      0.0016865      0.9908451     -0.4829444      0.2358324     -0.0936850      0.0269649\n",
  chars! "  3S       25.126010     -0.0009857      0.2675671     -0.3807365      0.1960109     -0.0832184      0.0228346\n",
  chars! "  3S       14.473285      0.0009338      0.0269573      0.5082533      0.1936691     -0.1201522      0.0409068\n",
  chars! "  3S       12.560364     -0.0008241     -0.0162263      0.7480968     -1.2891416      0.6173143     -0.1849423\n",
  chars! "  3S        6.313598      0.0003035      0.0023328      0.0462103      1.1570722     -0.4092386      0.1174919\n",
  chars! "  3S        5.148584     -0.0002386     -0.0018301     -0.0245112      0.2494980     -0.6346075      0.2053043\n",
  chars! "  3S        2.721675      0.0000725      0.0005168      0.0044155      0.0088541      0.9794392     -0.3094400\n",
  chars! "  3S        2.038687     -0.0000422     -0.0002856     -0.0024153     -0.0019452      0.3763127     -0.2554968\n",
  chars! "  3S        0.883413      0.0000100      0.0000651      0.0005026      0.0003166     -0.0009352      0.6378111\n",
  chars! "  3S        0.635998     -0.0000053     -0.0000345     -0.0002636     -0.0001533      0.0005842      0.4924238\n",
  chars! "        P                    2P             3P             4P             5P \n",
  chars! "  BASIS/ORB.ENERGY     -203.9073241    -42.4590715     -8.2588263     -1.0493592\n",
  chars! "  2P       47.922059      0.0193450     -0.0068441      0.0033712     -0.0015792\n",
  chars! "  2P       28.166523      0.8174909     -0.3957572      0.1812977     -0.0662802\n",
  chars! "  3P       24.260607      0.1917262     -0.3352747      0.2245080     -0.1073381\n",
  chars! "  4P       19.029118      0.0096392     -0.3994825      0.3689578     -0.2062746\n",
  chars! "  3P       15.044910     -0.0060774      1.3629184     -0.9380633      0.4672205\n",
  chars! "  3P       10.575140      0.0009764      0.3473940     -0.5341449      0.1921000\n",
  chars! "  3P        6.469568     -0.0004492     -0.0010579      1.0971261     -0.5131835\n",
  chars! "  4P        5.487832      0.0000934      0.0015722      0.3260132     -0.3558958\n",
  chars! "  3P        2.366537     -0.0000188     -0.0003336      0.0106450      0.9597379\n",
  chars! "  3P        1.608197      0.0000078      0.0001188     -0.0026039      0.2950228\n",
  chars! "        D                    3D             4D             5D \n",
  chars! "  BASIS/ORB.ENERGY      -32.5535424     -4.5535119     -0.2688171\n",
  chars! "  3D       34.153392      0.0071691     -0.0026035      0.0008930\n",
  chars! "  3D       19.107963      0.4435003     -0.2047753      0.0532214\n",
  chars! "  4D       15.073064      0.4991228     -0.2288931      0.0670341\n",
  chars! "  4D       10.165703      0.1664653     -0.1460586      0.0017020\n",
  chars! "  4D        8.440305     -0.0306542      0.4917533     -0.0905339\n",
  chars! "  4D        5.562649      0.0040676      0.6480873     -0.2726263\n",
  chars! "  4D        3.651979     -0.0009574      0.1079708      0.1020024\n",
  chars! "  4D        2.027158      0.0001670     -0.0009317      0.6374399\n",
  chars! "  4D        1.145554     -0.0000470      0.0004376      0.4288175\n"]⟩

theorem neutral_la_ok : neutral_la.ok = true := by decide +kernel

/-- `data/neutral/ce`. -/
noncomputable def neutral_ce : DataFile := ⟨58, .neutral, [
  chars! "      CERIUM   [XE]6S(2)5D(1)4F(1), 1G                                                \n",
  chars! "      CHARGE = 58.000000\n",
  chars! "      SYMMETRY SPECIES               S     P     D     F \n",
  chars! "      NUMBER OF BASIS FUNCTIONS     13    10     9     6\n",
  chars! "      NUMBER OF CLOSED SHELLS        6     4     2     0\n",
  chars! "      NUMBER OF OPEN SHELLS          0     0     1     1\n",
  chars! "      OPEN SHELL OCCUPATION NUMBER   0     0     1     1\n",
  chars! "   E = -8566.872534154\n",
  chars! "   T =  8566.872517249     V =-17133.745051403     V/T =    -2.000000002\n",
  chars! "  ORBITAL ENERGIES AND EXPANSION COEFFICIENTS\n",
  chars! "        S                    1S             2S             3S             4S             5S             6S \n",
  chars! "  BASIS/ORB.ENERGY    -1423.1026566   -225.2527451    -50.0772392    -10.8069844     -1.7493739     -0.1713884\n",
  chars! "  1S       76.035150      0.0376052      0.0107790     -0.0044017      0.0008657     -0.0006832      0.0000765\n",
  chars! "  1S       57.131650      0.9556282     -0.3476280      0.1569281     -0.0722714      0.0294582     -0.0079963\n",
  chars! "  2S       47.312853      0.0093994     -0.2419226      0.1200773     -0.0605894      0.0235511     -0.0068019\n",
  chars! "  2S       28.060473      0.0016381      1.0004787     -0.4896624      0.2401257     -0.0949849      0.0268485\n",
  chars! "  3S       25.534699     -0.0009821      0.2569709     -0.3811291      0.1969862     -0.0833279      0.0223828\n",
  chars! "  3S       14.844127      0.0009419      0.0260744      0.4864992      0.2168735     -0.1304826      0.0432763\n",
  chars! "  3S       12.885759     -0.0008262     -0.0155549      0.7747351     -1.3220929      0.6301005     -0.1853049\n",
  chars! "  3S        6.492214      0.0002999      0.0021674      0.0470196      1.1380184     -0.3975369      0.1125496\n",
  chars! "  3S        5.307661     -0.0002334     -0.0016915     -0.0247076      0.2727868     -0.6363608      0.2002120\n",
  chars! "  3S        2.782600      0.0000677      0.0004570      0.0042198      0.0089997      0.9581058     -0.2950350\n",
  chars! "  3S        2.081217     -0.0000392     -0.0002506     -0.0022984     -0.0019725      0.3886994     -0.2517460\n",
  chars! "  3S        0.887910      0.0000091      0.0000564      0.0004719      0.0003165     -0.0008409      0.6409955\n",
  chars! "  3S        0.637379     -0.0000049     -0.0000302     -0.0002501     -0.0001554      0.0005322      0.4839873\n",
  chars! "        P                    2P             3P             4P             5P \n",
  chars! "  BASIS/ORB.ENERGY     -212.6180420    -44.5502668     -8.6505060     -1.0737931\n",
  chars! "  2P       48.894058      0.0187269     -0.0066093      0.0033058     -0.0015015\n",
  chars! "  2P       28.719833      0.8172122     -0.3971550      0.1827283     -0.0665316\n",
  chars! "  3P       24.767523      0.1924309     -0.3368059      0.2298495     -0.1062708\n",
  chars! "  4P       19.481959      0.0094797     -0.3913859      0.3749904     -0.1994035\n",
  chars! "  3P       15.389248     -0.0058948      1.3526985     -0.9533053      0.4571237\n",
  chars! "  3P       10.857138      0.0009451      0.3503363     -0.5320395      0.1966320\n",
  chars! "  3P        6.613655     -0.0004340     -0.0002937      1.1076889     -0.5222579\n",
  chars! "  4P        5.604644      0.0000906      0.0013787      0.3150168     -0.3418279\n",
  chars! "  3P        2.429195     -0.0000183     -0.0002953      0.0104913      0.9355328\n",
  chars! "  3P        1.653439      0.0000076      0.0001038     -0.0025236      0.3161997\n",
  chars! "        D                    3D             4D             5D \n",
  chars! "  BASIS/ORB.ENERGY      -34.3838920     -4.8145038     -0.2979089\n",
  chars! "  3D       34.797518      0.0070376     -0.0025580      0.0009051\n",
  chars! "  3D       19.516555      0.4447579     -0.2071363      0.0559465\n",
  chars! "  4D       15.424922      0.5004222     -0.2323262      0.0703054\n",
  chars! "  4D       10.345200      0.1696865     -0.1642383      0.0049159\n",
  chars! "  4D        8.740820     -0.0375941      0.5088511     -0.0975771\n",
  chars! "  4D        5.744808      0.0043832      0.6495648     -0.2837080\n",
  chars! "  4D        3.775249     -0.0009669      0.1106898      0.1053767\n",
  chars! "  4D        2.115986      0.0001884     -0.0007505      0.6459785\n",
  chars! "  4D        1.206276     -0.0000430      0.0004208      0.4170737\n",
  chars! "        F                    4F \n",
  chars! "  BASIS/ORB.ENERGY       -0.7131229\n",
  chars! "  4F       17.373634      0.0177006\n",
  chars! "  4F       10.034791      0.1365710\n",
  chars! "  4F        6.709780      0.3091707\n",
  chars! "  4F        4.338091      0.4158549\n",
  chars! "  4F        2.673664      0.2672594\n",
  chars! "  4F        1.640385      0.0601619\n"]⟩

theorem neutral_ce_ok : neutral_ce.ok = true := by decide +kernel

/-- `data/neutral/pr`. -/
noncomputable def neutral_pr : DataFile := ⟨59, .neutral, [
  chars! "      PRASEODYMIUM   [XE]6S(2)5D(0)4F(3), 4I                                          \n",
  chars! "      CHARGE = 59.000000\n",
  chars! "      SYMMETRY SPECIES               S     P     D     F \n",
  chars! "      NUMBER OF BASIS FUNCTIONS     13    10     7     6\n",
  chars! "      NUMBER OF CLOSED SHELLS        6     4     2     0\n",
  chars! "      NUMBER OF OPEN SHELLS          0     0     0     1\n",
  chars! "      OPEN SHELL OCCUPATION NUMBER   0     0     0     3\n",
  chars! "   E = -8921.180897012\n",
  chars! "   T =  8921.180886172     V =-17842.361783184     V/T =    -2.000000001\n",
  chars! "  ORBITAL ENERGIES AND EXPANSION COEFFICIENTS\n",
  chars! "        S                    1S             2S             3S             4S             5S             6S \n",
  chars! "  BASIS/ORB.ENERGY    -1474.5593855   -234.0802353    -51.9788709    -10.9451525     -1.6562487      -.1638991\n",
  chars! "  1S       77.213125       .0376499       .0108983      -.0043920       .0008225      -.0006740       .0000526\n",
  chars! "  1S       58.122933       .9557010      -.3481710       .1575551      -.0724435       .0285561      -.0073721\n",
  chars! "  2S       48.167912       .0092343      -.2418347       .1206346      -.0608708       .0227874      -.0063336\n",
  chars! "  2S       28.433887       .0016371      1.0115134      -.4971190       .2436858      -.0929677       .0251877\n",
  chars! "  3S       25.933524      -.0010022       .2449625      -.3813994       .1967026      -.0805468       .0204885\n",
  chars! "  3S       15.251111       .0009467       .0246909       .4629302       .2274656      -.1282231       .0410044\n",
  chars! "  3S       13.207237      -.0008191      -.0143684       .8038196     -1.3357974       .6109707      -.1719888\n",
  chars! "  3S        6.750698       .0002733       .0018340       .0450050      1.0161559      -.3492546       .0974255\n",
  chars! "  3S        5.502002      -.0001985      -.0013517      -.0213752       .3972320      -.6005642       .1729180\n",
  chars! "  3S        2.702642       .0000502       .0003180       .0030739       .0081288       .9556300      -.2741263\n",
  chars! "  3S        1.995310      -.0000304      -.0001820      -.0017702      -.0019072       .3345544      -.2231271\n",
  chars! "  3S         .841438       .0000082       .0000476       .0004272       .0003368      -.0027194       .6723950\n",
  chars! "  3S         .611222      -.0000046      -.0000267      -.0002371      -.0001744       .0013289       .4428469\n",
  chars! "        P                    2P             3P             4P             5P \n",
  chars! "  BASIS/ORB.ENERGY     -221.1865703    -46.3126698     -8.7278165      -.9837826\n",
  chars! "  2P       49.831272       .0182506      -.0063976       .0033056      -.0013716\n",
  chars! "  2P       29.252859       .8181224      -.3992170       .1830785      -.0638256\n",
  chars! "  3P       25.247558       .1917130      -.3374234       .2394952      -.1005273\n",
  chars! "  4P       19.914715       .0086566      -.3805638       .3950785      -.1839208\n",
  chars! "  3P       15.733819      -.0050404      1.3368613      -.9908079       .4259839\n",
  chars! "  3P       11.166918       .0007869       .3555301      -.5075423       .1906235\n",
  chars! "  3P        6.703596      -.0003688       .0015074      1.1129261      -.5127085\n",
  chars! "  4P        5.617816       .0000711       .0009560       .2958506      -.2874084\n",
  chars! "  3P        2.408498      -.0000157      -.0002001       .0097956       .8606492\n",
  chars! "  3P        1.640987       .0000064       .0000753      -.0024030       .3611511\n",
  chars! "        D                    3D             4D \n",
  chars! "  BASIS/ORB.ENERGY      -35.8924567     -4.7857219\n",
  chars! "  3D       35.619597       .0066338      -.0023388\n",
  chars! "  3D       20.021927       .4398358      -.2045953\n",
  chars! "  4D       15.934469       .4880190      -.2250791\n",
  chars! "  4D       11.161212       .1598971      -.1425974\n",
  chars! "  4D        9.030128      -.0086233       .4642317\n",
  chars! "  4D        5.920706       .0020821       .6491539\n",
  chars! "  4D        3.876835      -.0002350       .1281533\n",
  chars! "        F                    4F \n",
  chars! "  BASIS/ORB.ENERGY        -.5491852\n",
  chars! "  4F       17.604838       .0185309\n",
  chars! "  4F       10.118322       .1480404\n",
  chars! "  4F        6.763135       .3037790\n",
  chars! "  4F        4.400819       .4000376\n",
  chars! "  4F        2.713060       .2727691\n",
  chars! "  4F        1.655041       .0745447\n"]⟩

theorem neutral_pr_ok : neutral_pr.ok = true := by decide +kernel

/-- `data/neutral/nd`. -/
noncomputable def neutral_nd : DataFile := ⟨60, .neutral, [
  chars! "      NEODIUM   [XE]6S(2)5D(0)4F(4), 5I                                               \n",
  chars! "      CHARGE = 60.000000\n",
  chars! "      SYMMETRY SPECIES               S     P     D     F \n",
  chars! "      NUMBER OF BASIS FUNCTIONS     13    10     7     6\n",
  chars! "      NUMBER OF CLOSED SHELLS        6     4     2     0\n",
  chars! "      NUMBER OF OPEN SHELLS          0     0     0     1\n",
  chars! "      OPEN SHELL OCCUPATION NUMBER   0     0     0     4\n",
  chars! "   E = -9283.882809548\n",
  chars! "   T =  9283.882848169     V =-18567.765657716     V/T =    -1.999999996\n",
  chars! "  ORBITAL ENERGIES AND EXPANSION COEFFICIENTS\n",
  chars! "        S                    1S             2S             3S             4S             5S             6S \n",
  chars! "  BASIS/ORB.ENERGY    -1527.2129254   -243.3843687    -54.2631436    -11.3957266     -1.6981295      -.1657566\n",
  chars! "  1S       78.361307       .0378429       .0111258      -.0044024       .0008100      -.0006654       .0000452\n",
  chars! "  1S       59.111063       .9556506      -.3488668       .1581856      -.0729348       .0286086      -.0073010\n",
  chars! "  2S       49.001140       .0090421      -.2420985       .1214622      -.0614854       .0229323      -.0063113\n",
  chars! "  2S       28.814173       .0016354      1.0226469      -.5048756       .2482935      -.0943298       .0252948\n",
  chars! "  3S       26.316115      -.0010230       .2334393      -.3818831       .1974919      -.0805002       .0202072\n",
  chars! "  3S       15.655808       .0009556       .0231393       .4461988       .2320015      -.1296090       .0409215\n",
  chars! "  3S       13.516398      -.0008153      -.0131121       .8268196     -1.3485372       .6139224      -.1708823\n",
  chars! "  3S        6.921522       .0002690       .0016188       .0446912      1.0099906      -.3508113       .0971663\n",
  chars! "  3S        5.627842      -.0001937      -.0011939      -.0208780       .4064609      -.5932509       .1681601\n",
  chars! "  3S        2.762145       .0000488       .0002816       .0029967       .0080325       .9369835      -.2640111\n",
  chars! "  3S        2.037392      -.0000294      -.0001597      -.0017147      -.0018486       .3490434      -.2239823\n",
  chars! "  3S         .850786       .0000078       .0000411       .0004069       .0003235      -.0025198       .6708350\n",
  chars! "  3S         .615797      -.0000044      -.0000231      -.0002265      -.0001680       .0012478       .4418762\n",
  chars! "        P                    2P             3P             4P             5P \n",
  chars! "  BASIS/ORB.ENERGY     -230.2258664    -48.4545829     -9.1084665     -1.0058030\n",
  chars! "  2P       51.237254       .0164601      -.0057896       .0030793      -.0012579\n",
  chars! "  2P       30.065452       .8035708      -.3928941       .1806683      -.0626388\n",
  chars! "  3P       26.130120       .2083421      -.3100781       .2186397      -.0893607\n",
  chars! "  4P       20.429427       .0139202      -.3068321       .3457904      -.1580780\n",
  chars! "  3P       15.899519      -.0096932      1.2428157      -.9362265       .3934053\n",
  chars! "  3P       11.386007       .0016627       .3438432      -.4956144       .1872411\n",
  chars! "  3P        6.861663      -.0005323       .0016777      1.1195556      -.5150285\n",
  chars! "  4P        5.735242       .0001241       .0008998       .2923328      -.2798843\n",
  chars! "  3P        2.462338      -.0000275      -.0001784       .0094955       .8465628\n",
  chars! "  3P        1.673724       .0000112       .0000665      -.0022809       .3724328\n",
  chars! "        D                    3D             4D \n",
  chars! "  BASIS/ORB.ENERGY      -37.7726461     -5.0359240\n",
  chars! "  3D       36.662542       .0060074      -.0020978\n",
  chars! "  3D       20.546525       .4344613      -.2033551\n",
  chars! "  4D       16.415952       .4832125      -.2257071\n",
  chars! "  4D       11.670571       .1636239      -.1270196\n",
  chars! "  4D        9.170058      -.0015963       .4575776\n",
  chars! "  4D        6.047923       .0016940       .6421118\n",
  chars! "  4D        3.955445      -.0001440       .1233852\n",
  chars! "        F                    4F \n",
  chars! "  BASIS/ORB.ENERGY        -.5957342\n",
  chars! "  4F       18.028978       .0188220\n",
  chars! "  4F       10.369350       .1567141\n",
  chars! "  4F        6.872231       .3214716\n",
  chars! "  4F        4.452468       .3974978\n",
  chars! "  4F        2.749827       .2554202\n",
  chars! "  4F        1.693471       .0651307\n"]⟩

theorem neutral_nd_ok : neutral_nd.ok = true := by decide +kernel

/-- `data/neutral/pm`. -/
noncomputable def neutral_pm : DataFile := ⟨61, .neutral, [
  chars! "      PROMETHIUM   [XE]6S(2)5D(0)4F(5), 6H                                            \n",
  chars! "      CHARGE = 61.000000\n",
  chars! "      SYMMETRY SPECIES               S     P     D     F \n",
  chars! "      NUMBER OF BASIS FUNCTIONS     13    10     7     6\n",
  chars! "      NUMBER OF CLOSED SHELLS        6     4     2     0\n",
  chars! "      NUMBER OF OPEN SHELLS          0     0     0     1\n",
  chars! "      OPEN SHELL OCCUPATION NUMBER   0     0     0     5\n",
  chars! "   E = -9655.098830139\n",
  chars! "   T =  9655.098793530     V =-19310.197623669     V/T =    -2.000000004\n",
  chars! "  ORBITAL ENERGIES AND EXPANSION COEFFICIENTS\n",
  chars! "        S                    1S             2S             3S             4S             5S             6S \n",
  chars! "  BASIS/ORB.ENERGY    -1580.7896409   -252.8612640    -56.5831101    -11.8481335     -1.7393242      -.1675668\n",
  chars! "  1S       79.583280       .0376526       .0111847      -.0043759       .0007878      -.0006554       .0000384\n",
  chars! "  1S       60.106967       .9559125      -.3492519       .1587153      -.0733649       .0286388      -.0072301\n",
  chars! "  2S       49.855683       .0089390      -.2422344       .1220530      -.0619522       .0230076      -.0062736\n",
  chars! "  2S       29.205148       .0016233      1.0321402      -.5114229       .2522198      -.0953906       .0253323\n",
  chars! "  3S       26.715753      -.0010368       .2232796      -.3828191       .1984142      -.0805159       .0199607\n",
  chars! "  3S       16.060435       .0009579       .0220210       .4295021       .2371947      -.1310700       .0408704\n",
  chars! "  3S       13.827036      -.0008066      -.0121807       .8492604     -1.3608166       .6163120      -.1697186\n",
  chars! "  3S        7.090212       .0002632       .0014615       .0445228      1.0041199      -.3517813       .0967379\n",
  chars! "  3S        5.751454      -.0001882      -.0010782      -.0204945       .4147918      -.5863252       .1637899\n",
  chars! "  3S        2.821153       .0000473       .0002550       .0029425       .0079073       .9190020      -.2546519\n",
  chars! "  3S        2.078318      -.0000283      -.0001433      -.0016728      -.0017734       .3631372      -.2247685\n",
  chars! "  3S         .860376       .0000075       .0000364       .0003918       .0003072      -.0023696       .6676054\n",
  chars! "  3S         .620681      -.0000042      -.0000205      -.0002186      -.0001598       .0011947       .4428291\n",
  chars! "        P                    2P             3P             4P             5P \n",
  chars! "  BASIS/ORB.ENERGY     -239.4378704    -50.6317662     -9.4906396     -1.0272096\n",
  chars! "  2P       52.707402       .0147527      -.0051943       .0028290      -.0011446\n",
  chars! "  2P       30.902387       .7884088      -.3862441       .1781089      -.0613855\n",
  chars! "  3P       26.993566       .2253351      -.2912606       .2021721      -.0809755\n",
  chars! "  4P       20.940024       .0180510      -.2464740       .3006727      -.1365237\n",
  chars! "  3P       16.041755      -.0130505      1.1777153      -.8940152       .3700526\n",
  chars! "  3P       11.552711       .0025479       .3245239      -.4860081       .1830755\n",
  chars! "  3P        7.065332      -.0007215       .0011625      1.1177006      -.5101101\n",
  chars! "  4P        5.888728       .0001780       .0010222       .3047514      -.2793934\n",
  chars! "  3P        2.506045      -.0000385      -.0001788       .0096049       .8395816\n",
  chars! "  3P        1.698957       .0000158       .0000670      -.0023172       .3742202\n",
  chars! "        D                    3D             4D \n",
  chars! "  BASIS/ORB.ENERGY      -39.6874080     -5.2871537\n",
  chars! "  3D       37.170325       .0060717      -.0021350\n",
  chars! "  3D       20.912933       .4380676      -.2062821\n",
  chars! "  4D       16.725468       .4860553      -.2297059\n",
  chars! "  4D       11.821550       .1587847      -.1275702\n",
  chars! "  4D        9.400657      -.0044951       .4678161\n",
  chars! "  4D        6.192424       .0019419       .6400471\n",
  chars! "  4D        4.043059      -.0001365       .1212457\n",
  chars! "        F                    4F \n",
  chars! "  BASIS/ORB.ENERGY        -.6282612\n",
  chars! "  4F       18.396071       .0193596\n",
  chars! "  4F       10.595185       .1648643\n",
  chars! "  4F        7.014692       .3278102\n",
  chars! "  4F        4.559395       .3914749\n",
  chars! "  4F        2.824301       .2477985\n",
  chars! "  4F        1.742054       .0628556\n"]⟩

theorem neutral_pm_ok : neutral_pm.ok = true := by decide +kernel

/-- `data/neutral/sm`. -/
noncomputable def neutral_sm : DataFile := ⟨62, .neutral, [
  chars! "      SAMARIUM   [XE]6S(2)5D(0)4F(6), 7F                                              \n",
  chars! "      CHARGE = 62.000000\n",
  chars! "      SYMMETRY SPECIES               S     P     D     F \n",
  chars! "      NUMBER OF BASIS FUNCTIONS     13    10     7     6\n",
  chars! "      NUMBER OF CLOSED SHELLS        6     4     2     0\n",
  chars! "      NUMBER OF OPEN SHELLS          0     0     0     1\n",
  chars! "      OPEN SHELL OCCUPATION NUMBER   0     0     0     6\n",
  chars! "   E =-10034.952404095\n",
  chars! "   T = 10034.952363946     V =-20069.904768040     V/T =    -2.000000004\n",
  chars! "  ORBITAL ENERGIES AND EXPANSION COEFFICIENTS\n",
  chars! "        S                    1S             2S             3S             4S             5S             6S \n",
  chars! "  BASIS/ORB.ENERGY    -1635.2844965   -262.5054173    -58.9329800    -12.2979683     -1.7786280      -.1692897\n",
  chars! "  1S       80.553966       .0387559       .0115616      -.0044441       .0007837      -.0006638       .0000340\n",
  chars! "  1S       61.076422       .9551018      -.3502588       .1594399      -.0738288       .0286847      -.0071665\n",
  chars! "  2S       50.677558       .0085391      -.2423404       .1227711      -.0624809       .0230812      -.0062414\n",
  chars! "  2S       29.587248       .0016798      1.0428324      -.5188718       .2565352      -.0965237       .0254052\n",
  chars! "  3S       27.096630      -.0010909       .2122095      -.3836314       .1991848      -.0804862       .0197176\n",
  chars! "  3S       16.477257       .0009905       .0207848       .4172064       .2350371      -.1288094       .0398236\n",
  chars! "  3S       14.129532      -.0008191      -.0111736       .8680290     -1.3655623       .6145362      -.1675405\n",
  chars! "  3S        7.261204       .0002650       .0013239       .0441635       .9947914      -.3500220       .0955977\n",
  chars! "  3S        5.877176      -.0001879      -.0009784      -.0199835       .4263414      -.5809364       .1600779\n",
  chars! "  3S        2.877709       .0000471       .0002325       .0028620       .0078087       .9002921      -.2453857\n",
  chars! "  3S        2.119230      -.0000281      -.0001298      -.0016202      -.0017186       .3772017      -.2257178\n",
  chars! "  3S         .868757       .0000072       .0000325       .0003727       .0002928      -.0019767       .6681294\n",
  chars! "  3S         .624307      -.0000041      -.0000183      -.0002083      -.0001526       .0010134       .4401656\n",
  chars! "        P                    2P             3P             4P             5P \n",
  chars! "  BASIS/ORB.ENERGY     -248.8171715    -52.8384493     -9.8700384     -1.0471028\n",
  chars! "  2P       54.405756       .0128293      -.0045170       .0025373      -.0010145\n",
  chars! "  2P       31.824093       .7698796      -.3777737       .1745975      -.0597995\n",
  chars! "  3P       27.897446       .2458547      -.2770595       .1892418      -.0740265\n",
  chars! "  4P       21.470139       .0215147      -.1890108       .2602644      -.1167911\n",
  chars! "  3P       16.141744      -.0153342      1.1256312      -.8695162       .3530641\n",
  chars! "  3P       11.669037       .0034048       .2977482      -.4636421       .1747008\n",
  chars! "  3P        7.244475      -.0009285       .0004111      1.1226711      -.5093662\n",
  chars! "  4P        6.017516       .0002346       .0011476       .3081420      -.2753301\n",
  chars! "  3P        2.554320      -.0000502      -.0001809       .0094603       .8271293\n",
  chars! "  3P        1.728467       .0000206       .0000676      -.0022605       .3829636\n",
  chars! "        D                    3D             4D \n",
  chars! "  BASIS/ORB.ENERGY      -41.6310098     -5.5353812\n",
  chars! "  3D       38.244436       .0054904      -.0019121\n",
  chars! "  3D       21.430627       .4333531      -.2050253\n",
  chars! "  4D       17.191602       .4830415      -.2309239\n",
  chars! "  4D       12.265523       .1629644      -.1176802\n",
  chars! "  4D        9.551774      -.0005188       .4670507\n",
  chars! "  4D        6.314693       .0017426       .6332190\n",
  chars! "  4D        4.118198      -.0000812       .1172183\n",
  chars! "        F                    4F \n",
  chars! "  BASIS/ORB.ENERGY        -.6663717\n",
  chars! "  4F       18.738213       .0200298\n",
  chars! "  4F       10.788462       .1755422\n",
  chars! "  4F        7.107954       .3376071\n",
  chars! "  4F        4.631628       .3829486\n",
  chars! "  4F        2.885482       .2371633\n",
  chars! "  4F        1.789754       .0595922\n"]⟩

theorem neutral_sm_ok : neutral_sm.ok = true := by decide +kernel

/-- `data/neutral/eu`. -/
noncomputable def neutral_eu : DataFile := ⟨63, .neutral, [
  chars! "      EUROPIUM   [XE]6S(2)5D(0)4F(7), 8S                                              \n",
  chars! "      CHARGE = 63.000000\n",
  chars! "      SYMMETRY SPECIES               S     P     D     F \n",
  chars! "      NUMBER OF BASIS FUNCTIONS     13    10     7     6\n",
  chars! "      NUMBER OF CLOSED SHELLS        6     4     2     0\n",
  chars! "      NUMBER OF OPEN SHELLS          0     0     0     1\n",
  chars! "      OPEN SHELL OCCUPATION NUMBER   0     0     0     7\n",
  chars! "   E =-10423.542874688\n",
  chars! "   T = 10423.542867402     V =-20847.085742090     V/T =    -2.000000001\n",
  chars! "  ORBITAL ENERGIES AND EXPANSION COEFFICIENTS\n",
  chars! "        S                    1S             2S             3S             4S             5S             6S \n",
  chars! "  BASIS/ORB.ENERGY    -1690.6964952   -272.3157950    -61.3119073    -12.7447150     -1.8159741      -.1709325\n",
  chars! "  1S       81.559162       .0396890       .0119594      -.0045411       .0007967      -.0006835       .0000407\n",
  chars! "  1S       62.048937       .9544307      -.3512656       .1601771      -.0742787       .0287203      -.0071187\n",
  chars! "  2S       51.485471       .0081860      -.2428338       .1236103      -.0630478       .0231432      -.0061940\n",
  chars! "  2S       29.994154       .0017165      1.0520637      -.5254346       .2603338      -.0973770       .0253892\n",
  chars! "  3S       27.481309      -.0011322       .2032609      -.3855261       .2004215      -.0806542       .0196043\n",
  chars! "  3S       16.892730       .0010130       .0193237       .4084007       .2311582      -.1254172       .0382502\n",
  chars! "  3S       14.428066      -.0008238      -.0100344       .8832894     -1.3684340       .6111545      -.1647640\n",
  chars! "  3S        7.444558       .0002645       .0011419       .0437972       .9726206      -.3401159       .0916990\n",
  chars! "  3S        6.018308      -.0001849      -.0008437      -.0193454       .4507848      -.5809316       .1588445\n",
  chars! "  3S        2.917280       .0000451       .0001963       .0026807       .0078115       .9022193      -.2450158\n",
  chars! "  3S        2.138866      -.0000270      -.0001096      -.0015265      -.0017536       .3687225      -.2191528\n",
  chars! "  3S         .880123       .0000071       .0000280       .0003602       .0003050      -.0022276       .6585999\n",
  chars! "  3S         .630366      -.0000040      -.0000157      -.0002005      -.0001583       .0011189       .4488125\n",
  chars! "        P                    2P             3P             4P             5P \n",
  chars! "  BASIS/ORB.ENERGY     -258.3627485    -55.0737731    -10.2461197     -1.0654363\n",
  chars! "  2P       55.791864      -.0117778      -.0041233       .0023670      -.0009353\n",
  chars! "  2P       32.553763      -.7617137      -.3747002       .1735450      -.0590199\n",
  chars! "  3P       28.575313      -.2549446      -.2722306       .1859051      -.0714562\n",
  chars! "  4P       21.951895      -.0223334      -.1611394       .2449422      -.1080914\n",
  chars! "  3P       16.334643       .0155142      1.1079101      -.8751312       .3491886\n",
  chars! "  3P       11.814935      -.0036625       .2797576      -.4421369       .1669613\n",
  chars! "  3P        7.399224       .0010064      -.0000781      1.1289997      -.5100191\n",
  chars! "  4P        6.128648      -.0002539       .0012103       .3050669      -.2681361\n",
  chars! "  3P        2.600679       .0000541      -.0001777       .0091511       .8166134\n",
  chars! "  3P        1.754749      -.0000221       .0000658      -.0021527       .3902818\n",
  chars! "        D                    3D             4D \n",
  chars! "  BASIS/ORB.ENERGY      -43.6025473     -5.7799968\n",
  chars! "  3D       39.027658       .0052766      -.0018367\n",
  chars! "  3D       21.857710       .4336767      -.2060677\n",
  chars! "  4D       17.561048       .4838806      -.2337758\n",
  chars! "  4D       12.522999       .1616225      -.1135126\n",
  chars! "  4D        9.746916      -.0008665       .4720152\n",
  chars! "  4D        6.446731       .0018418       .6290323\n",
  chars! "  4D        4.199686      -.0000649       .1150725\n",
  chars! "        F                    4F \n",
  chars! "  BASIS/ORB.ENERGY        -.7116791\n",
  chars! "  4F       19.096807       .0205530\n",
  chars! "  4F       11.001211       .1846057\n",
  chars! "  4F        7.210563       .3482363\n",
  chars! "  4F        4.694780       .3767843\n",
  chars! "  4F        2.936420       .2258755\n",
  chars! "  4F        1.834357       .0551175\n"]⟩

theorem neutral_eu_ok : neutral_eu.ok = true := by decide +kernel

/-- `data/neutral/gd`. -/
noncomputable def neutral_gd : DataFile := ⟨64, .neutral, [
  chars! "      GADOLINIUM   [XE]6S(2)5D(1)4F(7), 9D                                            \n",
  chars! "      CHARGE = 64.000000\n",
  chars! "      SYMMETRY SPECIES               S     P     D     F \n",
  chars! "      NUMBER OF BASIS FUNCTIONS     13    10     9     6\n",
  chars! "      NUMBER OF CLOSED SHELLS        6     4     2     0\n",
  chars! "      NUMBER OF OPEN SHELLS          0     0     1     1\n",
  chars! "      OPEN SHELL OCCUPATION NUMBER   0     0     1     7\n",
  chars! "   E =-10820.661019091\n",
  chars! "   T = 10820.661050178     V =-21641.322069270     V/T =    -1.999999997\n",
  chars! "  ORBITAL ENERGIES AND EXPANSION COEFFICIENTS\n",
  chars! "        S                    1S             2S             3S             4S             5S             6S \n",
  chars! "  BASIS/ORB.ENERGY    -1747.3347081   -282.6312784    -64.0988222    -13.5307573     -2.0073052      -.1833186\n",
  chars! "  1S       82.305311       .0420691       .0127455      -.0047526       .0008158      -.0006954       .0000720\n",
  chars! "  1S       62.993249       .9525147      -.3529691       .1611296      -.0749927       .0296509      -.0076424\n",
  chars! "  2S       52.253869       .0075650      -.2433260       .1246522      -.0639987       .0241160      -.0065899\n",
  chars! "  2S       30.386501       .0018127      1.0631018      -.5333925       .2658271      -.1019239       .0273059\n",
  chars! "  3S       27.824867      -.0012151       .1928545      -.3878813       .2019952      -.0830467       .0211034\n",
  chars! "  3S       17.377886       .0010492       .0173924       .3944648       .2180020      -.1230900       .0377354\n",
  chars! "  3S       14.723820      -.0008261      -.0084947       .9061253     -1.3635768       .6247937      -.1725984\n",
  chars! "  3S        7.512262       .0002810       .0009599       .0442898      1.0571236      -.3808640       .1024853\n",
  chars! "  3S        6.078866      -.0002049      -.0007538      -.0207889       .3667872      -.5910739       .1735755\n",
  chars! "  3S        3.063994       .0000547       .0001965       .0032025       .0076058       .9236428      -.2672035\n",
  chars! "  3S        2.257096      -.0000322      -.0001073      -.0017757      -.0015560       .3786176      -.2292665\n",
  chars! "  3S         .960339       .0000079       .0000255       .0003860       .0002614      -.0009589       .6108239\n",
  chars! "  3S         .672792      -.0000042      -.0000134      -.0002006      -.0001249       .0005687       .5067429\n",
  chars! "        P                    2P             3P             4P             5P \n",
  chars! "  BASIS/ORB.ENERGY     -268.4077149    -57.7140044    -10.9533733     -1.2123702\n",
  chars! "  2P       57.230537      -.0107638      -.0037609       .0021707      -.0008905\n",
  chars! "  2P       33.299220      -.7530522      -.3712357       .1731237      -.0607787\n",
  chars! "  3P       29.261658      -.2644268      -.2695431       .1816029      -.0726016\n",
  chars! "  4P       22.463074      -.0232697      -.1395232       .2230787      -.1059017\n",
  chars! "  3P       16.519189       .0156807      1.1051456      -.8724022       .3667072\n",
  chars! "  3P       11.855231      -.0040411       .2563903      -.4477478       .1675361\n",
  chars! "  3P        7.661230       .0012300      -.0029274      1.1346508      -.5211082\n",
  chars! "  4P        6.362660      -.0003029       .0017308       .3269394      -.3039613\n",
  chars! "  3P        2.703895       .0000604      -.0002516       .0093536       .8732748\n",
  chars! "  3P        1.822405      -.0000245       .0000884      -.0021750       .3499930\n",
  chars! "        D                    3D             4D             5D \n",
  chars! "  BASIS/ORB.ENERGY      -45.9712902     -6.3339595      -.2872464\n",
  chars! "  3D       39.152619       .0058312      -.0022044       .0007132\n",
  chars! "  3D       21.988128       .4511434      -.2162180       .0525862\n",
  chars! "  4D       17.542793       .5051879      -.2541038       .0679004\n",
  chars! "  4D       11.762997       .1405776      -.0324071      -.0155780\n",
  chars! "  4D        9.278723      -.0234851       .5331148      -.1157790\n",
  chars! "  4D        6.234138       .0048487       .5676620      -.2227439\n",
  chars! "  4D        3.901196      -.0008887       .0610118       .1736178\n",
  chars! "  4D        2.198174       .0002546      -.0017668       .6154078\n",
  chars! "  4D        1.221245      -.0000519       .0005846       .4040166\n",
  chars! "        F                    4F \n",
  chars! "  BASIS/ORB.ENERGY       -1.0434271\n",
  chars! "  4F       19.447696       .0218561\n",
  chars! "  4F       11.191024       .2029585\n",
  chars! "  4F        7.273950       .3742865\n",
  chars! "  4F        4.772530       .3664927\n",
  chars! "  4F        3.057018       .1923501\n",
  chars! "  4F        1.968402       .0339587\n"]⟩

theorem neutral_gd_ok : neutral_gd.ok = true := by decide +kernel

/-- `data/neutral/tb`. -/
noncomputable def neutral_tb : DataFile := ⟨65, .neutral, [
  chars! "      TERBIUM   [XE]6S(2)5D(0)4F(9), 6H                                               \n",
  chars! "      CHARGE = 65.000000\n",
  chars! "      SYMMETRY SPECIES               S     P     D     F \n",
  chars! "      NUMBER OF BASIS FUNCTIONS     13    10     7     6\n",
  chars! "      NUMBER OF CLOSED SHELLS        6     4     2     0\n",
  chars! "      NUMBER OF OPEN SHELLS          0     0     0     1\n",
  chars! "      OPEN SHELL OCCUPATION NUMBER   0     0     0     9\n",
  chars! "   E =-11226.568217318\n",
  chars! "   T = 11226.568261475     V =-22453.136478793     V/T =    -1.999999996\n",
  chars! "  ORBITAL ENERGIES AND EXPANSION COEFFICIENTS\n",
  chars! "        S                    1S             2S             3S             4S             5S             6S \n",
  chars! "  BASIS/ORB.ENERGY    -1804.3426848   -292.5130828    -66.2426870    -13.6939524     -1.9011971      -.1744565\n",
  chars! "  1S       82.955621       .0452054       .0136258      -.0050593       .0009068      -.0007520       .0000358\n",
  chars! "  1S       63.922571       .9499453      -.3548982       .1622609      -.0753986       .0289568      -.0070193\n",
  chars! "  2S       53.013606       .0067962      -.2438222       .1254358      -.0643232       .0234413      -.0061792\n",
  chars! "  2S       30.826568       .0019517      1.0702648      -.5386782       .2681317      -.0995665       .0255178\n",
  chars! "  3S       28.227966      -.0013129       .1867396      -.3907340       .2034375      -.0812468       .0192677\n",
  chars! "  3S       17.761599       .0011244       .0163019       .3943828       .2148288      -.1166801       .0352488\n",
  chars! "  3S       15.016489      -.0008721      -.0077514       .9117981     -1.3650382       .6043303      -.1598223\n",
  chars! "  3S        7.765122       .0002783       .0008069       .0428487       .9739416      -.3466537       .0922544\n",
  chars! "  3S        6.248189      -.0001927      -.0006163      -.0184814       .4528382      -.5667808       .1509373\n",
  chars! "  3S        3.045055       .0000474       .0001480       .0026016       .0076038       .8621931      -.2266379\n",
  chars! "  3S        2.229203      -.0000278      -.0000800      -.0014516      -.0015951       .4046273      -.2229462\n",
  chars! "  3S         .897151       .0000071       .0000197       .0003282       .0002707      -.0015104       .6582115\n",
  chars! "  3S         .638579      -.0000040      -.0000111      -.0001840      -.0001415       .0008117       .4448412\n",
  chars! "        P                    2P             3P             4P             5P \n",
  chars! "  BASIS/ORB.ENERGY     -278.0292535    -59.7155423    -11.0511513     -1.1094653\n",
  chars! "  2P       58.126052      -.0106348      -.0036890       .0021731      -.0008451\n",
  chars! "  2P       33.821695      -.7549762      -.3733774       .1737835      -.0585001\n",
  chars! "  3P       29.746277      -.2623843      -.2685920       .1845775      -.0693617\n",
  chars! "  4P       22.877678      -.0224033      -.1312788       .2302509      -.0989059\n",
  chars! "  3P       16.799271       .0148464      1.1033909      -.9025598       .3513294\n",
  chars! "  3P       12.072159      -.0037819       .2498091      -.4113325       .1567666\n",
  chars! "  3P        7.731577       .0011143      -.0021355      1.1412611      -.5125455\n",
  chars! "  4P        6.372903      -.0002743       .0015753       .3045854      -.2594673\n",
  chars! "  3P        2.702424       .0000575      -.0002137       .0088570       .7981467\n",
  chars! "  3P        1.813396      -.0000232       .0000794      -.0020157       .4043243\n",
  chars! "        D                    3D             4D \n",
  chars! "  BASIS/ORB.ENERGY      -47.7132289     -6.3159237\n",
  chars! "  3D       40.387469       .0050433      -.0017594\n",
  chars! "  3D       22.687984       .4351764      -.2086718\n",
  chars! "  4D       18.290794       .4843027      -.2387275\n",
  chars! "  4D       13.044187       .1588657      -.1056786\n",
  chars! "  4D       10.138627      -.0012129       .4812813\n",
  chars! "  4D        6.712861       .0019648       .6223791\n",
  chars! "  4D        4.356704      -.0000206       .1096804\n",
  chars! "        F                    4F \n",
  chars! "  BASIS/ORB.ENERGY        -.6953593\n",
  chars! "  4F       19.867646       .0209293\n",
  chars! "  4F       11.479325       .1976790\n",
  chars! "  4F        7.441491       .3669672\n",
  chars! "  4F        4.767002       .3710036\n",
  chars! "  4F        2.941008       .2112048\n",
  chars! "  4F        1.819700       .0497230\n"]⟩

theorem neutral_tb_ok : neutral_tb.ok = true := by decide +kernel

/-- `data/neutral/dy`. -/
noncomputable def neutral_dy : DataFile := ⟨66, .neutral, [
  chars! "      DYSPROSIUM   [XE]6S(2)5D(0)4F(10), 5I                                           \n",
  chars! "      CHARGE = 66.000000\n",
  chars! "      SYMMETRY SPECIES               S     P     D     F \n",
  chars! "      NUMBER OF BASIS FUNCTIONS     13    10     7     6\n",
  chars! "      NUMBER OF CLOSED SHELLS        6     4     2     0\n",
  chars! "      NUMBER OF OPEN SHELLS          0     0     0     1\n",
  chars! "      OPEN SHELL OCCUPATION NUMBER   0     0     0    10\n",
  chars! "   E =-11641.452434124\n",
  chars! "   T = 11641.452478555     V =-23282.904912679     V/T =    -1.999999996\n",
  chars! "  ORBITAL ENERGIES AND EXPANSION COEFFICIENTS\n",
  chars! "        S                    1S             2S             3S             4S             5S             6S \n",
  chars! "  BASIS/ORB.ENERGY    -1862.5443301   -302.8642404    -68.7556452    -14.1667643     -1.9414017     -0.1761101\n",
  chars! "  1S       84.058350      0.0456124      0.0138031     -0.0051222      0.0009207     -0.0007742      0.0000434\n",
  chars! "  1S       64.905516      0.9496808     -0.3554674      0.1628540     -0.0757814      0.0290014     -0.0069760\n",
  chars! "  2S       53.852289      0.0065964     -0.2440576      0.1258387     -0.0646217      0.0234188     -0.0061130\n",
  chars! "  2S       31.254498      0.0019682      1.0763439     -0.5428898      0.2706353     -0.1000013      0.0253974\n",
  chars! "  3S       28.652782     -0.0013408      0.1804221     -0.3929768      0.2048257     -0.0815748      0.0192024\n",
  chars! "  3S       18.158666      0.0011406      0.0159297      0.3862794      0.2174741     -0.1164825      0.0346744\n",
  chars! "  3S       15.320686     -0.0008745     -0.0074477      0.9245936     -1.3728822      0.6039473     -0.1580676\n",
  chars! "  3S        7.950956      0.0002767      0.0007724      0.0431967      0.9482582     -0.3328408      0.0875092\n",
  chars! "  3S        6.399325     -0.0001893     -0.0005872     -0.0183353      0.4800065     -0.5720507      0.1512232\n",
  chars! "  3S        3.084138      0.0000450      0.0001371      0.0024917      0.0078998      0.8671143     -0.2273023\n",
  chars! "  3S        2.248827     -0.0000266     -0.0000745     -0.0014010     -0.0017609      0.3940960     -0.2162505\n",
  chars! "  3S        0.909579      0.0000069      0.0000188      0.0003255      0.0003075     -0.0017677      0.6464777\n",
  chars! "  3S        0.645319     -0.0000039     -0.0000106     -0.0001816     -0.0001606      0.0009200      0.4559743\n",
  chars! "        P                    2P             3P             4P             5P \n",
  chars! "  BASIS/ORB.ENERGY     -288.1150444    -62.0833081    -11.4513485     -1.1295075\n",
  chars! "  2P       59.112075     -0.0104042     -0.0036024      0.0021261     -0.0008202\n",
  chars! "  2P       34.352966     -0.7565815     -0.3751913      0.1750186     -0.0585701\n",
  chars! "  3P       30.233389     -0.2607540     -0.2694833      0.1867129     -0.0694616\n",
  chars! "  4P       23.326779     -0.0214832     -0.1283118      0.2316143     -0.0976878\n",
  chars! "  3P       17.106021      0.0138536      1.1055833     -0.9162493      0.3520368\n",
  chars! "  3P       12.284446     -0.0035127      0.2464471     -0.4015155      0.1541107\n",
  chars! "  3P        7.875620      0.0010424     -0.0022252      1.1447599     -0.5132046\n",
  chars! "  4P        6.482252     -0.0002533      0.0015820      0.3002177     -0.2526782\n",
  chars! "  3P        2.749806      0.0000528     -0.0002079      0.0086526      0.7902752\n",
  chars! "  3P        1.839803     -0.0000212      0.0000770     -0.0019415      0.4098413\n",
  chars! "        D                    3D             4D \n",
  chars! "  BASIS/ORB.ENERGY      -49.8142164     -6.5807502\n",
  chars! "  3D       41.304364      0.0047386     -0.0016462\n",
  chars! "  3D       23.145620      0.4338284     -0.2087639\n",
  chars! "  4D       18.693305      0.4838213     -0.2407385\n",
  chars! "  4D       13.360685      0.1597852     -0.1008913\n",
  chars! "  4D       10.318990     -0.0004311      0.4844709\n",
  chars! "  4D        6.838979      0.0019629      0.6180159\n",
  chars! "  4D        4.431722      0.0000036      0.1070867\n",
  chars! "        F                    4F \n",
  chars! "  BASIS/ORB.ENERGY       -0.7031937\n",
  chars! "  4F       20.228223      0.0212461\n",
  chars! "  4F       11.715340      0.2033083\n",
  chars! "  4F        7.580714      0.3708166\n",
  chars! "  4F        4.847854      0.3668227\n",
  chars! "  4F        2.987440      0.2073854\n",
  chars! "  4F        1.843671      0.0494468\n"]⟩

theorem neutral_dy_ok : neutral_dy.ok = true := by decide +kernel

/-- `data/neutral/ho`. -/
noncomputable def neutral_ho : DataFile := ⟨67, .neutral, [
  chars! "      HOLMIUM   [XE]6S(2)5D(0)4F(11), 4I                                              \n",
  chars! "      CHARGE = 67.000000\n",
  chars! "      SYMMETRY SPECIES               S     P     D     F \n",
  chars! "      NUMBER OF BASIS FUNCTIONS     13    10     7     6\n",
  chars! "      NUMBER OF CLOSED SHELLS        6     4     2     0\n",
  chars! "      NUMBER OF OPEN SHELLS          0     0     0     1\n",
  chars! "      OPEN SHELL OCCUPATION NUMBER   0     0     0    11\n",
  chars! "   E =-12065.289636642\n",
  chars! "   T = 12065.289643677     V =-24130.579280319     V/T =    -1.999999999\n",
  chars! "  ORBITAL ENERGIES AND EXPANSION COEFFICIENTS\n",
  chars! "        S                    1S             2S             3S             4S             5S             6S \n",
  chars! "  BASIS/ORB.ENERGY    -1921.6715752   -313.3909892    -71.3083822    -14.6444545     -1.9815595      -.1777417\n",
  chars! "  1S       84.799047       .0483583       .0146698      -.0053234       .0009448      -.0007785       .0000274\n",
  chars! "  1S       65.843872       .9473867      -.3572651       .1637502      -.0762302       .0290376      -.0069061\n",
  chars! "  2S       54.615194       .0059912      -.2445157       .1269166      -.0653208       .0236160      -.0061358\n",
  chars! "  2S       31.642320       .0020644      1.0873835      -.5509785       .2751828      -.1013500       .0255711\n",
  chars! "  3S       28.972112      -.0014304       .1700867      -.3967369       .2066239      -.0817966       .0189805\n",
  chars! "  3S       18.655894       .0011756       .0140956       .3865806       .1935223      -.1057265       .0317524\n",
  chars! "  3S       15.595011      -.0008685      -.0060929       .9349763     -1.3552079       .5939760      -.1543042\n",
  chars! "  3S        8.081194       .0002780       .0005810       .0415528       .9751924      -.3528306       .0925957\n",
  chars! "  3S        6.468844      -.0001905      -.0004634      -.0174159       .4539978      -.5509131       .1434569\n",
  chars! "  3S        3.164079       .0000472       .0001153       .0024777       .0072734       .8306542      -.2126818\n",
  chars! "  3S        2.308228      -.0000272      -.0000605      -.0013585      -.0014130       .4313372      -.2242576\n",
  chars! "  3S         .914799       .0000068       .0000146       .0002998       .0002387      -.0009608       .6537366\n",
  chars! "  3S         .647160      -.0000039      -.0000083      -.0001686      -.0001250       .0005702       .4460854\n",
  chars! "        P                    2P             3P             4P             5P \n",
  chars! "  BASIS/ORB.ENERGY     -298.3763184    -64.4903355    -11.8558629     -1.1493828\n",
  chars! "  2P       60.023728      -.0102617      -.0035312       .0021014      -.0008060\n",
  chars! "  2P       34.882305      -.7580560      -.3769851       .1761713      -.0586073\n",
  chars! "  3P       30.725141      -.2591686      -.2691004       .1878514      -.0694273\n",
  chars! "  4P       23.756830      -.0208891      -.1227144       .2306072      -.0965567\n",
  chars! "  3P       17.381020       .0132584      1.1111100      -.9323641       .3557015\n",
  chars! "  3P       12.417609      -.0034159       .2370956      -.3936912       .1506828\n",
  chars! "  3P        8.055475       .0010577      -.0035498      1.1471586      -.5109746\n",
  chars! "  4P        6.614935      -.0002506       .0018335       .3051253      -.2509516\n",
  chars! "  3P        2.795860       .0000515      -.0002393       .0086517       .7824373\n",
  chars! "  3P        1.865851      -.0000207       .0000896      -.0019296       .4148456\n",
  chars! "        D                    3D             4D \n",
  chars! "  BASIS/ORB.ENERGY      -51.9534907     -6.8488198\n",
  chars! "  3D       42.149351       .0045106      -.0015664\n",
  chars! "  3D       23.588381       .4332153      -.2091486\n",
  chars! "  4D       19.082168       .4836694      -.2429797\n",
  chars! "  4D       13.653646       .1599460      -.0949831\n",
  chars! "  4D       10.485149      -.0000752       .4890742\n",
  chars! "  4D        6.956310       .0019829       .6125045\n",
  chars! "  4D        4.500166       .0000215       .1037768\n",
  chars! "        F                    4F \n",
  chars! "  BASIS/ORB.ENERGY        -.7085302\n",
  chars! "  4F       20.613942       .0213636\n",
  chars! "  4F       11.971861       .2073761\n",
  chars! "  4F        7.727813       .3760613\n",
  chars! "  4F        4.914573       .3657866\n",
  chars! "  4F        3.010806       .2027725\n",
  chars! "  4F        1.850632       .0472901\n"]⟩

theorem neutral_ho_ok : neutral_ho.ok = true := by decide +kernel

/-- Part 4 of the files. -/
noncomputable def part4 : List DataFile := [
  neutral_la, neutral_ce, neutral_pr, neutral_nd, neutral_pm, neutral_sm, neutral_eu, neutral_gd, neutral_tb, neutral_dy, neutral_ho]

theorem part4_ok : ∀ d ∈ part4, d.ok = true := by
  intro d hd
  unfold part4 at hd
  simp only [List.mem_cons, List.not_mem_nil, or_false] at hd
  rcases hd with rfl | rfl | rfl | rfl | rfl | rfl | rfl | rfl | rfl | rfl | rfl
  · exact neutral_la_ok
  · exact neutral_ce_ok
  · exact neutral_pr_ok
  · exact neutral_nd_ok
  · exact neutral_pm_ok
  · exact neutral_sm_ok
  · exact neutral_eu_ok
  · exact neutral_gd_ok
  · exact neutral_tb_ok
  · exact neutral_dy_ok
  · exact neutral_ho_ok

end BFit.Data
