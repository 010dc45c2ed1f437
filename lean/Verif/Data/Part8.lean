import Verif.Lemmas.DataNum

/-! Copy of files in /repo/bfit/data/data.tar, generated by tools/gendata.py. -/

namespace BFit.Data

/-- `data/neutral/bk`. -/
noncomputable def neutral_bk : DataFile := ⟨97, .neutral, [
  chars! "      BERKELIUM   [RN]7S(2)6D(1)5F(8), 8H                                             \n",
  chars! "      CHARGE = 97.000000\n",
  chars! "      SYMMETRY SPECIES               S     P     D     F \n",
  chars! "      NUMBER OF BASIS FUNCTIONS     15    12    11     8\n",
  chars! "      NUMBER OF CLOSED SHELLS        7     5     3     1\n",
  chars! "      NUMBER OF OPEN SHELLS          0     0     1     1\n",
  chars! "      OPEN SHELL OCCUPATION NUMBER   0     0     1     8\n",
  chars! "   E =-29099.831394080\n",
  chars! "   T = 29099.831194369     V =-58199.662588449     V/T =    -2.000000007\n",
  chars! "  ORBITAL ENERGIES AND EXPANSION COEFFICIENTS\n",
  chars! "        S                    1S             2S             3S             4S             5S             6S             7S \n",
  chars! "  BASIS/ORB.ENERGY    -4147.5804679   -734.0871413   -191.1447862    -51.2004471    -11.9379224     -1.8650855      -.1738481\n",
  chars! "  1S      110.699843       .1457679       .0394389      -.0111785       .0063240      -.0054226       .0019958      -.0007173\n",
  chars! "  1S       93.919675       .8569284      -.4013003       .1842221      -.0972803       .0519146      -.0212320       .0058624\n",
  chars! "  2S       77.746438      -.0035086      -.2556131       .1462231      -.0771630       .0363682      -.0153755       .0038612\n",
  chars! "  2S       45.481241       .0034974      1.1943747      -.6458938       .3415480      -.1674477       .0700279      -.0181513\n",
  chars! "  3S       40.473190      -.0029511       .0895413      -.5385884       .3576288      -.2058191       .0855049      -.0237393\n",
  chars! "  3S       28.589737       .0029067      -.0027239       .9161492      -.2881508       .1604951      -.0607443       .0193666\n",
  chars! "  3S       22.356593      -.0022621       .0018006       .6236080     -1.3597697       .7460039      -.3235534       .0808033\n",
  chars! "  4S       13.102682      -.0009572       .0007151       .0035950       .0873811      -.8886224       .4972771      -.1460761\n",
  chars! "  3S       13.101116       .0013806      -.0012552      -.0015996      1.5847192      -.9085497       .3929104      -.0976081\n",
  chars! "  3S        6.776123       .0004128      -.0001742      -.0026680       .0365353      1.3133997      -.5347427       .1541836\n",
  chars! "  3S        5.561570      -.0002742       .0001204       .0015315      -.0126901       .4141148      -.7777131       .2246120\n",
  chars! "  3S        2.835207       .0000565      -.0000251      -.0002681       .0007651       .0077828      1.0483251      -.2974203\n",
  chars! "  3S        2.098815      -.0000313       .0000132       .0001542      -.0003906      -.0015242       .3346769      -.2491092\n",
  chars! "  3S         .910937       .0000073      -.0000031      -.0000355       .0000560       .0002501      -.0020504       .6123837\n",
  chars! "  3S         .649692      -.0000039       .0000016       .0000186      -.0000269      -.0001204       .0010264       .5156076\n",
  chars! "        P                    2P             3P             4P             5P             6P \n",
  chars! "  BASIS/ORB.ENERGY     -710.7535667   -179.6053034    -45.7104206     -9.6496508     -1.1384830\n",
  chars! "  2P       93.295612      -.0043066      -.0014050       .0004688      -.0001218       .0000907\n",
  chars! "  2P       52.603107      -.7290202      -.3795963       .2004933      -.0988946       .0375163\n",
  chars! "  3P       47.296425      -.2770461      -.2494507       .1368775      -.0652655       .0258156\n",
  chars! "  3P       29.420392      -.0430827       .5373019      -.2959189       .1518435      -.0583176\n",
  chars! "  4P       29.414711       .0260676       .4278123      -.3974160       .2528225      -.0924686\n",
  chars! "  4P       16.415002       .0152188      -.3421105      1.0753345      -.3072139       .1396928\n",
  chars! "  3P       15.073667      -.0181468       .5623898     -1.0493721       .9351706      -.4300417\n",
  chars! "  3P       11.874683      -.0030618       .0089462      1.0134902     -1.9160768       .8512364\n",
  chars! "  3P        6.802757       .0006412      -.0027647       .0247082       .8914367      -.2775313\n",
  chars! "  3P        5.389001      -.0003229       .0011281      -.0059049       .7382556      -.7538785\n",
  chars! "  3P        2.469651       .0000355      -.0001046       .0003336       .0098753       .9925248\n",
  chars! "  3P        1.672196      -.0000144       .0000414      -.0001312      -.0022330       .2835106\n",
  chars! "        D                    3D             4D             5D             6D \n",
  chars! "  BASIS/ORB.ENERGY     -158.3158506    -35.5248392     -5.5699323      -.2834111\n",
  chars! "  3D       64.293214       .0020207      -.0007475       .0004090      -.0000349\n",
  chars! "  3D       36.233835       .4361436      -.2483343       .1141664      -.0310459\n",
  chars! "  4D       30.164001       .4958913      -.3240069       .1591904      -.0412544\n",
  chars! "  4D       20.837165       .1604699       .0106592      -.0397578       .0027386\n",
  chars! "  4D       15.686011      -.0355344       .6308654      -.2756870       .0989814\n",
  chars! "  4D       12.214648       .0145153       .4628888      -.5355496       .1275632\n",
  chars! "  4D        8.219944      -.0034852       .0351893       .5357972      -.1340026\n",
  chars! "  4D        5.676054       .0011502      -.0040579       .7249167      -.3339863\n",
  chars! "  4D        3.664204      -.0003344       .0009485       .0833506       .1442840\n",
  chars! "  4D        2.075910       .0000845      -.0002289      -.0013088       .6443847\n",
  chars! "  4D        1.176063      -.0000239       .0000564       .0003197       .4067204\n",
  chars! "        F                    4F             5F \n",
  chars! "  BASIS/ORB.ENERGY      -21.3166475      -.9885219\n",
  chars! "  4F       34.300865       .0164484      -.0056095\n",
  chars! "  4F       21.309989       .2589570      -.1037726\n",
  chars! "  4F       13.913638       .5839797      -.2079473\n",
  chars! "  5F        8.985940      -.1352509       .2528897\n",
  chars! "  4F        8.603271       .3500958      -.1545272\n",
  chars! "  4F        5.070205       .0028374       .5710814\n",
  chars! "  4F        3.182839      -.0003389       .3592487\n",
  chars! "  4F        2.022226       .0001078       .0772493\n"]⟩

theorem neutral_bk_ok : neutral_bk.ok = true := by decide +kernel

/-- `data/neutral/cf`. -/
noncomputable def neutral_cf : DataFile := ⟨98, .neutral, [
  chars! "      CALIFORNIUM   [RN]7S(2)5F(10), 5I                                               \n",
  chars! "      CHARGE = 98.000000\n",
  chars! "      SYMMETRY SPECIES               S     P     D     F \n",
  chars! "      NUMBER OF BASIS FUNCTIONS     15    12     9     8\n",
  chars! "      NUMBER OF CLOSED SHELLS        7     5     3     1\n",
  chars! "      NUMBER OF OPEN SHELLS          0     0     0     1\n",
  chars! "      OPEN SHELL OCCUPATION NUMBER   0     0     0    10\n",
  chars! "   E =-29817.418706498\n",
  chars! "   T = 29817.418749675     V =-59634.837456173     V/T =    -1.999999999\n",
  chars! " \n",
  chars! "  ORBITAL ENERGIES AND EXPANSION COEFFICIENTS\n",
  chars! "        S                    1S             2S             3S             4S             5S             6S             7S \n",
  chars! "  BASIS/ORB.ENERGY    -4236.3515326   -751.0610407   -195.9701005    -52.5317934    -12.0761628     -1.7698462     -0.1655266\n",
  chars! "  1S      111.875922      0.1438653      0.0393326     -0.0111501      0.0064546     -0.0055045      0.0019724     -0.0007332\n",
  chars! "  1S       94.929823      0.8587662     -0.4011032      0.1843192     -0.0977235      0.0522586     -0.0208203      0.0055153\n",
  chars! "  2S       78.603768     -0.0034235     -0.2558131      0.1463017     -0.0771950      0.0364529     -0.0150197      0.0034926\n",
  chars! "  2S       45.933619      0.0034641      1.1961259     -0.6469928      0.3424971     -0.1682442      0.0685613     -0.0166608\n",
  chars! "  3S       40.930233     -0.0029303      0.0871355     -0.5390839      0.3606379     -0.2082502      0.0843203     -0.0224730\n",
  chars! "  3S       28.869705      0.0028988     -0.0020908      0.9304552     -0.3026099      0.1705347     -0.0635043      0.0201323\n",
  chars! "  3S       22.532170     -0.0023015      0.0014621      0.6127751     -1.3660880      0.7443860     -0.3136633      0.0719339\n",
  chars! "  4S       13.352997     -0.0009869      0.0006103      0.0056422      0.1076020     -0.9306212      0.5065497     -0.1430550\n",
  chars! "  3S       13.352629      0.0014403     -0.0011101     -0.0056517      1.5805752     -0.8870488      0.3711586     -0.0842184\n",
  chars! "  3S        7.005320      0.0003938     -0.0001229     -0.0028968      0.0366072      1.2037579     -0.4956960      0.1431913\n",
  chars! "  3S        5.716672     -0.0002457      0.0000820      0.0015487     -0.0112758      0.5363006     -0.7517861      0.1931930\n",
  chars! "  3S        2.804739      0.0000456     -0.0000157     -0.0002425      0.0005881      0.0077201      0.9885804     -0.2510578\n",
  chars! "  3S        2.067300     -0.0000255      0.0000081      0.0001399     -0.0003124     -0.0015564      0.3484117     -0.2392202\n",
  chars! "  3S        0.845180      0.0000062     -0.0000019     -0.0000332      0.0000466      0.0002524     -0.0029144      0.6842411\n",
  chars! "  3S        0.612276     -0.0000035      0.0000011      0.0000188     -0.0000246     -0.0001332      0.0014694      0.4275269\n",
  chars! "        P                    2P             3P             4P             5P             6P \n",
  chars! "  BASIS/ORB.ENERGY     -727.4485197   -184.2665299    -46.9434955     -9.7419391     -1.0474086\n",
  chars! "  2P       94.276359     -0.0042445     -0.0013877      0.0004708     -0.0001242      0.0000845\n",
  chars! "  2P       53.232647     -0.7269172     -0.3788920      0.2006187     -0.0991731      0.0363127\n",
  chars! "  3P       47.902836     -0.2783860     -0.2489153      0.1369209     -0.0654102      0.0248770\n",
  chars! "  3P       29.893329     -0.0445325      0.5186532     -0.2822518      0.1448658     -0.0537443\n",
  chars! "  4P       29.884412      0.0268499      0.4355608     -0.3979065      0.2530579     -0.0900228\n",
  chars! "  4P       16.680927      0.0159588     -0.3636972      1.1096284     -0.3204079      0.1333142\n",
  chars! "  3P       15.262992     -0.0190442      0.5954029     -1.1389670      1.0245052     -0.4521538\n",
  chars! "  3P       12.121953     -0.0030802      0.0055279      1.0553365     -1.9965948      0.8671024\n",
  chars! "  3P        6.992505      0.0006142     -0.0025242      0.0256213      0.8855063     -0.3080866\n",
  chars! "  3P        5.450385     -0.0002911      0.0009541     -0.0053179      0.7550227     -0.6731104\n",
  chars! "  3P        2.459366      0.0000338     -0.0000972      0.0003535      0.0101604      0.9096380\n",
  chars! "  3P        1.676074     -0.0000143      0.0000399     -0.0001403     -0.0023664      0.3369377\n",
  chars! "        D                    3D             4D             5D \n",
  chars! "  BASIS/ORB.ENERGY     -162.6732604    -36.5707736     -5.5837818\n",
  chars! "  3D       65.304989      0.0019301     -0.0007068      0.0004005\n",
  chars! "  3D       36.639006      0.4369901     -0.2497374      0.1150118\n",
  chars! "  4D       30.509173      0.4968820     -0.3265685      0.1612201\n",
  chars! "  4D       21.007637      0.1596459      0.0203560     -0.0484321\n",
  chars! "  4D       15.708765     -0.0390571      0.6629813     -0.2718837\n",
  chars! "  4D       12.348554      0.0177828      0.4160922     -0.5790154\n",
  chars! "  4D        8.848061     -0.0043631      0.0401529      0.4944454\n",
  chars! "  4D        5.968833      0.0008966     -0.0015168      0.7769690\n",
  chars! "  4D        3.898454     -0.0001758      0.0003440      0.1191100\n",
  chars! "        F                    4F             5F \n",
  chars! "  BASIS/ORB.ENERGY      -22.0913840     -0.8067307\n",
  chars! "  4F       34.834611      0.0159877     -0.0053753\n",
  chars! "  4F       21.648291      0.2584705     -0.1029228\n",
  chars! "  4F       14.121613      0.5923681     -0.2066520\n",
  chars! "  5F        9.268811     -0.0682969      0.2367190\n",
  chars! "  4F        9.107124      0.2771927     -0.1375522\n",
  chars! "  4F        5.183159      0.0034340      0.5589028\n",
  chars! "  4F        3.200821     -0.0002859      0.3656115\n",
  chars! "  4F        1.986833      0.0001446      0.0954020\n",
  chars! " \n"]⟩

theorem neutral_cf_ok : neutral_cf.ok = true := by decide +kernel

/-- `data/neutral/es`. -/
noncomputable def neutral_es : DataFile := ⟨99, .neutral, [
  chars! "      EINSTEINIUM   [RN]7S(2)5F(11), 4I                                               \n",
  chars! "      CHARGE = 99.000000\n",
  chars! "      SYMMETRY SPECIES               S     P     D     F \n",
  chars! "      NUMBER OF BASIS FUNCTIONS     15    12     9     8\n",
  chars! "      NUMBER OF CLOSED SHELLS        7     5     3     1\n",
  chars! "      NUMBER OF OPEN SHELLS          0     0     0     1\n",
  chars! "      OPEN SHELL OCCUPATION NUMBER   0     0     0    11\n",
  chars! "   E =-30544.971971799\n",
  chars! "   T = 30544.972073537     V =-61089.944045336     V/T =    -1.999999997\n",
  chars! "  ORBITAL ENERGIES AND EXPANSION COEFFICIENTS\n",
  chars! "        S                    1S             2S             3S             4S             5S             6S             7S \n",
  chars! "  BASIS/ORB.ENERGY    -4326.2948981   -768.4708999   -201.1061530    -54.1255716    -12.4468358     -1.8006082      -.1668187\n",
  chars! "  1S      113.057181       .1419005       .0395710      -.0113946       .0066097      -.0056652       .0020331      -.0007459\n",
  chars! "  1S       95.941596       .8606608      -.4013389       .1847590      -.0981965       .0527739      -.0209549       .0055085\n",
  chars! "  2S       79.416372      -.0033386      -.2565251       .1465841      -.0774860       .0366503      -.0150389       .0034642\n",
  chars! "  2S       46.420884       .0034388      1.1969701      -.6474645       .3434268      -.1691562       .0686639      -.0165407\n",
  chars! "  3S       41.383502      -.0029247       .0868766      -.5418164       .3636321      -.2114515       .0853726      -.0225860\n",
  chars! "  3S       29.196911       .0029161      -.0023335       .9361168      -.3069887       .1772964      -.0663777       .0208296\n",
  chars! "  3S       22.759322      -.0023532       .0016611       .6112334     -1.3770720       .7416387      -.3099981       .0700393\n",
  chars! "  4S       13.642658      -.0010049       .0006804       .0070614       .1504028      -.9850523       .5323505      -.1485996\n",
  chars! "  3S       13.642655       .0014981      -.0012383      -.0086374      1.5506589      -.8375474       .3447785      -.0763100\n",
  chars! "  3S        7.115866       .0003853      -.0001415      -.0030833       .0383352      1.2031217      -.5005692       .1434700\n",
  chars! "  3S        5.812747      -.0002411       .0000941       .0016558      -.0121244       .5367645      -.7404148       .1879379\n",
  chars! "  3S        2.845530       .0000442      -.0000177      -.0002550       .0006924       .0080291       .9771131      -.2447455\n",
  chars! "  3S        2.094916      -.0000246       .0000093       .0001462      -.0003664      -.0017032       .3554018      -.2386982\n",
  chars! "  3S         .852686       .0000059      -.0000022      -.0000345       .0000591       .0002810      -.0028443       .6792990\n",
  chars! "  3S         .616339      -.0000034       .0000012       .0000196      -.0000317      -.0001493       .0014407       .4309606\n",
  chars! "        P                    2P             3P             4P             5P             6P \n",
  chars! "  BASIS/ORB.ENERGY     -744.5766531   -189.2372810    -48.4384707    -10.0610227     -1.0633203\n",
  chars! "  2P       94.620539      -.0044414      -.0014721       .0005254      -.0001269       .0000792\n",
  chars! "  2P       53.578603      -.7337124      -.3829110       .2032428      -.1009905       .0368073\n",
  chars! "  3P       48.286953      -.2705810      -.2480581       .1371068      -.0651127       .0245227\n",
  chars! "  3P       32.337911      -.0365660       .4178846      -.2225241       .1160215      -.0430135\n",
  chars! "  4P       30.388793       .0168048       .5523292      -.4516253       .2882260      -.1038199\n",
  chars! "  4P       17.224036       .0086423      -.1879467       .8087502      -.0644447       .0146462\n",
  chars! "  3P       17.059945      -.0107908       .3977531      -.8503501       .6991868      -.3046647\n",
  chars! "  3P       12.319790      -.0030559       .0344945      1.0342001     -1.9074558       .8314537\n",
  chars! "  3P        7.027037       .0005189      -.0044386       .0271219       .9320064      -.3420493\n",
  chars! "  3P        5.502393      -.0002523       .0017874      -.0062903       .7016593      -.6343600\n",
  chars! "  3P        2.501660       .0000293      -.0001801       .0004387       .0099792       .8955315\n",
  chars! "  3P        1.703475      -.0000122       .0000732      -.0001717      -.0023136       .3496188\n",
  chars! "        D                    3D             4D             5D \n",
  chars! "  BASIS/ORB.ENERGY     -167.3375445    -37.8776539     -5.8072332\n",
  chars! "  3D       66.137520       .0018474      -.0006711       .0003903\n",
  chars! "  3D       37.115763       .4349363      -.2494555       .1155788\n",
  chars! "  4D       30.941761       .4959896      -.3273611       .1628010\n",
  chars! "  4D       21.376642       .1622752       .0130083      -.0452600\n",
  chars! "  4D       15.949616      -.0391932       .6679902      -.2700131\n",
  chars! "  4D       12.583516       .0183807       .4138067      -.6009865\n",
  chars! "  4D        9.109259      -.0045622       .0430046       .4940577\n",
  chars! "  4D        6.116274       .0008746      -.0012679       .7867131\n",
  chars! "  4D        3.995607      -.0001735       .0003459       .1234768\n",
  chars! "        F                    4F             5F \n",
  chars! "  BASIS/ORB.ENERGY      -23.1249339      -.8430270\n",
  chars! "  4F       35.378820       .0154794      -.0052708\n",
  chars! "  4F       22.011322       .2560824      -.1036081\n",
  chars! "  4F       14.373323       .5962524      -.2119565\n",
  chars! "  5F        9.446536      -.0697409       .2471170\n",
  chars! "  4F        9.271063       .2762219      -.1395023\n",
  chars! "  4F        5.285284       .0033936       .5628926\n",
  chars! "  4F        3.259830      -.0002036       .3587591\n",
  chars! "  4F        2.025012       .0001508       .0914460\n"]⟩

theorem neutral_es_ok : neutral_es.ok = true := by decide +kernel

/-- `data/neutral/fm`. -/
noncomputable def neutral_fm : DataFile := ⟨100, .neutral, [
  chars! "      FERMIUM   [RN]7S(2)5F(12), 3H                                                   \n",
  chars! "      CHARGE =100.000000\n",
  chars! "      SYMMETRY SPECIES               S     P     D     F \n",
  chars! "      NUMBER OF BASIS FUNCTIONS     15    12     9     8\n",
  chars! "      NUMBER OF CLOSED SHELLS        7     5     3     1\n",
  chars! "      NUMBER OF OPEN SHELLS          0     0     0     1\n",
  chars! "      OPEN SHELL OCCUPATION NUMBER   0     0     0    12\n",
  chars! "   E =-31282.777381624\n",
  chars! "   T = 31282.777465902     V =-62565.554847526     V/T =    -1.999999997\n",
  chars! " \n",
  chars! "  ORBITAL ENERGIES AND EXPANSION COEFFICIENTS\n",
  chars! "        S                    1S             2S             3S             4S             5S             6S             7S \n",
  chars! "  BASIS/ORB.ENERGY    -4417.1859323   -786.0787044   -206.3035966    -55.7352169    -12.8177465     -1.8305956     -0.1680801\n",
  chars! "  1S      114.194993      0.1408700      0.0394851     -0.0114126      0.0066378     -0.0057566      0.0020730     -0.0007535\n",
  chars! "  1S       96.939536      0.8616598     -0.4012189      0.1849384     -0.0985176      0.0531954     -0.0210569      0.0054959\n",
  chars! "  2S       80.272446     -0.0033009     -0.2566108      0.1465388     -0.0776110      0.0367754     -0.0150162      0.0034289\n",
  chars! "  2S       46.871137      0.0034233      1.1987077     -0.6484021      0.3446116     -0.1701948      0.0687857     -0.0164367\n",
  chars! "  3S       41.840267     -0.0029287      0.0844499     -0.5430780      0.3656603     -0.2140152      0.0861939     -0.0226428\n",
  chars! "  3S       29.525508      0.0029381     -0.0016998      0.9396990     -0.3090754      0.1824828     -0.0687535      0.0213798\n",
  chars! "  3S       22.997665     -0.0024059      0.0013005      0.6110312     -1.3883210      0.7388707     -0.3058988      0.0681385\n",
  chars! "  4S       13.929243     -0.0010200      0.0005568      0.0082153      0.1913731     -1.0373638      0.5574892     -0.1538622\n",
  chars! "  3S       13.927724      0.0015523     -0.0010642     -0.0112320      1.5208755     -0.7884216      0.3182334     -0.0685890\n",
  chars! "  3S        7.220250      0.0003739     -0.0000921     -0.0031699      0.0401977      1.2108487     -0.5133332      0.1456379\n",
  chars! "  3S        5.896912     -0.0002344      0.0000639      0.0017035     -0.0130686      0.5286860     -0.7215356      0.1811399\n",
  chars! "  3S        2.884439      0.0000428     -0.0000124     -0.0002600      0.0008274      0.0081122      0.9691344     -0.2401295\n",
  chars! "  3S        2.118890     -0.0000238      0.0000063      0.0001482     -0.0004357     -0.0017553      0.3593683     -0.2372250\n",
  chars! "  3S        0.860726      0.0000057     -0.0000015     -0.0000350      0.0000756      0.0002946     -0.0028707      0.6726867\n",
  chars! "  3S        0.620714     -0.0000033      0.0000008      0.0000198     -0.0000410     -0.0001568      0.0014535      0.4364098\n",
  chars! "        P                    2P             3P             4P             5P             6P \n",
  chars! "  BASIS/ORB.ENERGY     -761.9026003   -194.2690143    -49.9489780    -10.3804241     -1.0786351\n",
  chars! "  2P       95.277198     -0.0045122     -0.0015025      0.0005450     -0.0001242      0.0000798\n",
  chars! "  2P       54.082634     -0.7354322     -0.3842516      0.2044700     -0.1020537      0.0369866\n",
  chars! "  3P       48.811191     -0.2674683     -0.2467221      0.1366002     -0.0647394      0.0242940\n",
  chars! "  3P       33.394546     -0.0364398      0.3835987     -0.1991211      0.1040589     -0.0384723\n",
  chars! "  4P       30.941803      0.0151756      0.5755022     -0.4550108      0.2925419     -0.1047998\n",
  chars! "  4P       17.591402      0.0076801     -0.1778216      0.7707727     -0.0206699     -0.0057264\n",
  chars! "  3P       17.586481     -0.0097988      0.4007038     -0.8818673      0.7104373     -0.3067326\n",
  chars! "  3P       12.569014     -0.0027794      0.0341891      1.0784983     -1.9535680      0.8491683\n",
  chars! "  3P        7.131364      0.0004620     -0.0043278      0.0283924      0.9455603     -0.3544645\n",
  chars! "  3P        5.581213     -0.0002267      0.0017508     -0.0066914      0.6895804     -0.6170947\n",
  chars! "  3P        2.539015      0.0000266     -0.0001788      0.0004784      0.0097899      0.8848237\n",
  chars! "  3P        1.726341     -0.0000111      0.0000726     -0.0001864     -0.0022477      0.3575362\n",
  chars! "        D                    3D             4D             5D \n",
  chars! "  BASIS/ORB.ENERGY     -172.0620400    -39.1994689     -6.0313576\n",
  chars! "  3D       66.970050      0.0017890     -0.0006497      0.0003771\n",
  chars! "  3D       37.554036      0.4343495     -0.2499826      0.1165277\n",
  chars! "  4D       31.341249      0.4947945     -0.3283106      0.1641611\n",
  chars! "  4D       21.738456      0.1624089      0.0104194     -0.0424192\n",
  chars! "  4D       16.112877     -0.0373370      0.6898988     -0.2862497\n",
  chars! "  4D       12.720276      0.0180682      0.3942821     -0.6089090\n",
  chars! "  4D        9.295969     -0.0046126      0.0425400      0.5179644\n",
  chars! "  4D        6.209658      0.0008258     -0.0010058      0.7858385\n",
  chars! "  4D        4.043504     -0.0001651      0.0003402      0.1185226\n",
  chars! "        F                    4F             5F \n",
  chars! "  BASIS/ORB.ENERGY      -24.1728491     -0.8780935\n",
  chars! "  4F       35.941015      0.0149429     -0.0051511\n",
  chars! "  4F       22.375531      0.2538679     -0.1042033\n",
  chars! "  4F       14.616611      0.6017065     -0.2181763\n",
  chars! "  5F        9.609589     -0.0540005      0.2485000\n",
  chars! "  4F        9.535894      0.2571561     -0.1306147\n",
  chars! "  4F        5.379614      0.0035731      0.5658439\n",
  chars! "  4F        3.315605     -0.0001186      0.3514027\n",
  chars! "  4F        2.061897      0.0001753      0.0878651\n",
  chars! " \n"]⟩

theorem neutral_fm_ok : neutral_fm.ok = true := by decide +kernel

/-- `data/neutral/md`. -/
noncomputable def neutral_md : DataFile := ⟨101, .neutral, [
  chars! "      MENDELEVIUM   [RN]7S(2)5F(13), 2F                                               \n",
  chars! "      CHARGE =101.000000\n",
  chars! "      SYMMETRY SPECIES               S     P     D     F \n",
  chars! "      NUMBER OF BASIS FUNCTIONS     15    12     9     8\n",
  chars! "      NUMBER OF CLOSED SHELLS        7     5     3     1\n",
  chars! "      NUMBER OF OPEN SHELLS          0     0     0     1\n",
  chars! "      OPEN SHELL OCCUPATION NUMBER   0     0     0    13\n",
  chars! "   E =-32030.932747565\n",
  chars! "   T = 32030.932800758     V =-64061.865548323     V/T =    -1.999999998\n",
  chars! " \n",
  chars! "  ORBITAL ENERGIES AND EXPANSION COEFFICIENTS\n",
  chars! "        S                    1S             2S             3S             4S             5S             6S             7S \n",
  chars! "  BASIS/ORB.ENERGY    -4509.0220406   -803.8817136   -211.5596497    -57.3582275    -13.1869516     -1.8591615     -0.1692929\n",
  chars! "  1S      115.391891      0.1387007      0.0393327     -0.0114802      0.0067210     -0.0058566      0.0020815     -0.0007466\n",
  chars! "  1S       97.954198      0.8637621     -0.4009507      0.1851420     -0.0988838      0.0536066     -0.0211037      0.0054638\n",
  chars! "  2S       81.129010     -0.0032184     -0.2568815      0.1464984     -0.0776931      0.0368801     -0.0150194      0.0034090\n",
  chars! "  2S       47.332097      0.0034018      1.1999673     -0.6488705      0.3454397     -0.1710300      0.0688760     -0.0163474\n",
  chars! "  3S       42.320127     -0.0029223      0.0826898     -0.5431963      0.3670729     -0.2160638      0.0865612     -0.0225590\n",
  chars! "  3S       29.834074      0.0029566     -0.0011652      0.9430390     -0.3102048      0.1867612     -0.0699546      0.0215364\n",
  chars! "  3S       23.236958     -0.0024654      0.0010186      0.6091989     -1.3993738      0.7360743     -0.3030232      0.0667691\n",
  chars! "  4S       14.207334     -0.0010423      0.0004685      0.0090713      0.2281715     -1.0875373      0.5787286     -0.1579232\n",
  chars! "  3S       14.206628      0.0016115     -0.0009347     -0.0133204      1.4944859     -0.7430410      0.2951928     -0.0621286\n",
  chars! "  3S        7.354132      0.0003703     -0.0000608     -0.0031974      0.0423528      1.1840322     -0.4970305      0.1398206\n",
  chars! "  3S        6.016394     -0.0002310      0.0000448      0.0017020     -0.0139344      0.5570785     -0.7283184      0.1818166\n",
  chars! "  3S        2.915143      0.0000407     -0.0000088     -0.0002481      0.0009005      0.0084677      0.9656736     -0.2379489\n",
  chars! "  3S        2.137287     -0.0000227      0.0000043      0.0001421     -0.0004784     -0.0019402      0.3561557     -0.2333172\n",
  chars! "  3S        0.868222      0.0000056     -0.0000010     -0.0000338      0.0000874      0.0003303     -0.0028583      0.6685742\n",
  chars! "  3S        0.624338     -0.0000031      0.0000006      0.0000191     -0.0000476     -0.0001759      0.0014392      0.4396392\n",
  chars! "        P                    2P             3P             4P             5P             6P \n",
  chars! "  BASIS/ORB.ENERGY     -779.4236486   -199.3589515    -51.4725182    -10.6982530     -1.0928626\n",
  chars! "  2P       95.948792     -0.0045776     -0.0015402      0.0005644     -0.0001286      0.0000836\n",
  chars! "  2P       54.581376     -0.7373153     -0.3856345      0.2057248     -0.1030817      0.0371323\n",
  chars! "  3P       49.331192     -0.2641188     -0.2458139      0.1361881     -0.0645509      0.0241469\n",
  chars! "  3P       34.497757     -0.0363809      0.3532552     -0.1788596      0.0933026     -0.0343753\n",
  chars! "  4P       31.491063      0.0133867      0.5965129     -0.4583021      0.2949639     -0.1048525\n",
  chars! "  4P       17.908716      0.0069554     -0.1828417      0.7737909     -0.0150088     -0.0086991\n",
  chars! "  3P       17.907648     -0.0088859      0.4155587     -0.9297820      0.7448659     -0.3189347\n",
  chars! "  3P       12.793148     -0.0024995      0.0348440      1.1038132     -1.9909940      0.8614517\n",
  chars! "  3P        7.268828      0.0004070     -0.0043721      0.0293378      0.9434374     -0.3575239\n",
  chars! "  3P        5.674396     -0.0001980      0.0017456     -0.0067581      0.6977626     -0.6089449\n",
  chars! "  3P        2.570074      0.0000231     -0.0001787      0.0004908      0.0096707      0.8781403\n",
  chars! "  3P        1.744131     -0.0000097      0.0000728     -0.0001916     -0.0022198      0.3600879\n",
  chars! "        D                    3D             4D             5D \n",
  chars! "  BASIS/ORB.ENERGY     -176.8439742    -40.5337150     -6.2544076\n",
  chars! "  3D       67.396992      0.0018018     -0.0006551      0.0003824\n",
  chars! "  3D       37.977966      0.4340911     -0.2507179      0.1175069\n",
  chars! "  4D       31.739815      0.4929951     -0.3286528      0.1653317\n",
  chars! "  4D       22.096008      0.1634259      0.0058138     -0.0398263\n",
  chars! "  4D       16.329719     -0.0364908      0.6983340     -0.2894925\n",
  chars! "  4D       12.928930      0.0180152      0.3878846     -0.6239066\n",
  chars! "  4D        9.503720     -0.0046140      0.0442815      0.5283939\n",
  chars! "  4D        6.324569      0.0007797     -0.0008967      0.7886670\n",
  chars! "  4D        4.112831     -0.0001581      0.0003581      0.1179015\n",
  chars! "        F                    4F             5F \n",
  chars! "  BASIS/ORB.ENERGY      -25.2325939     -0.9178272\n",
  chars! "  4F       36.511074      0.0143953     -0.0050084\n",
  chars! "  4F       22.750806      0.2509049     -0.1045139\n",
  chars! "  4F       14.880176      0.6042434     -0.2218970\n",
  chars! "  5F        9.847647     -0.0418247      0.2488345\n",
  chars! "  4F        9.835102      0.2453018     -0.1319842\n",
  chars! "  4F        5.518981      0.0036293      0.5670575\n",
  chars! "  4F        3.405016      0.0000479      0.3503629\n",
  chars! "  4F        2.116027      0.0001910      0.0880302\n",
  chars! " \n"]⟩

theorem neutral_md_ok : neutral_md.ok = true := by decide +kernel

/-- `data/neutral/no`. -/
noncomputable def neutral_no : DataFile := ⟨102, .neutral, [
  chars! "      NOBELIUM   [RN]7S(2)5F(14), 1S                                                  \n",
  chars! "      CHARGE =102.000000\n",
  chars! "      SYMMETRY SPECIES               S     P     D     F \n",
  chars! "      NUMBER OF BASIS FUNCTIONS     15    12     9     8\n",
  chars! "      NUMBER OF CLOSED SHELLS        7     5     3     2\n",
  chars! "      NUMBER OF OPEN SHELLS          0     0     0     0\n",
  chars! "      OPEN SHELL OCCUPATION NUMBER   0     0     0     0\n",
  chars! "   E =-32789.511914766\n",
  chars! "   T = 32789.511728104     V =-65579.023642870     V/T =    -2.000000006\n",
  chars! "  ORBITAL ENERGIES AND EXPANSION COEFFICIENTS\n",
  chars! "        S                    1S             2S             3S             4S             5S             6S             7S \n",
  chars! "  BASIS/ORB.ENERGY    -4601.8024651   -821.8791349   -216.8735263    -58.9939609    -13.5540254     -1.8862152      -.1704565\n",
  chars! "  1S      116.592615       .1364676       .0393215      -.0115945       .0068190      -.0059169       .0020751      -.0007375\n",
  chars! "  1S       98.971720       .8659139      -.4008501       .1853961      -.0992593       .0539525      -.0211187       .0054285\n",
  chars! "  2S       81.969966      -.0031134      -.2573282       .1466151      -.0778695       .0370768      -.0150525       .0033974\n",
  chars! "  2S       47.801013       .0033671      1.2011636      -.6494591       .3463486      -.1719749       .0689825      -.0162704\n",
  chars! "  3S       42.780237      -.0029063       .0814267      -.5448679       .3694243      -.2183128       .0869743      -.0225073\n",
  chars! "  3S       30.158811       .0029562      -.0009850       .9474120      -.3135844       .1910351      -.0711191       .0216897\n",
  chars! "  3S       23.466434      -.0025009       .0009497       .6084230     -1.4101384       .7352500      -.3008970       .0656491\n",
  chars! "  4S       14.471178      -.0010589       .0004551       .0104448       .2551998     -1.1296356       .5964934      -.1612179\n",
  chars! "  3S       14.467021       .0016598      -.0009204      -.0164162      1.4783337      -.7084604       .2770787      -.0569932\n",
  chars! "  3S        7.485979       .0003613      -.0000545      -.0033139       .0442524      1.1710426      -.4941868       .1376932\n",
  chars! "  3S        6.115088      -.0002233       .0000409       .0017452      -.0145965       .5735763      -.7237010       .1795510\n",
  chars! "  3S        2.946806       .0000390      -.0000081      -.0002508       .0009991       .0082731       .9613819      -.2353908\n",
  chars! "  3S        2.155517      -.0000218       .0000040       .0001437      -.0005337      -.0018701       .3549266      -.2304471\n",
  chars! "  3S         .876639       .0000054      -.0000010      -.0000346       .0001026       .0003172      -.0028951       .6599199\n",
  chars! "  3S         .629030      -.0000030       .0000005       .0000195      -.0000561      -.0001680       .0014503       .4475546\n",
  chars! "        P                    2P             3P             4P             5P             6P \n",
  chars! "  BASIS/ORB.ENERGY     -797.1390123   -204.5063081    -53.0084495    -11.0140815     -1.1059392\n",
  chars! "  2P       96.397692      -.0047339      -.0016179       .0005942      -.0001556       .0001003\n",
  chars! "  2P       55.002426      -.7415176      -.3882385       .2076598      -.1043629       .0373332\n",
  chars! "  3P       49.802487      -.2578971      -.2450315       .1355469      -.0646260       .0241938\n",
  chars! "  3P       35.839240      -.0362544       .3229765      -.1595406       .0821625      -.0301668\n",
  chars! "  4P       32.064262       .0109512       .6211588      -.4645107       .2941388      -.1030213\n",
  chars! "  4P       18.129395       .0061198      -.2027213       .8342880      -.0702979       .0162568\n",
  chars! "  3P       18.025153      -.0076054       .4399591      -.9826939       .7998145      -.3404168\n",
  chars! "  3P       12.950104      -.0021857       .0382717      1.0841796     -1.9981090       .8579754\n",
  chars! "  3P        7.458310       .0003556      -.0049374       .0287858       .9280226      -.3513832\n",
  chars! "  3P        5.783785      -.0001667       .0019065      -.0059307       .7294651      -.6122229\n",
  chars! "  3P        2.597180       .0000193      -.0001964       .0004321       .0096390       .8727290\n",
  chars! "  3P        1.759335      -.0000081       .0000809      -.0001696      -.0022341       .3604510\n",
  chars! "        D                    3D             4D             5D \n",
  chars! "  BASIS/ORB.ENERGY     -181.6825617    -41.8797434     -6.4759497\n",
  chars! "  3D       67.827414       .0018034      -.0006550       .0003875\n",
  chars! "  3D       38.426897       .4329225      -.2508932       .1181715\n",
  chars! "  4D       32.165816       .4907430      -.3284640       .1662275\n",
  chars! "  4D       22.509172       .1654909      -.0026462      -.0351180\n",
  chars! "  4D       16.602324      -.0347585       .6968628      -.2878379\n",
  chars! "  4D       13.180192       .0171925       .3946168      -.6363817\n",
  chars! "  4D        9.669792      -.0043185       .0456965       .5336724\n",
  chars! "  4D        6.431985       .0007127      -.0009084       .7881967\n",
  chars! "  4D        4.179803      -.0001478       .0003860       .1169122\n",
  chars! "        F                    4F             5F \n",
  chars! "  BASIS/ORB.ENERGY      -26.3035481      -.9634481\n",
  chars! "  4F       37.081617       .0138844      -.0048541\n",
  chars! "  4F       23.121378       .2484870      -.1043918\n",
  chars! "  4F       15.134123       .6083247      -.2260613\n",
  chars! "  5F       10.033310      -.0399880       .2544537\n",
  chars! "  4F       10.032716       .2415370      -.1315052\n",
  chars! "  4F        5.628460       .0028220       .5692081\n",
  chars! "  4F        3.475147      -.0003651       .3455787\n",
  chars! "  4F        2.163825       .0000742       .0857519\n"]⟩

theorem neutral_no_ok : neutral_no.ok = true := by decide +kernel

/-- `data/neutral/lr`. -/
noncomputable def neutral_lr : DataFile := ⟨103, .neutral, [
  chars! "      LAWRENCIUM   [RN]7S(2)6D(1)5F(14), 2D                                           \n",
  chars! "      CHARGE =103.000000\n",
  chars! "      SYMMETRY SPECIES               S     P     D     F \n",
  chars! "      NUMBER OF BASIS FUNCTIONS     15    12    11     8\n",
  chars! "      NUMBER OF CLOSED SHELLS        7     5     3     2\n",
  chars! "      NUMBER OF OPEN SHELLS          0     0     1     0\n",
  chars! "      OPEN SHELL OCCUPATION NUMBER   0     0     1     0\n",
  chars! "   E =-33557.950142251\n",
  chars! "   T = 33557.949960623     V =-67115.900102873     V/T =    -2.000000005\n",
  chars! "  ORBITAL ENERGIES AND EXPANSION COEFFICIENTS\n",
  chars! "        S                    1S             2S             3S             4S             5S             6S             7S \n",
  chars! "  BASIS/ORB.ENERGY    -4695.8045441   -840.3630605   -222.5488222    -60.9427308    -14.1998570     -2.0646588     -0.1832377\n",
  chars! "  1S      117.771093      0.1348898      0.0386739     -0.0116102      0.0067641     -0.0059878      0.0021713     -0.0007261\n",
  chars! "  1S       99.975056      0.8674757     -0.4000069      0.1855575     -0.0994586      0.0543952     -0.0217451      0.0057628\n",
  chars! "  2S       82.875749     -0.0031070     -0.2570804      0.1459409     -0.0777408      0.0370899     -0.0153193      0.0037124\n",
  chars! "  2S       48.243474      0.0033850      1.2022357     -0.6489694      0.3469098     -0.1728307      0.0706144     -0.0176339\n",
  chars! "  3S       43.330365     -0.0029283      0.0787866     -0.5413372      0.3668161     -0.2185473      0.0889938     -0.0237240\n",
  chars! "  3S       30.477612      0.0030151      0.0002957      0.9342089     -0.2923192      0.1843332     -0.0706244      0.0213537\n",
  chars! "  3S       23.820947     -0.0025812      0.0002277      0.6161169     -1.4253890      0.7324444     -0.3028118      0.0714531\n",
  chars! "  4S       14.780478     -0.0010471      0.0002397      0.0085853      0.3185945     -1.1899105      0.6408249     -0.1774753\n",
  chars! "  3S       14.778913      0.0016856     -0.0005650     -0.0132723      1.4141869     -0.6330201      0.2439122     -0.0539507\n",
  chars! "  3S        7.443722      0.0003473      0.0000087     -0.0028491      0.0470987      1.3241385     -0.5925339      0.1633854\n",
  chars! "  3S        6.074548     -0.0002277      0.0000031      0.0015789     -0.0177322      0.4101951     -0.6784602      0.1864779\n",
  chars! "  3S        3.060811      0.0000466     -0.0000024     -0.0002637      0.0016398      0.0076581      0.9964463     -0.2655008\n",
  chars! "  3S        2.252852     -0.0000257      0.0000008      0.0001492     -0.0008496     -0.0015942      0.3545830     -0.2435578\n",
  chars! "  3S        0.959509      0.0000059     -0.0000002     -0.0000334      0.0001586      0.0002631     -0.0015066      0.6093922\n",
  chars! "  3S        0.673296     -0.0000031      0.0000001      0.0000174     -0.0000804     -0.0001271      0.0008019      0.5119167\n",
  chars! "        P                    2P             3P             4P             5P             6P \n",
  chars! "  BASIS/ORB.ENERGY     -815.3378974   -210.0138679    -54.8568748    -11.6025092     -1.2473017\n",
  chars! "  2P       96.977915     -0.0048363     -0.0016365      0.0006210     -0.0001334      0.0001041\n",
  chars! "  2P       55.479157     -0.7439488     -0.3900410      0.2090696     -0.1057760      0.0388524\n",
  chars! "  3P       50.301898     -0.2543870     -0.2428064      0.1350043     -0.0637880      0.0247498\n",
  chars! "  3P       36.356365     -0.0369891      0.3124593     -0.1499656      0.0785966     -0.0297935\n",
  chars! "  4P       32.536565      0.0114069      0.6151048     -0.4509261      0.2962703     -0.1056906\n",
  chars! "  4P       18.618274      0.0062664     -0.1939711      0.7627512      0.0156985     -0.0161317\n",
  chars! "  3P       18.581159     -0.0080960      0.4505473     -1.0376225      0.8097177     -0.3551127\n",
  chars! "  3P       13.274625     -0.0021618      0.0344038      1.1804192     -2.0755484      0.9105262\n",
  chars! "  3P        7.476445      0.0003528     -0.0043654      0.0325246      0.9507808     -0.3524130\n",
  chars! "  3P        5.884212     -0.0001784      0.0018115     -0.0081793      0.6938595     -0.6481636\n",
  chars! "  3P        2.671872      0.0000202     -0.0001781      0.0005600      0.0090117      0.9437933\n",
  chars! "  3P        1.800258     -0.0000083      0.0000716     -0.0002172     -0.0020286      0.3091315\n",
  chars! "        D                    3D             4D             5D             6D \n",
  chars! "  BASIS/ORB.ENERGY     -186.8786623    -43.5372223     -6.9518036     -0.2673657\n",
  chars! "  3D       68.265620      0.0017317     -0.0006377      0.0003642      0.0000105\n",
  chars! "  3D       39.089308      0.4240510     -0.2464425      0.1171675     -0.0283120\n",
  chars! "  4D       32.844237      0.4821228     -0.3230955      0.1642205     -0.0369711\n",
  chars! "  4D       23.518016      0.1753365     -0.0388393     -0.0068375     -0.0066248\n",
  chars! "  4D       17.207131     -0.0207393      0.6560846     -0.3096726      0.0978925\n",
  chars! "  4D       13.500854      0.0091584      0.4724791     -0.5811809      0.1248874\n",
  chars! "  4D        9.062463     -0.0020913      0.0348190      0.6256242     -0.1525585\n",
  chars! "  4D        6.166057      0.0005398     -0.0031956      0.6954557     -0.2708227\n",
  chars! "  4D        3.792907     -0.0001604      0.0008569      0.0573222      0.1633800\n",
  chars! "  4D        2.132066      0.0000443     -0.0002200     -0.0019167      0.6169521\n",
  chars! "  4D        1.176556     -0.0000124      0.0000587      0.0005140      0.4173943\n",
  chars! "        F                    4F             5F \n",
  chars! "  BASIS/ORB.ENERGY      -27.6838105     -1.2482544\n",
  chars! "  4F       37.777105      0.0130702     -0.0046956\n",
  chars! "  4F       23.538779      0.2440759     -0.1055999\n",
  chars! "  4F       15.418134      0.6116460     -0.2368733\n",
  chars! "  5F       10.187920     -0.0552991      0.2697973\n",
  chars! "  4F       10.098580      0.2566905     -0.1373575\n",
  chars! "  4F        5.745369      0.0029239      0.5825077\n",
  chars! "  4F        3.590150     -0.0004300      0.3335069\n",
  chars! "  4F        2.284609      0.0000863      0.0659975\n"]⟩

theorem neutral_lr_ok : neutral_lr.ok = true := by decide +kernel

/-- `data/anion/h`. -/
noncomputable def anion_h : DataFile := ⟨1, .anion, [
  chars! "      HYDROGEN-   1S(2), 1S                                                           \n",
  chars! "\n",
  chars! "\n",
  chars! "\n",
  chars! "   E =    -0.487929734\n",
  chars! "   T =     0.487929734     V =    -0.975859469     V/T =    -2.000000000\n",
  chars! "\n",
  chars! "  ORBITAL ENERGIES AND EXPANSION COEFFICIENTS\n",
  chars! "        S                    1S \n",
  chars! "  BASIS/ORB.ENERGY       -0.0462224\n",
  chars! "              CUSP        0.9999724\n",
  chars! "  2S        3.461036      0.0005803\n",
  chars! "  1S        1.704290      0.0754088\n",
  chars! "  1S        1.047762      0.2438040\n",
  chars! "  1S        0.626983      0.3476471\n",
  chars! "  1S        0.392736      0.3357298\n",
  chars! "  1S        0.304047      0.0741188\n",
  chars! "\n"]⟩

theorem anion_h_ok : anion_h.ok = true := by decide +kernel

/-- `data/anion/li`. -/
noncomputable def anion_li : DataFile := ⟨3, .anion, [
  chars! "      LITHIUM- 1S(2)2S(2), 1S                                                         \n",
  chars! "\n",
  chars! "\n",
  chars! "\n",
  chars! "   E =    -7.428232059\n",
  chars! "   T =     7.428232059     V =   -14.856464118     V/T =    -2.000000000\n",
  chars! "\n",
  chars! "  ORBITAL ENERGIES AND EXPANSION COEFFICIENTS\n",
  chars! "        S                    1S             2S \n",
  chars! "  BASIS/ORB.ENERGY       -2.3227966     -0.0145377\n",
  chars! "              CUSP        1.0001300      0.9991387\n",
  chars! "  1S       10.425629      0.0013502      0.0001816\n",
  chars! "  1S        5.519814     -0.0530207     -0.0043493\n",
  chars! "  1S        3.412780     -0.1534049     -0.0298684\n",
  chars! "  1S        2.409164     -0.8060139     -0.0112505\n",
  chars! "  1S        1.431054     -0.0043575     -0.2120289\n",
  chars! "  2S        0.712248      0.0002544      0.1374335\n",
  chars! "  1S        0.325496     -0.0001533      0.7291380\n",
  chars! "  2S        0.246090      0.0001577      0.1614524\n",
  chars! "  1S        0.170515     -0.0001454      0.0987841\n",
  chars! "\n"]⟩

theorem anion_li_ok : anion_li.ok = true := by decide +kernel

/-- `data/anion/b`. -/
noncomputable def anion_b : DataFile := ⟨5, .anion, [
  chars! "      BORON-    1S(2)2S(2)2P(2), 3P                                                   \n",
  chars! "   E =   -24.519221361\n",
  chars! "   T =    24.519221360     V =   -49.038442721     V/T =    -2.000000000\n",
  chars! "  ORBITAL ENERGIES AND EXPANSION COEFFICIENTS\n",
  chars! "        S                    1S             2S \n",
  chars! "  BASIS/ORB.ENERGY       -7.4251668     -0.2426840\n",
  chars! "              CUSP        0.9999464      0.9997520\n",
  chars! "  2S       15.943800      0.0005772     -0.0001176\n",
  chars! "  1S        7.666923      0.2253930      0.0135701\n",
  chars! "  2S        6.168477      0.1429940      0.0352836\n",
  chars! "  1S        4.180044      0.6591629     -0.2012845\n",
  chars! "  1S        2.377138     -0.0000833     -0.4143896\n",
  chars! "  2S        2.095029      0.0010341      0.0986559\n",
  chars! "  1S        0.942132      0.0003328      0.8873742\n",
  chars! "  1S        0.623905      0.0001253      0.3004764\n",
  chars! "  1S        0.230077      0.0000050      0.0017500\n",
  chars! "        P                    2P \n",
  chars! "  BASIS/ORB.ENERGY       -0.0264677\n",
  chars! "              CUSP        0.9999937\n",
  chars! "  3P       12.230333      0.0000408\n",
  chars! "  2P        5.660905      0.0059618\n",
  chars! "  3P        2.245340     -0.0527056\n",
  chars! "  2P        1.755314      0.2926410\n",
  chars! "  2P        1.007474      0.3761995\n",
  chars! "  2P        0.593488      0.3436074\n",
  chars! "  2P        0.353591      0.1755626\n",
  chars! "  2P        0.230077      0.0120746\n",
  chars! "\n"]⟩

theorem anion_b_ok : anion_b.ok = true := by decide +kernel

/-- `data/anion/c`. -/
noncomputable def anion_c : DataFile := ⟨6, .anion, [
  chars! "      CARBON-   1S(2)2S(2)2P(3), 4S                                                   \n",
  chars! "   E =   -37.708843613\n",
  chars! "   T =    37.708843614     V =   -75.417687227     V/T =    -2.000000000\n",
  chars! "  ORBITAL ENERGIES AND EXPANSION COEFFICIENTS\n",
  chars! "        S                    1S             2S \n",
  chars! "  BASIS/ORB.ENERGY      -10.9563820     -0.3728268\n",
  chars! "              CUSP        0.9999607      0.9996898\n",
  chars! "  2S       18.920161     -0.0005423     -0.0001251\n",
  chars! "  1S        9.204405     -0.2314477      0.0128461\n",
  chars! "  2S        7.499563     -0.1507135      0.0309079\n",
  chars! "  1S        5.079154     -0.6430904     -0.1919809\n",
  chars! "  1S        3.263494     -0.0022351     -0.3898360\n",
  chars! "  2S        2.347924     -0.0014913      0.0663604\n",
  chars! "  1S        1.219231     -0.0001203      0.7370742\n",
  chars! "  1S        0.842734     -0.0003117      0.4387447\n",
  chars! "  1S        0.392560      0.0000043      0.0022083\n",
  chars! "        P                    2P \n",
  chars! "  BASIS/ORB.ENERGY       -0.0770517\n",
  chars! "              CUSP        1.0000021\n",
  chars! "  3P       14.841621      0.0000477\n",
  chars! "  2P        6.932628      0.0062055\n",
  chars! "  3P        2.773007     -0.0768275\n",
  chars! "  2P        2.199863      0.3788502\n",
  chars! "  2P        1.282317      0.3930492\n",
  chars! "  2P        0.793656      0.3014878\n",
  chars! "  2P        0.523330      0.1173838\n",
  chars! "  2P        0.392560      0.0051184\n",
  chars! "\n"]⟩

theorem anion_c_ok : anion_c.ok = true := by decide +kernel

/-- `data/anion/n`. -/
noncomputable def anion_n : DataFile := ⟨7, .anion, [
  chars! "      NITROGEN-   1S(2)2S(2)2P(4), 3P                                                 \n",
  chars! "   E =   -54.321958875\n",
  chars! "   T =    54.321958875     V =  -108.643917750     V/T =    -2.000000000\n",
  chars! "  ORBITAL ENERGIES AND EXPANSION COEFFICIENTS\n",
  chars! "        S                    1S             2S \n",
  chars! "  BASIS/ORB.ENERGY      -15.2423924     -0.5806282\n",
  chars! "              CUSP        0.9999604      0.9996973\n",
  chars! "  2S       21.938661     -0.0005078     -0.0001243\n",
  chars! "  1S       10.856681     -0.2080903      0.0148869\n",
  chars! "  2S        8.909576     -0.1346853      0.0297488\n",
  chars! "  1S        6.067777     -0.6711541     -0.1833422\n",
  chars! "  1S        4.082589     -0.0109793     -0.3856396\n",
  chars! "  2S        2.595892     -0.0014067      0.1068689\n",
  chars! "  1S        1.388357     -0.0001516      0.8429430\n",
  chars! "  1S        0.965463     -0.0002992      0.2729199\n",
  chars! "  1S        0.432913      0.0000010      0.0015565\n",
  chars! "        P                    2P \n",
  chars! "  BASIS/ORB.ENERGY       -0.0937069\n",
  chars! "              CUSP        0.9999948\n",
  chars! "  3P       17.323397      0.0000491\n",
  chars! "  2P        8.244327      0.0056587\n",
  chars! "  3P        3.261863     -0.1054546\n",
  chars! "  2P        2.599742      0.4612442\n",
  chars! "  2P        1.481225      0.3948250\n",
  chars! "  2P        0.888860      0.2779229\n",
  chars! "  2P        0.570116      0.0979146\n",
  chars! "  2P        0.432913      0.0022926\n",
  chars! "\n"]⟩

theorem anion_n_ok : anion_n.ok = true := by decide +kernel

/-- `data/anion/o`. -/
noncomputable def anion_o : DataFile := ⟨8, .anion, [
  chars! "      OXYGEN-   1S(2)2S(2)2P(5), 2P                                                   \n",
  chars! "   E =   -74.789745929\n",
  chars! "   T =    74.789745907     V =  -149.579491835     V/T =    -2.000000000\n",
  chars! "  ORBITAL ENERGIES AND EXPANSION COEFFICIENTS\n",
  chars! "        S                    1S             2S \n",
  chars! "  BASIS/ORB.ENERGY      -20.1989620     -0.8136332\n",
  chars! "              CUSP        0.9999645      0.9996672\n",
  chars! "  2S       25.016765     -0.0004660     -0.0001224\n",
  chars! "  1S       12.463538     -0.1969044      0.0136299\n",
  chars! "  2S       10.294654     -0.1272168      0.0260227\n",
  chars! "  1S        7.040394     -0.6798388     -0.1631544\n",
  chars! "  1S        4.924651     -0.0195203     -0.3892215\n",
  chars! "  2S        2.933290     -0.0016231      0.1399950\n",
  chars! "  1S        1.571277     -0.0001018      0.8737968\n",
  chars! "  1S        1.086933     -0.0003173      0.1945784\n",
  chars! "  1S        0.509457      0.0000043      0.0012193\n",
  chars! "        P                    2P \n",
  chars! "  BASIS/ORB.ENERGY       -0.1297733\n",
  chars! "              CUSP        0.9996035\n",
  chars! "  3P       18.936558      0.0000688\n",
  chars! "  2P        9.868234      0.0043545\n",
  chars! "  3P        4.069436     -0.0786626\n",
  chars! "  2P        3.277663      0.3879735\n",
  chars! "  2P        1.941449      0.3724017\n",
  chars! "  2P        1.183916      0.3025918\n",
  chars! "  2P        0.739250      0.1405451\n",
  chars! "  2P        0.509457      0.0085623\n",
  chars! "\n"]⟩

theorem anion_o_ok : anion_o.ok = true := by decide +kernel

/-- `data/anion/f`. -/
noncomputable def anion_f : DataFile := ⟨9, .anion, [
  chars! "      FLUORINE-   1S(2)2S(2)2P(6), 1S                                                 \n",
  chars! "\n",
  chars! "\n",
  chars! "\n",
  chars! "   E =   -99.459453907\n",
  chars! "   T =    99.459453916     V =  -198.918907823     V/T =    -2.000000000\n",
  chars! "\n",
  chars! "  ORBITAL ENERGIES AND EXPANSION COEFFICIENTS\n",
  chars! "        S                    1S             2S \n",
  chars! "  BASIS/ORB.ENERGY      -25.8296248     -1.0745878\n",
  chars! "              CUSP        0.9999701      0.9997582\n",
  chars! "  2S       27.859461     -0.0004533     -0.0001162\n",
  chars! "  1S       14.198763     -0.1771801      0.0165729\n",
  chars! "  2S       11.780767     -0.1147043      0.0264193\n",
  chars! "  1S        8.031062     -0.7054388     -0.1725638\n",
  chars! "  1S        5.581766     -0.0240787     -0.3974454\n",
  chars! "  2S        3.381103     -0.0016901      0.1299886\n",
  chars! "  1S        1.822975     -0.0002417      0.8655486\n",
  chars! "  1S        1.273691     -0.0003235      0.2209765\n",
  chars! "  1S        0.601642      0.0000010      0.0013423\n",
  chars! "        P                    2P \n",
  chars! "  BASIS/ORB.ENERGY       -0.1809868\n",
  chars! "              CUSP        1.0000059\n",
  chars! "  3P       21.725428      0.0000591\n",
  chars! "  2P       11.133649      0.0041123\n",
  chars! "  3P        4.578593     -0.0953385\n",
  chars! "  2P        3.691125      0.4339485\n",
  chars! "  2P        2.175263      0.3711336\n",
  chars! "  2P        1.339077      0.2848333\n",
  chars! "  2P        0.854546      0.1279481\n",
  chars! "  2P        0.601642      0.0077227\n",
  chars! "\n"]⟩

theorem anion_f_ok : anion_f.ok = true := by decide +kernel

/-- `data/anion/na`. -/
noncomputable def anion_na : DataFile := ⟨11, .anion, [
  chars! "      SODIUM-   K(2)L(8)3S(2), 1S                                                     \n",
  chars! "   E =  -161.855125940\n",
  chars! "   T =   161.855125937     V =  -323.710251878     V/T =    -2.000000000\n",
  chars! "  ORBITAL ENERGIES AND EXPANSION COEFFICIENTS\n",
  chars! "        S                    1S             2S             3S \n",
  chars! "  BASIS/ORB.ENERGY      -40.3329106     -2.6513484     -0.0133513\n",
  chars! "              CUSP        0.9999545      0.9999866      1.0000026\n",
  chars! "  2S       33.336556     -0.0004508     -0.0001007      0.0000113\n",
  chars! "  1S       17.598737     -0.1704241      0.0302092     -0.0027062\n",
  chars! "  2S       14.711404     -0.1142421      0.0363231     -0.0033864\n",
  chars! "  1S        9.861039     -0.7205942     -0.2555745      0.0233291\n",
  chars! "  1S        6.404866     -0.0151250     -0.5003298      0.0538025\n",
  chars! "  2S        4.829528     -0.0015844     -0.0165269     -0.0090077\n",
  chars! "  1S        2.472014     -0.0010215      1.3397395     -0.0732966\n",
  chars! "  1S        1.193509      0.0000259      0.0035027     -0.3143869\n",
  chars! "  1S        0.391524     -0.0000053     -0.0002299      0.7793485\n",
  chars! "  2S        0.278296      0.0000069      0.0002262      0.2695675\n",
  chars! "  1S        0.163409     -0.0000052     -0.0001631      0.1628299\n",
  chars! "        P                    2P \n",
  chars! "  BASIS/ORB.ENERGY       -1.3724533\n",
  chars! "              CUSP        0.9998866\n",
  chars! "  3P       30.043629      0.0000391\n",
  chars! "  2P       13.641469      0.0041805\n",
  chars! "  3P        5.586447     -0.1404590\n",
  chars! "  2P        4.513905      0.5696933\n",
  chars! "  2P        2.629663      0.4801164\n",
  chars! "  2P        1.869157      0.1530404\n",
  chars! "  2P        0.632847      0.0012768\n",
  chars! "  2P        0.163409      0.0000245\n"]⟩

theorem anion_na_ok : anion_na.ok = true := by decide +kernel

/-- Part 8 of the files. -/
noncomputable def part8 : List DataFile := [
  neutral_bk, neutral_cf, neutral_es, neutral_fm, neutral_md, neutral_no, neutral_lr, anion_h, anion_li, anion_b, anion_c, anion_n, anion_o, anion_f, anion_na]

theorem part8_ok : ∀ d ∈ part8, d.ok = true := by
  intro d hd
  unfold part8 at hd
  simp only [List.mem_cons, List.not_mem_nil, or_false] at hd
  rcases hd with rfl | rfl | rfl | rfl | rfl | rfl | rfl | rfl | rfl | rfl | rfl | rfl | rfl | rfl | rfl
  · exact neutral_bk_ok
  · exact neutral_cf_ok
  · exact neutral_es_ok
  · exact neutral_fm_ok
  · exact neutral_md_ok
  · exact neutral_no_ok
  · exact neutral_lr_ok
  · exact anion_h_ok
  · exact anion_li_ok
  · exact anion_b_ok
  · exact anion_c_ok
  · exact anion_n_ok
  · exact anion_o_ok
  · exact anion_f_ok
  · exact anion_na_ok

end BFit.Data
