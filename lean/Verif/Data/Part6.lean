import Verif.Lemmas.DataNum

/-! Copy of files in /repo/bfit/data/data.tar, generated by tools/gendata.py. -/

namespace BFit.Data

/-- `data/neutral/au`. -/
noncomputable def neutral_au : DataFile := ⟨79, .neutral, [
  chars! "      GOLD   [XE]4F(14)6S(1)5D(10), 2S                                                \n",
  chars! "      CHARGE = 79.000000\n",
  chars! "      SYMMETRY SPECIES               S     P     D     F \n",
  chars! "      NUMBER OF BASIS FUNCTIONS     13    10     9     6\n",
  chars! "      NUMBER OF CLOSED SHELLS        5     4     3     1\n",
  chars! "      NUMBER OF OPEN SHELLS          1     0     0     0\n",
  chars! "      OPEN SHELL OCCUPATION NUMBER   1     0     0     0\n",
  chars! "   E =-17865.399825117\n",
  chars! "   T = 17865.399642111     V =-35730.799467228     V/T =    -2.000000010\n",
  chars! "  ORBITAL ENERGIES AND EXPANSION COEFFICIENTS\n",
  chars! "        S                    1S             2S             3S             4S             5S             6S \n",
  chars! "  BASIS/ORB.ENERGY    -2706.8328891   -457.1824282   -109.2606992    -24.3536569     -3.8087157      -.2207138\n",
  chars! "  1S       97.761363       .0543021       .0184536      -.0059880       .0015601      -.0011655       .0003138\n",
  chars! "  1S       77.616148       .9428745      -.3655835       .1694183      -.0821448       .0353116      -.0081410\n",
  chars! "  2S       64.400892       .0040559      -.2501566       .1347860      -.0707136       .0290014      -.0065495\n",
  chars! "  2S       36.850898       .0020902      1.1528366      -.6013187       .3086211      -.1286260       .0292497\n",
  chars! "  3S       33.489537      -.0017218       .1088843      -.4539311       .2492703      -.1121056       .0262101\n",
  chars! "  3S       23.594782       .0013678       .0069891       .4579027       .0763151      -.0632900       .0145596\n",
  chars! "  3S       18.894147      -.0008352      -.0020457       .9578920     -1.3464690       .6687089      -.1551612\n",
  chars! "  3S        9.575477       .0004369       .0000622       .0487899      1.3024738      -.3554815       .0544673\n",
  chars! "  3S        8.034410      -.0003686      -.0001485      -.0287839       .1453872      -.8961654       .2735870\n",
  chars! "  3S        4.758171       .0000857       .0000571       .0039194       .0162429       .9132912      -.2848893\n",
  chars! "  3S        3.330133      -.0000332      -.0000168      -.0013915      -.0019199       .5859752      -.1892946\n",
  chars! "  3S        1.328966       .0000054       .0000029       .0001906       .0003148       .0039779       .4556329\n",
  chars! "  3S         .813779      -.0000025      -.0000013      -.0000847      -.0001349      -.0006598       .6453387\n",
  chars! "        P                    2P             3P             4P             5P \n",
  chars! "  BASIS/ORB.ENERGY     -438.9059637   -100.6224740    -20.5705572     -2.5342267\n",
  chars! "  2P       72.250241       .0077449      -.0027189       .0014393      -.0006084\n",
  chars! "  2P       41.486656       .7638459      -.3885513       .1908883      -.0748442\n",
  chars! "  3P       36.856869       .2529503      -.2865510       .1961952      -.0872579\n",
  chars! "  4P       29.730268       .0164249      -.1174461       .1824186      -.1000962\n",
  chars! "  3P       21.210778      -.0072231      1.1486521      -.9201386       .4381126\n",
  chars! "  3P       14.475122       .0024886       .2380258      -.6438703       .2382120\n",
  chars! "  3P       10.912089      -.0012906      -.0324829      1.2469365      -.5746359\n",
  chars! "  4P        9.042813       .0002131       .0052408       .4580559      -.5016528\n",
  chars! "  3P        4.012662      -.0000245      -.0006499       .0123820       .9473055\n",
  chars! "  3P        2.634539       .0000109       .0001571      -.0017885       .3639469\n",
  chars! "        D                    3D             4D             5D \n",
  chars! "  BASIS/ORB.ENERGY      -84.7187008    -13.6553979      -.5209304\n",
  chars! "  3D       43.833656       .0107826      -.0046522       .0013473\n",
  chars! "  3D       26.923095       .5107522      -.2660895       .0801907\n",
  chars! "  4D       22.141347       .4705240      -.2778470       .0867188\n",
  chars! "  4D       14.590183       .0930676       .2150605      -.0858641\n",
  chars! "  4D       10.636243      -.0188622       .6142858      -.2105302\n",
  chars! "  4D        7.807086       .0064919       .3253332      -.1644004\n",
  chars! "  4D        4.671112      -.0011401       .0140492       .4600836\n",
  chars! "  4D        2.813334       .0003642      -.0011867       .5493649\n",
  chars! "  4D        1.632420      -.0000945       .0002807       .2129632\n",
  chars! "        F                    4F \n",
  chars! "  BASIS/ORB.ENERGY       -4.3282579\n",
  chars! "  4F       25.916349       .0208736\n",
  chars! "  4F       15.690312       .2340553\n",
  chars! "  4F       10.503734       .3940648\n",
  chars! "  4F        7.320309       .3548888\n",
  chars! "  4F        4.940163       .1253131\n",
  chars! "  4F        3.007791       .0078850\n"]⟩

theorem neutral_au_ok : neutral_au.ok = true := by decide +kernel

/-- `data/neutral/hg`. -/
noncomputable def neutral_hg : DataFile := ⟨80, .neutral, [
  chars! "      MERCURY   [XE]4F(14)6S(2)5D(10), 1S                                             \n",
  chars! "      CHARGE = 80.000000\n",
  chars! "      SYMMETRY SPECIES               S     P     D     F \n",
  chars! "      NUMBER OF BASIS FUNCTIONS     13    10     9     6\n",
  chars! "      NUMBER OF CLOSED SHELLS        6     4     3     1\n",
  chars! "      NUMBER OF OPEN SHELLS          0     0     0     0\n",
  chars! "      OPEN SHELL OCCUPATION NUMBER   0     0     0     0\n",
  chars! "   E =-18408.991254661\n",
  chars! "   T = 18408.991325992     V =-36817.982580653     V/T =    -1.999999996\n",
  chars! "  ORBITAL ENERGIES AND EXPANSION COEFFICIENTS\n",
  chars! "        S                    1S             2S             3S             4S             5S             6S \n",
  chars! "  BASIS/ORB.ENERGY    -2778.6801370   -470.7349636   -113.1365180    -25.5732870     -4.1819252      -.2609854\n",
  chars! "  1S       98.407393       .0579610       .0194801      -.0063260       .0017158      -.0013031       .0002967\n",
  chars! "  1S       78.536315       .9396339      -.3674712       .1703640      -.0829030       .0362685      -.0092173\n",
  chars! "  2S       65.150893       .0034806      -.2505531       .1353694      -.0712106       .0296133      -.0076291\n",
  chars! "  2S       37.330051       .0022126      1.1554335      -.6037821       .3108227      -.1314979       .0337279\n",
  chars! "  3S       33.891651      -.0018310       .1076018      -.4588287       .2536265      -.1162904       .0296292\n",
  chars! "  3S       23.937157       .0014765       .0064621       .4677998       .0716950      -.0616309       .0180210\n",
  chars! "  3S       19.164856      -.0009038      -.0018700       .9536886     -1.3535425       .6825517      -.1795999\n",
  chars! "  3S        9.688704       .0005319       .0000330       .0528794      1.3570118      -.3165944       .0516334\n",
  chars! "  3S        8.234789      -.0004669      -.0001321      -.0333178       .0914619      -.9896312       .3312508\n",
  chars! "  3S        5.007613       .0001088       .0000568       .0045738       .0208747       .8675572      -.2900936\n",
  chars! "  3S        3.538904      -.0000408      -.0000156      -.0015571      -.0026074       .6694894      -.2681278\n",
  chars! "  3S        1.429284       .0000063       .0000026       .0001996       .0003808       .0040119       .5425470\n",
  chars! "  3S         .889673      -.0000029      -.0000012      -.0000884      -.0001569      -.0009913       .5775647\n",
  chars! "        P                    2P             3P             4P             5P \n",
  chars! "  BASIS/ORB.ENERGY     -452.1802281   -104.3406915    -21.6988419     -2.8507898\n",
  chars! "  2P       73.351279       .0075136      -.0026374       .0013778      -.0005876\n",
  chars! "  2P       42.080191       .7624465      -.3884233       .1917436      -.0767222\n",
  chars! "  3P       37.417209       .2542785      -.2859315       .1950097      -.0882093\n",
  chars! "  4P       30.282585       .0165738      -.1117375       .1740701      -.0975212\n",
  chars! "  3P       21.476918      -.0070305      1.1502851      -.9187055       .4453609\n",
  chars! "  3P       14.469768       .0027227       .2404704      -.7318203       .2750105\n",
  chars! "  3P       11.281557      -.0015470      -.0441605      1.3194948      -.6064221\n",
  chars! "  4P        9.281333       .0002295       .0058860       .4795723      -.5367627\n",
  chars! "  3P        4.128865      -.0000261      -.0007330       .0132060       .9708366\n",
  chars! "  3P        2.755971       .0000118       .0001864      -.0020977       .3524783\n",
  chars! "        D                    3D             4D             5D \n",
  chars! "  BASIS/ORB.ENERGY      -88.1452717    -14.6095306      -.7141274\n",
  chars! "  3D       45.619372       .0085415      -.0036231       .0011554\n",
  chars! "  3D       27.639683       .4974644      -.2606256       .0829471\n",
  chars! "  4D       22.702681       .4798983      -.2843293       .0947075\n",
  chars! "  4D       14.977821       .1024998       .1842863      -.0835224\n",
  chars! "  4D       11.080054      -.0224210       .5966800      -.2062859\n",
  chars! "  4D        8.180613       .0075717       .3659305      -.2089329\n",
  chars! "  4D        4.964891      -.0013650       .0178022       .4474578\n",
  chars! "  4D        3.064010       .0004448      -.0016043       .5721079\n",
  chars! "  4D        1.838315      -.0001132       .0003513       .2025146\n",
  chars! "        F                    4F \n",
  chars! "  BASIS/ORB.ENERGY       -5.0123031\n",
  chars! "  4F       26.289706       .0211615\n",
  chars! "  4F       15.957370       .2376280\n",
  chars! "  4F       10.811471       .3651802\n",
  chars! "  4F        7.904799       .3305479\n",
  chars! "  4F        5.582508       .1606072\n",
  chars! "  4F        3.629353       .0167193\n"]⟩

theorem neutral_hg_ok : neutral_hg.ok = true := by decide +kernel

/-- `data/neutral/tl`. -/
noncomputable def neutral_tl : DataFile := ⟨81, .neutral, [
  chars! "      TALLIUM   [XE]4F(14)6S(2)5D(10)6P(1), 2P                                        \n",
  chars! "      CHARGE = 81.000000\n",
  chars! "      SYMMETRY SPECIES               S     P     D     F \n",
  chars! "      NUMBER OF BASIS FUNCTIONS     13    12     9     6\n",
  chars! "      NUMBER OF CLOSED SHELLS        6     4     3     1\n",
  chars! "      NUMBER OF OPEN SHELLS          0     1     0     0\n",
  chars! "      OPEN SHELL OCCUPATION NUMBER   0     1     0     0\n",
  chars! "   E =-18961.824641669\n",
  chars! "   T = 18961.824692369     V =-37923.649334038     V/T =    -1.999999997\n",
  chars! "  ORBITAL ENERGIES AND EXPANSION COEFFICIENTS\n",
  chars! "        S                    1S             2S             3S             4S             5S             6S \n",
  chars! "  BASIS/ORB.ENERGY    -2851.5471549   -484.5601295   -117.1504314    -26.8833796     -4.6187318      -.3610882\n",
  chars! "  1S      103.436743       .0362873      -.0135523      -.0047341       .0016226      -.0004058      -.0000267\n",
  chars! "  1S       79.972778       .9589419       .3574259       .1674107      -.0826433       .0354640      -.0099642\n",
  chars! "  2S       66.565494       .0066211       .2506907       .1327365      -.0689918       .0308879      -.0091753\n",
  chars! "  2S       37.786246       .0015190     -1.1474438      -.5935397       .3042875      -.1346307       .0393116\n",
  chars! "  3S       34.935192      -.0012862      -.1079625      -.4324982       .2463570      -.1017426       .0275214\n",
  chars! "  3S       23.854182       .0011015      -.0123038       .3950645       .1509260      -.1948673       .0685918\n",
  chars! "  3S       19.646005      -.0006941       .0047949       .9966690     -1.3930532       .9191113      -.2901465\n",
  chars! "  4S       13.028118       .0003319      -.0007067       .0423874       .1038870       .4950242      -.1906808\n",
  chars! "  3S        9.620853      -.0002887       .0006847      -.0215247      1.3241911     -1.7634271       .6068776\n",
  chars! "  3S        4.644696       .0000517      -.0001254       .0020271       .0216616       .9924953      -.3654071\n",
  chars! "  3S        3.495830      -.0000305       .0000650      -.0012026      -.0060608       .4175842      -.2389689\n",
  chars! "  3S        1.538362       .0000058      -.0000119       .0002046       .0007527       .0021033       .6377681\n",
  chars! "  3S        1.003827      -.0000026       .0000053      -.0000905      -.0003113      -.0003923       .5057159\n",
  chars! "        P                    2P             3P             4P             5P             6P \n",
  chars! "  BASIS/ORB.ENERGY     -465.7266894   -108.1967591    -22.9176368     -3.2313262      -.1923760\n",
  chars! "  2P       75.656351      -.0064952      -.0019997       .0006459      -.0001679       .0000629\n",
  chars! "  2P       42.807966      -.7572746      -.3871171       .1935249      -.0794898       .0169105\n",
  chars! "  3P       38.003252      -.2559114      -.2490638       .1318632      -.0528984       .0117490\n",
  chars! "  3P       22.085285      -.0269090       .8688399      -.5375109       .2373849      -.0513271\n",
  chars! "  4P       22.083330       .0181179       .2174464      -.3238680       .1855248      -.0371981\n",
  chars! "  4P       12.487931       .0068118      -.0867369       .4786939      -.0110430       .0098532\n",
  chars! "  3P       12.486752      -.0094842       .2037032      -.1209031       .0787084      -.0283733\n",
  chars! "  3P        8.716768      -.0019129       .0130402       .8544410     -1.0296244       .2378189\n",
  chars! "  3P        4.389847       .0002001      -.0009163       .0136323       .8817594      -.2194381\n",
  chars! "  3P        3.082472      -.0000888       .0002706      -.0025062       .4664222      -.1713440\n",
  chars! "  3P        1.207403       .0000150      -.0000415       .0003067       .0053703       .5027994\n",
  chars! "  3P         .752814      -.0000071       .0000193      -.0001462      -.0010483       .5933590\n",
  chars! "        D                    3D             4D             5D \n",
  chars! "  BASIS/ORB.ENERGY      -91.7084442    -15.6529108      -.9682370\n",
  chars! "  3D       47.191938       .0071032      -.0029673       .0010243\n",
  chars! "  3D       28.279271       .4876249      -.2569474       .0859108\n",
  chars! "  4D       23.220471       .4858872      -.2891861       .1018045\n",
  chars! "  4D       15.344936       .1105288       .1592499      -.0811377\n",
  chars! "  4D       11.487604      -.0255889       .5824509      -.2041891\n",
  chars! "  4D        8.518873       .0084954       .3984668      -.2474161\n",
  chars! "  4D        5.232079      -.0015683       .0212979       .4377690\n",
  chars! "  4D        3.290478       .0005196      -.0020300       .5971334\n",
  chars! "  4D        2.031593      -.0001307       .0004139       .1872996\n",
  chars! "        F                    4F \n",
  chars! "  BASIS/ORB.ENERGY       -5.7852023\n",
  chars! "  4F       26.929334       .0198621\n",
  chars! "  4F       16.499440       .2204053\n",
  chars! "  4F       11.444569       .3447011\n",
  chars! "  5F        7.430050      -.5466218\n",
  chars! "  4F        6.673895      1.0381904\n",
  chars! "  4F        3.999648       .0224705\n"]⟩

theorem neutral_tl_ok : neutral_tl.ok = true := by decide +kernel

/-- `data/neutral/pb`. -/
noncomputable def neutral_pb : DataFile := ⟨82, .neutral, [
  chars! "      LEAD   [XE]4F(14)6S(2)5D(10)6P(2), 3P                                           \n",
  chars! "      CHARGE = 82.000000\n",
  chars! "      SYMMETRY SPECIES               S     P     D     F \n",
  chars! "      NUMBER OF BASIS FUNCTIONS     13    12     9     6\n",
  chars! "      NUMBER OF CLOSED SHELLS        6     4     3     1\n",
  chars! "      NUMBER OF OPEN SHELLS          0     1     0     0\n",
  chars! "      OPEN SHELL OCCUPATION NUMBER   0     2     0     0\n",
  chars! "   E =-19524.007861032\n",
  chars! "   T = 19524.007912162     V =-39048.015773194     V/T =    -1.999999997\n",
  chars! "  ORBITAL ENERGIES AND EXPANSION COEFFICIENTS\n",
  chars! "        S                    1S             2S             3S             4S             5S             6S \n",
  chars! "  BASIS/ORB.ENERGY    -2925.3697252   -498.5941318   -121.2383588    -28.2199110     -5.0555234      -.4562203\n",
  chars! "  1S      104.713731       .0357835      -.0133949      -.0046674       .0016673      -.0005456      -.0000060\n",
  chars! "  1S       80.980311       .9594008       .3572940       .1675779      -.0831242       .0363675      -.0109998\n",
  chars! "  2S       67.443613       .0066848       .2507875       .1328456      -.0690761       .0311197      -.0100100\n",
  chars! "  2S       38.232020       .0014634     -1.1498639      -.5952044       .3056666      -.1366460       .0431166\n",
  chars! "  3S       35.410237      -.0012352      -.1051112      -.4319426       .2493879      -.1064756       .0310454\n",
  chars! "  3S       23.936443       .0011039      -.0130036       .4303434       .1572893      -.2062312       .0792624\n",
  chars! "  3S       19.871630      -.0007232       .0054974       .9616885     -1.4300343       .9689970      -.3316759\n",
  chars! "  4S       13.328775       .0003444      -.0008731       .0424207       .0444109       .5631927      -.2285084\n",
  chars! "  3S        9.876587      -.0002988       .0008173      -.0213589      1.4038909     -1.8737720       .6933279\n",
  chars! "  3S        4.707823       .0000554      -.0001519       .0020112       .0245098      1.0535374      -.4056403\n",
  chars! "  3S        3.603001      -.0000348       .0000855      -.0012768      -.0079952       .3641069      -.2762494\n",
  chars! "  3S        1.658677       .0000070      -.0000161       .0002288       .0009826       .0019375       .6948970\n",
  chars! "  3S        1.106132      -.0000031       .0000071      -.0000983      -.0004023      -.0002348       .4758364\n",
  chars! "        P                    2P             3P             4P             5P             6P \n",
  chars! "  BASIS/ORB.ENERGY     -479.4813552   -112.1263511    -24.1623768     -3.6106705      -.2556834\n",
  chars! "  2P       76.554960      -.0064480      -.0019852       .0006398      -.0001646       .0000868\n",
  chars! "  2P       43.341456      -.7581928      -.3882040       .1948833      -.0816246       .0201172\n",
  chars! "  3P       38.511710      -.2546097      -.2489790       .1322020      -.0539589       .0141512\n",
  chars! "  3P       22.531112      -.0271564       .8475489      -.5216424       .2348838      -.0589523\n",
  chars! "  4P       22.530723       .0181643       .2339482      -.3303467       .1926048      -.0429587\n",
  chars! "  4P       12.764238       .0068604      -.0902468       .4957004      -.0115094       .0195882\n",
  chars! "  3P       12.761651      -.0095047       .2126152      -.1666253       .1080039      -.0452860\n",
  chars! "  3P        8.920439      -.0019622       .0135810       .8705878     -1.0823431       .2847161\n",
  chars! "  3P        4.517615       .0002231      -.0010285       .0148526       .8888882      -.2452225\n",
  chars! "  3P        3.250700      -.0001051       .0003307      -.0031175       .4730256      -.2310488\n",
  chars! "  3P        1.317867       .0000183      -.0000500       .0003677       .0055654       .6043551\n",
  chars! "  3P         .862335      -.0000089       .0000238      -.0001793      -.0010837       .5081607\n",
  chars! "        D                    3D             4D             5D \n",
  chars! "  BASIS/ORB.ENERGY      -95.3439152    -16.7208851     -1.2204131\n",
  chars! "  3D       48.110533       .0066542      -.0027646       .0010049\n",
  chars! "  3D       28.750592       .4850206      -.2571754       .0897676\n",
  chars! "  4D       23.625068       .4873804      -.2921051       .1076060\n",
  chars! "  4D       15.597300       .1135528       .1563671      -.0854359\n",
  chars! "  4D       11.717172      -.0282049       .5803236      -.2073003\n",
  chars! "  4D        8.758467       .0096674       .4007025      -.2740188\n",
  chars! "  4D        5.493821      -.0018642       .0234373       .4310208\n",
  chars! "  4D        3.502864       .0005995      -.0021613       .6235440\n",
  chars! "  4D        2.194676      -.0001452       .0004025       .1733214\n",
  chars! "        F                    4F \n",
  chars! "  BASIS/ORB.ENERGY       -6.5824179\n",
  chars! "  4F       27.357639       .0198836\n",
  chars! "  4F       16.730728       .2303157\n",
  chars! "  4F       11.435776       .3705979\n",
  chars! "  5F        7.517999      -.4764123\n",
  chars! "  4F        6.778528       .9348401\n",
  chars! "  4F        4.158712       .0189720\n"]⟩

theorem neutral_pb_ok : neutral_pb.ok = true := by decide +kernel

/-- `data/neutral/bi`. -/
noncomputable def neutral_bi : DataFile := ⟨83, .neutral, [
  chars! "      BISMUTH   [XE]4F(14)6S(2)5D(10)6P(3), 4S                                        \n",
  chars! "      CHARGE = 83.000000\n",
  chars! "      SYMMETRY SPECIES               S     P     D     F \n",
  chars! "      NUMBER OF BASIS FUNCTIONS     13    12     9     6\n",
  chars! "      NUMBER OF CLOSED SHELLS        6     4     3     1\n",
  chars! "      NUMBER OF OPEN SHELLS          0     1     0     0\n",
  chars! "      OPEN SHELL OCCUPATION NUMBER   0     3     0     0\n",
  chars! "   E =-20095.586252534\n",
  chars! "   T = 20095.586220804     V =-40191.172473338     V/T =    -2.000000002\n",
  chars! " \n",
  chars! "  ORBITAL ENERGIES AND EXPANSION COEFFICIENTS\n",
  chars! "        S                    1S             2S             3S             4S             5S             6S \n",
  chars! "  BASIS/ORB.ENERGY    -3000.1527444   -512.8417514   -125.4049466    -29.5874663     -5.4977663     -0.5516882\n",
  chars! "  1S      106.328367      0.0341165     -0.0131842     -0.0045474      0.0016852     -0.0006315      0.0000292\n",
  chars! "  1S       82.011128      0.9609275      0.3570209      0.1676222     -0.0835377      0.0371747     -0.0119129\n",
  chars! "  2S       68.287892      0.0068733      0.2516096      0.1335414     -0.0695053      0.0315991     -0.0107393\n",
  chars! "  2S       38.691586      0.0013863     -1.1526401     -0.5976714      0.3075901     -0.1391048      0.0464098\n",
  chars! "  3S       35.822829     -0.0011885     -0.1029109     -0.4346625      0.2536983     -0.1111024      0.0344120\n",
  chars! "  3S       24.123508      0.0011064     -0.0127695      0.4668267      0.1503135     -0.2091749      0.0859595\n",
  chars! "  3S       20.086799     -0.0007403      0.0055944      0.9293840     -1.4522977      1.0094573     -0.3674193\n",
  chars! "  4S       13.611590      0.0003585     -0.0009181      0.0417890     -0.0015770      0.6240979     -0.2670749\n",
  chars! "  3S       10.116856     -0.0003104      0.0008509     -0.0208257      1.4684493     -1.9777161      0.7774072\n",
  chars! "  3S        4.757245      0.0000583     -0.0001609      0.0018976      0.0267628      1.1542176     -0.4649991\n",
  chars! "  3S        3.651788     -0.0000389      0.0000966     -0.0012839     -0.0098271      0.2728694     -0.2947517\n",
  chars! "  3S        1.800290      0.0000087     -0.0000202      0.0002627      0.0013465      0.0017622      0.7166164\n",
  chars! "  3S        1.214185     -0.0000036      0.0000084     -0.0001055     -0.0005222     -0.0000350      0.4890306\n",
  chars! "        P                    2P             3P             4P             5P             6P \n",
  chars! "  BASIS/ORB.ENERGY     -493.4490188   -116.1341038    -25.4376451     -3.9946956     -0.3200945\n",
  chars! "  2P       77.331767     -0.0064626     -0.0019930      0.0006432     -0.0001589      0.0001014\n",
  chars! "  2P       43.879146     -0.7587573     -0.3891162      0.1961518     -0.0837354      0.0227372\n",
  chars! "  3P       39.038245     -0.2533289     -0.2484193      0.1322456     -0.0547555      0.0159566\n",
  chars! "  3P       23.017341     -0.0279196      0.8190471     -0.4991285      0.2292839     -0.0634256\n",
  chars! "  4P       23.016667      0.0186526      0.2541202     -0.3359387      0.2003211     -0.0485307\n",
  chars! "  4P       13.120480      0.0070199     -0.0927949      0.5089767     -0.0086403      0.0238021\n",
  chars! "  3P       13.118232     -0.0098684      0.2246144     -0.2343160      0.1417611     -0.0623101\n",
  chars! "  3P        9.144629     -0.0019658      0.0132236      0.9052883     -1.1359968      0.3290626\n",
  chars! "  3P        4.600151      0.0002409     -0.0010616      0.0161545      0.9326104     -0.2744868\n",
  chars! "  3P        3.378836     -0.0001225      0.0003731     -0.0040087      0.4395444     -0.2762268\n",
  chars! "  3P        1.434936      0.0000222     -0.0000563      0.0004757      0.0050712      0.6733935\n",
  chars! "  3P        0.962057     -0.0000106      0.0000261     -0.0002207     -0.0011365      0.4608023\n",
  chars! "        D                    3D             4D             5D \n",
  chars! "  BASIS/ORB.ENERGY      -99.0563650    -17.8181546     -1.4771426\n",
  chars! "  3D       49.029127      0.0061976     -0.0025577      0.0009800\n",
  chars! "  3D       29.255646      0.4807398     -0.2564407      0.0929027\n",
  chars! "  4D       24.066237      0.4887512     -0.2947678      0.1130701\n",
  chars! "  4D       15.927546      0.1183975      0.1409257     -0.0842736\n",
  chars! "  4D       12.051763     -0.0303032      0.5729942     -0.2072524\n",
  chars! "  4D        9.043747      0.0103129      0.4192902     -0.3041246\n",
  chars! "  4D        5.731630     -0.0020116      0.0259087      0.4251471\n",
  chars! "  4D        3.700914      0.0006383     -0.0024127      0.6482395\n",
  chars! "  4D        2.334962     -0.0001485      0.0004005      0.1595972\n",
  chars! "        F                    4F \n",
  chars! "  BASIS/ORB.ENERGY       -7.4086895\n",
  chars! "  4F       27.764767      0.0199837\n",
  chars! "  4F       16.963291      0.2393246\n",
  chars! "  4F       11.441274      0.3989225\n",
  chars! "  5F        7.601823     -0.4013883\n",
  chars! "  4F        6.885683      0.8246315\n",
  chars! "  4F        4.337840      0.0164899\n",
  chars! " \n"]⟩

theorem neutral_bi_ok : neutral_bi.ok = true := by decide +kernel

/-- `data/neutral/po`. -/
noncomputable def neutral_po : DataFile := ⟨84, .neutral, [
  chars! "      POLONIUM   [XE]4F(14)6S(2)5D(10)6P(4), 3P                                       \n",
  chars! "      CHARGE = 84.000000\n",
  chars! "      SYMMETRY SPECIES               S     P     D     F \n",
  chars! "      NUMBER OF BASIS FUNCTIONS     13    12     9     6\n",
  chars! "      NUMBER OF CLOSED SHELLS        6     4     3     1\n",
  chars! "      NUMBER OF OPEN SHELLS          0     1     0     0\n",
  chars! "      OPEN SHELL OCCUPATION NUMBER   0     4     0     0\n",
  chars! "   E =-20676.500744145\n",
  chars! "   T = 20676.500625502     V =-41353.001369647     V/T =    -2.000000006\n",
  chars! "  ORBITAL ENERGIES AND EXPANSION COEFFICIENTS\n",
  chars! "        S                    1S             2S             3S             4S             5S             6S \n",
  chars! "  BASIS/ORB.ENERGY    -3075.9134407   -527.3198967   -129.6668659    -31.0025557     -5.9620735      -.6582429\n",
  chars! "  1S      107.662632       .0335408      -.0132086      -.0045048       .0017741      -.0007062       .0000656\n",
  chars! "  1S       83.017194       .9615019       .3571771       .1678249      -.0840791       .0379697      -.0127827\n",
  chars! "  2S       69.115164       .0068756       .2522884       .1342005      -.0698208       .0321115      -.0114235\n",
  chars! "  2S       39.156661       .0013521     -1.1551544      -.6000423       .3092412      -.1416106       .0495083\n",
  chars! "  3S       36.235025      -.0011684      -.1011324      -.4375175       .2587271      -.1155746       .0377170\n",
  chars! "  3S       24.316654       .0011211      -.0123808       .5051071       .1361868      -.2107195       .0919189\n",
  chars! "  3S       20.292194      -.0007610       .0055687       .8955109     -1.4646827      1.0493009      -.4029773\n",
  chars! "  4S       13.862770       .0003794      -.0009340       .0413751      -.0309827       .6851864      -.3088320\n",
  chars! "  3S       10.340302      -.0003299       .0008642      -.0208043      1.5144703     -2.0872272       .8665087\n",
  chars! "  3S        4.835940       .0000625      -.0001658       .0018627       .0284194      1.2363985      -.5170948\n",
  chars! "  3S        3.714369      -.0000436       .0001040      -.0013213      -.0112159       .2042944      -.3256025\n",
  chars! "  3S        1.941823       .0000106      -.0000235       .0002993       .0016712       .0024488       .7528444\n",
  chars! "  3S        1.311138      -.0000041       .0000091      -.0001107      -.0006029      -.0000500       .4946105\n",
  chars! "        P                    2P             3P             4P             5P             6P \n",
  chars! "  BASIS/ORB.ENERGY     -507.6466157   -120.2366712    -26.7599228     -4.4001209      -.3414522\n",
  chars! "  2P       78.287503      -.0063816      -.0019674       .0006349      -.0001587       .0000931\n",
  chars! "  2P       44.424063      -.7592460      -.3899429       .1973572      -.0857188       .0249714\n",
  chars! "  3P       39.555229      -.2525362      -.2484097       .1326497      -.0558509       .0171766\n",
  chars! "  3P       23.458904      -.0281619       .8002590      -.4857414       .2268617      -.0671607\n",
  chars! "  4P       23.448994       .0186763       .2686797      -.3423486       .2065815      -.0558279\n",
  chars! "  4P       13.364416       .0071009      -.0967825       .5267164      -.0121839       .0196048\n",
  chars! "  3P       13.363421      -.0098751       .2327227      -.2686136       .1704978      -.0721005\n",
  chars! "  3P        9.337108      -.0020497       .0141570       .9121452     -1.1851851       .3755436\n",
  chars! "  3P        4.710557       .0002733      -.0012369       .0173308       .9634369      -.2966141\n",
  chars! "  3P        3.530875      -.0001476       .0004802      -.0048511       .4232643      -.3238386\n",
  chars! "  3P        1.603240       .0000249      -.0000658       .0005101       .0061022       .6651437\n",
  chars! "  3P        1.031749      -.0000103       .0000267      -.0002152      -.0005230       .5033076\n",
  chars! "        D                    3D             4D             5D \n",
  chars! "  BASIS/ORB.ENERGY     -102.8625322    -18.9613565     -1.7552803\n",
  chars! "  3D       49.998233       .0057382      -.0023535       .0009415\n",
  chars! "  3D       29.763139       .4765483      -.2556703       .0957653\n",
  chars! "  4D       24.506491       .4902017      -.2975487       .1182219\n",
  chars! "  4D       16.257625       .1227910       .1274900      -.0825814\n",
  chars! "  4D       12.359076      -.0320613       .5706160      -.2104055\n",
  chars! "  4D        9.303793       .0109043       .4318088      -.3292536\n",
  chars! "  4D        5.946018      -.0021636       .0276584       .4234817\n",
  chars! "  4D        3.885400       .0006820      -.0026435       .6691334\n",
  chars! "  4D        2.463053      -.0001524       .0003925       .1458308\n",
  chars! "        F                    4F \n",
  chars! "  BASIS/ORB.ENERGY       -8.2806734\n",
  chars! "  4F       28.178564       .0200415\n",
  chars! "  4F       17.204040       .2474073\n",
  chars! "  4F       11.459603       .4301177\n",
  chars! "  5F        7.676215      -.3205019\n",
  chars! "  4F        6.997082       .7061270\n",
  chars! "  4F        4.545544       .0151366\n"]⟩

theorem neutral_po_ok : neutral_po.ok = true := by decide +kernel

/-- `data/neutral/at`. -/
noncomputable def neutral_at : DataFile := ⟨85, .neutral, [
  chars! "      ASTATINE   [XE]4F(14)6S(2)5D(10)6P(5), 2P                                       \n",
  chars! "      CHARGE = 85.000000\n",
  chars! "      SYMMETRY SPECIES               S     P     D     F \n",
  chars! "      NUMBER OF BASIS FUNCTIONS     13    12     9     6\n",
  chars! "      NUMBER OF CLOSED SHELLS        6     4     3     1\n",
  chars! "      NUMBER OF OPEN SHELLS          0     1     0     0\n",
  chars! "      OPEN SHELL OCCUPATION NUMBER   0     5     0     0\n",
  chars! "   E =-21266.881543541\n",
  chars! "   T = 21266.881493653     V =-42533.763037194     V/T =    -2.000000002\n",
  chars! "  ORBITAL ENERGIES AND EXPANSION COEFFICIENTS\n",
  chars! "        S                    1S             2S             3S             4S             5S             6S \n",
  chars! "  BASIS/ORB.ENERGY    -3152.6331852   -542.0100862   -134.0056106    -32.4467441     -6.4310167      -.7653618\n",
  chars! "  1S      108.903934       .0332539      -.0132611      -.0045107       .0018432      -.0007539       .0000881\n",
  chars! "  1S       84.018911       .9617942       .3573754       .1680981      -.0845897       .0387139      -.0135492\n",
  chars! "  2S       69.951611       .0068748       .2527617       .1346376      -.0701147       .0326496      -.0120534\n",
  chars! "  2S       39.611892       .0013090     -1.1579306      -.6022614       .3110138      -.1442413       .0523611\n",
  chars! "  3S       36.654114      -.0011376      -.0987201      -.4403680       .2630913      -.1193767       .0405555\n",
  chars! "  3S       24.547370       .0011100      -.0121631       .5393304       .1215167      -.2128304       .0976171\n",
  chars! "  3S       20.496500      -.0007588       .0055686       .8659456     -1.4765875      1.0930937      -.4386258\n",
  chars! "  4S       14.102471       .0003992      -.0009848       .0407013      -.0602258       .7598802      -.3560886\n",
  chars! "  3S       10.565212      -.0003512       .0009134      -.0207425      1.5606882     -2.2158759       .9606495\n",
  chars! "  3S        4.939179       .0000696      -.0001828       .0018652       .0308147      1.2910016      -.5438141\n",
  chars! "  3S        3.843808      -.0000505       .0001198      -.0013795      -.0130400       .1649685      -.3757999\n",
  chars! "  3S        2.082126       .0000123      -.0000267       .0003135       .0018798       .0046114       .7766703\n",
  chars! "  3S        1.407323      -.0000045       .0000098      -.0001078      -.0006396      -.0003687       .5104669\n",
  chars! "        P                    2P             3P             4P             5P             6P \n",
  chars! "  BASIS/ORB.ENERGY     -522.0556682   -124.4155900    -28.1108579     -4.8098372      -.3798486\n",
  chars! "  2P       79.295777      -.0062490      -.0019388       .0006246      -.0001591       .0000880\n",
  chars! "  2P       45.026511      -.7574734      -.3895107       .1979189      -.0873686       .0270169\n",
  chars! "  3P       40.133432      -.2538335      -.2485208       .1329574      -.0569077       .0183706\n",
  chars! "  3P       23.914315      -.0292880       .7771505      -.4691949       .2219954      -.0696780\n",
  chars! "  4P       23.911162       .0192391       .2861947      -.3498446       .2120916      -.0624260\n",
  chars! "  4P       13.577284       .0075516      -.1079335       .5641122      -.0329344       .0226124\n",
  chars! "  3P       13.501981      -.0102374       .2472330      -.3049989       .2050841      -.0857368\n",
  chars! "  3P        9.503258      -.0021982       .0157603       .9018454     -1.2239384       .4179668\n",
  chars! "  3P        4.822702       .0003212      -.0015395       .0177679      1.0044047      -.3191468\n",
  chars! "  3P        3.674635      -.0001814       .0006590      -.0053807       .3997921      -.3710492\n",
  chars! "  3P        1.751098       .0000296      -.0000877       .0005156       .0074286       .6788741\n",
  chars! "  3P        1.110812      -.0000111       .0000329      -.0002131      -.0000056       .5205260\n",
  chars! "        D                    3D             4D             5D \n",
  chars! "  BASIS/ORB.ENERGY     -106.7439473    -20.1321468     -2.0378931\n",
  chars! "  3D       50.967339       .0053403      -.0021762       .0009046\n",
  chars! "  3D       30.252536       .4733143      -.2553726       .0985443\n",
  chars! "  4D       24.929837       .4914435      -.3002285       .1230827\n",
  chars! "  4D       16.556179       .1264566       .1187754      -.0826159\n",
  chars! "  4D       12.631391      -.0341821       .5691878      -.2121996\n",
  chars! "  4D        9.553285       .0117780       .4388858      -.3541969\n",
  chars! "  4D        6.184273      -.0023889       .0296509       .4155763\n",
  chars! "  4D        4.084597       .0007335      -.0027925       .6923676\n",
  chars! "  4D        2.594201      -.0001555       .0003621       .1384108\n",
  chars! "        F                    4F \n",
  chars! "  BASIS/ORB.ENERGY       -9.1800580\n",
  chars! "  4F       28.618551       .0199313\n",
  chars! "  4F       17.482248       .2520908\n",
  chars! "  4F       11.555443       .4552758\n",
  chars! "  5F        7.769969      -.2580323\n",
  chars! "  4F        7.135223       .6140219\n",
  chars! "  4F        4.780973       .0147295\n"]⟩

theorem neutral_at_ok : neutral_at.ok = true := by decide +kernel

/-- `data/neutral/rn`. -/
noncomputable def neutral_rn : DataFile := ⟨86, .neutral, [
  chars! "      RADON   [XE]4F(14)6S(2)5D(10)6P(6), 1S                                          \n",
  chars! "      CHARGE = 86.000000\n",
  chars! "      SYMMETRY SPECIES               S     P     D     F \n",
  chars! "      NUMBER OF BASIS FUNCTIONS     13    12     9     6\n",
  chars! "      NUMBER OF CLOSED SHELLS        6     5     3     1\n",
  chars! "      NUMBER OF OPEN SHELLS          0     0     0     0\n",
  chars! "      OPEN SHELL OCCUPATION NUMBER   0     0     0     0\n",
  chars! "   E =-21866.772070663\n",
  chars! "   T = 21866.772036482     V =-43733.544107144     V/T =    -2.000000002\n",
  chars! "  ORBITAL ENERGIES AND EXPANSION COEFFICIENTS\n",
  chars! "        S                    1S             2S             3S             4S             5S             6S \n",
  chars! "  BASIS/ORB.ENERGY    -3230.3128071   -556.9130894   -138.4218513    -33.9207084     -6.9057944      -.8739761\n",
  chars! "  1S      110.161562       .0329517      -.0132734      -.0044568       .0019112      -.0007871       .0000927\n",
  chars! "  1S       85.019704       .9621167       .3575218       .1682829      -.0850950       .0394232      -.0142277\n",
  chars! "  2S       70.796388       .0068459       .2530795       .1350895      -.0703500       .0331817      -.0126558\n",
  chars! "  2S       40.050427       .0012889     -1.1614697      -.6050995       .3129572      -.1469808       .0550904\n",
  chars! "  3S       37.065897      -.0011281      -.0951595      -.4424084       .2675298      -.1230271       .0430876\n",
  chars! "  3S       24.761481       .0011231      -.0122719       .5781020       .1024904      -.2149576       .1033738\n",
  chars! "  3S       20.686346      -.0007716       .0057686       .8318804     -1.4863022      1.1426708      -.4758569\n",
  chars! "  4S       14.330607       .0004377      -.0011489       .0404208      -.0909855       .8500038      -.4082278\n",
  chars! "  3S       10.794813      -.0003925       .0010701      -.0212498      1.6097908     -2.3660702      1.0595089\n",
  chars! "  3S        5.057300       .0000864      -.0002351       .0020892       .0352439      1.3240326      -.5302389\n",
  chars! "  3S        4.066550      -.0000650       .0001625      -.0016019      -.0163650       .1479778      -.4523669\n",
  chars! "  3S        2.209589       .0000137      -.0000312       .0003177       .0019142       .0078868       .7912280\n",
  chars! "  3S        1.500547      -.0000048       .0000112      -.0001052      -.0006415      -.0008856       .5253702\n",
  chars! "        P                    2P             3P             4P             5P             6P \n",
  chars! "  BASIS/ORB.ENERGY     -536.6769548   -128.6715400    -29.4911484     -5.2251877      -.4279881\n",
  chars! "  2P       80.413094      -.0060839      -.0018905       .0006080      -.0001628       .0000892\n",
  chars! "  2P       45.595893      -.7571905      -.3898567       .1988549      -.0891800       .0287190\n",
  chars! "  3P       40.661311      -.2541249      -.2490845       .1336683      -.0582923       .0195278\n",
  chars! "  3P       24.299025      -.0293931       .7684302      -.4647665       .2226259      -.0727009\n",
  chars! "  4P       24.298213       .0190970       .2948713      -.3566654       .2168487      -.0669716\n",
  chars! "  4P       13.697119       .0074416      -.1090586       .5929499      -.0484333       .0284913\n",
  chars! "  3P       13.696884      -.0097954       .2464512      -.2976463       .2237719      -.0953641\n",
  chars! "  3P        9.640567      -.0024121       .0185618       .8663973     -1.2638682       .4509851\n",
  chars! "  3P        4.991556       .0003923      -.0020462       .0182063       .9945500      -.3030347\n",
  chars! "  3P        3.885248      -.0002254       .0009345      -.0057488       .4358856      -.4464629\n",
  chars! "  3P        1.877545       .0000328      -.0001130       .0004838       .0080774       .6989789\n",
  chars! "  3P        1.190797      -.0000118       .0000390      -.0001703      -.0010911       .5241515\n",
  chars! "        D                    3D             4D             5D \n",
  chars! "  BASIS/ORB.ENERGY     -110.7013222    -21.3312892     -2.3262971\n",
  chars! "  3D       52.058235       .0048754      -.0019690       .0008485\n",
  chars! "  3D       30.769357       .4690494      -.2544344       .1008496\n",
  chars! "  4D       25.372633       .4931618      -.3030732       .1277505\n",
  chars! "  4D       16.878426       .1307111       .1072420      -.0804229\n",
  chars! "  4D       12.915741      -.0360688       .5705827      -.2166253\n",
  chars! "  4D        9.793952       .0125107       .4463191      -.3757659\n",
  chars! "  4D        6.388020      -.0025997       .0308617       .4139341\n",
  chars! "  4D        4.266585       .0007947      -.0029764       .7097149\n",
  chars! "  4D        2.711132      -.0001606       .0003347       .1298232\n",
  chars! "        F                    4F \n",
  chars! "  BASIS/ORB.ENERGY      -10.1076184\n",
  chars! "  4F       29.091519       .0196357\n",
  chars! "  4F       17.792862       .2541992\n",
  chars! "  4F       11.693545       .4806186\n",
  chars! "  5F        7.686730      -.2542278\n",
  chars! "  4F        7.106004       .5847619\n",
  chars! "  4F        4.841159       .0099519\n"]⟩

theorem neutral_rn_ok : neutral_rn.ok = true := by decide +kernel

/-- `data/neutral/fr`. -/
noncomputable def neutral_fr : DataFile := ⟨87, .neutral, [
  chars! "      FRANCIUM   [RN]7S(1), 2S                                                        \n",
  chars! "      CHARGE = 87.000000\n",
  chars! "      SYMMETRY SPECIES               S     P     D     F \n",
  chars! "      NUMBER OF BASIS FUNCTIONS     15    12     9     6\n",
  chars! "      NUMBER OF CLOSED SHELLS        6     5     3     1\n",
  chars! "      NUMBER OF OPEN SHELLS          1     0     0     0\n",
  chars! "      OPEN SHELL OCCUPATION NUMBER   1     0     0     0\n",
  chars! "   E =-22475.858530260\n",
  chars! "   T = 22475.858541552     V =-44951.717071811     V/T =    -1.999999999\n",
  chars! "  ORBITAL ENERGIES AND EXPANSION COEFFICIENTS\n",
  chars! "        S                    1S             2S             3S             4S             5S             6S             7S \n",
  chars! "  BASIS/ORB.ENERGY    -3309.1448396   -572.2204642   -143.1065757    -35.6150173     -7.5757478     -1.1273000      -.1178932\n",
  chars! "  1S      101.978322       .1049016       .0301072      -.0091116       .0038646      -.0031233       .0009162      -.0004537\n",
  chars! "  1S       84.676698       .8960690      -.3859513       .1778917      -.0897664       .0439659      -.0167027       .0042257\n",
  chars! "  2S       70.148749      -.0011166      -.2523583       .1405389      -.0739110       .0331312      -.0132695       .0027988\n",
  chars! "  2S       40.722793       .0031237      1.1731369      -.6238729       .3247476      -.1497966       .0589841      -.0132290\n",
  chars! "  3S       36.564250      -.0025475       .1015472      -.4918961       .2982275      -.1554445       .0592265      -.0153442\n",
  chars! "  3S       25.685340       .0023280       .0013850       .6697092      -.0604433       .0103387       .0050434       .0031248\n",
  chars! "  3S       20.647336      -.0015781      -.0001159       .7955779     -1.3545903       .7399800      -.3049377       .0663145\n",
  chars! "  4S       10.669335      -.0005334       .0002397      -.0173030      -.1223855      -.4603996       .2393457      -.0681332\n",
  chars! "  3S       10.668939       .0006894      -.0004536       .0342886      1.6310878     -1.0370255       .4368223      -.0969861\n",
  chars! "  3S        5.409521       .0002513      -.0000293       .0029153       .0343317      1.2657293      -.4947820       .1370248\n",
  chars! "  3S        4.319102      -.0001689       .0000265      -.0018688      -.0135478       .3119492      -.6073945       .1392960\n",
  chars! "  3S        2.279605       .0000394      -.0000072       .0003784       .0016029       .0030520       .8565166      -.2072293\n",
  chars! "  3S        1.670162      -.0000185       .0000030      -.0001646      -.0007249       .0004655       .4813671      -.2153866\n",
  chars! "  3S         .557011       .0000021      -.0000003       .0000174       .0000652      -.0000381       .0004398      1.0492184\n",
  chars! "  3S         .310522      -.0000010       .0000002      -.0000082      -.0000299       .0000147       .0001943       .0151924\n",
  chars! "        P                    2P             3P             4P             5P             6P \n",
  chars! "  BASIS/ORB.ENERGY     -551.7019724   -133.1951900    -31.0907931     -5.8341997      -.6285280\n",
  chars! "  2P       81.894857      -.0057213      -.0017966       .0005709      -.0001598       .0000940\n",
  chars! "  2P       46.267422      -.7533186      -.3881639       .1987343      -.0904082       .0316642\n",
  chars! "  3P       41.274041      -.2581576      -.2504987       .1346064      -.0597586       .0217406\n",
  chars! "  3P       24.715008      -.0301821       .7528279      -.4556210       .2202705      -.0781616\n",
  chars! "  4P       24.713525       .0192319       .3093042      -.3667702       .2220801      -.0747993\n",
  chars! "  4P       13.785538       .0075680      -.1174084       .6437556      -.0834275       .0464653\n",
  chars! "  3P       13.784914      -.0095320       .2515588      -.2877773       .2439392      -.1117125\n",
  chars! "  3P        9.739078      -.0026709       .0225049       .8074363     -1.2920876       .5001783\n",
  chars! "  3P        5.219959       .0004928      -.0028907       .0178430       .9294218      -.2648081\n",
  chars! "  3P        4.136671      -.0002795       .0013540      -.0054594       .5346263      -.5780156\n",
  chars! "  3P        1.942765       .0000382      -.0001541       .0003824       .0098489       .8186689\n",
  chars! "  3P        1.331098      -.0000159       .0000618      -.0001565      -.0021487       .4222476\n",
  chars! "        D                    3D             4D             5D \n",
  chars! "  BASIS/ORB.ENERGY     -114.9255541    -22.7491306     -2.8082663\n",
  chars! "  3D       53.149130       .0044859      -.0017858       .0008045\n",
  chars! "  3D       31.255929       .4662720      -.2543195       .1033411\n",
  chars! "  4D       25.782513       .4952756      -.3058970       .1325415\n",
  chars! "  4D       17.066339       .1361156       .1060475      -.0863388\n",
  chars! "  4D       13.175203      -.0430281       .5548491      -.2003948\n",
  chars! "  4D       10.104259       .0155601       .4560006      -.4147784\n",
  chars! "  4D        6.779322      -.0033399       .0375433       .3682830\n",
  chars! "  4D        4.560110       .0009553      -.0031326       .7454395\n",
  chars! "  4D        2.969156      -.0001897       .0003250       .1509181\n",
  chars! "        F                    4F \n",
  chars! "  BASIS/ORB.ENERGY      -11.2537117\n",
  chars! "  4F       29.655976       .0188665\n",
  chars! "  4F       18.197881       .2488374\n",
  chars! "  4F       12.033467       .4753176\n",
  chars! "  5F        7.920612      -.2872011\n",
  chars! "  4F        7.290968       .6289353\n",
  chars! "  4F        4.727672       .0054266\n"]⟩

theorem neutral_fr_ok : neutral_fr.ok = true := by decide +kernel

/-- `data/neutral/ra`. -/
noncomputable def neutral_ra : DataFile := ⟨88, .neutral, [
  chars! "      RADIUM   [RN]7S(2), 1S                                                          \n",
  chars! "      CHARGE = 88.000000\n",
  chars! "      SYMMETRY SPECIES               S     P     D     F \n",
  chars! "      NUMBER OF BASIS FUNCTIONS     15    12     9     6\n",
  chars! "      NUMBER OF CLOSED SHELLS        7     5     3     1\n",
  chars! "      NUMBER OF OPEN SHELLS          0     0     0     0\n",
  chars! "      OPEN SHELL OCCUPATION NUMBER   0     0     0     0\n",
  chars! "   E =-23094.303492621\n",
  chars! "   T = 23094.303625461     V =-46188.607118082     V/T =    -1.999999994\n",
  chars! "  ORBITAL ENERGIES AND EXPANSION COEFFICIENTS\n",
  chars! "        S                    1S             2S             3S             4S             5S             6S             7S \n",
  chars! "  BASIS/ORB.ENERGY    -3388.9410404   -587.7442073   -147.8717299    -37.3415712     -8.2531697     -1.3706758      -.1487604\n",
  chars! "  1S      102.772371       .1096751       .0318380      -.0096438       .0042678      -.0033412       .0010642      -.0004524\n",
  chars! "  1S       85.593215       .8915113      -.3886018       .1790025      -.0907842       .0449412      -.0179371       .0052870\n",
  chars! "  2S       70.820905      -.0014083      -.2535717       .1418275      -.0746319       .0338972      -.0142064       .0038403\n",
  chars! "  2S       41.242337       .0031514      1.1748681      -.6264931       .3267457      -.1525735       .0629507      -.0175042\n",
  chars! "  3S       36.905364      -.0025815       .1029751      -.5007628       .3066762      -.1615524       .0647567      -.0193205\n",
  chars! "  3S       25.990833       .0023840      -.0004920       .7018671      -.0888788       .0244735      -.0005621       .0027685\n",
  chars! "  3S       20.824259      -.0016251       .0007897       .7742060     -1.3498968       .7480979      -.3237033       .0889003\n",
  chars! "  4S       10.834095      -.0005837       .0004658      -.0157038      -.1378765      -.4802696       .2645110      -.0853782\n",
  chars! "  3S       10.835315       .0007414      -.0007541       .0313323      1.6577775     -1.0696024       .4730707      -.1314972\n",
  chars! "  3S        5.559242       .0003038      -.0001365       .0027072       .0368847      1.2903628      -.4934123       .1499719\n",
  chars! "  3S        4.498561      -.0002080       .0000991      -.0017672      -.0150884       .3183558      -.7063196       .2227461\n",
  chars! "  3S        2.306842       .0000525      -.0000258       .0003806       .0017703       .0044793      1.1129129      -.3486209\n",
  chars! "  3S        1.710801      -.0000306       .0000145      -.0002055      -.0009736      -.0003307       .2612706      -.2434046\n",
  chars! "  3S         .761325       .0000086      -.0000040       .0000540       .0002231       .0000198      -.0038689       .7068613\n",
  chars! "  3S         .569949      -.0000048       .0000022      -.0000298      -.0001209      -.0000031       .0018555       .4324472\n",
  chars! "        P                    2P             3P             4P             5P             6P \n",
  chars! "  BASIS/ORB.ENERGY     -566.9427808   -137.7986607    -32.7220010     -6.4498760      -.8198116\n",
  chars! "  2P       83.018450      -.0055746      -.0017521       .0005561      -.0001638       .0001031\n",
  chars! "  2P       46.836527      -.7530880      -.3885261       .1996493      -.0920646       .0343839\n",
  chars! "  3P       41.801671      -.2583868      -.2509679       .1352715      -.0610444       .0237117\n",
  chars! "  3P       25.187270      -.0298978       .7354511      -.4453769       .2176547      -.0823287\n",
  chars! "  4P       25.102935       .0186963       .3267092      -.3782728       .2290386      -.0821659\n",
  chars! "  4P       13.925446       .0075895      -.1236610       .6849932      -.1118114       .0642914\n",
  chars! "  3P       13.918592      -.0093014       .2561285      -.2855077       .2624712      -.1278195\n",
  chars! "  3P        9.852338      -.0028118       .0253284       .7646152     -1.3244952       .5449588\n",
  chars! "  3P        5.415789       .0005555      -.0035764       .0170906       .9096788      -.2361147\n",
  chars! "  3P        4.328539      -.0003073       .0016664      -.0050457       .5881836      -.7002996\n",
  chars! "  3P        1.999556       .0000366      -.0001652       .0002686       .0095365      1.0306082\n",
  chars! "  3P        1.359217      -.0000151       .0000656      -.0001065      -.0023955       .2416654\n",
  chars! "        D                    3D             4D             5D \n",
  chars! "  BASIS/ORB.ENERGY     -119.2287342    -24.1977967     -3.2968683\n",
  chars! "  3D       54.653258       .0038909      -.0015145       .0007160\n",
  chars! "  3D       31.812073       .4608977      -.2526540       .1050504\n",
  chars! "  4D       26.239889       .4986425      -.3092364       .1373652\n",
  chars! "  4D       17.292475       .1446404       .0969944      -.0887128\n",
  chars! "  4D       13.510169      -.0516686       .5329369      -.1803875\n",
  chars! "  4D       10.453460       .0189476       .4773240      -.4538996\n",
  chars! "  4D        7.146561      -.0041161       .0456041       .3245785\n",
  chars! "  4D        4.838823       .0011286      -.0034510       .7742441\n",
  chars! "  4D        3.220235      -.0002231       .0003466       .1715341\n",
  chars! "        F                    4F \n",
  chars! "  BASIS/ORB.ENERGY      -12.4305020\n",
  chars! "  4F       30.150869       .0184731\n",
  chars! "  4F       18.531819       .2488904\n",
  chars! "  4F       12.237536       .4875180\n",
  chars! "  5F        8.036556      -.2696101\n",
  chars! "  4F        7.428155       .5984041\n",
  chars! "  4F        4.881720       .0045264\n"]⟩

theorem neutral_ra_ok : neutral_ra.ok = true := by decide +kernel

/-- Part 6 of the files. -/
noncomputable def part6 : List DataFile := [
  neutral_au, neutral_hg, neutral_tl, neutral_pb, neutral_bi, neutral_po, neutral_at, neutral_rn, neutral_fr, neutral_ra]

theorem part6_ok : ∀ d ∈ part6, d.ok = true := by
  intro d hd
  unfold part6 at hd
  simp only [List.mem_cons, List.not_mem_nil, or_false] at hd
  rcases hd with rfl | rfl | rfl | rfl | rfl | rfl | rfl | rfl | rfl | rfl
  · exact neutral_au_ok
  · exact neutral_hg_ok
  · exact neutral_tl_ok
  · exact neutral_pb_ok
  · exact neutral_bi_ok
  · exact neutral_po_ok
  · exact neutral_at_ok
  · exact neutral_rn_ok
  · exact neutral_fr_ok
  · exact neutral_ra_ok

end BFit.Data
