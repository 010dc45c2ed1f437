import Verif.Lemmas.DataNum

/-! Copy of files in /repo/bfit/data/data.tar, generated by tools/gendata.py. -/

namespace BFit.Data

/-- `data/anion/se`. -/
noncomputable def anion_se : DataFile := ⟨34, .anion, [
  chars! "      SELENIUM-   K(2)L(8)M(18)4S(2)4P(5), 2P                                         \n",
  chars! "   E = -2399.904724280\n",
  chars! "   T =  2399.904733005     V = -4799.809457286     V/T =    -1.999999996\n",
  chars! "  ORBITAL ENERGIES AND EXPANSION COEFFICIENTS\n",
  chars! "        S                    1S             2S             3S             4S \n",
  chars! "  BASIS/ORB.ENERGY     -460.5653775    -60.3668275     -8.6296780     -0.5599473\n",
  chars! "              CUSP        1.0004616      1.0004840      1.0007344      1.0006654\n",
  chars! "  1S       56.492283     -0.0142700     -0.0459459     -0.0194517      0.0066499\n",
  chars! "  3S       41.849649      0.0225967      0.0498082      0.0214848     -0.0073084\n",
  chars! "  1S       34.849601      0.9788984      0.3920689      0.1588263     -0.0527793\n",
  chars! "  4S       23.890667     -0.0263316     -0.1059705     -0.0385701      0.0139074\n",
  chars! "  2S       14.338307      0.0693696     -0.8145290     -0.4070736      0.0874963\n",
  chars! "  3S       14.323000     -0.0297976     -0.1450358     -0.3171158      0.1195343\n",
  chars! "  3S        6.610870     -0.0109904      0.0692396      0.3155885      0.0232068\n",
  chars! "  2S        5.476009      0.0154286     -0.1117019      0.7759354     -0.3180606\n",
  chars! "  2S        3.828650     -0.0005167      0.0164892      0.2735161     -0.7305751\n",
  chars! "  2S        1.741750      0.0006514      0.0123772      0.1558354      0.3583077\n",
  chars! "  2S        1.121369      0.0005733      0.0128815      0.1607989     -0.1444863\n",
  chars! "  1S        0.991886     -0.0013908     -0.0297076     -0.3711167      1.2058770\n",
  chars! "  1S        0.450481      0.0000072      0.0000218      0.0003433      0.0058397\n",
  chars! "        P                    2P             3P             4P \n",
  chars! "  BASIS/ORB.ENERGY      -53.9672475     -6.3600390     -0.1014667\n",
  chars! "              CUSP        1.0009805      0.9993955      0.9999119\n",
  chars! "  2P       52.021585     -0.0060016     -0.0038152     -0.0009383\n",
  chars! "  3P       42.345087     -0.0135145     -0.0084432     -0.0020823\n",
  chars! "  2P       24.776042      0.3472942      0.1681230      0.0389540\n",
  chars! "  3P       19.667209      0.4357847      0.2033659      0.0458730\n",
  chars! "  3P       14.121030      0.3052341      0.3061019      0.0787100\n",
  chars! "  2P        6.738664      0.0200974     -0.5503386     -0.1702394\n",
  chars! "  3P        5.842328     -0.0037066     -0.5603257     -0.1206358\n",
  chars! "  3P        4.279773      0.0011642     -0.1652721     -0.2173729\n",
  chars! "  3P        1.344317      0.0003573      0.0043766     -0.5105746\n",
  chars! "  2P        1.133042     -0.0004351     -0.0073424      1.3684020\n",
  chars! "  2P        0.660219     -0.0000299      0.0001133      0.2690489\n",
  chars! "  2P        0.450481      0.0000120     -0.0000973      0.0164944\n",
  chars! "        D                    3D \n",
  chars! "  BASIS/ORB.ENERGY       -2.3479288\n",
  chars! "              CUSP        0.9998843\n",
  chars! "  3D       33.093837      0.0012724\n",
  chars! "  4D       25.549208      0.0058150\n",
  chars! "  3D       11.229189      0.1256747\n",
  chars! "  3D        8.375129      0.1218554\n",
  chars! "  3D        6.984656      0.2576887\n",
  chars! "  3D        4.764977      0.4281566\n",
  chars! "  3D        3.177210      0.1693564\n",
  chars! "  3D        1.747553      0.0069414\n",
  chars! "  3D        0.450481      0.0000579\n",
  chars! "\n"]⟩

theorem anion_se_ok : anion_se.ok = true := by decide +kernel

/-- `data/anion/br`. -/
noncomputable def anion_br : DataFile := ⟨35, .anion, [
  chars! "      BROMINE-   K(2)L(8)M(18)4S(2)4P(6), 1S                                          \n",
  chars! "   E = -2572.536271045\n",
  chars! "   T =  2572.536270073     V = -5145.072541118     V/T =    -2.000000000\n",
  chars! "  ORBITAL ENERGIES AND EXPANSION COEFFICIENTS\n",
  chars! "        S                    1S             2S             3S             4S \n",
  chars! "  BASIS/ORB.ENERGY     -489.7211076    -64.8610884     -9.5330584     -0.6859548\n",
  chars! "              CUSP        1.0004093      1.0001551      1.0004264      1.0003423\n",
  chars! "  1S       58.840306     -0.0150578     -0.0443478     -0.0188460      0.0066956\n",
  chars! "  3S       43.270254      0.0234986      0.0500429      0.0217071     -0.0076885\n",
  chars! "  1S       35.952413      0.9782386      0.3900522      0.1592105     -0.0551564\n",
  chars! "  4S       24.803745     -0.0264291     -0.1054679     -0.0377009      0.0138228\n",
  chars! "  2S       14.998407      0.0702309     -0.7780784     -0.3838960      0.0872892\n",
  chars! "  3S       14.991540     -0.0295224     -0.1802036     -0.3249610      0.1275577\n",
  chars! "  3S        6.938357     -0.0103410      0.0724452      0.4192798     -0.0020129\n",
  chars! "  2S        5.780359      0.0144823     -0.1198624      0.6001426     -0.2114816\n",
  chars! "  2S        4.192317     -0.0000133      0.0168493      0.3199792     -0.8345737\n",
  chars! "  2S        1.889531      0.0012247      0.0101188      0.1359506      0.4148850\n",
  chars! "  2S        1.231111      0.0011040      0.0100297      0.1335307     -0.0800800\n",
  chars! "  1S        1.095425     -0.0027171     -0.0239443     -0.3187011      1.1030590\n",
  chars! "  1S        0.527883      0.0000091      0.0000147      0.0002369      0.0061373\n",
  chars! "        P                    2P             3P             4P \n",
  chars! "  BASIS/ORB.ENERGY      -58.2157441     -7.1404520     -0.1393300\n",
  chars! "              CUSP        1.0009333      0.9993407      0.9991340\n",
  chars! "  2P       53.913287     -0.0058597     -0.0037417     -0.0009852\n",
  chars! "  3P       43.927707     -0.0130567     -0.0082078     -0.0021588\n",
  chars! "  2P       25.707038      0.3418309      0.1669898      0.0418784\n",
  chars! "  3P       20.463051      0.4290415      0.2015111      0.0494357\n",
  chars! "  3P       14.724966      0.3135023      0.3080355      0.0858891\n",
  chars! "  2P        7.204263      0.0236377     -0.4961278     -0.1718187\n",
  chars! "  3P        6.238755     -0.0044939     -0.5952576     -0.1392965\n",
  chars! "  3P        4.593395      0.0014399     -0.1810018     -0.2545602\n",
  chars! "  3P        1.526346      0.0005042      0.0055083     -0.4752443\n",
  chars! "  2P        1.291162     -0.0006089     -0.0084526      1.3427977\n",
  chars! "  2P        0.769482     -0.0000392      0.0002975      0.2803135\n",
  chars! "  2P        0.527883      0.0000171     -0.0000505      0.0195208\n",
  chars! "        D                    3D \n",
  chars! "  BASIS/ORB.ENERGY       -2.8820975\n",
  chars! "              CUSP        0.9999248\n",
  chars! "  3D       34.476213      0.0012191\n",
  chars! "  4D       26.582226      0.0056419\n",
  chars! "  3D       11.687116      0.1256612\n",
  chars! "  3D        8.714807      0.1527871\n",
  chars! "  3D        7.051196      0.2505389\n",
  chars! "  3D        4.996404      0.4183793\n",
  chars! "  3D        3.385056      0.1492843\n",
  chars! "  3D        1.843194      0.0056539\n",
  chars! "  3D        0.527883      0.0000481\n",
  chars! "\n"]⟩

theorem anion_br_ok : anion_br.ok = true := by decide +kernel

/-- `data/anion/rb`. -/
noncomputable def anion_rb : DataFile := ⟨37, .anion, [
  chars! "      RUBIDIUM-   K(2)L(8)M(18)4S(2)4P(6)5S(2), 1S                                    \n",
  chars! "   E = -2938.354897972\n",
  chars! "   T =  2938.354900435     V = -5876.709798407     V/T =    -1.999999999\n",
  chars! "  ORBITAL ENERGIES AND EXPANSION COEFFICIENTS\n",
  chars! "        S                    1S             2S             3S             4S             5S \n",
  chars! "  BASIS/ORB.ENERGY     -551.3449246    -74.9369216    -12.0207611     -1.4110753     -0.0095320\n",
  chars! "              CUSP        1.0003901      1.0001875      1.0004013      1.0004834      1.0007701\n",
  chars! "  1S       61.629682     -0.0150512      0.0464682      0.0197355      0.0066518     -0.0009842\n",
  chars! "  3S       45.609573      0.0224292     -0.0499546     -0.0216153     -0.0073321      0.0010973\n",
  chars! "  1S       37.968851      0.9798815     -0.3953952     -0.1620217     -0.0547102      0.0081028\n",
  chars! "  4S       26.259916     -0.0250764      0.1073309      0.0385223      0.0117024     -0.0016040\n",
  chars! "  2S       15.906141      0.0672349      0.7910330      0.4339866      0.1506536     -0.0223578\n",
  chars! "  3S       15.901177     -0.0275909      0.1752496      0.3482654      0.1415211     -0.0216766\n",
  chars! "  4S        8.802636     -0.0036978     -0.0281660     -0.1788390     -0.0195187     -0.0004641\n",
  chars! "  3S        5.631993     -0.0047748     -0.0501495      0.4374275     -0.1853446      0.0428085\n",
  chars! "  2S        5.201952      0.0107653      0.1053812     -1.5144490     -0.7145223      0.1123919\n",
  chars! "  2S        2.157946     -0.0002960      0.0016869      0.0074049      1.0112855     -0.3718686\n",
  chars! "  3S        1.717872     -0.0001154      0.0006514      0.0032468      0.0005534     -0.2045309\n",
  chars! "  2S        1.716577      0.0003552     -0.0020478     -0.0106815      0.3298020      0.2220577\n",
  chars! "  2S        0.481476      0.0000034     -0.0000175     -0.0000746      0.0003326      0.5596823\n",
  chars! "  2S        0.250025     -0.0000021      0.0000105      0.0000434     -0.0001714      0.5195034\n",
  chars! "  2S        0.138072      0.0000008     -0.0000038     -0.0000155      0.0000613      0.0590673\n",
  chars! "        P                    2P             3P             4P \n",
  chars! "  BASIS/ORB.ENERGY      -67.7938054     -9.3752512     -0.6975431\n",
  chars! "              CUSP        1.0008637      0.9992327      0.9992555\n",
  chars! "  2P       56.312357     -0.0062682     -0.0041421     -0.0014323\n",
  chars! "  3P       46.213720     -0.0132316     -0.0086167     -0.0029817\n",
  chars! "  2P       27.400960      0.3382369      0.1716350      0.0554268\n",
  chars! "  3P       21.896380      0.4181467      0.2023561      0.0631884\n",
  chars! "  3P       15.895409      0.3133550      0.3189967      0.1177236\n",
  chars! "  2P        9.262586      0.0341586     -0.3328366     -0.1625820\n",
  chars! "  3P        7.251847     -0.0006541     -0.7087529     -0.2179102\n",
  chars! "  3P        5.278655      0.0004972     -0.2493203     -0.3569470\n",
  chars! "  3P        1.702362      0.0000622      0.0045788     -0.5197016\n",
  chars! "  2P        1.505340     -0.0000914     -0.0072511      1.6934874\n",
  chars! "  2P        0.570910     -0.0000003      0.0000169      0.0062741\n",
  chars! "  2P        0.138072      0.0000001      0.0000007      0.0001394\n",
  chars! "        D                    3D \n",
  chars! "  BASIS/ORB.ENERGY       -4.6198516\n",
  chars! "              CUSP        1.0000046\n",
  chars! "  3D       36.120235      0.0013195\n",
  chars! "  4D       28.064432      0.0058029\n",
  chars! "  3D       12.198814      0.1606932\n",
  chars! "  3D        8.899858      0.1633238\n",
  chars! "  3D        7.156927      0.3038761\n",
  chars! "  3D        5.245780      0.3652525\n",
  chars! "  3D        3.674489      0.0936727\n",
  chars! "  3D        2.119550      0.0021795\n",
  chars! "  3D        0.138072     -0.0000003\n",
  chars! "\n"]⟩

theorem anion_rb_ok : anion_rb.ok = true := by decide +kernel

/-- `data/anion/y`. -/
noncomputable def anion_y : DataFile := ⟨39, .anion, [
  chars! "      YTTRIUM-   K(2)L(8)M(18)4S(2)4P(6)5S(2)4D(1)5P(1), 1D                           \n",
  chars! "   E = -3331.683106745\n",
  chars! "   T =  3331.683111301     V = -6663.366218045     V/T =    -1.999999999\n",
  chars! "  ORBITAL ENERGIES AND EXPANSION COEFFICIENTS\n",
  chars! "        S                    1S             2S             3S             4S             5S \n",
  chars! "  BASIS/ORB.ENERGY     -616.6282981    -85.6901983    -14.6380143     -2.0471544     -0.0772348\n",
  chars! "              CUSP        1.0003530      1.0001389      1.0004682      1.0004802      1.0006707\n",
  chars! "  1S       65.578865     -0.0182754      0.0454548     -0.0193772      0.0070922     -0.0016404\n",
  chars! "  3S       48.619329      0.0243727     -0.0480450      0.0210051     -0.0077223      0.0018058\n",
  chars! "  1S       40.255923      0.9790433     -0.3928103      0.1631921     -0.0599715      0.0140366\n",
  chars! "  4S       28.236248     -0.0266879      0.1064778     -0.0359939      0.0117869     -0.0023834\n",
  chars! "  2S       17.389229      0.0719088      0.6999329     -0.3825725      0.1422969     -0.0384671\n",
  chars! "  3S       17.371817     -0.0278726      0.2565795     -0.3734493      0.1619456     -0.0407286\n",
  chars! "  4S        9.690120     -0.0031684     -0.0368348      0.2569323     -0.0464669      0.0068044\n",
  chars! "  3S        6.307218     -0.0037266     -0.0587894     -0.1714163     -0.3649806      0.1339473\n",
  chars! "  2S        5.892936      0.0090488      0.1321206      1.1670834     -0.5908750      0.1408412\n",
  chars! "  2S        2.969391     -0.0001155      0.0033798     -0.0119384     -0.9124118     -0.1480929\n",
  chars! "  2S        2.631004      0.0001078     -0.0029259      0.0137110      2.1367505     -0.0086859\n",
  chars! "  2S        1.851811     -0.0000130      0.0003116     -0.0011536      0.1475888     -0.5999492\n",
  chars! "  2S        0.692974      0.0000011     -0.0000271      0.0001081     -0.0005864      0.6069211\n",
  chars! "  1S        0.361680     -0.0000007      0.0000173     -0.0000709      0.0004481      0.6250722\n",
  chars! "  1S        0.079350      0.0000000     -0.0000010      0.0000041     -0.0000220      0.0028749\n",
  chars! "        P                    2P             3P             4P             5P \n",
  chars! "  BASIS/ORB.ENERGY      -78.0438362    -11.7335902     -1.1795969     -0.0031480\n",
  chars! "              CUSP        1.0009662      1.0004944      0.9990443      0.9994274\n",
  chars! "  2P       48.700078     -0.0124540      0.0168758     -0.0066349      0.0010146\n",
  chars! "  3P       42.737411     -0.0161212      0.0208868     -0.0081255      0.0012440\n",
  chars! "  3P       27.358746     -0.1094917      0.1110579     -0.0433734      0.0066175\n",
  chars! "  2P       19.556496      0.9316712     -0.5058391      0.1754897     -0.0264212\n",
  chars! "  3P       15.843922      0.2280771     -0.1510063      0.0512243     -0.0075245\n",
  chars! "  3P       11.432235      0.0055852      0.1775923     -0.1022261      0.0157515\n",
  chars! "  3P        7.974166      0.0039026      0.7067569     -0.2325234      0.0351708\n",
  chars! "  3P        5.932445     -0.0008232      0.2842479     -0.4365526      0.0717711\n",
  chars! "  4P        2.295395     -0.0001255     -0.0029711     -0.2517369      0.0291959\n",
  chars! "  2P        1.841004      0.0001908      0.0063396      1.4699018     -0.2529652\n",
  chars! "  4P        1.116257      0.0000164      0.0000677      0.0023821      0.2172600\n",
  chars! "  3P        0.517865     -0.0000101     -0.0000524      0.0013401      0.4515458\n",
  chars! "  2P        0.192877      0.0000041      0.0000239     -0.0005530      0.4531274\n",
  chars! "  2P        0.079350     -0.0000012     -0.0000061      0.0001216      0.0591973\n",
  chars! "        D                    3D             4D \n",
  chars! "  BASIS/ORB.ENERGY       -6.4787442     -0.1298475\n",
  chars! "              CUSP        1.0002636      1.0002685\n",
  chars! "  3D       41.573472      0.0008979     -0.0001963\n",
  chars! "  4D       31.385895      0.0048905     -0.0010802\n",
  chars! "  3D       13.106625      0.1768026     -0.0412242\n",
  chars! "  4D       12.420341      0.0054093     -0.0102746\n",
  chars! "  3D        8.392388      0.5271644     -0.0965388\n",
  chars! "  4D        6.961804      0.2202650     -0.0770593\n",
  chars! "  3D        4.566537      0.1622557     -0.0304051\n",
  chars! "  3D        2.573134      0.0026656      0.2790049\n",
  chars! "  3D        1.539634      0.0000865      0.5038534\n",
  chars! "  3D        0.923170     -0.0000387      0.3291778\n",
  chars! "  3D        0.533884      0.0000245      0.0507976\n",
  chars! "  3D        0.079350     -0.0000007      0.0006043\n"]⟩

theorem anion_y_ok : anion_y.ok = true := by decide +kernel

/-- `data/anion/zr`. -/
noncomputable def anion_zr : DataFile := ⟨40, .anion, [
  chars! "      ZIRCONIUM-   K(2)L(8)M(18)4S(2)4P(6)5S(2)4D(3), 4F                              \n",
  chars! "   E = -3538.994497048\n",
  chars! "   T =  3538.994505207     V = -7077.989002255     V/T =    -1.999999998\n",
  chars! "  ORBITAL ENERGIES AND EXPANSION COEFFICIENTS\n",
  chars! "        S                    1S             2S             3S             4S             5S \n",
  chars! "  BASIS/ORB.ENERGY     -650.4451028    -91.1116445    -15.7885879     -2.1573602     -0.0174291\n",
  chars! "              CUSP        1.0003366      1.0001355      1.0004669      1.0005183      1.0008643\n",
  chars! "  1S       67.450497     -0.0197051      0.0452642     -0.0193672      0.0072202     -0.0013063\n",
  chars! "  3S       50.087841      0.0251466     -0.0472109      0.0207317     -0.0077793      0.0014301\n",
  chars! "  1S       41.392563      0.9787454     -0.3920777      0.1639758     -0.0614383      0.0111611\n",
  chars! "  4S       29.203784     -0.0274623      0.1059963     -0.0357500      0.0117295     -0.0018523\n",
  chars! "  2S       18.041660      0.0744913      0.6707022     -0.3660594      0.1370423     -0.0253373\n",
  chars! "  3S       18.037815     -0.0287005      0.2811478     -0.3790909      0.1671284     -0.0318586\n",
  chars! "  4S       10.118813     -0.0030744     -0.0385862      0.2790722     -0.0412189     -0.0009738\n",
  chars! "  3S        6.735228     -0.0031680     -0.0556716     -0.0169612     -0.4668059      0.1262526\n",
  chars! "  2S        6.345881      0.0085295      0.1355351      0.9874193     -0.4789560      0.0992254\n",
  chars! "  2S        4.033866     -0.0000634      0.0012005      0.0015454     -0.2084663     -0.0134847\n",
  chars! "  2S        2.682391      0.0000252     -0.0004107      0.0044455      1.3595031     -0.1736661\n",
  chars! "  2S        1.959441     -0.0000056      0.0000800     -0.0003575      0.1965534     -0.2657894\n",
  chars! "  2S        0.685741      0.0000002     -0.0000050      0.0000420      0.0002784      0.4874538\n",
  chars! "  2S        0.366699     -0.0000001      0.0000042     -0.0000335      0.0000454      0.4249767\n",
  chars! "  1S        0.186704      0.0000000     -0.0000024      0.0000189     -0.0000393      0.2309974\n",
  chars! "        P                    2P             3P             4P \n",
  chars! "  BASIS/ORB.ENERGY      -83.2136823    -12.7544245     -1.2377801\n",
  chars! "              CUSP        1.0009722      0.9996608      0.9993820\n",
  chars! "  2P       65.754581     -0.0030051     -0.0023612     -0.0010139\n",
  chars! "  3P       53.003930     -0.0072010     -0.0055707     -0.0023878\n",
  chars! "  2P       29.684560      0.3214929      0.1701449      0.0660290\n",
  chars! "  3P       24.275120      0.3844645      0.1914235      0.0715090\n",
  chars! "  3P       17.824462      0.3227414      0.3291544      0.1489441\n",
  chars! "  2P       11.572641      0.0615132     -0.2437134     -0.1672794\n",
  chars! "  3P        8.371764      0.0016671     -0.7618044     -0.2769802\n",
  chars! "  3P        6.151678     -0.0002697     -0.2794925     -0.4809022\n",
  chars! "  3P        2.061198     -0.0001622      0.0040894     -0.7835793\n",
  chars! "  2P        1.843327      0.0001902     -0.0069743      2.0272951\n",
  chars! "  2P        0.677908      0.0000087      0.0000028      0.0050135\n",
  chars! "  2P        0.186704     -0.0000017      0.0000015      0.0000241\n",
  chars! "        D                    3D             4D \n",
  chars! "  BASIS/ORB.ENERGY       -7.2519211     -0.0952080\n",
  chars! "              CUSP        1.0000015      0.9999808\n",
  chars! "  3D       43.336041      0.0008059     -0.0001893\n",
  chars! "  4D       32.711952      0.0044072     -0.0010483\n",
  chars! "  3D       14.125436      0.0821292     -0.0048241\n",
  chars! "  3D       12.762793      0.1100197     -0.0467264\n",
  chars! "  3D        8.478264      0.5690147     -0.1193854\n",
  chars! "  4D        6.944099      0.2165166     -0.0843227\n",
  chars! "  3D        4.634623      0.1095572     -0.0227410\n",
  chars! "  3D        2.960983      0.0030234      0.2301344\n",
  chars! "  3D        1.857180      0.0000887      0.4476480\n",
  chars! "  3D        1.129865      0.0000807      0.3855142\n",
  chars! "  3D        0.668007      0.0000054      0.1184603\n",
  chars! "  3D        0.186704      0.0000011      0.0008638\n",
  chars! "\n"]⟩

theorem anion_zr_ok : anion_zr.ok = true := by decide +kernel

/-- `data/anion/nb`. -/
noncomputable def anion_nb : DataFile := ⟨41, .anion, [
  chars! "      NIOBIUM-   K(2)L(8)M(18)4S(2)4P(6)5S(2)4D(4), 5D                                \n",
  chars! "   E = -3753.578214570\n",
  chars! "   T =  3753.578226707     V = -7507.156441276     V/T =    -1.999999997\n",
  chars! "  ORBITAL ENERGIES AND EXPANSION COEFFICIENTS\n",
  chars! "        S                    1S             2S             3S             4S             5S \n",
  chars! "  BASIS/ORB.ENERGY     -685.2898043    -96.8202404    -17.0925391     -2.3833222     -0.0173955\n",
  chars! "              CUSP        1.0003228      1.0001100      1.0004596      1.0005073      1.0008439\n",
  chars! "  1S       69.512532     -0.0205455      0.0444095     -0.0190613      0.0072548     -0.0012790\n",
  chars! "  3S       51.614236      0.0256215     -0.0463009      0.0204248     -0.0078252      0.0014018\n",
  chars! "  1S       42.515673      0.9780452     -0.3905523      0.1643599     -0.0629156      0.0111381\n",
  chars! "  4S       30.184309     -0.0282982      0.1052952     -0.0352373      0.0117639     -0.0018104\n",
  chars! "  2S       18.723442      0.0770330      0.6398451     -0.3486597      0.1318855     -0.0236862\n",
  chars! "  3S       18.716561     -0.0293059      0.3067306     -0.3859970      0.1727030     -0.0320344\n",
  chars! "  4S       10.523020     -0.0030107     -0.0429903      0.3038131     -0.0455898     -0.0004446\n",
  chars! "  3S        7.039269     -0.0029777     -0.0574503      0.0556090     -0.5549741      0.1400280\n",
  chars! "  2S        6.671101      0.0082630      0.1466040      0.8846437     -0.4477064      0.0886842\n",
  chars! "  2S        3.877900     -0.0000170      0.0012885      0.0024238     -0.2632190     -0.0183359\n",
  chars! "  2S        2.886243      0.0000100     -0.0006233      0.0043749      1.4044997     -0.1537283\n",
  chars! "  2S        2.110581      0.0000000      0.0000966     -0.0001634      0.2553177     -0.2690566\n",
  chars! "  2S        0.708176     -0.0000002     -0.0000043      0.0000342      0.0003490      0.4770890\n",
  chars! "  2S        0.373352      0.0000003      0.0000035     -0.0000270     -0.0000293      0.4301772\n",
  chars! "  1S        0.186523     -0.0000002     -0.0000019      0.0000150      0.0000010      0.2310141\n",
  chars! "        P                    2P             3P             4P \n",
  chars! "  BASIS/ORB.ENERGY      -88.6686248    -13.9270079     -1.4033801\n",
  chars! "              CUSP        1.0009955      0.9992538      0.9990285\n",
  chars! "  2P       63.780867     -0.0045591     -0.0036751     -0.0017471\n",
  chars! "  3P       52.162440     -0.0098892     -0.0078177     -0.0037126\n",
  chars! "  2P       30.371699      0.3242591      0.1866532      0.0804228\n",
  chars! "  3P       24.649854      0.3821090      0.2068725      0.0856723\n",
  chars! "  3P       18.350796      0.2756111      0.3441840      0.1775524\n",
  chars! "  2P       13.080766      0.1067299     -0.2546100     -0.2024140\n",
  chars! "  3P        8.775199      0.0026266     -0.7715525     -0.2902968\n",
  chars! "  3P        6.467897     -0.0003100     -0.2972796     -0.5140535\n",
  chars! "  3P        2.204689     -0.0000747      0.0047976     -0.7846228\n",
  chars! "  2P        1.967866      0.0000724     -0.0082080      2.0491495\n",
  chars! "  2P        0.739804      0.0000040     -0.0000033      0.0048972\n",
  chars! "  2P        0.186523     -0.0000007      0.0000025      0.0000504\n",
  chars! "        D                    3D             4D \n",
  chars! "  BASIS/ORB.ENERGY       -8.1749524     -0.1431211\n",
  chars! "              CUSP        1.0004842      1.0002264\n",
  chars! "  3D       44.354547      0.0007886     -0.0002121\n",
  chars! "  4D       33.570462      0.0042106     -0.0011547\n",
  chars! "  3D       15.734639      0.0306833     -0.0003048\n",
  chars! "  3D       13.220427      0.1788440     -0.0597304\n",
  chars! "  3D        8.597817      0.5782014     -0.1395082\n",
  chars! "  4D        7.171274      0.1831509     -0.0973164\n",
  chars! "  3D        4.931586      0.1112117      0.0009345\n",
  chars! "  3D        2.978717      0.0025507      0.3030998\n",
  chars! "  3D        1.889005      0.0001239      0.4631073\n",
  chars! "  3D        1.179953      0.0000291      0.3235849\n",
  chars! "  3D        0.726010      0.0000159      0.0737649\n",
  chars! "  3D        0.186523     -0.0000005      0.0002410\n",
  chars! "\n"]⟩

theorem anion_nb_ok : anion_nb.ok = true := by decide +kernel

/-- `data/anion/mo`. -/
noncomputable def anion_mo : DataFile := ⟨42, .anion, [
  chars! "      MOLYBDENUM-   K(2)L(8)M(18)4S(2)4P(6)5S(2)4D(5), 6S                             \n",
  chars! "   E = -3975.526266257\n",
  chars! "   T =  3975.526282579     V = -7951.052548836     V/T =    -1.999999996\n",
  chars! "  ORBITAL ENERGIES AND EXPANSION COEFFICIENTS\n",
  chars! "        S                    1S             2S             3S             4S             5S \n",
  chars! "  BASIS/ORB.ENERGY     -721.0457921   -102.6936002    -18.4276642     -2.6068040     -0.0172351\n",
  chars! "              CUSP        1.0002748      0.9999214      1.0002953      1.0004026      1.0009779\n",
  chars! "  1S       72.171260     -0.0213710      0.0421866     -0.0181415      0.0070173     -0.0011926\n",
  chars! "  3S       53.282680      0.0267711     -0.0455240      0.0201565     -0.0078732      0.0013757\n",
  chars! "  1S       43.695075      0.9761296     -0.3864815      0.1635538     -0.0637235      0.0108980\n",
  chars! "  4S       31.308097     -0.0293565      0.1020802     -0.0336357      0.0110641     -0.0014516\n",
  chars! "  2S       19.520212      0.0810435      0.5941859     -0.3162384      0.1185503     -0.0198315\n",
  chars! "  3S       19.511167     -0.0308380      0.3437923     -0.3881068      0.1757280     -0.0318419\n",
  chars! "  4S       11.093926     -0.0032777     -0.0447979      0.2936241     -0.0254055     -0.0136830\n",
  chars! "  3S        7.889569     -0.0012007     -0.0377410      0.3147814     -0.4567790      0.1474970\n",
  chars! "  2S        7.662932      0.0078045      0.1431093      0.4532044      0.1472042     -0.0012754\n",
  chars! "  2S        6.021759     -0.0006231     -0.0012863      0.1720172     -0.8237343      0.0833306\n",
  chars! "  2S        2.932198      0.0000261     -0.0000459      0.0044871      1.3457781     -0.2205734\n",
  chars! "  2S        2.127438     -0.0000075     -0.0000176     -0.0002503      0.1807776     -0.2000181\n",
  chars! "  2S        0.728567      0.0000005      0.0000004      0.0000391      0.0001479      0.4642576\n",
  chars! "  2S        0.379287     -0.0000004     -0.0000002     -0.0000308      0.0000492      0.4373041\n",
  chars! "  1S        0.185662      0.0000002      0.0000001      0.0000170     -0.0000363      0.2335787\n",
  chars! "        P                    2P             3P             4P \n",
  chars! "  BASIS/ORB.ENERGY      -94.2872349    -15.1298659     -1.5684251\n",
  chars! "              CUSP        1.0007072      0.9995919      0.9995522\n",
  chars! "  2P       65.418449     -0.0058081     -0.0042985     -0.0020736\n",
  chars! "  3P       53.871421     -0.0118127     -0.0086949     -0.0041973\n",
  chars! "  2P       32.139412      0.3049834      0.1688305      0.0740938\n",
  chars! "  3P       25.948942      0.3639126      0.1844057      0.0767276\n",
  chars! "  3P       19.316894      0.2956090      0.3179430      0.1666213\n",
  chars! "  2P       13.511969      0.1275620     -0.1740115     -0.1686733\n",
  chars! "  3P        9.137267      0.0017506     -0.7720077     -0.2941074\n",
  chars! "  3P        6.780455     -0.0000057     -0.3098511     -0.5462047\n",
  chars! "  3P        2.368037      0.0000386      0.0061042     -0.7423118\n",
  chars! "  2P        2.109289     -0.0000898     -0.0103714      2.0297033\n",
  chars! "  2P        0.851790      0.0000004     -0.0000169      0.0058845\n",
  chars! "  2P        0.185662     -0.0000001      0.0000039      0.0000907\n",
  chars! "        D                    3D             4D \n",
  chars! "  BASIS/ORB.ENERGY       -9.1276467     -0.1996953\n",
  chars! "              CUSP        1.0001121      1.0001627\n",
  chars! "  3D       45.537869      0.0007861     -0.0002362\n",
  chars! "  4D       34.510321      0.0041804     -0.0012839\n",
  chars! "  3D       17.073392      0.0090645      0.0038317\n",
  chars! "  3D       14.023118      0.1920552     -0.0644005\n",
  chars! "  3D        8.876223      0.6094473     -0.1656614\n",
  chars! "  4D        7.317837      0.1876679     -0.1183450\n",
  chars! "  3D        4.989926      0.0819115      0.0396706\n",
  chars! "  3D        3.040713      0.0014811      0.3553647\n",
  chars! "  3D        1.947284      0.0001400      0.4636800\n",
  chars! "  3D        1.238428     -0.0000559      0.2782379\n",
  chars! "  3D        0.779653      0.0000104      0.0465181\n",
  chars! "  3D        0.185662     -0.0000008      0.0001190\n",
  chars! "\n"]⟩

theorem anion_mo_ok : anion_mo.ok = true := by decide +kernel

/-- `data/anion/tc`. -/
noncomputable def anion_tc : DataFile := ⟨43, .anion, [
  chars! "      TECHNETIUM-   K(2)L(8)M(18)4S(2)4P(6)5S(2)4D(6), 5D                             \n",
  chars! "   E = -4204.764629736\n",
  chars! "   T =  4204.764637773     V = -8409.529267509     V/T =    -1.999999998\n",
  chars! "  ORBITAL ENERGIES AND EXPANSION COEFFICIENTS\n",
  chars! "        S                    1S             2S             3S             4S             5S \n",
  chars! "  BASIS/ORB.ENERGY     -757.7403318   -108.7601882    -19.8213204     -2.8492418     -0.0182858\n",
  chars! "              CUSP        1.0002703      1.0000241      1.0004155      1.0006663      1.0009401\n",
  chars! "  1S       75.312699      0.0243485      0.0389377     -0.0168266      0.0065729     -0.0011148\n",
  chars! "  3S       55.705916     -0.0289138     -0.0416455      0.0185653     -0.0073903      0.0012723\n",
  chars! "  1S       45.130608     -0.9712891     -0.3776308      0.1607656     -0.0636049      0.0108514\n",
  chars! "  4S       32.948324      0.0348639      0.0982839     -0.0333496      0.0102854     -0.0015012\n",
  chars! "  2S       20.612275     -0.0971986      0.4888660     -0.1994818      0.0865790     -0.0159968\n",
  chars! "  3S       20.612017      0.0375744      0.4036611     -0.3510232      0.1717656     -0.0312503\n",
  chars! "  3S        9.748223      0.0117379     -0.2096826      1.0830379     -0.2518218      0.0276461\n",
  chars! "  3S        7.509306      0.0038239     -0.0870840      0.3951767     -0.7946260      0.1691449\n",
  chars! "  2S        7.509229     -0.0192551      0.3813834     -0.3374335     -0.1494111      0.0397904\n",
  chars! "  4S        3.928282     -0.0000663     -0.0006892      0.0004232      0.1703339      0.0105701\n",
  chars! "  2S        3.511620      0.0000505      0.0021103      0.0051256      0.9448810     -0.1241593\n",
  chars! "  2S        2.441652      0.0000486      0.0001057      0.0003456      0.4570704     -0.3172773\n",
  chars! "  2S        0.754281     -0.0000020      0.0000007      0.0000229      0.0006257      0.4641094\n",
  chars! "  2S        0.391683      0.0000017     -0.0000014     -0.0000169     -0.0002252      0.4343993\n",
  chars! "  1S        0.191237     -0.0000010      0.0000009      0.0000092      0.0001026      0.2330159\n",
  chars! "        P                    2P             3P             4P \n",
  chars! "  BASIS/ORB.ENERGY     -100.0978399    -16.3902858     -1.7513113\n",
  chars! "              CUSP        1.0007878      1.0003561      1.0003652\n",
  chars! "  2P       67.176031     -0.0066817     -0.0047041     -0.0022851\n",
  chars! "  3P       55.690402     -0.0128774     -0.0090929     -0.0044197\n",
  chars! "  2P       33.823668      0.2885507      0.1550686      0.0689589\n",
  chars! "  3P       27.242414      0.3455475      0.1665313      0.0696676\n",
  chars! "  3P       20.253084      0.3138828      0.2998679      0.1580529\n",
  chars! "  2P       13.943172      0.1461839     -0.1118537     -0.1406968\n",
  chars! "  3P        9.485245      0.0007761     -0.7756982     -0.3016106\n",
  chars! "  3P        7.076767      0.0003568     -0.3172883     -0.5749762\n",
  chars! "  3P        2.531225      0.0001805      0.0072250     -0.7069047\n",
  chars! "  2P        2.252153     -0.0002915     -0.0122801      2.0163096\n",
  chars! "  2P        0.965516     -0.0000045     -0.0000327      0.0079077\n",
  chars! "  2P        0.191237      0.0000004      0.0000048      0.0000933\n",
  chars! "        D                    3D             4D \n",
  chars! "  BASIS/ORB.ENERGY      -10.1368688     -0.2138697\n",
  chars! "              CUSP        0.9994759      1.0002657\n",
  chars! "  3D       46.021191      0.0008472     -0.0002818\n",
  chars! "  4D       35.133830      0.0043093     -0.0014661\n",
  chars! "  3D       18.569919      0.0004270      0.0050921\n",
  chars! "  3D       14.659353      0.1955331     -0.0665411\n",
  chars! "  3D        9.176789      0.6242047     -0.1848279\n",
  chars! "  4D        7.572081      0.1788231     -0.1371490\n",
  chars! "  3D        5.242938      0.0772024      0.0724655\n",
  chars! "  3D        3.147052      0.0018975      0.3989416\n",
  chars! "  3D        1.997374      0.0001273      0.4524227\n",
  chars! "  3D        1.264586      0.0000808      0.2492072\n",
  chars! "  3D        0.796743      0.0000100      0.0389424\n",
  chars! "  3D        0.191237      0.0000000      0.0000978\n",
  chars! "\n"]⟩

theorem anion_tc_ok : anion_tc.ok = true := by decide +kernel

/-- `data/anion/ru`. -/
noncomputable def anion_ru : DataFile := ⟨44, .anion, [
  chars! "      RUTHENIUM-   K(2)L(8)M(18)4S(2)4P(6)5S(2)4D(7), 4F                              \n",
  chars! "   E = -4441.528474293\n",
  chars! "   T =  4441.528480802     V = -8883.056955096     V/T =    -1.999999999\n",
  chars! "  ORBITAL ENERGIES AND EXPANSION COEFFICIENTS\n",
  chars! "        S                    1S             2S             3S             4S             5S \n",
  chars! "  BASIS/ORB.ENERGY     -795.3455209   -114.9907969    -21.2458870     -3.0890938     -0.0188343\n",
  chars! "              CUSP        1.0002546      1.0000020      1.0003851      1.0006401      1.0009068\n",
  chars! "  1S       77.746812     -0.0249567      0.0375532     -0.0163027      0.0064550     -0.0010772\n",
  chars! "  3S       57.466455      0.0293870     -0.0403412      0.0180662     -0.0072952      0.0012357\n",
  chars! "  1S       46.317218      0.9692208     -0.3746753      0.1604227     -0.0643758      0.0108076\n",
  chars! "  4S       34.073622     -0.0368136      0.0972223     -0.0334736      0.0104956     -0.0015153\n",
  chars! "  3S       21.312636     -0.0404947      0.4241115     -0.3513257      0.1739301     -0.0311278\n",
  chars! "  2S       21.306721      0.1035393      0.4589601     -0.1792372      0.0793509     -0.0145206\n",
  chars! "  3S       10.096369     -0.0131046     -0.2222370      1.1389994     -0.2630109      0.0280405\n",
  chars! "  2S        7.857654      0.0210085      0.3983462     -0.4394253     -0.1153945      0.0334452\n",
  chars! "  3S        7.824953     -0.0036563     -0.0834676      0.4254046     -0.8640296      0.1807073\n",
  chars! "  4S        4.120062      0.0001132     -0.0001999      0.0002073      0.2230730      0.0019753\n",
  chars! "  2S        3.846079     -0.0001346      0.0014298      0.0067860      0.9198180     -0.1254160\n",
  chars! "  2S        2.552612     -0.0000789     -0.0001209      0.0006844      0.4790080     -0.3078610\n",
  chars! "  2S        0.778953      0.0000030      0.0000089      0.0000166      0.0006417      0.4582059\n",
  chars! "  2S        0.401619     -0.0000026     -0.0000084     -0.0000115     -0.0002401      0.4378864\n",
  chars! "  1S        0.194084      0.0000015      0.0000048      0.0000062      0.0001101      0.2339459\n",
  chars! "        P                    2P             3P             4P \n",
  chars! "  BASIS/ORB.ENERGY     -106.0714106    -17.6807698     -1.9331850\n",
  chars! "              CUSP        1.0001439      1.0002264      1.0007915\n",
  chars! "  2P       68.938264     -0.0091106     -0.0058719     -0.0029117\n",
  chars! "  3P       57.610608     -0.0162705     -0.0106090     -0.0052860\n",
  chars! "  2P       36.267946      0.2685516      0.1385858      0.0626349\n",
  chars! "  3P       28.920214      0.3268001      0.1488179      0.0618999\n",
  chars! "  3P       21.287857      0.3457456      0.2822395      0.1498222\n",
  chars! "  2P       14.267432      0.1603924     -0.0441081     -0.1103729\n",
  chars! "  3P        9.883781     -0.0007972     -0.7623887     -0.2902504\n",
  chars! "  3P        7.431783      0.0009163     -0.3433060     -0.6087395\n",
  chars! "  3P        2.641987      0.0003552      0.0094050     -0.7374328\n",
  chars! "  2P        2.349342     -0.0005383     -0.0156048      2.0544390\n",
  chars! "  2P        0.987970     -0.0000094     -0.0000681      0.0069511\n",
  chars! "  2P        0.194084      0.0000009      0.0000080      0.0000801\n",
  chars! "        D                    3D             4D \n",
  chars! "  BASIS/ORB.ENERGY      -11.1753674     -0.2431495\n",
  chars! "              CUSP        1.0003505      1.0008654\n",
  chars! "  3D       46.539696      0.0009267     -0.0003483\n",
  chars! "  4D       35.746927      0.0045099     -0.0017471\n",
  chars! "  3D       20.071778     -0.0038084      0.0061416\n",
  chars! "  3D       15.306154      0.1911556     -0.0673912\n",
  chars! "  3D        9.535520      0.6343085     -0.2017240\n",
  chars! "  4D        7.866816      0.1782613     -0.1590119\n",
  chars! "  3D        5.498039      0.0728860      0.1079659\n",
  chars! "  3D        3.241090      0.0026223      0.4395264\n",
  chars! "  3D        2.034099     -0.0001145      0.4450001\n",
  chars! "  3D        1.282084      0.0002681      0.2184439\n",
  chars! "  3D        0.806257     -0.0000275      0.0268344\n",
  chars! "  3D        0.194084      0.0000025      0.0000770\n",
  chars! "\n"]⟩

theorem anion_ru_ok : anion_ru.ok = true := by decide +kernel

/-- `data/anion/rh`. -/
noncomputable def anion_rh : DataFile := ⟨45, .anion, [
  chars! "      RHODIUM-   K(2)L(8)M(18)4S(2)4P(6)5S(2)4D(8), 3F                                \n",
  chars! "   E = -4685.875577988\n",
  chars! "   T =  4685.875593411     V = -9371.751171398     V/T =    -1.999999997\n",
  chars! "  ORBITAL ENERGIES AND EXPANSION COEFFICIENTS\n",
  chars! "        S                    1S             2S             3S             4S             5S \n",
  chars! "  BASIS/ORB.ENERGY     -833.8666941   -121.3910082    -22.7069168     -3.3308645     -0.0192305\n",
  chars! "              CUSP        1.0002098      0.9998639      1.0002501      1.0008031      1.0009634\n",
  chars! "  1S       80.746947      0.0249308      0.0352552     -0.0153756      0.0061406     -0.0010037\n",
  chars! "  3S       59.354316     -0.0300468     -0.0392582      0.0176636     -0.0073049      0.0012066\n",
  chars! "  1S       47.521316     -0.9660031     -0.3702798      0.1594030     -0.0647284      0.0106503\n",
  chars! "  4S       35.255376      0.0389095      0.0955393     -0.0333553      0.0095065     -0.0013597\n",
  chars! "  2S       22.085628     -0.1100813      0.4237072     -0.1553145      0.0734671     -0.0133213\n",
  chars! "  3S       22.040298      0.0434788      0.4485033     -0.3511671      0.1810363     -0.0317175\n",
  chars! "  3S       10.532538      0.0151440     -0.2276666      1.1387312     -0.1986703      0.0131135\n",
  chars! "  3S        8.319295      0.0033839     -0.0781996      0.4996869     -0.9021562      0.1900746\n",
  chars! "  2S        8.317816     -0.0238249      0.4102479     -0.5420463     -0.0531724      0.0274542\n",
  chars! "  3S        3.782996     -0.0005967      0.0011019     -0.0152188      0.1711020      0.0219766\n",
  chars! "  2S        3.488047      0.0007329     -0.0009610      0.0290534      1.0069678     -0.1865375\n",
  chars! "  2S        2.586704      0.0001401     -0.0004443      0.0021355      0.3374239     -0.2478489\n",
  chars! "  2S        0.801327     -0.0000057      0.0000196     -0.0000414      0.0013532      0.4516593\n",
  chars! "  2S        0.410571      0.0000048     -0.0000170      0.0000368     -0.0008799      0.4405954\n",
  chars! "  1S        0.196115     -0.0000027      0.0000094     -0.0000204      0.0004673      0.2365605\n",
  chars! "        P                    2P             3P             4P \n",
  chars! "  BASIS/ORB.ENERGY     -112.2135077    -19.0068580     -2.1177928\n",
  chars! "              CUSP        0.9999653      1.0003197      1.0006008\n",
  chars! "  2P       70.895846     -0.0100931     -0.0062797     -0.0031093\n",
  chars! "  3P       59.464825     -0.0174432     -0.0110075     -0.0054710\n",
  chars! "  2P       37.952202      0.2584297      0.1312870      0.0598976\n",
  chars! "  3P       30.130460      0.3175271      0.1420873      0.0598544\n",
  chars! "  3P       22.069759      0.3567559      0.2739032      0.1457256\n",
  chars! "  2P       14.698635      0.1710861     -0.0109785     -0.0952235\n",
  chars! "  3P       10.218985     -0.0014847     -0.7647787     -0.2946978\n",
  chars! "  3P        7.728522      0.0011795     -0.3482456     -0.6331595\n",
  chars! "  3P        2.814291      0.0004688      0.0113424     -0.6868323\n",
  chars! "  2P        2.497050     -0.0007045     -0.0187208      2.0226641\n",
  chars! "  2P        1.130890     -0.0000129     -0.0000925      0.0097665\n",
  chars! "  2P        0.196115      0.0000009      0.0000079      0.0000986\n",
  chars! "        D                    3D             4D \n",
  chars! "  BASIS/ORB.ENERGY      -12.2485268     -0.2758038\n",
  chars! "              CUSP        0.9996138      1.0006327\n",
  chars! "  3D       47.023018      0.0010334     -0.0004322\n",
  chars! "  4D       36.370436      0.0048355     -0.0020821\n",
  chars! "  3D       21.568305     -0.0053856      0.0063723\n",
  chars! "  3D       15.802277      0.1918578     -0.0691395\n",
  chars! "  3D        9.789646      0.6488541     -0.2239874\n",
  chars! "  4D        8.085587      0.1633596     -0.1872743\n",
  chars! "  3D        5.751051      0.0704605      0.1633227\n",
  chars! "  3D        3.321060      0.0025276      0.4692730\n",
  chars! "  3D        2.081540      0.0000909      0.4294401\n",
  chars! "  3D        1.311344      0.0002621      0.1966616\n",
  chars! "  3D        0.823347     -0.0000108      0.0188897\n",
  chars! "  3D        0.196115      0.0000015      0.0001237\n",
  chars! "\n"]⟩

theorem anion_rh_ok : anion_rh.ok = true := by decide +kernel

/-- `data/anion/pd`. -/
noncomputable def anion_pd : DataFile := ⟨46, .anion, [
  chars! "      PALLADIUM-   K(2)L(8)M(18)4S(2)4P(6)5S(2)4D(9), 2D                              \n",
  chars! "   E = -4937.891539113\n",
  chars! "   T =  4937.891549244     V = -9875.783088357     V/T =    -1.999999998\n",
  chars! "  ORBITAL ENERGIES AND EXPANSION COEFFICIENTS\n",
  chars! "        S                    1S             2S             3S             4S             5S \n",
  chars! "  BASIS/ORB.ENERGY     -873.3041971   -127.9611877    -24.2049841     -3.5751347     -0.0195272\n",
  chars! "              CUSP        1.0001474      0.9996757      1.0000041      1.0001843      1.0009418\n",
  chars! "  1S       82.981122      0.0256355      0.0349496     -0.0153231      0.0062041     -0.0009856\n",
  chars! "  3S       60.747521     -0.0312533     -0.0397232      0.0179098     -0.0073693      0.0012189\n",
  chars! "  1S       48.682686     -0.9650744     -0.3695798      0.1599679     -0.0657128      0.0105606\n",
  chars! "  4S       36.184851      0.0388574      0.0943704     -0.0336988      0.0110971     -0.0012174\n",
  chars! "  2S       22.659076     -0.1114253      0.4161477     -0.1478567      0.0684864     -0.0132458\n",
  chars! "  3S       22.631895      0.0453052      0.4544307     -0.3499105      0.1770565     -0.0321820\n",
  chars! "  3S       10.854225      0.0185098     -0.2255012      1.1587544     -0.2191196     -0.0010872\n",
  chars! "  3S        8.701432      0.0017076     -0.0649154      0.4882484     -0.9055084      0.2032059\n",
  chars! "  2S        8.695647     -0.0274118      0.4013997     -0.5868246      0.0241755      0.0317535\n",
  chars! "  3S        4.273868     -0.0030933      0.0073839     -0.0734838      0.2831394      0.0363421\n",
  chars! "  2S        3.566041      0.0044358     -0.0105759      0.1191386      0.8326612     -0.2283255\n",
  chars! "  2S        2.662568     -0.0002481      0.0005491     -0.0088652      0.3604849     -0.2143572\n",
  chars! "  2S        0.820846     -0.0000004      0.0000011      0.0002009     -0.0000912      0.4440534\n",
  chars! "  2S        0.418647      0.0000011     -0.0000026     -0.0001583      0.0003483      0.4434227\n",
  chars! "  1S        0.197622     -0.0000007      0.0000017      0.0000853     -0.0002145      0.2392182\n",
  chars! "        P                    2P             3P             4P \n",
  chars! "  BASIS/ORB.ENERGY     -118.5245020    -20.3691259     -2.3055170\n",
  chars! "              CUSP        0.9996424      1.0003811      1.0006675\n",
  chars! "  2P       72.763428     -0.0124528      0.0073801     -0.0036557\n",
  chars! "  3P       61.391085     -0.0204308      0.0123087     -0.0061225\n",
  chars! "  2P       40.145578      0.2473892     -0.1233963      0.0568696\n",
  chars! "  3P       31.547867      0.3070254     -0.1344744      0.0571029\n",
  chars! "  3P       22.930719      0.3701758     -0.2646510      0.1409789\n",
  chars! "  2P       15.129838      0.1849301     -0.0264869     -0.0775629\n",
  chars! "  3P       10.566692     -0.0026556      0.7648512     -0.2963976\n",
  chars! "  3P        8.033038      0.0016899      0.3562503     -0.6571356\n",
  chars! "  3P        2.981817      0.0006865     -0.0135288     -0.6477896\n",
  chars! "  2P        2.638560     -0.0010108      0.0221899      1.9985808\n",
  chars! "  2P        1.257041     -0.0000196      0.0001089      0.0127375\n",
  chars! "  2P        0.197622      0.0000011     -0.0000075      0.0001049\n",
  chars! "        D                    3D             4D \n",
  chars! "  BASIS/ORB.ENERGY      -13.3568314     -0.3110457\n",
  chars! "              CUSP        0.9993617      1.0008100\n",
  chars! "  3D       48.846187      0.0009253     -0.0003752\n",
  chars! "  4D       37.689441      0.0044159     -0.0018337\n",
  chars! "  3D       21.043128     -0.0093387      0.0091133\n",
  chars! "  3D       16.505499      0.1851618     -0.0712230\n",
  chars! "  3D       10.228470      0.6490813     -0.2284375\n",
  chars! "  4D        8.492879      0.1735437     -0.1878176\n",
  chars! "  3D        5.949300      0.0697387      0.1557415\n",
  chars! "  3D        3.510037      0.0024666      0.4735653\n",
  chars! "  3D        2.202995      0.0003901      0.4293688\n",
  chars! "  3D        1.383750      0.0003290      0.1971706\n",
  chars! "  3D        0.834115      0.0000017      0.0159927\n",
  chars! "  3D        0.197622      0.0000012      0.0000088\n",
  chars! "\n"]⟩

theorem anion_pd_ok : anion_pd.ok = true := by decide +kernel

/-- `data/anion/in`. -/
noncomputable def anion_in : DataFile := ⟨49, .anion, [
  chars! "      INDIUM-   K(2)L(8)M(18)4S(2)4P(6)5S(2)4D(10)5P(2), 3P                           \n",
  chars! "   E = -5740.175135526\n",
  chars! "   T =  5740.175132802     V =-11480.350268328     V/T =    -2.000000000\n",
  chars! "  ORBITAL ENERGIES AND EXPANSION COEFFICIENTS\n",
  chars! "        S                    1S             2S             3S             4S             5S \n",
  chars! "  BASIS/ORB.ENERGY     -997.6146905   -149.2096277    -29.4387755     -4.7904249     -0.1971823\n",
  chars! "              CUSP        1.0001959      1.0000677      1.0002493      1.0003473      1.0008463\n",
  chars! "  1S       93.002524     -0.0136331     -0.0137526     -0.0070897      0.0033862     -0.0009792\n",
  chars! "  3S       66.567623      0.0201676      0.0186650      0.0099868     -0.0048606      0.0014548\n",
  chars! "  1S       51.788992      0.9432129      0.3270770      0.1457824     -0.0632856      0.0165804\n",
  chars! "  3S       33.585927     -0.1274000     -0.2783703     -0.1021796      0.0335642     -0.0058906\n",
  chars! "  3S       24.979585     -0.0768179     -0.5293806     -0.3449057      0.1803808     -0.0522405\n",
  chars! "  2S       24.848421      0.2443424     -0.0425397      0.0281979      0.0075567     -0.0085042\n",
  chars! "  2S       15.425961      0.0091827     -0.2375412     -0.3404917      0.0695759      0.0041360\n",
  chars! "  3S       11.634093     -0.0027588      0.0431033      0.9149678     -0.1568576      0.0020087\n",
  chars! "  3S        9.743264      0.0018663     -0.0351150      0.2893303     -0.9937052      0.3736605\n",
  chars! "  3S        4.673739      0.0010504     -0.0268889     -0.1928670      0.3577930      0.0539584\n",
  chars! "  2S        3.845632     -0.0015629      0.0391641      0.2975982      0.9446220     -0.3724439\n",
  chars! "  2S        2.839156      0.0001430     -0.0031227     -0.0276010      0.1809834     -0.4171006\n",
  chars! "  2S        1.128559     -0.0000063      0.0000755      0.0011649     -0.0022642      0.8159567\n",
  chars! "  2S        0.694271      0.0000029     -0.0000278     -0.0005256      0.0012266      0.3900812\n",
  chars! "  1S        0.206907     -0.0000006      0.0000043      0.0000970     -0.0002209      0.0065491\n",
  chars! "        P                    2P             3P             4P             5P \n",
  chars! "  BASIS/ORB.ENERGY     -138.9862647    -25.1886875     -3.3215620     -0.0214053\n",
  chars! "              CUSP        1.0008776      1.0008911      0.9999838      0.9993002\n",
  chars! "  2P       60.694232      0.0152730      0.0281523     -0.0193177      0.0034570\n",
  chars! "  3P       53.463933      0.0184303      0.0329492     -0.0224288      0.0040055\n",
  chars! "  3P       35.070087      0.1062307      0.1554702     -0.1052887      0.0188183\n",
  chars! "  2P       24.998843     -0.9457889     -0.6259674      0.3178870     -0.0533416\n",
  chars! "  3P       20.280370     -0.2172463     -0.1034032     -0.0060455      0.0041435\n",
  chars! "  3P       11.448377     -0.0023621      0.7790752     -0.3014483      0.0465130\n",
  chars! "  3P        9.049896     -0.0013043      0.3166823     -0.6886549      0.1377247\n",
  chars! "  3P        4.240247     -0.0026943     -0.0937828      0.0725038      0.0425998\n",
  chars! "  2P        3.537174      0.0037452      0.1438543      1.1050416     -0.2226286\n",
  chars! "  2P        2.545946     -0.0000888     -0.0089575      0.2402464     -0.1571558\n",
  chars! "  3P        1.284620     -0.0000184      0.0003006      0.0017357      0.1844677\n",
  chars! "  2P        0.622346      0.0000175     -0.0001943     -0.0000395      0.5613938\n",
  chars! "  2P        0.345918     -0.0000093      0.0000845      0.0000661      0.3513951\n",
  chars! "  2P        0.206907      0.0000031     -0.0000263     -0.0000098      0.0282851\n",
  chars! "        D                    3D             4D \n",
  chars! "  BASIS/ORB.ENERGY      -17.4039443     -0.8771545\n",
  chars! "              CUSP        0.9996336      1.0007898\n",
  chars! "  3D       53.933298      0.0007767     -0.0003690\n",
  chars! "  4D       41.326188      0.0039130     -0.0019110\n",
  chars! "  3D       20.719616     -0.0926586      0.0680920\n",
  chars! "  3D       19.105212      0.2426822     -0.1347461\n",
  chars! "  3D       11.620626      0.5017912     -0.1106508\n",
  chars! "  3D        8.696235      0.3388667     -0.3419774\n",
  chars! "  3D        6.701076      0.0614034      0.1446935\n",
  chars! "  3D        4.157477      0.0022610      0.4883661\n",
  chars! "  3D        2.726803     -0.0002587      0.4795704\n",
  chars! "  3D        1.795842      0.0000707      0.1361193\n",
  chars! "  3D        0.878993     -0.0000133      0.0027374\n",
  chars! "  3D        0.206907      0.0000009      0.0000421\n",
  chars! "\n"]⟩

theorem anion_in_ok : anion_in.ok = true := by decide +kernel

/-- Part 10 of the files. -/
noncomputable def part10 : List DataFile := [
  anion_se, anion_br, anion_rb, anion_y, anion_zr, anion_nb, anion_mo, anion_tc, anion_ru, anion_rh, anion_pd, anion_in]

theorem part10_ok : ∀ d ∈ part10, d.ok = true := by
  intro d hd
  unfold part10 at hd
  simp only [List.mem_cons, List.not_mem_nil, or_false] at hd
  rcases hd with rfl | rfl | rfl | rfl | rfl | rfl | rfl | rfl | rfl | rfl | rfl | rfl
  · exact anion_se_ok
  · exact anion_br_ok
  · exact anion_rb_ok
  · exact anion_y_ok
  · exact anion_zr_ok
  · exact anion_nb_ok
  · exact anion_mo_ok
  · exact anion_tc_ok
  · exact anion_ru_ok
  · exact anion_rh_ok
  · exact anion_pd_ok
  · exact anion_in_ok

end BFit.Data
